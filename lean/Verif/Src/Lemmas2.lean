import Verif.Src.Lemmas

/-! Helper lemmas: the complete derivative lists of point sources and galaxies. -/

namespace Verif.Src

open Verif Verif.Params

set_option linter.unusedSectionVars false

variable {R M K : Type} [Field R] [LinearOrder R] [AddCommGroup M] [Module R M]

theorem aligned_none (n : Nat) (rule : Nat → M) (h : ∀ k, k < n → rule k = 0) :
    Aligned n rule (List.replicate n none) := by
  refine ⟨List.length_replicate, fun k d hd => ?_⟩
  have h1 : k < n := by
    have := (List.getElem?_eq_some_iff.1 hd).1
    simpa using this
  rw [(List.mem_replicate.1 (List.mem_of_getElem? hd)).2, h k h1]
  rfl

theorem aligned_congr {n : Nat} {rule rule' : Nat → M} {ds : List (Option M)} (h : Aligned n rule ds)
    (he : ∀ k, k < n → rule k = rule' k) : Aligned n rule' ds := by
  refine ⟨h.1, fun k d hd => ?_⟩
  rw [h.2 k d hd]
  apply he
  rw [← h.1]
  exact (List.getElem?_eq_some_iff.1 hd).1

/-! ### Galaxy -/

theorem galaxyPos_ok (I : Image R) (W : GalaxyWorld R M K) (counts : R) (patch0 : M) (pos : PList R)
    (hpos : pos.slots.length ≤ 2) :
    ∃ L, galaxyPosPart I W counts patch0 pos = .ok L ∧ L.length = numberOfParams (.plist pos) ∧
      ∀ (k : Nat) (d : Option M), L[k]? = some d →
        ChainRule (I.cdi pos) pos counts (W.grad patch0).1 (W.grad patch0).2 k (d.getD 0) := by
  simp only [galaxyPosPart]
  by_cases hc : counts = 0
  · rw [if_pos hc]
    refine ⟨_, rfl, by rw [List.length_replicate, getParams_length], fun k d hd => ?_⟩
    rw [(List.mem_replicate.1 (List.mem_of_getElem? hd)).2, hc]
    intro j s _ _ _
    simp
  · rw [if_neg hc]
    exact pixelDerivs_ok _ pos hpos counts _ _

/-- The parts of the derivative list of a galaxy. -/
theorem galaxy_parts (I : Image R) (W : GalaxyWorld R M K) (hr : MaskRenders W) (hs : MaskStable W)
    (mask : Option K) (s : Galaxy R) (hpos : s.pos.slots.length ≤ 2)
    (hb : s.brightLiquid = true → GoodSteps s.bright) (hg : s.shapeLiquid = true → GoodSteps s.shape)
    (patch0 : M) (hp : W.unit s.pos s.shape (minvalOf I.minsb (I.counts s.bright)) mask = some patch0) :
    ∃ P B G, galaxyDerivs I W mask s = (s, .ok (P ++ B ++ G)) ∧
      W.forced s.pos s.shape (minvalOf I.minsb (I.counts s.bright)) (mask.getD (W.extentMask patch0)) =
        some patch0 ∧
      P.length = posCount s.posLiquid s.pos ∧
      (∀ (k : Nat) (d : Option M), P[k]? = some d →
        ChainRule (I.cdi s.pos) s.pos (I.counts s.bright) (W.grad patch0).1 (W.grad patch0).2 k (d.getD 0)) ∧
      (s.brightLiquid = false → B = []) ∧
      (s.brightLiquid = true → Aligned (numberOfParams s.bright)
        (quotient (fun b => I.counts b • patch0) s.bright) B) ∧
      (s.shapeLiquid = false → G = []) ∧
      (s.shapeLiquid = true → Aligned (numberOfParams s.shape)
        (quotient (fun g => I.counts s.bright • (W.forced s.pos g (minvalOf I.minsb (I.counts s.bright))
          (mask.getD (W.extentMask patch0))).getD 0) s.shape) G) := by
  have hm : W.forced s.pos s.shape (minvalOf I.minsb (I.counts s.bright))
      (mask.getD (W.extentMask patch0)) = some patch0 := by
    exact hs _ _ _ _ _ hp
  have hP : ∃ P, (if s.posLiquid && decide (numberOfParams (.plist s.pos) > 0)
      then galaxyPosPart I W (I.counts s.bright) patch0 s.pos else .ok []) = .ok P ∧
      P.length = posCount s.posLiquid s.pos ∧ ∀ (k : Nat) (d : Option M), P[k]? = some d →
        ChainRule (I.cdi s.pos) s.pos (I.counts s.bright) (W.grad patch0).1 (W.grad patch0).2 k (d.getD 0) := by
    by_cases hl : s.posLiquid = true
    · by_cases hn : numberOfParams (.plist s.pos) > 0
      · obtain ⟨L, h1, h2, h3⟩ := galaxyPos_ok I W (I.counts s.bright) patch0 s.pos hpos
        exact ⟨L, by simp [hl, hn, h1], by simp [posCount, hl, h2], h3⟩
      · exact ⟨[], by simp [hn], by simp [posCount]; omega, by simp⟩
    · exact ⟨[], by simp [hl], by simp [posCount, hl], by simp⟩
  have hB : ∃ B, (if s.brightLiquid then stepBright I.counts (I.counts s.bright) patch0 s.bright
      else (s.bright, .ok [])) = (s.bright, .ok B) ∧ (s.brightLiquid = false → B = []) ∧
      (s.brightLiquid = true → Aligned (numberOfParams s.bright)
        (quotient (fun b => I.counts b • patch0) s.bright) B) := by
    by_cases hl : s.brightLiquid = true
    · obtain ⟨L, h1, h2⟩ := stepBright_aligned I.counts patch0 s.bright (hb hl)
      exact ⟨L, by rw [if_pos hl, h1], by simp [hl], fun _ => h2⟩
    · exact ⟨[], by rw [if_neg hl], fun _ => rfl, fun h => absurd h hl⟩
  have hG : ∃ G, (if s.shapeLiquid then stepShape W (I.counts s.bright)
        (minvalOf I.minsb (I.counts s.bright)) (mask.getD (W.extentMask patch0)) patch0 s.pos s.shape
      else (s.shape, .ok [])) = (s.shape, .ok G) ∧ (s.shapeLiquid = false → G = []) ∧
      (s.shapeLiquid = true → Aligned (numberOfParams s.shape)
        (quotient (fun g => I.counts s.bright • (W.forced s.pos g (minvalOf I.minsb (I.counts s.bright))
          (mask.getD (W.extentMask patch0))).getD 0) s.shape) G) := by
    by_cases hl : s.shapeLiquid = true
    · obtain ⟨L, h1, h2⟩ := stepShape_aligned W hr (I.counts s.bright)
        (minvalOf I.minsb (I.counts s.bright)) (mask.getD (W.extentMask patch0)) patch0 s.pos s.shape (hg hl) hm
      exact ⟨L, by rw [if_pos hl, h1], by simp [hl], fun _ => h2⟩
    · exact ⟨[], by rw [if_neg hl], fun _ => rfl, fun h => absurd h hl⟩
  obtain ⟨P, hP1, hP2, hP3⟩ := hP
  obtain ⟨B, hB1, hB2, hB3⟩ := hB
  obtain ⟨G, hG1, hG2, hG3⟩ := hG
  refine ⟨P, B, G, ?_, hm, hP2, hP3, hB2, hB3, hG2, hG3⟩
  simp only [galaxyDerivs, hp, hP1, hB1, hG1]

theorem posCount_eq (l : Bool) (pos : PList R) (nm : List String) (rest : Subs R) :
    numberOfParamsSubs (.cons nm l (.plist pos) rest) = posCount l pos + numberOfParamsSubs rest := by
  cases l <;> simp [numberOfParamsSubs, posCount]

theorem quotient_after_pos (model : Subs R → M) (nm : List String) (l : Bool) (pos : PList R) (rest : Subs R)
    (hg : l = true → GoodSteps (.plist pos)) (k : Nat) :
    quotientSubs model (.cons nm l (.plist pos) rest) (posCount l pos + k) =
      quotientSubs (fun r => model (.cons nm l (.plist pos) r)) rest k := by
  cases l with
  | true =>
    rw [posCount, if_pos rfl, quotientSubs_ge _ _ _ _ (hg rfl)]
  | false => rw [quotientSubs_frozen]; simp [posCount]

theorem split_entries {P Q : List (Option M)} {n : Nat} {ruleP : Nat → M → Prop} {ruleQ : Nat → M}
    (hP : ∀ (k : Nat) (d : Option M), P[k]? = some d → ruleP k (d.getD 0)) (hQ : Aligned n ruleQ Q)
    (k : Nat) (d : Option M) (hd : (P ++ Q)[k]? = some d) :
    (k < P.length → ruleP k (d.getD 0)) ∧ (P.length ≤ k → d.getD 0 = ruleQ (k - P.length)) := by
  constructor
  · intro h
    rw [List.getElem?_append_left h] at hd
    exact hP k d hd
  · intro h
    rw [List.getElem?_append_right h] at hd
    exact hQ.2 _ d hd

theorem galaxy_ok (I : Image R) (W : GalaxyWorld R M K) (hr : MaskRenders W) (hs : MaskStable W)
    (mask : Option K) (s : Galaxy R) (hpos : s.pos.slots.length ≤ 2)
    (hps : s.posLiquid = true → GoodSteps (.plist s.pos))
    (hb : s.brightLiquid = true → GoodSteps s.bright) (hg : s.shapeLiquid = true → GoodSteps s.shape)
    (patch0 : M) (hp : W.unit s.pos s.shape (minvalOf I.minsb (I.counts s.bright)) mask = some patch0) :
    ∃ ds, galaxyDerivs I W mask s = (s, .ok ds) ∧ ds.length = numberOfParams s.tree ∧
      ∀ (k : Nat) (d : Option M), ds[k]? = some d →
        (k < posCount s.posLiquid s.pos → ChainRule (I.cdi s.pos) s.pos (I.counts s.bright)
          (W.grad patch0).1 (W.grad patch0).2 k (d.getD 0)) ∧
        (posCount s.posLiquid s.pos ≤ k → d.getD 0 = quotient (galaxyModel I W
          (minvalOf I.minsb (I.counts s.bright)) (mask.getD (W.extentMask patch0))) s.tree k) := by
  obtain ⟨P, B, G, h1, hm, hP1, hP2, hB1, hB2, hG1, hG2⟩ := galaxy_parts I W hr hs mask s hpos hb hg patch0 hp
  have hQ : Aligned (numberOfParamsSubs (.cons ["brightness"] s.brightLiquid s.bright
      (.cons ["shape"] s.shapeLiquid s.shape .nil)))
      (quotientSubs (fun r => galaxyModel I W (minvalOf I.minsb (I.counts s.bright))
        (mask.getD (W.extentMask patch0)) (.multi (.cons ["pos"] s.posLiquid (.plist s.pos) r)))
        (.cons ["brightness"] s.brightLiquid s.bright (.cons ["shape"] s.shapeLiquid s.shape .nil)))
      (B ++ (G ++ [])) := by
    apply aligned_cons
    · intro hl
      refine ⟨hb hl, ?_⟩
      refine aligned_congr (hB2 hl) (fun k _ => ?_)
      simp only [galaxyModel, hm, Option.getD_some]
    · exact hB1
    · apply aligned_cons
      · intro hl
        exact ⟨hg hl, hG2 hl⟩
      · exact hG1
      · exact aligned_nil _
  rw [List.append_nil] at hQ
  refine ⟨P ++ (B ++ G), by rw [← List.append_assoc]; exact h1, ?_, ?_⟩
  · rw [List.length_append, hP1, hQ.1, Galaxy.tree, numberOfParams, posCount_eq]
  · intro k d hd
    have := split_entries hP2 hQ k d hd
    rw [hP1] at this
    refine ⟨this.1, fun h => ?_⟩
    rw [this.2 h]
    have hk : k = posCount s.posLiquid s.pos + (k - posCount s.posLiquid s.pos) := by omega
    conv_rhs => rw [hk]
    rw [Galaxy.tree, quotient_multi, quotient_after_pos _ _ _ _ _ hps]

/-! ### PointSource -/

theorem allZero_ok (counts : Par R → R) (t : Par R) :
    ∀ (sts : List R) (i : Nat), i + sts.length ≤ numberOfParams t →
    ∃ b, allZero counts (counts t) sts (getParams t) i t = (t, .ok b) ∧
      (b = true → ∀ (j : Nat) (st v : R), sts[j]? = some st → (getParams t)[i + j]? = some v →
        counts (setParam t ((i + j : Nat) : Int) (v + st)).1 = counts t) := by
  intro sts
  induction sts with
  | nil => intro i _; exact ⟨true, rfl, by simp⟩
  | cons st sts ih =>
    intro i hi
    simp only [List.length_cons] at hi
    have hlen := getParams_length t
    have hv : (getParams t)[i]? = some ((getParams t)[i]'(by omega)) := List.getElem?_eq_getElem _
    generalize (getParams t)[i]'(by omega) = v at hv
    obtain ⟨old, hold, hok, -, hback⟩ := setParam_ok t i (v + st) (by omega)
    have e1 : setParam t (i : Int) (v + st) = ((setParam t (i : Int) (v + st)).1, .ok old) :=
      Prod.ext rfl hok
    obtain ⟨b, hb, hbs⟩ := ih (i + 1) (by omega)
    by_cases hc : counts (setParam t (i : Int) (v + st)).1 ≠ counts t
    · refine ⟨false, ?_, by simp⟩
      rw [allZero, hv]
      simp only []
      rw [e1]
      simp only []
      rw [hback]
      simp only [if_pos hc]
    · refine ⟨b, ?_, ?_⟩
      · rw [allZero, hv]
        simp only []
        rw [e1]
        simp only []
        rw [hback]
        simp only [if_neg hc, hb]
      · intro h j st' v' h1 h2
        cases j with
        | zero =>
          simp only [List.getElem?_cons_zero, Option.some.injEq, Nat.add_zero] at h1 h2 ⊢
          rw [hv] at h2
          cases h1; cases h2
          exact not_not.1 hc
        | succ j =>
          have := hbs h j st' v' (by simpa using h1) (by rw [← h2]; congr 1; omega)
          rw [← this]; congr 3; omega

theorem stepPos_ok (W : PointWorld R M K) (counts0 : R) (minval : Option R) (mask : Option K) (patch0 : M)
    (pos : PList R) (hg : GoodSteps (.plist pos)) (hp : W.unit pos minval mask = some patch0) :
    ∃ L, stepPos W counts0 minval mask patch0 pos = (pos, .ok L) ∧
      Aligned (numberOfParams (.plist pos))
        (quotient (fun p => counts0 • (W.unit (asList p pos) minval mask).getD 0) (.plist pos)) L := by
  obtain ⟨L, h1, h2⟩ := stepEach_aligned (posDeriv W counts0 minval mask patch0 pos) (.plist pos) (fun p => counts0 • (W.unit (asList p pos) minval mask).getD 0) hg (by
    intro st t' hst
    have hl : asList (.plist pos) pos = pos := rfl
    simp only [hl, hp, Option.getD_some, posDeriv]
    cases hu : W.unit (asList t' pos) minval mask with
    | none =>
      refine ⟨some ((-1 * counts0 / st) • patch0), by simp only [pyDiv_ok _ _ hst]; rfl, ?_⟩
      simp only [Option.getD_some, Option.getD_none]
      rw [smul_zero, zero_sub, ← neg_smul, smul_smul, div_eq_inv_mul, neg_one_mul]
    | some px =>
      refine ⟨some ((counts0 / st) • (px - patch0)), by simp only [pyDiv_ok _ _ hst]; rfl, ?_⟩
      simp only [Option.getD_some]
      rw [← smul_sub, smul_smul, div_eq_inv_mul])
  refine ⟨L, ?_, h2⟩
  simp only [stepPos]
  rw [h1]
  rfl

theorem pointPos_ok (I : Image R) (W : PointWorld R M K) (counts0 : R) (minval : Option R) (mask : Option K)
    (patch0 : M) (dd : Option (M × M)) (pos : PList R) (hpos : pos.slots.length ≤ 2)
    (hg : GoodSteps (.plist pos)) (hp : W.unit pos minval mask = some patch0) :
    ∃ P, pointPosPart I W counts0 minval mask patch0 dd pos = (pos, .ok P) ∧
      P.length = numberOfParams (.plist pos) ∧
      ∀ (k : Nat) (d : Option M), P[k]? = some d →
        (dd = none → d.getD 0 =
          quotient (fun p => counts0 • (W.unit (asList p pos) minval mask).getD 0) (.plist pos) k) ∧
        (∀ dx dy, dd = some (dx, dy) → ChainRule (I.cdi pos) pos counts0 dx dy k (d.getD 0)) := by
  cases dd with
  | some D =>
    obtain ⟨dx, dy⟩ := D
    obtain ⟨L, h1, h2, h3⟩ := pixelDerivs_ok (I.cdi pos) pos hpos counts0 dx dy
    refine ⟨L, by simp only [pointPosPart, h1], h2, fun k d hd => ⟨by simp, fun dx' dy' h => ?_⟩⟩
    cases h
    exact h3 k d hd
  | none =>
    by_cases hc : counts0 = 0
    · refine ⟨_, by simp only [pointPosPart]; rw [if_pos hc], List.length_replicate, fun k d hd => ⟨fun _ => ?_, by simp⟩⟩
      rw [(List.mem_replicate.1 (List.mem_of_getElem? hd)).2, hc, quotient]
      split <;> simp
    · obtain ⟨L, h1, h2⟩ := stepPos_ok W counts0 minval mask patch0 pos hg hp
      refine ⟨L, by simp only [pointPosPart]; rw [if_neg hc, h1], h2.1, fun k d hd => ⟨fun _ => h2.2 k d hd, by simp⟩⟩

theorem quotient_asList (model : PList R → M) (pos : PList R) (k : Nat) (f : Par R → M)
    (hf : ∀ l, f (.plist l) = model l) :
    quotient (fun p => model (asList p pos)) (.plist pos) k = quotient f (.plist pos) k := by
  simp only [quotient]
  cases (getParams (.plist pos))[k]? with
  | none => rfl
  | some v =>
    cases (getStepSizes (.plist pos))[k]? with
    | none => rfl
    | some h =>
      simp only []
      have : ∃ l, (setParam (.plist pos) (k : Int) (v + h)).1 = .plist l := by
        simp only [setParam]
        split
        · exact ⟨_, rfl⟩
        · split <;> exact ⟨_, rfl⟩
      obtain ⟨l, hl⟩ := this
      rw [hl, hf, hf]
      rfl

/-- The point source from the rendered patch on. -/
theorem pointFrom_ok (I : Image R) (W : PointWorld R M K) (mask : Option K) (s : PointSource R)
    (hpos : s.pos.slots.length ≤ 2) (hps : s.posLiquid = true → GoodSteps (.plist s.pos))
    (hb : s.brightLiquid = true → GoodSteps s.bright) (p : Option (M × Option (M × M)))
    (hp : ∀ patch0 dd, p = some (patch0, dd) →
      W.unit s.pos (minvalOf I.minsb (I.counts s.bright)) mask = some patch0) :
    ∃ ds, pointFrom I W (I.counts s.bright) mask s
        (!s.posLiquid || decide (numberOfParams (.plist s.pos) = 0)) p = (s, .ok ds) ∧
      ds.length = numberOfParams s.tree ∧
      ∀ patch0 dd, p = some (patch0, dd) → W.overlaps patch0 = true →
        ∀ (k : Nat) (d : Option M), ds[k]? = some d →
          ((posCount s.posLiquid s.pos ≤ k ∨ dd = none) → d.getD 0 =
            quotient (pointModel I W (minvalOf I.minsb (I.counts s.bright)) mask) s.tree k) ∧
          (k < posCount s.posLiquid s.pos → ∀ dx dy, dd = some (dx, dy) →
            ChainRule (I.cdi s.pos) s.pos (I.counts s.bright) dx dy k (d.getD 0)) := by
  cases p with
  | none => exact ⟨_, rfl, List.length_replicate, by simp⟩
  | some pd =>
    obtain ⟨patch0, dd⟩ := pd
    have hu := hp patch0 dd rfl
    by_cases ho : W.overlaps patch0 = true
    swap
    · refine ⟨List.replicate (numberOfParams s.tree) none, ?_, List.length_replicate, ?_⟩
      · simp only [pointFrom]; rw [if_pos ho]
      · intro p0 dd' h ho'
        cases h
        exact absurd ho' ho
    have hP : ∃ P, (if (!s.posLiquid || decide (numberOfParams (.plist s.pos) = 0)) = true then (s.pos, .ok [])
        else pointPosPart I W (I.counts s.bright) (minvalOf I.minsb (I.counts s.bright)) mask patch0 dd s.pos) =
          (s.pos, .ok P) ∧ P.length = posCount s.posLiquid s.pos ∧
        ∀ (k : Nat) (d : Option M), P[k]? = some d →
          (dd = none → d.getD 0 = quotient (fun p => I.counts s.bright • (W.unit (asList p s.pos)
            (minvalOf I.minsb (I.counts s.bright)) mask).getD 0) (.plist s.pos) k) ∧
          (∀ dx dy, dd = some (dx, dy) → ChainRule (I.cdi s.pos) s.pos (I.counts s.bright) dx dy k (d.getD 0)) := by
      by_cases hl : s.posLiquid = true
      · by_cases hn : numberOfParams (.plist s.pos) = 0
        · exact ⟨[], by rw [if_pos (by simp [hn])], by simp [posCount, hn], by simp⟩
        · obtain ⟨P, h1, h2, h3⟩ := pointPos_ok I W (I.counts s.bright) (minvalOf I.minsb (I.counts s.bright))
            mask patch0 dd s.pos hpos (hps hl) hu
          exact ⟨P, by rw [if_neg (by simp [hl, hn]), h1], by simp [posCount, hl, h2], h3⟩
      · exact ⟨[], by rw [if_pos (by simp [hl])], by simp [posCount, hl], by simp⟩
    have hB : ∃ B, (if s.brightLiquid then stepBright I.counts (I.counts s.bright) patch0 s.bright
        else (s.bright, .ok [])) = (s.bright, .ok B) ∧ (s.brightLiquid = false → B = []) ∧
        (s.brightLiquid = true → Aligned (numberOfParams s.bright)
          (quotient (fun b => I.counts b • patch0) s.bright) B) := by
      by_cases hl : s.brightLiquid = true
      · obtain ⟨L, h1, h2⟩ := stepBright_aligned I.counts patch0 s.bright (hb hl)
        exact ⟨L, by rw [if_pos hl, h1], by simp [hl], fun _ => h2⟩
      · exact ⟨[], by rw [if_neg hl], fun _ => rfl, fun h => absurd h hl⟩
    obtain ⟨P, hP1, hP2, hP3⟩ := hP
    obtain ⟨B, hB1, hB2, hB3⟩ := hB
    have hQ : Aligned (numberOfParamsSubs (.cons ["brightness"] s.brightLiquid s.bright .nil))
        (quotientSubs (fun r => pointModel I W (minvalOf I.minsb (I.counts s.bright)) mask
          (.multi (.cons ["pos"] s.posLiquid (.plist s.pos) r)))
          (.cons ["brightness"] s.brightLiquid s.bright .nil)) (B ++ []) := by
      apply aligned_cons
      · intro hl
        refine ⟨hb hl, aligned_congr (hB3 hl) (fun k _ => ?_)⟩
        simp only [pointModel, hu, Option.getD_some]
      · exact hB2
      · exact aligned_nil _
    rw [List.append_nil] at hQ
    refine ⟨P ++ B, ?_, ?_, ?_⟩
    · simp only [pointFrom]
      rw [if_neg (by simpa using ho), hP1]
      simp only []
      rw [hB1]
    · rw [List.length_append, hP2, hQ.1, PointSource.tree, numberOfParams, posCount_eq]
    · intro p0 dd' h _ k d hd
      cases h
      have := split_entries (ruleP := fun k m => (dd = none → m = quotient (fun p => I.counts s.bright •
        (W.unit (asList p s.pos) (minvalOf I.minsb (I.counts s.bright)) mask).getD 0) (.plist s.pos) k) ∧
        (∀ dx dy, dd = some (dx, dy) → ChainRule (I.cdi s.pos) s.pos (I.counts s.bright) dx dy k m))
        hP3 hQ k d hd
      rw [hP2] at this
      refine ⟨fun h => ?_, fun h => (this.1 h).2⟩
      by_cases hk : posCount s.posLiquid s.pos ≤ k
      · rw [this.2 hk]
        have hk' : k = posCount s.posLiquid s.pos + (k - posCount s.posLiquid s.pos) := by omega
        conv_rhs => rw [hk']
        rw [PointSource.tree, quotient_multi, quotient_after_pos _ _ _ _ _ hps]
      · have hk : k < posCount s.posLiquid s.pos := by omega
        rw [(this.1 hk).1 (by rcases h with h | h; omega; exact h)]
        have hl : s.posLiquid = true := by
          by_contra hl; simp [posCount, hl] at hk
        rw [PointSource.tree, quotient_multi, hl, quotientSubs_lt _ _ _ _ (hps hl) _ (by simpa [posCount, hl] using hk)]
        exact quotient_asList (fun l => I.counts s.bright •
          (W.unit l (minvalOf I.minsb (I.counts s.bright)) mask).getD 0) s.pos k _ (fun l => rfl)

theorem point_ok (I : Image R) (W : PointWorld R M K) (fast : Bool) (mask : Option K) (s : PointSource R)
    (hpos : s.pos.slots.length ≤ 2) (hps : s.posLiquid = true → GoodSteps (.plist s.pos))
    (hb : s.brightLiquid = true → GoodSteps s.bright)
    (hW : ∀ mv, (W.withDerivs s.pos mv mask).map (·.1) = W.unit s.pos mv mask) :
    ∃ ds, pointDerivs I W fast mask s = (s, .ok ds) ∧ ds.length = numberOfParams s.tree ∧
      ∀ patch0, W.unit s.pos (minvalOf I.minsb (I.counts s.bright)) mask = some patch0 →
        W.overlaps patch0 = true → ∀ (k : Nat) (d : Option M), ds[k]? = some d →
          ((posCount s.posLiquid s.pos ≤ k ∨ fast = false ∨
              W.withDerivs s.pos (minvalOf I.minsb (I.counts s.bright)) mask = some (patch0, none)) →
            d.getD 0 = quotient (pointModel I W (minvalOf I.minsb (I.counts s.bright)) mask) s.tree k) ∧
          (k < posCount s.posLiquid s.pos → fast = true → ∀ dx dy,
            W.withDerivs s.pos (minvalOf I.minsb (I.counts s.bright)) mask = some (patch0, some (dx, dy)) →
            ChainRule (I.cdi s.pos) s.pos (I.counts s.bright) dx dy k (d.getD 0)) := by
  have hpd : ∀ patch0 dd, (if !(!s.posLiquid || decide (numberOfParams (.plist s.pos) = 0)) && fast
      then W.withDerivs s.pos (minvalOf I.minsb (I.counts s.bright)) mask
      else (W.unit s.pos (minvalOf I.minsb (I.counts s.bright)) mask).map (fun p => (p, none))) =
        some (patch0, dd) → W.unit s.pos (minvalOf I.minsb (I.counts s.bright)) mask = some patch0 := by
    intro patch0 dd h
    split at h
    · rw [← hW, h]; rfl
    · cases hu : W.unit s.pos (minvalOf I.minsb (I.counts s.bright)) mask with
      | none => rw [hu] at h; simp at h
      | some p => rw [hu] at h; simp at h; rw [h.1]
  obtain ⟨ds, h1, h2, h3⟩ := pointFrom_ok I W mask s hpos hps hb _ hpd
  have main : ∃ ds, pointFrom I W (I.counts s.bright) mask s
        (!s.posLiquid || decide (numberOfParams (.plist s.pos) = 0))
        (if !(!s.posLiquid || decide (numberOfParams (.plist s.pos) = 0)) && fast
      then W.withDerivs s.pos (minvalOf I.minsb (I.counts s.bright)) mask
      else (W.unit s.pos (minvalOf I.minsb (I.counts s.bright)) mask).map (fun p => (p, none))) = (s, .ok ds) ∧
      ds.length = numberOfParams s.tree ∧
      ∀ patch0, W.unit s.pos (minvalOf I.minsb (I.counts s.bright)) mask = some patch0 →
        W.overlaps patch0 = true → ∀ (k : Nat) (d : Option M), ds[k]? = some d →
          ((posCount s.posLiquid s.pos ≤ k ∨ fast = false ∨
              W.withDerivs s.pos (minvalOf I.minsb (I.counts s.bright)) mask = some (patch0, none)) →
            d.getD 0 = quotient (pointModel I W (minvalOf I.minsb (I.counts s.bright)) mask) s.tree k) ∧
          (k < posCount s.posLiquid s.pos → fast = true → ∀ dx dy,
            W.withDerivs s.pos (minvalOf I.minsb (I.counts s.bright)) mask = some (patch0, some (dx, dy)) →
            ChainRule (I.cdi s.pos) s.pos (I.counts s.bright) dx dy k (d.getD 0)) := by
    refine ⟨ds, h1, h2, fun patch0 hu ho k d hd => ?_⟩
    by_cases hf : (!(!s.posLiquid || decide (numberOfParams (.plist s.pos) = 0)) && fast) = true
    · simp only [hf, if_true] at h3
      have hw := hW (minvalOf I.minsb (I.counts s.bright))
      rw [hu] at hw
      obtain ⟨⟨p1, dd⟩, hq, hq'⟩ := Option.map_eq_some_iff.1 hw
      cases hq'
      have := h3 _ dd hq ho k d hd
      refine ⟨fun h => this.1 ?_, fun hk _ dx dy h => this.2 hk dx dy ?_⟩
      · rcases h with h | h | h
        · exact Or.inl h
        · simp [h] at hf
        · rw [hq] at h; simp at h; exact Or.inr h
      · rw [hq] at h; simp at h; exact h
    · rw [if_neg hf, hu] at h3
      have := h3 patch0 none rfl ho k d hd
      refine ⟨fun _ => this.1 (Or.inr rfl), fun hk hf' => ?_⟩
      exfalso
      apply hf
      have hl : s.posLiquid = true := by
        by_contra hl; simp [posCount, hl] at hk
      simp only [posCount, hl, if_true] at hk
      simp [hl, hf']; omega
  simp only [pointDerivs]
  by_cases hz : ((!s.posLiquid || decide (numberOfParams (.plist s.pos) = 0)) && s.brightLiquid) = true
  · rw [if_pos hz]
    simp only [Bool.and_eq_true] at hz
    have hg := hb hz.2
    obtain ⟨b, hb1, hb2⟩ := allZero_ok I.counts s.bright (getStepSizes s.bright) 0 (by rw [hg.1]; omega)
    rw [hb1]
    cases b with
    | false => exact main
    | true =>
      refine ⟨_, rfl, List.length_replicate, fun patch0 hu ho k d hd => ?_⟩
      have hpc : posCount s.posLiquid s.pos = 0 := by
        have := hz.1
        simp only [posCount]
        by_cases hl : s.posLiquid = true
        · simpa [hl] using this
        · simp [hl]
      refine ⟨fun _ => ?_, fun h => by omega⟩
      rw [(List.mem_replicate.1 (List.mem_of_getElem? hd)).2]
      have hlt : k < numberOfParams s.tree := by
        have := (List.getElem?_eq_some_iff.1 hd).1
        simpa using this
      rw [PointSource.tree, numberOfParams, posCount_eq, hpc, hz.2] at hlt
      simp only [numberOfParamsSubs, if_true] at hlt
      have hk' : k = posCount s.posLiquid s.pos + k := by omega
      rw [hk', PointSource.tree, quotient_multi, quotient_after_pos _ _ _ _ _ hps, hz.2,
        quotientSubs_lt _ _ _ _ hg _ (by omega), quotient]
      have h1 := List.getElem?_eq_getElem (l := getParams s.bright) (i := k) (by rw [getParams_length]; omega)
      have h2 := List.getElem?_eq_getElem (l := getStepSizes s.bright) (i := k) (by rw [hg.1]; omega)
      have := hb2 rfl k _ _ h2 (by rw [Nat.zero_add]; exact h1)
      rw [Nat.zero_add] at this
      rw [h1, h2]
      simp only [pointModel, this]
      simp
  · rw [if_neg hz]
    exact main

end Verif.Src
