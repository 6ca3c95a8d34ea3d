import Verif.Src.Lemmas2
import Mathlib.Tactic.Abel

/-! Helper lemmas: the complete derivative lists of composite galaxies. -/

namespace Verif.Src

open Verif Verif.Params

set_option linter.unusedSectionVars false

variable {R M K : Type} [Field R] [LinearOrder R] [AddCommGroup M] [Module R M]

theorem quotient_add_const (f : Par R → M) (c : M) (t : Par R) (k : Nat) :
    quotient (fun a => f a + c) t k = quotient f t k := by
  simp only [quotient]
  split
  · rw [add_sub_add_right_eq_sub]
  · rfl

theorem quotient_const_add (f : Par R → M) (c : M) (t : Par R) (k : Nat) :
    quotient (fun a => c + f a) t k = quotient f t k := by
  simp only [quotient]
  split
  · rw [add_sub_add_left_eq_sub]
  · rfl

theorem quotient_add (f g : Par R → M) (t : Par R) (k : Nat) :
    quotient (fun a => f a + g a) t k = quotient f t k + quotient g t k := by
  simp only [quotient]
  split
  · rw [← smul_add, add_sub_add_comm]
  · simp

theorem quotient_smul (f : Par R → M) (c : R) (t : Par R) (k : Nat) :
    quotient (fun a => c • f a) t k = c • quotient f t k := by
  simp only [quotient]
  split
  · rw [← smul_sub, smul_comm]
  · simp

theorem quotient_congr (f g : Par R → M) (t : Par R) (k : Nat) (h : ∀ a, f a = g a) :
    quotient f t k = quotient g t k := by
  rw [funext h]

theorem addPatches_getD (a b : Option M) : (addPatches a b).getD 0 = a.getD 0 + b.getD 0 := by
  cases a <;> cases b <;> simp [addPatches]

theorem addRange_ok (a b : List (Option M)) (i0 n : Nat) (ha : i0 + n ≤ a.length) (hb : i0 + n ≤ b.length) :
    ∃ L, addRange a b i0 n = .ok L ∧ L.length = n ∧
      ∀ (k : Nat) (d : Option M), L[k]? = some d → ∃ x y, a[i0 + k]? = some x ∧ b[i0 + k]? = some y ∧
        d = addPatches x y := by
  have h : ∀ i ∈ List.range n, ∃ d, (fun i =>
      match a[i0 + i]?, b[i0 + i]? with
      | some x, some y => Except.ok (addPatches x y)
      | _, _ => Except.error PyErr.index) i = .ok d := by
    intro i hi
    have hi := List.mem_range.1 hi
    simp only []
    rw [List.getElem?_eq_getElem (l := a) (by omega), List.getElem?_eq_getElem (l := b) (by omega)]
    exact ⟨_, rfl⟩
  obtain ⟨L, h1, h2, h3⟩ := mapM_ok _ _ h
  refine ⟨L, h1, by simpa using h2, fun k d hd => ?_⟩
  obtain ⟨i, hi, he⟩ := h3 k d hd
  have hk : k < n := by
    have := (List.getElem?_eq_some_iff.1 hd).1
    simpa [h2] using this
  rw [List.getElem?_range hk] at hi
  cases hi
  rw [List.getElem?_eq_getElem (l := a) (by omega), List.getElem?_eq_getElem (l := b) (by omega)] at he ⊢
  simp only [Except.ok.injEq] at he
  exact ⟨_, _, rfl, rfl, he.symm⟩

/-- The parts of the derivative list of a galaxy, rendered or not. -/
theorem galaxy_all (I : Image R) (W : GalaxyWorld R M K) (hr : MaskRenders W) (hs : MaskStable W)
    (mask : Option K) (s : Galaxy R) (hpos : s.pos.slots.length ≤ 2)
    (hb : s.brightLiquid = true → GoodSteps s.bright) (hg : s.shapeLiquid = true → GoodSteps s.shape) :
    ∃ P B G, galaxyDerivs I W mask s = (s, .ok (P ++ B ++ G)) ∧
      P.length = posCount s.posLiquid s.pos ∧
      B.length = (if s.brightLiquid then numberOfParams s.bright else 0) ∧
      G.length = (if s.shapeLiquid then numberOfParams s.shape else 0) ∧
      ∀ patch0, W.unit s.pos s.shape (minvalOf I.minsb (I.counts s.bright)) mask = some patch0 →
        W.forced s.pos s.shape (minvalOf I.minsb (I.counts s.bright))
          (mask.getD (W.extentMask patch0)) = some patch0 ∧
        (∀ (k : Nat) (d : Option M), P[k]? = some d →
          ChainRule (I.cdi s.pos) s.pos (I.counts s.bright) (W.grad patch0).1 (W.grad patch0).2 k (d.getD 0)) ∧
        (s.brightLiquid = true → Aligned (numberOfParams s.bright)
          (quotient (fun b => I.counts b • patch0) s.bright) B) ∧
        (s.shapeLiquid = true → Aligned (numberOfParams s.shape)
          (quotient (fun g => I.counts s.bright • (W.forced s.pos g (minvalOf I.minsb (I.counts s.bright))
            (mask.getD (W.extentMask patch0))).getD 0) s.shape) G) := by
  cases hp : W.unit s.pos s.shape (minvalOf I.minsb (I.counts s.bright)) mask with
  | none =>
    refine ⟨List.replicate (posCount s.posLiquid s.pos) none,
      List.replicate (if s.brightLiquid then numberOfParams s.bright else 0) none,
      List.replicate (if s.shapeLiquid then numberOfParams s.shape else 0) none, ?_, by simp, by simp, by simp,
      by simp⟩
    simp only [galaxyDerivs, hp, List.replicate_append_replicate]
    rw [Galaxy.tree, numberOfParams, posCount_eq]
    cases s.brightLiquid <;> cases s.shapeLiquid <;> simp [numberOfParamsSubs, Nat.add_assoc]
  | some p0 =>
    obtain ⟨P, B, G, h1, hm, hP1, hP2, hB1, hB2, hG1, hG2⟩ := galaxy_parts I W hr hs mask s hpos hb hg p0 hp
    refine ⟨P, B, G, h1, hP1, ?_, ?_, ?_⟩
    · by_cases hl : s.brightLiquid = true
      · rw [if_pos hl]; exact (hB2 hl).1
      · rw [if_neg hl, hB1 (by simpa using hl)]; rfl
    · by_cases hl : s.shapeLiquid = true
      · rw [if_pos hl]; exact (hG2 hl).1
      · rw [if_neg hl, hG1 (by simpa using hl)]; rfl
    · intro patch0 h
      cases h
      exact ⟨hm, hP2, hB2, hG2⟩

theorem nil_of_len {B : List (Option M)} {l : Bool} {n : Nat} (h : B.length = if l then n else 0) :
    l = false → B = [] := by
  intro hl
  rw [hl] at h
  exact List.length_eq_zero_iff.1 (by simpa using h)

/-! ### CompositeGalaxy -/

theorem composite_ok (I : Image R) (We Wd : GalaxyWorld R M K) (hre : MaskRenders We) (hse : MaskStable We)
    (hrd : MaskRenders Wd) (hsd : MaskStable Wd) (mask : Option K) (s : Composite R)
    (hpos : s.pos.slots.length ≤ 2) (hps : s.posLiquid = true → GoodSteps (.plist s.pos))
    (hbe : s.brightExpLiquid = true → GoodSteps s.brightExp) (hge : s.expLiquid = true → GoodSteps s.shapeExp)
    (hbd : s.brightDevLiquid = true → GoodSteps s.brightDev) (hgd : s.devLiquid = true → GoodSteps s.shapeDev) :
    ∃ ds, compositeDerivs I We Wd mask s = (s, .ok ds) ∧ ds.length = numberOfParams s.tree ∧
      ∀ pe pd, We.unit s.pos s.shapeExp (minvalOf I.minsb (I.counts s.brightExp)) mask = some pe →
        Wd.unit s.pos s.shapeDev (minvalOf I.minsb (I.counts s.brightDev)) mask = some pd →
        ∀ (k : Nat) (d : Option M), ds[k]? = some d →
          (k < posCount s.posLiquid s.pos → ∃ a b, d.getD 0 = a + b ∧
            ChainRule (I.cdi s.pos) s.pos (I.counts s.brightExp) (We.grad pe).1 (We.grad pe).2 k a ∧
            ChainRule (I.cdi s.pos) s.pos (I.counts s.brightDev) (Wd.grad pd).1 (Wd.grad pd).2 k b) ∧
          (posCount s.posLiquid s.pos ≤ k → d.getD 0 =
            quotient (compositeModel I We Wd (minvalOf I.minsb (I.counts s.brightExp))
              (minvalOf I.minsb (I.counts s.brightDev)) (mask.getD (We.extentMask pe))
              (mask.getD (Wd.extentMask pd))) s.tree k) := by
  obtain ⟨Pe, Be, Ge, he, hPe, hBe, hGe, hve⟩ := galaxy_all I We hre hse mask
    ⟨s.posLiquid, s.pos, s.brightExpLiquid, s.brightExp, s.expLiquid, s.shapeExp⟩ hpos hbe hge
  obtain ⟨Pd, Bd, Gd, hd, hPd, hBd, hGd, hvd⟩ := galaxy_all I Wd hrd hsd mask
    ⟨s.posLiquid, s.pos, s.brightDevLiquid, s.brightDev, s.devLiquid, s.shapeDev⟩ hpos hbd hgd
  simp only [] at hPe hBe hGe hPd hBd hGd hve hvd
  have hP : ∃ P, compositeDerivs I We Wd mask s = (s, .ok (P ++ (Be ++ (Ge ++ (Bd ++ (Gd ++ [])))))) ∧
      P.length = posCount s.posLiquid s.pos ∧
      ∀ (k : Nat) (d : Option M), P[k]? = some d → ∃ x y, Pe[k]? = some x ∧ Pd[k]? = some y ∧
        d = addPatches x y := by
    simp only [compositeDerivs]
    rw [he]
    simp only []
    rw [hd]
    simp only []
    by_cases hl : s.posLiquid = true
    · rw [if_pos hl]
      have hn : (getStepSizes (.plist s.pos)).length = posCount s.posLiquid s.pos := by
        rw [(hps hl).1, posCount, if_pos hl]
      obtain ⟨L, h1, h2, h3⟩ := addRange_ok (Pe ++ Be ++ Ge) (Pd ++ Bd ++ Gd) 0 (posCount s.posLiquid s.pos)
        (by simp only [List.length_append]; omega) (by simp only [List.length_append]; omega)
      refine ⟨L, ?_, h2, fun k d hk => ?_⟩
      · rw [hn, h1]
        simp only [Except.map, List.append_assoc, List.append_nil]
        rw [List.drop_left' hPe, List.drop_left' hPd]
        simp only [List.append_assoc]
      · obtain ⟨x, y, hx, hy, hd⟩ := h3 k d hk
        have hk : k < posCount s.posLiquid s.pos := by
          rw [← h2]; exact (List.getElem?_eq_some_iff.1 hk).1
        rw [Nat.zero_add, List.append_assoc, List.getElem?_append_left (by omega)] at hx hy
        exact ⟨x, y, hx, hy, hd⟩
    · rw [if_neg hl]
      have h0 : posCount s.posLiquid s.pos = 0 := by simp [posCount, hl]
      rw [h0] at hPe hPd
      rw [List.length_eq_zero_iff.1 hPe, List.length_eq_zero_iff.1 hPd]
      exact ⟨[], by simp, by simp [h0], by simp⟩
  obtain ⟨P, hP1, hP2, hP3⟩ := hP
  refine ⟨_, hP1, ?_, ?_⟩
  · rw [Composite.tree, numberOfParams, posCount_eq]
    simp only [List.length_append, hP2, hBe, hGe, hBd, hGd, List.length_nil, numberOfParamsSubs]
  · intro pe pd hpe hpd k d hk
    obtain ⟨hme, hCe, hQBe, hQGe⟩ := hve pe hpe
    obtain ⟨hmd, hCd, hQBd, hQGd⟩ := hvd pd hpd
    have hQ : Aligned (numberOfParamsSubs (.cons ["brightnessExp"] s.brightExpLiquid s.brightExp
        (.cons ["shapeExp"] s.expLiquid s.shapeExp (.cons ["brightnessDev"] s.brightDevLiquid s.brightDev
          (.cons ["shapeDev"] s.devLiquid s.shapeDev .nil)))))
        (quotientSubs (fun r => compositeModel I We Wd (minvalOf I.minsb (I.counts s.brightExp))
              (minvalOf I.minsb (I.counts s.brightDev)) (mask.getD (We.extentMask pe))
              (mask.getD (Wd.extentMask pd)) (.multi (.cons ["pos"] s.posLiquid (.plist s.pos) r)))
          (.cons ["brightnessExp"] s.brightExpLiquid s.brightExp
            (.cons ["shapeExp"] s.expLiquid s.shapeExp (.cons ["brightnessDev"] s.brightDevLiquid s.brightDev
              (.cons ["shapeDev"] s.devLiquid s.shapeDev .nil)))))
        (Be ++ (Ge ++ (Bd ++ (Gd ++ [])))) := by
      apply aligned_cons _ _ _ _ _ _ _ _ (nil_of_len hBe)
      · apply aligned_cons _ _ _ _ _ _ _ _ (nil_of_len hGe)
        · apply aligned_cons _ _ _ _ _ _ _ _ (nil_of_len hBd)
          · apply aligned_cons _ _ _ _ _ _ _ _ (nil_of_len hGd)
            · exact aligned_nil _
            · intro hl
              refine ⟨hgd hl, aligned_congr (hQGd hl) (fun k _ => ?_)⟩
              simp only [compositeModel]
              rw [quotient_const_add]
          · intro hl
            refine ⟨hbd hl, aligned_congr (hQBd hl) (fun k _ => ?_)⟩
            simp only [compositeModel, hmd, Option.getD_some]
            rw [quotient_const_add]
        · intro hl
          refine ⟨hge hl, aligned_congr (hQGe hl) (fun k _ => ?_)⟩
          simp only [compositeModel]
          rw [quotient_add_const]
      · intro hl
        refine ⟨hbe hl, aligned_congr (hQBe hl) (fun k _ => ?_)⟩
        simp only [compositeModel, hme, Option.getD_some]
        rw [quotient_add_const]
    have := split_entries (ruleP := fun k m => ∃ a b, m = a + b ∧
        ChainRule (I.cdi s.pos) s.pos (I.counts s.brightExp) (We.grad pe).1 (We.grad pe).2 k a ∧
        ChainRule (I.cdi s.pos) s.pos (I.counts s.brightDev) (Wd.grad pd).1 (Wd.grad pd).2 k b)
      (fun k d hk => by
        obtain ⟨x, y, hx, hy, hd⟩ := hP3 k d hk
        exact ⟨x.getD 0, y.getD 0, by rw [hd, addPatches_getD], hCe k x hx, hCd k y hy⟩) hQ k d hk
    rw [hP2] at this
    refine ⟨this.1, fun h => ?_⟩
    rw [this.2 h]
    have hk : k = posCount s.posLiquid s.pos + (k - posCount s.posLiquid s.pos) := by omega
    conv_rhs => rw [hk]
    rw [Composite.tree, quotient_multi, quotient_after_pos _ _ _ _ _ hps]

/-! ### FixedCompositeGalaxy -/

theorem map_smul_getD (c : R) (x : Option M) : (x.map (fun p => c • p)).getD 0 = c • x.getD 0 := by
  cases x <;> simp

theorem aligned_smul {n : Nat} {rule : Nat → M} {ds : List (Option M)} (c : R) (h : Aligned n rule ds) :
    Aligned n (fun k => c • rule k) (ds.map (fun x => x.map (fun p => c • p))) := by
  refine ⟨by rw [List.length_map]; exact h.1, fun k d hd => ?_⟩
  rw [List.getElem?_map] at hd
  obtain ⟨x, hx, hd⟩ := Option.map_eq_some_iff.1 hd
  rw [← hd, map_smul_getD, h.2 k x hx]

theorem fracDeriv_getD (counts : R) (ue ud : Option M) :
    (fracDeriv counts ue ud).getD 0 = counts • (ud.getD 0 - ue.getD 0) := by
  simp only [fracDeriv]
  split
  · rename_i h; simp [h]
  · rw [map_smul_getD, addPatches_getD, map_smul_getD, map_smul_getD, one_smul, neg_one_smul, sub_eq_add_neg]

theorem clip01_mem (f : R) (h0 : 0 ≤ f) (h1 : f ≤ 1) : clip01 f = f := by
  simp only [clip01]
  rw [if_neg (not_lt.2 h0), if_neg (not_lt.2 h1)]

/-- The list of the fixed composite galaxy in terms of the lists of the two galaxies. -/
theorem fixed_ok (I : Image R) (We Wd : GalaxyWorld R M K) (hre : MaskRenders We) (hse : MaskStable We)
    (hrd : MaskRenders Wd) (hsd : MaskStable Wd) (mask : Option K) (s : FixedComposite R)
    (hpos : s.pos.slots.length ≤ 2) (hps : s.posLiquid = true → GoodSteps (.plist s.pos))
    (hb : GoodSteps s.bright) (hf : s.fracLiquid = true → GoodSteps (.scalar s.frac))
    (hge : s.expLiquid = true → GoodSteps s.shapeExp) (hgd : s.devLiquid = true → GoodSteps s.shapeDev) :
    ∃ ds, fixedDerivs I We Wd mask s = (s, .ok ds) ∧
      ds.length = numberOfParams s.tree + (if s.brightLiquid then 0 else
        (if s.expLiquid then numberOfParams s.bright else 0) +
        (if s.devLiquid then numberOfParams s.bright else 0)) ∧
      ((s.brightLiquid = true ∨ (s.expLiquid = false ∧ s.devLiquid = false)) →
      ∀ pe pd, We.unit s.pos s.shapeExp (minvalOf I.minsb (I.counts s.bright)) mask = some pe →
        Wd.unit s.pos s.shapeDev (minvalOf I.minsb (I.counts s.bright)) mask = some pd →
        (s.fracLiquid = true → We.unit s.pos s.shapeExp (some 0) mask = some pe ∧
          Wd.unit s.pos s.shapeDev (some 0) mask = some pd ∧
          0 ≤ s.frac.val ∧ s.frac.val ≤ 1 ∧ 0 ≤ s.frac.val + s.frac.step.getD s.frac.defstep ∧
          s.frac.val + s.frac.step.getD s.frac.defstep ≤ 1) →
        ∀ (k : Nat) (d : Option M), ds[k]? = some d →
          (k < posCount s.posLiquid s.pos → ∃ a b,
            d.getD 0 = (1 - clip01 s.frac.val) • a + clip01 s.frac.val • b ∧
            ChainRule (I.cdi s.pos) s.pos (I.counts s.bright) (We.grad pe).1 (We.grad pe).2 k a ∧
            ChainRule (I.cdi s.pos) s.pos (I.counts s.bright) (Wd.grad pd).1 (Wd.grad pd).2 k b) ∧
          (posCount s.posLiquid s.pos ≤ k → d.getD 0 =
            quotient (fixedModel I We Wd (minvalOf I.minsb (I.counts s.bright))
              (mask.getD (We.extentMask pe)) (mask.getD (Wd.extentMask pd))) s.tree k)) := by
  obtain ⟨Pe, Be, Ge, he, hPe, hBe, hGe, hve⟩ := galaxy_all I We hre hse mask
    ⟨s.posLiquid, s.pos, true, s.bright, s.expLiquid, s.shapeExp⟩ hpos (fun _ => hb) hge
  obtain ⟨Pd, Bd, Gd, hd, hPd, hBd, hGd, hvd⟩ := galaxy_all I Wd hrd hsd mask
    ⟨s.posLiquid, s.pos, true, s.bright, s.devLiquid, s.shapeDev⟩ hpos (fun _ => hb) hgd
  simp only [if_true] at hPe hBe hGe hPd hBd hGd hve hvd
  generalize hfe : (1 - clip01 s.frac.val) = ce
  generalize hfd : clip01 s.frac.val = cd
  have hfe' : 1 - cd = ce := by rw [← hfd, hfe]
  let sc (c : R) (x : Option M) : Option M := x.map (fun p => c • p)
  have hde : (Pe ++ Be ++ Ge).map (sc ce) = Pe.map (sc ce) ++ (Be.map (sc ce) ++ Ge.map (sc ce)) := by
    simp
  have hdd : (Pd ++ Bd ++ Gd).map (sc cd) = Pd.map (sc cd) ++ (Bd.map (sc cd) ++ Gd.map (sc cd)) := by
    simp
  -- position part
  have hP : ∃ P, (if s.posLiquid then addRange ((Pe ++ Be ++ Ge).map (sc ce)) ((Pd ++ Bd ++ Gd).map (sc cd)) 0
        (numberOfParams (.plist s.pos)) else .ok []) = .ok P ∧ P.length = posCount s.posLiquid s.pos ∧
      ∀ (k : Nat) (d : Option M), P[k]? = some d → ∃ x y, Pe[k]? = some x ∧ Pd[k]? = some y ∧
        d = addPatches (sc ce x) (sc cd y) := by
    by_cases hl : s.posLiquid = true
    · have hn : numberOfParams (.plist s.pos) = posCount s.posLiquid s.pos := by rw [posCount, if_pos hl]
      obtain ⟨L, h1, h2, h3⟩ := addRange_ok ((Pe ++ Be ++ Ge).map (sc ce)) ((Pd ++ Bd ++ Gd).map (sc cd)) 0
        (posCount s.posLiquid s.pos) (by simp only [List.length_append, List.length_map]; omega)
        (by simp only [List.length_append, List.length_map]; omega)
      refine ⟨L, by rw [if_pos hl, hn, h1], h2, fun k d hk => ?_⟩
      obtain ⟨x, y, hx, hy, hd⟩ := h3 k d hk
      have hk : k < posCount s.posLiquid s.pos := by
        rw [← h2]; exact (List.getElem?_eq_some_iff.1 hk).1
      rw [hde, Nat.zero_add, List.getElem?_append_left (by rw [List.length_map]; omega), List.getElem?_map] at hx
      rw [hdd, Nat.zero_add, List.getElem?_append_left (by rw [List.length_map]; omega), List.getElem?_map] at hy
      obtain ⟨x', hx', hx⟩ := Option.map_eq_some_iff.1 hx
      obtain ⟨y', hy', hy⟩ := Option.map_eq_some_iff.1 hy
      exact ⟨x', y', hx', hy', by rw [hd, hx, hy]⟩
    · exact ⟨[], by rw [if_neg hl], by simp [posCount, hl], by simp⟩
  obtain ⟨P, hP1, hP2, hP3⟩ := hP
  have hi0 : (if s.posLiquid then numberOfParams (.plist s.pos) else 0) = posCount s.posLiquid s.pos := rfl
  -- brightness part
  have hB : ∃ B, (if s.brightLiquid then addRange ((Pe ++ Be ++ Ge).map (sc ce)) ((Pd ++ Bd ++ Gd).map (sc cd))
        (posCount s.posLiquid s.pos) (numberOfParams s.bright) else .ok []) = .ok B ∧
      B.length = (if s.brightLiquid then numberOfParams s.bright else 0) ∧
      ∀ (k : Nat) (d : Option M), B[k]? = some d → ∃ x y, Be[k]? = some x ∧ Bd[k]? = some y ∧
        d = addPatches (sc ce x) (sc cd y) := by
    by_cases hl : s.brightLiquid = true
    · obtain ⟨L, h1, h2, h3⟩ := addRange_ok ((Pe ++ Be ++ Ge).map (sc ce)) ((Pd ++ Bd ++ Gd).map (sc cd))
        (posCount s.posLiquid s.pos) (numberOfParams s.bright)
        (by simp only [List.length_append, List.length_map]; omega)
        (by simp only [List.length_append, List.length_map]; omega)
      refine ⟨L, by rw [if_pos hl, h1], by rw [h2, if_pos hl], fun k d hk => ?_⟩
      obtain ⟨x, y, hx, hy, hd⟩ := h3 k d hk
      have hk : k < numberOfParams s.bright := by
        rw [← h2]; exact (List.getElem?_eq_some_iff.1 hk).1
      rw [hde, List.getElem?_append_right (by rw [List.length_map]; omega), List.length_map, hPe,
        Nat.add_sub_cancel_left, List.getElem?_append_left (by rw [List.length_map]; omega),
        List.getElem?_map] at hx
      rw [hdd, List.getElem?_append_right (by rw [List.length_map]; omega), List.length_map, hPd,
        Nat.add_sub_cancel_left, List.getElem?_append_left (by rw [List.length_map]; omega),
        List.getElem?_map] at hy
      obtain ⟨x', hx', hx⟩ := Option.map_eq_some_iff.1 hx
      obtain ⟨y', hy', hy⟩ := Option.map_eq_some_iff.1 hy
      exact ⟨x', y', hx', hy', by rw [hd, hx, hy]⟩
    · exact ⟨[], by rw [if_neg hl], by simp [hl], by simp⟩
  obtain ⟨B, hB1, hB2, hB3⟩ := hB
  generalize hdf : fracDeriv (I.counts s.bright) (We.unit s.pos s.shapeExp (some 0) mask)
    (Wd.unit s.pos s.shapeDev (some 0) mask) = df
  generalize hi1 : (if s.brightLiquid then posCount s.posLiquid s.pos + numberOfParams s.bright
    else posCount s.posLiquid s.pos) = i1
  have hE : fixedDerivs I We Wd mask s = (s, .ok (P ++ (B ++ ((if s.fracLiquid then [df] else []) ++
      ((if s.expLiquid then ((Pe ++ Be ++ Ge).map (sc ce)).drop i1 else []) ++
        ((if s.devLiquid then ((Pd ++ Bd ++ Gd).map (sc cd)).drop i1 else []) ++ [])))))) := by
    simp only [fixedDerivs]
    rw [he]
    simp only []
    rw [hd]
    simp only [fixedJoin, hi0, hfd, hfe', hdf]
    rw [hP1]
    simp only []
    rw [hB1]
    simp only [hi1, List.append_assoc, List.append_nil]
    rfl
  refine ⟨_, hE, ?_, ?_⟩
  · rw [FixedComposite.tree, numberOfParams, posCount_eq]
    simp only [List.length_append, hP2, hB2, List.length_nil, numberOfParamsSubs]
    rw [← hi1]
    cases hbl : s.brightLiquid <;> cases hfl : s.fracLiquid <;> cases hel : s.expLiquid <;>
      cases hdl : s.devLiquid <;>
      simp [hPe, hPd, hBe, hBd, hGe, hGd, numberOfParams, hel, hdl] <;> omega
  · intro hgood pe pd hpe hpd hfr k d hk
    obtain ⟨hme, hCe, hQBe, hQGe⟩ := hve pe hpe
    obtain ⟨hmd, hCd, hQBd, hQGd⟩ := hvd pd hpd
    have hEe : (if s.expLiquid then ((Pe ++ Be ++ Ge).map (sc ce)).drop i1 else []) = Ge.map (sc ce) := by
      by_cases hl : s.expLiquid = true
      · have hbl : s.brightLiquid = true := by
          rcases hgood with h | h
          · exact h
          · rw [h.1] at hl; simp at hl
        rw [if_pos hl, ← hi1, if_pos hbl, hde, ← List.append_assoc, List.drop_left' (by simp; omega)]
      · rw [if_neg hl, nil_of_len hGe (by simpa using hl)]; rfl
    have hEd : (if s.devLiquid then ((Pd ++ Bd ++ Gd).map (sc cd)).drop i1 else []) = Gd.map (sc cd) := by
      by_cases hl : s.devLiquid = true
      · have hbl : s.brightLiquid = true := by
          rcases hgood with h | h
          · exact h
          · rw [h.2] at hl; simp at hl
        rw [if_pos hl, ← hi1, if_pos hbl, hdd, ← List.append_assoc, List.drop_left' (by simp; omega)]
      · rw [if_neg hl, nil_of_len hGd (by simpa using hl)]; rfl
    rw [hEe, hEd] at hk
    have hQ : Aligned (numberOfParamsSubs (.cons ["brightness"] s.brightLiquid s.bright
        (.cons ["fracDev"] s.fracLiquid (.scalar s.frac) (.cons ["shapeExp"] s.expLiquid s.shapeExp
          (.cons ["shapeDev"] s.devLiquid s.shapeDev .nil)))))
        (quotientSubs (fun r => fixedModel I We Wd (minvalOf I.minsb (I.counts s.bright))
              (mask.getD (We.extentMask pe)) (mask.getD (Wd.extentMask pd))
              (.multi (.cons ["pos"] s.posLiquid (.plist s.pos) r)))
          (.cons ["brightness"] s.brightLiquid s.bright
            (.cons ["fracDev"] s.fracLiquid (.scalar s.frac) (.cons ["shapeExp"] s.expLiquid s.shapeExp
              (.cons ["shapeDev"] s.devLiquid s.shapeDev .nil)))))
        (B ++ ((if s.fracLiquid then [df] else []) ++ (Ge.map (sc ce) ++ (Gd.map (sc cd) ++ [])))) := by
      apply aligned_cons _ _ _ _ _ _ _ _ (nil_of_len hB2)
      · apply aligned_cons _ _ _ _ _ _ _ _ (fun h => by rw [h]; rfl)
        · apply aligned_cons _ _ _ _ _ _ _ _ (fun h => by rw [nil_of_len hGe h]; rfl)
          · apply aligned_cons _ _ _ _ _ _ _ _ (fun h => by rw [nil_of_len hGd h]; rfl)
            · exact aligned_nil _
            · intro hl
              refine ⟨hgd hl, aligned_congr (aligned_smul cd (hQGd hl)) (fun k _ => ?_)⟩
              simp only [fixedModel, smul_add]
              rw [quotient_const_add, ← quotient_smul, hfd]
              exact quotient_congr _ _ _ _ (fun a => by rw [smul_comm])
          · intro hl
            refine ⟨hge hl, aligned_congr (aligned_smul ce (hQGe hl)) (fun k _ => ?_)⟩
            simp only [fixedModel, smul_add]
            rw [quotient_add_const, ← quotient_smul, hfe]
            exact quotient_congr _ _ _ _ (fun a => by rw [smul_comm])
        · intro hl
          refine ⟨hf hl, ?_⟩
          obtain ⟨h1, h2, h3, h4, h5, h6⟩ := hfr hl
          rw [if_pos hl]
          refine ⟨rfl, fun k d hk => ?_⟩
          have : k = 0 := by
            have := (List.getElem?_eq_some_iff.1 hk).1
            simpa using this
          subst this
          simp only [List.getElem?_cons_zero, Option.some.injEq] at hk
          have hst : s.frac.step.getD s.frac.defstep ≠ 0 := (hf hl).2 _ (by simp [getStepSizes])
          rw [← hk, ← hdf, fracDeriv_getD, h1, h2]
          simp only [quotient, getParams, getStepSizes, List.getElem?_cons_zero, setParam, fixedModel, hme, hmd,
            Option.getD_some, Nat.cast_zero, if_true]
          rw [clip01_mem _ h3 h4, clip01_mem _ h5 h6, ← smul_sub, smul_comm]
          congr 1
          generalize s.frac.step.getD s.frac.defstep = h at *
          generalize s.frac.val = f
          have : (1 - (f + h)) • pe + (f + h) • pd - ((1 - f) • pe + f • pd) = h • (pd - pe) := by
            simp only [sub_smul, add_smul, one_smul, smul_sub]
            abel
          rw [this, smul_smul, inv_mul_cancel₀ hst, one_smul]
      · intro hl
        refine ⟨hb, by rw [hB2, if_pos hl], fun k d hk => ?_⟩
        obtain ⟨x, y, hx, hy, hd⟩ := hB3 k d hk
        rw [hd, addPatches_getD, map_smul_getD, map_smul_getD, (hQBe trivial).2 k x hx, (hQBd trivial).2 k y hy]
        simp only [fixedModel, hme, hmd, Option.getD_some, smul_add]
        rw [quotient_add, ← quotient_smul, ← quotient_smul, hfd, hfe']
        congr 1 <;> exact quotient_congr _ _ _ _ (fun a => by rw [smul_comm])
    have := split_entries (ruleP := fun k m => ∃ a b, m = ce • a + cd • b ∧
        ChainRule (I.cdi s.pos) s.pos (I.counts s.bright) (We.grad pe).1 (We.grad pe).2 k a ∧
        ChainRule (I.cdi s.pos) s.pos (I.counts s.bright) (Wd.grad pd).1 (Wd.grad pd).2 k b)
      (fun k d hk => by
        obtain ⟨x, y, hx, hy, hd⟩ := hP3 k d hk
        exact ⟨x.getD 0, y.getD 0, by rw [hd, addPatches_getD, map_smul_getD, map_smul_getD],
          hCe k x hx, hCd k y hy⟩) hQ k d hk
    rw [hP2] at this
    refine ⟨this.1, fun h => ?_⟩
    rw [this.2 h]
    have hk : k = posCount s.posLiquid s.pos + (k - posCount s.posLiquid s.pos) := by omega
    conv_rhs => rw [hk]
    rw [FixedComposite.tree, quotient_multi, quotient_after_pos _ _ _ _ _ hps]

end Verif.Src
