import Verif.Src.Spec
import Verif.Params.Lemmas

/-! Helper lemmas for the source derivatives. -/

namespace Verif.Src

open Verif Verif.Params

set_option linter.unusedSectionVars false

variable {R M K : Type} [Field R] [LinearOrder R] [AddCommGroup M] [Module R M]

theorem stepEach_ok {β : Type} (f : R → Par R → Except PyErr β) (t : Par R)
    (hf : ∀ st t', st ≠ 0 → ∃ b, f st t' = .ok b) :
    ∀ (sts : List R) (i : Nat), i + sts.length ≤ numberOfParams t → (∀ s ∈ sts, s ≠ 0) →
    ∃ L, stepEach f sts (getParams t) i t = (t, .ok L) ∧ L.length = sts.length ∧
      ∀ (j : Nat) (b : β), L[j]? = some b → ∃ st v, sts[j]? = some st ∧ (getParams t)[i + j]? = some v ∧
        f st (setParam t ((i + j : Nat) : Int) (v + st)).1 = .ok b := by
  intro sts
  induction sts with
  | nil => intro i _ _; exact ⟨[], rfl, rfl, by simp⟩
  | cons st sts ih =>
    intro i hi hs
    simp only [List.length_cons] at hi
    have hlen := getParams_length t
    have hv : (getParams t)[i]? = some ((getParams t)[i]'(by omega)) := List.getElem?_eq_getElem _
    generalize (getParams t)[i]'(by omega) = v at hv
    obtain ⟨old, hold, hok, -, hback⟩ := setParam_ok t i (v + st) (by omega)
    have e1 : setParam t (i : Int) (v + st) = ((setParam t (i : Int) (v + st)).1, .ok old) :=
      Prod.ext rfl hok
    obtain ⟨b, hb⟩ := hf st (setParam t (i : Int) (v + st)).1 (hs st (by simp))
    obtain ⟨L, hL, hlL, hLs⟩ := ih (i + 1) (by omega) (fun s h => hs s (by simp [h]))
    refine ⟨b :: L, ?_, by simp [hlL], ?_⟩
    · rw [stepEach, hv]
      simp only []
      rw [e1]
      simp only []
      rw [hback]
      simp only [hb, hL]
      rfl
    · intro j c hj
      cases j with
      | zero =>
        simp only [List.getElem?_cons_zero, Option.some.injEq] at hj
        subst hj
        exact ⟨st, v, rfl, hv, hb⟩
      | succ j =>
        simp only [List.getElem?_cons_succ] at hj
        obtain ⟨st', v', h1, h2, h3⟩ := hLs j c hj
        refine ⟨st', v', by simpa using h1, ?_, ?_⟩
        · rw [← h2]; congr 1; omega
        · rw [← h3]; congr 4; omega

theorem stepEach_aligned (f : R → Par R → Except PyErr (Option M)) (t : Par R) (model : Par R → M)
    (hg : GoodSteps t)
    (hf : ∀ st t', st ≠ 0 → ∃ b, f st t' = .ok b ∧ b.getD 0 = st⁻¹ • (model t' - model t)) :
    ∃ L, stepEach f (getStepSizes t) (getParams t) 0 t = (t, .ok L) ∧
      Aligned (numberOfParams t) (quotient model t) L := by
  obtain ⟨L, hL, hl, hLs⟩ := stepEach_ok f t (fun st t' h => (hf st t' h).imp fun _ => And.left)
    (getStepSizes t) 0 (by rw [hg.1]; omega) hg.2
  refine ⟨L, hL, by rw [hl, hg.1], fun k d hd => ?_⟩
  obtain ⟨st, v, h1, h2, h3⟩ := hLs k d hd
  rw [Nat.zero_add] at h2 h3
  obtain ⟨b, hb, hq⟩ := hf st (setParam t (k : Int) (v + st)).1 (hg.2 st (List.mem_of_getElem? h1))
  rw [hb] at h3
  cases h3
  rw [quotient, h1, h2]
  exact hq

theorem pyDiv_ok (x y : R) (h : y ≠ 0) : pyDiv x y = .ok (x / y) := if_neg h

theorem stepBright_aligned (counts : Par R → R) (patch0 : M) (b : Par R) (hg : GoodSteps b) :
    ∃ L, stepBright counts (counts b) patch0 b = (b, .ok L) ∧
      Aligned (numberOfParams b) (quotient (fun b' => counts b' • patch0) b) L := by
  apply stepEach_aligned (fun st t => brightDeriv counts (counts b) patch0 st t) b _ hg
  intro st t' hst
  simp only [brightDeriv]
  by_cases h : counts t' = counts b
  · exact ⟨none, if_pos h, by rw [h]; simp⟩
  · refine ⟨some (((counts t' - counts b) / st) • patch0), ?_, ?_⟩
    · rw [if_neg h, pyDiv_ok _ _ hst]; rfl
    · simp only [Option.getD_some]
      rw [← sub_smul, smul_smul, div_eq_inv_mul]

theorem stepShape_aligned (W : GalaxyWorld R M K) (hW : MaskRenders W) (counts : R) (minval : Option R)
    (mask : K) (patch0 : M) (pos : PList R) (shape : Par R) (hg : GoodSteps shape)
    (hp : W.forced pos shape minval mask = some patch0) :
    ∃ L, stepShape W counts minval mask patch0 pos shape = (shape, .ok L) ∧
      Aligned (numberOfParams shape)
        (quotient (fun g => counts • (W.forced pos g minval mask).getD 0) shape) L := by
  simp only [stepShape]
  by_cases hc : counts = 0
  · rw [if_pos hc]
    refine ⟨_, rfl, by rw [List.length_replicate, getParams_length], fun k d hd => ?_⟩
    have : d = none := (List.mem_replicate.1 (List.mem_of_getElem? hd)).2
    rw [this, hc, quotient]
    split <;> simp
  · rw [if_neg hc]
    apply stepEach_aligned _ shape _ hg
    intro st t' hst
    obtain ⟨px, hpx⟩ := Option.isSome_iff_exists.1 (hW pos t' minval mask)
    refine ⟨some ((counts / st) • (px - patch0)), ?_, ?_⟩
    · rw [hpx]
      simp only [pyDiv_ok _ _ hst]
      rfl
    · rw [hpx, hp]
      simp only [Option.getD_some]
      rw [← smul_sub, smul_smul, div_eq_inv_mul]

/-! ### Chain rule -/

theorem constantDerivs_ok (I : Image R) (flat : M) (s : Constant R)
    (hb : s.brightLiquid = true → GoodSteps s.bright) :
    ∃ ds, constantDerivs I flat s = (s, .ok ds) ∧ (s.brightLiquid = false → ds = []) ∧
      (s.brightLiquid = true →
        Aligned (numberOfParams s.bright) (quotient (fun b => I.counts b • flat) s.bright) ds) := by
  simp only [constantDerivs]
  by_cases hl : s.brightLiquid = true
  swap
  · exact ⟨[], by rw [if_pos (by simp [hl])], fun _ => rfl, fun h => absurd h hl⟩
  obtain ⟨L, h1, h2, h3⟩ := stepEach_ok (constantScale I.counts (I.counts s.bright)) s.bright
    (fun st t' hst => by
      simp only [constantScale]
      split
      · exact ⟨_, rfl⟩
      · exact ⟨_, pyDiv_ok _ _ hst⟩) (getStepSizes s.bright) 0 (by rw [(hb hl).1]; omega) (hb hl).2
  rw [if_neg (by simp [hl]), h1]
  simp only []
  have key : ∀ (k : Nat) (x : R), L[k]? = some x →
      x • flat = quotient (fun b => I.counts b • flat) s.bright k := by
    intro k x hx
    obtain ⟨st, v, hst, hv, hf⟩ := h3 k x hx
    rw [Nat.zero_add] at hv hf
    rw [quotient, hv, hst]
    have hst0 : st ≠ 0 := (hb hl).2 _ (List.mem_of_getElem? hst)
    simp only [constantScale] at hf
    split at hf
    · rename_i h
      cases hf
      simp only [h]
      simp
    · rw [pyDiv_ok _ _ hst0] at hf
      cases hf
      simp only []
      rw [← sub_smul, smul_smul, div_eq_inv_mul]
  by_cases hz : (L.all fun x => decide (x = 0)) = true
  · refine ⟨List.replicate L.length none, by rw [if_pos hz], fun h => by rw [hl] at h; simp at h, fun _ => ⟨?_, ?_⟩⟩
    · rw [List.length_replicate, h2, (hb hl).1]
    · intro k d hd
      have hk : k < L.length := by
        have := (List.getElem?_eq_some_iff.1 hd).1
        simpa using this
      have hx := List.getElem?_eq_getElem hk
      rw [(List.mem_replicate.1 (List.mem_of_getElem? hd)).2, ← key k _ hx]
      have := List.all_eq_true.1 hz _ (List.mem_of_getElem? hx)
      simp only [decide_eq_true_eq] at this
      rw [this]
      simp
  · refine ⟨_, by rw [if_neg hz], fun h => by rw [hl] at h; simp at h, fun _ => ⟨?_, ?_⟩⟩
    · rw [List.length_map, h2, (hb hl).1]
    · intro k d hd
      rw [List.getElem?_map] at hd
      obtain ⟨x, hx, hd⟩ := Option.map_eq_some_iff.1 hd
      rw [← key k x hx, ← hd]
      split
      · rename_i h; simp [h]
      · rfl

theorem thawedIndices_spec (fs : List Bool) : ∀ (a k j : Nat), (thawedIndices a fs)[k]? = some j →
    ∃ i, j = a + i ∧ fs[i]? = some true ∧ ((fs.take i).filter id).length = k := by
  induction fs with
  | nil => intro a k j h; simp [thawedIndices] at h
  | cons b fs ih =>
    intro a k j h
    cases b with
    | true =>
      simp only [thawedIndices] at h
      cases k with
      | zero =>
        simp at h
        exact ⟨0, by omega, rfl, rfl⟩
      | succ k =>
        simp only [List.getElem?_cons_succ] at h
        obtain ⟨i, h1, h2, h3⟩ := ih (a + 1) k j h
        exact ⟨i + 1, by omega, by simpa using h2, by simp [h3]⟩
    | false =>
      simp only [thawedIndices] at h
      obtain ⟨i, h1, h2, h3⟩ := ih (a + 1) k j h
      exact ⟨i + 1, by omega, by simpa using h2, by simp [h3]⟩

theorem thawedIndices_length (fs : List Bool) : ∀ a : Nat, (thawedIndices a fs).length = countLiquid fs := by
  induction fs with
  | nil => intro a; rfl
  | cons b fs ih =>
    intro a
    cases b <;> simp [thawedIndices, countLiquid, ih]

theorem thaw_unique (fs : List Bool) (i j : Nat) (hi : fs[i]? = some true) (hj : fs[j]? = some true)
    (h : ((fs.take i).filter id).length = ((fs.take j).filter id).length) : i = j := by
  induction fs generalizing i j with
  | nil => simp at hi
  | cons b fs ih =>
    cases i with
    | zero =>
      cases j with
      | zero => rfl
      | succ j =>
        simp only [List.getElem?_cons_zero, Option.some.injEq] at hi
        subst hi
        simp at h
    | succ i =>
      cases j with
      | zero =>
        simp only [List.getElem?_cons_zero, Option.some.injEq] at hj
        subst hj
        simp at h
      | succ j =>
        congr 1
        apply ih i j (by simpa using hi) (by simpa using hj)
        cases b <;> simpa using h

theorem mapM_ok {α β : Type} (f : α → Except PyErr β) (l : List α) (h : ∀ a ∈ l, ∃ b, f a = .ok b) :
    ∃ L, l.mapM f = .ok L ∧ L.length = l.length ∧
      ∀ (k : Nat) (b : β), L[k]? = some b → ∃ a, l[k]? = some a ∧ f a = .ok b := by
  induction l with
  | nil => exact ⟨[], rfl, rfl, by simp⟩
  | cons a l ih =>
    obtain ⟨b, hb⟩ := h a (by simp)
    obtain ⟨L, h1, h2, h3⟩ := ih (fun x hx => h x (by simp [hx]))
    refine ⟨b :: L, ?_, by simp [h2], ?_⟩
    · rw [List.mapM_cons, hb, h1]; rfl
    · intro k c hk
      cases k with
      | zero =>
        simp only [List.getElem?_cons_zero, Option.some.injEq] at hk
        exact ⟨a, rfl, hk ▸ hb⟩
      | succ k => simpa using h3 k c (by simpa using hk)

theorem pixelDerivs_ok (cdi : (R × R) × (R × R)) (pos : PList R) (hpos : pos.slots.length ≤ 2)
    (counts : R) (dx dy : M) :
    ∃ L, pixelDerivsToPositionDerivs cdi pos counts dx dy = .ok L ∧
      L.length = numberOfParams (.plist pos) ∧
      ∀ (k : Nat) (d : Option M), L[k]? = some d → ChainRule cdi pos counts dx dy k (d.getD 0) := by
  obtain ⟨L, h1, h2, h3⟩ := mapM_ok (fun i =>
    if i = 0 then Except.ok (some (counts • (cdi.1.1 • dx + cdi.2.1 • dy)))
    else if i = 1 then .ok (some (counts • (cdi.1.2 • dx + cdi.2.2 • dy)))
    else .error PyErr.index) (thawedIndices 0 (flags pos)) (by
      intro i hi
      obtain ⟨k, hk⟩ := List.getElem?_of_mem hi
      obtain ⟨i', h1, h2, -⟩ := thawedIndices_spec _ 0 k i hk
      have : i' < (flags pos).length := (List.getElem?_eq_some_iff.1 h2).1
      simp only [flags, List.length_map] at this
      by_cases h0 : i = 0
      · exact ⟨_, if_pos h0⟩
      · exact ⟨_, by rw [if_neg h0, if_pos (by omega)]⟩)
  refine ⟨L, h1, by rw [h2, thawedIndices_length]; rfl, fun k d hd => ?_⟩
  intro j s hs hl hk
  obtain ⟨i, hi, hdi⟩ := h3 k d hd
  obtain ⟨i', h4, h5, h6⟩ := thawedIndices_spec _ 0 k i hi
  have hj : j = i := by
    have : i' = i := by omega
    subst this
    apply thaw_unique (flags pos) j i' (by simp [flags, hs, hl]) h5
    rw [h6, ← hk, flags, ← List.map_take, List.filter_map, List.length_map]
    rfl
  subst hj
  simp only [column]
  by_cases h0 : j = 0
  · rw [if_pos h0] at hdi ⊢
    rw [← Except.ok.inj hdi]; rfl
  · have : j = 1 := by
      have := (List.getElem?_eq_some_iff.1 hs).1
      omega
    rw [if_neg h0, if_pos this] at hdi
    rw [if_neg h0, ← Except.ok.inj hdi]; rfl

/-! ### Difference quotients of containers -/

/-- `quotient` for the contents of a container. -/
def quotientSubs (model : Subs R → M) (t : Subs R) (k : Nat) : M :=
  match (getParamsSubs t)[k]?, (getStepSizesSubs t)[k]? with
  | some v, some h => h⁻¹ • (model (setParamSubs t k (v + h)).1 - model t)
  | _, _ => 0

theorem quotient_multi (model : Par R → M) (t : Subs R) (k : Nat) :
    quotient model (.multi t) k = quotientSubs (fun s => model (.multi s)) t k := rfl

theorem quotientSubs_lt (model : Subs R → M) (nm : List String) (a : Par R) (rest : Subs R)
    (hg : GoodSteps a) (k : Nat) (hk : k < numberOfParams a) :
    quotientSubs model (.cons nm true a rest) k =
      quotient (fun a' => model (.cons nm true a' rest)) a k := by
  simp only [quotientSubs, quotient, getParamsSubs, getStepSizesSubs, if_true]
  rw [List.getElem?_append_left (by rw [getParams_length]; exact hk),
    List.getElem?_append_left (by rw [hg.1]; exact hk)]
  simp only [setParamSubs, if_true]
  rw [List.getElem?_eq_getElem (by rw [getParams_length]; exact hk),
    List.getElem?_eq_getElem (by rw [hg.1]; exact hk)]
  simp only []
  rw [if_pos (by omega)]

theorem quotientSubs_ge (model : Subs R → M) (nm : List String) (a : Par R) (rest : Subs R)
    (hg : GoodSteps a) (k : Nat) :
    quotientSubs model (.cons nm true a rest) (numberOfParams a + k) =
      quotientSubs (fun r => model (.cons nm true a r)) rest k := by
  simp only [quotientSubs, getParamsSubs, getStepSizesSubs, if_true]
  rw [List.getElem?_append_right (by rw [getParams_length]; omega),
    List.getElem?_append_right (by rw [hg.1]; omega), getParams_length, hg.1, Nat.add_sub_cancel_left]
  have h0 : ¬ ((numberOfParams a + k : Nat) : Int) < (numberOfParams a : Int) := by omega
  have : ((numberOfParams a + k : Nat) : Int) - (numberOfParams a : Int) = (k : Int) := by omega
  simp only [setParamSubs, if_true, if_neg h0, this]

theorem quotientSubs_frozen (model : Subs R → M) (nm : List String) (a : Par R) (rest : Subs R) (k : Nat) :
    quotientSubs model (.cons nm false a rest) k =
      quotientSubs (fun r => model (.cons nm false a r)) rest k := by
  simp [quotientSubs, getParamsSubs, getStepSizesSubs, setParamSubs]

theorem aligned_cons (model : Subs R → M) (nm : List String) (l : Bool) (a : Par R) (rest : Subs R)
    (A B : List (Option M)) (hA : l = true → GoodSteps a ∧ Aligned (numberOfParams a)
      (quotient (fun a' => model (.cons nm l a' rest)) a) A) (hA' : l = false → A = [])
    (hB : Aligned (numberOfParamsSubs rest) (quotientSubs (fun r => model (.cons nm l a r)) rest) B) :
    Aligned (numberOfParamsSubs (.cons nm l a rest)) (quotientSubs model (.cons nm l a rest)) (A ++ B) := by
  cases l with
  | false =>
    rw [hA' rfl, List.nil_append]
    refine ⟨by simpa [numberOfParamsSubs] using hB.1, fun k d hd => ?_⟩
    rw [quotientSubs_frozen]
    exact hB.2 k d hd
  | true =>
    obtain ⟨hg, h1, h2⟩ := hA rfl
    refine ⟨by simp [numberOfParamsSubs, h1, hB.1], fun k d hd => ?_⟩
    by_cases hk : k < A.length
    · rw [List.getElem?_append_left hk] at hd
      rw [quotientSubs_lt _ _ _ _ hg _ (by omega)]
      exact h2 k d hd
    · rw [List.getElem?_append_right (by omega)] at hd
      have : k = numberOfParams a + (k - A.length) := by omega
      rw [this, quotientSubs_ge _ _ _ _ hg]
      exact hB.2 _ d hd

theorem aligned_nil (model : Subs R → M) :
    Aligned (numberOfParamsSubs (.nil : Subs R)) (quotientSubs model (.nil : Subs R)) [] :=
  ⟨rfl, by simp⟩

end Verif.Src
