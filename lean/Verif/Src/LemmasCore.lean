import Verif.Src.SpecCore
import Verif.Src.Lemmas3

/-! Helper lemmas: galaxies with a central point source. -/

namespace Verif.Src

open Verif Verif.Params

set_option linter.unusedSectionVars false

variable {R M K : Type} [Field R] [LinearOrder R] [AddCommGroup M] [Module R M]

theorem coreJoin_ok (l : Bool) (pos : PList R) (hps : l = true → GoodSteps (.plist pos)) (a b : List (Option M))
    (ha : posCount l pos ≤ a.length) (hb : posCount l pos ≤ b.length) :
    ∃ P, coreJoin l pos a b = .ok (P ++ a.drop (posCount l pos) ++ b.drop (posCount l pos)) ∧ P.length = posCount l pos ∧
      ∀ (k : Nat) (d : Option M), P[k]? = some d → ∃ x y, a[k]? = some x ∧ b[k]? = some y ∧ d = addPatches x y := by
  unfold coreJoin
  by_cases hl : l = true
  · have hn : (getStepSizes (.plist pos)).length = posCount l pos := by
      rw [(hps hl).1, posCount, if_pos hl]
    rw [if_pos hl]
    obtain ⟨L, h1, h2, h3⟩ := addRange_ok a b 0 (posCount l pos) (by omega) (by omega)
    refine ⟨L, ?_, h2, fun k d hk => ?_⟩
    · simp only [hn, h1, Except.map]
    · simpa using h3 k d hk
  · rw [if_neg hl]
    have h0 : posCount l pos = 0 := by simp [posCount, hl]
    rw [h0]
    exact ⟨[], by simp, rfl, by simp⟩

theorem merged_of (n : Nat) (a b P : List (Option M)) (ha : n ≤ a.length) (hb : n ≤ b.length) (hP : P.length = n)
    (h : ∀ (k : Nat) (d : Option M), P[k]? = some d → ∃ x y, a[k]? = some x ∧ b[k]? = some y ∧ d = addPatches x y) :
    Merged n a b (P ++ a.drop n ++ b.drop n) := by
  refine ⟨by simp only [List.length_append, List.length_drop]; omega, ?_, ?_, ?_⟩
  · intro k x y hk hx hy
    have hg : P[k]? = some P[k] := List.getElem?_eq_getElem (by omega)
    obtain ⟨x', y', hx', hy', hd⟩ := h k _ hg
    rw [hx] at hx'
    rw [hy] at hy'
    cases hx'
    cases hy'
    refine ⟨P[k], ?_, by rw [hd, addPatches_getD]⟩
    rw [List.append_assoc, List.getElem?_append_left (by omega), hg]
  · intro k h1 h2
    rw [List.getElem?_append_left (by simp only [List.length_append, List.length_drop]; omega),
      List.getElem?_append_right (by omega), List.getElem?_drop, hP]
    congr 1
    omega
  · intro k h1 h2
    rw [List.getElem?_append_right (by simp only [List.length_append, List.length_drop]; omega), List.getElem?_drop]
    congr 1
    simp only [List.length_append, List.length_drop]
    omega

theorem point_len (s : PointSource R) :
    numberOfParams s.tree = posCount s.posLiquid s.pos + (if s.brightLiquid then numberOfParams s.bright else 0) := by
  rw [PointSource.tree, numberOfParams, posCount_eq]
  simp [numberOfParamsSubs]

theorem galaxy_len (s : Galaxy R) :
    numberOfParams s.tree = posCount s.posLiquid s.pos + ((if s.brightLiquid then numberOfParams s.bright else 0) +
      (if s.shapeLiquid then numberOfParams s.shape else 0)) := by
  rw [Galaxy.tree, numberOfParams, posCount_eq]
  simp [numberOfParamsSubs]

/-- What follows the position in the list of a point source that is rendered. -/
theorem point_bright (I : Image R) (W : PointWorld R M K) (mv : Option R) (mask : Option K) (s : PointSource R)
    (hps : s.posLiquid = true → GoodSteps (.plist s.pos)) (hb : s.brightLiquid = true → GoodSteps s.bright) (patch0 : M)
    (hp : W.unit s.pos mv mask = some patch0) (ds : List (Option M)) (hlen : ds.length = numberOfParams s.tree)
    (h : ∀ (k : Nat) (d : Option M), ds[k]? = some d → posCount s.posLiquid s.pos ≤ k → d.getD 0 = quotient (pointModel I W mv mask) s.tree k)
    (hl : s.brightLiquid = true) :
    Aligned (numberOfParams s.bright) (quotient (fun b => I.counts b • patch0) s.bright) (ds.drop (posCount s.posLiquid s.pos)) := by
  have hn := point_len s
  rw [if_pos hl] at hn
  refine ⟨by rw [List.length_drop]; omega, fun k d hk => ?_⟩
  have hkn : k < numberOfParams s.bright := by
    have := (List.getElem?_eq_some_iff.1 hk).1
    rw [List.length_drop] at this
    omega
  rw [List.getElem?_drop] at hk
  rw [h _ d hk (Nat.le_add_right _ _), PointSource.tree, quotient_multi, quotient_after_pos _ _ _ _ _ hps, hl,
    quotientSubs_lt _ _ _ _ (hb hl) _ hkn]
  simp only [pointModel, hp, Option.getD_some]

end Verif.Src
