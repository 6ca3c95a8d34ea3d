import Verif.Gpu.UpdateSpec
import Verif.Gpu.TryLemmas4
import Mathlib.Algebra.Order.BigOperators.Group.Finset
import Mathlib.Algebra.BigOperators.Ring.Finset
import Mathlib.Tactic.Ring
import Mathlib.Tactic.FieldSimp

/-!
# Zero columns, zero rows and column scales do not matter
-/

namespace Verif.Gpu

open Verif Verif.Psf Verif.Params Verif.Lsq

variable {R : Type} [Field R]

theorem sum_getD (l : List Nat) (g : Nat → R) : ∑ j ∈ Finset.range l.length, g (l.getD j 0) = (l.map g).sum := by
  induction l with
  | nil => simp
  | cons a l ih =>
    rw [List.length_cons, Finset.sum_range_succ', List.map_cons, List.sum_cons, ← ih, add_comm]
    rfl

theorem sum_map_range (n : Nat) (g : Nat → R) : ((List.range n).map g).sum = ∑ c ∈ Finset.range n, g c := by
  rw [← List.sum_toFinset _ List.nodup_range, List.toFinset_range]

theorem sum_map_filter (n : Nat) (p : Nat → Bool) (g : Nat → R) :
    (((List.range n).filter p).map g).sum = ∑ c ∈ Finset.range n, if p c = true then g c else 0 := by
  rw [← List.sum_toFinset _ (List.nodup_range.filter _), List.toFinset_filter, List.toFinset_range, Finset.sum_filter]

/-- Sum of squared residuals of a linear system. -/
def resid (nrows ncols : Nat) (A : Dense R) (B : Nat → R) (f : Nat → R) : R :=
  ∑ r ∈ Finset.range nrows, (B r - ∑ c ∈ Finset.range ncols, A r c * f c) ^ 2

section
variable [LinearOrder R] [IsStrictOrderedRing R]

theorem colScale_zero (sqrt : R → R) (hs : ∀ x, 0 ≤ x → (sqrt x = 0 ↔ x = 0)) (nrows : Nat) (A : Dense R) (c : Nat) :
    colScale sqrt nrows A c = 0 ↔ ∀ r < nrows, A r c = 0 := by
  unfold colScale
  rw [sum_map_range]
  have h0 : 0 ≤ ∑ r ∈ Finset.range nrows, A r c ^ 2 := Finset.sum_nonneg (fun r _ => sq_nonneg _)
  have e := hs _ h0
  rw [e, Finset.sum_eq_zero_iff_of_nonneg (fun r _ => sq_nonneg _)]
  constructor
  · intro h r hr
    exact pow_eq_zero_iff (two_ne_zero) |>.mp (h r (Finset.mem_range.mpr hr))
  · intro h r hr
    rw [h r (Finset.mem_range.mp hr)]; ring

theorem mem_liveCols (sqrt : R → R) (hs : ∀ x, 0 ≤ x → (sqrt x = 0 ↔ x = 0)) (nrows ncols : Nat) (A : Dense R) (c : Nat) :
    c ∈ liveCols sqrt nrows ncols A ↔ c < ncols ∧ ∃ r < nrows, A r c ≠ 0 := by
  unfold liveCols
  rw [List.mem_filter, List.mem_range, decide_eq_true_eq, ne_eq, colScale_zero sqrt hs]
  push Not
  rfl

omit [IsStrictOrderedRing R] in
theorem liveCols_nodup (sqrt : R → R) (nrows ncols : Nat) (A : Dense R) : (liveCols sqrt nrows ncols A).Nodup :=
  List.nodup_range.filter _

/-- The value for a column: that of the reduced solution, zero for a column that was removed. -/
def spread (I : List Nat) (X : List R) (c : Nat) : R := if c ∈ I then X.getD (I.idxOf c) 0 else 0

/-- The residuals with zero columns and zero rows left out and columns scaled. -/
theorem resid_cut (sqrt : R → R) (hs : ∀ x, 0 ≤ x → (sqrt x = 0 ↔ x = 0)) (nrows ncols : Nat) (A : Dense R)
    (B : Nat → R) : ∃ K : R, ∀ (f : Nat → R) (W : List R),
      (∀ j < (liveCols sqrt nrows ncols A).length, (W[j]?).getD 0 =
        f ((liveCols sqrt nrows ncols A).getD j 0) * colScale sqrt nrows A ((liveCols sqrt nrows ncols A).getD j 0)) →
      resid nrows ncols A B f = K +
        denseChisq (liveRows nrows (liveCols sqrt nrows ncols A) A).length (liveCols sqrt nrows ncols A).length
          (fun r c => A ((liveRows nrows (liveCols sqrt nrows ncols A) A).getD r 0) ((liveCols sqrt nrows ncols A).getD c 0) /
            colScale sqrt nrows A ((liveCols sqrt nrows ncols A).getD c 0))
          (fun r => B ((liveRows nrows (liveCols sqrt nrows ncols A) A).getD r 0)) W := by
  obtain ⟨I, hI⟩ : ∃ I, I = liveCols sqrt nrows ncols A := ⟨_, rfl⟩
  rw [← hI]
  refine ⟨∑ r ∈ Finset.range nrows, if (I.any (fun c => decide (A r c ≠ 0))) = true then 0 else B r ^ 2, fun f W hW => ?_⟩
  have hmem := fun c => mem_liveCols sqrt hs nrows ncols A c
  have hinner : ∀ r, r < nrows → ∑ c ∈ Finset.range ncols, A r c * f c = (I.map (fun c => A r c * f c)).sum := by
    intro r hr
    rw [hI]
    unfold liveCols
    rw [sum_map_filter]
    refine Finset.sum_congr rfl (fun c _ => ?_)
    by_cases h : colScale sqrt nrows A c = 0
    · rw [if_neg (by simpa using h), (colScale_zero sqrt hs nrows A c).mp h r hr, zero_mul]
    · rw [if_pos (by simpa using h)]
  have hd : ∀ r, ∑ c ∈ Finset.range I.length, A r (I.getD c 0) / colScale sqrt nrows A (I.getD c 0) * (W[c]?).getD 0 =
      (I.map (fun c => A r c * f c)).sum := by
    intro r
    rw [← sum_getD]
    refine Finset.sum_congr rfl (fun j hj => ?_)
    have hj := Finset.mem_range.mp hj
    rw [hW j hj]
    have hne : colScale sqrt nrows A (I.getD j 0) ≠ 0 := by
      have : I.getD j 0 ∈ liveCols sqrt nrows ncols A := by
        rw [← hI, List.getD_eq_getElem?_getD, List.getElem?_eq_getElem hj]
        exact List.getElem_mem _
      have := (List.mem_filter.mp this).2
      simpa using this
    field_simp
  unfold denseChisq resid
  simp only [hd]
  rw [sum_getD (liveRows nrows I A) (fun r => (B r - (I.map (fun c => A r c * f c)).sum) ^ 2)]
  unfold liveRows
  rw [sum_map_filter, ← Finset.sum_add_distrib]
  refine Finset.sum_congr rfl (fun r hr => ?_)
  have hr := Finset.mem_range.mp hr
  rw [hinner r hr]
  by_cases h : (I.any (fun c => decide (A r c ≠ 0))) = true
  · rw [if_pos h, if_pos h, zero_add]
  · rw [if_neg h, if_neg h, add_zero]
    have hz : (I.map (fun c => A r c * f c)).sum = 0 := by
      apply List.sum_eq_zero
      intro x hx
      obtain ⟨c, hc, rfl⟩ := List.mem_map.mp hx
      have : A r c = 0 := by
        by_contra h0
        exact h (List.any_eq_true.mpr ⟨c, hc, by simpa using h0⟩)
      rw [this, zero_mul]
    rw [hz, sub_zero]

/-- The solution of the cut system, with zeros for the columns removed, solves the whole. -/
theorem solve_ok (sqrt : R → R) (hs : ∀ x, 0 ≤ x → (sqrt x = 0 ↔ x = 0))
    (lstsq : Nat → Nat → Dense R → (Nat → R) → List R) (hls : DenseSolves lstsq) (nrows ncols : Nat) (A : Dense R)
    (B : Nat → R) :
    (solveCut sqrt lstsq nrows (liveCols sqrt nrows ncols A) A B).length = (liveCols sqrt nrows ncols A).length ∧
    ∀ f : Nat → R, resid nrows ncols A B (spread (liveCols sqrt nrows ncols A)
      (solveCut sqrt lstsq nrows (liveCols sqrt nrows ncols A) A B)) ≤ resid nrows ncols A B f := by
  obtain ⟨K, hK⟩ := resid_cut sqrt hs nrows ncols A B
  have hnd := liveCols_nodup sqrt nrows ncols A
  have hz : ∀ c ∈ liveCols sqrt nrows ncols A, colScale sqrt nrows A c ≠ 0 := by
    intro c hc
    have := (List.mem_filter.mp hc).2
    simpa using this
  obtain ⟨h1, h2⟩ := hls (liveRows nrows (liveCols sqrt nrows ncols A) A).length (liveCols sqrt nrows ncols A).length
          (fun r c => A ((liveRows nrows (liveCols sqrt nrows ncols A) A).getD r 0) ((liveCols sqrt nrows ncols A).getD c 0) /
            colScale sqrt nrows A ((liveCols sqrt nrows ncols A).getD c 0))
          (fun r => B ((liveRows nrows (liveCols sqrt nrows ncols A) A).getD r 0))
  have e : solveCut sqrt lstsq nrows (liveCols sqrt nrows ncols A) A B =
    (lstsq (liveRows nrows (liveCols sqrt nrows ncols A) A).length (liveCols sqrt nrows ncols A).length
          (fun r c => A ((liveRows nrows (liveCols sqrt nrows ncols A) A).getD r 0) ((liveCols sqrt nrows ncols A).getD c 0) /
            colScale sqrt nrows A ((liveCols sqrt nrows ncols A).getD c 0))
          (fun r => B ((liveRows nrows (liveCols sqrt nrows ncols A) A).getD r 0))).zipIdx.map
        (fun xj => xj.1 / colScale sqrt nrows A ((liveCols sqrt nrows ncols A).getD xj.2 0)) := rfl
  obtain ⟨X, hX⟩ : ∃ X, X = lstsq (liveRows nrows (liveCols sqrt nrows ncols A) A).length (liveCols sqrt nrows ncols A).length
          (fun r c => A ((liveRows nrows (liveCols sqrt nrows ncols A) A).getD r 0) ((liveCols sqrt nrows ncols A).getD c 0) /
            colScale sqrt nrows A ((liveCols sqrt nrows ncols A).getD c 0))
          (fun r => B ((liveRows nrows (liveCols sqrt nrows ncols A) A).getD r 0)) := ⟨_, rfl⟩
  rw [← hX] at h1 h2 e
  obtain ⟨I, hI⟩ : ∃ I, I = liveCols sqrt nrows ncols A := ⟨_, rfl⟩
  rw [← hI] at e h1 h2 hK hnd hz ⊢
  rw [e]
  have hget : ∀ j, j < I.length → I.idxOf (I.getD j 0) = j ∧ I.getD j 0 ∈ I := by
    intro j hj
    rw [List.getD_eq_getElem?_getD, List.getElem?_eq_getElem hj, Option.getD_some]
    exact ⟨hnd.idxOf_getElem j hj, List.getElem_mem _⟩
  refine ⟨by simpa using h1, fun f => ?_⟩
  rw [hK _ X ?_, hK f (I.map (fun c => f c * colScale sqrt nrows A c)) ?_]
  · exact add_le_add (le_refl K) (h2 _ (by simp))
  · intro j hj
    rw [List.getElem?_map, List.getElem?_eq_getElem hj, List.getD_eq_getElem?_getD, List.getElem?_eq_getElem hj]
    rfl
  · intro j hj
    obtain ⟨g1, g2⟩ := hget j hj
    unfold spread
    rw [if_pos g2, g1]
    have hjX : j < X.length := by omega
    rw [List.getD_eq_getElem?_getD (l := X.zipIdx.map _), List.getElem?_map, List.getElem?_zipIdx,
      List.getElem?_eq_getElem hjX]
    simp only [Option.map_some, Option.getD_some, Nat.zero_add]
    rw [div_mul_cancel₀ _ (hz _ g2)]

end

end Verif.Gpu
