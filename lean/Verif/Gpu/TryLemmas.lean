import Verif.Gpu.TrySpec
import Verif.Gpu.Lemmas4
import Mathlib.Tactic.Ring
import Mathlib.Algebra.BigOperators.Ring.Finset
import Mathlib.Algebra.BigOperators.Intervals

/-!
# Chi images of the GPU line search
-/

namespace Verif.Gpu

open Verif Verif.Psf Verif.Params Verif.Opt

variable {R : Type}

/-- The two slices of one axis: same length, and `r` in the first corresponds to `r - d` in the second. -/
theorem shift_axis (n : Nat) (d : Int) : ∃ i j k, Arr.axis n (shiftSlices d).1.1 (shiftSlices d).1.2 = (i, k) ∧
    Arr.axis n (shiftSlices d).2.1 (shiftSlices d).2.2 = (j, k) ∧
    ∀ r : Nat, r < n → ((i ≤ r ∧ r < i + k) ↔ (0 ≤ (r : Int) - d ∧ (r : Int) - d < n)) ∧
      (i ≤ r ∧ r < i + k → ((j + (r - i) : Nat) : Int) = r - d) := by
  unfold shiftSlices
  by_cases h1 : d > 0
  · rw [if_pos h1]
    refine ⟨min d.toNat n, 0, n - min d.toNat n, ?_, ?_, ?_⟩
    · simp only [Arr.axis, Arr.bound, Option.map_some, Option.map_none, Option.getD_some, Option.getD_none, Prod.mk.injEq]
      rw [if_neg (by omega)]
      exact ⟨rfl, rfl⟩
    · simp only [Arr.axis, Arr.bound, Option.map_some, Option.map_none, Option.getD_some, Option.getD_none, Prod.mk.injEq]
      rw [if_pos (by omega)]
      exact ⟨trivial, by omega⟩
    · intro r hr
      refine ⟨by omega, by omega⟩
  · rw [if_neg h1]
    by_cases h2 : d = 0
    · rw [if_pos h2]
      exact ⟨0, 0, n, rfl, rfl, fun r hr => ⟨by omega, by omega⟩⟩
    · rw [if_neg h2]
      refine ⟨0, min (-d).toNat n, n - min (-d).toNat n, ?_, ?_, ?_⟩
      · simp only [Arr.axis, Arr.bound, Option.map_some, Option.map_none, Option.getD_some, Option.getD_none, Prod.mk.injEq]
        rw [if_pos (by omega)]
        exact ⟨trivial, by omega⟩
      · simp only [Arr.axis, Arr.bound, Option.map_some, Option.map_none, Option.getD_some, Option.getD_none, Prod.mk.injEq]
        rw [if_neg (by omega)]
        exact ⟨rfl, rfl⟩
      · intro r hr
        refine ⟨by omega, by omega⟩

variable [Field R]

/-- Chi: the model moved by the whole-pixel shift. -/
theorem chiOf_ok [LinearOrder R] (sz : Nat) (p : Padded R) (z : Shot R) (m : Arr R) (h1 : p.padpix.h = sz) (h2 : p.padpix.w = sz)
    (h3 : m.h = sz) (h4 : m.w = sz) :
    ∃ C, chiOf p z m = .ok C ∧ C.h = sz ∧ C.w = sz ∧ ∀ r c : Nat, r < sz → c < sz →
      C.px r c = (p.padpix.px r c - (ext m (r - z.dy) (c - z.dx) + z.sb)) * p.padie.px r c := by
  unfold chiOf
  by_cases h0 : z.dx = 0 ∧ z.dy = 0
  · rw [if_pos h0]
    refine ⟨_, rfl, h1, h2, fun r c hr hc => ?_⟩
    rw [h0.1, h0.2, Int.sub_zero, Int.sub_zero, ext_in m r c (by omega) (by omega)]
  · rw [if_neg h0]
    obtain ⟨i, j, k, a1, a2, a3⟩ := shift_axis sz z.dy
    obtain ⟨i', j', k', b1, b2, b3⟩ := shift_axis sz z.dx
    simp only
    rw [slice_of m _ _ _ _ j k j' k' (by rw [h3]; exact a2) (by rw [h4]; exact b2),
      modify_of (p.padpix.map (· - z.sb)) _ _ _ _ _ _ i k i' k' (by simp only [Arr.map]; rw [h1]; exact a1)
        (by simp only [Arr.map]; rw [h2]; exact b1) rfl rfl]
    refine ⟨_, rfl, h1, h2, fun r c hr hc => ?_⟩
    obtain ⟨c1, c2⟩ := a3 r hr
    obtain ⟨d1, d2⟩ := b3 c hc
    simp only [Arr.map]
    congr 1
    by_cases hin : i ≤ r ∧ r < i + k ∧ i' ≤ c ∧ c < i' + k'
    · rw [if_pos hin]
      have e1 := c2 ⟨hin.1, hin.2.1⟩
      have e2 := d2 hin.2.2
      have f1 := c1.mp ⟨hin.1, hin.2.1⟩
      have f2 := d1.mp hin.2.2
      rw [← e1, ← e2, ext_in m _ _ (by omega) (by omega)]
      ring
    · rw [if_neg hin]
      have : ext m (r - z.dy) (c - z.dx) = 0 := by
        unfold ext
        rw [if_neg]
        intro hcon
        apply hin
        rw [h3, h4] at hcon
        have := c1.mpr ⟨hcon.1, hcon.2.1⟩
        have := d1.mpr ⟨hcon.2.2.1, hcon.2.2.2⟩
        omega
      rw [this]
      ring

theorem ravel_sum (h w : Nat) (f : Nat → Nat → R) :
    (Arr.ravel ⟨h, w, f⟩).sum = ∑ r ∈ Finset.range h, ∑ c ∈ Finset.range w, f r c := by
  unfold Arr.ravel
  simp only
  have key : ∀ (l : List Nat) (g : Nat → List R), (l.flatMap g).sum = (l.map (fun r => (g r).sum)).sum := by
    intro l g
    induction l with
    | nil => simp
    | cons a l ih => simp [ih]
  rw [key, ← List.sum_toFinset _ List.nodup_range, List.toFinset_range]
  refine Finset.sum_congr rfl (fun r _ => ?_)
  rw [← List.sum_toFinset _ List.nodup_range, List.toFinset_range]

/-- The difference of the sums of squares. -/
theorem dchisq_eq (sz : Nat) (A B : Arr R) (h : B.h = sz) (w : B.w = sz) :
    dchisqOf A B = (∑ r ∈ Finset.range sz, ∑ c ∈ Finset.range sz, B.px r c ^ 2) -
      ∑ r ∈ Finset.range sz, ∑ c ∈ Finset.range sz, A.px r c ^ 2 := by
  unfold dchisqOf
  simp only [Arr.map]
  rw [ravel_sum, ravel_sum, h, w, Finset.mul_sum, ← Finset.sum_add_distrib, ← Finset.sum_sub_distrib]
  refine Finset.sum_congr rfl (fun r _ => ?_)
  rw [Finset.mul_sum, ← Finset.sum_add_distrib, ← Finset.sum_sub_distrib]
  refine Finset.sum_congr rfl (fun c _ => ?_)
  ring

/-- A sum over the pixels of an array, all outside an interval being zero. -/
theorem sum_shift (sz : Nat) (o a b : Int) (ha : o ≤ a) (hb : b ≤ o + sz) (f : Int → R) :
    ∑ r ∈ Finset.range sz, (if a ≤ o + (r : Int) ∧ o + (r : Int) < b then f (o + r) else 0) = ∑ y ∈ Finset.Ico a b, f y := by
  rw [← Finset.sum_filter]
  refine Finset.sum_bij (fun r _ => o + (r : Int)) ?_ ?_ ?_ ?_
  · intro r hr
    simp only [Finset.mem_filter, Finset.mem_range] at hr
    simp only [Finset.mem_Ico]
    omega
  · intro r _ s _ h
    omega
  · intro y hy
    simp only [Finset.mem_Ico] at hy
    refine ⟨(y - o).toNat, ?_, by omega⟩
    simp only [Finset.mem_filter, Finset.mem_range]
    omega
  · intro r _
    rfl

/-- The sum of squares of chi is chi-squared of the mask. -/
theorem chi_sum [LinearOrder R] (t : Tim R) (sz : Nat) (ipx ipy : Int) (p : Padded R) (hl : Layout t sz ipx ipy p) (hf : Fits t)
    (M : Int → Int → R) (sb : R) (g : Nat → Nat → R)
    (hg : ∀ r c : Nat, r < sz → c < sz → g r c = if InMask t (p.padx0 + c) (p.pady0 + r) then
      (t.pix.px (p.pady0 + r).toNat (p.padx0 + c).toNat - (M (p.padx0 + c) (p.pady0 + r) + sb)) *
        t.ie.px (p.pady0 + r).toNat (p.padx0 + c).toNat else 0) :
    ∑ r ∈ Finset.range sz, ∑ c ∈ Finset.range sz, g r c ^ 2 = chiSqOne t M sb := by
  have hx := hf.x
  have hy := hf.y
  have m0 := hl.margin t.x0 t.y0 (by unfold InMask; omega)
  have m1 := hl.margin (t.x1 - 1) (t.y1 - 1) (by unfold InMask; omega)
  unfold chiSqOne
  rw [← sum_shift sz p.pady0 t.y0 t.y1 (by omega) (by omega)]
  refine Finset.sum_congr rfl (fun r hr => ?_)
  rw [Finset.mem_range] at hr
  by_cases h : t.y0 ≤ p.pady0 + (r : Int) ∧ p.pady0 + (r : Int) < t.y1
  · rw [if_pos h, ← sum_shift sz p.padx0 t.x0 t.x1 (by omega) (by omega)]
    refine Finset.sum_congr rfl (fun c hc => ?_)
    rw [Finset.mem_range] at hc
    rw [hg r c hr hc]
    by_cases h' : t.x0 ≤ p.padx0 + (c : Int) ∧ p.padx0 + (c : Int) < t.x1
    · rw [if_pos h', if_pos (by unfold InMask; omega)]
    · rw [if_neg h', if_neg (by unfold InMask; omega)]
      ring
  · rw [if_neg h]
    refine Finset.sum_eq_zero (fun c hc => ?_)
    rw [Finset.mem_range] at hc
    rw [hg r c hr hc, if_neg (by unfold InMask; omega)]
    ring

end Verif.Gpu
