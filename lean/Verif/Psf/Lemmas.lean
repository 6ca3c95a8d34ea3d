import Verif.Psf.Model
import Mathlib.Tactic.Ring

namespace Verif.Psf

variable {R : Type} [Field R]

/-- The image, continued by zeros, shifted with the interpolation weights: the pixel at row `y`, column `x`
relative to the stamp. -/
def shiftedImage (kern : R → Nat → R) (img : Arr R) (dx dy : R) (y x : Int) : R :=
  ((List.range 7).map (fun j : Nat => kern dy j *
    ((List.range 7).map (fun i : Nat => kern dx i * ext img (y + j - 3) (x + i - 3))).sum)).sum

theorem ext_row (A : Arr R) (y x : Int) (h : ¬ (0 ≤ y ∧ y < A.h)) : ext A y x = 0 := by
  simp only [ext]; rw [if_neg]; omega

theorem ext_in (A : Arr R) (r c : Nat) (hr : r < A.h) (hc : c < A.w) : ext A r c = A.px r c := by
  simp only [ext]; rw [if_pos (by omega)]; simp

theorem sum_zero (l : List Nat) (f g : Nat → R) (h : ∀ i ∈ l, g i = 0) : (l.map (fun i => f i * g i)).sum = 0 := by
  induction l with
  | nil => rfl
  | cons a l ih => simp [h a (by simp), ih (fun i hi => h i (by simp [hi]))]

theorem ext_corrX (k : Nat → R) (A : Arr R) (y : Int) (c : Nat) (hc : c < A.w) :
    ext (corrX k A) y c = ((List.range 7).map (fun i : Nat => k i * ext A y (c + i - 3))).sum := by
  by_cases h : 0 ≤ y ∧ y < A.h
  · obtain ⟨n, rfl⟩ := Int.eq_ofNat_of_zero_le h.1
    rw [ext_in (corrX k A) n c (by have := h.2; simp only [corrX]; omega) hc]
    rfl
  · rw [ext_row _ _ _ (by simpa [corrX] using h), sum_zero]
    intro i _; exact ext_row A _ _ h

theorem lanczos_px (kern : R → Nat → R) (A : Arr R) (dx dy : R) (r c : Nat) (hc : c < A.w) :
    (lanczosShift kern A dx dy).px r c = shiftedImage kern A dx dy r c := by
  show ((List.range 7).map (fun i : Nat => kern dy i * ext (corrX (kern dx) A) (r + i - 3) c)).sum = _
  simp only [shiftedImage]
  congr 1
  refine List.map_congr_left (fun j _ => ?_)
  rw [ext_corrX _ _ _ _ hc]

theorem axis_of (n : Nat) (a b : Int) (ha : 0 ≤ a) (hb : 0 ≤ b) :
    Arr.axis n (some a) (some b) = (min a.toNat n, min b.toNat n - min a.toNat n) := by
  simp only [Arr.axis, Arr.bound, Option.map_some, Option.getD_some]
  rw [if_neg (by omega), if_neg (by omega)]

theorem overlap_some (a b n : Int) (h1 : a ≤ n) (h2 : 0 ≤ b) (h3 : a ≤ b) (h4 : 0 ≤ n) :
    overlapRegion a b 0 n = some ((max a 0, min b n + 1), (max a 0 - a, min b n - a + 1)) := by
  simp only [overlapRegion]; rw [if_neg (by omega)]

/-- The array covering the mask and its margin. -/
theorem insert_ok (img : Arr R) (ox oy : Int) (mh mw : Nat)
    (hx : ox - 3 ≤ (img.w : Int) - 1) (hx' : 0 ≤ ox + mw - 1 + 3) (hy : oy - 3 ≤ (img.h : Int) - 1)
    (hy' : 0 ≤ oy + mh - 1 + 3) (hh : 0 < img.h) (hw : 0 < img.w) :
    ∃ mm : Arr R, ((Arr.zeros (mh + 2 * 3) (mw + 2 * 3) : Arr R).modify
      (some (max (oy - 3) 0 - (oy - 3))) (some (min (oy + mh - 1 + 3) ((img.h : Int) - 1) - (oy - 3) + 1))
      (some (max (ox - 3) 0 - (ox - 3))) (some (min (ox + mw - 1 + 3) ((img.w : Int) - 1) - (ox - 3) + 1))
      (fun _ b => b)
      (img.slice (some (max (oy - 3) 0)) (some (min (oy + mh - 1 + 3) ((img.h : Int) - 1) + 1))
        (some (max (ox - 3) 0)) (some (min (ox + mw - 1 + 3) ((img.w : Int) - 1) + 1)))) = .ok mm ∧
      mm.h = mh + 6 ∧ mm.w = mw + 6 ∧
      ∀ r c : Nat, r < mh + 6 → c < mw + 6 → mm.px r c = ext img (r + oy - 3) (c + ox - 3) := by
  simp only [Arr.modify, Arr.slice, Arr.zeros]
  simp only [axis_of (mh + 2 * 3) _ _ (show 0 ≤ max (oy - 3) 0 - (oy - 3) by omega)
      (show 0 ≤ min (oy + mh - 1 + 3) ((img.h : Int) - 1) - (oy - 3) + 1 by omega),
    axis_of (mw + 2 * 3) _ _ (show 0 ≤ max (ox - 3) 0 - (ox - 3) by omega)
      (show 0 ≤ min (ox + mw - 1 + 3) ((img.w : Int) - 1) - (ox - 3) + 1 by omega),
    axis_of img.h _ _ (show 0 ≤ max (oy - 3) 0 by omega)
      (show 0 ≤ min (oy + mh - 1 + 3) ((img.h : Int) - 1) + 1 by omega),
    axis_of img.w _ _ (show 0 ≤ max (ox - 3) 0 by omega)
      (show 0 ≤ min (ox + mw - 1 + 3) ((img.w : Int) - 1) + 1 by omega)]
  rw [if_pos (by omega)]
  refine ⟨_, rfl, rfl, rfl, ?_⟩
  intro r c hr hc
  simp only [ext]
  by_cases h : 0 ≤ (r : Int) + oy - 3 ∧ (r : Int) + oy - 3 < img.h ∧ 0 ≤ (c : Int) + ox - 3 ∧ (c : Int) + ox - 3 < img.w
  · rw [if_pos h, if_pos (by omega)]
    congr 1 <;> omega
  · rw [if_neg h, if_neg (by omega)]

theorem masked_ok (kern : R → Nat → R) (img : Arr R) (x0 y0 : Int) (dx dy : R) (m : Mask)
    (hx : m.x0 < x0 + img.w) (hx' : x0 < m.x0 + m.w) (hy : m.y0 < y0 + img.h) (hy' : y0 < m.y0 + m.h)
    (hh : 0 < img.h) (hw : 0 < img.w) :
    ∃ p, maskedPixels kern img x0 y0 dx dy m = .ok p ∧ p.h = m.h ∧ p.w = m.w ∧
      ∀ r c : Nat, r < m.h → c < m.w →
        p.px r c = shiftedImage kern img dx dy (m.y0 + r - y0) (m.x0 + c - x0) := by
  obtain ⟨mm, e, h1, h2, hp⟩ := insert_ok img (m.x0 - x0) (m.y0 - y0) m.h m.w (by omega) (by omega) (by omega)
    (by omega) hh hw
  simp only [maskedPixels]
  rw [overlap_some _ _ _ (by omega) (by omega) (by omega) (by omega),
    overlap_some _ _ _ (by omega) (by omega) (by omega) (by omega)]
  simp only [] at e ⊢
  rw [e]
  refine ⟨_, rfl, ?_, ?_, ?_⟩
  · simp only [Arr.slice, lanczosShift, corrY, corrX, Arr.axis, Arr.bound, Option.map_some, Option.getD_some, h1]
    simp
    omega
  · simp only [Arr.slice, lanczosShift, corrY, corrX, Arr.axis, Arr.bound, Option.map_some, Option.getD_some, h2]
    simp
    omega
  · intro r c hr hc
    simp only [Arr.slice, Arr.axis, Arr.bound, Option.map_some, Option.getD_some]
    have n3 : ¬ (3 : Int) < 0 := by omega
    have hH : (lanczosShift kern mm dx dy).h = m.h + 6 := h1
    have hW : (lanczosShift kern mm dx dy).w = m.w + 6 := h2
    simp only [n3, if_false, hH, hW]
    rw [show min (Int.toNat 3) (m.h + 6) + r = 3 + r by simp,
      show min (Int.toNat 3) (m.w + 6) + c = 3 + c by simp,
      lanczos_px kern mm dx dy _ _ (by omega)]
    simp only [shiftedImage]
    congr 1
    refine List.map_congr_left (fun j hj => ?_)
    congr 2
    refine List.map_congr_left (fun i hi => ?_)
    congr 1
    rw [List.mem_range] at hi hj
    rw [show ((3 + r : Nat) : Int) + j - 3 = ((r + j : Nat) : Int) by omega,
      show ((3 + c : Nat) : Int) + i - 3 = ((c + i : Nat) : Int) by omega,
      ext_in mm _ _ (by omega) (by omega), hp _ _ (by omega) (by omega)]
    congr 1 <;> omega

end Verif.Psf
