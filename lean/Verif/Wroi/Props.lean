import Verif.Wroi.Model
import Verif.Galex.Props

/-!
# C181: which pixels of a WISE level-1b image are read
-/

namespace Verif.Wroi

open Verif.Galex (clip low high)

variable {K : Type} [Field K] [LinearOrder K] [FloorRing K]

/-- The outcome is the rectangle of exactly the pixels of an image that are in the set, or None if there is no such pixel. -/
def Takes (w h : Nat) (S : Nat → Nat → Prop) (res : Except PyErr (Option (Int × Int × Int × Int))) : Prop :=
  (res = .ok none ∧ ∀ i j, i < w → j < h → ¬ S i j) ∨
    ∃ x0 x1 y0 y1 : Int, res = .ok (some (x0, x1, y0, y1)) ∧ 0 ≤ x0 ∧ x0 < x1 ∧ x1 ≤ w ∧ 0 ≤ y0 ∧ y0 < y1 ∧ y1 ≤ h ∧
      ∀ i j : Nat, (x0 ≤ i ∧ (i : Int) < x1 ∧ y0 ≤ j ∧ (j : Int) < y1) ↔ i < w ∧ j < h ∧ S i j

theorem clip_bounds (v : Int) (n : Nat) : 0 ≤ clip v n ∧ clip v n ≤ n := by
  unfold clip
  omega

variable [IsStrictOrderedRing K]

theorem side (a b : K) (n i : Nat) : (clip ⌊a⌋ n ≤ i ∧ (i : Int) < clip ⌈b⌉ n) ↔ i < n ∧ a - 1 < i ∧ (i : K) < b := by
  rw [Galex.clip_range]
  have h1 : ⌊a⌋ ≤ (i : Int) ↔ a - 1 < i := by
    rw [← Int.lt_add_one_iff, Int.floor_lt]
    push_cast
    rw [sub_lt_iff_lt_add]
  have h2 : (i : Int) < ⌈b⌉ ↔ (i : K) < b := by
    rw [Int.lt_ceil]
    push_cast
    rfl
  rw [h1, h2]

theorem window_takes (w h : Nat) (a b c d : K) (hx : clip ⌊a⌋ w ≤ clip ⌈b⌉ w) (hy : clip ⌊c⌋ h ≤ clip ⌈d⌉ h) :
    Takes w h (fun i j => (a - 1 < i ∧ (i : K) < b) ∧ c - 1 < j ∧ (j : K) < d) (window w h (some (a, b, c, d))) := by
  have sx := side a b w
  have sy := side c d h
  have bx0 := clip_bounds ⌊a⌋ w
  have bx1 := clip_bounds ⌈b⌉ w
  have by0 := clip_bounds ⌊c⌋ h
  have by1 := clip_bounds ⌈d⌉ h
  unfold window
  dsimp only
  generalize clip ⌊a⌋ w = x0 at *
  generalize clip ⌈b⌉ w = x1 at *
  generalize clip ⌊c⌋ h = y0 at *
  generalize clip ⌈d⌉ h = y1 at *
  by_cases he : x0 = x1 ∨ y0 = y1
  · rw [if_pos he]
    refine .inl ⟨rfl, fun i j hi hj hS => ?_⟩
    have h1 := (sx i).mpr ⟨hi, hS.1⟩
    have h2 := (sy j).mpr ⟨hj, hS.2⟩
    omega
  · rw [if_neg he, if_neg (by omega), if_neg (by omega)]
    refine .inr ⟨x0, x1, y0, y1, rfl, bx0.1, by omega, bx1.2, by0.1, by omega, by1.2, fun i j => ?_⟩
    have h1 := sx i
    have h2 := sy j
    tauto

omit [IsStrictOrderedRing K] in
/-- **No region**: all pixels of the image. -/
theorem C181_whole (pix : K → K → K × K) (scale : K) (w h : Nat) : bounds pix scale w h ⟨none, none, none⟩ = .ok (some (0, (w : Int), 0, (h : Int))) := rfl

/-- **A rectangle of pixels** `(x0, x1, y0, y1)`, in order, alone: the pixels from the one that holds `x0` on, and before `x1`, and so for rows. -/
theorem C181_roi (pix : K → K → K × K) (scale : K) (w h : Nat) (a b c d : K) (hab : a ≤ b) (hcd : c ≤ d) :
    Takes w h (fun i j => (a - 1 < i ∧ (i : K) < b) ∧ c - 1 < j ∧ (j : K) < d) (bounds pix scale w h ⟨none, none, some (a, b, c, d)⟩) := by
  have hf : ∀ u v : K, u ≤ v → ⌊u⌋ ≤ ⌈v⌉ := fun u v huv => by
    have h1 : ((⌊u⌋ : Int) : K) ≤ u := Int.floor_le _
    have h2 : v ≤ ((⌈v⌉ : Int) : K) := Int.le_ceil _
    exact_mod_cast (by linarith : ((⌊u⌋ : Int) : K) ≤ ((⌈v⌉ : Int) : K))
  exact window_takes w h a b c d (Galex.clip_le _ _ w (hf a b hab)).2.1 (Galex.clip_le _ _ h (hf c d hcd)).2.1

/-- **A position with a radius** overrides the rectangle of pixels: exactly the pixels less than the radius and one pixel away from it in each direction. -/
theorem C181_radius (pix : K → K → K × K) (scale : K) (w h : Nat) (r d rad : K) (roi : Option (K × K × K × K)) (hp : 0 ≤ rad / (scale / 3600)) :
    Takes w h (fun i j => |(i : K) - (pix r d).1| < rad / (scale / 3600) + 1 ∧ |(j : K) - (pix r d).2| < rad / (scale / 3600) + 1)
      (bounds pix scale w h ⟨some (r, d, rad), none, roi⟩) := by
  have h0 := C181_roi pix scale w h ((pix r d).1 - rad / (scale / 3600)) ((pix r d).1 + rad / (scale / 3600) + 1) ((pix r d).2 - rad / (scale / 3600))
    ((pix r d).2 + rad / (scale / 3600) + 1) (by linarith) (by linarith)
  have e : ∀ (i : Nat) (x t : K), |(i : K) - x| < t + 1 ↔ x - t - 1 < i ∧ (i : K) < x + t + 1 := fun i x t => by
    rw [abs_lt]
    constructor
    · rintro ⟨h1, h2⟩
      exact ⟨by linarith, by linarith⟩
    · rintro ⟨h1, h2⟩
      exact ⟨by linarith, by linarith⟩
  simp only [e]
  exact h0

/-- **A rectangle in the sky** overrides both others: exactly the pixels less than one pixel away, in each direction, from the rectangle around its corners. -/
theorem C181_sky (pix : K → K → K × K) (scale : K) (w h : Nat) (ralo rahi declo dechi : K) (radecrad : Option (K × K × K)) (roi : Option (K × K × K × K)) :
    Takes w h (fun i j => ((∃ q ∈ [pix ralo declo, pix ralo dechi, pix rahi declo, pix rahi dechi], q.1 - 1 < i) ∧
        ∃ q ∈ [pix ralo declo, pix ralo dechi, pix rahi declo, pix rahi dechi], (i : K) < q.1 + 1) ∧
        (∃ q ∈ [pix ralo declo, pix ralo dechi, pix rahi declo, pix rahi dechi], q.2 - 1 < j) ∧
        ∃ q ∈ [pix ralo declo, pix ralo dechi, pix rahi declo, pix rahi dechi], (j : K) < q.2 + 1)
      (bounds pix scale w h ⟨radecrad, some (ralo, rahi, declo, dechi), roi⟩) := by
  have e : bounds pix scale w h ⟨radecrad, some (ralo, rahi, declo, dechi), roi⟩ =
      window w h (some (low ([pix ralo declo, pix ralo dechi, pix rahi declo, pix rahi dechi].map (·.1)), high ([pix ralo declo, pix ralo dechi, pix rahi declo, pix rahi dechi].map (·.1)) + 1,
        low ([pix ralo declo, pix ralo dechi, pix rahi declo, pix rahi dechi].map (·.2)), high ([pix ralo declo, pix ralo dechi, pix rahi declo, pix rahi dechi].map (·.2)) + 1)) := rfl
  rw [e]
  generalize hl : [pix ralo declo, pix ralo dechi, pix rahi declo, pix rahi dechi] = l
  have hne : l ≠ [] := by
    rw [← hl]
    simp
  have n1 : l.map (·.1) ≠ [] := fun hh => hne (List.map_eq_nil_iff.mp hh)
  have n2 : l.map (·.2) ≠ [] := fun hh => hne (List.map_eq_nil_iff.mp hh)
  have ht := window_takes w h _ _ _ _ (Galex.bounds_le (l.map (·.1)) n1 w).2.1 (Galex.bounds_le (l.map (·.2)) n2 h).2.1
  have e1 : ∀ (m : List K) (_ : m ≠ []) (i : Nat), (low m - 1 < i ∧ (i : K) < high m + 1) ↔ (∃ b ∈ m, b - 1 < i) ∧ ∃ b ∈ m, (i : K) < b + 1 := fun m hm i => by
    rw [sub_lt_iff_lt_add, Galex.low_lt m hm, ← sub_lt_iff_lt_add, Galex.lt_high m hm]
    simp only [sub_lt_iff_lt_add]
  simp only [e1 _ n1, e1 _ n2, List.mem_map, exists_exists_and_eq_and] at ht
  exact ht

/-- **A rectangle of pixels in the wrong order** that holds pixels of the image between its bounds: AssertionError. -/
theorem C181_wrong_order (pix : K → K → K × K) (scale : K) (w h : Nat) (a b c d : K) (hba : ⌈b⌉ < ⌊a⌋) (h0 : 0 ≤ ⌈b⌉) (hb : ⌈b⌉ < w) (hcd : clip ⌊c⌋ h < clip ⌈d⌉ h) :
    bounds pix scale w h ⟨none, none, some (a, b, c, d)⟩ = .error .assertion := by
  have hx : clip ⌈b⌉ w < clip ⌊a⌋ w := by
    unfold clip
    omega
  unfold bounds region window
  dsimp only
  rw [if_neg (by omega), if_pos (by omega)]

/-! An image of 10 by 8 pixels of one arcsecond, with positions in arcseconds. -/

def exPix (r d : ℚ) : ℚ × ℚ := (r, d)

-- radius 2 around (4, 3): columns 2 to 6, rows 1 to 5
example : bounds exPix 3600 10 8 ⟨some (4, 3, 2), none, none⟩ = .ok (some (2, 7, 1, 6)) := by decide +kernel

example := C181_radius exPix 3600 10 8 4 3 2 none (by norm_num)

example : bounds exPix 3600 10 8 ⟨some (4, 3, 2), some (7, 20, 1, 2), some (0, 1, 0, 1)⟩ = .ok (some (7, 10, 1, 3)) := by decide +kernel

example := C181_sky exPix 3600 10 8 7 20 1 2 (some (4, 3, 2)) (some (0, 1, 0, 1))

example := C181_roi exPix 3600 10 8 (3 / 2) (9 / 2) 2 3 (by norm_num) (by norm_num)

example : bounds exPix 3600 10 8 ⟨none, none, some (6, 2, 0, 8)⟩ = .error .assertion :=
  C181_wrong_order exPix 3600 10 8 6 2 0 8 (by decide +kernel) (by decide +kernel) (by decide +kernel) (by decide +kernel)

end Verif.Wroi
