import Verif.Gal.FreeLemmas
import Verif.Gal.PropsMask

/-!
# C96: galaxies rendered without a mask
-/

namespace Verif.Gal

open Verif.Psf (Zeros)

variable {R : Type} [Field R] [LinearOrder R] [IsStrictOrderedRing R] [FloorRing R]

/-- The pixel `(x, y)` is in the image and at most `d` pixels from the centre on each axis. -/
def Near (S : Scene R) (px py d : R) (x y : Int) : Prop :=
  (0 ≤ x ∧ x < S.W ∧ 0 ≤ y ∧ y < S.H) ∧ px - d ≤ x ∧ (x : R) ≤ px + d ∧ py - d ≤ y ∧ (y : R) ≤ py + d

/-- **C96 (pixelized PSF).** A galaxy with patch half size `h` between 4 and 2048, not below half of the stamp of the PSF, whose
centre is not more than `h` to the right of (below) the last column (row): either no model is returned, and no pixel of the
image is within `h` of the centre; or the model returned lies inside the image, contains every pixel of the image
within `h - 1` of the centre, and each of its pixels has the convolution interpolated at the sub-pixel position of the centre.
Missing: centres farther to the right or below (`C96_offimage_false`), the sizes at which nothing is
interpolated (`C95_subpixel`). -/
theorem C96_free_partial (E : Env R) (hz : Zeros E.lz) (hl : E.lib = true) (S : Scene R) (img : Arr R) (g : Galaxy R)
    (a : Args R) (px py h : R) (hg : g.patchSize px py = h) (h4 : 4 < h) (h4' : h ≤ 2048) (hh : img.h % 2 = 1)
    (hw : img.w % 2 = 1) (hh' : (img.h : R) ≤ 2 * h) (hw' : (img.w : R) ≤ 2 * h)
    (hb : px ≤ S.W + h - 1) (hb' : py ≤ S.H + h - 1) :
    (unitPatch E S (.pix img) g a px py none = .ok none ∧ ∀ x y, ¬ Near S px py h x y) ∨
    ∃ (n e : Nat) (pad G : Arr R) (ix iy jx jy : Int), n = 2 ^ e ∧
      unitPatch E S (.pix img) g a px py none = .ok (some ⟨jx, jy, some G⟩) ∧
      Embedded img n pad ∧ (-(1 / 2) ≤ px - ix ∧ px - ix ≤ 1 / 2) ∧ (-(1 / 2) ≤ py - iy ∧ py - iy ≤ 1 / 2) ∧
      0 ≤ jx ∧ 0 ≤ jy ∧ jx + G.w ≤ S.W ∧ jy + G.h ≤ S.H ∧
      (∀ x y, Near S px py (h - 1) x y → jx ≤ x ∧ x < jx + G.w ∧ jy ≤ y ∧ y < jy + G.h) ∧
      (∀ r c : Nat, r < G.h → c < G.w →
        (0 ≤ ((n / 2 : Nat) : Int) - 1 + (jy + r - iy) ∧ ((n / 2 : Nat) : Int) - 1 + (jy + r - iy) < n) ∧
        (0 ≤ ((n / 2 : Nat) : Int) - 1 + (jx + c - ix) ∧ ((n / 2 : Nat) : Int) - 1 + (jx + c - ix) < n) ∧
        G.px r c = convShifted E pad (some (g.sheared px py)) (px - ix) (py - iy)
          (((n / 2 : Nat) : Int) - 1 + (jy + r - iy)) (((n / 2 : Nat) : Int) - 1 + (jx + c - ix))) := by
  cases e : freeBox S px py h with
  | none =>
    left
    refine ⟨by unfold unitPatch; rw [hg, e], ?_⟩
    rintro x y ⟨⟨n1, n2, n3, n4⟩, n5⟩
    exact freeBox_none S px py h e x y n1 n2 n3 n4 n5
  | some b =>
    right
    obtain ⟨x0, x1, y0, y1⟩ := b
    obtain ⟨pad, G, ix, iy, jx, jy, hrun, c1, c2, c3, c4, c5, c6, c7, c8, c9⟩ := free_core E hz hl S (.pix img) img g a px py h hg
      h4 h4' hh hw hh' hw' hb hb' x0 x1 y0 y1 e _ rfl none (some (g.sheared px py)) rfl
    refine ⟨_, Nat.clog 2 ⌈2 * h⌉.toNat, pad, G, ix, iy, jx, jy, rfl, ?_, c1, c2, c3, c4, c5, c6, c7, ?_, c9⟩
    · unfold unitPatch
      rw [hg, e]
      simp only
      rw [hrun]
      rfl
    · rintro x y ⟨⟨n1, n2, n3, n4⟩, n5, n6, n7, n8⟩
      exact c8 x y n1 n2 n3 n4 (by linarith) (by linarith) (by linarith) (by linarith)

/-- The galaxy of the example with patch half size 5, near the right edge. -/
example : view [(0, 0), (5, 5)] (unitPatch (exEnv true) exScene (.pix exStamp) exGalaxy ⟨none, false, none⟩ (281 / 10) 11 none) =
    some [23, 6, 12, 7, 0, Psf.shiftedImage (Psf.weight Psf.exLz) ⟨3, 5, fun r c => 3 * (10 * r + c + 1)⟩ (1 / 10) 0 1 2] := by
  decide +kernel

/-- **C96 (Gaussian PSF).** With a mixture-of-Gaussians PSF and `minval` 0 or None: no model, and no pixel of the image is within
`h` of the centre; or a model that lies inside the image, contains every pixel of the image within `h` of the centre,
and has in each pixel the value of the profile convolved with the PSF. -/
theorem C96_gauss (E : Env R) (S : Scene R) (mix : R → R → Mog.Mix R) (g : Galaxy R) (a : Args R)
    (hm : a.minval = none ∨ a.minval = some 0) (px py h : R) (hg : g.patchSize px py = h) :
    (unitPatch E S (.gauss mix) g a px py none = .ok none ∧ ∀ x y, ¬ Near S px py h x y) ∨
    ∃ (G : Arr R) (jx jy : Int), unitPatch E S (.gauss mix) g a px py none = .ok (some ⟨jx, jy, some G⟩) ∧
      0 ≤ jx ∧ 0 ≤ jy ∧ jx + G.w ≤ S.W ∧ jy + G.h ≤ S.H ∧
      (∀ x y, Near S px py h x y → jx ≤ x ∧ x < jx + G.w ∧ jy ≤ y ∧ y < jy + G.h) ∧
      (∀ r c : Nat, r < G.h → c < G.w →
        G.px r c = E.value (Mog.convolve (g.affine px py) (mix px py)) (jy + r) (jx + c)) := by
  cases e : freeBox S px py h with
  | none =>
    left
    refine ⟨by unfold unitPatch; rw [hg, e], ?_⟩
    rintro x y ⟨⟨n1, n2, n3, n4⟩, n5⟩
    exact freeBox_none S px py h e x y n1 n2 n3 n4 n5
  | some b =>
    right
    obtain ⟨x0, x1, y0, y1⟩ := b
    obtain ⟨f1, f2, f3, f4, f5, f6⟩ := freeBox_some S px py h x0 x1 y0 y1 e
    refine ⟨⟨(y1 - y0).toNat, (x1 - x0).toNat, fun r c =>
      E.value (Mog.convolve (g.affine px py) (mix px py)) (y0 + r) (x0 + c)⟩, x0, y0, ?_, by omega, by omega, ?_, ?_, ?_,
      fun r c _ _ => rfl⟩
    · unfold unitPatch
      rw [hg, e]
      simp only [mixtureToPatch]
      rcases hm with h | h
      · rw [h]
        simp only [mixtureToPatch.grid]
        rw [if_neg (by omega)]
      · rw [h]
        simp only [mixtureToPatch.grid, if_true]
        rw [if_neg (by omega)]
    · show x0 + ((x1 - x0).toNat : Int) ≤ S.W
      omega
    · show y0 + ((y1 - y0).toNat : Int) ≤ S.H
      omega
    · rintro x y ⟨⟨n1, n2, n3, n4⟩, a, b, c, d⟩
      have fa : ⌊px - h⌋ ≤ x := by
        have : (⌊px - h⌋ : R) ≤ x := le_trans (Int.floor_le _) a
        exact_mod_cast this
      have fc : ⌊py - h⌋ ≤ y := by
        have : (⌊py - h⌋ : R) ≤ y := le_trans (Int.floor_le _) c
        exact_mod_cast this
      have fb : x ≤ ⌈px + h + 1⌉ := by
        have : (x : R) ≤ ⌈px + h + 1⌉ := le_trans (by linarith) (Int.le_ceil _)
        exact_mod_cast this
      have fd : y ≤ ⌈py + h + 1⌉ := by
        have : (y : R) ≤ ⌈py + h + 1⌉ := le_trans (by linarith) (Int.le_ceil _)
        exact_mod_cast this
      show x0 ≤ x ∧ x < x0 + ((x1 - x0).toNat : Int) ∧ y0 ≤ y ∧ y < y0 + ((y1 - y0).toNat : Int)
      omega

example : view [(0, 0), (3, 5)] (unitPatch (exEnv true) exScene (.gauss fun _ _ => []) exGalaxy ⟨none, false, some 0⟩ (281 / 10) 11
    none) = some [23, 6, 12, 7, 623, 928] := by
  decide +kernel

/-- **C96 (patch size).** The half size of a galaxy's patch is an integer, positive unless the image is empty, not below the radius of the PSF, and every pixel
of the image within `radius / pixscale - 1` pixels of the centre is within `h - 1` of it. -/
theorem C96_hogg (S : Scene R) (radius psfRadius px py : R) :
    ∃ k : Int, hoggPatchSize S radius psfRadius px py = k ∧ (0 < S.W → 1 ≤ k) ∧ psfRadius ≤ k ∧
      ∀ x y, Near S px py (radius / S.pixscale px py - 1) x y → Near S px py ((k : R) - 1) x y := by
  have hc := Int.le_ceil (max (min (max 1 (radius / S.pixscale px py))
    (max (max (max px ((S.W : R) - 1 - px)) py) ((S.H : R) - 1 - py) + 1)) psfRadius)
  refine ⟨⌈max (min (max 1 (radius / S.pixscale px py))
    (max (max (max px ((S.W : R) - 1 - px)) py) ((S.H : R) - 1 - py) + 1)) psfRadius⌉, rfl, ?_, le_trans (le_max_right _ _) hc, ?_⟩
  · intro hW
    have w1 : (1 : R) ≤ S.W := by exact_mod_cast hW
    have m12 := le_trans (le_max_left (max px ((S.W : R) - 1 - px)) py) (le_max_left _ ((S.H : R) - 1 - py))
    have m2 := le_trans (le_max_right px ((S.W : R) - 1 - px)) m12
    have m1 := le_trans (le_max_left px ((S.W : R) - 1 - px)) m12
    have hm : (1 : R) ≤ min (max 1 (radius / S.pixscale px py))
        (max (max (max px ((S.W : R) - 1 - px)) py) ((S.H : R) - 1 - py) + 1) :=
      le_min (le_max_left _ _) (by linarith)
    have := le_trans hm (le_trans (le_max_left _ _) hc)
    exact_mod_cast this
  · rintro x y ⟨⟨n1, n2, n3, n4⟩, a, b, c, d⟩
    refine ⟨⟨n1, n2, n3, n4⟩, ?_⟩
    have hm := le_trans (le_max_left _ _) hc
    have x1 : (0 : R) ≤ x := by exact_mod_cast n1
    have y1 : (0 : R) ≤ y := by exact_mod_cast n3
    have x2 : (x : R) + 1 ≤ S.W := by exact_mod_cast n2
    have y2 : (y : R) + 1 ≤ S.H := by exact_mod_cast n4
    rcases min_le_iff.mp hm with h | h
    · have := le_trans (le_max_right _ _) h
      refine ⟨?_, ?_, ?_, ?_⟩ <;> linarith
    · have m4 := le_max_right (max (max px ((S.W : R) - 1 - px)) py) ((S.H : R) - 1 - py)
      have m3 := le_trans (le_max_right (max px ((S.W : R) - 1 - px)) py) (le_max_left _ ((S.H : R) - 1 - py))
      have m12 := le_trans (le_max_left (max px ((S.W : R) - 1 - px)) py) (le_max_left _ ((S.H : R) - 1 - py))
      have m2 := le_trans (le_max_right px ((S.W : R) - 1 - px)) m12
      have m1 := le_trans (le_max_left px ((S.W : R) - 1 - px)) m12
      refine ⟨?_, ?_, ?_, ?_⟩ <;> linarith

/-- A galaxy of radius 6 near the corner of the image, and one larger than the image. -/
example : (hoggPatchSize exScene 6 2 (1 / 2) (1 / 3), hoggPatchSize exScene 600 2 (1 / 2) (1 / 3), hoggPatchSize exScene 6 (71 / 10) 3 3) =
    ((6, 30, 8) : ℚ × ℚ × ℚ) := by
  decide +kernel

/-- **C96 (negation).** Centre 8.9 pixels to the right of the last column (29), patch half size 8: the model returned begins at
column 31, outside the image, and is 15 columns wide. -/
theorem C96_offimage_false :
    view [] (unitPatch (exEnv true) exScene (.pix exStamp) { exGalaxy with patchSize := fun _ _ => 8 } ⟨none, false, none⟩
      (379 / 10) 11 none) = some [31, 4, 16, 15] := by
  decide +kernel

end Verif.Gal
