import Verif.Bin.Lemmas
import Verif.Coords.Model
import Mathlib.Tactic.NormNum

/-!
# Property theorems: rebinned images
-/

namespace Verif.Bin

open Verif.Mog (Comp Mix)

variable {R : Type} [Field R]

/-- An image of three rows and five columns. -/
def exData : Arr Rat := Arr.ofLists [[1, 2, 3, 4, 5], [6, 7, 8, 9, 10], [11, 12, 13, 14, 15]] 5

/-- Its inverse variances; the second block has no information. -/
def exInvvar : Arr Rat := Arr.ofLists [[1, 2, 0, 0, 1], [0, 1, 0, 0, 1], [1, 1, 1, 1, 1]] 5

/-- **C126 (false: Python 3).** Where `/` of two integers is a float, no image whatever can be rebinned. -/
theorem C126_python3_false [DecidableEq R] (data invvar : Arr R) (S : Nat) (hS : 0 < S) :
    scaleImage true data invvar S = .error .typeErr := by
  have h1 := trim_h data.h data.w S data rfl
  have h2 := trim_w data.h data.w S data rfl
  have hne : ¬ ((S * (data.h / S)) % S ≠ 0 ∨ (S * (data.w / S)) % S ≠ 0) := by simp
  simp only [scaleImage, if_neg (show ¬ S = 0 by omega), h1, h2, if_neg hne, if_true]

example : (scaleImage true exData exInvvar 2).toOption.isNone = true ∧ (scaleImage false exData exInvvar 2).toOption.isSome = true := by
  decide +kernel

/-- **C126 (pixels; part).** Where `/` of two integers is an integer (Python 2): the rebinned image has one pixel per whole block; its
inverse variance is the sum of those in the block, and its value the mean of those in the block weighted by inverse variance, zero if
there is no information at all.  Missing: Python 3, where nothing is computed (`C126_python3_false`). -/
theorem C126_mean_partial [DecidableEq R] (data invvar : Arr R) (S : Nat) (hS : 0 < S) (hsh : invvar.h = data.h ∧ invvar.w = data.w) :
    ∃ nd ni, scaleImage false data invvar S = .ok (nd, ni) ∧ (nd.h = data.h / S ∧ nd.w = data.w / S) ∧
      (ni.h = data.h / S ∧ ni.w = data.w / S) ∧
      ∀ r c, ni.px r c = blockSum S invvar.px r c ∧
        (blockSum S invvar.px r c = 0 → nd.px r c = 0) ∧
        (blockSum S invvar.px r c ≠ 0 →
          nd.px r c * blockSum S invvar.px r c = blockSum S (fun y x => data.px y x * invvar.px y x) r c) := by
  obtain ⟨nd, ni, h, h1, h2, h3⟩ := scale_ok data invvar S hS hsh
  refine ⟨nd, ni, h, h1, h2, fun r c => ?_⟩
  obtain ⟨h4, h5⟩ := h3 r c
  refine ⟨h4, fun h0 => ?_, fun h0 => ?_⟩
  · rw [h5, if_pos (h4.trans h0)]
  · rw [h5, h4, if_neg h0, div_mul_cancel₀ _ h0]

example : (scaleImage false exData exInvvar 2).toOption.map (fun p => (p.1.toLists, p.2.toLists)) = some ([[3, 0]], [[4, 0]]) := by
  decide +kernel

/-- **C126 (likelihood; part).** A model that is constant on each block fits the rebinned image exactly as well as the pixels of the
original image, up to the scatter of the pixels about the mean of their block, which does not depend on the model.  Missing: Python 3. -/
theorem C126_chi_partial [LinearOrder R] [IsStrictOrderedRing R] (data invvar : Arr R) (S : Nat) (hS : 0 < S)
    (hsh : invvar.h = data.h ∧ invvar.w = data.w) (hiv : ∀ y < data.h, ∀ x < data.w, 0 ≤ invvar.px y x) :
    ∃ nd ni, scaleImage false data invvar S = .ok (nd, ni) ∧
      ∀ m : Nat → Nat → R, chiSqBlocks S data invvar (fun y x => m (y / S) (x / S)) =
        chiSq nd ni m + chiSqBlocks S data invvar (fun y x => nd.px (y / S) (x / S)) := by
  obtain ⟨nd, ni, h, h1, _, h3⟩ := scale_ok data invvar S hS hsh
  refine ⟨nd, ni, h, fun m => ?_⟩
  rw [chi_blocks S hS, chi_blocks S hS data invvar nd.px, chiSq, h1.1, h1.2, ← Finset.sum_add_distrib]
  refine Finset.sum_congr rfl (fun r hr => ?_)
  rw [← Finset.sum_add_distrib]
  refine Finset.sum_congr rfl (fun c hc => ?_)
  rw [Finset.mem_range] at hr hc
  refine block_chi S invvar.px data.px r c (fun i hi j hj => hiv _ ?_ _ ?_) _ _ (h3 r c).1 (h3 r c).2 _
  · have h4 := Nat.div_mul_le_self data.h S
    have h5 : S * r + S ≤ data.h / S * S := by
      have := Nat.mul_le_mul_left S (show r + 1 ≤ data.h / S from hr)
      rw [Nat.mul_comm _ S]
      linarith
    omega
  · have h4 := Nat.div_mul_le_self data.w S
    have h5 : S * c + S ≤ data.w / S * S := by
      have := Nat.mul_le_mul_left S (show c + 1 ≤ data.w / S from hc)
      rw [Nat.mul_comm _ S]
      linarith
    omega

example : chiSqBlocks 2 exData exInvvar (fun y x => (fun (_ c : Nat) => if c = 0 then (1 : Rat) else 7) (y / 2) (x / 2)) = 38 ∧
    (scaleImage false exData exInvvar 2).toOption.map (fun p => (chiSq p.1 p.2 (fun _ c => if c = 0 then (1 : Rat) else 7),
      chiSqBlocks 2 exData exInvvar (fun y x => p.1.px (y / 2) (x / 2)))) = some (16, 22) := by
  decide +kernel

/-- **C126 (positions).** A position at the middle of block `(r, c)` is at the middle of pixel `(r, c)` of the rebinned image, and every
position within the pixels of that block is within half a pixel of it. -/
theorem C126_centre [LinearOrder R] [IsStrictOrderedRing R] (w : Coords.Wcs R) (S : Nat) (hS : 0 < S) (p : Coords.Pos R) (x y : R)
    (h : Coords.positionToPixel w p = .ok (x, y)) (r c : Nat) :
    ∃ x' y', Coords.positionToPixel (.scaled w (1 / (S : R))) p = .ok (x', y') ∧
      (x = S * c + (S - 1) / 2 ∧ y = S * r + (S - 1) / 2 → x' = c ∧ y' = r) ∧
      ((S * c - 1 / 2 ≤ x ∧ x ≤ S * c + S - 1 / 2) ↔ |x' - c| ≤ 1 / 2) ∧
      ((S * r - 1 / 2 ≤ y ∧ y ≤ S * r + S - 1 / 2) ↔ |y' - r| ≤ 1 / 2) := by
  have hS' : (0 : R) < S := by exact_mod_cast hS
  have key : ∀ (z : R) (n : Nat), (S * n - 1 / 2 ≤ z ∧ z ≤ S * n + S - 1 / 2) ↔ |(z + 1 / 2) * (1 / (S : R)) - 1 / 2 - n| ≤ 1 / 2 := by
    intro z n
    rw [abs_le, mul_one_div]
    have e1 : -(1 / 2) ≤ (z + 1 / 2) / (S : R) - 1 / 2 - n ↔ (n : R) ≤ (z + 1 / 2) / (S : R) := by constructor <;> intro h <;> linarith
    have e2 : (z + 1 / 2) / (S : R) - 1 / 2 - n ≤ 1 / 2 ↔ (z + 1 / 2) / (S : R) ≤ n + 1 := by constructor <;> intro h <;> linarith
    rw [e1, e2, le_div_iff₀ hS', div_le_iff₀ hS']
    constructor
    · rintro ⟨a, b⟩
      constructor <;> linarith
    · rintro ⟨a, b⟩
      constructor <;> linarith
  refine ⟨(x + 1 / 2) * (1 / (S : R)) - 1 / 2, (y + 1 / 2) * (1 / (S : R)) - 1 / 2, ?_, ?_, key x c, key y r⟩
  · simp [Coords.positionToPixel, h, Except.map]
  · rintro ⟨rfl, rfl⟩
    have := hS'.ne'
    constructor <;> field_simp <;> ring

example : Coords.positionToPixel (.scaled (.null 1 0 0) (1 / 3)) (.pix (10 : Rat) 4) = .ok (3, 1) := by decide +kernel

/-- **C126 (intensity).** The rebinned image of a point source, with a mixture of Gaussians as its PSF, has at each pixel the intensity
that the original image has at the middle of the block: counts, PSF and projection are scaled consistently. -/
theorem C126_intensity (w : Coords.Wcs ℝ) (S : Nat) (hS : 0 < S) (m : Mix ℝ) (counts : ℝ) (p : Coords.Pos ℝ) (x y x' y' : ℝ)
    (h : Coords.positionToPixel w p = .ok (x, y)) (h' : Coords.positionToPixel (.scaled w (1 / (S : ℝ))) p = .ok (x', y')) (r c : Nat) :
    scaledCounts ((1 / (S : ℝ)) ^ 2) counts * Gauss.densityMix (scaleBy m (1 / (S : ℝ))) (c - x') (r - y') =
      counts * Gauss.densityMix m (S * c + (S - 1) / 2 - x) (S * r + (S - 1) / 2 - y) := by
  have hS' : (0 : ℝ) < S := by exact_mod_cast hS
  simp only [Coords.positionToPixel, h, Except.map, Except.ok.injEq, Prod.mk.injEq] at h'
  obtain ⟨rfl, rfl⟩ := h'
  have e : ∀ (n : Nat) (z : ℝ), (n : ℝ) - ((z + 1 / 2) * (1 / (S : ℝ)) - 1 / 2) = (S * n + (S - 1) / 2 - z) * (1 / (S : ℝ)) := by
    intro n z
    have := hS'.ne'
    field_simp
    ring
  rw [e, e, densityMix_scale m _ (by positivity), scaledCounts]
  have := hS'.ne'
  field_simp

/-- A round Gaussian seen at its centre: the value is the same after rebinning by two. -/
example : scaledCounts ((1 / (2 : ℝ)) ^ 2) 5 * Gauss.densityMix (scaleBy [⟨1, 0, 0, 4, 0, 0, 4⟩] (1 / 2)) 0 0 =
    5 * (1 / (2 * Real.pi * 4)) := by
  have h : Real.sqrt ((4 * (1 / 2) ^ 2) * (4 * (1 / 2) ^ 2) - (0 * (1 / 2) ^ 2) ^ 2) = 1 := by norm_num
  simp only [scaledCounts, scaleBy, Gauss.densityMix, Gauss.density, Gauss.distSq, List.map_cons, List.map_nil, List.sum_cons, List.sum_nil, h]
  norm_num
  have := Real.pi_pos.ne'
  field_simp

end Verif.Bin
