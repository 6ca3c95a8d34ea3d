import Verif.Ell.Model
import Mathlib.Tactic.Linarith
import Mathlib.Tactic.FieldSimp
import Mathlib.Tactic.Ring

/-!
# Helper lemmas about ellipses
-/

namespace Verif.Ell

open Verif

theorem hypot_nonneg (x y : ℝ) : 0 ≤ hypot x y := Real.sqrt_nonneg _

theorem hypot_polar (e a : ℝ) : hypot (e * Real.cos a) (e * Real.sin a) = |e| := by
  unfold hypot
  rw [show (e * Real.cos a) ^ 2 + (e * Real.sin a) ^ 2 = e ^ 2 * (Real.cos a ^ 2 + Real.sin a ^ 2) from by ring,
    Real.cos_sq_add_sin_sq, mul_one, Real.sqrt_sq_eq_abs]

theorem hypot_norm (x y : ℝ) : ‖(⟨x, y⟩ : ℂ)‖ = hypot x y := by
  unfold hypot
  rw [Complex.norm_def, Complex.normSq_mk]
  congr 1; ring

theorem hypot_cos (x y : ℝ) : hypot x y * Real.cos (atan2 y x) = x := by
  rw [← hypot_norm]; exact Complex.norm_mul_cos_arg _

theorem hypot_sin (x y : ℝ) : hypot x y * Real.sin (atan2 y x) = y := by
  rw [← hypot_norm]; exact Complex.norm_mul_sin_arg _

theorem hypot_eq_zero {x y : ℝ} (h : hypot x y = 0) : x = 0 ∧ y = 0 := by
  have h1 := hypot_cos x y
  have h2 := hypot_sin x y
  rw [h, zero_mul] at h1 h2
  exact ⟨h1.symm, h2.symm⟩

/-- Angles with the same sine and cosine. -/
theorem same_angle {a b : ℝ} (h1 : Real.cos a = Real.cos b) (h2 : Real.sin a = Real.sin b) :
    ∃ k : ℤ, a = b + k * (2 * Real.pi) := by
  have h : Real.cos (a - b) = 1 := by
    rw [Real.cos_sub, h1, h2, ← sq, ← sq, Real.cos_sq_add_sin_sq]
  obtain ⟨k, hk⟩ := (Real.cos_eq_one_iff _).1 h
  exact ⟨k, by linarith⟩

theorem atan2_polar {e a : ℝ} (he : 0 < e) :
    ∃ k : ℤ, atan2 (e * Real.sin a) (e * Real.cos a) = a + k * (2 * Real.pi) := by
  have h1 := hypot_cos (e * Real.cos a) (e * Real.sin a)
  have h2 := hypot_sin (e * Real.cos a) (e * Real.sin a)
  rw [hypot_polar, abs_of_pos he] at h1 h2
  exact same_angle (mul_left_cancel₀ he.ne' h1) (mul_left_cancel₀ he.ne' h2)

theorem radians_degrees (x : ℝ) : radians (degrees x) = x := by
  unfold radians degrees
  have := Real.pi_ne_zero
  field_simp

theorem abOf_pos {e : ℝ} (h0 : 0 ≤ e) (h1 : e < 1) : 0 < abOf e ∧ abOf e ≤ 1 := by
  unfold abOf
  constructor
  · apply div_pos <;> linarith
  · rw [div_le_one (by linarith)]; linarith

theorem abOf_inv {ba : ℝ} (h0 : 0 < ba) : abOf ((1 / ba - 1) / (1 / ba + 1)) = ba := by
  unfold abOf
  have h1 : (1 : ℝ) / ba + 1 ≠ 0 := by positivity
  have h2 : 1 + (1 / ba - 1) / (1 / ba + 1) ≠ 0 := by
    rw [show 1 + (1 / ba - 1) / (1 / ba + 1) = 2 / ba / (1 / ba + 1) from by field_simp; ring]
    positivity
  rw [div_eq_iff h2]
  field_simp
  ring

theorem ecc_range {ba : ℝ} (h0 : 0 < ba) (h1 : ba ≤ 1) :
    0 ≤ (1 / ba - 1) / (1 / ba + 1) ∧ (1 / ba - 1) / (1 / ba + 1) < 1 ∧ (ba < 1 → 0 < (1 / ba - 1) / (1 / ba + 1)) := by
  have h2 : (1 : ℝ) ≤ 1 / ba := by rw [le_div_iff₀ h0]; linarith
  have h3 : (0 : ℝ) < 1 / ba + 1 := by positivity
  refine ⟨div_nonneg (by linarith) h3.le, by rw [div_lt_one h3]; linarith, fun h => div_pos ?_ h3⟩
  have : (1 : ℝ) < 1 / ba := by rw [lt_div_iff₀ h0]; linarith
  linarith

theorem pyDiv_ok {a b : ℝ} (h : b ≠ 0) : pyDiv a b = .ok (a / b) := by unfold pyDiv; rw [if_neg h]

theorem pyLog_ok {a : ℝ} (h : 0 < a) : pyLog a = .ok (Real.log a) := by unfold pyLog; rw [if_neg (not_le.mpr h)]

theorem fromRAbPhi_ok (r : ℝ) {ba : ℝ} (phi : ℝ) (h0 : 0 < ba) :
    fromRAbPhi r ba phi = .ok ⟨r, (1 / ba - 1) / (1 / ba + 1) * Real.cos (radians (2 * (-phi))),
      (1 / ba - 1) / (1 / ba + 1) * Real.sin (radians (2 * (-phi)))⟩ := by
  unfold fromRAbPhi
  rw [pyDiv_ok h0.ne']
  have : (1 : ℝ) / ba + 1 ≠ 0 := by positivity
  show (pyDiv (1 / ba - 1) (1 / ba + 1) >>= _) = _
  rw [pyDiv_ok this]
  rfl

theorem softe_range (x : ℝ) (h : 0 ≤ x) : 0 ≤ 1 - Real.exp (-x) ∧ 1 - Real.exp (-x) < 1 := by
  have h1 := Real.exp_pos (-x)
  have h2 : Real.exp (-x) ≤ 1 := by rw [Real.exp_le_one_iff]; linarith
  constructor <;> linarith

end Verif.Ell
