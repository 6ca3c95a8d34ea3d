import Verif.Gauss.Spec
import Mathlib.Analysis.SpecialFunctions.Gaussian.FourierTransform
import Mathlib.Tactic.Ring
import Mathlib.Tactic.FieldSimp
import Mathlib.Tactic.Linarith
import Mathlib.Tactic.Positivity

/-!
# Lemmas: integrals of Gaussians
-/

namespace Verif.Gauss

open Verif.Mog (Comp Mix)
open Complex (I)
open MeasureTheory

/-- An integral of a Gaussian about `m`, with real width. -/
theorem integral_shifted (b m : ℝ) (hb : b < 0) (c d : ℂ) :
    ∫ x : ℝ, Complex.exp ((b : ℂ) * ((x - m : ℝ) : ℂ) ^ 2 + c * ((x - m : ℝ) : ℂ) + d) =
      ((Real.sqrt (Real.pi / -b) : ℝ) : ℂ) * Complex.exp (d - c ^ 2 / (4 * b)) := by
  rw [integral_sub_right_eq_self (fun x : ℝ => Complex.exp ((b : ℂ) * (x : ℂ) ^ 2 + c * (x : ℂ) + d)) m,
    integral_cexp_quadratic (by simpa using hb)]
  congr 1
  rw [Real.sqrt_eq_rpow, Complex.ofReal_cpow (div_nonneg Real.pi_pos.le (by linarith))]
  push_cast
  rfl

theorem integrable_shifted (b m : ℝ) (hb : b < 0) (c d : ℂ) :
    Integrable (fun x : ℝ => Complex.exp ((b : ℂ) * ((x - m : ℝ) : ℂ) ^ 2 + c * ((x - m : ℝ) : ℂ) + d)) :=
  (integrable_cexp_quadratic' (by simpa using hb) c d).comp_sub_right m

theorem vyy_pos {c : Comp ℝ} (hc : Proper c) : 0 < c.vyy := by
  obtain ⟨_, hv, hd⟩ := hc
  by_contra h
  have := mul_nonneg hv.le (neg_nonneg.mpr (not_lt.mp h))
  nlinarith [sq_nonneg c.vxy]

theorem integrand_x {c : Comp ℝ} (hc : Proper c) (v w x y : ℝ) :
    (density c x y : ℂ) * wave v w x y =
      ((c.amp / (2 * Real.pi * Real.sqrt (c.vxx * c.vyy - c.vxy ^ 2)) : ℝ) : ℂ) *
      Complex.exp (((-(c.vyy / (2 * (c.vxx * c.vyy - c.vxy ^ 2))) : ℝ) : ℂ) * ((x - c.mx : ℝ) : ℂ) ^ 2 +
        (((c.vxy * (y - c.my) / (c.vxx * c.vyy - c.vxy ^ 2) : ℝ) : ℂ) - ((2 * Real.pi * v : ℝ) : ℂ) * I) * ((x - c.mx : ℝ) : ℂ) +
        (((-(c.vxx * (y - c.my) ^ 2 / (2 * (c.vxx * c.vyy - c.vxy ^ 2))) : ℝ) : ℂ) -
          ((2 * Real.pi * (w * y + v * c.mx) : ℝ) : ℂ) * I)) := by
  have hne : ((c.vxx : ℂ) * c.vyy - c.vxy ^ 2) ≠ 0 := by
    have := ne_of_gt hc.2.2
    exact_mod_cast this
  unfold density wave
  rw [Complex.ofReal_mul, Complex.ofReal_exp, mul_assoc, ← Complex.exp_add]
  congr 2
  unfold distSq
  push_cast
  field_simp
  ring

theorem inner_integral {c : Comp ℝ} (hc : Proper c) (v w y : ℝ) :
    ∫ x : ℝ, (density c x y : ℂ) * wave v w x y =
      ((c.amp / (2 * Real.pi * Real.sqrt (c.vxx * c.vyy - c.vxy ^ 2)) *
        Real.sqrt (2 * Real.pi * (c.vxx * c.vyy - c.vxy ^ 2) / c.vyy) : ℝ) : ℂ) *
      Complex.exp (((-(1 / (2 * c.vyy)) : ℝ) : ℂ) * ((y - c.my : ℝ) : ℂ) ^ 2 +
        (-((2 * Real.pi * (w + v * c.vxy / c.vyy) : ℝ) : ℂ) * I) * ((y - c.my : ℝ) : ℂ) +
        (((-2 * Real.pi ^ 2 * v ^ 2 * (c.vxx * c.vyy - c.vxy ^ 2) / c.vyy : ℝ) : ℂ) -
          ((2 * Real.pi * (v * c.mx + w * c.my) : ℝ) : ℂ) * I)) := by
  have hD := vyy_pos hc
  have hd := hc.2.2
  have hDc : (c.vyy : ℂ) ≠ 0 := by exact_mod_cast ne_of_gt hD
  have hne : ((c.vxx : ℂ) * c.vyy - c.vxy ^ 2) ≠ 0 := by
    have := ne_of_gt hc.2.2
    exact_mod_cast this
  simp_rw [integrand_x hc]
  rw [integral_const_mul, integral_shifted _ _ (by have : 0 < c.vyy / (2 * (c.vxx * c.vyy - c.vxy ^ 2)) := by positivity
                                                   linarith)]
  have e1 : Real.pi / -(-(c.vyy / (2 * (c.vxx * c.vyy - c.vxy ^ 2)))) = 2 * Real.pi * (c.vxx * c.vyy - c.vxy ^ 2) / c.vyy := by
    field_simp
  rw [e1, ← mul_assoc, ← Complex.ofReal_mul]
  congr 2
  push_cast
  have hI : I ^ 2 = -1 := Complex.I_sq
  field_simp
  ring_nf
  simp only [hI]
  ring

theorem integrable_x {c : Comp ℝ} (hc : Proper c) (v w y : ℝ) : Integrable (fun x : ℝ => (density c x y : ℂ) * wave v w x y) := by
  have hD := vyy_pos hc
  have hd := hc.2.2
  simp_rw [integrand_x hc]
  exact (integrable_shifted _ _ (by have : 0 < c.vyy / (2 * (c.vxx * c.vyy - c.vxy ^ 2)) := by positivity
                                    linarith) _ _).const_mul _

theorem integrable_y {c : Comp ℝ} (hc : Proper c) (v w : ℝ) :
    Integrable (fun y : ℝ => ∫ x : ℝ, (density c x y : ℂ) * wave v w x y) := by
  have hD := vyy_pos hc
  simp_rw [inner_integral hc]
  exact (integrable_shifted _ _ (by have : 0 < 1 / (2 * c.vyy) := by positivity
                                    linarith) _ _).const_mul _

theorem double_integral {c : Comp ℝ} (hc : Proper c) (v w : ℝ) :
    ∫ y : ℝ, ∫ x : ℝ, (density c x y : ℂ) * wave v w x y =
      (c.amp : ℂ) * (Complex.exp ((-2 * Real.pi ^ 2 * (v * (c.vxx * v + c.vxy * w) + w * (c.vxy * v + c.vyy * w)) : ℝ)) *
        Complex.exp (((-2 * Real.pi * (v * c.mx + w * c.my) : ℝ) : ℂ) * I)) := by
  have hD := vyy_pos hc
  have hd := hc.2.2
  have hDc : (c.vyy : ℂ) ≠ 0 := by exact_mod_cast ne_of_gt hD
  simp_rw [inner_integral hc]
  rw [integral_const_mul, integral_shifted _ _ (by have : 0 < 1 / (2 * c.vyy) := by positivity
                                                   linarith), ← Complex.exp_add, ← mul_assoc, ← Complex.ofReal_mul]
  have e2 : c.amp / (2 * Real.pi * Real.sqrt (c.vxx * c.vyy - c.vxy ^ 2)) *
        Real.sqrt (2 * Real.pi * (c.vxx * c.vyy - c.vxy ^ 2) / c.vyy) * Real.sqrt (Real.pi / -(-(1 / (2 * c.vyy)))) = c.amp := by
    have hpi := Real.pi_pos
    rw [mul_assoc, ← Real.sqrt_mul (by positivity)]
    have : 2 * Real.pi * (c.vxx * c.vyy - c.vxy ^ 2) / c.vyy * (Real.pi / -(-(1 / (2 * c.vyy)))) =
        (2 * Real.pi) ^ 2 * (c.vxx * c.vyy - c.vxy ^ 2) := by field_simp
    rw [this, Real.sqrt_mul (by positivity), Real.sqrt_sq (by positivity)]
    have hs := Real.sqrt_pos.mpr hd
    field_simp
  rw [e2]
  congr 2
  push_cast
  have hI : I ^ 2 = -1 := Complex.I_sq
  field_simp
  ring_nf
  simp only [hI]
  ring

end Verif.Gauss
