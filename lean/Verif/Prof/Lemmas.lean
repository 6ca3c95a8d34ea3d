import Verif.Prof.Model
import Verif.Gauss.Spec
import Mathlib.Analysis.SpecialFunctions.PolarCoord
import Mathlib.MeasureTheory.Integral.IntervalIntegral.FundThmCalculus
import Mathlib.MeasureTheory.Integral.Prod
import Mathlib.Tactic.Linarith
import Mathlib.Tactic.FieldSimp

/-!
# Light of a Gaussian within an ellipse: lemmas
-/

namespace Verif.Prof

open Verif.Mog Verif.Gauss MeasureTheory Set

noncomputable section

/-- The disc of radius `r`, transformed by `T` and moved to `c`. -/
def ellipse (T : Mat ℝ) (c : ℝ × ℝ) (r : ℝ) : Set (ℝ × ℝ) :=
  {p | ∃ u w : ℝ, u ^ 2 + w ^ 2 ≤ r ^ 2 ∧ p = (T.xx * u + T.xy * w + c.1, T.yx * u + T.yy * w + c.2)}

/-- The determinant. -/
def det (T : Mat ℝ) : ℝ := T.xx * T.yy - T.xy * T.yx

/-- The disc. -/
def disc (r : ℝ) : Set (ℝ × ℝ) := {p | p.1 ^ 2 + p.2 ^ 2 ≤ r ^ 2}

theorem radial {v r : ℝ} (hv : 0 < v) (hr : 0 ≤ r) : ∫ x in Ioc 0 r, x * Real.exp (-x ^ 2 / (2 * v)) = v * (1 - Real.exp (-r ^ 2 / (2 * v))) := by
  have hd : ∀ x ∈ uIcc 0 r, HasDerivAt (fun x => -v * Real.exp (-x ^ 2 / (2 * v))) (x * Real.exp (-x ^ 2 / (2 * v))) x := by
    intro x _
    have h1 : HasDerivAt (fun x : ℝ => -x ^ 2 / (2 * v)) (-(2 * x) / (2 * v)) x := by
      have := ((hasDerivAt_pow 2 x).neg).div_const (2 * v)
      simpa using this
    have h2 := (h1.exp).const_mul (-v)
    refine h2.congr_deriv ?_
    field_simp
  rw [← intervalIntegral.integral_of_le hr, intervalIntegral.integral_eq_sub_of_hasDerivAt hd]
  · simp; ring
  · apply Continuous.intervalIntegrable
    fun_prop

theorem disc_light {v r : ℝ} (hv : 0 < v) (hr : 0 ≤ r) :
    ∫ p in disc r, Real.exp (-(p.1 ^ 2 + p.2 ^ 2) / (2 * v)) = 2 * Real.pi * v * (1 - Real.exp (-r ^ 2 / (2 * v))) := by
  have hm : MeasurableSet (disc r) := by
    unfold disc
    apply measurableSet_le <;> fun_prop
  rw [← integral_indicator hm, ← integral_comp_polarCoord_symm]
  have e : ∀ p ∈ polarCoord.target, p.1 • (disc r).indicator (fun p : ℝ × ℝ => Real.exp (-(p.1 ^ 2 + p.2 ^ 2) / (2 * v))) (polarCoord.symm p) =
      (Ioc 0 r).indicator (fun x => x * Real.exp (-x ^ 2 / (2 * v))) p.1 * (fun _ => (1 : ℝ)) p.2 := by
    intro p hp
    have hp0 : 0 < p.1 := hp.1
    have hsq : (polarCoord.symm p).1 ^ 2 + (polarCoord.symm p).2 ^ 2 = p.1 ^ 2 := by
      rw [polarCoord_symm_apply]
      dsimp only
      have := Real.cos_sq_add_sin_sq p.2
      calc _ = p.1 ^ 2 * (Real.cos p.2 ^ 2 + Real.sin p.2 ^ 2) := by ring
        _ = _ := by rw [this, mul_one]
    have hiff : polarCoord.symm p ∈ disc r ↔ p.1 ∈ Ioc 0 r := by
      change _ ^ 2 + _ ^ 2 ≤ r ^ 2 ↔ _
      rw [hsq, pow_le_pow_iff_left₀ hp0.le hr (by norm_num)]
      exact ⟨fun h => ⟨hp0, h⟩, fun h => h.2⟩
    by_cases h : p.1 ∈ Ioc 0 r
    · rw [indicator_of_mem (hiff.2 h), indicator_of_mem h, hsq]
      simp
    · rw [indicator_of_notMem (fun h' => h (hiff.1 h')), indicator_of_notMem h]
      simp
  rw [setIntegral_congr_fun polarCoord.open_target.measurableSet e]
  change ∫ z in (Ioi 0 ×ˢ Ioo (-Real.pi) Real.pi), _ ∂(volume.prod volume) = _
  rw [setIntegral_prod_mul (L := ℝ) (fun x => (Ioc 0 r).indicator (fun x => x * Real.exp (-x ^ 2 / (2 * v))) x) (fun _ => (1 : ℝ)),
    integral_indicator measurableSet_Ioc, Measure.restrict_restrict measurableSet_Ioc,
    inter_eq_left.2 (fun x hx => hx.1), radial hv hr]
  simp only [integral_const, MeasurableSet.univ, measureReal_restrict_apply, univ_inter, smul_eq_mul, mul_one]
  rw [Real.volume_real_Ioo_of_le (by linarith [Real.pi_pos])]
  ring

/-- The density of a round Gaussian, transformed, at a transformed point. -/
theorem density_affine {a v : ℝ} (hv : 0 < v) (T : Mat ℝ) (hT : det T ≠ 0) (c : ℝ × ℝ) (u w : ℝ) :
    |det T| * density { sandwich T ⟨a, 0, 0, v, 0, 0, v⟩ with mx := 0 + c.1, my := 0 + c.2 } (T.xx * u + T.xy * w + c.1) (T.yx * u + T.yy * w + c.2) =
      a / (2 * Real.pi * v) * Real.exp (-(u ^ 2 + w ^ 2) / (2 * v)) := by
  have hT' : 0 < |det T| := abs_pos.2 hT
  unfold density distSq sandwich
  dsimp only
  have hdet : (T.xx * v + T.xy * 0) * T.xx + (T.xx * 0 + T.xy * v) * T.xy = v * (T.xx ^ 2 + T.xy ^ 2) := by ring
  have hdet2 : (T.yx * v + T.yy * 0) * T.yx + (T.yx * 0 + T.yy * v) * T.yy = v * (T.yx ^ 2 + T.yy ^ 2) := by ring
  have hdet3 : (T.xx * v + T.xy * 0) * T.yx + (T.xx * 0 + T.xy * v) * T.yy = v * (T.xx * T.yx + T.xy * T.yy) := by ring
  rw [hdet, hdet2, hdet3]
  have hd : v * (T.xx ^ 2 + T.xy ^ 2) * (v * (T.yx ^ 2 + T.yy ^ 2)) - (v * (T.xx * T.yx + T.xy * T.yy)) ^ 2 = (v * |det T|) ^ 2 := by
    rw [mul_pow v |det T|, sq_abs]
    unfold det
    ring
  rw [hd, Real.sqrt_sq (by positivity)]
  have hq : (v * (T.yx ^ 2 + T.yy ^ 2) * (T.xx * u + T.xy * w + c.1 - (0 + c.1)) ^ 2 - 2 * (v * (T.xx * T.yx + T.xy * T.yy)) *
      ((T.xx * u + T.xy * w + c.1 - (0 + c.1)) * (T.yx * u + T.yy * w + c.2 - (0 + c.2))) +
      v * (T.xx ^ 2 + T.xy ^ 2) * (T.yx * u + T.yy * w + c.2 - (0 + c.2)) ^ 2) = v * |det T| ^ 2 * (u ^ 2 + w ^ 2) := by
    rw [sq_abs]
    unfold det
    ring
  rw [hq]
  have hx : -(v * |det T| ^ 2 * (u ^ 2 + w ^ 2) / (v * |det T|) ^ 2) / 2 = -(u ^ 2 + w ^ 2) / (2 * v) := by
    field_simp
  rw [hx]
  field_simp

/-- The linear map. -/
def lin (T : Mat ℝ) : ℝ × ℝ →L[ℝ] ℝ × ℝ :=
  LinearMap.toContinuousLinearMap (Matrix.toLin (Module.Basis.finTwoProd ℝ) (Module.Basis.finTwoProd ℝ) !![T.xx, T.xy; T.yx, T.yy])

theorem lin_det (T : Mat ℝ) : (lin T).det = det T := by
  unfold lin det
  simp only [LinearMap.det_toContinuousLinearMap, LinearMap.det_toLin, Matrix.det_fin_two_of]

theorem lin_apply (T : Mat ℝ) (p : ℝ × ℝ) : lin T p = (T.xx * p.1 + T.xy * p.2, T.yx * p.1 + T.yy * p.2) := by
  unfold lin
  simp [Matrix.toLin_finTwoProd_apply]

theorem ellipse_image (T : Mat ℝ) (c : ℝ × ℝ) (r : ℝ) : ellipse T c r = (fun p => lin T p + c) '' disc r := by
  ext p
  unfold ellipse disc
  simp only [mem_ofPred_eq, mem_image]
  constructor
  · rintro ⟨u, w, h, rfl⟩
    exact ⟨(u, w), h, by rw [lin_apply]; rfl⟩
  · rintro ⟨q, h, rfl⟩
    exact ⟨q.1, q.2, h, by rw [lin_apply]; rfl⟩

/-- Light of a round Gaussian, transformed, within the transformed disc. -/
theorem ellipse_light {a v r : ℝ} (hv : 0 < v) (hr : 0 ≤ r) (T : Mat ℝ) (hT : det T ≠ 0) (c : ℝ × ℝ) :
    ∫ p in ellipse T c r, density { sandwich T ⟨a, 0, 0, v, 0, 0, v⟩ with mx := 0 + c.1, my := 0 + c.2 } p.1 p.2 =
      a * (1 - Real.exp (-r ^ 2 / (2 * v))) := by
  have hm : MeasurableSet (disc r) := by
    unfold disc
    apply measurableSet_le <;> fun_prop
  have hinj : Function.Injective (fun p => lin T p + c) := by
    intro p q h
    have h := add_right_cancel h
    rw [lin_apply, lin_apply] at h
    simp only [Prod.mk.injEq] at h
    obtain ⟨h1, h2⟩ := h
    unfold det at hT
    ext
    · apply mul_left_cancel₀ hT
      linear_combination T.yy * h1 - T.xy * h2
    · apply mul_left_cancel₀ hT
      linear_combination T.xx * h2 - T.yx * h1
  rw [ellipse_image, integral_image_eq_integral_abs_det_fderiv_smul volume hm
    (f' := fun _ => lin T) (fun x _ => ((lin T).hasFDerivAt.add_const c).hasFDerivWithinAt) hinj.injOn]
  rw [lin_det]
  have e : ∀ p ∈ disc r, |det T| • density { sandwich T ⟨a, 0, 0, v, 0, 0, v⟩ with mx := 0 + c.1, my := 0 + c.2 } (lin T p + c).1 (lin T p + c).2 =
      a / (2 * Real.pi * v) * Real.exp (-(p.1 ^ 2 + p.2 ^ 2) / (2 * v)) := by
    intro p _
    rw [smul_eq_mul, lin_apply]
    exact density_affine hv T hT c p.1 p.2
  rw [setIntegral_congr_fun hm e, integral_const_mul, disc_light hv hr]
  have := Real.pi_pos
  field_simp

/-- Bounds of `exp (-q)` by powers. -/
theorem exp_bounds {q : ℝ} (hq : 0 ≤ q) : (max 0 (1 - q / 256)) ^ 256 ≤ Real.exp (-q) ∧ Real.exp (-q) ≤ 1 / (1 + q / 256) ^ 256 := by
  constructor
  · have h : max 0 (1 - q / 256) ≤ Real.exp (-(q / 256)) := max_le (Real.exp_nonneg _) (Real.one_sub_le_exp_neg _)
    calc _ ≤ Real.exp (-(q / 256)) ^ 256 := pow_le_pow_left₀ (le_max_left _ _) h _
      _ = _ := by rw [← Real.exp_nat_mul]; congr 1; push_cast; ring
  · have h : 1 + q / 256 ≤ Real.exp (q / 256) := by linarith [Real.add_one_le_exp (q / 256)]
    have h2 : (1 + q / 256) ^ 256 ≤ Real.exp q := by
      calc _ ≤ Real.exp (q / 256) ^ 256 := pow_le_pow_left₀ (by positivity) h _
        _ = _ := by rw [← Real.exp_nat_mul]; congr 1; push_cast; ring
    rw [Real.exp_neg, ← one_div]
    exact one_div_le_one_div_of_le (by positivity) h2

end

end Verif.Prof
