import Verif.Bright.Lemmas
import Mathlib.Analysis.SpecialFunctions.Log.Deriv

/-!
# C43, C89: magnitudes, fluxes, zeropoints, errors

The flux of a magnitude `m` is `10^(-0.4 m)` in units of that of magnitude 0; magnitude +inf stands for no flux.
-/

namespace Verif.Bright

open Verif

/-- Negative, or NaN. -/
def Unphysical (f : F) : Prop := f = .nan ∨ f = .ninf ∨ ∃ x : ℝ, f = .fin x ∧ x < 0

theorem nonneg_iff (f : F) : nonneg f ↔ ¬ Unphysical f := by
  cases f with
  | nan => simp [nonneg, Unphysical]
  | ninf => simp [nonneg, Unphysical]
  | pinf => simp [nonneg, Unphysical]
  | fin x => simp [nonneg, Unphysical]

/-- Magnitudes (also infinite ones) survive conversion to nanomaggies and back; fluxes survive conversion to magnitudes and
back unless negative, which give NaN. -/
theorem C43_nanomaggies :
    (∀ m : F, nanomaggiesToMag (magToNanomaggies m) = m) ∧
    (∀ f : F, ¬ Unphysical f → magToNanomaggies (nanomaggiesToMag f) = f) ∧
    (∀ f : F, Unphysical f → nanomaggiesToMag f = .nan) := by
  refine ⟨nmgyToMag_magToNmgy, fun f h => magToNmgy_nmgyToMag f ((nonneg_iff f).mpr h), fun f h => ?_⟩
  unfold nanomaggiesToMag
  rw [log10_nan f (fun hn => (nonneg_iff f).mp hn h)]; rfl

/-- A nanomaggie is magnitude 22.5, ten times the flux 2.5 magnitudes brighter. -/
theorem C43_reference : nanomaggiesToMag (.fin 1) = .fin 22.5 ∧ nanomaggiesToMag (.fin 10) = .fin 20 ∧
    zeropointToScale (.fin 22.5) = .fin 1 := by
  have h10 : Real.logb 10 10 = 1 := Real.logb_self_eq_one (by norm_num)
  refine ⟨?_, ?_, ?_⟩
  · simp [nanomaggiesToMag, mul, Num.sub, Num.add, Num.neg]; norm_num
  · unfold nanomaggiesToMag
    rw [log10_fin_pos (by norm_num), h10]; simp [mul, Num.sub, Num.add, Num.neg]; norm_num
  · simp [zeropointToScale, divBy, pow10, mul, Num.sub, Num.add, Num.neg]

/-- Brighter means a smaller magnitude. -/
theorem C43_order (m m' : ℝ) : ∃ f f' : ℝ, magToNanomaggies (.fin m) = .fin f ∧ magToNanomaggies (.fin m') = .fin f' ∧
    0 < f ∧ (m < m' ↔ f' < f) := by
  refine ⟨(10:ℝ) ^ ((m - 22.5) / -2.5), (10:ℝ) ^ ((m' - 22.5) / -2.5), ?_, ?_, pow_pos' _, ?_⟩
  · unfold magToNanomaggies; rw [divBy_neg (by norm_num)]; simp [Num.sub, Num.add, Num.neg, pow10, sub_eq_add_neg]
  · unfold magToNanomaggies; rw [divBy_neg (by norm_num)]; simp [Num.sub, Num.add, Num.neg, pow10, sub_eq_add_neg]
  · rw [Real.rpow_lt_rpow_left_iff (by norm_num : (1:ℝ) < 10)]
    rw [div_lt_div_right_of_neg (by norm_num : (-2.5:ℝ) < 0)]
    constructor
    · intro h; linarith
    · intro h; linarith

example : (17 : ℝ) < 22.5 := by norm_num

/-- Zeropoints and scales convert back and forth. -/
theorem C43_zeropoint :
    (∀ z : F, scaleToZeropoint (zeropointToScale z) = z) ∧
    (∀ s : F, ¬ Unphysical s → zeropointToScale (scaleToZeropoint s) = s) :=
  ⟨scaleToZp_zpToScale, fun s h => zpToScale_scaleToZp s ((nonneg_iff s).mpr h)⟩

/-- Non-vacuity. -/
example : ¬ Unphysical (.fin 12) ∧ Unphysical (.fin (-3)) := by
  constructor
  · rintro (h | h | ⟨x, h, hx⟩)
    · cases h
    · cases h
    · injection h with h; subst h; norm_num at hx
  · exact .inr (.inr ⟨_, rfl, by norm_num⟩)

theorem countsOfMag_fin (zp m : ℝ) (h : m ≤ 50) : countsOfMag zp (.fin m) = .fin ((10:ℝ) ^ (0.4 * (zp - m))) := by
  simp [countsOfMag, Num.isFinite, Num.lt, not_lt.mpr h, mul, Num.sub, Num.add, Num.neg, pow10, sub_eq_add_neg]

/-- Counts give the magnitude back up to magnitude 50; fainter, infinite or NaN magnitudes make no counts. -/
theorem C43_counts (zp : ℝ) :
    (∀ m : ℝ, m ≤ 50 → countsToMag zp (countsOfMag zp (.fin m)) = .fin m) ∧
    (∀ m : ℝ, 50 < m → countsOfMag zp (.fin m) = .fin 0) ∧
    countsOfMag zp .pinf = .fin 0 ∧ countsOfMag zp .ninf = .fin 0 ∧ countsOfMag zp .nan = .fin 0 := by
  refine ⟨fun m h => ?_, fun m h => by simp [countsOfMag, Num.lt, h], by simp [countsOfMag, Num.isFinite], by simp [countsOfMag, Num.isFinite], by simp [countsOfMag, Num.isFinite]⟩
  rw [countsOfMag_fin zp m h]
  unfold countsToMag
  rw [log10_fin_pos (pow_pos' _), logb_pow]
  simp only [mul, Num.sub, Num.add, Num.neg, Num.fin.injEq]
  ring

/-- Conversely, magnitudes give the counts back: no counts, and any number of counts from that of magnitude 50. -/
theorem C43_counts_back (zp : ℝ) :
    (∀ c : ℝ, (10:ℝ) ^ (0.4 * (zp - 50)) ≤ c → countsOfMag zp (countsToMag zp (.fin c)) = .fin c) ∧
    countsOfMag zp (countsToMag zp (.fin 0)) = .fin 0 := by
  constructor
  · intro c hc
    have hpos : 0 < c := lt_of_lt_of_le (pow_pos' _) hc
    have hl : 0.4 * (zp - 50) ≤ Real.logb 10 c := (Real.le_logb_iff_rpow_le (by norm_num) hpos).mpr hc
    have hm : countsToMag zp (.fin c) = .fin (zp - 2.5 * Real.logb 10 c) := by
      unfold countsToMag
      rw [log10_fin_pos hpos]; simp [mul, Num.sub, Num.add, Num.neg, sub_eq_add_neg]
    rw [hm, countsOfMag_fin _ _ (by linarith)]
    have : 0.4 * (zp - (zp - 2.5 * Real.logb 10 c)) = Real.logb 10 c := by ring
    rw [this, pow_logb hpos]
  · have : countsToMag zp (.fin 0) = .pinf := by
      unfold countsToMag
      rw [log10_zero, mul_fin_pos (by norm_num)]; rfl
    rw [this]; rfl

/-- With zeropoint 25 a star of magnitude 20 has 100 counts. -/
example : countsOfMag 25 (.fin 20) = .fin 100 := by
  rw [countsOfMag_fin _ _ (by norm_num)]
  have : (0.4 * (25 - 20) : ℝ) = ((2 : ℕ) : ℝ) := by norm_num
  rw [this, Real.rpow_natCast]; norm_num

/-- Specification: the flux of a magnitude. -/
noncomputable def fluxOf : F → Option ℝ
  | .fin m => some ((10:ℝ) ^ (-(0.4 * m)))
  | .pinf => some 0
  | _ => none

theorem fluxOf_nonneg {m : F} {f : ℝ} (h : fluxOf m = some f) : 0 ≤ f := by
  cases m with
  | nan => cases h
  | ninf => cases h
  | pinf => injection h with h; simp [← h]
  | fin x => injection h with h; rw [← h]; exact (pow_pos' _).le

theorem pow_flux {m : F} {f : ℝ} (h : fluxOf m = some f) : pow10 (divBy m.neg 2.5) = .fin f := by
  rw [divBy_pos (by norm_num)]
  cases m with
  | nan => cases h
  | ninf => cases h
  | pinf => injection h with h; subst h; rfl
  | fin x =>
    injection h with h
    simp only [Num.neg, pow10, Num.fin.injEq]
    rw [← h]; congr 1; ring

theorem flux_log {f : ℝ} (h : 0 ≤ f) : fluxOf (mul (.fin (-2.5)) (log10 (.fin f))) = some f := by
  rw [mul_fin_neg (by norm_num)]
  rcases h.lt_or_eq with h | rfl
  · rw [log10_fin_pos h]
    simp only [fluxOf, Option.some.injEq]
    rw [show -(0.4 * (-2.5 * Real.logb 10 f)) = Real.logb 10 f by ring, pow_logb h]
  · rw [log10_zero]; rfl

/-- Adding magnitudes adds fluxes. -/
theorem C43_sum (m1 m2 : F) (f1 f2 : ℝ) (h1 : fluxOf m1 = some f1) (h2 : fluxOf m2 = some f2) :
    fluxOf (magSum m1 m2) = some (f1 + f2) := by
  unfold magSum
  rw [pow_flux h1, pow_flux h2]
  exact flux_log (add_nonneg (fluxOf_nonneg h1) (fluxOf_nonneg h2))

/-- Multiplying magnitudes multiplies the flux by the absolute value of the factor. -/
theorem C43_scale (m : F) (f k : ℝ) (h : fluxOf m = some f) : fluxOf (m.add (dmag (.fin k))) = some (|k| * f) := by
  rw [dmag, show fabs (.fin k) = .fin |k| from rfl, mul_fin_neg (by norm_num)]
  rcases (abs_nonneg k).lt_or_eq with hk | hk
  · rw [log10_fin_pos hk]
    cases m with
    | nan => cases h
    | ninf => cases h
    | pinf => injection h with h; subst h; simp [Num.add, fluxOf]
    | fin x =>
      injection h with h
      simp only [Num.add, fluxOf, Option.some.injEq]
      rw [show -(0.4 * (x + -2.5 * Real.logb 10 |k|)) = Real.logb 10 |k| + -(0.4 * x) by ring,
        Real.rpow_add (by norm_num), pow_logb hk, h]
  · rw [← hk, log10_zero]
    cases m with
    | nan => cases h
    | ninf => cases h
    | pinf => simp [Num.add, fluxOf]
    | fin x => simp [Num.add, fluxOf]

/-- Nothing is added by a magnitude of +inf; two equal stars are 0.75 magnitudes brighter. -/
example : fluxOf (.fin 20) = some ((10:ℝ) ^ (-(0.4 * 20) : ℝ)) ∧ fluxOf .pinf = some 0 := ⟨rfl, rfl⟩

/-- C89: magnitude errors are the flux errors times the slope of the magnitude, for positive fluxes and inverse variances;
otherwise NaN. -/
theorem C89_errors (flux invvar : ℝ) :
    (0 < flux → (magError flux invvar).1 = nanomaggiesToMag (.fin flux)) ∧
    (0 < flux → 0 < invvar → ∃ (mag : ℝ → ℝ) (slope : ℝ), (∀ x, 0 < x → nanomaggiesToMag (.fin x) = .fin (mag x)) ∧
      HasDerivAt mag slope flux ∧ (magError flux invvar).2 = .fin (|slope| * (1 / Real.sqrt invvar))) ∧
    (¬ 0 < flux → (magError flux invvar).1 = .nan ∧ (magError flux invvar).2 = .nan) ∧
    (¬ 0 < invvar → (magError flux invvar).2 = .nan) := by
  refine ⟨fun h => by simp [magError, h], fun h hv => ?_, fun h => by simp [magError, h], fun h => by simp [magError, h]⟩
  refine ⟨fun x => -2.5 * (Real.log x / Real.log 10 - 9), -2.5 * (1 / flux / Real.log 10), fun x hx => ?_, ?_, ?_⟩
  · unfold nanomaggiesToMag
    rw [log10_fin_pos hx]; simp [mul, Num.sub, Num.add, Num.neg, Real.logb, sub_eq_add_neg]
  · have := ((Real.hasDerivAt_log h.ne').div_const (Real.log 10)).sub_const 9 |>.const_mul (-2.5 : ℝ)
    simpa using this
  · simp only [magError, h, hv, decide_true, Bool.and_true, Bool.not_true, if_true]
    have h1 : (0:ℝ) ≤ 1 / Real.sqrt invvar := by positivity
    simp only [Bool.false_eq_true, if_false, Num.fin.injEq]
    rw [← abs_of_nonneg h1, ← abs_mul, abs_of_nonneg h1]
    congr 1
    field_simp

/-- Non-vacuity. -/
example : (0:ℝ) < 3.5 ∧ (0:ℝ) < 16 := by norm_num

/-- The arrays. -/
theorem C89_arrays (flux invvar : List ℝ) :
    (flux.length = invvar.length → ∃ mags errs, fluxErrorsToMagErrors flux invvar = .ok (mags, errs) ∧
      mags.length = flux.length ∧ errs.length = flux.length ∧
      ∀ i (hf : i < flux.length) (hv : i < invvar.length), mags[i]? = some (magError flux[i] invvar[i]).1 ∧
        errs[i]? = some (magError flux[i] invvar[i]).2) ∧
    (flux.length ≠ invvar.length → fluxErrorsToMagErrors flux invvar = .error .index) := by
  refine ⟨fun h => ⟨_, _, by rw [fluxErrorsToMagErrors, if_pos h], by simp [h], by simp [h], fun i hf hv => ?_⟩,
    fun h => by rw [fluxErrorsToMagErrors, if_neg h]⟩
  simp [hf, hv]

/-- Non-vacuity. -/
example : [(1:ℝ), 2].length = [(4:ℝ), 0].length := rfl

end Verif.Bright
