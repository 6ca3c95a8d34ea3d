import Verif.Bright.Model
import Mathlib.Tactic.Ring
import Mathlib.Tactic.NormNum
import Mathlib.Tactic.Linarith
import Mathlib.Tactic.FieldSimp

/-! # Lemmas on brightnesses -/

namespace Verif.Bright

open Verif

@[simp] theorem log10_fin_pos {x : ℝ} (h : 0 < x) : log10 (.fin x) = .fin (Real.logb 10 x) := by simp [log10, h]

@[simp] theorem log10_zero : log10 (.fin 0) = .ninf := by simp [log10]

theorem log10_neg {x : ℝ} (h : x < 0) : log10 (.fin x) = .nan := by
  simp [log10, not_lt.mpr h.le, h.ne]

theorem pow_pos' (x : ℝ) : (0 : ℝ) < 10 ^ x := Real.rpow_pos_of_pos (by norm_num) x

theorem logb_pow (x : ℝ) : Real.logb 10 ((10 : ℝ) ^ x) = x := Real.logb_rpow (by norm_num) (by norm_num)

theorem pow_logb {x : ℝ} (h : 0 < x) : (10 : ℝ) ^ Real.logb 10 x = x := Real.rpow_logb (by norm_num) (by norm_num) h

theorem log10_pow10 (x : F) : log10 (pow10 x) = x := by
  cases x with
  | nan => rfl
  | ninf => simp [pow10]
  | pinf => rfl
  | fin x => simp [pow10, pow_pos']

/-- Neither negative nor NaN. -/
def nonneg : F → Prop
  | .pinf => True
  | .fin x => 0 ≤ x
  | _ => False

theorem pow10_log10 (x : F) (h : nonneg x) : pow10 (log10 x) = x := by
  cases x with
  | nan => exact h.elim
  | ninf => exact h.elim
  | pinf => rfl
  | fin x =>
    rcases (show (0:ℝ) ≤ x from h).lt_or_eq with h | rfl
    · simp [pow10, h, pow_logb h]
    · simp [pow10]

theorem log10_nan (x : F) (h : ¬ nonneg x) : log10 x = .nan := by
  cases x with
  | nan => rfl
  | ninf => rfl
  | pinf => exact (h trivial).elim
  | fin x => exact log10_neg (not_le.mp h)

/-- Multiplication by a positive or negative number. -/
theorem mul_fin_pos {k : ℝ} (h : 0 < k) (x : F) : mul (.fin k) x =
    match x with | .nan => .nan | .pinf => .pinf | .ninf => .ninf | .fin y => .fin (k * y) := by
  cases x <;> simp [mul, infTimes, h, h.ne']

theorem mul_fin_neg {k : ℝ} (h : k < 0) (x : F) : mul (.fin k) x =
    match x with | .nan => .nan | .pinf => .ninf | .ninf => .pinf | .fin y => .fin (k * y) := by
  cases x <;> simp [mul, infTimes, h.ne, not_lt.mpr h.le]

theorem divBy_pos {k : ℝ} (h : 0 < k) (x : F) : divBy x k =
    match x with | .nan => .nan | .pinf => .pinf | .ninf => .ninf | .fin y => .fin (y / k) := by
  cases x <;> simp [divBy, mul, infTimes, h, h.ne', div_eq_mul_inv]

theorem divBy_neg {k : ℝ} (h : k < 0) (x : F) : divBy x k =
    match x with | .nan => .nan | .pinf => .ninf | .ninf => .pinf | .fin y => .fin (y / k) := by
  cases x <;> simp [divBy, mul, infTimes, h.ne, not_lt.mpr h.le, div_eq_mul_inv]

theorem nmgyToMag_magToNmgy (m : F) : nanomaggiesToMag (magToNanomaggies m) = m := by
  unfold nanomaggiesToMag magToNanomaggies
  rw [log10_pow10, divBy_neg (by norm_num), mul_fin_neg (by norm_num)]
  cases m <;> simp [Num.sub, Num.add, Num.neg]
  ring

theorem magToNmgy_nmgyToMag (f : F) (h : nonneg f) : magToNanomaggies (nanomaggiesToMag f) = f := by
  unfold nanomaggiesToMag magToNanomaggies
  rw [divBy_neg (by norm_num), mul_fin_neg (by norm_num)]
  conv_rhs => rw [← pow10_log10 f h]
  congr 1
  cases log10 f <;> simp [Num.sub, Num.add, Num.neg]
  ring

theorem magToNmgy_neg (f : F) (h : ¬ nonneg f) : magToNanomaggies (nanomaggiesToMag f) = .nan := by
  unfold nanomaggiesToMag
  rw [log10_nan f h]; rfl

theorem scaleToZp_zpToScale (z : F) : scaleToZeropoint (zeropointToScale z) = z := by
  unfold scaleToZeropoint zeropointToScale
  rw [log10_pow10, divBy_pos (by norm_num), mul_fin_pos (by norm_num)]
  cases z <;> simp [Num.sub, Num.add, Num.neg]
  ring

theorem zpToScale_scaleToZp (s : F) (h : nonneg s) : zeropointToScale (scaleToZeropoint s) = s := by
  unfold scaleToZeropoint zeropointToScale
  rw [divBy_pos (by norm_num), mul_fin_pos (by norm_num)]
  conv_rhs => rw [← pow10_log10 s h]
  congr 1
  cases log10 s <;> simp [Num.sub, Num.add, Num.neg]
  ring

end Verif.Bright
