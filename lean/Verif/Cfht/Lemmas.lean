import Verif.Cfht.Model
import Mathlib.Tactic.Linarith
import Mathlib.Tactic.Ring
import Mathlib.Tactic.NormNum

/-!
# Powers of ten
-/

namespace Verif.Cfht

theorem pow10_pos (x : ℝ) : (0 : ℝ) < 10 ^ x := Real.rpow_pos_of_pos (by norm_num) x

theorem pow10_add (x y : ℝ) : (10 : ℝ) ^ (x + y) = 10 ^ x * 10 ^ y := Real.rpow_add (by norm_num) x y

theorem pow10_log {t : ℝ} (h : 0 < t) : (10 : ℝ) ^ Real.logb 10 t = t := Real.rpow_logb (by norm_num) (by norm_num) h

end Verif.Cfht
