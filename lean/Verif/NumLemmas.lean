import Verif.Num
import Mathlib.Order.Defs.LinearOrder

/-! # Lemmas about floats with special values -/

namespace Verif.Num

variable {R : Type} [LinearOrder R]

theorem lt_trans {a b c : Num R} (h1 : a.lt b = true) (h2 : b.lt c = true) : a.lt c = true := by
  cases a <;> cases b <;> cases c <;> simp_all [lt]
  exact _root_.lt_trans h1 h2

theorem lt_irrefl (a : Num R) : a.lt a = false := by
  cases a <;> simp [lt]

end Verif.Num
