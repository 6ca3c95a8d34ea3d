import Verif.Mog.Model
import Mathlib.Analysis.SpecialFunctions.Pow.Real
import Mathlib.Analysis.Real.Sqrt
import Mathlib.Analysis.SpecialFunctions.Trigonometric.Basic

/-!
# The density of a Gaussian
-/

namespace Verif.Gauss

open Verif.Mog (Comp Mix)

noncomputable section

/-- The covariance is symmetric and positive definite. -/
def Proper (c : Comp ℝ) : Prop := c.vxy = c.vyx ∧ 0 < c.vxx ∧ 0 < c.vxx * c.vyy - c.vxy ^ 2

/-- The square of the Mahalanobis distance of `(x, y)` from the mean: `d^T V^-1 d`. -/
def distSq (c : Comp ℝ) (x y : ℝ) : ℝ :=
  (c.vyy * (x - c.mx) ^ 2 - 2 * c.vxy * ((x - c.mx) * (y - c.my)) + c.vxx * (y - c.my) ^ 2) / (c.vxx * c.vyy - c.vxy ^ 2)

/-- Amplitude times the normal density: `amp / (2 pi sqrt det) exp(-d^2 / 2)`. -/
def density (c : Comp ℝ) (x y : ℝ) : ℝ :=
  c.amp / (2 * Real.pi * Real.sqrt (c.vxx * c.vyy - c.vxy ^ 2)) * Real.exp (-(distSq c x y) / 2)

/-- The density of a mixture. -/
def densityMix (m : Mix ℝ) (x y : ℝ) : ℝ := (m.map (fun c => density c x y)).sum

/-- The largest absolute value of a component: that at its mean. -/
def peak (c : Comp ℝ) : ℝ := |c.amp| / (2 * Real.pi * Real.sqrt (c.vxx * c.vyy - c.vxy ^ 2))

/-- The wave against which a function is integrated for its Fourier transform at the frequency `(v, w)`: `exp(-2 pi i (v x + w y))`. -/
def wave (v w x y : ℝ) : ℂ := Complex.exp (((-2 * Real.pi * (v * x + w * y) : ℝ) : ℂ) * Complex.I)

end

end Verif.Gauss
