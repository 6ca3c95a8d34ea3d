import Verif.Em.Model
import Verif.Gauss.Spec

/-!
# What fitting by expectation maximisation is to achieve
-/

namespace Verif.Em

open Verif
open Verif.Mog (Comp Mix)
open Verif.Gauss

noncomputable section

/-- Symmetric positive definite covariance, positive amplitude. -/
def Good (m : Mix ℝ) : Prop := ∀ c ∈ m, Proper c ∧ 0 < c.amp

/-- Minus twice the logarithm of the inverse Wishart prior of strength one, `log det V + tr V^-1`. -/
def wishart (c : Comp ℝ) : ℝ :=
  Real.log (c.vxx * c.vyy - c.vxy ^ 2) + (c.vxx + c.vyy) / (c.vxx * c.vyy - c.vxy ^ 2)

/-- The logarithm of the posterior: the Poisson likelihood of the image for a mean of `sky + densityMix m` (up to a constant), the prior of
strength `alpha` on the covariances. -/
def logPost (alpha sky : ℝ) (px : List Px) (m : Mix ℝ) : ℝ :=
  (px.map (fun p => p.v * Real.log (sky + densityMix m p.x p.y) - sky)).sum - (m.map (fun c => c.amp)).sum
    - alpha / 2 * (m.map wishart).sum

/-- All the light is within ten standard deviations of every component. -/
def Near (px : List Px) (m : Mix ℝ) : Prop := ∀ p ∈ px, 0 < p.v → ∀ c ∈ m, distSq c p.x p.y < 100

/-- The pixel is within ten standard deviations of some component. -/
def Lit (m : Mix ℝ) (x y : ℝ) : Prop := ∃ c ∈ m, distSq c x y < 100

/-- The density of the mixture without what is cut off. -/
def cutMix (cut : Comp ℝ → ℝ) (m : Mix ℝ) (x y : ℝ) : ℝ :=
  (m.map (fun c => if distSq c x y < cut c then density c x y else 0)).sum

/-- No negative pixels. -/
def Nonneg (px : List Px) : Prop := ∀ p ∈ px, 0 ≤ p.v

/-- The light of an image. -/
def flux (px : List Px) : ℝ := (px.map (fun p => p.v)).sum

end

end Verif.Em
