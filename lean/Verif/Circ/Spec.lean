import Verif.Circ.Model
import Verif.Gauss.Model

/-!
# What a PSF of concentric Gaussians should render
-/

namespace Verif.Circ

open Verif.Mog (Comp Mix NCirc)

/-- Mixture caches that arise from calls of `getPointSourcePatch` and `getMixtureOfGaussians` on any PSFs, with any values, none of
which raised an exception. -/
inductive Reached {R P : Type} [Field R] [LinearOrder R] (E : Ext R P) : Mem R → Prop where
  | start : Reached E []
  | patch {mem : Mem R} (p : CPsf R) (a : Args R) (r : Option P) : Reached E mem → (pointSourcePatch E mem p a).2 = .ok r →
      Reached E (pointSourcePatch E mem p a).1
  | mixture {mem : Mem R} (p : CPsf R) : Reached E mem → Reached E (getMixture mem p).1

/-- The pixels of a patch: `[x0, x1) x [y0, y1)` and the values there. -/
structure Pt (V : Type) where
  x0 : Int
  x1 : Int
  y0 : Int
  y1 : Int
  val : Int → Int → V

noncomputable section

/-- The real evaluation of mixtures on a grid (C99), with some rounding and some `evaluate_grid_approx3`. -/
def gaussExt (round ceil : ℝ → Int) (approx : Mix ℝ → Int → Int → Int → Int → ℝ → Bool → Except PyErr (Option (Pt ℝ))) :
    Ext ℝ (Pt ℝ) where
  round := round
  ceil := ceil
  grid := fun m a b c d => ⟨a, b, c, d, fun x y => Gauss.evaluateGrid m 0 0 x y⟩
  approx := approx

/-- The density at distance² `d` of a circular Gaussian of weight `w` and standard deviation `s`. -/
def circGauss (w s d : ℝ) : ℝ := w / (2 * Real.pi * s ^ 2) * Real.exp (-d / (2 * s ^ 2))

/-- Point source at `(px, py)` seen at `(x, y)`: the sum over the Gaussians of the PSF. -/
def circValue (p : CPsf ℝ) (px py x y : ℝ) : ℝ :=
  ((p.core.weights.zip p.core.sigmas).map (fun ws => circGauss ws.1.1 ws.2.1 ((x - px) ^ 2 + (y - py) ^ 2))).sum

/-- The sum of the peaks of the Gaussians. -/
def circPeaks (p : CPsf ℝ) : ℝ := ((p.core.weights.zip p.core.sigmas).map (fun ws => |ws.1.1| / (2 * Real.pi * ws.2.1 ^ 2))).sum

end

end Verif.Circ
