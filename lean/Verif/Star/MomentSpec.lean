import Mathlib.MeasureTheory.Integral.Bochner.Basic
import Mathlib.MeasureTheory.Measure.Lebesgue.Basic

/-!
# Where light is and how far it is spread
-/

namespace Verif.Star

noncomputable section

open MeasureTheory

/-- The light `f`, each bit of it counted `q` times. -/
def weighed (q f : ℝ → ℝ → ℝ) : ℝ := ∫ y : ℝ, ∫ x : ℝ, q x y * f x y

/-- All of the light. -/
def allLight (f : ℝ → ℝ → ℝ) : ℝ := weighed (fun _ _ => 1) f

/-- How far in x and in y the light is off `(px, py)`, times all of the light. -/
def offX (px : ℝ) (f : ℝ → ℝ → ℝ) : ℝ := weighed (fun x _ => x - px) f

def offY (py : ℝ) (f : ℝ → ℝ → ℝ) : ℝ := weighed (fun _ y => y - py) f

/-- How far it is spread about `(px, py)`: the squares of the distance in x and in y and their product, times all of the light. -/
def spreadXX (px : ℝ) (f : ℝ → ℝ → ℝ) : ℝ := weighed (fun x _ => (x - px) ^ 2) f

def spreadXY (px py : ℝ) (f : ℝ → ℝ → ℝ) : ℝ := weighed (fun x y => (x - px) * (y - py)) f

def spreadYY (py : ℝ) (f : ℝ → ℝ → ℝ) : ℝ := weighed (fun _ y => (y - py) ^ 2) f

end

end Verif.Star
