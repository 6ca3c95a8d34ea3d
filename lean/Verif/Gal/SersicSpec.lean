import Verif.Gal.Sersic
import Verif.Gal.CompositeSpec
import Mathlib.Analysis.SpecialFunctions.Log.Basic

/-! What Sersic profiles are compared with. -/

namespace Verif.Gal.Sersic

open Verif.Mog (Mix Comp)

/-- Interpolation through given points: continuous, and it takes the given values when the abscissas increase. -/
def Interpolates (spline : List (ℝ × ℝ) → Nat → ℝ → ℝ) : Prop :=
  (∀ pts k, Continuous (spline pts k)) ∧
  (∀ pts k, (pts.map (·.1)).Pairwise (· < ·) → ∀ p ∈ pts, spline pts k p.1 = p.2)

/-- Some interpolation with the real exponential and logarithm. -/
noncomputable def real (spline : List (ℝ × ℝ) → Nat → ℝ → ℝ) : Interp ℝ := ⟨Real.exp, Real.log, spline⟩

/-- The amplitudes interpolated for index `s` do not add up to zero, in any of the ranges `s` belongs to or borders on. -/
def SumOK {R : Type} [AddMonoid R] [LE R] (fits : List (Fit R)) (s : R) : Prop :=
  ∀ f ∈ fits, f.lo ≤ s → s ≤ f.hi → (f.amps.map (fun g => g s)).sum ≠ 0

/-- The index brought to the range of the table. -/
def clamp {R : Type} [Max R] [Min R] (lo hi s : R) : R := max lo (min s hi)

/-- A round Gaussian of variance `v` about the origin. -/
def roundG {N : Type} (g : Kernel ℝ N) (v : ℝ) : N := g 0 0 v 0 0 v

/-- A quantity of the profile for index `s`; 0 when there is none. -/
noncomputable def quantity (spline : List (ℝ × ℝ) → Nat → ℝ → ℝ) (g : Kernel ℝ ℝ) (s : ℝ) : ℝ :=
  match getProfile (real spline) s with
  | .error _ => 0
  | .ok m => ofMix g m

/-- The quantity of the mixture in one row of the table, with the total one. -/
noncomputable def rowQuantity (g : Kernel ℝ ℝ) (row : ℚ × List ℚ × List ℚ) : ℝ :=
  (List.zipWith (fun (a v : ℚ) => (a : ℝ) * roundG g v) row.2.1 row.2.2).sum / ((row.2.1.sum : ℚ) : ℝ)

/-- A row of the table whose index belongs to the range of the row.  The last range contains its upper end. -/
def Tabulated (row : ℚ × List ℚ × List ℚ) : Prop :=
  ∃ r ∈ table, row ∈ r.grid ∧ ((r.lo ≤ row.1 ∧ row.1 < r.hi) ∨ (r = range7 ∧ row.1 = 63 / 10))

end Verif.Gal.Sersic
