import Verif.Py
import Verif.Mog.Model
import Verif.Gal.SersicTable
import Mathlib.Algebra.Order.Field.Basic
import Mathlib.Data.List.Sort

/-!
# Sersic profiles

tractor/sersic.py `SersicMixture`.  scipy's `InterpolatedUnivariateSpline` and the exponential and logarithm are parameters.  The index
is a number: NaN is not represented.
-/

namespace Verif.Gal.Sersic

open Verif.Mog (Mix Comp)

variable {R : Type}

/-- `np.exp`, `np.log` and `InterpolatedUnivariateSpline(x, y, k=k)(s)`, given the pairs `(x, y)`. -/
structure Interp (R : Type) where
  exp : R → R
  log : R → R
  spline : List (R × R) → Nat → R → R

/-- One entry of `self.fits`, sersic.py 281. -/
structure Fit (R : Type) where
  lo : R
  hi : R
  amps : List (R → R)
  logvars : List (R → R)

/-- `K`, sersic.py 247-248. -/
def Range.width (r : Range R) : Nat :=
  match r.grid with
  | [] => 0
  | g :: _ => g.2.1.length

/-- The body of the loop that builds `self.fits`, sersic.py 246-281.  An empty grid would raise an error, and so would rows of different
lengths: the table has neither. -/
def mkFit [Zero R] (I : Interp R) (r : Range R) : Fit R :=
  let K := r.width
  let k := if r.grid.length ≤ 3 then 1 else 3
  ⟨r.lo, r.hi, (List.range K).map (fun i => I.spline (r.grid.map (fun g => (g.1, g.2.1.getD i 0))) k),
    (List.range K).map (fun i => I.spline (r.grid.map (fun g => (g.1, I.log (g.2.2.getD i 0)))) k)⟩

/-- `np.array([f(sindex) for f in amp_funcs])` divided by its sum, next to the variances, sersic.py 327-330. -/
def evalFit [Field R] (exp : R → R) (f : Fit R) (s : R) : List (R × R) :=
  let a := f.amps.map (fun g => g s)
  (a.map (fun x => x / a.sum)).zip (f.logvars.map (fun g => exp (g s)))

/-- The matching fits and the index, clamped to the range of the table, sersic.py 290-304.  `self.fits[0]` of an empty list does not
occur. -/
def select [LinearOrder R] (fits : List (Fit R)) (s : R) : List (Fit R) × R :=
  match fits.head?, fits.getLast? with
  | some a, some z =>
    if s ≤ a.lo then ([a], a.lo)
    else if z.hi ≤ s then ([z], z.hi)
    else (fits.filter (fun f => decide (f.lo ≤ s ∧ s < f.hi)), s)
  | _, _ => ([], s)

/-- Two fits, ramped, or the only one, sersic.py 306-330. -/
def combine [Field R] [LinearOrder R] (exp : R → R) (fits : List (Fit R)) (s : R) : Except PyErr (List (R × R)) :=
  match fits with
  | [m0, m1] =>
    if m0.lo < m1.lo ∧ m1.lo < m0.hi ∧ m1.lo ≤ s ∧ s < m0.hi then
      let frac := (s - m1.lo) / (m0.hi - m1.lo)
      .ok ((evalFit exp m0 s).map (fun p => ((1 - frac) * p.1, p.2)) ++ (evalFit exp m1 s).map (fun p => (frac * p.1, p.2)))
    else .error .assertion
  | [m] => .ok (evalFit exp m s)
  | _ => .error .assertion

/-- The core, sersic.py 332-337. -/
def withCore [Field R] [LinearOrder R] (core : R → R) (s : R) (l : List (R × R)) : List (R × R) :=
  if 1 < s then l.map (fun p => (p.1 * ((1 - core s) / (l.map (·.1)).sum), p.2)) ++ [(core s, 0)] else l

/-- `np.argsort` of the variances.  numpy does not say in which order components of equal variance come; here they stay in order. -/
def sortVar [LinearOrder R] (l : List (R × R)) : List (R × R) := l.insertionSort (fun p q => p.2 ≤ q.2)

/-- `MixtureOfGaussians(amps, np.zeros((len(amps), 2)), varr)`: `set_var` with one variance per component, mixture_profiles.py 78-84. -/
def toMix [Zero R] (l : List (R × R)) : Mix R := l.map (fun p => ⟨p.1, 0, 0, p.2, 0, 0, p.2⟩)

/-- `SersicMixture._getProfile(sindex)`, sersic.py 289-343, for a table of fits and a core function.  The cache returns what the
function returned. -/
def profileOf [Field R] [LinearOrder R] (exp : R → R) (fits : List (Fit R)) (core : R → R) (s : R) : Except PyErr (Mix R) :=
  let (ms, s) := select fits s
  match combine exp ms s with
  | .error e => .error e
  | .ok l => .ok (toMix (sortVar (withCore core s l)))

/-- The numbers of the table as elements of `R`. -/
def Range.cast [RatCast R] (r : Range ℚ) : Range R :=
  ⟨(r.lo : R), (r.hi : R),
    r.grid.map (fun g => ((g.1 : R), g.2.1.map (fun q : ℚ => (q : R)), g.2.2.map (fun q : ℚ => (q : R))))⟩

/-- `self.fits`, sersic.py 245-281. -/
def fits [Field R] (I : Interp R) : List (Fit R) := table.map (fun r => mkFit I r.cast)

/-- `self.core_func`, sersic.py 242-243. -/
def coreFunc [Field R] (I : Interp R) : R → R := I.spline (cores.map (fun p => ((p.1 : R), (p.2 : R)))) 3

/-- `SersicMixture.getProfile(sindex)`, sersic.py 289-343, with the table of the class. -/
def getProfile [Field R] [LinearOrder R] (I : Interp R) (s : R) : Except PyErr (Mix R) := profileOf I.exp (fits I) (coreFunc I) s

end Verif.Gal.Sersic
