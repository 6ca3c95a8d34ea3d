import Verif.Cons.Model
import Verif.Fit.Spec
import Verif.Opt.Spec
import Verif.Lsq.SmarterSpec

/-!
# Specification vocabulary for optimizations with limits
-/

namespace Verif.Cons

open Verif Params Patches Engine Fit

variable {R M : Type} [Field R] [LinearOrder R]

/-- In every image all derivatives reported for it that overlap it cover the same box of pixels. -/
def SameBoxes (W : World R M) (hooks : Tractor R M → Nat → Nat → Option (List (Deriv R))) (o : Opts) (T : Tractor R M) : Prop :=
  ∀ out l ds pr, getDerivs W (fun T img => getModelImage W T img none true) (hooks T) T = (T, .ok out) → inputs W o T out = .ok (l, ds, pr) →
    ∃ box, Lsq.OneBox (lsqImgs l) ds box

/-- The solver solves the problems it is given; the options are such that it is given the whole problem (dense: `shared_params=False`; sparse: as for
C143); `SmarterDenseOptimizer` wants the same boxes for all derivatives; Gaussian priors, if there are any, take part. -/
def MethodOK (m : Method R) (W : World R M) (hooks : Tractor R M → Nat → Nat → Option (List (Deriv R))) (o : Opts) (T : Tractor R M)
    (D : Nat → Nat → Nat → Nat → R) : Prop :=
  match m with
  | .sparse S => Lsq.SqrtOK S.sqrt ∧ Lsq.Solves S.lsqr ∧ Options S o T D
  | .dense sqrt lstsq => Lsq.SqrtOK sqrt ∧ sqrt 1 = 1 ∧ Lsq.DenseSolves lstsq ∧ o.shared = false ∧
      (o.priors = true ∨ ∀ x ∈ thawedPriors T.par, x.2 = [])
  | .smarter sqrt lstsq => Lsq.SqrtPos sqrt ∧ sqrt 1 = 1 ∧ Lsq.DenseSolves lstsq ∧ o.shared = false ∧
      (o.priors = true ∨ ∀ x ∈ thawedPriors T.par, x.2 = []) ∧ SameBoxes W hooks o T

/-- Values of the thawed parameters that the limits of the tractor allow: within the bounds, and not farther from the present values than the maximum
steps. -/
def Allowed (T : Tractor R M) (q : List R) : Prop :=
  (∀ (i : Nat) x l u, q[i]? = some x → (getLowerBounds T.par)[i]? = some l → (getUpperBounds T.par)[i]? = some u → Opt.Within l u x) ∧
  (∀ (i : Nat) x p m, q[i]? = some x → (getParams T.par)[i]? = some p → (getMaxStep T.par)[i]? = some (some m) → |x - p| ≤ m)

/-- The values a fraction `b` of the way from the present ones to `q`. -/
def between (T : Tractor R M) (q : List R) (b : R) : List R := List.zipWith (fun p v => p + b * (v - p)) (getParams T.par) q

end Verif.Cons
