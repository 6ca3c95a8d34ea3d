import Verif.Fit.Model
import Verif.Lsq.Smarter

/-!
# Model of a whole optimization with limits on the parameters

tractor/constrained_optimizer.py (`ConstrainedOptimizer`), tractor/dense_optimizer.py (`ConstrainedDenseOptimizer`),
tractor/smarter_dense_optimizer.py (`SmarterDenseOptimizer`) with the tractor of tractor/engine.py, put together from the models of `getDerivs` and `getLogProb` (`Verif.Engine`), `getUpdateDirection` (`Verif.Lsq`) and the
constrained `tryUpdates` (`Verif.Opt`).
-/

namespace Verif.Cons

open Verif Params Patches Engine Fit

variable {R M : Type} [Field R] [LinearOrder R]

/-- How the direction is found: `ConstrainedOptimizer` inherits the sparse `LsqrOptimizer.getUpdateDirection`, `ConstrainedDenseOptimizer` and
`SmarterDenseOptimizer` have their own, with `np.sqrt` and `np.linalg.lstsq`. -/
inductive Method (R : Type) where
  | sparse (S : Solver R)
  | dense (sqrt : R → R) (lstsq : Nat → Nat → Lsq.Dense R → (Nat → R) → List R)
  | smarter (sqrt : R → R) (lstsq : Nat → Nat → Lsq.Dense R → (Nat → R) → List R)

/-- `getLinearUpdateDirection` of the dense optimizer: lsqr_optimizer.py 253-278 and dense_optimizer.py 17-262, `shared_params=True` is refused
(23-24, after the derivatives were computed). -/
def denseDirection (sqrt : R → R) (lstsq : Nat → Nat → Lsq.Dense R → (Nat → R) → List R) (W : World R M)
    (hooks : Tractor R M → Nat → Nat → Option (List (Deriv R))) (o : Opts) (T : Tractor R M) : Tractor R M × Except PyErr (Option (List R)) :=
  match getDerivs W (fun T img => getModelImage W T img none true) (hooks T) T with
  | (T', .error e) => (T', .error e)
  | (T', .ok out) =>
    if o.shared then (T', .error .runtime)
    else
      match inputs W o T' out with
      | .error e => (T', .error e)
      | .ok (l, ds, pr) => (T', Lsq.denseUpdateDirection sqrt lstsq (lsqImgs l) ds pr o.scale)

/-- The same for `SmarterDenseOptimizer`: smarter_dense_optimizer.py 37-306, `shared_params=True` is refused (47-48). -/
def smarterDirection (sqrt : R → R) (lstsq : Nat → Nat → Lsq.Dense R → (Nat → R) → List R) (W : World R M)
    (hooks : Tractor R M → Nat → Nat → Option (List (Deriv R))) (o : Opts) (T : Tractor R M) : Tractor R M × Except PyErr (Option (List R)) :=
  match getDerivs W (fun T img => getModelImage W T img none true) (hooks T) T with
  | (T', .error e) => (T', .error e)
  | (T', .ok out) =>
    if o.shared then (T', .error .runtime)
    else
      match inputs W o T' out with
      | .error e => (T', .error e)
      | .ok (l, ds, pr) => (T', Lsq.smartUpdateDirection sqrt lstsq (lsqImgs l) ds pr o.scale)

/-- The direction found by a method. -/
def directionM (m : Method R) (W : World R M) (hooks : Tractor R M → Nat → Nat → Option (List (Deriv R))) (o : Opts) (T : Tractor R M) :
    Tractor R M × Except PyErr (Option (List R)) :=
  match m with
  | .sparse S => direction S W hooks o T
  | .dense sqrt lstsq => denseDirection sqrt lstsq W hooks o T
  | .smarter sqrt lstsq => smarterDirection sqrt lstsq W hooks o T

/-- `optimize` (lsqr_optimizer.py 280-315) of the constrained optimizers; `tiny` is `self.tiny_alpha`, `fl` are the attributes of the optimizer.  Returns
the tractor, the attributes, the change of the log-probability and alpha. -/
def optimize (m : Method R) (tiny : R) (W : World R M) (hooks : Tractor R M → Nat → Nat → Option (List (Deriv R))) (o : Opts) (alphas : List R)
    (fl : Opt.OptFlags) (T : Tractor R M) : Tractor R M × Opt.OptFlags × Except PyErr (Num R × R) :=
  match directionM m W hooks o T with
  | (T', .error e) => (T', fl, .error e)
  | (T', .ok none) => (T', fl, .ok (.fin 0, 0))
  | (T', .ok (some [])) => (T', fl, .ok (.fin 0, 0))
  | (T', .ok (some X)) =>
    let r := Opt.tryUpdatesC tiny (lnp W T') none fl T'.par X alphas
    (withPar T' r.1, r.2)

/-- The loop of `ConstrainedOptimizer.optimize_loop`, constrained_optimizer.py 19-30, without `check_step`: `n + 1` rounds remain, `step` is the number
of the next one. -/
def loopFrom (m : Method R) (tiny : R) (W : World R M) (hooks : Tractor R M → Nat → Nat → Option (List (Deriv R))) (o : Opts) (alphas : List R)
    (dchisq dchisqLimited : R) : Nat → Nat → Opt.OptFlags → Tractor R M → Tractor R M × Opt.OptFlags × Except PyErr Nat
  | n, step, fl, T =>
    match optimize m tiny W hooks o alphas { fl with stepLimited := false } T with
    | (T', fl', .error e) => (T', fl', .error e)
    | (T', fl', .ok (d, _)) =>
      if !fl'.stepLimited && d.le (.fin dchisq) then (T', fl', .ok step)
      else if fl'.stepLimited && d.le (.fin dchisqLimited) then (T', fl', .ok step)
      else match n with
        | 0 => (T', fl', .ok step)
        | n + 1 => loopFrom m tiny W hooks o alphas dchisq dchisqLimited n (step + 1) fl' T'

/-- `ConstrainedOptimizer.optimize_loop(tractor, dchisq, steps, dchisq_limited)`, constrained_optimizer.py 12-34; without a round `step` is not defined
in 31. -/
def optimizeLoop (m : Method R) (tiny : R) (W : World R M) (hooks : Tractor R M → Nat → Nat → Option (List (Deriv R))) (o : Opts) (alphas : List R)
    (dchisq dchisqLimited : R) (steps : Nat) (fl : Opt.OptFlags) (T : Tractor R M) : Tractor R M × Except PyErr Opt.LoopResult :=
  match steps with
  | 0 => (T, .error .nameErr)
  | n + 1 =>
    match loopFrom m tiny W hooks o alphas dchisq dchisqLimited n 0 { fl with hitLimit := false, lastStepHitLimit := false } T with
    | (T', _, .error e) => (T', .error e)
    | (T', fl', .ok step) => (T', .ok ⟨step, fl'.lastStepHitLimit, fl'.hitLimit⟩)

end Verif.Cons
