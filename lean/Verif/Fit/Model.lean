import Verif.Engine.Model
import Verif.Lsq.Model
import Verif.Opt.Model
import Verif.Params.Model2

/-!
# Model of a whole optimization: `Tractor.optimize`

tractor/engine.py (`Tractor`), tractor/lsqr_optimizer.py (`LsqrOptimizer.optimize`, `getLinearUpdateDirection`), put together from the models of
`getDerivs` and `getLogProb` (`Verif.Engine`), `getUpdateDirection` (`Verif.Lsq`) and `tryUpdates` (`Verif.Opt`).
-/

namespace Verif.Fit

open Verif Params Patches Engine

variable {R M : Type}

/-! ### The tractor after its parameters were set

The parameter methods of the models act on trees (`Tractor.par`); here the values are put back into the objects. -/

/-- The images with the parameters of a tree (`imagesSubs`). -/
def imagesFrom : List (Bool × Image R) → Subs R → List (Bool × Image R)
  | (b, i) :: l, .cons _ _ (.multi s) rest => (b, { i with par := s }) :: imagesFrom l rest
  | l, _ => l

/-- The sources with the parameters of a tree (`catalogSubs`). -/
def catalogFrom : List (Bool × Option (Source R)) → Subs R → List (Bool × Option (Source R))
  | (b, some s) :: l, .cons _ _ t rest => (b, some { s with par := t }) :: catalogFrom l rest
  | (b, none) :: l, .missing _ _ rest => (b, none) :: catalogFrom l rest
  | l, _ => l

/-- The tractor with the parameters of a tree. -/
def withPar (T : Tractor R M) : Par R → Tractor R M
  | .multi (.cons _ _ (.multi is) (.cons _ _ (.multi cs) .nil)) =>
    { T with images := imagesFrom T.images is, catalog := catalogFrom T.catalog cs }
  | _ => T

/-- The tractor after `tractor.setParams(p)`, utils.py 1166-1171. -/
def setAll (T : Tractor R M) (p : List R) : Tractor R M := withPar T (setParams T.par p).1

section
variable [Field R] [LinearOrder R]

/-- `Tractor.getLogProb()`, engine.py 481-497, with the Gaussian priors of the parameters (`getLogPrior`, utils.py 1237-1241). -/
def logProb (W : World R M) (T : Tractor R M) : Except PyErr (Num R) :=
  match getLogPrior T.par with
  | .error e => .error e
  | .ok p => getLogProb (.fin p) (fun _ => (getLogLikelihood W T).map .fin)

/-- The images as `getUpdateDirection` sees them, lsqr_optimizer.py 402-431 and 522-531 (`tractor.getChiImage(img=img)`; here for all images, also
those without derivatives). -/
def lsqList (W : World R M) (T : Tractor R M) : List (Bool × Image R) → Except PyErr (List (Lsq.Img R))
  | [] => .ok []
  | (_, im) :: l =>
    match getChiImage W T im none with
    | .error e => .error e
    | .ok chi => (lsqList W T l).map (⟨im.data.h, im.data.w, im.inverr, chi⟩ :: ·)

/-- The image with a number. -/
def lsqImgs (l : List (Lsq.Img R)) (i : Nat) : Lsq.Img R := (l[i]?).getD ⟨0, 0, Arr.zeros 0 0, Arr.zeros 0 0⟩

/-- The derivatives of one parameter: `deriv.clipTo` (lsqr_optimizer.py 406) is an AttributeError if `deriv` is None. -/
def patchesOf : List (DerivEntry R) → Except PyErr (List (Patch R × Nat))
  | [] => .ok []
  | (none, _) :: _ => .error .attribute
  | (some p, i) :: l => (patchesOf l).map ((p, i) :: ·)

/-- All derivatives. -/
def derivsOf : List (List (DerivEntry R)) → Except PyErr (Lsq.Derivs R)
  | [] => .ok []
  | l :: ls =>
    match patchesOf l with
    | .error e => .error e
    | .ok d => (derivsOf ls).map (d :: ·)

/-- `paramindexmap`, lsqr_optimizer.py 367-375: the parameters are set to 0, 1, 2, …, read back, and numbered by value. -/
def indexMap (t : Par R) : List Nat :=
  Lsq.uniqueInverse (getParams (setParams t ((List.range (numberOfParams t)).map (fun i : Nat => (i : R)))).1)

/-- The options of `LsqrOptimizer.optimize`, lsqr_optimizer.py 280-283: `scale_columns`, `shared_params`, `priors`; `damp` is 0 and `variance`
False. -/
structure Opts where
  scale : Bool
  shared : Bool
  priors : Bool

/-- What is not tractor code: `np.sqrt`, the limit below which scaled matrix elements are dropped, and the solver. -/
structure Solver (R : Type) where
  sqrt : R → R
  tiny : R
  lsqr : Lsq.Problem R → List R

/-- What `getUpdateDirection` reads from the tractor: the images, the derivatives and the derivatives of the priors. -/
def inputs (W : World R M) (o : Opts) (T : Tractor R M) (out : List (List (DerivEntry R))) :
    Except PyErr (List (Lsq.Img R) × Lsq.Derivs R × Option (PriorDerivs R)) :=
  match derivsOf out with
  | .error e => .error e
  | .ok ds =>
    match (if o.priors then getLogPriorDerivatives T.par else .ok none) with
    | .error e => .error e
    | .ok pr => (lsqList W T T.images).map (fun l => (l, ds, pr))

/-- `LsqrOptimizer.getLinearUpdateDirection`, lsqr_optimizer.py 253-278; `hooks T` are the derivatives reported by the calibrations of the images
(`Image.getParamDerivatives`).  Returns the tractor afterwards too. -/
def direction (S : Solver R) (W : World R M) (hooks : Tractor R M → Nat → Nat → Option (List (Deriv R))) (o : Opts) (T : Tractor R M) :
    Tractor R M × Except PyErr (Option (List R)) :=
  match getDerivs W (fun T img => getModelImage W T img none true) (hooks T) T with
  | (T', .error e) => (T', .error e)
  | (T', .ok out) =>
    match inputs W o T' out with
    | .error e => (T', .error e)
    | .ok (l, ds, pr) =>
      (T', Lsq.getUpdateDirection S.sqrt S.tiny S.lsqr (lsqImgs l) ds pr o.scale (if o.shared then some (indexMap T'.par) else none))

/-- `getLogProb()` of the tractor with the parameters of a tree, as `tryUpdates` calls it.  An exception is turned into NaN here (the properties are
about tractors where there is none). -/
def lnp (W : World R M) (T : Tractor R M) (t : Par R) : Num R :=
  match logProb W (withPar T t) with
  | .error _ => .nan
  | .ok v => v

/-- `LsqrOptimizer.optimize`, lsqr_optimizer.py 280-315: the tractor afterwards, the change of the log-probability and alpha. -/
def optimize (S : Solver R) (W : World R M) (hooks : Tractor R M → Nat → Nat → Option (List (Deriv R))) (o : Opts) (alphas : List R)
    (T : Tractor R M) : Tractor R M × Except PyErr (Num R × R) :=
  match direction S W hooks o T with
  | (T', .error e) => (T', .error e)
  | (T', .ok none) => (T', .ok (.fin 0, 0))
  | (T', .ok (some [])) => (T', .ok (.fin 0, 0))
  | (T', .ok (some X)) =>
    let r := Opt.tryUpdates (lnp W T') T'.par X alphas
    (withPar T' r.1, r.2)

/-- The loop of `LsqrOptimizer.optimize_loop`, lsqr_optimizer.py 319-324: `n + 1` rounds remain, `step` is the number of the next one; returns the
number of the last. -/
def loopFrom (S : Solver R) (W : World R M) (hooks : Tractor R M → Nat → Nat → Option (List (Deriv R))) (o : Opts) (alphas : List R)
    (dchisq : R) : Nat → Nat → Tractor R M → Tractor R M × Except PyErr Nat
  | n, step, T =>
    match optimize S W hooks o alphas T with
    | (T', .error e) => (T', .error e)
    | (T', .ok (d, _)) =>
      if d.le (.fin dchisq) then (T', .ok step)
      else match n with
        | 0 => (T', .ok step)
        | n + 1 => loopFrom S W hooks o alphas dchisq n (step + 1) T'

/-- `LsqrOptimizer.optimize_loop(tractor, dchisq, steps)`, lsqr_optimizer.py 317-326; without a round `step` is not defined in 325. -/
def optimizeLoop (S : Solver R) (W : World R M) (hooks : Tractor R M → Nat → Nat → Option (List (Deriv R))) (o : Opts) (alphas : List R)
    (dchisq : R) (steps : Nat) (T : Tractor R M) : Tractor R M × Except PyErr Nat :=
  match steps with
  | 0 => (T, .error .nameErr)
  | n + 1 => loopFrom S W hooks o alphas dchisq n 0 T

end

end Verif.Fit
