import Verif.Num
import Verif.Params.Model
import Mathlib.Algebra.Order.Field.Basic
import Mathlib.Algebra.Order.Group.Abs

/-!
# Model of the line searches and optimizer loops

tractor/optimize.py (`tryUpdates`), tractor/lsqr_optimizer.py (`optimize`, `optimize_loop`) and
tractor/constrained_optimizer.py.  The tractor is a parameter tree (`Par`, a `MultiParams` of images
and catalog); `getLogProb()` is an arbitrary function `lp` of the whole tree, NaN and infinities
included.  Exceptions raised by `getLogProb()` itself are not modelled.
-/

namespace Verif.Opt

open Verif Verif.Params

variable {R : Type}

/-- `[p + alpha * d for p, d in zip(p0, X)]`, optimize.py 438, 469. -/
def stepTo [Add R] [Mul R] (p0 X : List R) (a : R) : List R :=
  List.zipWith (fun p d => p + a * d) p0 X

section unconstrained
variable [Field R] [LinearOrder R]

/-- The loop over `alphas` of `Optimizer.tryUpdates`, optimize.py 436-455.  Arguments: remaining
alphas, `pBest`, `alphaBest`, the tractor. -/
def tryLoop (lp : Par R → Num R) (p0 X : List R) :
    List R → Num R → Option R → Par R → Par R × Except PyErr (Num R × Option R)
  | [], pBest, aBest, t => (t, .ok (pBest, aBest))
  | a :: as, pBest, aBest, t =>
    match setParams t (stepTo p0 X a) with
    | (t', some e) => (t', .error e)
    | (t', none) =>
      let pAfter := lp t'
      if pAfter.isFinite = false then (t', .ok (pBest, aBest))
      else if pAfter.lt (pBest.sub (.fin 1)) then (t', .ok (pBest, aBest))
      else if pBest.lt pAfter then tryLoop lp p0 X as pAfter (some a) t'
      else tryLoop lp p0 X as pBest aBest t'

/-- `Optimizer.tryUpdates(tractor, X, alphas)`, optimize.py 425-470: the tractor afterwards and the
returned (delta log-prob, alpha).  The default list of alphas (426-428) is one of the lists. -/
def tryUpdates (lp : Par R → Num R) (t : Par R) (X alphas : List R) :
    Par R × Except PyErr (Num R × R) :=
  let pBefore := lp t
  let p0 := getParams t
  match tryLoop lp p0 X alphas pBefore none t with
  | (t', .error e) => (t', .error e)
  | (t', .ok (_, none)) =>
    match setParams t' p0 with
    | (t'', some e) => (t'', .error e)
    | (t'', none) => (t'', .ok (.fin 0, 0))
  | (t', .ok (pBest, some a)) =>
    match setParams t' (stepTo p0 X a) with
    | (t'', some e) => (t'', .error e)
    | (t'', none) => (t'', .ok (pBest.sub pBefore, a))

/-- `LsqrOptimizer.optimize`, lsqr_optimizer.py 273-315, without `variance`: `dir` is
`getLinearUpdateDirection` (`none`: failure), taken to leave the parameters as they are (see C32 and
C38). -/
def optimize (lp : Par R → Num R) (dir : Par R → Option (List R)) (alphas : List R) (t : Par R) :
    Par R × Except PyErr (Num R × R) :=
  match dir t with
  | none => (t, .ok (.fin 0, 0))
  | some [] => (t, .ok (.fin 0, 0))
  | some X => tryUpdates lp t X alphas

/-- The loop of `LsqrOptimizer.optimize_loop`, lsqr_optimizer.py 319-324: `n` iterations remain,
`step` is the number of the next one; returns the last value of `step`. -/
def loopFrom (lp : Par R → Num R) (dir : Par R → Option (List R)) (alphas : List R) (dchisq : R) :
    Nat → Nat → Par R → Par R × Except PyErr Nat
  | 0, step, t => (t, .ok (step - 1))
  | n + 1, step, t =>
    match optimize lp dir alphas t with
    | (t', .error e) => (t', .error e)
    | (t', .ok (dlnp, _)) =>
      if dlnp.le (.fin dchisq) then (t', .ok step)
      else loopFrom lp dir alphas dchisq n (step + 1) t'

/-- `LsqrOptimizer.optimize_loop`, lsqr_optimizer.py 317-326: returns `R['steps']`.  With `steps = 0`
the variable `step` is unbound (UnboundLocalError). -/
def optimizeLoop (lp : Par R → Num R) (dir : Par R → Option (List R)) (alphas : List R) (dchisq : R)
    (steps : Nat) (t : Par R) : Par R × Except PyErr Nat :=
  if steps = 0 then (t, .error .nameErr) else loopFrom lp dir alphas dchisq steps 0 t

end unconstrained

/-! ### Constrained optimizer -/

section constrained
variable [Field R] [LinearOrder R]

/-- One element of the list returned by `getParameterSteps`, constrained_optimizer.py 85-89, 155. -/
structure Cand (R : Type) where
  alpha : R
  p : List R
  stepLimit : Bool
  hitLimit : Bool
  deriving DecidableEq, Repr

/-- Part 1 of the loop body, constrained_optimizer.py 114-126: reduce alpha to the maximum step sizes.
Returns alpha and `step_limit`.  Division by zero gives an infinite or undefined alpha in numpy
(with a warning); here it is `zeroDiv`, and the theorems show that it does not happen. -/
def capAlpha : List (Option R) → List R → R → Bool → Except PyErr (R × Bool)
  | [], _, a, b => .ok (a, b)
  | none :: ms, ds, a, b => capAlpha ms ds.tail a b
  | some _ :: _, [], _, _ => .error .index
  | some mx :: ms, d :: ds, a, b =>
    if mx < a * |d| then
      if d = 0 then .error .zeroDiv else capAlpha ms ds (mx / |d|) true
    else capAlpha ms ds a b

/-- Part 2, constrained_optimizer.py 128-141: reduce alpha to the bounds.  Returns alpha and
`hit_limit`. -/
def boundAlpha : List R → List (Option R) → List (Option R) → List R → R → Bool →
    Except PyErr (R × Bool)
  | p :: ps, l :: ls, u :: us, ds, a, b =>
    match ds with
    | [] => .error .index
    | d :: ds =>
      let px := p + a * d
      let r1 : Except PyErr (R × R × Bool) :=
        match l with
        | none => .ok (a, px, b)
        | some l =>
          if px < l then (if d = 0 then .error .zeroDiv else .ok ((l - p) / d, l, true))
          else .ok (a, px, b)
      match r1 with
      | .error e => .error e
      | .ok (a, px, b) =>
        match u with
        | none => boundAlpha ps ls us ds a b
        | some u =>
          if u < px then
            if d = 0 then .error .zeroDiv else boundAlpha ps ls us ds ((u - p) / d) true
          else boundAlpha ps ls us ds a b
  | _, _, _, _, a, b => .ok (a, b)

/-- The parameter vector, constrained_optimizer.py 149-156 (a four-fold `zip`). -/
def clampStep (a : R) : List R → List R → List (Option R) → List (Option R) → List R
  | p :: ps, d :: ds, l :: ls, u :: us =>
    let px := p + a * d
    let px := match l with
      | some l => if px < l then l else px
      | none => px
    let px := match u with
      | some u => if u < px then u else px
      | none => px
    px :: clampStep a ps ds ls us
  | _, _, _, _ => []

/-- `np.all(np.diff(alphas) > 0)`. -/
def increasing : List R → Bool
  | a :: b :: as => decide (a < b) && increasing (b :: as)
  | _ => true

/-- The loop over alphas of `getParameterSteps`, constrained_optimizer.py 108-158.  Returns the list
and whether `self.stepLimited` was set. -/
def stepsLoop (tiny : R) (p0 : List R) (mx lo up : List (Option R)) (X : List R) :
    List R → Bool × Except PyErr (List (Cand R))
  | [] => (false, .ok [])
  | a0 :: as =>
    match capAlpha mx X a0 false with
    | .error e => (false, .error e)
    | .ok (a1, stepLimit) =>
      match boundAlpha p0 lo up X a1 false with
      | .error e => (stepLimit, .error e)
      | .ok (a2, hitLimit) =>
        if a2 < tiny then (stepLimit, .ok [])
        else
          let c : Cand R := ⟨a2, clampStep a2 p0 X lo up, stepLimit, hitLimit⟩
          if stepLimit then (true, .ok [c])
          else
            match stepsLoop tiny p0 mx lo up X as with
            | (b, .error e) => (b, .error e)
            | (b, .ok cs) => (b, .ok (c :: cs))

/-- `ConstrainedOptimizer.getParameterSteps`, constrained_optimizer.py 84-159. -/
def getParameterSteps (tiny : R) (t : Par R) (X alphas : List R) :
    Bool × Except PyErr (List (Cand R)) :=
  if increasing alphas then
    stepsLoop tiny (getParams t) (getMaxStep t) (getLowerBounds t) (getUpperBounds t) X alphas
  else (false, .error .assertion)

/-- The attributes of the optimizer object, constrained_optimizer.py 6-10, 17-18. -/
structure OptFlags where
  stepLimited : Bool
  hitLimit : Bool
  lastStepHitLimit : Bool
  deriving DecidableEq, Repr

/-- `check_step is not None and not check_step(...)`, constrained_optimizer.py 56-59. -/
def rejects (check : Option (Par R → R → Bool)) (t : Par R) (a : R) : Bool :=
  match check with
  | some f => !f t a
  | none => false

/-- The loop of `tryUpdates`, constrained_optimizer.py 50-76: remaining candidates, the object's flags,
`logprob_best`, `alpha_best`, `p_best`, the tractor. -/
def candLoop (lp : Par R → Num R) (check : Option (Par R → R → Bool)) :
    List (Cand R) → OptFlags → Num R → Option R → List R → Par R →
      Par R × OptFlags × Except PyErr (Num R × Option R × List R)
  | [], fl, best, aBest, pBest, t => (t, fl, .ok (best, aBest, pBest))
  | c :: cs, fl, best, aBest, pBest, t =>
    let fl := if c.hitLimit then { fl with hitLimit := true } else fl
    match setParams t c.p with
    | (t', some e) => (t', fl, .error e)
    | (t', none) =>
      if rejects check t' c.alpha then (t', fl, .ok (best, aBest, pBest))
      else
        let v := lp t'
        if v.isFinite = false then (t', fl, .ok (best, aBest, pBest))
        else if v.lt (best.sub (.fin 1)) then (t', fl, .ok (best, aBest, pBest))
        else if best.lt v then
          candLoop lp check cs { fl with lastStepHitLimit := c.hitLimit } v (some c.alpha) c.p t'
        else candLoop lp check cs fl best aBest pBest t'

/-- `ConstrainedOptimizer.tryUpdates`, constrained_optimizer.py 36-82. -/
def tryUpdatesC (tiny : R) (lp : Par R → Num R) (check : Option (Par R → R → Bool)) (fl : OptFlags)
    (t : Par R) (X alphas : List R) : Par R × OptFlags × Except PyErr (Num R × R) :=
  match getParameterSteps tiny t X alphas with
  | (b, .error e) => (t, { fl with stepLimited := fl.stepLimited || b }, .error e)
  | (b, .ok cs) =>
    let fl := { fl with stepLimited := fl.stepLimited || b }
    let fl : OptFlags := if cs.length = 0 then ⟨true, true, true⟩ else fl
    match candLoop lp check cs fl (lp t) none (getParams t) t with
    | (t', fl', .error e) => (t', fl', .error e)
    | (t', fl', .ok (best, aBest, pBest)) =>
      match setParams t' pBest with
      | (t'', some e) => (t'', fl', .error e)
      | (t'', none) =>
        match aBest with
        | none => (t'', fl', .ok (.fin 0, 0))
        | some a => (t'', fl', .ok (best.sub (lp t), a))

/-- `optimize` (lsqr_optimizer.py 273-315) of the constrained optimizer; it does not pass `check_step`
on to `tryUpdates`. -/
def optimizeC (tiny : R) (lp : Par R → Num R) (dir : Par R → Option (List R)) (alphas : List R)
    (fl : OptFlags) (t : Par R) : Par R × OptFlags × Except PyErr (Num R × R) :=
  match dir t with
  | none => (t, fl, .ok (.fin 0, 0))
  | some [] => (t, fl, .ok (.fin 0, 0))
  | some X => tryUpdatesC tiny lp none fl t X alphas

/-- `check_step is not None and not check_step(...)`, constrained_optimizer.py 23-26. -/
def stepRejected (check : Option (Par R → Num R → R → Bool)) (t : Par R) (dlnp : Num R) (a : R) : Bool :=
  match check with
  | some f => !f t dlnp a
  | none => false

/-- Loop of `ConstrainedOptimizer.optimize_loop`, constrained_optimizer.py 19-30.  `check` is
`check_step` as a function of tractor, dlnp and alpha. -/
def loopFromC (tiny : R) (lp : Par R → Num R) (dir : Par R → Option (List R)) (alphas : List R)
    (dchisq dchisqLimited : R) (check : Option (Par R → Num R → R → Bool)) :
    Nat → Nat → OptFlags → Par R → Par R × OptFlags × Except PyErr Nat
  | 0, step, fl, t => (t, fl, .ok (step - 1))
  | n + 1, step, fl, t =>
    match optimizeC tiny lp dir alphas { fl with stepLimited := false } t with
    | (t', fl', .error e) => (t', fl', .error e)
    | (t', fl', .ok (dlnp, alpha)) =>
      if stepRejected check t' dlnp alpha then (t', fl', .ok step)
      else if !fl'.stepLimited && dlnp.le (.fin dchisq) then (t', fl', .ok step)
      else if fl'.stepLimited && dlnp.le (.fin dchisqLimited) then (t', fl', .ok step)
      else loopFromC tiny lp dir alphas dchisq dchisqLimited check n (step + 1) fl' t'

/-- What `ConstrainedOptimizer.optimize_loop` returns, constrained_optimizer.py 31-34. -/
structure LoopResult where
  steps : Nat
  hitLimit : Bool
  everHitLimit : Bool
  deriving DecidableEq, Repr

/-- `ConstrainedOptimizer.optimize_loop`, constrained_optimizer.py 12-34. -/
def optimizeLoopC (tiny : R) (lp : Par R → Num R) (dir : Par R → Option (List R)) (alphas : List R)
    (dchisq dchisqLimited : R) (check : Option (Par R → Num R → R → Bool)) (steps : Nat)
    (fl : OptFlags) (t : Par R) : Par R × Except PyErr LoopResult :=
  let fl := { fl with hitLimit := false, lastStepHitLimit := false }
  if steps = 0 then (t, .error .nameErr)
  else
    match loopFromC tiny lp dir alphas dchisq dchisqLimited check steps 0 fl t with
    | (t', _, .error e) => (t', .error e)
    | (t', fl', .ok step) => (t', .ok ⟨step, fl'.lastStepHitLimit, fl'.hitLimit⟩)

end constrained

end Verif.Opt
