import Verif.Py
import Mathlib.Algebra.Field.Basic

/-!
# Ceres: optimisation in scaled parameters

tractor/ceres_optimizer.py `_ceres_opt` and `CeresTractorAdapter`, and the part of tractor/ceres.i and
tractor/ceres-tractor.cc that sets up the problem (which residual blocks there are).  Vectors are lists; numbers are elements of a
field.  The solver is a parameter.
-/

namespace Verif.Ceres

variable {R : Type} [Field R]

/-- What the optimizer needs of a tractor: the parameters, the chi image of image `i` (ravelled) and its
derivatives as functions of the parameters, number of images, Gaussian priors (index, mean, sigma), bounds,
step sizes. -/
structure Target (R : Type) where
  params : List R
  nims : Nat
  chi : Nat → List R → List R
  /-- (parameter index, derivative of chi): `_getOneImageDerivs(i)` -/
  derivs : Nat → List R → List (Nat × List R)
  gpriors : List (Nat × R × R)
  lowers : List (Option R)
  uppers : List (Option R)
  steps : List R

/-- The problem handed to Ceres: residuals and Jacobian entries of image `i` at a parameter vector (callbacks of the
adapter), start values, priors, bounds (index, bound, is it a lower bound). -/
structure Prob (R : Type) where
  start : List R
  nims : Nat
  residual : Nat → List R → List R
  jac : Nat → List R → List (Nat × List R)
  priors : Option (List (Nat × R × R))
  bounds : Option (List (Nat × R × Bool))

/-- `CeresTractorAdapter.setParams`: `offset + scale * p`, ceres_optimizer.py 414-416. -/
def toParams (offset scale q : List R) : List R :=
  List.zipWith (· + ·) offset (List.zipWith (· * ·) scale q)

/-- `CeresTractorAdapter._getOneImageDerivs`, ceres_optimizer.py 408-412: derivatives multiplied by the scale of
their parameter. -/
def scaleDerivs (scale : List R) (ds : List (Nat × List R)) : List (Nat × List R) :=
  ds.map (fun d => (d.1, d.2.map (· * scale.getD d.1 0)))

/-- Priors in scaled parameters, ceres_optimizer.py 98-104. -/
def scalePriors (p0 scales : List R) (gs : List (Nat × R × R)) : List (Nat × R × R) :=
  gs.map (fun g => (g.1, (g.2.1 - p0.getD g.1 0) / scales.getD g.1 0, g.2.2 / scales.getD g.1 0))

/-- `[(b - p0[i]) / scales[i] if b is not None else None ...]`, ceres_optimizer.py 116-119. -/
def scaleBounds (p0 scales : List R) (bs : List (Option R)) : List (Option R) :=
  bs.zipIdx.map (fun b => b.1.map (fun v => (v - p0.getD b.2 0) / scales.getD b.2 0))

/-- `[(i, float(b), lower) for i, b in enumerate(bs) if b is not None]`, ceres_optimizer.py 123-126. -/
def boundList (lower : Bool) (bs : List (Option R)) : List (Nat × R × Bool) :=
  bs.zipIdx.filterMap (fun b => b.1.map (fun v => (b.2, v, lower)))

/-- One scale from `getDynamicScales`, ceres_optimizer.py 28-36: `ss` is the sum of the squared derivatives with respect to the
parameter (over all images), `step` its step size. -/
def dynamicScale [DecidableEq R] (sqrt : R → R) (ss step : R) : R :=
  if sqrt ss ≠ 0 then 1 / sqrt ss else step

/-- `getDynamicScales`, ceres_optimizer.py 19-36. -/
def dynamicScales [DecidableEq R] (sqrt : R → R) (T : Target R) : List R :=
  T.steps.zipIdx.map (fun s => dynamicScale sqrt
    (((List.range T.nims).map (fun i => ((T.derivs i T.params).map (fun d =>
      if d.1 = s.2 then (d.2.map (· ^ 2)).sum else 0)).sum)).sum) s.1)

/-- The scales, ceres_optimizer.py 69-73 (`scaled=True`): `dyn` is the list from `getDynamicScales`, if asked for. -/
def chooseScales (T : Target R) (dyn : Option (List R)) : List R := dyn.getD T.steps

/-- The problem, ceres_optimizer.py 61-126.  `scaled`, `priors`, `bounds` are the keyword arguments. -/
def mkProb (T : Target R) (scaled : Bool) (scales : List R) (priors bounds : Bool) : Except PyErr (Prob R) :=
  if bounds && !(T.lowers.length = T.params.length && T.uppers.length = T.params.length) then .error .assertion
  else
    let p0 := if scaled then List.zipWith (· - ·) T.params scales else T.params.map (fun _ => 0)
    let scales := if scaled then scales else T.params.map (fun _ => 1)
    .ok {
      start := if scaled then p0.map (fun _ => 1) else T.params
      nims := T.nims
      residual := fun i q => T.chi i (toParams p0 scales q)
      jac := fun i q => scaleDerivs scales (T.derivs i (toParams p0 scales q))
      priors := if priors then some (if scaled then scalePriors p0 scales T.gpriors else T.gpriors) else none
      bounds := if bounds then some (
          boundList true (if scaled then scaleBounds p0 scales T.lowers else T.lowers) ++
          boundList false (if scaled then scaleBounds p0 scales T.uppers else T.uppers)) else none }

/-- `_ceres_opt`, ceres_optimizer.py 57-146: the parameters afterwards and the variances.  `solve` returns the
parameters and variances Ceres leaves in its arrays. -/
def ceresOpt (solve : Prob R → List R × List R) (T : Target R) (scaled : Bool) (scales : List R)
    (priors bounds : Bool) : Except PyErr (Option (List R × List R)) :=
  if T.params.length = 0 then .ok none
  else
    match mkProb T scaled scales priors bounds with
    | .error e => .error e
    | .ok P =>
      let q := solve P
      if scaled then
        .ok (some (List.zipWith (· + ·) (List.zipWith (· - ·) T.params scales) (List.zipWith (· * ·) q.1 scales),
          List.zipWith (· * ·) q.2 (scales.map (· ^ 2))))
      else .ok (some q)

/-- `CeresOptimizer.optimize`, ceres_optimizer.py 42-52: the result of `_ceres_opt` is indexed, which fails when it is
None. -/
def optimize (solve : Prob R → List R × List R) (T : Target R) (scaled : Bool) (scales : List R)
    (priors bounds : Bool) : Except PyErr (List R × List R) :=
  match ceresOpt solve T scaled scales priors bounds with
  | .error e => .error e
  | .ok none => .error .typeErr
  | .ok (some r) => .ok r

/-! ### Which images become residual blocks

ceres.i `ceres_opt`: `for (i=0; i<nims; i++) { ...; if (numeric) { for (i=0; i<nparams; i++) ...; } ...
AddResidualBlock }`: with numerical derivatives the inner loop runs over the same variable. -/

/-- The value of the loop variable after the body of the loop, ceres.i `ceres_opt`. -/
def afterBody (numeric : Bool) (nparams i : Nat) : Nat := if numeric then nparams else i

/-- The loop, run for at most `fuel` rounds: the images added, and whether the loop has ended. -/
def imageBlocks (numeric : Bool) (nparams nims : Nat) : Nat → Nat → List Nat × Bool
  | 0, i => ([], decide (nims ≤ i))
  | fuel + 1, i =>
    if i < nims then
      let r := imageBlocks numeric nparams nims fuel (afterBody numeric nparams i + 1)
      (i :: r.1, r.2)
    else ([], true)

/-! ### Jacobians

ceres-tractor.cc `ImageCostFunction::_Evaluate` -/

/-- A derivative handed over by `_getOneImageDerivs`: parameter index, position, pixels. -/
structure Der (R : Type) where
  ind : Nat
  x0 : Nat
  y0 : Nat
  h : Nat
  w : Nat
  px : Nat → Nat → R

/-- Writing one derivative into the Jacobian column of its parameter: zeros before, after and on both sides. -/
def writeDer (d : Der R) : Nat → Nat → R :=
  fun r c => if d.y0 ≤ r ∧ r < d.y0 + d.h ∧ d.x0 ≤ c ∧ c < d.x0 + d.w then d.px (r - d.y0) (c - d.x0) else 0

/-- The Jacobian columns after the loop over the derivatives: `none` is memory that was not written. -/
def jacobian (n : Nat) (ds : List (Der R)) : List (Option (Nat → Nat → R)) :=
  ds.foldl (fun J d => J.set d.ind (some (writeDer d))) (List.replicate n none)

end Verif.Ceres
