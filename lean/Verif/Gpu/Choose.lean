import Verif.Py
import Mathlib.Order.Defs.LinearOrder

/-!
# Model of the choice between the CPU and the GPU optimizer

tractor/gpu_optimizer.py 24-62 and 133-137 (`GpuFriendlyOptimizer`, `GpuOptimizer`) with the methods they inherit: lsqr_optimizer.py 253-315
(`getLinearUpdateDirection`, `optimize`), smarter_dense_optimizer.py 37-52 (the options that are refused), constrained_optimizer.py 12-34 (`optimize_loop`).
The work itself (derivatives, solver, line searches) is a parameter: see C107-C111 for the GPU, C144 for the CPU.
-/

namespace Verif.GpuPick

/-- What `isinstance` tells about an entry of the catalog, gpu_optimizer.py 28-32: a `ProfileGalaxy` (not a `CompositeGalaxy`), a `PointSource`, None, a
`ConstantSurfaceBrightness`, anything else. -/
inductive Kind where
  | profileGalaxy
  | pointSource
  | missing
  | constantSB
  | other
  deriving DecidableEq

/-- The options that `optimize` hands to `getLinearUpdateDirection`, lsqr_optimizer.py 284-286. -/
structure Kwargs (R : Type) where
  damp : R
  priors : Bool
  scale : Bool
  shared : Bool
  variance : Bool

/-- What `getLinearUpdateDirection` returns: None, an array, or a pair of arrays. -/
inductive Found (R : Type) where
  | failure
  | arr (x : List R)
  | both (x var : List R)

/-- A method with effects on the optimizer and the tractor. -/
abbrev Act (T α : Type) := T → T × Except PyErr α

/-- The methods of an optimizer that `optimize` calls: `getLinearUpdateDirection(tr, get_icov=…, **kwargs)` and `tryUpdates(tr, X, alphas=…)`, which returns the
gain and the fraction of the step. -/
structure Methods (T R N : Type) where
  update : Kwargs R → Bool → Act T (Found R)
  tryUpdates : List R → Option (List R) → Act T (N × R)

/-- The work done by the CPU code: `tractor.getDerivs()`, the rest of `SmarterDenseOptimizer.getUpdateDirection` (lines 53-306), and
`ConstrainedOptimizer.tryUpdates`. -/
structure Cpu (T R N D : Type) where
  derivs : Act T D
  solve : D → Bool → Bool → Act T (Option (List R))
  tryUpdates : List R → Option (List R) → Act T (N × R)

/-- The work done by the GPU code: `gpu_one_source_update(tr, priors)` (lines 467-811) and `gpu_one_source_try_updates` (184-465). -/
structure Dev (T R N : Type) where
  update : Bool → Act T (Option (List R))
  tryUpdates : List R → Option (List R) → Act T (N × R)

variable {T R N D : Type}

/-- An array or None. -/
def Found.ofOption : Option (List R) → Found R
  | none => .failure
  | some x => .arr x

/-- `SmarterDenseOptimizer`: `getLinearUpdateDirection`, lsqr_optimizer.py 253-278 (`get_icov` is among the `kwargs` that are not used), with the options refused in
smarter_dense_optimizer.py 47-52. -/
def smarter [Zero R] [LinearOrder R] (C : Cpu T R N D) : Methods T R N where
  update := fun k _ t =>
    match C.derivs t with
    | (t', .error e) => (t', .error e)
    | (t', .ok d) =>
      if k.shared || decide (0 < k.damp) || k.variance then (t', .error .runtime)
      else if k.damp ≠ 0 then (t', .error .assertion)
      else
        match C.solve d k.priors k.scale t' with
        | (t'', .error e) => (t'', .error e)
        | (t'', .ok x) => (t'', .ok (.ofOption x))
  tryUpdates := C.tryUpdates

/-- The test in gpu_optimizer.py 27-33 and 47-53; `frozen` is `tr.isParamFrozen('images')`. -/
def oneSource (frozen : T → Bool) (kinds : T → List Kind) (t : T) : Bool :=
  frozen t &&
    ((decide ((kinds t).length = 1) && ([.profileGalaxy, .pointSource] : List Kind).contains ((kinds t).getD 0 .other)) ||
      (decide ((kinds t).length = 2) && ([.profileGalaxy, .pointSource, .missing] : List Kind).contains ((kinds t).getD 0 .other) &&
        decide ((kinds t).getD 1 .other = .constantSB)))

/-- `GpuFriendlyOptimizer`, gpu_optimizer.py 26-55: `sup` are the methods of `super()`, `oneUpdate` and `oneTry` those called for a single source. -/
def choose (frozen : T → Bool) (kinds : T → List Kind) (sup : Methods T R N) (oneUpdate : Kwargs R → Act T (Found R))
    (oneTry : List R → Option (List R) → Act T (N × R)) : Methods T R N where
  update := fun k icov t =>
    if !oneSource frozen kinds t then sup.update k icov t
    else if icov then (t, .error .assertion)
    else oneUpdate k t
  tryUpdates := fun x alphas t => if !oneSource frozen kinds t then sup.tryUpdates x alphas t else oneTry x alphas t

/-- `GpuFriendlyOptimizer` itself, gpu_optimizer.py 57-61. -/
def friendly [Zero R] [LinearOrder R] (frozen : T → Bool) (kinds : T → List Kind) (C : Cpu T R N D) : Methods T R N :=
  choose frozen kinds (smarter C) (fun k => (smarter C).update k false) (smarter C).tryUpdates

/-- `GpuOptimizer`, gpu_optimizer.py 133-137; `gpu_one_source_update` uses only `priors` of the options. -/
def gpu [Zero R] [LinearOrder R] (frozen : T → Bool) (kinds : T → List Kind) (C : Cpu T R N D) (G : Dev T R N) : Methods T R N :=
  choose frozen kinds (smarter C)
    (fun k t =>
      match G.update k.priors t with
      | (t', .error e) => (t', .error e)
      | (t', .ok x) => (t', .ok (.ofOption x)))
    G.tryUpdates

/-- What `optimize` returns: gain, direction (or None) and step fraction; the same with variances (or None); the variances alone; or a number in their place. -/
inductive Out (R N : Type) where
  | triple (gain : N) (x : Option (List R)) (alpha : R)
  | quad (gain : N) (x : List R) (alpha : R) (var : Option (List R))
  | var (v : List R)
  | number (v : R)

/-- The line search and the value returned, lsqr_optimizer.py 297-315; `var` is none if `variance` is False. -/
def finish [Zero R] [Zero N] (m : Methods T R N) (alphas : Option (List R)) (x : List R) (var : Option (List R)) (t : T) : T × Except PyErr (Out R N) :=
  if x.length = 0 then (t, .ok (.triple 0 (some x) 0))
  else
    match m.tryUpdates x alphas t with
    | (t', .error e) => (t', .error e)
    | (t', .ok (d, a)) =>
      match var with
      | none => (t', .ok (.triple d (some x) a))
      | some v => (t', .ok (.quad d x a (some v)))

/-- `LsqrOptimizer.optimize`, lsqr_optimizer.py 280-315.  Unpacking an array `X, var = X` (294) needs exactly two numbers; `len` of a number (301) is a TypeError.
A pair without `variance` does not occur. -/
def optimize [Zero R] [Zero N] (m : Methods T R N) (k : Kwargs R) (justVar : Bool) (alphas : Option (List R)) (t : T) : T × Except PyErr (Out R N) :=
  match m.update k false t with
  | (t', .error e) => (t', .error e)
  | (t', .ok .failure) => (t', .ok (.triple 0 none 0))
  | (t', .ok (.arr x)) =>
    if k.variance then
      match x with
      | [] => (t', .ok (.quad 0 [] 0 none))
      | [_, v] => if justVar then (t', .ok (.number v)) else (t', .error .typeErr)
      | _ => (t', .error .value)
    else finish m alphas x none t'
  | (t', .ok (.both x v)) =>
    if k.variance then if justVar then (t', .ok (.var v)) else finish m alphas x (some v) t'
    else (t', .error .typeErr)

/-- The rounds of `ConstrainedOptimizer.optimize_loop`, constrained_optimizer.py 19-30: `before` resets `stepLimited`, `stop` are the three tests that end the loop
(with the effects of `check_step`); `n` rounds remain, `step` is the number of the next.  A result that is no triple cannot be unpacked in 21 (`just_variance` is
left out).  Returns the number of the last round; without a round `step` is not defined in 31. -/
def rounds [Zero R] [Zero N] (m : Methods T R N) (k : Kwargs R) (alphas : Option (List R)) (before : T → T)
    (stop : N → Option (List R) → R → Act T Bool) : Nat → Nat → Option Nat → T → T × Except PyErr Nat
  | 0, _, none, t => (t, .error .nameErr)
  | 0, _, some last, t => (t, .ok last)
  | n + 1, step, _, t =>
    match optimize m k false alphas (before t) with
    | (t', .error e) => (t', .error e)
    | (t', .ok (.triple d x a)) =>
      match stop d x a t' with
      | (t'', .error e) => (t'', .error e)
      | (t'', .ok true) => (t'', .ok step)
      | (t'', .ok false) => rounds m k alphas before stop n (step + 1) (some step) t''
    | (t', .ok _) => (t', .error .value)

end Verif.GpuPick
