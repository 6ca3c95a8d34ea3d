import Verif.Num
import Verif.Patch.Model
import Mathlib.Algebra.Field.Basic
import Mathlib.Algebra.Order.Ring.Defs

/-!
# Forced photometry with LSQR

tractor/lsqr_optimizer.py `_lsqr_forced_photom`, `_lnp_for_update` and tractor/optimize.py `_getims`.

The tractor is represented by the thawed parameters of its catalog and of its images (sky levels) and by the
information whether `tractor.images` is the list of images it started with.  Setting parameters replaces the list (C01);
a list of the wrong length is an AssertionError.
-/

namespace Verif.Forced

open Verif Patches

variable {R : Type}

/-! ### `_getims` -/

/-- One image: data, inverse errors, region of interest (y0, y1, x0, x1). -/
structure Im (R : Type) where
  img : Arr R
  ie : Arr R
  roi : Option (Int × Int × Int × Int)

/-- `A[roi]`. -/
def cut (A : Arr R) (r : Int × Int × Int × Int) : Arr R := A.slice (some r.1) (some r.2.1) (some r.2.2.1) (some r.2.2.2)

/-- One axis of numpy broadcasting. -/
def bcDim (a b : Nat) : Option Nat := if a = b then some a else if a = 1 then some b else if b = 1 then some a else none

/-- Elementwise operation with broadcasting; ValueError if the shapes do not fit. -/
def bc (f : R → R → R) (A B : Arr R) : Except PyErr (Arr R) :=
  match bcDim A.h B.h, bcDim A.w B.w with
  | some h, some w =>
    .ok ⟨h, w, fun r c => f (A.px (if A.h = h then r else 0) (if A.w = w then c else 0))
      (B.px (if B.h = h then r else 0) (if B.w = w then c else 0))⟩
  | _, _ => .error .value

section
variable [Field R] [LinearOrder R]

/-- `if minFlux is not None: f = max(f, minFlux)`. -/
def clampOne (minFlux : Option R) (f : R) : R := match minFlux with | none => f | some m => max f m

/-- The loop over sources, optimize.py 484-501.  Checks for infinite and NaN values are not represented. -/
def addModels (minFlux : Option R) (scale : R) : List (R × Option (Patch R)) → Arr R → Except PyErr (Arr R)
  | [], m => .ok m
  | (_, none) :: l, m => addModels minFlux scale l m
  | (f, some um) :: l, m =>
    if um.patch.isNone then addModels minFlux scale l m
    else
      let counts := clampOne minFlux f * scale
      if counts = 0 then addModels minFlux scale l m
      else
        match (um.mul counts).addTo m 1 with
        | .error e => .error e
        | .ok m' => addModels minFlux scale l m'

/-- `_getims` for one image, optimize.py 474-519: model image and chi.  `sky` adds the sky level (if it is fitted); `mod0`
is the model image of the frozen sources. -/
def getim (minFlux : Option R) (sky : Arr R → Arr R) (fluxes : List R) (im : Im R) (umods : List (Option (Patch R)))
    (mod0 : Arr R) (scale : R) : Except PyErr (Arr R × Arr R) :=
  match addModels minFlux scale (fluxes.zip umods) (sky mod0) with
  | .error e => .error e
  | .ok mod =>
    let ie := im.ie
    let dat := im.img
    let (ie, dat) := match im.roi with
      | none => (ie, dat)
      | some r =>
        let ie := cut ie r
        (ie, cut ie r)
    match bc (· - ·) dat mod with
    | .error e => .error e
    | .ok d =>
      match bc (· * ·) d ie with
      | .error e => .error e
      | .ok chi => .ok (mod, chi)

end

/-! ### The loop -/

/-- The tractor. -/
structure St (R : Type) where
  flux : List R
  sky : List R
  /-- `tractor.images` is the list of images it started with -/
  real : Bool
  deriving DecidableEq, Repr

/-- Arguments. -/
structure Cfg (R : Type) where
  minFlux : Option R
  sky : Bool
  rois : Bool
  priors : Bool
  damp : R
  alphas : List R
  mindlnp : R
  justims0 : Bool

/-- What depends on the images: `tractor.getLogPrior()` and the sum of the squared chis, as functions of fluxes and sky
levels; a failing `_getims` is an error. -/
structure Obj (R : Type) where
  prior : List R → List R → Num R
  chisq : List R → List R → Except PyErr R

section
variable [Field R] [LinearOrder R]

/-- `[p + alpha * d for p, d in zip(p0, X)]`. -/
def stepTo (p0 X : List R) (a : R) : List R := List.zipWith (fun p d => p + a * d) p0 X

/-- `_lnp_for_update`, lsqr_optimizer.py 223-247: the tractor and the log-probability.  `pa` are the fluxes, `sk` the sky levels to
be set. -/
def lnpFor (c : Cfg R) (o : Obj R) (pa : List R) (sk : Option (List R)) (s : St R) : St R × Except PyErr (Num R) :=
  let s := match sk with | none => s | some q => { s with sky := q }
  let pr := if c.priors then Num.add (.fin 0) (o.prior s.flux s.sky) else .fin 0
  if c.priors && !pr.isFinite then (s, .ok pr)
  else
    match o.chisq (pa.map (clampOne c.minFlux)) s.sky with
    | .error e => (s, .error e)
    | .ok x => (s, .ok (pr.add (.fin (-(1 / 2) * x))))

/-- The loop over `alphas`, lsqr_optimizer.py 162-180: `lnpBest`, `alphaBest` and the last value of `alpha`. -/
def search (c : Cfg R) (o : Obj R) (p0 X p0sky Xsky : List R) :
    List R → Num R → Option R → R → St R → St R × Except PyErr (Num R × Option R × R)
  | [], lb, ab, al, s => (s, .ok (lb, ab, al))
  | a :: as, lb, ab, _, s =>
    match lnpFor c o (stepTo p0 X a) (if c.sky then some (stepTo p0sky Xsky a) else none) s with
    | (s, .error e) => (s, .error e)
    | (s, .ok lnp) =>
      if lnp.lt (lb.sub (.fin 1)) then (s, .ok (lb, ab, a))
      else if !lnp.isFinite then (s, .ok (lb, ab, a))
      else if lb.lt lnp then search c o p0 X p0sky Xsky as lnp (some a) a s
      else search c o p0 X p0sky Xsky as lb ab a s

/-- What one round of the loop leaves behind: the end, or the values of `lnp0`, `damping` and `damp0`. -/
inductive Out (R : Type) where
  | done
  | again (lnp0 : Num R) (damping damp0 : R)
  deriving DecidableEq, Repr

/-- Setting the parameters after the search, lsqr_optimizer.py 182-205: the tractor and `dlogprob`. -/
def accept (c : Cfg R) (p0 X p0sky Xsky : List R) (lnp0 lb : Num R) (ab : Option R) (al : R) (s : St R) : St R × Num R :=
  match ab with
  | some a =>
    let s := { s with flux := (stepTo p0 X a).map (clampOne c.minFlux) }
    let s := if c.sky then { s with sky := stepTo p0sky Xsky al } else s
    (s, lb.sub lnp0)
  | none => (if c.sky then { s with sky := p0sky } else s, .fin 0)

/-- `(minFlux is None) or np.all((p0 + X) >= minFlux)`, lsqr_optimizer.py 139. -/
def fullOK (minFlux : Option R) (p0 X : List R) : Bool :=
  match minFlux with
  | none => true
  | some m => (List.zipWith (· + ·) p0 X).all (fun f => decide (m ≤ f))

/-- One round after the first log-probability is known, lsqr_optimizer.py 101-218.  `dir` is `getUpdateDirection`: `none`
or an empty list on failure. -/
def round (c : Cfg R) (o : Obj R) (dir : St R → R → Option (List R)) (lnp0 : Num R) (damping damp0 : R) (s : St R) :
    St R × Except PyErr (Out R) :=
  let p0 := s.flux
  let p0sky := s.sky
  let real := s.real
  let s := if c.rois then { s with real := false } else s
  match dir s damping with
  | none => (s, .ok .done)
  | some [] => (s, .ok .done)
  | some Xall =>
    let s := if c.rois then { s with real := real } else s
    let Xsky := if c.sky then Xall.take p0sky.length else []
    let X := if c.sky then Xall.drop p0sky.length else Xall
    if X.length ≠ p0.length then (s, .error .assertion)
    else
      let ok := fullOK c.minFlux p0 X
      let alphas := if ok then [1] else c.alphas
      let redamp := !ok && decide (c.damp = 0)
      let damping' := if redamp then damp0 else damping
      let damp0' := if redamp then damp0 * 10 else damp0
      let tryAgain := redamp && decide (damp0' < 1000)
      match search c o p0 X p0sky Xsky alphas lnp0 none 0 s with
      | (s, .error e) => (s, .error e)
      | (s, .ok (lb, ab, al)) =>
        let r := accept c p0 X p0sky Xsky lnp0 lb ab al s
        let lnp0' := match ab with | some _ => lb | none => lnp0
        if (r.2.lt (.fin c.mindlnp) && !tryAgain) || ok then (r.1, .ok .done)
        else (r.1, .ok (.again lnp0' damping' damp0'))

/-- The `while True` loop, for at most `fuel` rounds; `none`: not finished.  `dir n` is `getUpdateDirection` in round `n`. -/
def loop (c : Cfg R) (o : Obj R) (dir : Nat → St R → R → Option (List R)) :
    Nat → Nat → Num R → R → R → St R → St R × Option (Except PyErr Unit)
  | 0, _, _, _, _, s => (s, none)
  | fuel + 1, n, lnp0, damping, damp0, s =>
    match round c o (dir n) lnp0 damping damp0 s with
    | (s, .error e) => (s, some (.error e))
    | (s, .ok .done) => (s, some (.ok ()))
    | (s, .ok (.again l d d0)) => loop c o dir fuel (n + 1) l d d0 s

/-- `_lsqr_forced_photom`, lsqr_optimizer.py 43-221. -/
def forced (c : Cfg R) (o : Obj R) (dir : Nat → St R → R → Option (List R)) (fuel : Nat) (s : St R) :
    St R × Option (Except PyErr Unit) :=
  match lnpFor c o s.flux none s with
  | (s, .error e) => (s, some (.error e))
  | (s, .ok lnp0) =>
    if !lnp0.isFinite then (s, some (.error .assertion))
    else if c.justims0 then (s, some (.ok ()))
    else loop c o dir fuel 0 lnp0 c.damp (1 / 1000) s

end

end Verif.Forced
