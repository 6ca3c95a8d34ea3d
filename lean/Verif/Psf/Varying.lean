import Verif.Cache.Model
import Mathlib.Algebra.Field.Basic

/-!
# Gaussian-mixture PSFs fitted on a grid, and cached

tractor/psfex.py `VaryingGaussianPSF`, `VaryingGaussianPsfEx` (without files), `CachingPsfEx`.
-/

namespace Verif.Psf.Varying

open Verif

variable {R Im S P : Type} [Field R]

/-- What a `VaryingGaussianPSF` relies on: `instantiateAt` of the subclass; `psfclass.fromStamp(im, N=K, P0=p0)` (`getParams()` and
`getAllParams()` of its result); `scipy.interpolate.RectBivariateSpline(XX, YY, data)` and its evaluation; the constructor
`psfclass(*params)`. -/
structure Fitter (R Im S P : Type) where
  stamp : R → R → Except PyErr Im
  fit : Im → Option (List R) → Except PyErr (List R × List R)
  spline : List R → List R → List (List R) → Except PyErr S
  eval : S → R → R → R
  make : List R → Except PyErr P

/-- The attributes, psfex.py 16-32; `splinedata` only exists once set. -/
structure State (R S : Type) where
  W : R
  H : R
  nx : Nat
  ny : Nat
  splines : Option (List S)
  save : Bool
  splinedata : Option (List (List (List R)) × List R × List R)

/-- `np.linspace(0, W, n)`. -/
def linspace (W : R) (n : Nat) : List R := (List.range n).map (fun i : Nat => (i : R) * W / ((n : R) - 1))

/-- One row of the grid, psfex.py 130-149 (no `fitfunc`, no `trim`, as called by `ensureFit`): each fit starts from the last. -/
def fitRow (F : Fitter R Im S P) (y : R) : Option (List R) → List R → Except PyErr (List (List R × List R))
  | _, [] => .ok []
  | p0, x :: xs =>
    match F.stamp x y with
    | .error e => .error e
    | .ok im =>
      match F.fit im p0 with
      | .error e => .error e
      | .ok r => (fitRow F y (some r.1) xs).map (fun rest => r :: rest)

/-- The rows, psfex.py 124-150: each starts from the start of the previous one. -/
def fitGrid (F : Fitter R Im S P) (XX : List R) : Option (List R) → List R → Except PyErr (List (List (List R × List R)))
  | _, [] => .ok []
  | px0, y :: ys =>
    match fitRow F y px0 XX with
    | .error e => .error e
    | .ok row =>
      let px0 := match row.head? with
        | some r => some r.1
        | none => px0
      (fitGrid F XX px0 ys).map (fun rest => row :: rest)

/-- `pp[:, :, i].T`: for each column of the grid the values in its rows. -/
def dataT (pp : List (List (List R))) (nx i : Nat) : List (List R) :=
  (List.range nx).map (fun ix => pp.map (fun row => ((row[ix]?).bind (·[i]?)).getD 0))

/-- `fitSavedData(pp, XX, YY)`, psfex.py 52-61.  Parameters of different lengths are refused by `np.array(pp)` (151). -/
def fitSavedData (F : Fitter R Im S P) (pp : List (List (List R))) (XX YY : List R) : Except PyErr (List S) :=
  match pp with
  | (q :: _) :: _ =>
    if pp.all (fun row => row.all (fun p => p.length = q.length)) then
      (List.range q.length).mapM (fun i => F.spline XX YY (dataT pp XX.length i))
    else .error .value
  | _ => .error .index

/-- `ensureSplines()`, psfex.py 63-65. -/
def ensureSplines (F : Fitter R Im S P) (s : State R S) : State R S × Except PyErr Unit :=
  match s.splines with
  | some _ => (s, .ok ())
  | none =>
    match s.splinedata with
    | none => (s, .error .attribute)
    | some d =>
      match fitSavedData F d.1 d.2.1 d.2.2 with
      | .error e => (s, .error e)
      | .ok l => ({ s with splines := some l }, .ok ())

/-- `ensureFit()` with `_fitParamGrid()`, psfex.py 67-73 and 114-155. -/
def ensureFit (F : Fitter R Im S P) (s : State R S) : State R S × Except PyErr (List S) :=
  match s.splines with
  | some l => (s, .ok l)
  | none =>
    let YY := linspace s.H s.ny
    let XX := linspace s.W s.nx
    match fitGrid F XX none YY with
    | .error e => (s, .error e)
    | .ok g =>
      let pp := g.map (fun row => row.map (·.2))
      match fitSavedData F pp XX YY with
      | .error e => (s, .error e)
      | .ok l => ({ s with splines := some l, splinedata := if s.save then some (pp, XX, YY) else s.splinedata }, .ok l)

/-- `psfParamsAt(x, y)`, psfex.py 89-106. -/
def paramsAt (F : Fitter R Im S P) (s : State R S) (x y : R) : State R S × Except PyErr (List R) :=
  let r := ensureFit F s
  (r.1, r.2.map (fun l => l.map (fun spl => F.eval spl x y)))

/-- `psfAt(x, y)`, psfex.py 79-85. -/
def psfAt (F : Fitter R Im S P) (s : State R S) (x y : R) : State R S × Except PyErr P :=
  let r := paramsAt F s x y
  (r.1, r.2.bind F.make)

/-- Asking at many positions. -/
def asked (F : Fitter R Im S P) (s : State R S) : List (R × R) → State R S
  | [] => s
  | q :: qs => asked F (psfAt F s q.1 q.2).1 qs

/-! ### CachingPsfEx -/

/-- The attributes of a `CachingPsfEx`, psfex.py 705-711. -/
structure Caching (R S P : Type) where
  base : State R S
  cache : Cache.State (R × R) P
  rounding : Int

/-- A coordinate of the centre of the cell, psfex.py 723-725; `trunc` is `int`. -/
def cell (trunc : R → Int) (rounding : Int) (x : R) : R := ((trunc (x / rounding) * rounding + rounding / 2 : Int) : R)

/-- `CachingPsfEx.psfAt(x, y)`, psfex.py 722-733.  `cache.get(key, None)` is None when the key is not there. -/
def cachedAt [DecidableEq R] (F : Fitter R Im S P) (trunc : R → Int) (sizeOf : P → Nat) (c : Caching R S P) (x y : R) :
    Caching R S P × Except PyErr P :=
  let cx := cell trunc c.rounding x
  let cy := cell trunc c.rounding y
  match Cache.get c.cache (cx, cy) with
  | (cache, .ok mog) => ({ c with cache := cache }, .ok mog)
  | (cache, .error _) =>
    match psfAt F c.base cx cy with
    | (base, .error e) => ({ c with base := base, cache := cache }, .error e)
    | (base, .ok mog) =>
      match Cache.store sizeOf cache (cx, cy) mog with
      | (cache, some e) => ({ c with base := base, cache := cache }, .error e)
      | (cache, none) => ({ c with base := base, cache := cache }, .ok mog)

/-- What can be done with it: asking, and pickling (which clears the cache, psfex.py 718-720). -/
inductive Act (R : Type) where
  | ask (x y : R)
  | pickle

/-- One action. -/
def act [DecidableEq R] (F : Fitter R Im S P) (trunc : R → Int) (sizeOf : P → Nat) (c : Caching R S P) : Act R → Caching R S P
  | .ask x y => (cachedAt F trunc sizeOf c x y).1
  | .pickle => { c with cache := Cache.clear c.cache }

/-- Many. -/
def acts [DecidableEq R] (F : Fitter R Im S P) (trunc : R → Int) (sizeOf : P → Nat) (c : Caching R S P) : List (Act R) → Caching R S P
  | [] => c
  | a :: as => acts F trunc sizeOf (act F trunc sizeOf c a) as

/-- `CachingPsfEx(fn, W, H, ...)`: a base object and an empty cache of 100, psfex.py 705-711. -/
def mkCaching (s : State R S) (rounding : Int) : Caching R S P := ⟨s, Cache.empty 100, rounding⟩

/-- `CachingPsfEx.fromPsfEx(psfex)`, psfex.py 695-703: splines and their data are taken over; the attributes of the PsfEx model are set on
the wrong object, its own `psfex` is an empty `PsfExModel(None)`, whose `at` raises AttributeError. -/
def fromPsfEx (F : Fitter R Im S P) (s : State R S) (rounding : Int) : Fitter R Im S P × Caching R S P :=
  ({ F with stamp := fun _ _ => .error .attribute }, mkCaching { s with save := false } rounding)

end Verif.Psf.Varying
