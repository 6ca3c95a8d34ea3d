import Verif.Py
import Verif.Mog.Model
import Mathlib.Algebra.Order.Field.Basic

/-!
# PSFs of concentric circular Gaussians

tractor/psf.py `NCircularGaussianPSF.getRadius`, `getPointSourcePatch`, `applyTo`, `getCircularMog` with its `lru_cache`;
mixture_profiles.py `mixture_to_patch`; pointsource.py `PointSource.getUnitFluxModelPatch` for these PSFs.

The values are in `Mog/Model.lean` (`NCirc`).  Here is what happens to the mixtures that all these PSFs share through
`functools.lru_cache`: the cache returns the same object for the same weights and sigmas, and `getPointSourcePatch` moves the means
of that object while it evaluates it.

Floats are elements of an ordered field; the conversion to 32-bit floats in `getCircularMog` is left out.
-/

namespace Verif.Circ

open Verif.Mog (Comp Mix NCirc)

variable {R P : Type} [Field R] [LinearOrder R]

/-- A Python number used as a bound of a patch. -/
inductive Bound (R : Type) where
  | int (i : Int)
  | flt (r : R)
  deriving DecidableEq, Repr

/-- The value of a bound. -/
def Bound.val : Bound R → R
  | .int i => (i : R)
  | .flt r => r

/-- Python's `max(a, b)`: the first unless the second is larger. -/
def Bound.max (a b : Bound R) : Bound R := if a.val < b.val then b else a

/-- Python's `min(a, b)`: the first unless the second is smaller. -/
def Bound.min (a b : Bound R) : Bound R := if b.val < a.val then b else a

/-- Adding an integer. -/
def Bound.add (a : Bound R) (i : Int) : Bound R :=
  match a with
  | .int j => .int (j + i)
  | .flt r => .flt (r + (i : R))

/-- What is outside: `int(round(x))`, `int(np.ceil(x))`; `c_gauss_2d_grid` on the pixels `[x0, x1) x [y0, y1)`;
`evaluate_grid_approx3` on these, with the minimum value and `doslice`. -/
structure Ext (R P : Type) where
  round : R → Int
  ceil : R → Int
  grid : Mix R → Int → Int → Int → Int → P
  approx : Mix R → Int → Int → Int → Int → R → Bool → Except PyErr (Option P)

/-- `np.zeros((y1 - y0, x1 - x0))`: floats are no sizes (TypeError), neither are negative numbers (ValueError). -/
def allocate (x0 x1 y0 y1 : Bound R) : Except PyErr (Int × Int × Int × Int) :=
  match x0, x1, y0, y1 with
  | .int a, .int b, .int c, .int d => if b < a ∨ d < c then .error .value else .ok (a, b, c, d)
  | _, _, _, _ => .error .typeErr

/-- `mixture_to_patch(mixture, x0, x1, y0, y1, minval, exactExtent)`, mixture_profiles.py 425-438 with the first lines of
`evaluate_grid_dstn` (278) and `evaluate_grid_approx3` (366). -/
def mixtureToPatch (E : Ext R P) (m : Mix R) (x0 x1 y0 y1 : Bound R) (minval : Option R) (exact : Bool) : Except PyErr (Option P) :=
  match allocate x0 x1 y0 y1 with
  | .error e => .error e
  | .ok (a, b, c, d) =>
    match minval with
    | none => .ok (some (E.grid m a b c d))
    | some v => if v = 0 then .ok (some (E.grid m a b c d)) else E.approx m a b c d v (!exact)

/-! ### The shared mixtures -/

/-- The arguments of `getCircularMog`: `tuple(self.myweights)`, `tuple(self.mysigmas)`, psf.py 866-867. -/
abbrev Key (R : Type) := List R × List R

/-- The body of `getCircularMog`, psf.py 931-938. -/
def circularMog (k : Key R) : Mix R := List.zipWith (fun w s => ⟨w, 0, 0, s ^ 2, 0, 0, s ^ 2⟩) k.1 k.2

/-- The `lru_cache(maxsize=16)`, psf.py 941-942: keys with the mixture objects they were given, most recently used first. -/
abbrev Mem (R : Type) := List (Key R × Mix R)

/-- `getCircularMog(amps, sigs)` through the cache: the mixture object, which then is the first of the cache. -/
def fetch (mem : Mem R) (k : Key R) : Mix R × Mem R :=
  match mem.find? (fun e => decide (e.1 = k)) with
  | some e => (e.2, e :: mem.filter (fun e => decide (e.1 ≠ k)))
  | none => (circularMog k, ((k, circularMog k) :: mem).take 16)

/-- Assigning the means of the mixture object that was fetched last. -/
def assign (mem : Mem R) (m : Mix R) : Mem R :=
  match mem with
  | [] => []
  | e :: rest => (e.1, m) :: rest

/-- `mix.mean = mix.mean.copy(); mix.mean[:, 0] += px; mix.mean[:, 1] += py`, psf.py 923-925. -/
def move (px py : R) (m : Mix R) : Mix R := m.map (fun c => { c with mx := c.mx + px, my := c.my + py })

/-! ### The PSF -/

/-- The object: its values with their flags, `minradius` (816) and, where it was set, `radius`. -/
structure CPsf (R : Type) where
  core : NCirc R
  minradius : R
  radius : Option R
  deriving DecidableEq, Repr

/-- The arguments for `getCircularMog`, psf.py 866-867. -/
def CPsf.key (p : CPsf R) : Key R := (p.core.weights.map (·.1), p.core.sigmas.map (·.1))

/-- `max` of a list; ValueError if it is empty. -/
def maxOf : List R → Except PyErr R
  | [] => .error .value
  | a :: l => .ok (l.foldl (fun m x => if m < x then x else m) a)

/-- `getRadius()`, psf.py 892-895. -/
def CPsf.getRadius (p : CPsf R) : Except PyErr R :=
  match p.radius with
  | some r => .ok r
  | none =>
    match maxOf (p.core.sigmas.map (·.1)) with
    | .error e => .error e
    | .ok s => .ok (if p.minradius < s * 5 then s * 5 else p.minradius)

/-- The arguments of `getPointSourcePatch`; a mask is given by its extent, the only thing that is used of it. -/
structure Args (R : Type) where
  px : R
  py : R
  minval : Option R := none
  radius : Option (Bound R) := none
  mask : Option (Int × Int × Int × Int) := none
  clip : Option (Int × Int × Int × Int) := none

/-- `rad = int(np.ceil(self.getRadius()))` or `radius`, psf.py 905-908. -/
def patchRadius (E : Ext R P) (p : CPsf R) (a : Args R) : Except PyErr (Bound R) :=
  match a.radius with
  | some r => .ok r
  | none =>
    match p.getRadius with
    | .error e => .error e
    | .ok r => .ok (.int (E.ceil r))

/-- `-rad` as a number to which integers are added. -/
def Bound.neg : Bound R → Bound R
  | .int i => .int (-i)
  | .flt r => .flt (-r)

/-- The bounds `x0, x1, y0, y1` before clipping, psf.py 900-912. -/
def box (E : Ext R P) (p : CPsf R) (a : Args R) : Except PyErr (Bound R × Bound R × Bound R × Bound R) :=
  match a.mask with
  | some (x0, x1, y0, y1) => .ok (.int x0, .int x1, .int y0, .int y1)
  | none =>
    let ix := E.round a.px
    let iy := E.round a.py
    match patchRadius E p a with
    | .error e => .error e
    | .ok rad => .ok (rad.neg.add ix, rad.add (ix + 1), rad.neg.add iy, rad.add (iy + 1))

/-- `if clipExtent is not None: …`, psf.py 913-919. -/
def clipBox (clip : Option (Int × Int × Int × Int)) (b : Bound R × Bound R × Bound R × Bound R) :
    Bound R × Bound R × Bound R × Bound R :=
  match clip with
  | none => b
  | some (xl, xh, yl, yh) => (b.1.max (.int xl), b.2.1.min (.int xh), b.2.2.1.max (.int yl), b.2.2.2.min (.int yh))

/-- `getPointSourcePatch`, psf.py 898-929: the cache afterwards and the patch.  `derivs` and `minradius` are swallowed by `**kwargs`.
If the evaluation fails the means are not set back (928 is not reached). -/
def pointSourcePatch (E : Ext R P) (mem : Mem R) (p : CPsf R) (a : Args R) : Mem R × Except PyErr (Option P) :=
  match box E p a with
  | .error e => (mem, .error e)
  | .ok b =>
    let b := clipBox a.clip b
    let f := fetch mem p.key
    let moved := move a.px a.py f.1
    match mixtureToPatch E moved b.1 b.2.1 b.2.2.1 b.2.2.2 a.minval a.mask.isSome with
    | .error e => (assign f.2 moved, .error e)
    | .ok r => (assign (assign f.2 moved) f.1, .ok r)

/-- `getMixtureOfGaussians()` (and `mog`), psf.py 830-831, 865-868; what galaxies are convolved with. -/
def getMixture (mem : Mem R) (p : CPsf R) : Mem R × Mix R :=
  let f := fetch mem p.key
  (f.2, f.1)

/-! ### Point sources -/

/-- `r = self.fixedRadius`, or `psf.getRadius()`, pointsource.py 108-110. -/
def sourceRadius (p : CPsf R) (fixed : Option (Bound R)) : Except PyErr R :=
  match fixed with
  | some r => .ok r.val
  | none => p.getRadius

/-- `PointSource.getUnitFluxModelPatch(img, minval, modelMask)`, pointsource.py 102-125, for a source at pixel `(px, py)` of a `W` x `H`
image; `fixed` is `fixedRadius`. -/
def unitFluxPatch (E : Ext R P) (mem : Mem R) (p : CPsf R) (W H : Int) (px py : R) (minval : Option R) (fixed : Option (Bound R))
    (mask : Option (Int × Int × Int × Int)) : Mem R × Except PyErr (Option P) :=
  match sourceRadius p fixed with
  | .error e => (mem, .error e)
  | .ok r =>
    if px + r < 0 ∨ (W : R) < px - r ∨ py + r < 0 ∨ (H : R) < py - r then (mem, .ok none)
    else pointSourcePatch E mem p
      { px := px, py := py, minval := minval, radius := fixed, mask := mask, clip := if mask.isNone then some (0, W, 0, H) else none }

/-! ### `applyTo` -/

/-- `applyTo(image)`, psf.py 878-886, at one pixel; `filt s` is `gaussian_filter(image, s)` there.  Iterating over a `ParamList` gives
the thawed values. -/
def applyTo (filt : R → R) (p : CPsf R) : R :=
  ((Mog.thawed p.core.sigmas).zip (Mog.thawed p.core.weights)).foldl (fun res sw => res + sw.2 * filt sw.1) 0
    / (Mog.thawed p.core.weights).sum

end Verif.Circ
