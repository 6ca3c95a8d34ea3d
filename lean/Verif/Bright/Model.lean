import Verif.Py
import Verif.Num
import Mathlib.Analysis.SpecialFunctions.Pow.Real
import Mathlib.Analysis.SpecialFunctions.Log.Base
import Mathlib.Data.List.Sort

/-!
# Brightnesses and photometric calibrations

tractor/brightness.py and the class-wide properties of tractor/utils.py `NamedParams`.

Numbers are floats with NaN and infinities whose finite values are reals: no rounding, no overflow (Python's `10. ** x`
raises OverflowError where numpy gives inf).
-/

namespace Verif.Bright

open Verif

/-- Floats. -/
abbrev F := Num ℝ

/-- `np.log10`. -/
noncomputable def log10 : F → F
  | .nan => .nan
  | .ninf => .nan
  | .pinf => .pinf
  | .fin x => if 0 < x then .fin (Real.logb 10 x) else if x = 0 then .ninf else .nan

/-- `10. ** x`. -/
noncomputable def pow10 : F → F
  | .nan => .nan
  | .ninf => .fin 0
  | .pinf => .pinf
  | .fin x => .fin ((10 : ℝ) ^ x)

/-- An infinity (positive if `pos`) times a finite number. -/
noncomputable def infTimes (pos : Bool) (x : ℝ) : F :=
  if x = 0 then .nan else if decide (0 < x) = pos then .pinf else .ninf

/-- `a * b`. -/
noncomputable def mul : F → F → F
  | .nan, _ => .nan
  | _, .nan => .nan
  | .fin x, .fin y => .fin (x * y)
  | .pinf, .fin x => infTimes true x
  | .fin x, .pinf => infTimes true x
  | .ninf, .fin x => infTimes false x
  | .fin x, .ninf => infTimes false x
  | .pinf, .pinf => .pinf
  | .ninf, .ninf => .pinf
  | .pinf, .ninf => .ninf
  | .ninf, .pinf => .ninf

/-- `a / k` for a number `k` other than 0. -/
noncomputable def divBy (a : F) (k : ℝ) : F := mul a (.fin k⁻¹)

/-- `np.abs`. -/
noncomputable def fabs : F → F
  | .nan => .nan
  | .ninf => .pinf
  | .pinf => .pinf
  | .fin x => .fin |x|

/-! ### Conversions -/

/-- `NanoMaggies.magToNanomaggies`, brightness.py 200-203. -/
noncomputable def magToNanomaggies (mag : F) : F := pow10 (divBy (mag.sub (.fin 22.5)) (-2.5))

/-- `NanoMaggies.nanomaggiesToMag`, brightness.py 205-208. -/
noncomputable def nanomaggiesToMag (nmgy : F) : F := mul (.fin (-2.5)) ((log10 nmgy).sub (.fin 9))

/-- `NanoMaggies.zeropointToScale`, brightness.py 210-217. -/
noncomputable def zeropointToScale (zp : F) : F := pow10 (divBy (zp.sub (.fin 22.5)) 2.5)

/-- `NanoMaggies.scaleToZeropoint`, brightness.py 219-226. -/
noncomputable def scaleToZeropoint (zpscale : F) : F := (Num.fin 22.5).add (mul (.fin 2.5) (log10 zpscale))

/-- `NanoMaggies.fluxErrorsToMagErrors`, brightness.py 228-244, one element: the arrays `mag` and `dmag` are zero where nothing
is assigned.  Finite inputs; the conversion to 32-bit floats is rounding. -/
noncomputable def magError (flux invvar : ℝ) : F × F :=
  let okiv := decide (0 < invvar)
  let dflux := if okiv then 1 / Real.sqrt invvar else 0
  let okflux := decide (0 < flux)
  let mag := if okflux then nanomaggiesToMag (.fin flux) else .fin 0
  let ok := okiv && okflux
  let dmag : F := if ok then .fin |(-2.5 / Real.log 10) * dflux / flux| else .fin 0
  (if !okflux then .nan else mag, if !ok then .nan else dmag)

/-- `NanoMaggies.fluxErrorsToMagErrors` of arrays, brightness.py 228-244; the mask of the inverse variances has to fit the
fluxes (line 233). -/
noncomputable def fluxErrorsToMagErrors (flux invvar : List ℝ) : Except PyErr (List F × List F) :=
  if flux.length = invvar.length then
    .ok (List.zipWith (fun f v => (magError f v).1) flux invvar, List.zipWith (fun f v => (magError f v).2) flux invvar)
  else .error .index

/-- The sum of two magnitudes, brightness.py 112-114. -/
noncomputable def magSum (m1 m2 : F) : F :=
  mul (.fin (-2.5)) (log10 ((pow10 (divBy m1.neg 2.5)).add (pow10 (divBy m2.neg 2.5))))

/-- The change of magnitude for a factor in flux, brightness.py 127. -/
noncomputable def dmag (factor : F) : F := mul (.fin (-2.5)) (log10 (fabs factor))

/-! ### Brightnesses in several bands -/

/-- What a class remembers: the names for which some object added a property (utils.py 491-492). -/
structure Cls where
  props : List String
  deriving Repr, DecidableEq

/-- A `MultiBandBrightness`: `order` (with the index of each band in `namedparams`), the parameter values, the thawed flags and
further attributes of the instance.  Band names are assumed to differ from the names of methods and other attributes. -/
structure MB (α : Type) where
  order : List String
  vals : List α
  liquid : List Bool
  attrs : List (String × α)
  deriving Repr, DecidableEq

variable {α β γ : Type}

/-- `_addNamedParams`, utils.py 462-492: a property for each name unless the class has it. -/
def Cls.addNames (c : Cls) (names : List String) : Cls := ⟨c.props ++ names.filter (fun n => !c.props.contains n)⟩

/-- `kwargs[k]` -/
def kw (kwargs : List (String × α)) (k : String) : Except PyErr α :=
  match kwargs.lookup k with
  | some v => .ok v
  | none => .error .key

/-- `MultiBandBrightness.__init__`, brightness.py 36-54, with the class before and after.  The keys of `kwargs` are distinct. -/
def mk (c : Cls) (kwargs : List (String × α)) (order : Option (List String)) : Cls × Except PyErr (MB α) :=
  let keys := match order with
    | some l => l
    | none => (kwargs.map Prod.fst).insertionSort (fun a b => a ≤ b)
  if kwargs.length ≠ keys.length then (c, .error .assertion) else
  if !(keys.all (fun k => (kwargs.map Prod.fst).contains k) && (kwargs.map Prod.fst).all (fun k => keys.contains k)) then
    (c, .error .assertion) else
  match keys.mapM (kw kwargs) with
  | .error e => (c, .error e)
  | .ok vals => (c.addNames keys, .ok ⟨keys, vals, List.replicate vals.length true, []⟩)

/-- `getBand`, brightness.py 65-66: `getattr` finds the property of the class, which looks the index up in `namedparams`
(utils.py 507-508), before attributes of the instance. -/
def getBand (c : Cls) (o : MB α) (band : String) : Except PyErr α :=
  if c.props.contains band then
    if o.order.contains band then
      match o.vals[o.order.idxOf band]? with
      | some v => .ok v
      | none => .error .index
    else .error .key
  else match o.attrs.lookup band with
    | some v => .ok v
    | none => .error .attribute

/-- `setBand`, brightness.py 68-69. -/
def setBand (c : Cls) (o : MB α) (band : String) (v : α) : MB α × Option PyErr :=
  if c.props.contains band then
    if o.order.contains band then
      if o.order.idxOf band < o.vals.length then ({ o with vals := o.vals.set (o.order.idxOf band) v }, none)
      else (o, some .index)
    else (o, some .key)
  else ({ o with attrs := (band, v) :: o.attrs }, none)

/-- `getParams`: thawed values (utils.py 784-788). -/
def MB.getParams (o : MB α) : List α := ((o.vals.zip o.liquid).filter (·.2)).map (·.1)

/-- The loop over `self.order` building `kwargs`, and the new object of the same order: all of `__add__` and `__mul__`,
brightness.py 100-116, 126-132, 141-154. -/
def perBand (c : Cls) (o : MB α) (f : String → Except PyErr β) : Cls × Except PyErr (MB β) :=
  match o.order.mapM (fun band => (f band).map (fun v => (band, v))) with
  | .error e => (c, .error e)
  | .ok kwargs => mk c kwargs (some o.order)

/-- Both operands' values in a band. -/
def both (c : Cls) (o : MB α) (c' : Cls) (other : MB β) (f : α → β → γ) (band : String) : Except PyErr γ := do
  let m1 ← getBand c o band
  let m2 ← getBand c' other band
  .ok (f m1 m2)

/-- `Mags.__add__` of another `Mags`, brightness.py 108-116. -/
noncomputable def magsAdd (c : Cls) (o other : MB F) : Cls × Except PyErr (MB F) := perBand c o (both c o c other magSum)

/-- `Mags.__add__` of a number, brightness.py 101-106. -/
noncomputable def magsAddScalar (c : Cls) (o : MB F) (x : F) : Cls × Except PyErr (MB F) :=
  perBand c o (fun b => (getBand c o b).map (fun m => m.add x))

/-- `Mags.__mul__`, brightness.py 118-132. -/
noncomputable def magsMul (c : Cls) (o : MB F) (factor : F) : Cls × Except PyErr (MB F) :=
  perBand c o (fun b => (getBand c o b).map (fun m => m.add (dmag factor)))

/-- `Fluxes.__add__`, brightness.py 141-147. -/
noncomputable def fluxesAdd (c : Cls) (o other : MB F) : Cls × Except PyErr (MB F) :=
  perBand c o (both c o c other Num.add)

/-- `Fluxes.__mul__`, brightness.py 149-154. -/
noncomputable def fluxesMul (c : Cls) (o : MB F) (factor : F) : Cls × Except PyErr (MB F) :=
  perBand c o (fun b => (getBand c o b).map (fun m => mul m factor))

/-- `NanoMaggies.fromMag`, brightness.py 192-198: from class `c` to class `c'`. -/
noncomputable def fromMag (c c' : Cls) (o : MB F) : Cls × Except PyErr (MB F) :=
  perBand c' o (fun b => (getBand c o b).map magToNanomaggies)

/-- Pickling keeps the dictionary of the object, `__setstate__` adds the names to the class (brightness.py 56-60) of the
process reading it. -/
def unpickle (c : Cls) (o : MB α) : Cls × MB α := (c.addNames o.order, o)

/-! ### Photometric calibrations -/

/-- Brightness objects: `Mag`/`Flux` (a ScalarParam), `Mags`, `Fluxes`, `NanoMaggies`, the latter with the class. -/
inductive Br where
  | scalar (v : F)
  | mags (c : Cls) (o : MB F)
  | fluxes (c : Cls) (o : MB F)
  | nmgy (c : Cls) (o : MB F)

/-- `getValue()`, utils.py ScalarParam. -/
def Br.getValue : Br → Except PyErr F
  | .scalar v => .ok v
  | _ => .error .attribute

/-- `getMag(band)`, brightness.py 90-95, 186-190. -/
noncomputable def Br.getMag (b : Br) (band : String) : Except PyErr F :=
  match b with
  | .mags c o => getBand c o band
  | .nmgy c o => (getBand c o band).map nanomaggiesToMag
  | _ => .error .attribute

/-- `getFlux(band)`, brightness.py 156-157. -/
def Br.getFlux (b : Br) (band : String) : Except PyErr F :=
  match b with
  | .fluxes c o => getBand c o band
  | .nmgy c o => getBand c o band
  | _ => .error .attribute

/-- `FluxesPhotoCal.brightnessToCounts`, brightness.py 254-256. -/
def fluxesCounts (band : String) (b : Br) : Except PyErr F := b.getFlux band

/-- `MagsPhotoCal.brightnessToCounts` of a magnitude, brightness.py 291-297 (`maxmag` is 50, line 278). -/
noncomputable def countsOfMag (zp : ℝ) (mag : F) : F :=
  if !mag.isFinite then .fin 0 else if (Num.fin 50).lt mag then .fin 0 else pow10 (mul (.fin 0.4) ((Num.fin zp).sub mag))

/-- `MagsPhotoCal.brightnessToCounts`, brightness.py 291-297. -/
noncomputable def magsCounts (band : String) (zp : ℝ) (b : Br) : Except PyErr F :=
  (b.getMag band).map (countsOfMag zp)

/-- `MagsPhotoCal.countsToMag`, brightness.py 299-300. -/
noncomputable def countsToMag (zp : ℝ) (counts : F) : F := (Num.fin zp).sub (mul (.fin 2.5) (log10 counts))

/-- `NullPhotoCal.brightnessToCounts`, brightness.py 312-313. -/
def nullCounts (b : Br) : Except PyErr F := b.getValue

/-- `LinearPhotoCal.brightnessToCounts`, brightness.py 339-344. -/
noncomputable def linearCounts (band : Option String) (scale : F) (b : Br) : Except PyErr F :=
  match band with
  | none => b.getValue.map (fun v => mul v scale)
  | some band => (b.getFlux band).map (fun v => mul v scale)

/-- `LinearPhotoCal.toStandardFitsHeader`: the MAGZP card, brightness.py 346-350. -/
noncomputable def magzp (scale : F) : F := scaleToZeropoint scale

end Verif.Bright
