import Verif.Py
import Mathlib.Algebra.Order.Field.Basic

/-!
# Sources from a SourceExtractor catalog

tractor/source_extractor.py `get_se_modelfit_cat`.  A magnitude that is NaN is `none`: every comparison with it is false.
-/

namespace Verif.Sext

variable {R : Type}

/-- A row of the table `T`. -/
structure Row (R : Type) where
  chi2Psf : R
  chi2Model : R
  magPsf : Option R
  magDisk : Option R
  magSpheroid : Option R
  ra : R
  dec : R
  alphaModel : R
  deltaModel : R
  spheroidReff : R
  spheroidAspect : R
  spheroidTheta : R
  diskScale : R
  diskAspect : R
  diskTheta : R

/-- `GalaxyShape(re, ab, phi)`. -/
structure Shape (R : Type) where
  re : R
  ab : R
  phi : R
  deriving DecidableEq, Repr

/-- `NanoMaggies(order=bands, ...)`: the bands and the flux, `none` for NaN. -/
abbrev Brightness (R : Type) := List (String × Option R)

/-- The sources made. -/
inductive Src (R : Type) where
  | point (ra dec : R) (b : Brightness R)
  | dev (ra dec : R) (b : Brightness R) (s : Shape R)
  | exp (ra dec : R) (b : Brightness R) (s : Shape R)
  | comp (ra dec : R) (b : Brightness R) (fdev : Option R) (shapeExp shapeDev : Shape R)
  deriving DecidableEq, Repr

section
variable [Field R] [LinearOrder R]

/-- `mag <= maglim` -/
def leLim (lim : R) : Option R → Bool
  | none => false
  | some m => decide (m ≤ lim)

/-- `mag > maglim` -/
def gtLim (lim : R) : Option R → Bool
  | none => false
  | some m => decide (m > lim)

/-- Lines 14-15, 48-49, 53-54, 61: the same flux in all bands. -/
def allBands (bands : List String) (nm : Option R) : Brightness R := bands.map (fun k => (k, nm))

/-- Line 35-37. -/
def shapeDevOf (t : Row R) : Shape R := ⟨t.spheroidReff * 3600, t.spheroidAspect, t.spheroidTheta + 90⟩

/-- Line 40-42. -/
def shapeExpOf (t : Row R) : Shape R := ⟨t.diskScale * (168 / 100) * 3600, t.diskAspect, t.diskTheta + 90⟩

/-- `nmd + nme`, `nmd / nm`, lines 58-60, NaN if one is NaN. -/
def both (f : R → R → R) : Option R → Option R → Option R
  | some a, some b => some (f a b)
  | _, _ => none

/-- A row that is not a point source and not faint, lines 27-62, with the values that the variables `shape_dev` and `shape_exp` have after
lines 34-42; using one without a value is an `UnboundLocalError`, which is a `NameError`.  `nmOf`: `NanoMaggies.magToNanomaggies`. -/
def galaxy (nmOf : R → R) (lim : R) (bands : List String) (sd se : Option (Shape R)) (t : Row R) : Except PyErr (Src R) :=
  let dmag := t.magSpheroid
  let emag := t.magDisk
  if gtLim lim emag && leLim lim dmag then
    match sd with
    | none => .error .nameErr
    | some s => .ok (.dev t.alphaModel t.deltaModel (allBands bands (dmag.map nmOf)) s)
  else if leLim lim emag && gtLim lim dmag then
    match se with
    | none => .error .nameErr
    | some s => .ok (.exp t.alphaModel t.deltaModel (allBands bands (emag.map nmOf)) s)
  else
    let nmd := dmag.map nmOf
    let nme := emag.map nmOf
    let nm := both (· + ·) nmd nme
    let fdev := both (· / ·) nmd nm
    match se, sd with
    | some e, some d => .ok (.comp t.alphaModel t.deltaModel (allBands bands nm) fdev e d)
    | _, _ => .error .nameErr

/-- Put a source in front of the rest. -/
def push (s : Src R) (i : Nat) (rest : Except PyErr (List (Src R) × List Nat)) : Except PyErr (List (Src R) × List Nat) :=
  match rest with
  | .ok (l, is) => .ok (s :: l, i :: is)
  | .error e => .error e

/-- The loop, lines 10-62, from row `i` on, with the values of `shape_dev` and `shape_exp` left by the rows before. -/
def loop (nmOf : R → R) (lim : R) (bands : List String) : Option (Shape R) → Option (Shape R) → Nat → List (Row R) →
    Except PyErr (List (Src R) × List Nat)
  | _, _, _, [] => .ok ([], [])
  | sd, se, i, t :: ts =>
    if decide (t.chi2Psf < t.chi2Model) && leLim lim t.magPsf then
      push (.point t.ra t.dec (allBands bands (t.magPsf.map nmOf))) i (loop nmOf lim bands sd se (i + 1) ts)
    else if gtLim lim t.magDisk && gtLim lim t.magSpheroid then loop nmOf lim bands sd se (i + 1) ts
    else
      let sd := if leLim lim t.magSpheroid then some (shapeDevOf t) else sd
      let se := if leLim lim t.magDisk then some (shapeExpOf t) else se
      match galaxy nmOf lim bands sd se t with
      | .error e => .error e
      | .ok s => push s i (loop nmOf lim bands sd se (i + 1) ts)

/-- `get_se_modelfit_cat(T, maglim, bands)`, source_extractor.py 7-65. -/
def getCat (nmOf : R → R) (lim : R) (bands : List String) (T : List (Row R)) : Except PyErr (List (Src R) × List Nat) :=
  loop nmOf lim bands none none 0 T

end

end Verif.Sext
