import Verif.Py
import Mathlib.Algebra.Order.Field.Basic

/-!
# Sources from an SDSS catalog

tractor/sdss.py `_get_sources` for releases after DR7 with a table of objects: cuts, classification, fluxes and shapes.  Columns with one
value per band are functions of the number of the band.  Reading files, DR7, `classmap` and `ellipse` (any class of shapes) are left out, as
is what numpy does with NaN.
-/

namespace Verif.Sdss

variable {R : Type}

/-- A row of the table `objs`. -/
structure Row (R : Type) where
  ra : R
  dec : R
  colc : Nat → R
  rowc : Nat → R
  nchild : Nat
  bright : Bool
  primary : Bool
  objcType : Nat
  probPsf : Nat → R
  fracdev : Nat → R
  thetaDev : Nat → R
  abDev : Nat → R
  phiDev : Nat → R
  thetaExp : Nat → R
  abExp : Nat → R
  phiExp : Nat → R
  psfflux : Nat → R
  cmodelflux : Nat → R
  devflux : Nat → R
  expflux : Nat → R

/-- The arguments, sdss.py 197-213: number of `bandname`; `bands` with their numbers; `x0, x1, y0, y1` of `roi`; `r0, r1, d0, d1` of
`radecroi`; the rows found by `match_radec` for `radecrad` (astrometry). -/
structure Opts (R : Type) where
  bandnum : Nat
  bands : List (String × Nat)
  extrabands : List String
  nanomaggies : Bool
  badmag : R
  roi : Option (R × R × R × R)
  radecroi : Option (R × R × R × R)
  radecrad : Option (List Nat)
  objCuts : Bool
  cutToPrimary : Bool
  forcePointSources : Bool
  useObjcType : Bool
  fixedComposites : Bool

/-- `ellipse(re, ab, phi)`. -/
structure Shape (R : Type) where
  re : R
  ab : R
  phi : R
  deriving DecidableEq, Repr

/-- A brightness: its bands in order, with values (a magnitude or nanomaggies). -/
abbrev Brightness (R : Type) := List (String × R)

/-- The sources made. -/
inductive Source (R : Type) where
  | point (ra dec : R) (b : Brightness R)
  | dev (ra dec : R) (b : Brightness R) (s : Shape R)
  | exp (ra dec : R) (b : Brightness R) (s : Shape R)
  | fixedComp (ra dec : R) (b : Brightness R) (fdev : R) (eshape dshape : Shape R)
  | comp (ra dec : R) (ebright : Brightness R) (eshape : Shape R) (dbright : Brightness R) (dshape : Shape R)
  deriving DecidableEq, Repr

/-- `if box is not None: objs.cut(...)`, lines 284-285, 291 and 293-296. -/
def cutBox {α β : Type} (box : Option (β × β × β × β)) (p : β → β → β → β → α → Bool) (t : List α) : List α :=
  match box with
  | none => t
  | some (a, b, c, d) => t.filter (p a b c d)

section
variable [Field R] [LinearOrder R]

/-- `objs.index = np.arange(len(objs))`, sdss.py 280, and the cuts of lines 284-313.  (`bright`, `primary`: the bits of
`objc_flags` and `resolve_status`.) -/
def cuts (o : Opts R) (objs : List (Row R)) : List (Row R × Nat) :=
  let t := objs.zipIdx
  let t := cutBox o.roi (fun x0 x1 y0 y1 r => decide (r.1.colc o.bandnum ≥ x0) && decide (r.1.colc o.bandnum < x1) &&
    decide (r.1.rowc o.bandnum ≥ y0) && decide (r.1.rowc o.bandnum < y1)) t
  let t := cutBox o.radecroi (fun r0 r1 d0 d1 r => decide (r.1.ra ≥ r0) && decide (r.1.ra ≤ r1) &&
    decide (r.1.dec ≥ d0) && decide (r.1.dec ≤ d1)) t
  let t := match o.radecrad with
    | none => t
    | some J => J.filterMap (fun (j : Nat) => t[j]?)
  let t := if o.objCuts then t.filter (fun r => decide (r.1.nchild = 0) && !r.1.bright) else t
  if o.cutToPrimary then t.filter (fun r => r.1.primary) else t

/-- Lines 334-340: the other sense of rotation, and no galaxy smaller than 1/30. -/
def fixShapes (r : Row R) : Row R :=
  { r with
    phiDev := fun b => r.phiDev b * -1
    phiExp := fun b => r.phiExp b * -1
    thetaDev := fun b => max (r.thetaDev b) (1 / 30)
    thetaExp := fun b => max (r.thetaExp b) (1 / 30) }

/-- `Lstar`, `Ldev`, `Lexp`, lines 342-361 (the cut of lines 348-349 is in `getSources`). -/
def weights (o : Opts R) (r : Row R) : R × R × R :=
  if o.forcePointSources then (1, 0, 0)
  else
    let lstar : R := if o.useObjcType then (if r.objcType = 6 then 1 else 0) else if r.probPsf o.bandnum = 1 then 1 else 0
    let lgal : R := if o.useObjcType then (if r.objcType = 3 then 1 else 0) else if r.probPsf o.bandnum = 0 then 1 else 0
    (lstar, lgal * r.fracdev o.bandnum, lgal * (1 - r.fracdev o.bandnum))

/-- `nmgy2bright(flux)`, lines 390-411; `magOf`: `sdss.nmgy_to_mag`.  The names of the bands are all different (else `dict` keeps the last). -/
def nmgy2bright (o : Opts R) (magOf : R → R) (flux : Nat → R) : Brightness R :=
  let f : List R := if o.bands.length ≠ 0 then o.bands.map (fun b => flux b.2) else [flux o.bandnum]
  let bb := o.bands.map (·.1) ++ o.extrabands
  if o.nanomaggies then
    let f := if o.extrabands.length ≠ 0 then
        (if o.bands.length = 0 then List.replicate o.extrabands.length (0 + f.head?.getD 0) else f ++ List.replicate o.extrabands.length 0)
      else f
    bb.zip f
  else
    let mag := f.map (fun x => if x > 0 then magOf x else o.badmag)
    let mag := if o.extrabands.length ≠ 0 then mag ++ List.replicate o.extrabands.length (0 + o.badmag) else mag
    bb.zip mag

/-- The body of the loop, lines 413-418 and 432-495, `None` for objects that are skipped. -/
def makeSource (o : Opts R) (magOf : R → R) (r : Row R) : Option (Source R) :=
  let w := weights o r
  if w.1 ≠ 0 then some (.point r.ra r.dec (nmgy2bright o magOf r.psfflux))
  else
    let ldev := w.2.1
    let lexp := w.2.2
    let dshape : Shape R := ⟨r.thetaDev o.bandnum, r.abDev o.bandnum, r.phiDev o.bandnum⟩
    let eshape : Shape R := ⟨r.thetaExp o.bandnum, r.abExp o.bandnum, r.phiExp o.bandnum⟩
    if 0 < ldev ∧ 0 < lexp then
      if o.fixedComposites then
        some (.fixedComp r.ra r.dec (nmgy2bright o magOf r.cmodelflux) (ldev / (ldev + lexp)) eshape dshape)
      else
        some (.comp r.ra r.dec (nmgy2bright o magOf (fun b => r.cmodelflux b * lexp)) eshape
          (nmgy2bright o magOf (fun b => r.cmodelflux b * ldev)) dshape)
    else if 0 < ldev then some (.dev r.ra r.dec (nmgy2bright o magOf r.devflux) dshape)
    else if 0 < lexp then some (.exp r.ra r.dec (nmgy2bright o magOf r.expflux) eshape)
    else none

/-- `isources`: the places of the objects from which sources are made, lines 428, 444 and 462. -/
def isources (o : Opts R) (magOf : R → R) (t : List (Row R × Nat)) : List Nat :=
  (List.range t.length).filter (fun (i : Nat) => (t[i]?).any (fun r => (makeSource o magOf r.1).isSome))

/-- `_get_sources(..., getobjinds=True)`: the sources and `objs.index`, lines 280-513.  If nothing is left the table of indices is `None`, here empty;
if objects are left but no sources made, it depends on how tables take an empty index. -/
def getSources (o : Opts R) (magOf : R → R) (objs : List (Row R)) : List (Source R) × List Nat :=
  let t := cuts o objs
  if t.length = 0 then ([], [])
  else
    let t := t.map (fun r => (fixShapes r.1, r.2))
    let t := if !o.forcePointSources && o.useObjcType then t.filter (fun r => decide (r.1.objcType = 6) || decide (r.1.objcType = 3)) else t
    let sources := t.filterMap (fun r => makeSource o magOf r.1)
    let t := if sources.length < t.length then (isources o magOf t).filterMap (fun (i : Nat) => t[i]?) else t
    (sources, t.map (·.2))

end

end Verif.Sdss
