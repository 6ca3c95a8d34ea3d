import Verif.Sdss.Model

/-! What the sources of a catalog are compared with. -/

namespace Verif.Sdss

variable {R : Type} [Field R] [LinearOrder R]

/-- The objects asked for (without `radecrad`). -/
def Wanted (o : Opts R) (r : Row R) : Prop :=
  (∀ x0 x1 y0 y1, o.roi = some (x0, x1, y0, y1) → x0 ≤ r.colc o.bandnum ∧ r.colc o.bandnum < x1 ∧ y0 ≤ r.rowc o.bandnum ∧ r.rowc o.bandnum < y1) ∧
  (∀ r0 r1 d0 d1, o.radecroi = some (r0, r1, d0, d1) → r0 ≤ r.ra ∧ r.ra ≤ r1 ∧ d0 ≤ r.dec ∧ r.dec ≤ d1) ∧
  (o.objCuts = true → r.nchild = 0 ∧ r.bright = false) ∧ (o.cutToPrimary = true → r.primary = true)

/-- Is the object a star (or to be taken for one)? -/
def IsStar (o : Opts R) (r : Row R) : Prop :=
  o.forcePointSources = true ∨ (if o.useObjcType = true then r.objcType = 6 else r.probPsf o.bandnum = 1)

/-- Is it a galaxy? -/
def IsGalaxy (o : Opts R) (r : Row R) : Prop :=
  o.forcePointSources = false ∧ (if o.useObjcType = true then r.objcType = 3 else r.probPsf o.bandnum = 0)

/-- The flux column that belongs to an object. -/
def fluxOf (o : Opts R) (r : Row R) : Nat → R :=
  if o.forcePointSources = true ∨ (if o.useObjcType = true then r.objcType = 6 else r.probPsf o.bandnum = 1) then r.psfflux
  else if r.fracdev o.bandnum ≤ 0 then r.expflux
  else if 1 ≤ r.fracdev o.bandnum then r.devflux
  else r.cmodelflux

def Source.pos : Source R → R × R
  | .point ra dec _ => (ra, dec)
  | .dev ra dec _ _ => (ra, dec)
  | .exp ra dec _ _ => (ra, dec)
  | .fixedComp ra dec _ _ _ _ => (ra, dec)
  | .comp ra dec _ _ _ _ => (ra, dec)

/-- The brightnesses of its parts. -/
def Source.parts : Source R → List (Brightness R)
  | .point _ _ b => [b]
  | .dev _ _ b _ => [b]
  | .exp _ _ b _ => [b]
  | .fixedComp _ _ b _ _ _ => [b]
  | .comp _ _ e _ d _ => [e, d]

/-- Its shapes: de Vaucouleurs and exponential. -/
def Source.shapeDev : Source R → Option (Shape R)
  | .dev _ _ _ s => some s
  | .fixedComp _ _ _ _ _ d => some d
  | .comp _ _ _ _ _ d => some d
  | _ => none

def Source.shapeExp : Source R → Option (Shape R)
  | .exp _ _ _ s => some s
  | .fixedComp _ _ _ _ e _ => some e
  | .comp _ _ _ e _ _ => some e
  | _ => none

/-- The total in the `k`-th band of the brightness, of all parts. -/
def Source.total (s : Source R) (k : Nat) : R := (s.parts.map (fun b => ((b[k]?).map (·.2)).getD 0)).sum

end Verif.Sdss
