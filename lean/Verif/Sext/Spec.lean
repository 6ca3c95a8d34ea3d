import Verif.Sext.Model

/-! What the sources of a SourceExtractor catalog are compared with. -/

namespace Verif.Sext

variable {R : Type} [Field R] [LinearOrder R]

/-- Bright enough. -/
def Bright (lim : R) (m : Option R) : Prop := ∃ x, m = some x ∧ x ≤ lim

/-- The fit of a point source is better, and it is bright enough. -/
def IsPsf (lim : R) (t : Row R) : Prop := t.chi2Psf < t.chi2Model ∧ Bright lim t.magPsf

/-- A row with a source. -/
def Used (lim : R) (t : Row R) : Prop := IsPsf lim t ∨ Bright lim t.magDisk ∨ Bright lim t.magSpheroid

/-- No magnitude of the fitted galaxy is NaN. -/
def Clean (t : Row R) : Prop := t.magDisk ≠ none ∧ t.magSpheroid ≠ none

def Src.shapeDev : Src R → Option (Shape R)
  | .point _ _ _ => none
  | .dev _ _ _ s => some s
  | .exp _ _ _ _ => none
  | .comp _ _ _ _ _ d => some d

def Src.shapeExp : Src R → Option (Shape R)
  | .point _ _ _ => none
  | .dev _ _ _ _ => none
  | .exp _ _ _ s => some s
  | .comp _ _ _ _ e _ => some e

def Src.pos : Src R → R × R
  | .point ra dec _ => (ra, dec)
  | .dev ra dec _ _ => (ra, dec)
  | .exp ra dec _ _ => (ra, dec)
  | .comp ra dec _ _ _ _ => (ra, dec)

def Src.bright : Src R → Brightness R
  | .point _ _ b => b
  | .dev _ _ b _ => b
  | .exp _ _ b _ => b
  | .comp _ _ b _ _ _ => b

/-- The share of the flux in the spheroid. -/
def Src.share : Src R → Option R
  | .point _ _ _ => none
  | .dev _ _ _ _ => some 1
  | .exp _ _ _ _ => some 0
  | .comp _ _ _ f _ _ => f

/-- The flux of a part: that of its magnitude if it is bright enough, else nothing. -/
def partFlux (nmOf : R → R) (lim : R) : Option R → R
  | none => 0
  | some m => if m ≤ lim then nmOf m else 0

/-- The source that a row calls for. -/
structure Fits (nmOf : R → R) (lim : R) (bands : List String) (t : Row R) (s : Src R) : Prop where
  used : Used lim t
  names : s.bright.map (·.1) = bands
  point : IsPsf lim t → s.shapeDev = none ∧ s.shapeExp = none ∧ s.pos = (t.ra, t.dec) ∧
    ∀ b ∈ s.bright, b.2 = t.magPsf.map nmOf
  pos : ¬ IsPsf lim t → s.pos = (t.alphaModel, t.deltaModel)
  shapeDev : ¬ IsPsf lim t → s.shapeDev = if 0 < partFlux nmOf lim t.magSpheroid then
    some ⟨t.spheroidReff * 3600, t.spheroidAspect, t.spheroidTheta + 90⟩ else none
  shapeExp : ¬ IsPsf lim t → s.shapeExp = if 0 < partFlux nmOf lim t.magDisk then
    some ⟨t.diskScale * (168 / 100) * 3600, t.diskAspect, t.diskTheta + 90⟩ else none
  flux : ¬ IsPsf lim t → ∀ b ∈ s.bright, b.2 = some (partFlux nmOf lim t.magSpheroid + partFlux nmOf lim t.magDisk)
  share : ¬ IsPsf lim t → ∃ f, s.share = some f ∧ 0 ≤ f ∧ f ≤ 1 ∧
    f * (partFlux nmOf lim t.magSpheroid + partFlux nmOf lim t.magDisk) = partFlux nmOf lim t.magSpheroid

end Verif.Sext
