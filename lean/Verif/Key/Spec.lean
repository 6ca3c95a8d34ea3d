import Verif.Key.Model

/-!
# When a program keeps to conventions that make keys unambiguous
-/

namespace Verif.Hashed.Spec

variable {R : Type}

/-- What the objects of a program have in common: which classes are containers, which attributes that are not parameters the objects of a class have, one
pixel scale for all `NullWCS`, and what the WCS objects and PsfEx files contain. -/
structure Conventions (R : Type) where
  container : String → Bool
  attrs : String → List String
  own : String → List (Option R)
  pixscale : R
  content : Nat → List R
  psfEx : String → Nat → R × R × List R × Bool

/-- Names used in keys by classes that do not use the default. -/
def reserved : List String := ["NullWCS", "PixelizedPSF", "PixelizedPsfEx", "ShiftedPsf", "ScaledPhotoCal", "ScaledWcs", "ShiftedWcs"]

mutual
/-- The object keeps to the conventions: attributes as those of its class, WCS content and PsfEx models as on file, pixelized PSFs square, with sampling 1 and not
normalised on rendering; no other wrappers. -/
def Keeps (one : R) (c : Conventions R) : Obj R → Prop
  | .list cls _ attrs => cls ∉ reserved ∧ c.container cls = false ∧ attrs = c.attrs cls
  | .multi cls subs own => cls ∉ reserved ∧ c.container cls = true ∧ own = c.own cls ∧ KeepAll one c subs
  | .nullWcs _ _ pixscale => pixscale = c.pixscale
  | .fitsWcs _ _ wcs content => content = c.content wcs
  | .pixPsf img sampling normalized => sampling = one ∧ normalized = false ∧ ∀ row ∈ img, row.length = img.length
  | .psfEx fn ext x0 y0 bases normalized => ∃ f, fn = some f ∧ (x0, y0, bases, normalized) = c.psfEx f ext
  | .shiftedPsf _ _ psf => Keeps one c psf
  | .scaledCal _ cal => Keeps one c cal
  | .scaledWcs _ wcs => Keeps one c wcs
  | .shiftedWcs _ _ wcs => Keeps one c wcs
  | .wrapper _ _ => False
/-- All sub-objects do. -/
def KeepAll (one : R) (c : Conventions R) : Objs R → Prop
  | .nil => True
  | .cons o l => Keeps one c o ∧ KeepAll one c l
  | .none l => KeepAll one c l
end

/-- An image keeps to the conventions if its calibrations do and its shape is that of the array with its identity. -/
def KeepsImage (one : R) (c : Conventions R) (shape : Nat → Nat × Nat) (i : Image R) : Prop :=
  Keeps one c i.psf ∧ Keeps one c i.sky ∧ Keeps one c i.wcs ∧ Keeps one c i.photocal ∧ (i.H, i.W) = shape i.data

end Verif.Hashed.Spec
