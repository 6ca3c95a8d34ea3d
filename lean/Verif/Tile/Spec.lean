import Verif.Tile.Model
import Verif.Patch.Spec
import Mathlib.Algebra.BigOperators.Group.Finset.Basic

/-!
# Specification vocabulary for subimages
-/

namespace Verif.Tile

open Verif Verif.Patches Verif.Coords

variable {R B : Type}

/-- `a` is the part of `A` with `h` rows from row `y0` and `w` columns from column `x0`. -/
def PartOf (a A : Arr R) (x0 y0 w h : Nat) : Prop :=
  a.h = h ∧ a.w = w ∧ ∀ y x : Nat, y < h → x < w → a.px y x = A.px (y0 + y) (x0 + x)

/-- Value at the pixel `(x, y)` of a patch, continued by zeros; 0 if there is none. -/
def valueAt [Zero R] (p : Option (Patch R)) (x y : Int) : R :=
  match p with
  | none => 0
  | some p => p.at x y

/-- Rebuilding the spline of a sky from its values at the control points gives the same function (external:
the interpolating spline through given points is unique). -/
def SkyOK (fit : List R → List R → List (List R) → Nat → R → R → R) : Sky R → Prop
  | .spline xg yg order spl _ _ _ =>
    ∀ x y, fit xg yg (yg.map (fun y => xg.map (fun x => spl x y))) order x y = spl x y
  | _ => True

section
variable [Field R] [LinearOrder R] [FloorRing R]

/-- The PSF classes for which subimages work: stamps whose radius is (at least) half their diagonal, and mixtures
that do not vary. -/
def PsfOK : Psf R → Prop
  | .pixelized img r => 0 ≤ r ∧ (img.w : R) ^ 2 + (img.h : R) ^ 2 ≤ (2 * r) ^ 2
  | .psfex m r => ∀ b ∈ m.bases.head?, 0 ≤ r ∧ (b.w : R) ^ 2 + (b.h : R) ^ 2 ≤ (2 * r) ^ 2
  | .gauss _ _ => True
  | _ => False

/-- The PSF is a mixture of Gaussians. -/
def Psf.isMog : Psf R → Prop
  | .gauss _ _ => True
  | _ => False

/-- A source at coordinate `q` of an axis of a tile of `n` pixels is not in one of the narrow strips outside
the tile where `getUnitFluxModelPatch` gives up although the patch would have reached the tile. -/
def EdgeOK (psf : Psf R) (fixed : Option R) (q n : R) : Prop :=
  (psf.isMog → 0 ≤ q + fixed.getD psf.getRadius ∨ q + fixed.getD psf.getRadius ≤ -1) ∧
  (¬ psf.isMog → ∀ r ∈ fixed, 0 ≤ r ∧ (0 ≤ q + r ∨ q + r ≤ -(3 / 2)) ∧ (q - r ≤ n ∨ n + 1 / 2 ≤ q - r))

/-- A stamp is not placed exactly half-way between two pixels of an axis shifted by an odd number. -/
def RoundOK (psf : Psf R) (p : R) (x0 : Nat) : Prop :=
  ¬ psf.isMog → Int.fract p ≠ 1 / 2 ∨ 2 ∣ x0

/-- The conditions on one source for the tile `[x0, x1) x [y0, y1)`. -/
def SourceOK (im : Image R B) (s : Source R B) (x0 x1 y0 y1 : Nat) : Prop :=
  (im.psf.isMog → s.minRadius = none) ∧
  ∀ px py, positionToPixel im.wcs s.pos = .ok (px, py) →
    EdgeOK im.psf s.fixedRadius (px - x0) ((x1 : R) - x0) ∧
    EdgeOK im.psf s.fixedRadius (py - y0) ((y1 : R) - y0) ∧
    RoundOK im.psf px x0 ∧ RoundOK im.psf py y0

/-- The conditions on the image: a FITS WCS, one of the PSF classes above, a sky that survives copying, no
approximation in rendering. -/
structure ImageOK (fit : List R → List R → List (List R) → Nat → R → R → R) (im : Image R B) : Prop where
  wcs : ∃ e a b, im.wcs = .fits e a b
  psf : PsfOK im.psf
  sky : SkyOK fit im.sky
  minval : im.modelMinval = 0

end

/-- A rectangle of pixels `[x0, x1) x [y0, y1)`. -/
structure Rect where
  x0 : Nat
  x1 : Nat
  y0 : Nat
  y1 : Nat
  deriving DecidableEq, Repr

/-- The pixel is in the rectangle. -/
def Rect.has (t : Rect) (x y : Nat) : Bool := decide (t.x0 ≤ x ∧ x < t.x1 ∧ t.y0 ≤ y ∧ y < t.y1)

/-- The rectangle lies in an image of `w` times `h` pixels. -/
def Rect.within (t : Rect) (w h : Nat) : Prop := t.x0 ≤ t.x1 ∧ t.x1 ≤ w ∧ t.y0 ≤ t.y1 ∧ t.y1 ≤ h

/-- The rectangles tile the image: every pixel is in exactly one of them. -/
def Tiling (ts : List Rect) (w h : Nat) : Prop :=
  (∀ t ∈ ts, t.within w h) ∧ ∀ x y, x < w → y < h → (ts.filter (fun t => t.has x y)).length = 1

end Verif.Tile
