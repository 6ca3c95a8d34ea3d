import Verif.Gpu.Model

/-!
# What the GPU layout is meant to be

In image coordinates; nothing here refers to the way the code computes it.
-/

namespace Verif.Gpu

open Verif Verif.Psf

variable {R : Type}

/-- The pixel in column `x`, row `y` of the image lies in the mask. -/
def InMask (t : Tim R) (x y : Int) : Prop := t.x0 ≤ x ∧ x < t.x1 ∧ t.y0 ≤ y ∧ y < t.y1

instance (t : Tim R) (x y : Int) : Decidable (InMask t x y) := by unfold InMask; infer_instance

/-- An image of the kind the GPU code takes, with a mask of at least one pixel inside the image. -/
structure Fits (t : Tim R) : Prop where
  supported : t.supported = true
  x : 0 ≤ t.x0 ∧ t.x0 < t.x1 ∧ t.x1 ≤ t.pix.w
  y : 0 ≤ t.y0 ∧ t.y0 < t.y1 ∧ t.y1 ≤ t.pix.h
  ie : t.ie.h = t.pix.h ∧ t.ie.w = t.pix.w

/-- The mask contains a pixel of positive weight. -/
def Weighted [Zero R] [LT R] (t : Tim R) : Prop := ∃ x y : Int, InMask t x y ∧ 0 < t.ie.px y.toNat x.toNat

variable [Field R] [LinearOrder R]

/-- The square arrays of side `sz` show the mask of the image around the pixel `(ipx, ipy)`. -/
structure Layout (t : Tim R) (sz : Nat) (ipx ipy : Int) (p : Padded R) : Prop where
  /-- The requested pixel is the centre. -/
  centre : p.ipx = ipx ∧ p.ipy = ipy
  /-- Position of the corner of the arrays in the image. -/
  origin : p.padx0 = ipx - (sz / 2 : Nat) ∧ p.pady0 = ipy - (sz / 2 : Nat)
  shapes : p.padpix.h = sz ∧ p.padpix.w = sz ∧ p.padie.h = sz ∧ p.padie.w = sz ∧ p.psfPad.h = sz ∧ p.psfPad.w = sz
  /-- Image pixels inside the mask, zeros elsewhere. -/
  pix : ∀ r c : Nat, r < sz → c < sz → p.padpix.px r c = if InMask t (p.padx0 + c) (p.pady0 + r) then
    t.pix.px (p.pady0 + r).toNat (p.padx0 + c).toNat else 0
  ie : ∀ r c : Nat, r < sz → c < sz → p.padie.px r c = if InMask t (p.padx0 + c) (p.pady0 + r) then
    t.ie.px (p.pady0 + r).toNat (p.padx0 + c).toNat else 0
  /-- The centre of the stamp is at the centre. -/
  psf : ∀ r c : Nat, r < sz → c < sz →
    p.psfPad.px r c = ext t.psf (r - (sz / 2 : Nat) + (t.psf.h / 2 : Nat)) (c - (sz / 2 : Nat) + (t.psf.w / 2 : Nat))
  /-- Around the mask at least six pixels are left. -/
  margin : ∀ x y : Int, InMask t x y → (6 ≤ x - p.padx0 ∧ x - p.padx0 + 6 < sz) ∧ (6 ≤ y - p.pady0 ∧ y - p.pady0 + 6 < sz)
  /-- The limits are exactly the shifts for which a model of that size covers every pixel of positive weight. -/
  limits : Weighted t → ∀ d : Int,
    ((p.mindx ≤ d ∧ d ≤ p.maxdx) ↔ ∀ x y : Int, InMask t x y → 0 < t.ie.px y.toNat x.toNat →
      0 ≤ x - p.padx0 - d ∧ x - p.padx0 - d < sz) ∧
    ((p.mindy ≤ d ∧ d ≤ p.maxdy) ↔ ∀ x y : Int, InMask t x y → 0 < t.ie.px y.toNat x.toNat →
      0 ≤ y - p.pady0 - d ∧ y - p.pady0 - d < sz)

end Verif.Gpu
