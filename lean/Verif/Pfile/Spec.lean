import Verif.Pfile.Model
import Mathlib.Algebra.BigOperators.Group.Finset.Basic

/-!
# Specification vocabulary for PsfEx files
-/

namespace Verif.Pfile

open Verif

variable {R : Type} [Field R]

/-- The PSF of a PsfEx model of degree `d`, pixel `(r, c)` at image position `(x, y)`: the sum over all monomials up to degree `d` in the scaled
coordinates, each times its image; the images are ordered by the power of y, then by the power of x. -/
def polyPsf (f32 : R → R) (d : Nat) (x0 y0 xs ys : R) (planes : List (Arr R)) (x y : R) (r c : Nat) : R :=
  ∑ p ∈ (Finset.range (d + 1) ×ˢ Finset.range (d + 1)).filter (fun p => p.1 + p.2 ≤ d),
    ((x - x0) / xs) ^ p.1 * ((y - y0) / ys) ^ p.2 *
      ((planes[p.1 + ∑ k ∈ Finset.range p.2, (d + 1 - k)]?.map (fun b => f32 (b.px r c))).getD 0)

/-- A header as PsfEx writes it for a model of degree `d` in the image coordinates. -/
structure Header.Describes (h : Header R) (d : Nat) (x0 y0 xs ys : HVal R) : Prop where
  ngrp : h "POLNGRP" = some (.int 1)
  name1 : ∃ s, h "POLNAME1" = some (.str s) ∧ (strip s = "X_IMAGE" ∨ strip s = "XWIN_IMAGE")
  name2 : ∃ s, h "POLNAME2" = some (.str s) ∧ (strip s = "Y_IMAGE" ∨ strip s = "YWIN_IMAGE")
  grp1 : h "POLGRP1" = some (.int 1)
  grp2 : h "POLGRP2" = some (.int 1)
  deg : h "POLDEG1" = some (.int d)
  zero1 : h "POLZERO1" = some x0
  zero2 : h "POLZERO2" = some y0
  scal1 : h "POLSCAL1" = some xs
  scal2 : h "POLSCAL2" = some ys
  axis3 : h "PSFAXIS3" = some (.int ((d + 1) * (d + 2) / 2))

end Verif.Pfile
