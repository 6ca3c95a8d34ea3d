import Verif.Gal.Model
import Verif.Psf.Props
import Verif.Psf.PropsLanczos

/-! What renderings of galaxies are compared with. -/

namespace Verif.Gal

open Verif.Psf (ext shiftedImage weight)

variable {R : Type} [Field R] [LinearOrder R]

/-- The stamp `img` in the middle of an `n` by `n` image of zeros: its centre pixel has row and
column `n / 2 - 1`. -/
def Embedded (img : Arr R) (n : Nat) (pad : Arr R) : Prop :=
  pad.h = n ∧ pad.w = n ∧ ∀ i j : Int, ext pad ((n / 2 : Nat) - 1 + j) ((n / 2 : Nat) - 1 + i) =
    ext img ((img.h / 2 : Nat) + j) ((img.w / 2 : Nat) + i)

/-- The convolution of a part of the profile with the padded stamp, interpolated with a sub-pixel shift; row `y`, column `x`. -/
def convShifted (E : Env R) (pad : Arr R) (f : Option (Mog.Mix R)) (dx dy : R) (y x : Int) : R :=
  match f with
  | none => 0
  | some f => shiftedImage (weight E.lz) ⟨pad.h, pad.w, E.conv pad f⟩ dx dy y x

end Verif.Gal
