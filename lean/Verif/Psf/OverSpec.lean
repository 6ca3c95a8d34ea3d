import Verif.Psf.Over

/-!
# What the uses of a PSF should give
-/

namespace Verif.Psf

variable {R V : Type} [Field R] [LinearOrder R]

/-- The stamp has a pixel at column `X`, row `Y` of the image. -/
def Covers (p : Stamp R) (X Y : Int) : Prop :=
  p.x0 ≤ X ∧ X < p.x0 + p.pix.w ∧ p.y0 ≤ Y ∧ Y < p.y0 + p.pix.h

/-- That pixel. -/
def valueAt (p : Stamp R) (X Y : Int) : R := p.pix.px (Y - p.y0).toNat (X - p.x0).toNat

/-- The value that a PSF image with `sampling` native pixels per pixel has at column `X`, row `Y` when its centre is at `(x, y)`: the image
interpolated that many of its own pixels from its centre. -/
def profile (interp : Arr R → R → R → R) (img : Arr R) (sampling x y X Y : R) : R :=
  interp img ((img.w / 2 : Nat) + (X - x) / sampling) ((img.h / 2 : Nat) + (Y - y) / sampling)

/-- The pixels at distances from `-(n/2)` to `n - 1 - n/2`: a stamp of `n` pixels. -/
def InStamp (n : Nat) (i : Int) : Prop := -((n / 2 : Nat) : Int) ≤ i ∧ i < n - ((n / 2 : Nat) : Int)

/-- A pixel of a mask. -/
def InMask (m : Mask) (X Y : Int) : Prop := m.x0 ≤ X ∧ X < m.x0 + m.w ∧ m.y0 ≤ Y ∧ Y < m.y0 + m.h

/-- What is assumed of the external routines: interpolation and transform are homogeneous. -/
structure Homogeneous [AddCommGroup V] [Module R V] (N : Numerics R V) : Prop where
  interp : ∀ (A : Arr R) (c x y : R), N.interp (A.map (fun v => v * c)) x y = N.interp A x y * c
  fft : ∀ (A : Arr R) (c : R), N.fft (A.map (fun v => v * c)) = c • N.fft A
  dc : ∀ (f : V) (c : R), N.dc (c • f) = c * N.dc f

/-- The transform is additive. -/
def Additive [AddCommGroup V] (N : Numerics R V) : Prop :=
  (∀ h w f g, N.fft ⟨h, w, fun r c => f r c + g r c⟩ = N.fft ⟨h, w, f⟩ + N.fft ⟨h, w, g⟩) ∧ ∀ h w, N.fft ⟨h, w, fun _ _ => 0⟩ = 0

end Verif.Psf
