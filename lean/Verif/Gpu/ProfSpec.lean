import Verif.Gpu.Prof
import Verif.Gal.PropsSplit

/-!
# What the galaxy profiles of the GPU should be
-/

namespace Verif.Gpu

open Verif Verif.Psf Verif.Mog

variable {R : Type} [Field R] [LinearOrder R]

/-- A covariance matrix that may be singular. -/
def Semidefinite (c : Comp R) : Prop := 0 ≤ c.vxx ∧ 0 ≤ c.vyy ∧ c.vxy ^ 2 ≤ c.vxx * c.vyy

/-- A covariance matrix whose determinant is not tiny. -/
def Definite (c : Comp R) : Prop := 0 < c.vxx ∧ 0 < c.vyy ∧ 1 / 10 ^ 30 ≤ c.vxx * c.vyy - c.vxy ^ 2

/-- The inverse transform is linear. -/
def Linear (back : (Nat → Nat → R) → Nat → Nat → R) : Prop :=
  ∀ (F G : Nat → Nat → R) (a : R) (r q : Nat), back (fun x y => F x y + a * G x y) r q = back F r q + a * back G r q

/-- The Fourier transform of a Gaussian of unit flux. -/
def gaussFT (E : Lib R) (c : Comp R) (a b : Nat) : R :=
  E.exp (-2 * E.pi ^ 2 * (c.vxx * E.v b ^ 2 + 2 * c.vxy * (E.v b * E.w a) + c.vyy * E.w a ^ 2))

/-- The density at `(x, y)` of the Gaussian with mean zero whose covariance is the sum of those of `c` and `p`. -/
def density (E : Lib R) (c p : Comp R) (x y : R) : R :=
  let det := (c.vxx + p.vxx) * (c.vyy + p.vyy) - (c.vxy + p.vxy) ^ 2
  E.exp (-(1 / 2) * (((c.vyy + p.vyy) * x ^ 2 - 2 * (c.vxy + p.vxy) * (x * y) + (c.vxx + p.vxx) * y ^ 2) / det)) /
    (2 * E.pi * E.sqrt det)

/-- The component `c` of unit flux convolved with the PSF, in the pixel in row `r`, column `q`: the share `s` that the CPU
code draws analytically too (C97) with the mixture of the PSF, the rest with its Fourier transform. -/
def hybrid (E : Lib R) (sz : Nat) (psf : ImPsf R) (c : Comp R) (r q : Nat) : R :=
  let s := Gal.share ((sz : R) / 2) 3 4 (E.sqrt (c.vxx + c.vyy))
  (1 - s) * psf.back (gaussFT E c) r q +
    s * (psf.mog.map (fun p => p.amp * density E c p (q - ((sz / 2 : Nat) : R)) (r - ((sz / 2 : Nat) : R)))).sum

/-- The profile convolved with the PSF, its centre in the centre of the array. -/
def profileOf (E : Lib R) (sz : Nat) (psf : ImPsf R) (mix : Mix R) : Arr R :=
  ⟨sz, sz, fun r q => (mix.map (fun c => c.amp * hybrid E sz psf c r q)).sum⟩

/-- What the arguments have to be: one PSF per image, covariances, transforms. -/
structure GoodBatch (psfs : List (ImPsf R)) (mogs : List (List (Mix R))) : Prop where
  len : psfs.length = mogs.length
  semi : ∀ l ∈ mogs, ∀ m ∈ l, ∀ c ∈ m, Semidefinite c
  definite : ∀ p ∈ psfs, ∀ c ∈ p.mog, Definite c
  lin : ∀ p ∈ psfs, Linear p.back

end Verif.Gpu
