import Verif.Gal.Composite
import Verif.Patch.Spec
import Mathlib.Algebra.Module.Defs

/-! What composite galaxies are compared with. -/

namespace Verif.Gal

open Verif.Patches (Patch)
open Verif.Mog (Mix Comp Mat)

variable {R : Type} [Field R]

/-- A quantity given by one Gaussian of unit amplitude with these mean and variance: its density in some point, its Fourier transform at
some frequency, ... -/
abbrev Kernel (R N : Type) := R → R → R → R → R → R → N

/-- That quantity for a mixture. -/
def ofMix {N : Type} [AddCommMonoid N] [Module R N] (g : Kernel R N) (m : Mix R) : N :=
  (m.map (fun c => c.amp • g c.mx c.my c.vxx c.vxy c.vyx c.vyy)).sum

/-- Mixtures are evaluated component by component. -/
def LinearEnv (E : Env R) : Prop :=
  (∀ y x, ∃ g : Kernel R R, ∀ m, E.value m y x = ofMix g m) ∧
  (∀ y x, ∃ g : Kernel R R, ∀ m, E.valueMasked m y x = ofMix g m)

/-- The pixel of an optional patch; None is dark. -/
def pixel (p : Option (Patch R)) (x y : Int) : R :=
  match p with
  | none => 0
  | some p => p.at x y

/-- The patch, if any, has an image. -/
def HasImage (p : Option (Patch R)) : Prop := ∀ q, p = some q → ∃ A, q.patch = some A

/-- A row vector times a matrix. -/
def rowTimes (p : R × R) (m : Mat R) : R × R := (p.1 * m.xx + p.2 * m.yx, p.1 * m.xy + p.2 * m.yy)

/-- The variance of a component along a direction. -/
def varianceAlong (c : Comp R) (p : R × R) : R := p.1 * p.1 * c.vxx + p.1 * p.2 * (c.vxy + c.vyx) + p.2 * p.2 * c.vyy

end Verif.Gal
