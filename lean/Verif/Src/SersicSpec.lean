import Verif.Src.Sersic
import Verif.Src.Spec

/-! What the derivatives of Sersic galaxies are compared with. -/

namespace Verif.Src

open Verif.Params

variable {R M K : Type} [Field R] [LinearOrder R] [AddCommGroup M] [Module R M]

/-- The model image of a Sersic galaxy as a function of its index. -/
def indexModel (I : Image R) (W : R → GalaxyWorld R M K) (mask : Option K) (s : Sersic R) (v : R) : M :=
  I.counts s.gal.bright • ((W v).unit s.gal.pos s.gal.shape (minvalOf I.minsb (I.counts s.gal.bright)) mask).getD 0

/-- The index next to `v` at distance `h`: above if that is not beyond the upper bound, else below. -/
def Neighbour (up h v v' : R) : Prop := (v + h ≤ up ∧ v' = v + h) ∨ (up < v + h ∧ v' = v - h)

/-- Renderings do not depend on the limit `minval`, as when a mask is given. -/
def NoLimit (W : R → GalaxyWorld R M K) (mask : Option K) : Prop :=
  ∀ v pos shape mv mv', (W v).unit pos shape mv mask = (W v).unit pos shape mv' mask

end Verif.Src
