import Verif.Src.Core
import Verif.Src.Spec
import Verif.Gal.CompositeSpec

/-! What galaxies with a central point source are compared with. -/

namespace Verif.Src

open Verif Verif.Params

variable {R M K : Type} [Field R] [LinearOrder R] [AddCommGroup M] [Module R M]

/-- The model image of a de Vaucouleurs galaxy with a central point source: the sum of the two. -/
def coreModel (I : Image R) (Wg : GalaxyWorld R M K) (Wp : PointWorld R M K) (mvG mvP : Option R) (maskG : K) (mask : Option K)
    (t : Par R) : M :=
  match t with
  | .multi (.cons _ _ (.plist p) (.cons _ _ b (.cons _ _ g (.cons _ _ q .nil)))) =>
    I.counts b • (Wg.forced p g mvG maskG).getD 0 + I.counts q • (Wp.unit p mvP mask).getD 0
  | _ => 0

/-- The list of a source of which two parts share the first `npos` parameters: those are sums, then come the others of the first part, then
the others of the second. -/
def Merged (npos : Nat) (a b ds : List (Option M)) : Prop :=
  ds.length + npos = a.length + b.length ∧
  (∀ (k : Nat) (x y : Option M), k < npos → a[k]? = some x → b[k]? = some y → ∃ d, ds[k]? = some d ∧ d.getD 0 = x.getD 0 + y.getD 0) ∧
  (∀ (k : Nat), npos ≤ k → k < a.length → ds[k]? = a[k]?) ∧
  (∀ (k : Nat), npos ≤ k → k < b.length → ds[a.length + (k - npos)]? = b[k]?)

end Verif.Src

namespace Verif.Gal

open Verif.Patches (Patch)

variable {R K : Type} [Field R] [LinearOrder R]

/-- The pixels of what a renderer returns differ by at most `minval` from those of an image `u`. -/
def Within (unit : Renderer R K) (mask : K) (u : Int → Int → R) : Prop :=
  ∀ minval, 0 < minval → ∃ p, unit minval mask = .ok p ∧ HasImage p ∧ ∀ x y, |pixel p x y - u x y| ≤ minval

end Verif.Gal
