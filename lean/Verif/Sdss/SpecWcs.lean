import Verif.Sdss.Wcs

/-! What the SDSS calibration is compared with. -/

namespace Verif.Sdss

variable {R M : Type} [Field R] [DecidableEq R]

/-- States of an object after any calls. -/
inductive Reach (A : AsTrans R M) (inv : M → M) : Wcs R M → Prop where
  | mk (t : String → R) : Reach A inv (mkWcs t)
  | const {w : Wcs R M} (h : Reach A inv w) (x y : R) : Reach A inv (setConstantCd A inv w x y)
  | shift {w : Wcs R M} (h : Reach A inv w) (x y : R) : Reach A inv (setX0Y0 w x y)
  | params {w w' : Wcs R M} (h : Reach A inv w) (p : List R) (e : setParams w p = .ok w') : Reach A inv w'
  | freeze {w : Wcs R M} (h : Reach A inv w) (l : List Bool) (e : l.length = w.liquid.length) : Reach A inv { w with liquid := l }
  | steps {w : Wcs R M} (h : Reach A inv w) (ss : List R) : Reach A inv (setAllStepSizes w ss)

end Verif.Sdss
