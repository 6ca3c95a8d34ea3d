import Verif.Fpfit.Model
import Verif.Lsq.Model

/-!
# The update direction of forced photometry

tractor/lsqr_optimizer.py 11-41 `LsqrOptimizer._optimize_forcedphot_core`: the derivatives handed to `getUpdateDirection` (`Verif.Lsq`).
-/

namespace Verif.Fpfit

open Verif Patches Forced Linmod

variable {R M : Type}

section
variable [Field R] [LinearOrder R]

/-- `for um, dd in zip(umods, derivs): if um is None: continue; dd.append((um * scale, tim))`, lsqr_optimizer.py 27-30; `i` is the number of
the image. -/
def appendOne (i : Nat) (scale : R) : List (Option (Patch R)) → Lsq.Derivs R → Lsq.Derivs R
  | u :: us, d :: ds =>
    (match u with
     | none => d
     | some p => d ++ [(p.mul scale, i)]) :: appendOne i scale us ds
  | _, ds => ds

/-- The loop over images, lsqr_optimizer.py 26-30, from image `i` on. -/
def fluxDerivs (minsb : R) (cat : List (Source R)) : Nat → List (Tim R M) → Lsq.Derivs R → Lsq.Derivs R
  | _, [], ds => ds
  | i, t :: ts, ds => fluxDerivs minsb cat (i + 1) ts (appendOne i t.scale (umods t.W t.img minsb cat) ds)

/-- `skyderivs`: `ConstantSky.getParamDerivatives` (sky.py 24-28) for each image, optimize.py 93-107. -/
def skyDerivs : Nat → List (Tim R M) → Lsq.Derivs R
  | _, [] => []
  | i, t :: ts => [((⟨0, 0, some ⟨t.data.h, t.data.w, fun _ _ => 1⟩⟩ : Patch R), i)] :: skyDerivs (i + 1) ts

/-- `derivs`, lsqr_optimizer.py 25-35. -/
def derivs (minsb : R) (sky : Bool) (tims : List (Tim R M)) (cat : List (Source R)) : Lsq.Derivs R :=
  let d := fluxDerivs minsb cat 0 tims (List.replicate (numParams cat) [])
  if sky then skyDerivs 0 tims ++ d else d

/-- The images as `getUpdateDirection` sees them, with the chi images `chis0`. -/
def lsqImgs (tims : List (Tim R M)) (chis : List (Arr R)) (i : Nat) : Lsq.Img R :=
  match tims[i]?, chis[i]? with
  | some t, some c => ⟨t.data.h, t.data.w, t.ie, c⟩
  | _, _ => ⟨0, 0, Arr.zeros 0 0, Arr.zeros 0 0⟩

/-- `getUpdateDirection(tractor, derivs, damp=0, priors=False, scale_columns=False, chiImages=chis0, shared_params=…)`, lsqr_optimizer.py
109-112, in the first round.  `shared` is `paramindexmap`. -/
def firstDir (sqrt : R → R) (tiny : R) (lsqr : Lsq.Problem R → List R) (minsb : R) (sky : Bool) (tims : List (Tim R M))
    (cat : List (Source R)) (shared : Option (List Nat)) : Except PyErr (Option (List R)) :=
  match fitChis minsb sky cat (getParams cat) tims (tims.map (·.sky)) with
  | .error e => .error e
  | .ok chis => Lsq.getUpdateDirection sqrt tiny lsqr (lsqImgs tims chis) (derivs minsb sky tims cat) none false shared

end

end Verif.Fpfit
