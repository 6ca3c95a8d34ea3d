import Verif.Src.Moving

/-!
# Where a moving source should be
-/

namespace Verif.Src

open Verif Verif.Params

variable {M K : Type}

/-- A Julian year in seconds. -/
noncomputable def yearSeconds : ℝ := 31557600

/-- The unit vector with given right ascension and declination in degrees. -/
noncomputable def unitVector (ra dec : ℝ) : ℝ × ℝ × ℝ :=
  (Real.cos (dec * Real.pi / 180) * Real.cos (ra * Real.pi / 180), Real.cos (dec * Real.pi / 180) * Real.sin (ra * Real.pi / 180),
    Real.sin (dec * Real.pi / 180))

/-- Scalar product. -/
noncomputable def dot (a b : ℝ × ℝ × ℝ) : ℝ := a.1 * b.1 + a.2.1 * b.2.1 + a.2.2 * b.2.2

/-- The phase of the year, in radians from the equinox of 2004 (MJD 53084.28), unreduced. -/
noncomputable def phase (t : ℝ) : ℝ := 2 * Real.pi * (t - 53084.28 * 86400) / yearSeconds

/-- Position and motion, in degrees and degrees per year, at time `t` in seconds, the position being that at `epoch`: the motion is uniform
in right ascension and declination, and the direction is displaced by a parallax ellipse seen edge-on or not. -/
noncomputable def place (S : Sky) (epoch : ℝ) (pos pm : ℝ × ℝ) (parallax t : ℝ) : ℝ × ℝ :=
  let y := (t - epoch) / yearSeconds
  S.toRaDec (S.toXyz (pos.1 + y * pm.1) (pos.2 + y * pm.2) +
    (parallax / S.arcsecperrad) • (Real.cos (phase t) • S.toXyz 0 0 + Real.sin (phase t) • S.toXyz 90 S.axistilt))

/-- The list of parameters `p` has the two values `v`. -/
def HasPair (p : PList ℝ) (v : ℝ × ℝ) : Prop := ∃ a b, p.slots = [a, b] ∧ a.val = v.1 ∧ b.val = v.2

/-- The epoch, in seconds. -/
def HasEpoch (e : Operand ℝ) (x : ℝ) : Prop := e = .num x ∨ ∃ s, e = .obj (.scalar s) ∧ s.val = x

/-- The model image of a moving source at time `t`: counts times the unit-flux patch, rendered without flux cut (nothing if not
rendered). -/
noncomputable def movingModel [AddCommGroup M] [Module ℝ M] (S : Sky) (W : MovingWorld M K) (mask : Option K) (epoch t : ℝ) (p : Par ℝ) : M :=
  match p with
  | .multi (.cons _ _ (.plist pos) (.cons _ _ b (.cons _ _ (.plist pm) (.cons _ _ (.scalar par) .nil)))) =>
    match pos.slots, pm.slots with
    | [ra, dec], [mra, mdec] =>
      W.counts b • (W.psf (W.pix (place S epoch (ra.val, dec.val) (mra.val, mdec.val) par.val t)) 0 mask).getD 0
    | _, _ => 0
  | _ => 0

end Verif.Src
