import Verif.Src.Model
import Verif.Params.Model2
import Verif.Num
import Mathlib.Analysis.SpecialFunctions.Trigonometric.Basic
import Mathlib.Analysis.SpecialFunctions.Log.Basic

/-!
# Moving point sources

tractor/motion.py (`Parallax`, `ParallaxWithPrior`, `PMRaDec`, `MovingPointSource`) and tractor/tractortime.py (`TAITime`).
-/

namespace Verif.Src

open Verif Verif.Params

variable {M K : Type}

/-! ### Times -/

/-- `TAITime(t, mjd)`, tractortime.py 22-29, without `date` (which an external function converts).  The value is None when neither is
given. -/
noncomputable def taiTime (t mjd : Option ℝ) : Option ℝ :=
  match t with
  | some t => some t
  | none => mjd.map (fun m => m * 24 * 3600)

/-- `TAITime.toMjd`, tractortime.py 31-32. -/
noncomputable def toMjd (t : ℝ) : ℝ := t / (24 * 3600)

/-- `TAITime.daysperyear`, tractortime.py 19. -/
noncomputable def daysPerYear : ℝ := 36525 / 100

/-- `np.fmod`: the remainder has the sign of the first argument. -/
noncomputable def fmod (x y : ℝ) : ℝ := x - y * (if 0 ≤ x / y then ⌊x / y⌋ else ⌈x / y⌉ : ℤ)

/-- `TAITime.getSunTheta`, tractortime.py 34-38, with the equinox of line 18. -/
noncomputable def sunTheta (t : ℝ) : ℝ :=
  fmod (2 * Real.pi * (toMjd t - 5308428 / 100) / daysPerYear) (2 * Real.pi)

/-- `TAITime.toYears`, tractortime.py 40-42. -/
noncomputable def toYears (t : ℝ) : ℝ := t / (24 * 3600 * daysPerYear)

/-- `TAITime.toYear`, tractortime.py 44-46, with `mjd2k` of line 20. -/
noncomputable def toYear (t : ℝ) : ℝ := toYears t - toYears (515445 / 10 * 24 * 3600) + 2000

/-! ### Parallax -/

/-- `Parallax(val)`, motion.py 5-10. -/
noncomputable def mkParallax (v : ℝ) : Scalar ℝ := ⟨"Parallax", v, none, none, none, 1 / 1000, none⟩

/-- `ParallaxWithPrior.getLogPrior`, motion.py 14-20.  `np.log(0.)` is minus infinity, and `-4.` times that is plus infinity. -/
noncomputable def parallaxLogPrior (p : ℝ) : Num ℝ :=
  if p < 0 then .ninf else if p = 0 then .pinf else .fin (-4 * Real.log p)

/-- `ParallaxWithPrior.isLegal`, motion.py 22-24. -/
noncomputable def parallaxLegal (p : ℝ) : Bool := decide (0 ≤ p)

/-! ### The source -/

/-- `radectoxyz`, `xyztoradec`, `arcsecperrad`, `axistilt` of the external astrometry.util.starutil_numpy (motion.py 85). -/
structure Sky where
  toXyz : ℝ → ℝ → ℝ × ℝ × ℝ
  toRaDec : ℝ × ℝ × ℝ → ℝ × ℝ
  arcsecperrad : ℝ
  axistilt : ℝ

/-- A `MovingPointSource`: the four parameters with the flags of the container, and the epoch (a number or a `TAITime`).
The constructor, motion.py 59-65, does not run that of `PointSource`, so there are no attributes `fixedRadius` and `minRadius`. -/
structure Moving where
  posLiquid : Bool
  pos : PList ℝ
  brightLiquid : Bool
  bright : Par ℝ
  pmLiquid : Bool
  pm : PList ℝ
  parLiquid : Bool
  par : Scalar ℝ
  epoch : Operand ℝ

/-- The source as a `MultiParams`, motion.py 67-69. -/
def Moving.tree (s : Moving) : Par ℝ :=
  .multi (.cons ["pos"] s.posLiquid (.plist s.pos) (.cons ["brightness"] s.brightLiquid s.bright
    (.cons ["pm"] s.pmLiquid (.plist s.pm) (.cons ["parallax"] s.parLiquid (.scalar s.par) .nil))))

/-- `PointSource.copy` for a moving source, pointsource.py 81-85: a new source is made from copies of the parameters, utils.py 935-938,
and then `self.fixedRadius` is read, which is not there. -/
def Moving.copy (s : Moving) : Except PyErr Moving :=
  match Params.copy s.bright with
  | .error e => .error e
  | .ok _ => .error .attribute

/-- `dt = (t - self.epoch).toYears()`, motion.py 87. -/
noncomputable def elapsed (s : Moving) (t : Scalar ℝ) : Except PyErr ℝ :=
  match binop (fun x y => x - y) (.scalar t) s.epoch with
  | .error e => .error e
  | .ok (.scalar d) => .ok (toYears d.val)
  | .ok _ => .error .attribute

/-- The parallax vector, motion.py 106-114. -/
noncomputable def parallaxStep (S : Sky) (t : ℝ) : ℝ × ℝ × ℝ :=
  let d1 := (1 / S.arcsecperrad) • S.toXyz 0 0
  let d2 := (1 / S.arcsecperrad) • S.toXyz 90 S.axistilt
  Real.cos (sunTheta t) • d1 + Real.sin (sunTheta t) • d2

/-- `MovingPointSource.getPositionAtTime`, motion.py 84-116: the right ascension and declination of the position returned. -/
noncomputable def positionAt (S : Sky) (s : Moving) (t : Scalar ℝ) : Except PyErr (ℝ × ℝ) :=
  match elapsed s t with
  | .error e => .error e
  | .ok dt =>
    match binop (fun x y => x * y) (.plist s.pm) (.num dt) with
    | .error e => .error e
    | .ok m =>
      match binop (fun x y => x + y) (.plist s.pos) (.obj m) with
      | .error e => .error e
      | .ok p =>
        match getAllParams p with
        | ra :: dec :: _ => .ok (S.toRaDec (S.toXyz ra dec + s.par.val • parallaxStep S t.val))
        | _ => .error .index

/-- What the source asks of the image: photometric calibration, `getTime()` (may be None), WCS and PSF
(`getPointSourcePatch(px, py, minval, modelMask)`).  The WCS is taken to give the same pixel whether or not it is told the source. -/
structure MovingWorld (M K : Type) where
  counts : Par ℝ → ℝ
  time : Option (Scalar ℝ)
  pix : ℝ × ℝ → ℝ × ℝ
  psf : ℝ × ℝ → ℝ → Option K → Option M

/-- `MovingPointSource.getUnitFluxModelPatch`, motion.py 118-123 (TypeError when the image has no time). -/
noncomputable def movingUnit (S : Sky) (W : MovingWorld M K) (minval : ℝ) (mask : Option K) (s : Moving) : Except PyErr (Option M) :=
  match W.time with
  | none => .error .typeErr
  | some t =>
    match positionAt S s t with
    | .error e => .error e
    | .ok p => .ok (W.psf (W.pix p) minval mask)

variable [AddCommGroup M] [Module ℝ M]

/-- `(patchx - patch0) * (counts0 / pstep)`, motion.py 179: TypeError for `None - patch0`, the assertion of patch.py 407 for
`patchx - None`. -/
noncomputable def patchQuotient (patchx patch0 : Option M) (counts0 pstep : ℝ) : Except PyErr (Option M) :=
  match patchx with
  | none => .error .typeErr
  | some px =>
    match patch0 with
    | none => .error .assertion
    | some p0 => (pyDiv counts0 pstep).map (fun x => some (x • (px - p0)))

/-- The loop body of `_add_posderivs`, motion.py 171-182, for a stepped source `s`. -/
noncomputable def moveDeriv (S : Sky) (W : MovingWorld M K) (mask : Option K) (patch0 : Option M) (counts0 pstep : ℝ) (s : Moving) :
    Except PyErr (Option M) :=
  match movingUnit S W 0 mask s with
  | .error e => .error e
  | .ok patchx => patchQuotient patchx patch0 counts0 pstep

/-- The loop body for the brightness, motion.py 193-199. -/
noncomputable def moveBright (counts : Par ℝ → ℝ) (patch0 : Option M) (counts0 bstep : ℝ) (b : Par ℝ) : Except PyErr (Option M) :=
  match pyDiv (counts b - counts0) bstep with
  | .error e => .error e
  | .ok x =>
    match patch0 with
    | none => .error .typeErr
    | some p0 => .ok (some (x • p0))

/-- The scalar that a parameter object is (the others do not occur below). -/
def asScalar (t : Par ℝ) (d : Scalar ℝ) : Scalar ℝ :=
  match t with
  | .scalar s => s
  | _ => d

/-- The derivatives with respect to the position, motion.py 185-186. -/
noncomputable def movePos (S : Sky) (W : MovingWorld M K) (mask : Option K) (patch0 : Option M) (counts0 : ℝ) (s : Moving) :
    Moving × Except PyErr (List (Option M)) :=
  if s.posLiquid then
    let r := stepEach (fun st t => moveDeriv S W mask patch0 counts0 st { s with pos := asList t s.pos })
      (getStepSizes (.plist s.pos)) (getParams (.plist s.pos)) 0 (.plist s.pos)
    ({ s with pos := asList r.1 s.pos }, r.2)
  else (s, .ok [])

/-- The derivatives with respect to the brightness, motion.py 190-199. -/
noncomputable def moveBrights (W : MovingWorld M K) (patch0 : Option M) (counts0 : ℝ) (s : Moving) :
    Moving × Except PyErr (List (Option M)) :=
  if s.brightLiquid then
    let r := stepEach (moveBright W.counts patch0 counts0) (getStepSizes s.bright) (getParams s.bright) 0 s.bright
    ({ s with bright := r.1 }, r.2)
  else (s, .ok [])

/-- The derivatives with respect to the proper motion, motion.py 202-208. -/
noncomputable def movePm (S : Sky) (W : MovingWorld M K) (mask : Option K) (patch0 : Option M) (counts0 : ℝ) (s : Moving) :
    Moving × Except PyErr (List (Option M)) :=
  if s.pmLiquid then
    let r := stepEach (fun st t => moveDeriv S W mask patch0 counts0 st { s with pm := asList t s.pm })
      (getStepSizes (.plist s.pm)) (getParams (.plist s.pm)) 0 (.plist s.pm)
    ({ s with pm := asList r.1 s.pm }, r.2)
  else (s, .ok [])

/-- The derivative with respect to the parallax, motion.py 211-212. -/
noncomputable def movePar (S : Sky) (W : MovingWorld M K) (mask : Option K) (patch0 : Option M) (counts0 : ℝ) (s : Moving) :
    Moving × Except PyErr (List (Option M)) :=
  if s.parLiquid then
    let r := stepEach (fun st t => moveDeriv S W mask patch0 counts0 st { s with par := asScalar t s.par })
      (getStepSizes (.scalar s.par)) (getParams (.scalar s.par)) 0 (.scalar s.par)
    ({ s with par := asScalar r.1 s.par }, r.2)
  else (s, .ok [])

/-- One part of the list of derivatives after another, stopping at the first error. -/
def andThen (r : Moving × Except PyErr (List (Option M))) (f : Moving → Moving × Except PyErr (List (Option M))) :
    Moving × Except PyErr (List (Option M)) :=
  match r with
  | (s, .error e) => (s, .error e)
  | (s, .ok l) => ((f s).1, (f s).2.map (l ++ ·))

/-- `MovingPointSource.getParamDerivatives`, motion.py 125-214.  `stepEach` puts the old value back before the stepped rendering is
compared; positions and pixels cannot fail here once the first did not. -/
noncomputable def movingDerivs (S : Sky) (W : MovingWorld M K) (mask : Option K) (s : Moving) :
    Moving × Except PyErr (List (Option M)) :=
  match movingUnit S W 0 mask s with
  | .error e => (s, .error e)
  | .ok patch0 =>
    let counts0 := W.counts s.bright
    andThen (movePos S W mask patch0 counts0 s) (fun s => andThen (moveBrights W patch0 counts0 s) (fun s =>
      andThen (movePm S W mask patch0 counts0 s) (fun s => movePar S W mask patch0 counts0 s)))

end Verif.Src
