import Verif.Src.MovingLemmas
import Verif.Params.Lemmas3

/-!
# C116: moving point sources

`MovingPointSource.getPositionAtTime` moves the source uniformly from its position at the epoch and displaces it by the parallax;
`getParamDerivatives` gives the difference quotients of the model image at the time of the image, and leaves the source as it was.
-/

namespace Verif.Src

open Verif Verif.Params

variable {M K : Type} [AddCommGroup M] [Module ℝ M]

/-- C116: where the source is at time `t`, for an epoch given as a number or as a time, whatever is frozen. -/
theorem C116_position (S : Sky) (s : Moving) (t : Scalar ℝ) (epoch : ℝ) (pos pm : ℝ × ℝ) (he : HasEpoch s.epoch epoch)
    (hp : HasPair s.pos pos) (hm : HasPair s.pm pm) :
    positionAt S s t = .ok (place S epoch pos pm s.par.val t.val) :=
  positionAt_ok S s t epoch pos pm he hp hm

/-- C116: without parallax, and where the conversion of coordinates can be undone, the source moves uniformly; at the epoch it is at its
position. -/
theorem C116_uniform (S : Sky) (s : Moving) (t : Scalar ℝ) (epoch : ℝ) (pos pm : ℝ × ℝ) (he : HasEpoch s.epoch epoch)
    (hp : HasPair s.pos pos) (hm : HasPair s.pm pm) (h0 : s.par.val = 0)
    (hback : ∀ r d, (r, d) = pos + ((t.val - epoch) / yearSeconds) • pm → S.toRaDec (S.toXyz r d) = (r, d)) :
    positionAt S s t = .ok (pos + ((t.val - epoch) / yearSeconds) • pm) ∧
      (t.val = epoch → positionAt S s t = .ok pos) := by
  have h : positionAt S s t = .ok (pos + ((t.val - epoch) / yearSeconds) • pm) := by
    rw [C116_position S s t epoch pos pm he hp hm, h0]
    simp only [place, zero_div, zero_smul, add_zero]
    exact congrArg Except.ok (hback _ _ rfl)
  refine ⟨h, fun ht => ?_⟩
  rw [h, ht, sub_self, zero_div, zero_smul, add_zero]

/-- C116: the parallax displaces the direction by a vector of length `parallax / arcsecperrad`, at all times the same, in the plane of the
ecliptic: orthogonal to the direction with right ascension 270 degrees and declination 90 degrees minus the axis tilt. -/
theorem C116_displacement (S : Sky) (hS : S.toXyz = unitVector) (t : ℝ) :
    dot (parallaxStep S t) (parallaxStep S t) = (1 / S.arcsecperrad) ^ 2 ∧
      dot (parallaxStep S t) (unitVector 270 (90 - S.axistilt)) = 0 := by
  have e1 : unitVector 0 0 = (1, 0, 0) := by simp [unitVector]
  have h90 : (90 : ℝ) * Real.pi / 180 = Real.pi / 2 := by ring
  have e2 : unitVector 90 S.axistilt = (0, Real.cos (S.axistilt * Real.pi / 180), Real.sin (S.axistilt * Real.pi / 180)) := by
    simp [unitVector, h90]
  have h270 : (270 : ℝ) * Real.pi / 180 = Real.pi + Real.pi / 2 := by ring
  have hm : (90 - S.axistilt) * Real.pi / 180 = Real.pi / 2 - S.axistilt * Real.pi / 180 := by ring
  have e3 : unitVector 270 (90 - S.axistilt) =
      (0, -Real.sin (S.axistilt * Real.pi / 180), Real.cos (S.axistilt * Real.pi / 180)) := by
    simp only [unitVector, h270, hm, Real.cos_pi_div_two_sub, Real.sin_pi_div_two_sub]
    rw [add_comm Real.pi, Real.cos_add_pi, Real.sin_add_pi, Real.cos_pi_div_two, Real.sin_pi_div_two]
    simp
  have hc := Real.cos_sq_add_sin_sq (S.axistilt * Real.pi / 180)
  have hp := Real.cos_sq_add_sin_sq (phase t)
  rw [parallaxStep_eq, hS, e1, e2, e3]
  generalize Real.cos (S.axistilt * Real.pi / 180) = c at *
  generalize Real.sin (S.axistilt * Real.pi / 180) = d at *
  generalize Real.cos (phase t) = x at *
  generalize Real.sin (phase t) = y at *
  simp only [dot, Prod.smul_fst, Prod.smul_snd, Prod.fst_add, Prod.snd_add, smul_eq_mul, mul_one, mul_zero, add_zero, zero_add]
  constructor
  · linear_combination (1 / S.arcsecperrad) ^ 2 * y ^ 2 * hc + (1 / S.arcsecperrad) ^ 2 * hp
  · ring

/-- C116: a source without proper motion is back after a (Julian) year. -/
theorem C116_yearly (S : Sky) (s : Moving) (t t' : Scalar ℝ) (epoch : ℝ) (pos : ℝ × ℝ) (he : HasEpoch s.epoch epoch)
    (hp : HasPair s.pos pos) (hm : HasPair s.pm (0, 0)) (ht : t'.val = t.val + yearSeconds) :
    positionAt S s t' = positionAt S s t := by
  rw [C116_position S s t' epoch pos (0, 0) he hp hm, C116_position S s t epoch pos (0, 0) he hp hm]
  have hph : phase t'.val = phase t.val + 2 * Real.pi := by
    rw [ht]
    unfold phase yearSeconds
    ring
  simp only [place, mul_zero, add_zero, hph, Real.cos_add_two_pi, Real.sin_add_two_pi]

/-- C116: when the PSF renders at all positions, the list has one entry for each thawed parameter, the difference quotient of the model
image at the time of the image; the source is left as it was.
Missing: a position where nothing is rendered, for which the claim is false. -/
theorem C116_derivs_partial (S : Sky) (W : MovingWorld M K) (mask : Option K) (s : Moving) (t : Scalar ℝ) (ht : W.time = some t)
    (epoch : ℝ) (pos pm : ℝ × ℝ) (he : HasEpoch s.epoch epoch) (hp : HasPair s.pos pos) (hm : HasPair s.pm pm)
    (hr : ∀ p, (W.psf p 0 mask).isSome = true) (gp : s.posLiquid = true → GoodSteps (.plist s.pos))
    (gb : s.brightLiquid = true → GoodSteps s.bright) (gm : s.pmLiquid = true → GoodSteps (.plist s.pm))
    (ga : s.parLiquid = true → GoodSteps (.scalar s.par)) :
    ∃ ds, movingDerivs S W mask s = (s, .ok ds) ∧ ds.length = numberOfParams s.tree ∧
      ∀ k d, ds[k]? = some d → d.getD 0 = quotient (movingModel S W mask epoch t.val) s.tree k := by
  obtain ⟨ds, h1, h2, h3⟩ := moving_ok S W mask s t ht epoch pos pm he hp hm hr gp gb gm ga
  exact ⟨ds, h1, h2, h3⟩

/-- C116: the source is left as it was, also when an error is raised. -/
theorem C116_restored (S : Sky) (W : MovingWorld M K) (mask : Option K) (s : Moving) : (movingDerivs S W mask s).1 = s := by
  unfold movingDerivs
  split
  · rfl
  · exact andThen_fst _ _ s (movePos_fst ..) (andThen_fst _ _ s (moveBrights_fst ..) (andThen_fst _ _ s (movePm_fst ..) (movePar_fst ..)))

/-- C116 is false in general: other sources have None as derivatives where they do not render (C41), a moving source raises an error, for
every source whose first thawed part is its position or its brightness. -/
theorem C116_none_false (S : Sky) (W : MovingWorld M K) (mask : Option K) (s : Moving) (t : Scalar ℝ) (ht : W.time = some t)
    (epoch : ℝ) (pos pm : ℝ × ℝ) (he : HasEpoch s.epoch epoch) (hp : HasPair s.pos pos) (hm : HasPair s.pm pm)
    (hr : ∀ p, W.psf p 0 mask = none)
    (hl : (s.posLiquid = true ∧ GoodSteps (.plist s.pos) ∧ 0 < numberOfParams (.plist s.pos)) ∨
      (s.posLiquid = false ∧ s.brightLiquid = true ∧ GoodSteps s.bright ∧ 0 < numberOfParams s.bright)) :
    movingDerivs S W mask s = (s, .error .typeErr) := by
  have hfirst : ∀ (f : ℝ → Par ℝ → Except PyErr (Option M)) (q : Par ℝ), GoodSteps q → 0 < numberOfParams q →
      (∀ st (k : Int) v, st ≠ 0 → f st (setParam q k v).1 = .error .typeErr) →
      stepEach f (getStepSizes q) (getParams q) 0 q = (q, .error .typeErr) := by
    intro f q hg hn hf
    have hlen := getParams_length q
    obtain ⟨st, sts, hst⟩ : ∃ st sts, getStepSizes q = st :: sts := by
      cases h : getStepSizes q with
      | nil =>
        have := hg.1
        rw [h] at this
        simp only [List.length_nil] at this
        omega
      | cons a l => exact ⟨a, l, rfl⟩
    have h0 : st ≠ 0 := hg.2 st (by rw [hst]; simp)
    have hv : (getParams q)[0]? = some ((getParams q)[0]'(by omega)) := List.getElem?_eq_getElem _
    generalize (getParams q)[0]'(by omega) = v at hv
    obtain ⟨old, -, hok, -, hback⟩ := setParam_ok q 0 (v + st) hn
    have e1 : setParam q ((0 : Nat) : Int) (v + st) = ((setParam q ((0 : Nat) : Int) (v + st)).1, .ok old) := Prod.ext rfl hok
    rw [hst, stepEach, hv]
    simp only []
    rw [e1]
    simp only []
    rw [hback]
    simp only [hf st _ _ h0]
  have hu := movingUnit_ok S W 0 mask s t ht epoch pos pm he hp hm
  rw [hr] at hu
  obtain ⟨a, b, h1, -, -⟩ := id hp
  unfold movingDerivs
  rw [hu]
  simp only
  rcases hl with ⟨hl, hg, hn⟩ | ⟨hl, hl2, hg, hn⟩
  · have : movePos S W mask none (W.counts s.bright) s = (s, .error .typeErr) := by
      unfold movePos
      rw [if_pos hl, hfirst _ _ hg hn (by
        intro st k v _
        obtain ⟨l, a', b', q1, q2⟩ := setParam_pair s.pos a b h1 k v
        rw [q1]
        have hl' : asList (Par.plist l) s.pos = l := rfl
        unfold moveDeriv
        rw [hl', movingUnit_ok S W 0 mask { s with pos := l } t ht epoch (a'.val, b'.val) pm he ⟨a', b', q2, rfl, rfl⟩ hm, hr]
        rfl)]
      rfl
    rw [this]
    rfl
  · have h0 : movePos S W mask none (W.counts s.bright) s = (s, .ok []) := by
      unfold movePos
      rw [if_neg (by rw [hl]; decide)]
    have : moveBrights W none (W.counts s.bright) s = (s, .error .typeErr) := by
      unfold moveBrights
      rw [if_pos hl2, hfirst _ _ hg hn (by
        intro st k v hst
        simp only [moveBright, pyDiv, if_neg hst])]
    rw [h0]
    simp only [andThen, this]
    rfl

/-- C116: in an image without a time there are neither a model nor derivatives: TypeError. -/
theorem C116_no_time (S : Sky) (W : MovingWorld M K) (ht : W.time = none) (mv : ℝ) (mask : Option K) (s : Moving) :
    movingUnit S W mv mask s = .error .typeErr ∧ movingDerivs S W mask s = (s, .error .typeErr) := by
  have h : ∀ mv, movingUnit S W mv mask s = .error .typeErr := by
    intro mv
    unfold movingUnit
    rw [ht]
  exact ⟨h mv, by unfold movingDerivs; rw [h]⟩

/-- C116 is false of copies: no moving source can be copied, whatever its parameters. -/
theorem C116_copy_false (s : Moving) : s.copy = .error .attribute := by
  unfold Moving.copy
  by_cases h : NoMissing s.bright
  · obtain ⟨b, hb, -⟩ := copy_ok s.bright h
    rw [hb]
  · rw [copy_err s.bright h]

/-- C116: times.  A time made from an MJD gives it back; J2000 (MJD 51544.5) is the year 2000, and years have 365.25 days of 86400
seconds. -/
theorem C116_years (m t : ℝ) : (taiTime none (some m)).map toMjd = some m ∧
    (taiTime none (some 51544.5)).map toYear = some 2000 ∧ toYear (t + yearSeconds) = toYear t + 1 ∧ toYears 0 = 0 ∧
    toMjd (t + 86400) = toMjd t + 1 := by
  refine ⟨?_, ?_, ?_, ?_, ?_⟩
  · simp only [taiTime, Option.map_some, toMjd]
    congr 1
    ring
  · simp only [taiTime, Option.map_some, toYear]
    norm_num
  · simp only [toYear, toYears_eq, yearSeconds]
    ring
  · simp [toYears]
  · simp only [toMjd]
    ring

/-- C116: the prior is minus infinity exactly for the illegal parallaxes, and falls from plus infinity, at a parallax of zero, as
-4 log p.  So it is not a prior with a maximum: zero parallax is legal and beats every finite likelihood. -/
theorem C116_prior_false : (∀ p, parallaxLogPrior p = .ninf ↔ parallaxLegal p = false) ∧
    parallaxLogPrior 0 = .pinf ∧ parallaxLegal 0 = true ∧
    (∀ p q, 0 < p → p < q → ∃ a b, parallaxLogPrior p = .fin a ∧ parallaxLogPrior q = .fin b ∧ b < a) := by
  refine ⟨fun p => ?_, ?_, ?_, fun p q hp hq => ?_⟩
  · unfold parallaxLogPrior parallaxLegal
    by_cases h : p < 0
    · simp [h]
    · by_cases h0 : p = 0 <;> simp [h, h0, not_lt.mp h]
  · simp [parallaxLogPrior]
  · simp [parallaxLegal]
  · refine ⟨_, _, by rw [parallaxLogPrior, if_neg (by linarith), if_neg (by linarith)],
      by rw [parallaxLogPrior, if_neg (by linarith), if_neg (by linarith)], ?_⟩
    have := Real.log_lt_log hp hq
    linarith

/-! ### Examples -/

/-- A position in degrees, or a motion in degrees per year, with step sizes. -/
noncomputable def exPair (x y h : ℝ) : PList ℝ :=
  ⟨[⟨["ra"], true, x⟩, ⟨["dec"], true, y⟩], [none, none], [none, none], [none, none], some [h, h], []⟩

/-- A star at (10, 20) at the equinox of 2004, moving by (1/1000, -1/2000) degrees a year. -/
noncomputable def exMoving (par : ℝ) : Moving :=
  ⟨true, exPair 10 20 (1 / 10000), true, .scalar ⟨"Flux", 7, none, none, none, 1, none⟩, true, exPair (1 / 1000) (-1 / 2000) (1 / 1000000),
    true, mkParallax par, .obj (.scalar ⟨"TAITime", 53084.28 * 86400, none, none, none, 1, none⟩)⟩

/-- Coordinates that are projected instead of converted. -/
noncomputable def exSky : Sky := ⟨fun r d => (r, d, 0), fun v => (v.1, v.2.1), 200000, 23⟩

theorem exPair_has (x y h : ℝ) : HasPair (exPair x y h) (x, y) := ⟨_, _, rfl, rfl, rfl⟩

theorem exMoving_epoch (p : ℝ) : HasEpoch (exMoving p).epoch (53084.28 * 86400) := .inr ⟨_, rfl, rfl⟩

/-- Two years later the star without parallax has moved by twice its motion. -/
example (t : Scalar ℝ) (ht : t.val = 53084.28 * 86400 + 2 * yearSeconds) :
    positionAt exSky (exMoving 0) t = .ok (10 + 2 / 1000, 20 - 2 / 2000) := by
  have h := (C116_uniform exSky (exMoving 0) t _ (10, 20) (1 / 1000, -1 / 2000) (exMoving_epoch 0) (exPair_has ..) (exPair_has ..) rfl
    (fun r d _ => rfl)).1
  rw [h, ht]
  congr 1
  ext <;> simp [yearSeconds] <;> norm_num

/-- At the equinox the star with a parallax is displaced along the first axis. -/
example (t : Scalar ℝ) (ht : t.val = 53084.28 * 86400) :
    positionAt ⟨unitVector, fun v => (v.1, v.2.2), 200000, 23⟩ (exMoving 3) t = .ok
      ((unitVector 10 20).1 + 3 / 200000, (unitVector 10 20).2.2) := by
  rw [C116_position _ _ t _ (10, 20) (1 / 1000, -1 / 2000) (exMoving_epoch 3) (exPair_has ..) (exPair_has ..)]
  have hp : phase (53084.28 * 86400) = 0 := by unfold phase; simp
  have e1 : unitVector 0 0 = (1, 0, 0) := by simp [unitVector]
  simp only [place, hp, ht, Real.cos_zero, Real.sin_zero, sub_self, zero_div, zero_mul, add_zero, e1, one_smul, zero_smul, exMoving,
    mkParallax, Prod.fst_add, Prod.snd_add, Prod.smul_mk, smul_eq_mul, mul_one, mul_zero]

/-- An image taken two years later, with a PSF that is as bright as the sum of the coordinates, wherever `seen`. -/
noncomputable def exMovingWorld (seen : Bool) : MovingWorld ℝ Unit :=
  ⟨fun b => (getParams b).sum, some ⟨"TAITime", 53084.28 * 86400 + 2 * yearSeconds, none, none, none, 1, none⟩, id,
    fun p _ _ => if seen then some (p.1 + p.2) else none⟩

/-- The derivatives exist, one for each of the six parameters. -/
example : ∃ ds, movingDerivs exSky (exMovingWorld true) none (exMoving 3) = (exMoving 3, .ok ds) ∧ ds.length = 6 := by
  obtain ⟨ds, h1, h2, -⟩ := C116_derivs_partial exSky (exMovingWorld true) none (exMoving 3) _ rfl _ (10, 20) (1 / 1000, -1 / 2000)
    (exMoving_epoch 3) (exPair_has ..) (exPair_has ..) (fun _ => rfl)
    (fun _ => ⟨rfl, by simp [getStepSizes, exMoving, exPair, allSteps, liquidArray, flags]⟩)
    (fun _ => ⟨rfl, by simp [getStepSizes, exMoving]⟩)
    (fun _ => ⟨rfl, by simp [getStepSizes, exMoving, exPair, allSteps, liquidArray, flags]⟩)
    (fun _ => ⟨rfl, by simp [getStepSizes, exMoving, mkParallax]⟩)
  exact ⟨ds, h1, h2⟩

/-- When nothing is rendered there is an error. -/
example : movingDerivs exSky (exMovingWorld false) none (exMoving 3) = (exMoving 3, .error .typeErr) :=
  C116_none_false exSky (exMovingWorld false) none (exMoving 3) _ rfl _ (10, 20) (1 / 1000, -1 / 2000)
    (exMoving_epoch 3) (exPair_has ..) (exPair_has ..) (fun _ => rfl)
    (.inl ⟨rfl, ⟨rfl, by simp [getStepSizes, exMoving, exPair, allSteps, liquidArray, flags]⟩, by decide⟩)

/-- Half a year after the equinox the parallax has the other sign. -/
example : dot (parallaxStep ⟨unitVector, fun v => (v.1, v.2.2), 2, 23⟩ (53084.28 * 86400 + yearSeconds / 2)) (1, 0, 0) = -1 / 2 := by
  have hp : phase (53084.28 * 86400 + yearSeconds / 2) = Real.pi := by
    unfold phase yearSeconds
    ring
  rw [parallaxStep_eq, hp]
  simp [dot, unitVector]
  norm_num

end Verif.Src
