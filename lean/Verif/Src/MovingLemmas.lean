import Verif.Src.MovingSpec
import Verif.Src.Lemmas2
import Mathlib.Tactic.Ring
import Mathlib.Tactic.Linarith
import Mathlib.Tactic.NormNum
import Mathlib.Tactic.FieldSimp
import Mathlib.Analysis.Complex.Trigonometric

/-! Helper lemmas for moving sources. -/

namespace Verif.Src

open Verif Verif.Params

variable {R M K : Type}

section
variable [Field R] [LinearOrder R] [AddCommGroup M] [Module R M]

omit [LinearOrder R] in
/-- The object is put back whatever happens. -/
theorem stepEach_fst {β : Type} (f : R → Par R → Except PyErr β) (t : Par R) :
    ∀ (sts : List R) (i : Nat), (stepEach f sts (getParams t) i t).1 = t := by
  intro sts
  induction sts with
  | nil => intro i; rfl
  | cons st sts ih =>
    intro i
    have hlen := getParams_length t
    rw [stepEach]
    cases hv : (getParams t)[i]? with
    | none => rfl
    | some v =>
      have hi : i < numberOfParams t := by
        have := (List.getElem?_eq_some_iff.mp hv).1
        omega
      obtain ⟨old, hold, hok, -, hback⟩ := setParam_ok t i (v + st) hi
      have e1 : setParam t (i : Int) (v + st) = ((setParam t (i : Int) (v + st)).1, .ok old) := Prod.ext rfl hok
      simp only []
      rw [e1]
      simp only []
      rw [hback]
      simp only []
      split
      · rfl
      · exact ih (i + 1)

omit [LinearOrder R] in
theorem stepEach_ok_of {β : Type} (f : R → Par R → Except PyErr β) (t : Par R)
    (hf : ∀ st (k : Int) v, st ≠ 0 → ∃ b, f st (setParam t k v).1 = .ok b) :
    ∀ (sts : List R) (i : Nat), i + sts.length ≤ numberOfParams t → (∀ s ∈ sts, s ≠ 0) →
    ∃ L, stepEach f sts (getParams t) i t = (t, .ok L) ∧ L.length = sts.length ∧
      ∀ (j : Nat) (b : β), L[j]? = some b → ∃ st v, sts[j]? = some st ∧ (getParams t)[i + j]? = some v ∧
        f st (setParam t ((i + j : Nat) : Int) (v + st)).1 = .ok b := by
  intro sts
  induction sts with
  | nil => intro i _ _; exact ⟨[], rfl, rfl, by simp⟩
  | cons st sts ih =>
    intro i hi hs
    simp only [List.length_cons] at hi
    have hlen := getParams_length t
    have hv : (getParams t)[i]? = some ((getParams t)[i]'(by omega)) := List.getElem?_eq_getElem _
    generalize (getParams t)[i]'(by omega) = v at hv
    obtain ⟨old, hold, hok, -, hback⟩ := setParam_ok t i (v + st) (by omega)
    have e1 : setParam t (i : Int) (v + st) = ((setParam t (i : Int) (v + st)).1, .ok old) :=
      Prod.ext rfl hok
    obtain ⟨b, hb⟩ := hf st (i : Int) (v + st) (hs st (by simp))
    obtain ⟨L, hL, hlL, hLs⟩ := ih (i + 1) (by omega) (fun s h => hs s (by simp [h]))
    refine ⟨b :: L, ?_, by simp [hlL], ?_⟩
    · rw [stepEach, hv]
      simp only []
      rw [e1]
      simp only []
      rw [hback]
      simp only [hb, hL]
      rfl
    · intro j c hj
      cases j with
      | zero =>
        simp only [List.getElem?_cons_zero, Option.some.injEq] at hj
        subst hj
        exact ⟨st, v, rfl, hv, hb⟩
      | succ j =>
        simp only [List.getElem?_cons_succ] at hj
        obtain ⟨st', v', h1, h2, h3⟩ := hLs j c hj
        refine ⟨st', v', by simpa using h1, ?_, ?_⟩
        · rw [← h2]; congr 1; omega
        · rw [← h3]; congr 4; omega

omit [LinearOrder R] in
theorem stepEach_aligned_of (f : R → Par R → Except PyErr (Option M)) (t : Par R) (model : Par R → M) (hg : GoodSteps t)
    (hf : ∀ st (k : Int) v, st ≠ 0 → ∃ b, f st (setParam t k v).1 = .ok b ∧
      b.getD 0 = st⁻¹ • (model (setParam t k v).1 - model t)) :
    ∃ L, stepEach f (getStepSizes t) (getParams t) 0 t = (t, .ok L) ∧ Aligned (numberOfParams t) (quotient model t) L := by
  obtain ⟨L, hL, hl, hLs⟩ := stepEach_ok_of f t (fun st k v h => (hf st k v h).imp fun _ => And.left)
    (getStepSizes t) 0 (by rw [hg.1]; omega) hg.2
  refine ⟨L, hL, by rw [hl, hg.1], fun k d hd => ?_⟩
  obtain ⟨st, v, h1, h2, h3⟩ := hLs k d hd
  rw [Nat.zero_add] at h2 h3
  obtain ⟨b, hb, hq⟩ := hf st (k : Int) (v + st) (hg.2 st (List.mem_of_getElem? h1))
  rw [hb] at h3
  cases h3
  rw [quotient, h1, h2]
  exact hq

end

/-! ### Times and places -/

theorem toYears_eq (t : ℝ) : toYears t = t / yearSeconds := by
  unfold toYears daysPerYear yearSeconds
  norm_num

theorem phase_eq (t : ℝ) : 2 * Real.pi * (toMjd t - 5308428 / 100) / daysPerYear = phase t := by
  unfold toMjd daysPerYear phase yearSeconds
  ring

theorem fmod_int (x y : ℝ) : ∃ n : ℤ, fmod x y = x - n * y := by
  unfold fmod
  exact ⟨if 0 ≤ x / y then ⌊x / y⌋ else ⌈x / y⌉, by rw [mul_comm]⟩

theorem sunTheta_cos (t : ℝ) : Real.cos (sunTheta t) = Real.cos (phase t) := by
  unfold sunTheta
  rw [phase_eq]
  obtain ⟨n, hn⟩ := fmod_int (phase t) (2 * Real.pi)
  rw [hn, Real.cos_sub_int_mul_two_pi]

theorem sunTheta_sin (t : ℝ) : Real.sin (sunTheta t) = Real.sin (phase t) := by
  unfold sunTheta
  rw [phase_eq]
  obtain ⟨n, hn⟩ := fmod_int (phase t) (2 * Real.pi)
  rw [hn, Real.sin_sub_int_mul_two_pi]

theorem parallaxStep_eq (S : Sky) (t : ℝ) : parallaxStep S t = (1 / S.arcsecperrad) •
    (Real.cos (phase t) • S.toXyz 0 0 + Real.sin (phase t) • S.toXyz 90 S.axistilt) := by
  simp only [parallaxStep]
  rw [sunTheta_cos, sunTheta_sin, smul_add]
  congr 1 <;> rw [smul_comm]

theorem elapsed_ok (s : Moving) (t : Scalar ℝ) (e : ℝ) (he : HasEpoch s.epoch e) :
    elapsed s t = .ok ((t.val - e) / yearSeconds) := by
  unfold elapsed
  rcases he with he | ⟨x, he, hx⟩ <;> rw [he]
  · simp [binop, Params.copy, opVector, getAllParams, setAllParams, toYears_eq]
  · simp [binop, Params.copy, opVector, getAllParams, setAllParams, toYears_eq, hx]

theorem positionAt_ok (S : Sky) (s : Moving) (t : Scalar ℝ) (e : ℝ) (pos pm : ℝ × ℝ) (he : HasEpoch s.epoch e)
    (hp : HasPair s.pos pos) (hm : HasPair s.pm pm) :
    positionAt S s t = .ok (place S e pos pm s.par.val t.val) := by
  obtain ⟨a, b, h1, h2, h3⟩ := hp
  obtain ⟨c, d, g1, g2, g3⟩ := hm
  unfold positionAt
  rw [elapsed_ok s t e he]
  simp only [binop, Params.copy, copyPList, mkPList, h1, g1, flags, opVector, getAllParams, vals, setAllParams, setAllSlots, List.map_cons,
    List.map_nil, List.zipWith_cons_cons, List.zipWith_nil_left, h2, h3, g2, g3, place, parallaxStep_eq, smul_smul]
  congr 3
  · congr 1 <;> ring
  · ring_nf

/-! ### Derivatives -/

variable [AddCommGroup M] [Module ℝ M]

theorem setParam_pair (p : PList ℝ) (a b : Slot ℝ) (hp : p.slots = [a, b]) (k : Int) (v : ℝ) :
    ∃ l a' b', (setParam (.plist p) k v).1 = .plist l ∧ l.slots = [a', b'] := by
  simp only [setParam]
  split
  · exact ⟨p, a, b, rfl, hp⟩
  · rename_i ii _
    split
    · exact ⟨p, a, b, rfl, hp⟩
    · rename_i s _
      rcases ii with _ | _ | ii
      · exact ⟨_, _, _, rfl, by rw [hp]; rfl⟩
      · exact ⟨_, _, _, rfl, by rw [hp]; rfl⟩
      · exact ⟨_, a, b, rfl, by rw [hp]; simp⟩

theorem setParam_scalar (p : Scalar ℝ) (k : Int) (v : ℝ) : ∃ l, (setParam (.scalar p) k v).1 = .scalar l := by
  simp only [setParam]
  split <;> exact ⟨_, rfl⟩

omit [AddCommGroup M] [Module ℝ M] in
theorem movingUnit_ok (S : Sky) (W : MovingWorld M K) (mv : ℝ) (mask : Option K) (s : Moving) (t : Scalar ℝ) (ht : W.time = some t) (e : ℝ)
    (pos pm : ℝ × ℝ) (he : HasEpoch s.epoch e) (hp : HasPair s.pos pos) (hm : HasPair s.pm pm) :
    movingUnit S W mv mask s = .ok (W.psf (W.pix (place S e pos pm s.par.val t.val)) mv mask) := by
  unfold movingUnit
  rw [ht]
  simp only [positionAt_ok S s t e pos pm he hp hm]

theorem moveDeriv_ok (S : Sky) (W : MovingWorld M K) (mask : Option K) (s : Moving) (t : Scalar ℝ) (ht : W.time = some t) (e : ℝ)
    (pos pm : ℝ × ℝ) (he : HasEpoch s.epoch e) (hp : HasPair s.pos pos) (hm : HasPair s.pm pm)
    (hr : ∀ p, (W.psf p 0 mask).isSome = true) (p0 : M) (counts st : ℝ) (hst : st ≠ 0) :
    ∃ b, moveDeriv S W mask (some p0) counts st s = .ok b ∧ b.getD 0 = st⁻¹ •
      (counts • (W.psf (W.pix (place S e pos pm s.par.val t.val)) 0 mask).getD 0 - counts • p0) := by
  unfold moveDeriv
  rw [movingUnit_ok S W 0 mask s t ht e pos pm he hp hm]
  obtain ⟨px, hpx⟩ := Option.isSome_iff_exists.mp (hr (W.pix (place S e pos pm s.par.val t.val)))
  simp only [hpx, patchQuotient, pyDiv, if_neg hst, Except.map]
  refine ⟨_, rfl, ?_⟩
  rw [Option.getD_some, Option.getD_some, ← smul_sub, smul_smul, div_eq_mul_inv, mul_comm]

theorem moveBright_ok (counts : Par ℝ → ℝ) (p0 : M) (b : Par ℝ) (hg : GoodSteps b) :
    ∃ L, stepEach (moveBright counts (some p0) (counts b)) (getStepSizes b) (getParams b) 0 b = (b, .ok L) ∧
      Aligned (numberOfParams b) (quotient (fun b' => counts b' • p0) b) L := by
  apply stepEach_aligned_of _ b _ hg
  intro st k v hst
  simp only [moveBright, pyDiv, if_neg hst]
  refine ⟨_, rfl, ?_⟩
  rw [Option.getD_some, ← sub_smul, smul_smul, div_eq_mul_inv, mul_comm]

theorem quotient_of_eq (f g : Par ℝ → M) (t : Par ℝ) (hk : ∀ (k : Int) v, f (setParam t k v).1 = g (setParam t k v).1) (h0 : f t = g t)
    (k : Nat) : quotient f t k = quotient g t k := by
  simp only [quotient]
  split
  · rw [hk, h0]
  · rfl

omit [Module ℝ M] in
theorem aligned_rule {n : Nat} {f g : Nat → M} {L : List (Option M)} (h : Aligned n f L) (hfg : ∀ k, f k = g k) : Aligned n g L :=
  ⟨h.1, fun k d hd => by rw [← hfg]; exact h.2 k d hd⟩

theorem movePos_fst (S : Sky) (W : MovingWorld M K) (mask : Option K) (p0 : Option M) (c : ℝ) (s : Moving) :
    (movePos S W mask p0 c s).1 = s := by
  unfold movePos
  split
  · simp only [stepEach_fst]
    rfl
  · rfl

theorem moveBrights_fst (W : MovingWorld M K) (p0 : Option M) (c : ℝ) (s : Moving) : (moveBrights W p0 c s).1 = s := by
  unfold moveBrights
  split
  · simp only [stepEach_fst]
  · rfl

theorem movePm_fst (S : Sky) (W : MovingWorld M K) (mask : Option K) (p0 : Option M) (c : ℝ) (s : Moving) :
    (movePm S W mask p0 c s).1 = s := by
  unfold movePm
  split
  · simp only [stepEach_fst]
    rfl
  · rfl

theorem movePar_fst (S : Sky) (W : MovingWorld M K) (mask : Option K) (p0 : Option M) (c : ℝ) (s : Moving) :
    (movePar S W mask p0 c s).1 = s := by
  unfold movePar
  split
  · simp only [stepEach_fst]
    rfl
  · rfl

omit [AddCommGroup M] [Module ℝ M] in
theorem andThen_fst (r : Moving × Except PyErr (List (Option M))) (f : Moving → Moving × Except PyErr (List (Option M))) (s : Moving)
    (h1 : r.1 = s) (h2 : (f s).1 = s) : (andThen r f).1 = s := by
  obtain ⟨x, r⟩ := r
  simp only at h1
  subst h1
  cases r with
  | error e => rfl
  | ok l => exact h2

omit [AddCommGroup M] [Module ℝ M] in
theorem andThen_ok (r : Moving × Except PyErr (List (Option M))) (f : Moving → Moving × Except PyErr (List (Option M))) (s : Moving)
    (A B : List (Option M)) (h1 : r = (s, .ok A)) (h2 : f s = (s, .ok B)) : andThen r f = (s, .ok (A ++ B)) := by
  subst h1
  simp only [andThen, h2, Except.map]

theorem moving_ok (S : Sky) (W : MovingWorld M K) (mask : Option K) (s : Moving) (t : Scalar ℝ) (ht : W.time = some t) (e : ℝ)
    (pos pm : ℝ × ℝ) (he : HasEpoch s.epoch e) (hp : HasPair s.pos pos) (hm : HasPair s.pm pm)
    (hr : ∀ p, (W.psf p 0 mask).isSome = true) (gp : s.posLiquid = true → GoodSteps (.plist s.pos))
    (gb : s.brightLiquid = true → GoodSteps s.bright) (gm : s.pmLiquid = true → GoodSteps (.plist s.pm))
    (ga : s.parLiquid = true → GoodSteps (.scalar s.par)) :
    ∃ ds, movingDerivs S W mask s = (s, .ok ds) ∧
      Aligned (numberOfParams s.tree) (quotient (movingModel S W mask e t.val) s.tree) ds := by
  obtain ⟨a, b, h1, h2, h3⟩ := id hp
  obtain ⟨c, d, g1, g2, g3⟩ := id hm
  obtain ⟨p0, hp0⟩ := Option.isSome_iff_exists.mp (hr (W.pix (place S e pos pm s.par.val t.val)))
  have hu := movingUnit_ok S W 0 mask s t ht e pos pm he hp hm
  rw [hp0] at hu
  have h2' : (a.val, b.val) = pos := Prod.ext h2 h3
  have g2' : (c.val, d.val) = pm := Prod.ext g2 g3
  set model := movingModel S W mask e t.val with hmodel
  -- position
  obtain ⟨A, hA, hA1, hA2⟩ : ∃ A, movePos S W mask (some p0) (W.counts s.bright) s = (s, .ok A) ∧
      (s.posLiquid = true → GoodSteps (.plist s.pos) ∧ Aligned (numberOfParams (.plist s.pos)) (quotient (fun x => model (.multi
        (.cons ["pos"] s.posLiquid x (.cons ["brightness"] s.brightLiquid s.bright (.cons ["pm"] s.pmLiquid (.plist s.pm)
          (.cons ["parallax"] s.parLiquid (.scalar s.par) .nil)))))) (.plist s.pos)) A) ∧
      (s.posLiquid = false → A = []) := by
    unfold movePos
    by_cases hl : s.posLiquid = true
    · rw [if_pos hl]
      obtain ⟨L, hL, hL2⟩ := stepEach_aligned_of
        (fun st x => moveDeriv S W mask (some p0) (W.counts s.bright) st { s with pos := asList x s.pos }) (.plist s.pos)
        (fun x => model (.multi
        (.cons ["pos"] s.posLiquid x (.cons ["brightness"] s.brightLiquid s.bright (.cons ["pm"] s.pmLiquid (.plist s.pm)
          (.cons ["parallax"] s.parLiquid (.scalar s.par) .nil)))))) (gp hl) (by
          intro st k v hst
          obtain ⟨l, a', b', q1, q2⟩ := setParam_pair s.pos a b h1 k v
          rw [q1]
          obtain ⟨x, hx1, hx2⟩ := moveDeriv_ok S W mask { s with pos := l } t ht e (a'.val, b'.val) pm he ⟨a', b', q2, rfl, rfl⟩ hm hr p0
            (W.counts s.bright) st hst
          refine ⟨x, hx1, ?_⟩
          rw [hx2, hmodel]
          simp only [movingModel, q2, h1, g1, h2', g2', hp0, Option.getD_some])
      refine ⟨L, ?_, fun _ => ⟨gp hl, hL2⟩, fun h => absurd hl (by rw [h]; decide)⟩
      simp only [hL]
      rfl
    · exact ⟨[], by rw [if_neg hl], fun h => absurd h hl, fun _ => rfl⟩
  -- brightness
  obtain ⟨B, hB, hB1, hB2⟩ : ∃ B, moveBrights W (some p0) (W.counts s.bright) s = (s, .ok B) ∧
      (s.brightLiquid = true → GoodSteps s.bright ∧ Aligned (numberOfParams s.bright) (quotient (fun x => model (.multi
        (.cons ["pos"] s.posLiquid (.plist s.pos) (.cons ["brightness"] s.brightLiquid x (.cons ["pm"] s.pmLiquid (.plist s.pm)
          (.cons ["parallax"] s.parLiquid (.scalar s.par) .nil)))))) s.bright) B) ∧
      (s.brightLiquid = false → B = []) := by
    unfold moveBrights
    by_cases hl : s.brightLiquid = true
    · rw [if_pos hl]
      obtain ⟨L, hL, hL2⟩ := moveBright_ok W.counts p0 s.bright (gb hl)
      refine ⟨L, by simp only [hL], fun _ => ⟨gb hl, ?_⟩, fun h => absurd hl (by rw [h]; decide)⟩
      have hf : (fun x => model (.multi (.cons ["pos"] s.posLiquid (.plist s.pos) (.cons ["brightness"] s.brightLiquid x
          (.cons ["pm"] s.pmLiquid (.plist s.pm) (.cons ["parallax"] s.parLiquid (.scalar s.par) .nil)))))) =
          (fun b' => W.counts b' • p0) := by
        funext x
        rw [hmodel]
        simp only [movingModel, h1, g1, h2', g2', hp0, Option.getD_some]
      rw [hf]
      exact hL2
    · exact ⟨[], by rw [if_neg hl], fun h => absurd h hl, fun _ => rfl⟩
  -- proper motion
  obtain ⟨C, hC, hC1, hC2⟩ : ∃ C, movePm S W mask (some p0) (W.counts s.bright) s = (s, .ok C) ∧
      (s.pmLiquid = true → GoodSteps (.plist s.pm) ∧ Aligned (numberOfParams (.plist s.pm)) (quotient (fun x => model (.multi
        (.cons ["pos"] s.posLiquid (.plist s.pos) (.cons ["brightness"] s.brightLiquid s.bright (.cons ["pm"] s.pmLiquid x
          (.cons ["parallax"] s.parLiquid (.scalar s.par) .nil)))))) (.plist s.pm)) C) ∧
      (s.pmLiquid = false → C = []) := by
    unfold movePm
    by_cases hl : s.pmLiquid = true
    · rw [if_pos hl]
      obtain ⟨L, hL, hL2⟩ := stepEach_aligned_of
        (fun st x => moveDeriv S W mask (some p0) (W.counts s.bright) st { s with pm := asList x s.pm }) (.plist s.pm)
        (fun x => model (.multi
        (.cons ["pos"] s.posLiquid (.plist s.pos) (.cons ["brightness"] s.brightLiquid s.bright (.cons ["pm"] s.pmLiquid x
          (.cons ["parallax"] s.parLiquid (.scalar s.par) .nil)))))) (gm hl) (by
          intro st k v hst
          obtain ⟨l, a', b', q1, q2⟩ := setParam_pair s.pm c d g1 k v
          rw [q1]
          obtain ⟨x, hx1, hx2⟩ := moveDeriv_ok S W mask { s with pm := l } t ht e pos (a'.val, b'.val) he hp ⟨a', b', q2, rfl, rfl⟩ hr p0
            (W.counts s.bright) st hst
          refine ⟨x, hx1, ?_⟩
          rw [hx2, hmodel]
          simp only [movingModel, q2, h1, g1, h2', g2', hp0, Option.getD_some])
      refine ⟨L, ?_, fun _ => ⟨gm hl, hL2⟩, fun h => absurd hl (by rw [h]; decide)⟩
      simp only [hL]
      rfl
    · exact ⟨[], by rw [if_neg hl], fun h => absurd h hl, fun _ => rfl⟩
  -- parallax
  obtain ⟨D, hD, hD1, hD2⟩ : ∃ D, movePar S W mask (some p0) (W.counts s.bright) s = (s, .ok D) ∧
      (s.parLiquid = true → GoodSteps (.scalar s.par) ∧ Aligned (numberOfParams (.scalar s.par)) (quotient (fun x => model (.multi
        (.cons ["pos"] s.posLiquid (.plist s.pos) (.cons ["brightness"] s.brightLiquid s.bright (.cons ["pm"] s.pmLiquid (.plist s.pm)
          (.cons ["parallax"] s.parLiquid x .nil)))))) (.scalar s.par)) D) ∧
      (s.parLiquid = false → D = []) := by
    unfold movePar
    by_cases hl : s.parLiquid = true
    · rw [if_pos hl]
      obtain ⟨L, hL, hL2⟩ := stepEach_aligned_of
        (fun st x => moveDeriv S W mask (some p0) (W.counts s.bright) st { s with par := asScalar x s.par }) (.scalar s.par)
        (fun x => model (.multi
        (.cons ["pos"] s.posLiquid (.plist s.pos) (.cons ["brightness"] s.brightLiquid s.bright (.cons ["pm"] s.pmLiquid (.plist s.pm)
          (.cons ["parallax"] s.parLiquid x .nil)))))) (ga hl) (by
          intro st k v hst
          obtain ⟨l, q1⟩ := setParam_scalar s.par k v
          rw [q1]
          obtain ⟨x, hx1, hx2⟩ := moveDeriv_ok S W mask { s with par := l } t ht e pos pm he hp hm hr p0 (W.counts s.bright) st hst
          refine ⟨x, hx1, ?_⟩
          rw [hx2, hmodel]
          simp only [movingModel, h1, g1, h2', g2', hp0, Option.getD_some])
      refine ⟨L, ?_, fun _ => ⟨ga hl, hL2⟩, fun h => absurd hl (by rw [h]; decide)⟩
      simp only [hL]
      rfl
    · exact ⟨[], by rw [if_neg hl], fun h => absurd h hl, fun _ => rfl⟩
  refine ⟨A ++ (B ++ (C ++ D)), ?_, ?_⟩
  · unfold movingDerivs
    rw [hu]
    exact andThen_ok _ _ s A _ hA (andThen_ok _ _ s B _ hB (andThen_ok _ _ s C _ hC hD))
  · have h := aligned_cons (fun x => model (.multi x)) ["pos"] s.posLiquid (.plist s.pos) _ A (B ++ (C ++ D)) hA1 hA2
      (aligned_cons _ ["brightness"] s.brightLiquid s.bright _ B (C ++ D) hB1 hB2
        (aligned_cons _ ["pm"] s.pmLiquid (.plist s.pm) _ C D hC1 hC2
          (by
            have := aligned_cons (fun r => model (.multi (.cons ["pos"] s.posLiquid (.plist s.pos) (.cons ["brightness"] s.brightLiquid
              s.bright (.cons ["pm"] s.pmLiquid (.plist s.pm) r))))) ["parallax"] s.parLiquid (.scalar s.par) .nil D [] hD1 hD2 (aligned_nil _)
            rwa [List.append_nil] at this)))
    exact aligned_rule h (fun k => (quotient_multi model _ k).symm)

end Verif.Src
