import Verif.Opt.Lemmas4
import Mathlib.Algebra.Order.Ring.Rat

/-!
# Properties of the line searches and optimizer loops (C33-C36, C63)
-/

namespace Verif.Opt

open Verif Verif.Params

variable {R : Type} [Field R] [LinearOrder R]

/-! Objects for the examples: two thawed parameters at 0, bounds [-1, 2] on the first, maximum step 3
on the second, over the rationals; objective functions including NaN. -/

private def t0 : Par ℚ :=
  .multi (.cons ["a"] true (.plist ⟨[⟨["x"], true, 0⟩, ⟨["y"], true, 0⟩], [some (-1), none],
    [some 2, none], [none, some 3], none, []⟩) .nil)

private def lp0 : Par ℚ → Num ℚ := fun t =>
  match getParams t with
  | [x, y] => if y < 5 then .fin (-(x - 1) * (x - 1) - (y - 1) * (y - 1)) else .nan
  | _ => .nan

private theorem t0_legal : Legal t0 := by
  have e1 : getParams t0 = [0, 0] := by decide +kernel
  have e2 : getLowerBounds t0 = [some (-1), none] := by decide +kernel
  have e3 : getUpperBounds t0 = [some 2, none] := by decide +kernel
  have e4 : getMaxStep t0 = [none, some 3] := by decide +kernel
  refine ⟨by decide, by decide, by decide, ?_, ?_⟩
  · rw [e1, e2, e3]
    intro i p l u h1 h2 h3
    match i with
    | 0 | 1 =>
      simp only [List.getElem?_cons_zero, List.getElem?_cons_succ, Option.some.injEq] at h1 h2 h3
      subst h1 h2 h3
      constructor <;> intro b hb <;> simp at hb <;> subst hb <;> decide +kernel
    | i + 2 => simp at h1
  · rw [e4]
    intro m hm x hx
    subst hx
    simp at hm
    subst hm
    decide +kernel

/-- C33.  `tryUpdates(tractor, X, alphas)` never raises, and either restores the tractor exactly and
returns (0, 0), or leaves it at `p0 + alpha X` for the returned alpha, which is one of those offered;
the log-probability there is finite and strictly larger than before, and the returned improvement is
the difference.  The final point is the best of all those tried, `pre`; the search was only cut short
by a non-finite value or by a drop of more than 1 below the best. -/
theorem C33_tryUpdates (lp : Par R → Num R) (t : Par R) (X alphas : List R)
    (hX : X.length = numberOfParams t) :
    ∃ (t' : Par R) (d : Num R) (a : R) (pre post : List R),
      tryUpdates lp t X alphas = (t', .ok (d, a)) ∧ alphas = pre ++ post ∧
      ((t' = t ∧ d = .fin 0 ∧ a = 0) ∨
        (a ∈ pre ∧ t' = moved t X a ∧ (lp t).lt (lp t') = true ∧ (lp t').isFinite = true ∧
          d = (lp t').sub (lp t))) ∧
      (∀ b ∈ pre, (lp (moved t X b)).isFinite = true ∧ (lp t').lt (lp (moved t X b)) = false) ∧
      (post = [] ∨ ∃ b post', post = b :: post' ∧ ((lp (moved t X b)).isFinite = false ∨
          (lp (moved t X b)).lt ((lp t').sub (.fin 1)) = true)) :=
  tryUpdates_ok lp t X alphas hX

/-- An accepted step (alpha 1/2), a step that is too far, then NaN at alpha 8, after which alpha 1 is
not reached. -/
example : (tryUpdates lp0 t0 [1, 1] [1/4, 1/2, 3/2, 8, 1]).2 = .ok (.fin (3/2), 1/2) ∧
    getParams (tryUpdates lp0 t0 [1, 1] [1/4, 1/2, 3/2, 8, 1]).1 = [1/2, 1/2] := by decide +kernel

/-- No step improves. -/
example : tryUpdates lp0 t0 [-1, -1] [1/4, 8, 1] = (t0, .ok (.fin 0, 0)) := by decide +kernel

omit [LinearOrder R] in
/-- C33, the moved parameters read back: the accepted vector is `p0 + alpha X` entry by entry. -/
theorem C33_moved (t : Par R) (X : List R) (a : R) (hX : X.length = numberOfParams t) (i : Nat) (p d : R)
    (hp : (getParams t)[i]? = some p) (hd : X[i]? = some d) :
    (getParams (moved t X a))[i]? = some (p + a * d) := by
  have hlen : (stepTo (getParams t) X a).length = numberOfParams t := by
    simp [stepTo, getParams_length, hX]
  have hg := (setParams_get t _ hlen).2
  have : getParams (moved t X a) = stepTo (getParams t) X a := hg
  rw [this]
  simp [stepTo, List.getElem?_zipWith, hp, hd]

example : getParams (moved t0 [1, -2] (1/2)) = [1/2, -1] := by decide +kernel

section ordered
variable [IsStrictOrderedRing R]

/-- C34.  `getParameterSteps` of the constrained optimizer, for a legal start: no exception; candidate
`k` belongs to the offered fraction `alphas[k]`; its own fraction is at least `tiny_alpha` and at most
the offered one; its parameter vector is `p0 + alpha X`, has one entry per parameter, and every entry
respects its bounds and differs from the start by at most the maximum step.  The fraction is the
largest admissible one up to the offered one, is the offered one if neither limit flag is set, and
smaller than it if the step was limited.
Offered fractions go unused only after a step-limited candidate or when no admissible fraction reaches
`tiny_alpha`. -/
theorem C34_getParameterSteps (tiny : R) (htiny : 0 < tiny) (t : Par R) (ht : Legal t)
    (X alphas : List R) (hX : X.length = numberOfParams t) (hinc : alphas.Pairwise (· < ·)) :
    ∃ b cs, getParameterSteps tiny t X alphas = (b, .ok cs) ∧ cs.length ≤ alphas.length ∧
      (∀ (k : Nat) (c : Cand R), cs[k]? = some c → ∃ a0, alphas[k]? = some a0 ∧
        tiny ≤ c.alpha ∧ c.alpha ≤ a0 ∧ c.p.length = numberOfParams t ∧
        (∀ (i : Nat) p d, (getParams t)[i]? = some p → X[i]? = some d →
          c.p[i]? = some (p + c.alpha * d)) ∧
        (∀ (i : Nat) x l u, c.p[i]? = some x → (getLowerBounds t)[i]? = some l →
          (getUpperBounds t)[i]? = some u → Within l u x) ∧
        (∀ (i : Nat) x p m, c.p[i]? = some x → (getParams t)[i]? = some p →
          (getMaxStep t)[i]? = some (some m) → |x - p| ≤ m) ∧
        (∀ a, c.alpha < a → a ≤ a0 →
          ¬ Feasible (getParams t) (getMaxStep t) (getLowerBounds t) (getUpperBounds t) X a) ∧
        (c.stepLimit = false → c.hitLimit = false → c.alpha = a0) ∧ (c.stepLimit = true → c.alpha < a0)) ∧
      (cs.length < alphas.length → (∃ c, cs.getLast? = some c ∧ c.stepLimit = true) ∨
        ∃ a0, alphas[cs.length]? = some a0 ∧ ∀ a, tiny ≤ a → a ≤ a0 →
          ¬ Feasible (getParams t) (getMaxStep t) (getLowerBounds t) (getUpperBounds t) X a) ∧
      (b = false → ∀ c ∈ cs, c.stepLimit = false) := by
  have hinc' : increasing alphas = true := by
    clear hX
    induction alphas with
    | nil => rfl
    | cons a as ih =>
      cases as with
      | nil => rfl
      | cons b bs =>
        rw [increasing, ih (List.pairwise_cons.1 hinc).2]
        simpa using (List.pairwise_cons.1 hinc).1 b (by simp)
  obtain ⟨b, cs, h1, h2, h3, h4, h5⟩ := getParameterSteps_ok tiny htiny t ht X alphas hX hinc'
  refine ⟨b, cs, h1, h2, ?_, h4, h5⟩
  intro k c hc
  obtain ⟨a0, g1, g2, g3, g4, g5, g6, g7⟩ := h3 k c hc
  have hval : ∀ (i : Nat) p d, (getParams t)[i]? = some p → X[i]? = some d →
      c.p[i]? = some (p + c.alpha * d) := by
    intro i p d hp hd
    rw [g4]
    simp [stepTo, List.getElem?_zipWith, hp, hd]
  have hlen : c.p.length = numberOfParams t := by rw [g4]; simp [stepTo, getParams_length, hX]
  have hget : ∀ (i : Nat) x, c.p[i]? = some x → ∃ p d, (getParams t)[i]? = some p ∧ X[i]? = some d ∧
      x = p + c.alpha * d := by
    intro i x hx
    have hi : i < numberOfParams t := by
      rw [← hlen]; exact (List.getElem?_eq_some_iff.1 hx).1
    have h1 : i < (getParams t).length := by rw [getParams_length]; exact hi
    have h2 : i < X.length := by rw [hX]; exact hi
    have e1 := List.getElem?_eq_getElem h1
    have e2 := List.getElem?_eq_getElem h2
    refine ⟨_, _, e1, e2, ?_⟩
    have := hval i _ _ e1 e2
    rw [hx] at this
    simpa using this
  refine ⟨a0, g1, g2, g3, hlen, hval, ?_, ?_, g6, g7⟩
  · intro i x l u hx hl hu
    obtain ⟨p, d, hp, hd, rfl⟩ := hget i x hx
    exact g5.2 i p l u d hp hl hu hd
  · intro i x p m hx hp hm
    obtain ⟨p', d, hp', hd, rfl⟩ := hget i x hx
    rw [hp] at hp'
    cases hp'
    rw [add_sub_cancel_left]
    exact g5.1 i m d hm hd

/-- Second fraction stopped by the bound on the first parameter; third by the maximum step on the
second, which ends the list. -/
example : getParameterSteps (1/100) t0 [4, 4] [1/4, 5/8, 2, 3] =
    (true, .ok [⟨1/4, [1, 1], false, false⟩, ⟨1/2, [2, 2], false, true⟩,
      ⟨1/2, [2, 2], true, true⟩]) := by decide +kernel

omit [IsStrictOrderedRing R] in
/-- C34.  Fractions that are not strictly increasing are refused with an AssertionError, whatever the
parameters. -/
theorem C34_not_increasing (tiny : R) (t : Par R) (X : List R) (pre post : List R) (a b : R)
    (hab : b ≤ a) :
    getParameterSteps tiny t X (pre ++ a :: b :: post) = (false, .error .assertion) := by
  have : increasing (pre ++ a :: b :: post) = false := by
    induction pre with
    | nil => simp [increasing, hab]
    | cons x xs ih =>
      cases xs with
      | nil =>
        have h := ih
        simp only [List.nil_append] at h
        show (_ && increasing (a :: b :: post)) = false
        rw [h, Bool.and_false]
      | cons y ys =>
        show (_ && increasing (y :: ys ++ a :: b :: post)) = false
        rw [ih, Bool.and_false]
  rw [getParameterSteps, if_neg (by rw [this]; simp)]

example : getParameterSteps (1/100) t0 [4, 4] ([1/4] ++ 1/2 :: 1/2 :: []) =
    (false, .error .assertion) := C34_not_increasing _ _ _ _ _ _ _ (le_refl _)

/-- C34 is false without a legal start: a parameter at 10 with upper bound 2 and maximum step 3; the
candidate for direction -4 moves it by 8. -/
theorem C34_start_outside :
    ∃ (t : Par ℚ) (c : Cand ℚ), getParams t = [10] ∧ getMaxStep t = [some 3] ∧
      getParameterSteps (1/100) t [-4] [1/2] = (false, .ok [c]) ∧ c.p = [2] :=
  ⟨.plist ⟨[⟨["x"], true, 10⟩], [none], [some 2], [some 3], none, []⟩, ⟨2, [2], false, true⟩, by decide +kernel, by decide +kernel,
    by decide +kernel, rfl⟩

/-- C35.  Constrained `tryUpdates` from a legal start: no exception; the tractor ends exactly where it
started (result (0, 0)) or at one of the visited candidates of `getParameterSteps`, with strictly
larger, finite log-probability; the reported improvement is the difference; no visited candidate
(`pre`) is better than the final point; the search ends early only at a non-finite value, a drop of
more than 1 or a rejection by `check_step`; and the final point is again legal. -/
theorem C35_tryUpdates (tiny : R) (htiny : 0 < tiny) (lp : Par R → Num R)
    (check : Option (Par R → R → Bool)) (fl : OptFlags) (t : Par R) (ht : Legal t)
    (X alphas : List R) (hX : X.length = numberOfParams t) (hinc : increasing alphas = true) :
    ∃ (t' : Par R) (fl' : OptFlags) (d : Num R) (a : R) (b : Bool) (pre post : List (Cand R)),
      tryUpdatesC tiny lp check fl t X alphas = (t', fl', .ok (d, a)) ∧
      getParameterSteps tiny t X alphas = (b, .ok (pre ++ post)) ∧
      ((t' = t ∧ d = .fin 0 ∧ a = 0) ∨
        (∃ c ∈ pre, a = c.alpha ∧ getParams t' = c.p) ∧ t' = moved t X a ∧
          (lp t).lt (lp t') = true ∧ (lp t').isFinite = true ∧ d = (lp t').sub (lp t)) ∧
      Legal t' ∧
      (∀ c ∈ pre, (lp (moved t X c.alpha)).isFinite = true ∧
          (lp t').lt (lp (moved t X c.alpha)) = false ∧
          ∀ f, check = some f → f (moved t X c.alpha) c.alpha = true) ∧
      (post = [] ∨ ∃ c post', post = c :: post' ∧
          ((lp (moved t X c.alpha)).isFinite = false ∨
           (lp (moved t X c.alpha)).lt ((lp t').sub (.fin 1)) = true ∨
           ∃ f, check = some f ∧ f (moved t X c.alpha) c.alpha = false)) := by
  obtain ⟨b, cs, g1, -, g3, -, -⟩ := getParameterSteps_ok tiny htiny t ht X alphas hX hinc
  have hcand : ∀ c ∈ cs, c.p = stepTo (getParams t) X c.alpha ∧
      Feasible (getParams t) (getMaxStep t) (getLowerBounds t) (getUpperBounds t) X c.alpha := by
    intro c hc
    obtain ⟨k, hk⟩ := List.mem_iff_getElem?.1 hc
    obtain ⟨a0, -, -, -, q1, q2, -⟩ := g3 k c hk
    exact ⟨q1, q2⟩
  have hlen : ∀ c ∈ cs, c.p.length = numberOfParams t := by
    intro c hc
    rw [(hcand c hc).1]
    simp [stepTo, getParams_length, hX]
  have hmv : ∀ c ∈ cs, withParams t c.p = moved t X c.alpha := by
    intro c hc
    rw [(hcand c hc).1]
    rfl
  obtain ⟨t', fl', d, a, pre, post, e1, e2, e3, e4, e5, -, -, -⟩ :=
    tryUpdatesC_ok tiny lp check fl t X alphas b cs g1 hlen
  have hpre : ∀ c ∈ pre, c ∈ cs := by intro c hc; rw [e2]; simp [hc]
  refine ⟨t', fl', d, a, b, pre, post, e1, by rw [g1, e2], ?_, ?_, ?_, ?_⟩
  · rcases e3 with h | ⟨c, hc, h0, h1, h2, h3, -⟩
    · exact .inl h
    · refine .inr ⟨⟨c, hc, h0, ?_⟩, ?_, h2, by rw [h1]; exact (e4 c hc).1, h3⟩
      · rw [h1]; exact (setParams_get t _ (hlen c (hpre c hc))).2
      · rw [h1, h0]; exact hmv c (hpre c hc)
  · rcases e3 with ⟨h1, -, -⟩ | ⟨c, hc, -, h1, -, -, -⟩
    · rw [h1]; exact ht
    · obtain ⟨q1, q2⟩ := hcand c (hpre c hc)
      rw [h1, withParams, q1]
      exact ht.step t X hX c.alpha q2
  · intro c hc
    have := e4 c hc
    rwa [hmv c (hpre c hc)] at this
  · rcases e5 with h | ⟨c, post', h1, h2⟩
    · exact .inl h
    · refine .inr ⟨c, post', h1, ?_⟩
      rwa [hmv c (by rw [e2, h1]; simp)] at h2

example : tryUpdatesC (1/100) lp0 none ⟨false, false, false⟩ t0 [4, 4] [1/8, 1/4, 5/8, 2, 3] =
    (moved t0 [4, 4] (1/4), ⟨true, true, false⟩, .ok (.fin 2, 1/4)) := by decide +kernel

/-- C35 needs one bound per parameter: an object with fewer bounds than parameters (`NpArrayParams`,
see C04) makes the constrained line search raise, with the tractor's parameters half set. -/
theorem C35_missing_bounds :
    ∃ (t : Par ℚ) (lp : Par ℚ → Num ℚ), getParams t = [0, 0] ∧ getLowerBounds t = [none] ∧
      (tryUpdatesC (1/100) lp none ⟨false, false, false⟩ t [1, 1] [1]).2.2 = .error .index ∧
      getParams (tryUpdatesC (1/100) lp none ⟨false, false, false⟩ t [1, 1] [1]).1 = [1, 0] :=
  ⟨.multi (.cons ["a"] true (.plist ⟨[⟨["x"], true, 0⟩, ⟨["y"], true, 0⟩], [none], [none], [none],
    none, []⟩) .nil), fun _ => .fin 0,
    by decide +kernel, by decide +kernel, by decide +kernel, by decide +kernel⟩

/-- C36.  `optimize_loop` with at least one allowed step: no exception; the returned number is that of
the last iteration, so at most `steps` iterations are made; the states between iterations form a trace
in which each iteration either leaves the tractor alone or raises the log-probability (to a finite
value) by the amount it reports; every iteration but the last gained more than `dchisq`; the last one
gained at most `dchisq` unless the limit on the number of steps was reached.  Starting from a finite
log-probability the final one is at least `initial + (iterations - 1) dchisq`, and not below the
initial one. -/
theorem C36_optimize_loop (lp : Par R → Num R) (dir : Par R → Option (List R)) (alphas : List R)
    (dchisq : R) (hdir : ∀ u X, dir u = some X → X.length = numberOfParams u) (steps : Nat)
    (hsteps : 0 < steps) (t : Par R) :
    ∃ (t' : Par R) (j : Nat) (tr : List (Par R)),
      optimizeLoop lp dir alphas dchisq steps t = (t', .ok j) ∧ j < steps ∧
      tr.length = j + 2 ∧ tr.head? = some t ∧ tr.getLast? = some t' ∧
      (∀ (i : Nat) u v, tr[i]? = some u → tr[i + 1]? = some v →
        ∃ d, Improves lp u v d ∧ (i < j → d.le (.fin dchisq) = false) ∧
          (i = j → j + 1 < steps → d.le (.fin dchisq) = true)) ∧
      ∀ x, lp t = .fin x → ∃ y, lp t' = .fin y ∧ x + j * dchisq ≤ y ∧ (0 ≤ dchisq → x ≤ y) := by
  obtain ⟨n, rfl⟩ : ∃ n, steps = n + 1 := ⟨steps - 1, by omega⟩
  obtain ⟨t', j, tr, h1, h2, h3, h4, h5, h6⟩ := loopFrom_ok lp dir alphas dchisq hdir n 0 t
  refine ⟨t', j, tr, ?_, h2, h3, h4, h5, h6, ?_⟩
  · rw [optimizeLoop, if_neg (by omega), h1, Nat.zero_add]
  · intro x hx
    exact trace_gain lp dchisq tr j t t' x h3 h4 h5 hx (fun i u v hu hv => by
      obtain ⟨d, g1, g2, -⟩ := h6 i u v hu hv
      exact ⟨d, g1, g2⟩)

/-- Steepest descent with fraction 1/4 three times, until the limit; and stopping early. -/
example : (optimizeLoop lp0 (fun t => some ((getParams t).map (fun x => 2 - 2 * x))) [1/4] 0 3 t0).2 =
      .ok 2 ∧
    (optimizeLoop lp0 (fun t => some ((getParams t).map (fun x => 2 - 2 * x))) [1/2] 0 9 t0).2 =
      .ok 1 := by decide +kernel

/-- With `steps = 0` the code refers to an unassigned variable. -/
example : optimizeLoop lp0 (fun _ => none) [1/4] 0 0 t0 = (t0, .error .nameErr) := by decide +kernel

/-- C36 for the constrained optimizer, from a legal start: the same, and every intermediate state is
legal.  The thresholds are `dchisq` and (for step-limited iterations) `dchisq_limited`; `check_step`
may also end the loop. -/
theorem C36_optimize_loop_constrained (tiny : R) (htiny : 0 < tiny) (lp : Par R → Num R)
    (dir : Par R → Option (List R)) (alphas : List R) (hinc : increasing alphas = true)
    (dchisq dchisqLimited : R) (check : Option (Par R → Num R → R → Bool))
    (hdir : ∀ u X, dir u = some X → X.length = numberOfParams u) (steps : Nat)
    (hsteps : 0 < steps) (fl : OptFlags) (t : Par R) (ht : Legal t) :
    ∃ (t' : Par R) (r : LoopResult) (tr : List (Par R)),
      optimizeLoopC tiny lp dir alphas dchisq dchisqLimited check steps fl t = (t', .ok r) ∧
      r.steps < steps ∧ tr.length = r.steps + 2 ∧ tr.head? = some t ∧ tr.getLast? = some t' ∧
      (∀ (i : Nat) u v, tr[i]? = some u → tr[i + 1]? = some v →
        ∃ d, Improves lp u v d ∧ (i < r.steps → d.le (.fin (min dchisq dchisqLimited)) = false) ∧
          (i = r.steps → r.steps + 1 < steps →
            (d.le (.fin dchisq) = true ∨ d.le (.fin dchisqLimited) = true) ∨
            ∃ f a, check = some f ∧ f v d a = false)) ∧
      (∀ u ∈ tr, Legal u) ∧
      ∀ x, lp t = .fin x → ∃ y, lp t' = .fin y ∧ x + r.steps * min dchisq dchisqLimited ≤ y ∧
        (0 ≤ min dchisq dchisqLimited → x ≤ y) := by
  obtain ⟨n, rfl⟩ : ∃ n, steps = n + 1 := ⟨steps - 1, by omega⟩
  obtain ⟨t', fl', j, tr, h1, h2, h3, h4, h5, h6, h7, -⟩ :=
    loopFromC_ok tiny htiny lp dir alphas hinc dchisq dchisqLimited check hdir n 0
      { fl with hitLimit := false, lastStepHitLimit := false } t ht
  refine ⟨t', ⟨j, fl'.lastStepHitLimit, fl'.hitLimit⟩, tr, ?_, h2, h3, h4, h5, ?_, h7, ?_⟩
  · simp only [optimizeLoopC]
    rw [if_neg (by omega), h1]
    simp
  · intro i u v hu hv
    obtain ⟨d, g1, g2, g3⟩ := h6 i u v hu hv
    refine ⟨d, g1, g2, fun q1 q2 => ?_⟩
    rcases g3 q1 q2 with h | ⟨a, ha⟩
    · exact .inl h
    · right
      cases check with
      | none => simp [stepRejected] at ha
      | some f => exact ⟨f, a, rfl, by simpa [stepRejected] using ha⟩
  · intro x hx
    exact trace_gain lp _ tr j t t' x h3 h4 h5 hx (fun i u v hu hv => by
      obtain ⟨d, g1, g2, -⟩ := h6 i u v hu hv
      exact ⟨d, g1, g2⟩)

/-- C63.  In what the constrained `optimize_loop` reports, `hit_limit` implies `ever_hit_limit`. -/
theorem C63_hit_limit (tiny : R) (htiny : 0 < tiny) (lp : Par R → Num R)
    (dir : Par R → Option (List R)) (alphas : List R) (hinc : increasing alphas = true)
    (dchisq dchisqLimited : R) (check : Option (Par R → Num R → R → Bool))
    (hdir : ∀ u X, dir u = some X → X.length = numberOfParams u) (steps : Nat)
    (fl : OptFlags) (t t' : Par R) (ht : Legal t) (r : LoopResult)
    (hr : optimizeLoopC tiny lp dir alphas dchisq dchisqLimited check steps fl t = (t', .ok r))
    (hlast : r.hitLimit = true) : r.everHitLimit = true := by
  rw [optimizeLoopC] at hr
  by_cases hz : steps = 0
  · simp [hz] at hr
  obtain ⟨n, rfl⟩ : ∃ n, steps = n + 1 := ⟨steps - 1, by omega⟩
  obtain ⟨t'', fl', j, tr, h1, -, -, -, -, -, -, h8⟩ :=
    loopFromC_ok tiny htiny lp dir alphas hinc dchisq dchisqLimited check hdir n 0
      { fl with hitLimit := false, lastStepHitLimit := false } t ht
  simp only [if_neg hz, h1, Prod.mk.injEq, Except.ok.injEq] at hr
  obtain ⟨-, rfl⟩ := hr
  exact h8 (by simp) hlast

/-- A loop whose last accepted step ran into the bound, and one that met the bound only at a candidate
that was not accepted. -/
example : (optimizeLoopC (1/100) (fun t : Par ℚ => match getParams t with | [x, _] => .fin x | _ => .nan)
      (fun _ => some [4, 0]) [1/4, 1] 0 0 none 5 ⟨false, false, false⟩ t0).2 = .ok ⟨1, true, true⟩ ∧
    (optimizeLoopC (1/100) lp0 (fun _ => some [4, 0]) [1/4, 1/2] 0 0 none 1 ⟨false, false, false⟩ t0).2 =
      .ok ⟨0, false, false⟩ ∧
    (optimizeLoopC (1/100) lp0 (fun _ => some [4, 0]) [1/4, 1] 0 0 none 1 ⟨false, false, false⟩ t0).2 =
      .ok ⟨0, false, true⟩ := by decide +kernel

end ordered

end Verif.Opt
