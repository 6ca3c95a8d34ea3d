import Verif.Opt.Lemmas2
import Verif.Params.Lemmas2

/-!
# Lemmas about the constrained line search and the optimizer loops
-/

namespace Verif.Opt

open Verif Verif.Params

variable {R : Type} [Field R] [LinearOrder R]

/-- The tractor with thawed parameters `p`. -/
abbrev withParams (t : Par R) (p : List R) : Par R := (setParams t p).1

theorem candLoop_ok (lp : Par R → Num R) (check : Option (Par R → R → Bool)) (t : Par R)
    (cs : List (Cand R)) (hlen : ∀ c ∈ cs, c.p.length = numberOfParams t) :
    ∀ (fl : OptFlags) (best : Num R) (aBest : Option R) (pBest w : List R),
      ∃ (w' : List R) (fl' : OptFlags) (best' : Num R) (aBest' : Option R) (pBest' : List R)
        (pre post : List (Cand R)),
        candLoop lp check cs fl best aBest pBest (setParams t w).1 =
          ((setParams t w').1, fl', .ok (best', aBest', pBest')) ∧
        cs = pre ++ post ∧
        ((best' = best ∧ aBest' = aBest ∧ pBest' = pBest ∧
            fl'.lastStepHitLimit = fl.lastStepHitLimit) ∨
          ∃ c ∈ pre, aBest' = some c.alpha ∧ pBest' = c.p ∧
            best' = lp (withParams t c.p) ∧ best.lt best' = true ∧
            fl'.lastStepHitLimit = c.hitLimit) ∧
        (∀ c ∈ pre, (lp (withParams t c.p)).isFinite = true ∧
          best'.lt (lp (withParams t c.p)) = false ∧
          ∀ f, check = some f → f (withParams t c.p) c.alpha = true) ∧
        (post = [] ∨ ∃ c post', post = c :: post' ∧
          ((lp (withParams t c.p)).isFinite = false ∨
           (lp (withParams t c.p)).lt (best'.sub (.fin 1)) = true ∨
           ∃ f, check = some f ∧ f (withParams t c.p) c.alpha = false)) ∧
        fl'.stepLimited = fl.stepLimited ∧
        (fl'.hitLimit = true ↔ fl.hitLimit = true ∨ (∃ c ∈ pre ++ post.take 1, c.hitLimit = true)) := by
  induction cs with
  | nil =>
    intro fl best aBest pBest w
    exact ⟨w, fl, best, aBest, pBest, [], [], rfl, rfl, .inl ⟨rfl, rfl, rfl, rfl⟩, by simp, .inl rfl, rfl,
      by simp⟩
  | cons c cs ih =>
    intro fl best aBest pBest w
    have hc : c.p.length = numberOfParams t := hlen c (by simp)
    have hcs : ∀ c ∈ cs, c.p.length = numberOfParams t := fun c h => hlen c (by simp [h])
    have hset : setParams (setParams t w).1 c.p = (withParams t c.p, none) := by
      rw [setParams_set _ _ _ hc]
      exact Prod.ext rfl (setParams_get t _ hc).1
    -- the flags after the first statement of the body
    obtain ⟨fl1, hfl1, f1, f2, f3⟩ : ∃ fl1 : OptFlags,
        fl1 = (if c.hitLimit then { fl with hitLimit := true } else fl) ∧
        fl1.stepLimited = fl.stepLimited ∧ fl1.lastStepHitLimit = fl.lastStepHitLimit ∧
        (fl1.hitLimit = true ↔ fl.hitLimit = true ∨ c.hitLimit = true) := by
      refine ⟨_, rfl, ?_, ?_, ?_⟩ <;> cases c.hitLimit <;> simp
    have stop : ∀ (hstop : (lp (withParams t c.p)).isFinite = false ∨
           (lp (withParams t c.p)).lt (best.sub (.fin 1)) = true ∨
           ∃ f, check = some f ∧ f (withParams t c.p) c.alpha = false)
        (hval : candLoop lp check (c :: cs) fl best aBest pBest (setParams t w).1 =
          (withParams t c.p, fl1, .ok (best, aBest, pBest))),
      ∃ (w' : List R) (fl' : OptFlags) (best' : Num R) (aBest' : Option R) (pBest' : List R)
        (pre post : List (Cand R)),
        candLoop lp check (c :: cs) fl best aBest pBest (setParams t w).1 =
          ((setParams t w').1, fl', .ok (best', aBest', pBest')) ∧
        c :: cs = pre ++ post ∧
        ((best' = best ∧ aBest' = aBest ∧ pBest' = pBest ∧
            fl'.lastStepHitLimit = fl.lastStepHitLimit) ∨
          ∃ c ∈ pre, aBest' = some c.alpha ∧ pBest' = c.p ∧
            best' = lp (withParams t c.p) ∧ best.lt best' = true ∧
            fl'.lastStepHitLimit = c.hitLimit) ∧
        (∀ c ∈ pre, (lp (withParams t c.p)).isFinite = true ∧
          best'.lt (lp (withParams t c.p)) = false ∧
          ∀ f, check = some f → f (withParams t c.p) c.alpha = true) ∧
        (post = [] ∨ ∃ c post', post = c :: post' ∧
          ((lp (withParams t c.p)).isFinite = false ∨
           (lp (withParams t c.p)).lt (best'.sub (.fin 1)) = true ∨
           ∃ f, check = some f ∧ f (withParams t c.p) c.alpha = false)) ∧
        fl'.stepLimited = fl.stepLimited ∧
        (fl'.hitLimit = true ↔ fl.hitLimit = true ∨
          (∃ c ∈ pre ++ post.take 1, c.hitLimit = true)) := by
      intro hstop hval
      refine ⟨c.p, fl1, best, aBest, pBest, [], c :: cs, hval, rfl, .inl ⟨rfl, rfl, rfl, f2⟩, by simp,
        .inr ⟨c, cs, rfl, hstop⟩, f1, ?_⟩
      simpa using f3
    by_cases hchk : ∃ f, check = some f ∧ f (withParams t c.p) c.alpha = false
    · apply stop (.inr (.inr hchk))
      obtain ⟨f, rfl, hf⟩ := hchk
      simp only [candLoop, hset, rejects, hf, Bool.not_false, if_true, ← hfl1]
    have hchk' : ¬ rejects check (withParams t c.p) c.alpha = true := by
      rw [Bool.not_eq_true]
      cases check with
      | none => rfl
      | some f =>
        by_contra hcon
        exact hchk ⟨f, rfl, by simpa [rejects] using hcon⟩
    have hchk2 : ∀ f, check = some f → f (withParams t c.p) c.alpha = true := by
      intro f hf
      by_contra hcon
      exact hchk ⟨f, hf, by simpa using hcon⟩
    by_cases h1 : (lp (withParams t c.p)).isFinite = false
    · apply stop (.inl h1)
      simp only [candLoop, hset, if_neg hchk', if_pos h1, ← hfl1]
    by_cases h2 : (lp (withParams t c.p)).lt (best.sub (.fin 1)) = true
    · apply stop (.inr (.inl h2))
      simp only [candLoop, hset, if_neg hchk', if_neg h1, if_pos h2, ← hfl1]
    have h1' : (lp (withParams t c.p)).isFinite = true := by simpa using h1
    by_cases h3 : best.lt (lp (withParams t c.p)) = true
    · obtain ⟨w', fl', b', a', p', pre, post, e1, e2, e3, e4, e5, e6, e7⟩ :=
        ih hcs { fl1 with lastStepHitLimit := c.hitLimit } (lp (withParams t c.p)) (some c.alpha) c.p c.p
      refine ⟨w', fl', b', a', p', c :: pre, post, ?_, by rw [e2]; rfl, ?_, ?_, e5, ?_, ?_⟩
      · simp only [candLoop, hset, if_neg hchk', if_neg h1, if_neg h2, if_pos h3, ← hfl1]
        exact e1
      · right
        rcases e3 with ⟨rfl, rfl, rfl, g⟩ | ⟨d, hd, rfl, rfl, rfl, hlt, g⟩
        · exact ⟨c, by simp, rfl, rfl, rfl, h3, g⟩
        · exact ⟨d, by simp [hd], rfl, rfl, rfl, Num.lt_trans h3 hlt, g⟩
      · intro d hd
        rcases List.mem_cons.1 hd with rfl | hd
        · refine ⟨h1', ?_, hchk2⟩
          rcases e3 with ⟨rfl, -⟩ | ⟨d, -, -, -, -, hlt, -⟩
          · exact Num.lt_irrefl _
          · rw [← Bool.not_eq_true]
            intro hcon
            have := Num.lt_trans hlt hcon
            rw [Num.lt_irrefl] at this
            cases this
        · exact e4 d hd
      · rw [e6]; exact f1
      · rw [e7, f3]; simp [or_assoc]
    · obtain ⟨w', fl', b', a', p', pre, post, e1, e2, e3, e4, e5, e6, e7⟩ :=
        ih hcs fl1 best aBest pBest c.p
      refine ⟨w', fl', b', a', p', c :: pre, post, ?_, by rw [e2]; rfl, ?_, ?_, e5, ?_, ?_⟩
      · simp only [candLoop, hset, if_neg hchk', if_neg h1, if_neg h2, if_neg h3, ← hfl1]
        exact e1
      · rcases e3 with ⟨g1, g2, g3, g4⟩ | ⟨d, hd, g⟩
        · exact .inl ⟨g1, g2, g3, by rw [g4, f2]⟩
        · exact .inr ⟨d, by simp [hd], g⟩
      · intro d hd
        rcases List.mem_cons.1 hd with rfl | hd
        · refine ⟨h1', ?_, hchk2⟩
          rcases e3 with ⟨rfl, -⟩ | ⟨d, -, -, -, -, hlt, -⟩
          · simpa using h3
          · rw [← Bool.not_eq_true]
            intro hcon
            exact h3 (Num.lt_trans hlt hcon)
        · exact e4 d hd
      · rw [e6]; exact f1
      · rw [e7, f3]; simp [or_assoc]

/-- The constrained line search, given that candidate vectors have the right length. -/
theorem tryUpdatesC_ok (tiny : R) (lp : Par R → Num R) (check : Option (Par R → R → Bool))
    (fl : OptFlags) (t : Par R) (X alphas : List R) (b : Bool) (cs : List (Cand R))
    (hcs : getParameterSteps tiny t X alphas = (b, .ok cs))
    (hlen : ∀ c ∈ cs, c.p.length = numberOfParams t) :
    ∃ (t' : Par R) (fl' : OptFlags) (d : Num R) (a : R) (pre post : List (Cand R)),
      tryUpdatesC tiny lp check fl t X alphas = (t', fl', .ok (d, a)) ∧ cs = pre ++ post ∧
      ((t' = t ∧ d = .fin 0 ∧ a = 0) ∨
        ∃ c ∈ pre, a = c.alpha ∧ t' = withParams t c.p ∧ (lp t).lt (lp t') = true ∧
          d = (lp t').sub (lp t) ∧ fl'.lastStepHitLimit = c.hitLimit) ∧
      (∀ c ∈ pre, (lp (withParams t c.p)).isFinite = true ∧
          (lp t').lt (lp (withParams t c.p)) = false ∧
          ∀ f, check = some f → f (withParams t c.p) c.alpha = true) ∧
      (post = [] ∨ ∃ c post', post = c :: post' ∧
          ((lp (withParams t c.p)).isFinite = false ∨
           (lp (withParams t c.p)).lt ((lp t').sub (.fin 1)) = true ∨
           ∃ f, check = some f ∧ f (withParams t c.p) c.alpha = false)) ∧
      ((fl.lastStepHitLimit = true → fl.hitLimit = true) →
        (fl'.lastStepHitLimit = true → fl'.hitLimit = true)) ∧
      (fl'.hitLimit = true ↔ fl.hitLimit = true ∨ cs = [] ∨
        ∃ c ∈ pre ++ post.take 1, c.hitLimit = true) ∧
      (fl'.stepLimited = true ↔ fl.stepLimited = true ∨ b = true ∨ cs = []) := by
  obtain ⟨fl0, hfl0⟩ : ∃ fl0 : OptFlags, fl0 = (if cs.length = 0 then (⟨true, true, true⟩ : OptFlags)
    else { fl with stepLimited := fl.stepLimited || b }) := ⟨_, rfl⟩
  obtain ⟨w', fl', b', a', p', pre, post, e1, e2, e3, e4, e5, e6, e7⟩ :=
    candLoop_ok lp check t cs hlen fl0 (lp t) none (getParams t) (getParams t)
  rw [setParams_id] at e1
  simp only at e1
  have hlast : ((fl.lastStepHitLimit = true → fl.hitLimit = true) →
        (fl'.lastStepHitLimit = true → fl'.hitLimit = true)) := by
    intro hinv hl
    rw [e7]
    rcases e3 with ⟨-, -, -, g⟩ | ⟨c, hc, -, -, -, -, g⟩
    · rw [g, hfl0] at hl
      left
      rw [hfl0]
      by_cases hz : cs.length = 0
      · rw [if_pos hz]
      · rw [if_neg hz] at hl ⊢
        exact hinv hl
    · right
      exact ⟨c, by simp [hc], by rw [← g]; exact hl⟩
  have hhit : (fl'.hitLimit = true ↔ fl.hitLimit = true ∨ cs = [] ∨
        ∃ c ∈ pre ++ post.take 1, c.hitLimit = true) := by
    rw [e7, hfl0]
    cases cs with
    | nil => simp
    | cons c cs => simp
  have hstep : (fl'.stepLimited = true ↔ fl.stepLimited = true ∨ b = true ∨ cs = []) := by
    rw [e6, hfl0]
    cases cs with
    | nil => simp
    | cons c cs => simp
  rcases e3 with ⟨rfl, rfl, rfl, -⟩ | ⟨c, hc, rfl, rfl, rfl, hlt, g⟩
  · refine ⟨t, fl', .fin 0, 0, pre, post, ?_, e2, .inl ⟨rfl, rfl, rfl⟩, e4, e5, hlast, hhit, hstep⟩
    simp only [tryUpdatesC, hcs]
    rw [← hfl0]
    simp only [e1, setParams_restore]
  · have hcl : c.p.length = numberOfParams t := hlen c (by rw [e2]; simp [hc])
    have hset : setParams (setParams t w').1 c.p = (withParams t c.p, none) := by
      rw [setParams_set _ _ _ hcl]
      exact Prod.ext rfl (setParams_get t _ hcl).1
    refine ⟨withParams t c.p, fl', _, c.alpha, pre, post, ?_, e2,
      .inr ⟨c, hc, rfl, rfl, hlt, rfl, g⟩, e4, e5, hlast, hhit, hstep⟩
    simp only [tryUpdatesC, hcs]
    rw [← hfl0]
    simp only [e1, hset]

end Verif.Opt
