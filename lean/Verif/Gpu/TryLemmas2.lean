import Verif.Gpu.TryLemmas
import Verif.Opt.Lemmas4
import Verif.NumLemmas

/-!
# The steps of the GPU line search, and its refinement of the CPU's
-/

namespace Verif.Gpu

open Verif Verif.Psf Verif.Params Verif.Opt

variable {R : Type} [Field R] [LinearOrder R]

/-- What `shotOf` returns when rounding is right. -/
def shotVal (rnd : R → Int) (job : Job R) (par : Par R) (tim : Tim R) (p : Padded R) : Shot R :=
  match job.src with
  | none => ⟨0, 0, 0, 0, 0, sbOf job par tim⟩
  | some s => ⟨rnd (s.pos par tim).1 - p.ipx, rnd (s.pos par tim).2 - p.ipy, (s.pos par tim).1 - rnd (s.pos par tim).1,
      (s.pos par tim).2 - rnd (s.pos par tim).2, s.cnt par tim, sbOf job par tim⟩

theorem shot_ok (rnd : R → Int) (hr : ∀ x, |x - rnd x| ≤ 1 / 2) (job : Job R) (par : Par R) (tim : Tim R) (p : Padded R) :
    shotOf rnd job par tim p = .ok (shotVal rnd job par tim p) := by
  unfold shotOf shotVal sbOf
  cases h : job.src with
  | none => cases job.sb <;> rfl
  | some s =>
    simp only
    rw [if_neg (by rintro (h | h) <;> exact h (hr _))]
    cases job.sb <;> rfl

/-- The record of one step. -/
def shownOf (rnd : R → Int) (job : Job R) (P : Params R) (t : Par R) (c : Cand R) : Shown R :=
  ⟨c, withParams t c.p, job.prior (withParams t c.p),
    (job.tims.zip P.ims).map (fun tp => shotVal rnd job (withParams t c.p) tp.1 tp.2)⟩

theorem evalSteps_ok (rnd : R → Int) (hr : ∀ x, |x - rnd x| ≤ 1 / 2) (job : Job R) (P : Params R) (t : Par R)
    (cs : List (Cand R)) (hlen : ∀ c ∈ cs, c.p.length = numberOfParams t) : ∀ w : List R,
    ∃ w' : List R, evalSteps rnd job P cs (setParams t w).1 = ((setParams t w').1,
      .ok ((cs.takeWhile (fun c => !tooFar job (withParams t c.p))).map (shownOf rnd job P t))) := by
  induction cs with
  | nil => intro w; exact ⟨w, rfl⟩
  | cons c cs ih =>
    intro w
    have hc : c.p.length = numberOfParams t := hlen c (by simp)
    have hset : setParams (setParams t w).1 c.p = (withParams t c.p, none) := by
      rw [setParams_set _ _ _ hc]
      exact Prod.ext rfl (setParams_get t _ hc).1
    rw [evalSteps, hset]
    simp only
    by_cases hfar : tooFar job (withParams t c.p) = true
    · rw [if_pos hfar]
      exact ⟨c.p, by simp [hfar]⟩
    · rw [if_neg hfar, mapM_ok _ (fun tp => shotVal rnd job (withParams t c.p) tp.1 tp.2) _
        (fun tp _ => shot_ok rnd hr job _ tp.1 tp.2)]
      obtain ⟨w', e⟩ := ih (fun c h => hlen c (by simp [h])) c.p
      simp only
      rw [e]
      refine ⟨w', ?_⟩
      simp only
      rw [List.takeWhile_cons_of_pos (by simpa using hfar), List.map_cons]
      rfl

/-- The search with differences of the objective finds what the search with the objective finds. -/
theorem search_ok [IsStrictOrderedRing R] (lp : Par R → Num R) (t : Par R) (x0 : R) (D : Cand R → Num R) (cs : List (Cand R))
    (hlen : ∀ c ∈ cs, c.p.length = numberOfParams t)
    (hD : ∀ c ∈ cs, D c = (lp (withParams t c.p)).sub (.fin x0)) :
    ∀ (fl fl2 : OptFlags) (b : R) (aBest : Option R) (pBest w w2 : List R), (aBest = none → b = x0) →
      ∃ (u u2 : List R) (fl' fl2' : OptFlags) (b' : R) (aBest' : Option R) (pBest' : List R),
        searchLoop (cs.map (fun c => (c, D c))) fl (.fin (b - x0)) (aBest.getD 0) pBest (setParams t w).1 =
          ((setParams t u).1, fl', .ok (.fin (b' - x0), aBest'.getD 0, pBest')) ∧
        candLoop lp none cs fl2 (.fin b) aBest pBest (setParams t w2).1 =
          ((setParams t u2).1, fl2', .ok (.fin b', aBest', pBest')) ∧ (aBest' = none → b' = x0) ∧
        (fl.hitLimit = fl2.hitLimit → fl'.hitLimit = fl2'.hitLimit) ∧
        (fl.lastStepHitLimit = fl2.lastStepHitLimit → fl'.lastStepHitLimit = fl2'.lastStepHitLimit) ∧
        (fl.stepLimited = true → fl'.stepLimited = true) ∧
        (fl'.stepLimited = true → fl.stepLimited = true ∨ fl2'.hitLimit = true) ∧ fl2'.stepLimited = fl2.stepLimited ∧
        (fl2.hitLimit = true → fl2'.hitLimit = true) := by
  induction cs with
  | nil =>
    intro fl fl2 b aBest pBest w w2 hb
    exact ⟨w, w2, fl, fl2, b, aBest, pBest, rfl, rfl, hb, id, id, id, .inl, rfl, id⟩
  | cons c cs ih =>
    intro fl fl2 b aBest pBest w w2 hb
    have hc : c.p.length = numberOfParams t := hlen c (by simp)
    have hset : ∀ w, setParams (setParams t w).1 c.p = (withParams t c.p, none) := by
      intro w
      rw [setParams_set _ _ _ hc]
      exact Prod.ext rfl (setParams_get t _ hc).1
    have hd := hD c (by simp)
    rw [List.map_cons, searchLoop, candLoop, hset, hset]
    simp only [rejects, Bool.false_eq_true, if_false]
    obtain ⟨f1, hf1⟩ : ∃ f1 : OptFlags, f1 = (if c.hitLimit = true then
      { fl with stepLimited := true, hitLimit := true } else fl) := ⟨_, rfl⟩
    obtain ⟨f2, hf2⟩ : ∃ f2 : OptFlags, f2 = (if c.hitLimit = true then
      { fl2 with hitLimit := true } else fl2) := ⟨_, rfl⟩
    rw [← hf1, ← hf2]
    have g1 : fl.hitLimit = fl2.hitLimit → f1.hitLimit = f2.hitLimit := by
      rw [hf1, hf2]; cases c.hitLimit <;> simp
    have g2 : fl.lastStepHitLimit = fl2.lastStepHitLimit → f1.lastStepHitLimit = f2.lastStepHitLimit := by
      rw [hf1, hf2]; cases c.hitLimit <;> simp
    have g3 : fl.stepLimited = true → f1.stepLimited = true := by
      rw [hf1]; cases c.hitLimit <;> simp
    have g4 : f1.stepLimited = true → fl.stepLimited = true ∨ f2.hitLimit = true := by
      rw [hf1, hf2]; cases c.hitLimit <;> simp
      tauto
    have g5 : f2.stepLimited = fl2.stepLimited := by
      rw [hf2]; cases c.hitLimit <;> simp
    have g6 : fl2.hitLimit = true → f2.hitLimit = true := by
      rw [hf2]; cases c.hitLimit <;> simp
    cases hv : lp (withParams t c.p) with
    | nan =>
      rw [hv] at hd
      simp only [hd, Num.sub, Num.neg, Num.add, Num.isFinite, if_true]
      exact ⟨c.p, c.p, f1, f2, b, aBest, pBest, rfl, rfl, hb, g1, g2, g3, g4, g5, g6⟩
    | ninf =>
      rw [hv] at hd
      simp only [hd, Num.sub, Num.neg, Num.add, Num.isFinite, if_true]
      exact ⟨c.p, c.p, f1, f2, b, aBest, pBest, rfl, rfl, hb, g1, g2, g3, g4, g5, g6⟩
    | pinf =>
      rw [hv] at hd
      simp only [hd, Num.sub, Num.neg, Num.add, Num.isFinite, if_true]
      exact ⟨c.p, c.p, f1, f2, b, aBest, pBest, rfl, rfl, hb, g1, g2, g3, g4, g5, g6⟩
    | fin v =>
      rw [hv] at hd
      simp only [hd, Num.sub, Num.neg, Num.add, Num.isFinite, Bool.true_eq_false, if_false, Num.lt, decide_eq_true_eq]
      have i1 : v + -x0 < b - x0 + -1 ↔ v < b + -1 := by constructor <;> intro h <;> linarith
      have i2 : b - x0 < v + -x0 ↔ b < v := by constructor <;> intro h <;> linarith
      simp only [i1, i2]
      by_cases h1 : v < b + -1
      · rw [if_pos h1, if_pos h1]
        exact ⟨w, c.p, f1, f2, b, aBest, pBest, rfl, rfl, hb, g1, g2, g3, g4, g5, g6⟩
      · rw [if_neg h1, if_neg h1]
        by_cases h2 : b < v
        · rw [if_pos h2, if_pos h2]
          obtain ⟨u, u2, fl', fl2', b', aB', pB', e1, e2, e3, k1, k2, k3, k4, k5, k6⟩ :=
            ih (fun c h => hlen c (by simp [h])) (fun c h => hD c (by simp [h]))
            { f1 with lastStepHitLimit := c.hitLimit } { f2 with lastStepHitLimit := c.hitLimit } v (some c.alpha) c.p w c.p
            (by simp)
          rw [← sub_eq_add_neg]
          simp only [Option.getD_some] at e1
          refine ⟨u, u2, fl', fl2', b', aB', pB', e1, e2, e3, fun h => k1 (g1 h), fun _ => k2 rfl, fun h => k3 (g3 h),
            fun h => ?_, by rw [k5]; exact g5, fun h => k6 (g6 h)⟩
          rcases k4 h with h | h
          · rcases g4 h with h | h
            · exact .inl h
            · exact .inr (k6 h)
          · exact .inr h
        · rw [if_neg h2, if_neg h2]
          obtain ⟨u, u2, fl', fl2', b', aB', pB', e1, e2, e3, k1, k2, k3, k4, k5, k6⟩ :=
            ih (fun c h => hlen c (by simp [h])) (fun c h => hD c (by simp [h])) f1 f2 b aBest pBest w c.p hb
          refine ⟨u, u2, fl', fl2', b', aB', pB', e1, e2, e3, fun h => k1 (g1 h), fun h => k2 (g2 h), fun h => k3 (g3 h),
            fun h => ?_, by rw [k5]; exact g5, fun h => k6 (g6 h)⟩
          rcases k4 h with h | h
          · rcases g4 h with h | h
            · exact .inl h
            · exact .inr (k6 h)
          · exact .inr h

end Verif.Gpu
