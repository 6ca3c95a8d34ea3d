import Verif.Opt.Model
import Verif.Opt.Spec
import Verif.Params.Lemmas
import Verif.NumLemmas

/-!
# Lemmas about setParams and the unconstrained line search
-/

namespace Verif.Opt

open Verif Verif.Params

section
variable {α : Type}

theorem setSlots_set (ss : List (Slot α)) (w v : List α)
    (h : v.length = countLiquid (ss.map (·.liquid))) :
    setSlots (setSlots ss w).1 v = setSlots ss v := by
  induction ss generalizing w v with
  | nil => simp [setSlots]
  | cons s ss ih =>
    cases hl : s.liquid with
    | true =>
      cases v with
      | nil => simp [hl] at h
      | cons x v =>
        cases w with
        | nil => simp [setSlots, hl]
        | cons y w => simp [setSlots, hl, ih w v (by simpa [hl] using h)]
    | false => simp [setSlots, hl, ih w v (by simpa [hl] using h)]

mutual
theorem setParams_set (t : Par α) (w v : List α) (h : v.length = numberOfParams t) :
    setParams (setParams t w).1 v = setParams t v := by
  match t with
  | .scalar s =>
    match v, h with
    | [x], _ =>
      match w with
      | [] => simp [setParams]
      | [y] => simp [setParams]
      | y :: z :: w => simp [setParams]
    | [], h => simp [numberOfParams] at h
    | x :: y :: z, h => simp [numberOfParams] at h
  | .plist l => simp [setParams, setSlots_set l.slots w v (by simpa [numberOfParams, flags] using h)]
  | .multi subs =>
    simp [setParams, setParamsSubs_set subs w v (by simpa [numberOfParams] using h)]
theorem setParamsSubs_set (t : Subs α) (w v : List α) (h : v.length = numberOfParamsSubs t) :
    setParamsSubs (setParamsSubs t w).1 v = setParamsSubs t v := by
  match t with
  | .nil => simp [setParamsSubs]
  | .cons nm l s rest =>
    cases l with
    | false =>
      have := setParamsSubs_set rest w v (by simpa [numberOfParamsSubs] using h)
      simp [setParamsSubs, this]
    | true =>
      simp only [numberOfParamsSubs, if_true] at h
      have h1 := setParams_set s (w.take (numberOfParams s)) (v.take (numberOfParams s))
        (by simp; omega)
      have h2 := setParamsSubs_set rest (w.drop (numberOfParams s)) (v.drop (numberOfParams s))
        (by simp; omega)
      have h3 := (setParams_get s (v.take (numberOfParams s)) (by simp; omega)).1
      have hn := numberOfParams_setParams s (w.take (numberOfParams s))
      cases he : (setParams s (w.take (numberOfParams s))).2 with
      | some e => simp [setParamsSubs, he, hn, h1, h3]
      | none => simp [setParamsSubs, he, hn, h1, h2, h3]
  | .missing nm l rest =>
    have := setParamsSubs_set rest w v (by simpa [numberOfParamsSubs] using h)
    simp [setParamsSubs, this]
end

theorem setParams_restore (t : Par α) (w : List α) :
    setParams (setParams t w).1 (getParams t) = (t, none) := by
  rw [setParams_set t w _ (getParams_length t), setParams_id]

end


variable {R : Type} [Field R] [LinearOrder R]

/-- What is known after the loop over alphas. -/
theorem tryLoop_ok (lp : Par R → Num R) (t : Par R) (X : List R)
    (hX : X.length = numberOfParams t) (as : List R) :
    ∀ (best : Num R) (aBest : Option R) (w : List R),
      ∃ (w' : List R) (best' : Num R) (aBest' : Option R) (pre post : List R),
        tryLoop lp (getParams t) X as best aBest (setParams t w).1 =
          ((setParams t w').1, .ok (best', aBest')) ∧
        as = pre ++ post ∧
        ((best' = best ∧ aBest' = aBest) ∨
          ∃ a ∈ pre, aBest' = some a ∧ best' = lp (moved t X a) ∧ best.lt best' = true) ∧
        (∀ a ∈ pre, (lp (moved t X a)).isFinite = true ∧ best'.lt (lp (moved t X a)) = false) ∧
        (post = [] ∨ ∃ b post', post = b :: post' ∧ ((lp (moved t X b)).isFinite = false ∨
          (lp (moved t X b)).lt (best'.sub (.fin 1)) = true)) := by
  induction as with
  | nil => intro best aBest w; exact ⟨w, best, aBest, [], [], rfl, rfl, .inl ⟨rfl, rfl⟩, by simp, .inl rfl⟩
  | cons a as ih =>
    intro best aBest w
    have hlen : (stepTo (getParams t) X a).length = numberOfParams t := by
      simp [stepTo, getParams_length, hX]
    have hset : setParams (setParams t w).1 (stepTo (getParams t) X a) = (moved t X a, none) := by
      rw [setParams_set _ _ _ hlen]
      exact Prod.ext rfl (setParams_get t _ hlen).1
    simp only [tryLoop, hset]
    by_cases h1 : (lp (moved t X a)).isFinite = false
    · rw [if_pos h1]
      exact ⟨_, best, aBest, [], a :: as, rfl, rfl, .inl ⟨rfl, rfl⟩, by simp,
        .inr ⟨a, as, rfl, .inl h1⟩⟩
    rw [if_neg h1]
    by_cases h2 : (lp (moved t X a)).lt (best.sub (.fin 1)) = true
    · rw [if_pos h2]
      exact ⟨_, best, aBest, [], a :: as, rfl, rfl, .inl ⟨rfl, rfl⟩, by simp,
        .inr ⟨a, as, rfl, .inr h2⟩⟩
    rw [if_neg h2]
    rw [Bool.not_eq_false] at h1
    by_cases h3 : best.lt (lp (moved t X a)) = true
    · rw [if_pos h3]
      obtain ⟨w', b', a', pre, post, e1, e2, e3, e4, e5⟩ :=
        ih (lp (moved t X a)) (some a) (stepTo (getParams t) X a)
      refine ⟨w', b', a', a :: pre, post, e1, by rw [e2]; rfl, ?_, ?_, e5⟩
      · right
        rcases e3 with ⟨rfl, rfl⟩ | ⟨c, hc, rfl, rfl, hlt⟩
        · exact ⟨a, by simp, rfl, rfl, h3⟩
        · exact ⟨c, by simp [hc], rfl, rfl, Num.lt_trans h3 hlt⟩
      · intro c hc
        rcases List.mem_cons.1 hc with rfl | hc
        · refine ⟨h1, ?_⟩
          rcases e3 with ⟨rfl, -⟩ | ⟨d, -, -, -, hlt⟩
          · exact Num.lt_irrefl _
          · rw [← Bool.not_eq_true]
            intro hcon
            have := Num.lt_trans hlt hcon
            rw [Num.lt_irrefl] at this
            cases this
        · exact e4 c hc
    · rw [if_neg h3]
      obtain ⟨w', b', a', pre, post, e1, e2, e3, e4, e5⟩ :=
        ih best aBest (stepTo (getParams t) X a)
      refine ⟨w', b', a', a :: pre, post, e1, by rw [e2]; rfl, ?_, ?_, e5⟩
      · rcases e3 with h | ⟨c, hc, h⟩
        · exact .inl h
        · exact .inr ⟨c, by simp [hc], h⟩
      · intro c hc
        rcases List.mem_cons.1 hc with rfl | hc
        · refine ⟨h1, ?_⟩
          rcases e3 with ⟨rfl, -⟩ | ⟨d, -, -, -, hlt⟩
          · simpa using h3
          · rw [← Bool.not_eq_true]
            intro hcon
            exact h3 (Num.lt_trans hlt hcon)
        · exact e4 c hc

theorem tryUpdates_ok (lp : Par R → Num R) (t : Par R) (X alphas : List R)
    (hX : X.length = numberOfParams t) :
    ∃ (t' : Par R) (d : Num R) (a : R) (pre post : List R),
      tryUpdates lp t X alphas = (t', .ok (d, a)) ∧ alphas = pre ++ post ∧
      ((t' = t ∧ d = .fin 0 ∧ a = 0) ∨
        (a ∈ pre ∧ t' = moved t X a ∧ (lp t).lt (lp t') = true ∧ (lp t').isFinite = true ∧
          d = (lp t').sub (lp t))) ∧
      (∀ b ∈ pre, (lp (moved t X b)).isFinite = true ∧ (lp t').lt (lp (moved t X b)) = false) ∧
      (post = [] ∨ ∃ b post', post = b :: post' ∧ ((lp (moved t X b)).isFinite = false ∨
          (lp (moved t X b)).lt ((lp t').sub (.fin 1)) = true)) := by
  obtain ⟨w', b', a', pre, post, e1, e2, e3, e4, e5⟩ :=
    tryLoop_ok lp t X hX alphas (lp t) none (getParams t)
  rw [setParams_id] at e1
  simp only at e1
  rcases e3 with ⟨rfl, rfl⟩ | ⟨a, ha, rfl, rfl, hlt⟩
  · refine ⟨t, .fin 0, 0, pre, post, ?_, e2, .inl ⟨rfl, rfl, rfl⟩, e4, e5⟩
    simp only [tryUpdates, e1, setParams_restore]
  · have hlen : (stepTo (getParams t) X a).length = numberOfParams t := by
      simp [stepTo, getParams_length, hX]
    have hset : setParams (setParams t w').1 (stepTo (getParams t) X a) = (moved t X a, none) := by
      rw [setParams_set _ _ _ hlen]
      exact Prod.ext rfl (setParams_get t _ hlen).1
    refine ⟨moved t X a, _, a, pre, post, ?_, e2, .inr ⟨ha, rfl, hlt, (e4 a ha).1, rfl⟩, e4, e5⟩
    simp only [tryUpdates, e1, hset]

end Verif.Opt
