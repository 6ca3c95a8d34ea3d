import Verif.Opt.Lemmas3

/-!
# Lemmas about the optimizer loops
-/

namespace Verif.Opt

open Verif Verif.Params

section
variable {α : Type}

mutual
theorem bounds_blank (c : α) (t : Par α) :
    getLowerBounds (blank c t) = getLowerBounds t ∧ getUpperBounds (blank c t) = getUpperBounds t ∧
    getMaxStep (blank c t) = getMaxStep t ∧ numberOfParams (blank c t) = numberOfParams t := by
  match t with
  | .scalar s => simp [blank, getLowerBounds, getUpperBounds, getMaxStep, numberOfParams]
  | .plist l =>
    have : flags { l with slots := l.slots.map (fun s => { s with val := c }) } = flags l := by
      simp [flags]
    simp [blank, getLowerBounds, getUpperBounds, getMaxStep, numberOfParams, this]
  | .multi subs =>
    have := boundsSubs_blank c subs
    simp [blank, getLowerBounds, getUpperBounds, getMaxStep, numberOfParams, this]
theorem boundsSubs_blank (c : α) (t : Subs α) :
    getLowerBoundsSubs (blankSubs c t) = getLowerBoundsSubs t ∧
    getUpperBoundsSubs (blankSubs c t) = getUpperBoundsSubs t ∧
    getMaxStepSubs (blankSubs c t) = getMaxStepSubs t ∧
    numberOfParamsSubs (blankSubs c t) = numberOfParamsSubs t := by
  match t with
  | .nil => simp [blankSubs]
  | .cons nm l s rest =>
    have h1 := bounds_blank c s
    have h2 := boundsSubs_blank c rest
    simp [blankSubs, getLowerBoundsSubs, getUpperBoundsSubs, getMaxStepSubs, numberOfParamsSubs, h1,
      h2]
  | .missing nm l rest =>
    have h2 := boundsSubs_blank c rest
    simp [blankSubs, getLowerBoundsSubs, getUpperBoundsSubs, getMaxStepSubs, numberOfParamsSubs, h2]
end

theorem bounds_setParams (t : Par α) (v : List α) :
    getLowerBounds (setParams t v).1 = getLowerBounds t ∧
    getUpperBounds (setParams t v).1 = getUpperBounds t ∧
    getMaxStep (setParams t v).1 = getMaxStep t := by
  rcases Nat.eq_zero_or_pos (getAllParams t ++ v).length with h | h
  · -- no value of the type at hand: nothing to blank with; the tree has no parameters
    have hv : v = [] := by
      have : v.length = 0 := by simp at h; simp [h]
      simpa using this
    have hn : numberOfParams t = 0 := by
      have h1 : getAllParams t = [] := by simpa [hv] using h
      have h2 := getParams_eq t
      rw [← getParams_length, h2, List.length_map]
      have h3 := getAllParams_eq true t
      rw [h1] at h3
      have : leavesFrom true t = [] := by
        simpa using h3.symm
      simp [this]
    have hg : getParams t = v := by
      rw [hv]
      have := getParams_length t
      rw [hn] at this
      simpa using this
    rw [← hg, setParams_id]
    exact ⟨rfl, rfl, rfl⟩
  · obtain ⟨c, -⟩ := List.exists_mem_of_length_pos h
    have hb := setParams_blank c t v
    have h1 := bounds_blank c (setParams t v).1
    have h2 := bounds_blank c t
    rw [hb] at h1
    exact ⟨h1.1.symm.trans h2.1, h1.2.1.symm.trans h2.2.1, h1.2.2.1.symm.trans h2.2.2.1⟩

end

variable {R : Type} [Field R] [LinearOrder R]

theorem optimize_ok (lp : Par R → Num R) (dir : Par R → Option (List R)) (alphas : List R)
    (hdir : ∀ u X, dir u = some X → X.length = numberOfParams u) (t : Par R) :
    ∃ t' d a, optimize lp dir alphas t = (t', .ok (d, a)) ∧ Improves lp t t' d := by
  simp only [optimize]
  split
  · exact ⟨t, _, _, rfl, .inl ⟨rfl, rfl⟩⟩
  · exact ⟨t, _, _, rfl, .inl ⟨rfl, rfl⟩⟩
  · rename_i X _ hX
    obtain ⟨t', d, a, pre, post, e1, -, e3, -, -⟩ := tryUpdates_ok lp t X alphas (hdir t X hX)
    refine ⟨t', d, a, e1, ?_⟩
    rcases e3 with ⟨h1, h2, -⟩ | ⟨-, -, h3, h4, h5⟩
    · exact .inl ⟨h1, h2⟩
    · exact .inr ⟨h3, h4, h5⟩

theorem loopFrom_ok (lp : Par R → Num R) (dir : Par R → Option (List R)) (alphas : List R) (dchisq : R)
    (hdir : ∀ u X, dir u = some X → X.length = numberOfParams u) (n : Nat) :
    ∀ (step : Nat) (t : Par R), ∃ (t' : Par R) (j : Nat) (tr : List (Par R)),
      loopFrom lp dir alphas dchisq (n + 1) step t = (t', .ok (step + j)) ∧ j < n + 1 ∧
      tr.length = j + 2 ∧ tr.head? = some t ∧ tr.getLast? = some t' ∧
      ∀ (i : Nat) u v, tr[i]? = some u → tr[i + 1]? = some v →
        ∃ d, Improves lp u v d ∧ (i < j → d.le (.fin dchisq) = false) ∧
          (i = j → j + 1 < n + 1 → d.le (.fin dchisq) = true) := by
  induction n with
  | zero =>
    intro step t
    obtain ⟨t', d, a, e1, e2⟩ := optimize_ok lp dir alphas hdir t
    refine ⟨t', 0, [t, t'], ?_, by simp, rfl, rfl, rfl, ?_⟩
    · simp only [loopFrom, e1]
      split <;> simp
    · intro i u v hu hv
      match i with
      | 0 =>
        simp only [List.getElem?_cons_zero, Option.some.injEq, Nat.zero_add,
          List.getElem?_cons_succ] at hu hv
        subst hu hv
        exact ⟨d, e2, by simp, by simp⟩
      | i + 1 => simp at hv
  | succ n ih =>
    intro step t
    obtain ⟨t1, d, a, e1, e2⟩ := optimize_ok lp dir alphas hdir t
    cases hle : d.le (.fin dchisq) with
    | true =>
      refine ⟨t1, 0, [t, t1], ?_, by simp, rfl, rfl, rfl, ?_⟩
      · rw [loopFrom]
        simp only [e1, hle, if_true, Nat.add_zero]
      · intro i u v hu hv
        match i with
        | 0 =>
          simp only [List.getElem?_cons_zero, Option.some.injEq, Nat.zero_add,
            List.getElem?_cons_succ] at hu hv
          subst hu hv
          exact ⟨d, e2, by simp, fun _ _ => hle⟩
        | i + 1 => simp at hv
    | false =>
      obtain ⟨t', j, tr, h1, h2, h3, h4, h5, h6⟩ := ih (step + 1) t1
      refine ⟨t', j + 1, t :: tr, ?_, by omega, by simp [h3], rfl, ?_, ?_⟩
      · rw [loopFrom]
        simp only [e1, hle]
        rw [if_neg (by simp), h1]
        congr 2; omega
      · cases tr with
        | nil => simp at h4
        | cons x xs => rw [List.getLast?_cons_cons]; exact h5
      · intro i u v hu hv
        cases i with
        | zero =>
          simp only [List.getElem?_cons_zero, Option.some.injEq, List.getElem?_cons_succ] at hu hv
          subst hu
          have hv' : v = t1 := by
            rw [List.head?_eq_getElem?, hv] at h4
            simpa using h4
          subst hv'
          exact ⟨d, e2, fun _ => hle, by omega⟩
        | succ i =>
          obtain ⟨d', g1, g2, g3⟩ := h6 i u v (by simpa using hu) (by simpa using hv)
          exact ⟨d', g1, fun h => g2 (by omega), fun h1 h2 => g3 (by omega) (by omega)⟩

section ordered
variable [IsStrictOrderedRing R]

/-- Along a tr of improvements exceeding `dchisq` the log-probability rises accordingly. -/
theorem trace_gain (lp : Par R → Num R) (dchisq : R) (tr : List (Par R)) :
    ∀ (j : Nat) (t t' : Par R) (x : R), tr.length = j + 2 → tr.head? = some t →
      tr.getLast? = some t' → lp t = .fin x →
      (∀ (i : Nat) u v, tr[i]? = some u → tr[i + 1]? = some v →
        ∃ d, Improves lp u v d ∧ (i < j → d.le (.fin dchisq) = false)) →
      ∃ y, lp t' = .fin y ∧ x + j * dchisq ≤ y ∧ (0 ≤ dchisq → x ≤ y) := by
  have step : ∀ (u v : Par R) (d : Num R) (x : R), Improves lp u v d → lp u = .fin x →
      ∃ y, lp v = .fin y ∧ x ≤ y ∧ (d.le (.fin dchisq) = false → x + dchisq ≤ y) := by
    intro u v d x h hx
    rcases h with ⟨rfl, rfl⟩ | ⟨h1, h2, rfl⟩
    · refine ⟨x, hx, le_refl _, ?_⟩
      intro hd
      simp only [Num.le, decide_eq_false_iff_not, not_le] at hd
      linarith
    · cases hv : lp v with
      | fin y =>
        rw [hx, hv] at h1
        simp only [Num.lt, decide_eq_true_eq] at h1
        refine ⟨y, rfl, h1.le, ?_⟩
        intro hd
        rw [hx] at hd
        simp only [Num.sub, Num.neg, Num.add, Num.le, decide_eq_false_iff_not, not_le] at hd
        linarith
      | nan => rw [hv] at h2; cases h2
      | ninf => rw [hv] at h2; cases h2
      | pinf => rw [hv] at h2; cases h2
  induction tr with
  | nil => intro j t t' x h; simp at h
  | cons u us ih =>
    intro j t t' x hlen hhead hlast hx hstep
    simp only [List.head?_cons, Option.some.injEq] at hhead
    subst hhead
    match us, j, hlen with
    | [v], 0, _ =>
      simp only [List.getLast?_cons_cons, List.getLast?_singleton, Option.some.injEq] at hlast
      subst hlast
      obtain ⟨d, hd, -⟩ := hstep 0 u v rfl rfl
      obtain ⟨y, h1, h2, -⟩ := step u v d x hd hx
      exact ⟨y, h1, by simpa using h2, fun _ => h2⟩
    | v :: w :: ws, j + 1, hlen =>
      obtain ⟨d, hd, hgain⟩ := hstep 0 u v rfl rfl
      obtain ⟨y, h1, h2, h3⟩ := step u v d x hd hx
      obtain ⟨z, g1, g2, g3⟩ := ih j v t' y (by simpa using hlen) rfl
        (by rw [List.getLast?_cons_cons] at hlast; exact hlast) h1 (by
          intro i a b ha hb
          obtain ⟨d', k1, k2⟩ := hstep (i + 1) a b (by simpa using ha) (by simpa using hb)
          exact ⟨d', k1, fun h => k2 (by omega)⟩)
      refine ⟨z, g1, ?_, fun h => le_trans h2 (g3 h)⟩
      have := h3 (hgain (by omega))
      push_cast
      linarith

theorem getParameterSteps_ok (tiny : R) (htiny : 0 < tiny) (t : Par R) (ht : Legal t) (X alphas : List R)
    (hX : X.length = numberOfParams t) (hinc : increasing alphas = true) :
    ∃ b cs, getParameterSteps tiny t X alphas = (b, .ok cs) ∧ cs.length ≤ alphas.length ∧
      (∀ (k : Nat) (c : Cand R), cs[k]? = some c → ∃ a0, alphas[k]? = some a0 ∧ tiny ≤ c.alpha ∧
        c.alpha ≤ a0 ∧ c.p = stepTo (getParams t) X c.alpha ∧
        Feasible (getParams t) (getMaxStep t) (getLowerBounds t) (getUpperBounds t) X c.alpha ∧
        (∀ a, c.alpha < a → a ≤ a0 →
          ¬ Feasible (getParams t) (getMaxStep t) (getLowerBounds t) (getUpperBounds t) X a) ∧
        (c.stepLimit = false → c.hitLimit = false → c.alpha = a0) ∧ (c.stepLimit = true → c.alpha < a0)) ∧
      (cs.length < alphas.length → (∃ c, cs.getLast? = some c ∧ c.stepLimit = true) ∨
        ∃ a0, alphas[cs.length]? = some a0 ∧ ∀ a, tiny ≤ a → a ≤ a0 →
          ¬ Feasible (getParams t) (getMaxStep t) (getLowerBounds t) (getUpperBounds t) X a) ∧
      (b = false → ∀ c ∈ cs, c.stepLimit = false) := by
  have hp := getParams_length t
  obtain ⟨b, cs, h⟩ := stepsLoop_ok tiny htiny (getParams t) (getMaxStep t) (getLowerBounds t)
    (getUpperBounds t) X (by rw [hp, ht.maxsteps]) (by rw [hp, ht.lowers]) (by rw [hp, ht.uppers])
    (by rw [hp, hX]) ht.start ht.nonneg alphas
  refine ⟨b, cs, ?_, h.2⟩
  rw [getParameterSteps, if_pos hinc]
  exact h.1

omit [IsStrictOrderedRing R] in
theorem Legal.step (t : Par R) (ht : Legal t) (X : List R) (hX : X.length = numberOfParams t) (a : R)
    (hf : Feasible (getParams t) (getMaxStep t) (getLowerBounds t) (getUpperBounds t) X a) :
    Legal (setParams t (stepTo (getParams t) X a)).1 := by
  obtain ⟨b1, b2, b3⟩ := bounds_setParams t (stepTo (getParams t) X a)
  have hn := numberOfParams_setParams t (stepTo (getParams t) X a)
  have hlen : (stepTo (getParams t) X a).length = numberOfParams t := by
    simp [stepTo, getParams_length, hX]
  have hg := (setParams_get t _ hlen).2
  refine ⟨by rw [b1, hn]; exact ht.lowers, by rw [b2, hn]; exact ht.uppers,
    by rw [b3, hn]; exact ht.maxsteps, ?_, by rw [b3]; exact ht.nonneg⟩
  rw [hg, b1, b2]
  intro i p l u h1 h2 h3
  simp only [stepTo, List.getElem?_zipWith] at h1
  cases hq : (getParams t)[i]? with
  | none => simp [hq] at h1
  | some q =>
    cases hd : X[i]? with
    | none => simp [hq, hd] at h1
    | some d =>
      simp only [hq, hd, Option.some.injEq] at h1
      rw [← h1]
      exact hf.2 i q l u d hq h2 h3 hd

theorem optimizeC_ok (tiny : R) (htiny : 0 < tiny) (lp : Par R → Num R) (dir : Par R → Option (List R))
    (alphas : List R) (hinc : increasing alphas = true)
    (hdir : ∀ u X, dir u = some X → X.length = numberOfParams u) (fl : OptFlags) (t : Par R)
    (ht : Legal t) :
    ∃ t' fl' d a, optimizeC tiny lp dir alphas fl t = (t', fl', .ok (d, a)) ∧ Improves lp t t' d ∧
      Legal t' ∧ ((fl.lastStepHitLimit = true → fl.hitLimit = true) →
        (fl'.lastStepHitLimit = true → fl'.hitLimit = true)) := by
  simp only [optimizeC]
  split
  · exact ⟨t, fl, _, _, rfl, .inl ⟨rfl, rfl⟩, ht, id⟩
  · exact ⟨t, fl, _, _, rfl, .inl ⟨rfl, rfl⟩, ht, id⟩
  · rename_i X _ hX
    have hXl := hdir t X hX
    obtain ⟨b, cs, g1, -, g3, -, -⟩ := getParameterSteps_ok tiny htiny t ht X alphas hXl hinc
    have hcand : ∀ c ∈ cs, c.p = stepTo (getParams t) X c.alpha ∧
        Feasible (getParams t) (getMaxStep t) (getLowerBounds t) (getUpperBounds t) X c.alpha := by
      intro c hc
      obtain ⟨k, hk⟩ := List.mem_iff_getElem?.1 hc
      obtain ⟨a0, -, -, -, q1, q2, -⟩ := g3 k c hk
      exact ⟨q1, q2⟩
    have hlen : ∀ c ∈ cs, c.p.length = numberOfParams t := by
      intro c hc
      rw [(hcand c hc).1]
      simp [stepTo, getParams_length, hXl]
    obtain ⟨t', fl', d, a, pre, post, e1, e2, e3, e4, -, e6, -, -⟩ :=
      tryUpdatesC_ok tiny lp none fl t X alphas b cs g1 hlen
    refine ⟨t', fl', d, a, e1, ?_, ?_, e6⟩
    · rcases e3 with ⟨h1, h2, -⟩ | ⟨c, hc, -, h1, h2, h3, -⟩
      · exact .inl ⟨h1, h2⟩
      · exact .inr ⟨h2, by rw [h1]; exact (e4 c hc).1, h3⟩
    · rcases e3 with ⟨h1, -, -⟩ | ⟨c, hc, -, h1, -, -, -⟩
      · rw [h1]; exact ht
      · obtain ⟨q1, q2⟩ := hcand c (by rw [e2]; simp [hc])
        rw [h1, withParams, q1]
        exact ht.step t X hXl c.alpha q2

theorem loopFromC_ok (tiny : R) (htiny : 0 < tiny) (lp : Par R → Num R)
    (dir : Par R → Option (List R)) (alphas : List R) (hinc : increasing alphas = true)
    (dchisq dchisqLimited : R) (check : Option (Par R → Num R → R → Bool))
    (hdir : ∀ u X, dir u = some X → X.length = numberOfParams u) (n : Nat) :
    ∀ (step : Nat) (fl : OptFlags) (t : Par R), Legal t →
      ∃ (t' : Par R) (fl' : OptFlags) (j : Nat) (tr : List (Par R)),
      loopFromC tiny lp dir alphas dchisq dchisqLimited check (n + 1) step fl t =
        (t', fl', .ok (step + j)) ∧ j < n + 1 ∧
      tr.length = j + 2 ∧ tr.head? = some t ∧ tr.getLast? = some t' ∧
      (∀ (i : Nat) u v, tr[i]? = some u → tr[i + 1]? = some v →
        ∃ d, Improves lp u v d ∧ (i < j → d.le (.fin (min dchisq dchisqLimited)) = false) ∧
          (i = j → j + 1 < n + 1 → (d.le (.fin dchisq) = true ∨ d.le (.fin dchisqLimited) = true) ∨
            ∃ a, stepRejected check v d a = true)) ∧
      (∀ u ∈ tr, Legal u) ∧
      ((fl.lastStepHitLimit = true → fl.hitLimit = true) →
        (fl'.lastStepHitLimit = true → fl'.hitLimit = true)) := by
  have hmin : ∀ d : Num R, ∀ b : Bool, ¬ ((!b && d.le (.fin dchisq)) = true) →
      ¬ ((b && d.le (.fin dchisqLimited)) = true) →
      d.le (.fin (min dchisq dchisqLimited)) = false := by
    intro d b h1 h2
    rw [← Bool.not_eq_true]
    intro h
    cases d <;> simp_all [Num.le]
    cases b
    · exact absurd h.1 (not_le.2 (by simpa using h1))
    · exact absurd h.2 (not_le.2 (by simpa using h2))
  induction n with
  | zero =>
    intro step fl t ht
    obtain ⟨t', fl', d, a, e1, e2, e3, e4⟩ :=
      optimizeC_ok tiny htiny lp dir alphas hinc hdir { fl with stepLimited := false } t ht
    refine ⟨t', fl', 0, [t, t'], ?_, by simp, rfl, rfl, rfl, ?_, ?_, e4⟩
    · simp only [loopFromC, e1]
      split <;> simp
    · intro i u v hu hv
      match i with
      | 0 =>
        simp only [List.getElem?_cons_zero, Option.some.injEq, Nat.zero_add,
          List.getElem?_cons_succ] at hu hv
        subst hu hv
        exact ⟨d, e2, by simp, by simp⟩
      | i + 1 => simp at hv
    · intro u hu
      simp only [List.mem_cons, List.not_mem_nil, or_false] at hu
      rcases hu with rfl | rfl <;> assumption
  | succ n ih =>
    intro step fl t ht
    obtain ⟨t1, fl1, d, a, e1, e2, e3, e4⟩ :=
      optimizeC_ok tiny htiny lp dir alphas hinc hdir { fl with stepLimited := false } t ht
    have stop : loopFromC tiny lp dir alphas dchisq dchisqLimited check (n + 1 + 1) step fl t =
        (t1, fl1, .ok step) →
      ((d.le (.fin dchisq) = true ∨ d.le (.fin dchisqLimited) = true) ∨
        ∃ a, stepRejected check t1 d a = true) →
      ∃ (t' : Par R) (fl' : OptFlags) (j : Nat) (tr : List (Par R)),
      loopFromC tiny lp dir alphas dchisq dchisqLimited check (n + 1 + 1) step fl t =
        (t', fl', .ok (step + j)) ∧ j < n + 1 + 1 ∧
      tr.length = j + 2 ∧ tr.head? = some t ∧ tr.getLast? = some t' ∧
      (∀ (i : Nat) u v, tr[i]? = some u → tr[i + 1]? = some v →
        ∃ d, Improves lp u v d ∧ (i < j → d.le (.fin (min dchisq dchisqLimited)) = false) ∧
          (i = j → j + 1 < n + 1 + 1 → (d.le (.fin dchisq) = true ∨ d.le (.fin dchisqLimited) = true) ∨
            ∃ a, stepRejected check v d a = true)) ∧
      (∀ u ∈ tr, Legal u) ∧
      ((fl.lastStepHitLimit = true → fl.hitLimit = true) →
        (fl'.lastStepHitLimit = true → fl'.hitLimit = true)) := by
      intro hval hwhy
      refine ⟨t1, fl1, 0, [t, t1], hval, by simp, rfl, rfl, rfl, ?_, ?_, e4⟩
      · intro i u v hu hv
        match i with
        | 0 =>
          simp only [List.getElem?_cons_zero, Option.some.injEq, Nat.zero_add,
            List.getElem?_cons_succ] at hu hv
          subst hu hv
          exact ⟨d, e2, by simp, fun _ _ => hwhy⟩
        | i + 1 => simp at hv
      · intro u hu
        simp only [List.mem_cons, List.not_mem_nil, or_false] at hu
        rcases hu with rfl | rfl <;> assumption
    by_cases hchk : stepRejected check t1 d a = true
    · apply stop
      · rw [loopFromC]
        simp only [e1, hchk, if_true]
      · exact .inr ⟨a, hchk⟩
    by_cases hs1 : (!fl1.stepLimited && d.le (.fin dchisq)) = true
    · apply stop
      · rw [loopFromC]
        simp only [e1, if_neg hchk, if_pos hs1]
      · simp only [Bool.and_eq_true] at hs1
        exact .inl (.inl hs1.2)
    by_cases hs2 : (fl1.stepLimited && d.le (.fin dchisqLimited)) = true
    · apply stop
      · rw [loopFromC]
        simp only [e1, if_neg hchk, if_neg hs1, if_pos hs2]
      · simp only [Bool.and_eq_true] at hs2
        exact .inl (.inr hs2.2)
    obtain ⟨t', fl', j, tr, h1, h2, h3, h4, h5, h6, h7, h8⟩ := ih (step + 1) fl1 t1 e3
    refine ⟨t', fl', j + 1, t :: tr, ?_, by omega, by simp [h3], rfl, ?_, ?_, ?_,
      fun h => h8 (e4 h)⟩
    · rw [loopFromC]
      simp only [e1, if_neg hs1, if_neg hs2, h1]
      have : step + 1 + j = step + (j + 1) := by omega
      rw [this, if_neg hchk]
    · cases tr with
      | nil => simp at h4
      | cons x xs => rw [List.getLast?_cons_cons]; exact h5
    · intro i u v hu hv
      cases i with
      | zero =>
        simp only [List.getElem?_cons_zero, Option.some.injEq, List.getElem?_cons_succ] at hu hv
        subst hu
        have hv' : v = t1 := by
          rw [List.head?_eq_getElem?, hv] at h4
          simpa using h4
        subst hv'
        exact ⟨d, e2, fun _ => hmin d _ hs1 hs2, by omega⟩
      | succ i =>
        obtain ⟨d', g1, g2, g3⟩ := h6 i u v (by simpa using hu) (by simpa using hv)
        exact ⟨d', g1, fun h => g2 (by omega), fun h1 h2 => g3 (by omega) (by omega)⟩
    · intro u hu
      rcases List.mem_cons.1 hu with rfl | hu
      · exact ht
      · exact h7 u hu

end ordered

end Verif.Opt
