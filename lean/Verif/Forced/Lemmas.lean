import Verif.Forced.Model
import Verif.NumLemmas
import Mathlib.Tactic.Linarith
import Mathlib.Tactic.Ring
import Mathlib.Algebra.Order.Archimedean.Basic

namespace Verif.Forced

open Verif

variable {R : Type} [Field R] [LinearOrder R]

omit [Field R] [LinearOrder R] in
theorem fin_of_finite {n : Num R} (h : n.isFinite = true) : ∃ x, n = .fin x := by
  cases n <;> simp_all [Num.isFinite]

omit [LinearOrder R] in
theorem zero_add_num (n : Num R) : Num.add (.fin 0) n = n := by
  cases n <;> simp [Num.add]

/-- What `_lnp_for_update` does to the tractor. -/
theorem lnpFor_state (c : Cfg R) (o : Obj R) (pa : List R) (sk : Option (List R)) (s : St R) :
    (lnpFor c o pa sk s).1 = { s with sky := sk.getD s.sky } := by
  unfold lnpFor
  cases sk with
  | none =>
    show _ = s
    simp only
    generalize (if c.priors = true then (Num.fin 0).add (o.prior s.flux s.sky) else Num.fin 0) = pr
    split
    · rfl
    · split <;> rfl
  | some q =>
    simp only [Option.getD_some]
    generalize (if c.priors = true then (Num.fin 0).add (o.prior s.flux q) else Num.fin 0) = pr
    split
    · rfl
    · split <;> rfl

/-- The value it returns, if finite. -/
theorem lnpFor_val (c : Cfg R) (o : Obj R) (pa : List R) (sk : Option (List R)) (s : St R) (l : R)
    (h : (lnpFor c o pa sk s).2 = .ok (.fin l)) :
    ∃ x p, o.chisq (pa.map (clampOne c.minFlux)) (sk.getD s.sky) = .ok x ∧
      (if c.priors then o.prior s.flux (sk.getD s.sky) else .fin 0) = .fin p ∧ l = p + -(1 / 2) * x := by
  unfold lnpFor at h
  have key : ∀ s' : St R, s'.flux = s.flux → s'.sky = sk.getD s.sky →
      (if (c.priors && !(if c.priors then Num.add (.fin 0) (o.prior s'.flux s'.sky) else .fin 0).isFinite) = true then
          (s', .ok (if c.priors then Num.add (.fin 0) (o.prior s'.flux s'.sky) else .fin 0))
        else match o.chisq (pa.map (clampOne c.minFlux)) s'.sky with
          | .error e => (s', .error e)
          | .ok x => (s', .ok ((if c.priors then Num.add (.fin 0) (o.prior s'.flux s'.sky) else .fin 0).add
              (.fin (-(1 / 2) * x))))).2 = (.ok (.fin l) : Except PyErr (Num R)) →
      ∃ x p, o.chisq (pa.map (clampOne c.minFlux)) (sk.getD s.sky) = .ok x ∧
        (if c.priors then o.prior s.flux (sk.getD s.sky) else .fin 0) = .fin p ∧ l = p + -(1 / 2) * x := by
    intro s' h1 h2 h
    rw [h1, h2, zero_add_num] at h
    generalize (if c.priors = true then o.prior s.flux (sk.getD s.sky) else Num.fin 0) = q at h ⊢
    by_cases hc : (c.priors && !q.isFinite) = true
    · rw [if_pos hc] at h
      simp only [Except.ok.injEq] at h
      rw [h] at hc
      simp [Num.isFinite] at hc
    · rw [if_neg hc] at h
      cases hx : o.chisq (pa.map (clampOne c.minFlux)) (sk.getD s.sky) with
      | error e => rw [hx] at h; cases h
      | ok x =>
        rw [hx] at h
        simp only [Except.ok.injEq] at h
        cases q with
        | fin p =>
          simp only [Num.add, Num.fin.injEq] at h
          exact ⟨x, p, rfl, rfl, h.symm⟩
        | _ => simp [Num.add] at h
  cases sk with
  | none => exact key s rfl rfl h
  | some q => exact key { s with sky := q } rfl rfl h

/-- What a search finds: the best value is the initial one, or one that was computed. -/
theorem search_ok (c : Cfg R) (o : Obj R) (p0 X p0sky Xsky : List R) (φ σ : List R) (ρ : Bool) (P : R → Num R → Prop)
    (hP : ∀ a (st : St R) l, st.flux = φ → (c.sky = false → st.sky = σ) →
      (lnpFor c o (stepTo p0 X a) (if c.sky then some (stepTo p0sky Xsky a) else none) st).2 = .ok l →
      l.isFinite = true → P a l)
    (lnp0 : Num R) (x : R) (U : Prop) : ∀ (as : List R) (lb : Num R) (ab : Option R) (al : R) (s : St R),
    s.flux = φ → (c.sky = false → s.sky = σ) → s.real = ρ →
    ((ab = none ∧ lb = lnp0) ∨ ∃ a, ab = some a ∧ lnp0.lt lb = true ∧ lb.isFinite = true ∧ P a lb) →
    (U → ∀ a ∈ as, a = x) → (U → ∀ a, ab = some a → a = x ∧ al = x) →
    (search c o p0 X p0sky Xsky as lb ab al s).1.flux = φ ∧
    (c.sky = false → (search c o p0 X p0sky Xsky as lb ab al s).1.sky = σ) ∧
    (search c o p0 X p0sky Xsky as lb ab al s).1.real = ρ ∧
    ∀ lb' ab' al', (search c o p0 X p0sky Xsky as lb ab al s).2 = .ok (lb', ab', al') →
      ((ab' = none ∧ lb' = lnp0) ∨ ∃ a, ab' = some a ∧ lnp0.lt lb' = true ∧ lb'.isFinite = true ∧ P a lb') ∧
      (U → ∀ a, ab' = some a → a = x ∧ al' = x) := by
  intro as
  induction as with
  | nil =>
    intro lb ab al s h1 h2 h3 h4 h6 h5
    refine ⟨h1, h2, h3, ?_⟩
    intro lb' ab' al' e
    simp only [search, Except.ok.injEq, Prod.mk.injEq] at e
    obtain ⟨rfl, rfl, rfl⟩ := e
    exact ⟨h4, h5⟩
  | cons a as ih =>
    intro lb ab al s h1 h2 h3 h4 h6 h5
    have hst := lnpFor_state c o (stepTo p0 X a) (if c.sky then some (stepTo p0sky Xsky a) else none) s
    have hv := hP a s
    unfold search
    generalize lnpFor c o (stepTo p0 X a) (if c.sky then some (stepTo p0sky Xsky a) else none) s = r at hst hv
    obtain ⟨s', v⟩ := r
    simp only at hst hv
    have g1 : s'.flux = φ := by rw [hst]; exact h1
    have g2 : c.sky = false → s'.sky = σ := by
      intro hc; rw [hst]; simp only [hc]; exact h2 hc
    have g3 : s'.real = ρ := by rw [hst]; exact h3
    cases v with
    | error e => exact ⟨g1, g2, g3, by intro _ _ _ h; cases h⟩
    | ok lnp =>
      simp only
      have stop : ∀ lb' ab' al', (Except.ok (lb, ab, a) : Except PyErr (Num R × Option R × R)) = .ok (lb', ab', al') →
          ((ab' = none ∧ lb' = lnp0) ∨ ∃ a, ab' = some a ∧ lnp0.lt lb' = true ∧ lb'.isFinite = true ∧ P a lb') ∧
          (U → ∀ a, ab' = some a → a = x ∧ al' = x) := by
        intro lb' ab' al' e
        simp only [Except.ok.injEq, Prod.mk.injEq] at e
        obtain ⟨rfl, rfl, rfl⟩ := e
        exact ⟨h4, fun hU b hb => ⟨(h5 hU b hb).1, h6 hU a (by simp)⟩⟩
      split
      · exact ⟨g1, g2, g3, stop⟩
      · split
        · exact ⟨g1, g2, g3, stop⟩
        · next hf =>
          have hfin : lnp.isFinite = true := by simpa using hf
          split
          · next hlt =>
            have hl : lnp0.lt lnp = true := by
              rcases h4 with ⟨_, rfl⟩ | ⟨_, _, h, _, _⟩
              · exact hlt
              · exact Num.lt_trans h hlt
            obtain ⟨i1, i2, i3, i4⟩ := ih lnp (some a) a s' g1 g2 g3
              (.inr ⟨a, rfl, hl, hfin, hv lnp h1 h2 rfl hfin⟩)
              (fun hU b hb => h6 hU b (by simp [hb]))
              (fun hU b hb => by cases hb; exact ⟨h6 hU a (by simp), h6 hU a (by simp)⟩)
            exact ⟨i1, i2, i3, i4⟩
          · obtain ⟨i1, i2, i3, i4⟩ := ih lb ab a s' g1 g2 g3 h4
              (fun hU b hb => h6 hU b (by simp [hb]))
              (fun hU b hb => ⟨(h5 hU b hb).1, h6 hU a (by simp)⟩)
            exact ⟨i1, i2, i3, i4⟩

/-- The tractor handed to `getUpdateDirection`. -/
def handed (c : Cfg R) (s : St R) : St R := if c.rois then { s with real := false } else s

/-- The part of the direction for the sky levels. -/
def dirSky (c : Cfg R) (s : St R) (X : List R) : List R := if c.sky then X.take s.sky.length else []

/-- The part of the direction for the fluxes. -/
def dirFlux (c : Cfg R) (s : St R) (X : List R) : List R := if c.sky then X.drop s.sky.length else X

theorem round_ok (c : Cfg R) (o : Obj R) (dir : St R → R → Option (List R)) (lnp0 : Num R) (damping damp0 : R) (s s' : St R)
    (out : Out R) (h : round c o dir lnp0 damping damp0 s = (s', .ok out)) :
    ((dir (handed c s) damping = none ∨ dir (handed c s) damping = some []) ∧ s' = handed c s ∧ out = .done) ∨
    ∃ X s2 lb ab al, dir (handed c s) damping = some X ∧ X ≠ [] ∧ (dirFlux c s X).length = s.flux.length ∧
      search c o s.flux (dirFlux c s X) s.sky (dirSky c s X) (if fullOK c.minFlux s.flux (dirFlux c s X) then [1] else c.alphas) lnp0 none 0 s =
        (s2, .ok (lb, ab, al)) ∧
      s' = (accept c s.flux (dirFlux c s X) s.sky (dirSky c s X) lnp0 lb ab al s2).1 ∧
      let redamp := !fullOK c.minFlux s.flux (dirFlux c s X) && decide (c.damp = 0)
      let damping' := if redamp then damp0 else damping
      let damp0' := if redamp then damp0 * 10 else damp0
      let tryAgain := redamp && decide (damp0' < 1000)
      let d := (accept c s.flux (dirFlux c s X) s.sky (dirSky c s X) lnp0 lb ab al s2).2
      out = if ((d.lt (.fin c.mindlnp) && !tryAgain) || fullOK c.minFlux s.flux (dirFlux c s X)) = true then .done
        else .again (match ab with | some _ => lb | none => lnp0) damping' damp0' := by
  unfold round at h
  simp only at h
  have hh : (if c.rois = true then { s with real := false } else s) = handed c s := rfl
  rw [hh] at h
  cases hd : dir (handed c s) damping with
  | none =>
    rw [hd] at h
    simp only [Prod.mk.injEq, Except.ok.injEq] at h
    exact .inl ⟨.inl rfl, h.1.symm, h.2.symm⟩
  | some X =>
    rw [hd] at h
    cases X with
    | nil =>
      simp only [Prod.mk.injEq, Except.ok.injEq] at h
      exact .inl ⟨.inr rfl, h.1.symm, h.2.symm⟩
    | cons x xs =>
      right
      simp only at h
      have hs : (if c.rois = true then { handed c s with real := s.real } else handed c s) = s := by
        unfold handed
        cases c.rois <;> rfl
      rw [hs] at h
      have h1 : (if c.sky = true then List.take s.sky.length (x :: xs) else []) = dirSky c s (x :: xs) := rfl
      have h2 : (if c.sky = true then List.drop s.sky.length (x :: xs) else x :: xs) = dirFlux c s (x :: xs) := rfl
      rw [h1, h2] at h
      by_cases hl : (dirFlux c s (x :: xs)).length ≠ s.flux.length
      · rw [if_pos hl] at h
        simp at h
      · rw [if_neg hl] at h
        refine ⟨x :: xs, ?_⟩
        generalize fullOK c.minFlux s.flux (dirFlux c s (x :: xs)) = b at h ⊢
        generalize search c o s.flux (dirFlux c s (x :: xs)) s.sky (dirSky c s (x :: xs)) (if b = true then [1] else c.alphas)
          lnp0 none 0 s = r at h ⊢
        obtain ⟨s2, v⟩ := r
        cases v with
        | error e => simp at h
        | ok v =>
          obtain ⟨lb, ab, al⟩ := v
          refine ⟨s2, lb, ab, al, rfl, by simp, not_not.mp hl, rfl, ?_⟩
          simp only at h ⊢
          generalize accept c s.flux (dirFlux c s (x :: xs)) s.sky (dirSky c s (x :: xs)) lnp0 lb ab al s2 = A at h ⊢
          by_cases hc : ((A.2.lt (.fin c.mindlnp) && !((!b && decide (c.damp = 0)) &&
              decide ((if (!b && decide (c.damp = 0)) = true then damp0 * 10 else damp0) < 1000))) || b) = true
          · rw [if_pos hc] at h ⊢
            simp only [Prod.mk.injEq, Except.ok.injEq] at h
            exact ⟨h.1.symm, h.2.symm⟩
          · rw [if_neg hc] at h ⊢
            simp only [Prod.mk.injEq, Except.ok.injEq] at h
            exact ⟨h.1.symm, h.2.symm⟩

end Verif.Forced
