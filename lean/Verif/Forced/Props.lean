import Verif.Forced.Lemmas
import Mathlib.Algebra.Order.Ring.Rat
import Mathlib.Algebra.Field.Rat
import Mathlib.Tactic.NormNum
import Mathlib.Tactic.Positivity

/-!
# C59: forced photometry keeps the best fluxes
-/

namespace Verif.Forced

open Verif

variable {R : Type} [Field R] [LinearOrder R]

/-- The log-probability of fluxes `f` and sky levels `s`. -/
def logProb (priors : Bool) (o : Obj R) (f s : List R) : Except PyErr (Num R) :=
  match o.chisq f s with
  | .error e => .error e
  | .ok x => .ok ((if priors then o.prior f s else .fin 0).add (.fin (-(1 / 2) * x)))

/-- The log-probability rises, to a finite value. -/
def Rises (priors : Bool) (o : Obj R) (s s' : St R) : Prop :=
  ∃ l l', logProb priors o s.flux s.sky = .ok l ∧ logProb priors o s'.flux s'.sky = .ok l' ∧
    l.lt l' = true ∧ l'.isFinite = true

/-- All fluxes are at least the minimum. -/
def AboveMin (c : Cfg R) (s : St R) : Prop := ∀ m, c.minFlux = some m → ∀ f ∈ s.flux, m ≤ f

/-- `getUpdateDirection` fails in some round. -/
def Fails (dir : Nat → St R → R → Option (List R)) : Prop :=
  ∃ n s d, dir n s d = none ∨ dir n s d = some []

omit [Field R] in
theorem clamp_above (c : Cfg R) (l : List R) : ∀ m, c.minFlux = some m → ∀ f ∈ l.map (clampOne c.minFlux), m ≤ f := by
  intro m hm f hf
  obtain ⟨g, _, rfl⟩ := List.mem_map.mp hf
  rw [hm]
  exact le_max_right g m

omit [Field R] in
theorem clamp_id (c : Cfg R) (s : St R) (h : AboveMin c s) : s.flux.map (clampOne c.minFlux) = s.flux := by
  conv_rhs => rw [← List.map_id s.flux]
  refine List.map_congr_left (fun f hf => ?_)
  unfold clampOne
  cases hm : c.minFlux with
  | none => rfl
  | some m => exact max_eq_left (h m hm f hf)

theorem probe_val (c : Cfg R) (o : Obj R) (hp : c.priors = true → ∀ f f' q, o.prior f q = o.prior f' q)
    (pa : List R) (sk : Option (List R)) (s : St R) (l : Num R)
    (h : (lnpFor c o pa sk s).2 = .ok l) (hf : l.isFinite = true) :
    logProb c.priors o (pa.map (clampOne c.minFlux)) (sk.getD s.sky) = .ok l := by
  obtain ⟨v, rfl⟩ := fin_of_finite hf
  obtain ⟨x, p, h1, h2, rfl⟩ := lnpFor_val c o pa sk s v h
  unfold logProb
  rw [h1]
  have h3 : (if c.priors = true then o.prior (pa.map (clampOne c.minFlux)) (sk.getD s.sky) else Num.fin 0) = .fin p := by
    rw [← h2]
    by_cases hc : c.priors = true
    · rw [if_pos hc, if_pos hc, hp hc]
    · rw [if_neg hc, if_neg hc]
  rw [h3]
  rfl

omit [Field R] [LinearOrder R] in
theorem out_cases (b : Bool) (l : Num R) (d d0 : R) :
    (if b = true then Out.done else Out.again l d d0) = .done ∨
      ∃ d' d0', (if b = true then Out.done else Out.again l d d0) = .again l d' d0' := by
  cases b
  · exact .inr ⟨_, _, rfl⟩
  · exact .inl rfl

/-- One round. -/
theorem round_best (c : Cfg R) (o : Obj R) (hp : c.priors = true → ∀ f f' q, o.prior f q = o.prior f' q)
    (hs : c.sky = true → c.minFlux = none) (dir : St R → R → Option (List R)) (lnp0 : Num R) (damping damp0 : R)
    (s s' : St R) (out : Out R) (h : round c o dir lnp0 damping damp0 s = (s', .ok out)) :
    (c.sky = false → s'.sky = s.sky) ∧
    (s'.real = s.real ∨ c.rois = true ∧ out = .done ∧
      (dir (handed c s) damping = none ∨ dir (handed c s) damping = some [])) ∧
    ((s'.flux = s.flux ∧ s'.sky = s.sky ∧ (out = .done ∨ ∃ d d0, out = .again lnp0 d d0)) ∨
     ∃ lb, lnp0.lt lb = true ∧ lb.isFinite = true ∧ logProb c.priors o s'.flux s'.sky = .ok lb ∧ AboveMin c s' ∧
       (out = .done ∨ ∃ d d0, out = .again lb d d0)) := by
  rcases round_ok c o dir lnp0 damping damp0 s s' out h with ⟨hd, rfl, rfl⟩ | ⟨X, s2, lb, ab, al, hd, _, hl, hsr, rfl, hout⟩
  · unfold handed at hd ⊢
    by_cases hr : c.rois = true
    · rw [if_pos hr] at hd ⊢
      exact ⟨fun _ => rfl, .inr ⟨hr, rfl, hd⟩, .inl ⟨rfl, rfl, .inl rfl⟩⟩
    · rw [if_neg hr]
      exact ⟨fun _ => rfl, .inl rfl, .inl ⟨rfl, rfl, .inl rfl⟩⟩
  · have key := search_ok c o s.flux (dirFlux c s X) s.sky (dirSky c s X) s.flux s.sky s.real
      (fun a l => logProb c.priors o ((stepTo s.flux (dirFlux c s X) a).map (clampOne c.minFlux))
        (if c.sky then stepTo s.sky (dirSky c s X) a else s.sky) = .ok l)
      (by
        intro a st l h1 h2 h3 h4
        have := probe_val c o hp _ _ st l h3 h4
        rw [← this]
        congr 1
        by_cases hc : c.sky = true
        · rw [if_pos hc, if_pos hc]; rfl
        · rw [if_neg hc, if_neg hc]; exact (h2 (by simpa using hc)).symm)
      lnp0 1 (c.sky = true) (if fullOK c.minFlux s.flux (dirFlux c s X) then [1] else c.alphas) lnp0 none 0 s
      rfl (fun _ => rfl) rfl (.inl ⟨rfl, rfl⟩)
      (by
        intro hc a ha
        have : fullOK c.minFlux s.flux (dirFlux c s X) = true := by rw [hs hc]; rfl
        rw [this] at ha
        simpa using ha)
      (by intro _ a ha; cases ha)
    rw [hsr] at key
    obtain ⟨k1, k2, k3, k4⟩ := key
    obtain ⟨k5, k6⟩ := k4 lb ab al rfl
    simp only at k1 k2 k3 hout
    rcases k5 with ⟨rfl, rfl⟩ | ⟨a, rfl, g1, g2, g3⟩
    · have e : (accept c s.flux (dirFlux c s X) s.sky (dirSky c s X) lb lb none al s2).1 =
          if c.sky then { s2 with sky := s.sky } else s2 := rfl
      rw [e]
      refine ⟨?_, .inl ?_, .inl ⟨?_, ?_, ?_⟩⟩
      · intro hc; rw [hc]; exact k2 hc
      · cases c.sky <;> exact k3
      · cases c.sky <;> exact k1
      · by_cases hc : c.sky = true
        · rw [if_pos hc]
        · rw [if_neg hc]; exact k2 (by simpa using hc)
      · rw [hout]
        exact out_cases _ _ _ _
    · have e : (accept c s.flux (dirFlux c s X) s.sky (dirSky c s X) lnp0 lb (some a) al s2).1 =
          ⟨(stepTo s.flux (dirFlux c s X) a).map (clampOne c.minFlux),
            if c.sky then stepTo s.sky (dirSky c s X) a else s.sky, s.real⟩ := by
        unfold accept
        simp only
        by_cases hc : c.sky = true
        · have := k6 hc a rfl
          rw [if_pos hc, if_pos hc, this.1, this.2, ← k3]
        · rw [if_neg hc, if_neg hc, ← k3, ← k2 (by simpa using hc)]
      rw [e]
      refine ⟨?_, .inl rfl, .inr ⟨lb, g1, g2, g3, clamp_above c _, ?_⟩⟩
      · intro hc; rw [hc]; rfl
      · rw [hout]
        exact out_cases _ _ _ _

theorem loop_best (c : Cfg R) (o : Obj R) (hp : c.priors = true → ∀ f f' q, o.prior f q = o.prior f' q)
    (hs : c.sky = true → c.minFlux = none) (dir : Nat → St R → R → Option (List R)) : ∀ (fuel n : Nat) (lnp0 : Num R)
    (damping damp0 : R) (s s' : St R), AboveMin c s → logProb c.priors o s.flux s.sky = .ok lnp0 →
    loop c o dir fuel n lnp0 damping damp0 s = (s', some (.ok ())) →
    (c.sky = false → s'.sky = s.sky) ∧ AboveMin c s' ∧ (s'.real = s.real ∨ c.rois = true ∧ Fails dir) ∧
    ((s'.flux = s.flux ∧ s'.sky = s.sky) ∨ Rises c.priors o s s') := by
  intro fuel
  induction fuel with
  | zero => intro n lnp0 damping damp0 s s' _ _ h; simp [loop] at h
  | succ fuel ih =>
    intro n lnp0 damping damp0 s s' ha hl h
    unfold loop at h
    cases hr : round c o (dir n) lnp0 damping damp0 s with
    | mk s1 r =>
      rw [hr] at h
      cases r with
      | error e => simp at h
      | ok out =>
        obtain ⟨b1, b2, b3⟩ := round_best c o hp hs (dir n) lnp0 damping damp0 s s1 out hr
        have b2' : s1.real = s.real ∨ c.rois = true ∧ Fails dir := by
          rcases b2 with b | ⟨b, _, b'⟩
          · exact .inl b
          · exact .inr ⟨b, n, _, _, b'⟩
        cases out with
        | done =>
          simp only [Prod.mk.injEq] at h
          obtain ⟨rfl, _⟩ := h
          rcases b3 with ⟨h1, h2, _⟩ | ⟨lb, h1, h2, h3, h4, _⟩
          · exact ⟨b1, by intro m hm f hf; rw [h1] at hf; exact ha m hm f hf, b2', .inl ⟨h1, h2⟩⟩
          · exact ⟨b1, h4, b2', .inr ⟨lnp0, lb, hl, h3, h1, h2⟩⟩
        | again l d d0 =>
          simp only at h
          rcases b3 with ⟨h1, h2, h5⟩ | ⟨lb, h1, h2, h3, h4, h5⟩
          · have e : l = lnp0 := by
              rcases h5 with h5 | ⟨_, _, h5⟩
              · cases h5
              · cases h5; rfl
            obtain ⟨i1, i2, i3, i4⟩ := ih (n + 1) l d d0 s1 s' (by intro m hm f hf; rw [h1] at hf; exact ha m hm f hf)
              (by rw [h1, h2, e]; exact hl) h
            refine ⟨fun hc => (i1 hc).trans (b1 hc), i2, ?_, ?_⟩
            · rcases i3 with i3 | i3
              · rcases b2' with b | b
                · exact .inl (i3.trans b)
                · exact .inr b
              · exact .inr i3
            · rcases i4 with ⟨i4, i5⟩ | i4
              · exact .inl ⟨i4.trans h1, i5.trans h2⟩
              · right
                unfold Rises at i4 ⊢
                rw [h1, h2] at i4
                exact i4
          · have e : l = lb := by
              rcases h5 with h5 | ⟨_, _, h5⟩
              · cases h5
              · cases h5; rfl
            subst e
            obtain ⟨i1, i2, i3, i4⟩ := ih (n + 1) l d d0 s1 s' h4 h3 h
            refine ⟨fun hc => (i1 hc).trans (b1 hc), i2, ?_, .inr ?_⟩
            · rcases i3 with i3 | i3
              · rcases b2' with b | b
                · exact .inl (i3.trans b)
                · exact .inr b
              · exact .inr i3
            · rcases i4 with ⟨i4, i5⟩ | ⟨l1, l2, i4, i5, i6, i7⟩
              · exact ⟨lnp0, l, hl, by rw [i4, i5]; exact h3, h1, h2⟩
              · rw [h3] at i4
                cases i4
                exact ⟨lnp0, l2, hl, i5, Num.lt_trans h1 i6, i7⟩

/-- **C59 (in part).** When forced photometry ends normally, either the parameters are those it started with or the
log-probability has risen; fluxes stay above the minimum, sky levels change only if they are fitted, and the tractor has its
images back unless regions of interest are used and a direction cannot be computed.  Assumes that the fluxes start above
the minimum, priors do not depend on the fluxes, and sky levels are not fitted together with a minimum flux.
Missing: these cases, where it is false (`C59_start_below_false`, `C59_prior_false`, `C59_sky_step_false`,
`C59_images_false`). -/
theorem C59_improves_partial (c : Cfg R) (o : Obj R) (dir : Nat → St R → R → Option (List R)) (fuel : Nat) (s s' : St R)
    (hp : c.priors = true → ∀ f f' q, o.prior f q = o.prior f' q) (hs : c.sky = true → c.minFlux = none)
    (ha : AboveMin c s) (h : forced c o dir fuel s = (s', some (.ok ()))) :
    ((s'.flux = s.flux ∧ s'.sky = s.sky) ∨ Rises c.priors o s s') ∧ AboveMin c s' ∧
    (c.sky = false → s'.sky = s.sky) ∧ (s'.real = s.real ∨ c.rois = true ∧ Fails dir) := by
  unfold forced at h
  have hst := lnpFor_state c o s.flux none s
  have hv := probe_val c o hp s.flux none s
  cases hr : lnpFor c o s.flux none s with
  | mk s1 r =>
    rw [hr] at h hst hv
    have e : s1 = s := hst
    subst e
    cases r with
    | error e => simp at h
    | ok l =>
      simp only at h
      split at h
      · simp at h
      · next hf =>
        have hf : l.isFinite = true := by simpa using hf
        split at h
        · simp only [Prod.mk.injEq] at h
          obtain ⟨rfl, _⟩ := h
          exact ⟨.inl ⟨rfl, rfl⟩, ha, fun _ => rfl, .inl rfl⟩
        · have := hv l rfl hf
          rw [clamp_id c s1 ha] at this
          obtain ⟨i1, i2, i3, i4⟩ := loop_best c o hp hs dir fuel 0 l c.damp (1 / 1000) s1 s' ha this h
          exact ⟨i4, i2, i1, i3⟩

/-- A fit with one source whose best flux is 3: minimum flux 0, direction towards 3. -/
def exObj : Obj ℚ := ⟨fun _ _ => .fin 0, fun f _ => .ok ((f.map (fun x => (x - 3) ^ 2)).sum)⟩
def exCfg : Cfg ℚ := ⟨some 0, false, false, false, 0, [1 / 2, 1, 2], 1, false⟩

example : forced exCfg exObj (fun _ s _ => some (s.flux.map (3 - ·))) 5 ⟨[1], [], true⟩ = (⟨[3], [], true⟩, some (.ok ())) := by
  decide +kernel

/-- One whose fluxes would become negative: the step is cut, then damping is tried. -/
example : forced exCfg ⟨fun _ _ => .fin 0, fun f _ => .ok ((f.map (fun x => (x + 3) ^ 2)).sum)⟩
    (fun _ s _ => some (s.flux.map (-3 - ·))) 9 ⟨[1], [], true⟩ = (⟨[0], [], true⟩, some (.ok ())) := by
  decide +kernel

/-- **C59 (negation).** A source that starts below the minimum flux can end with a lower log-probability. -/
theorem C59_start_below_false :
    ∃ (c : Cfg ℚ) (o : Obj ℚ) (dir : Nat → St ℚ → ℚ → Option (List ℚ)) (s s' : St ℚ),
      c.priors = false ∧ c.sky = false ∧ forced c o dir 1 s = (s', some (.ok ())) ∧ Rises c.priors o s' s :=
  ⟨exCfg, ⟨fun _ _ => .fin 0, fun f _ => .ok (if f = [-1] then 0 else if f = [0] then 1 else 1 / 2)⟩,
    fun _ _ _ => some [2], ⟨[-1], [], true⟩, ⟨[1], [], true⟩, rfl, rfl, by decide +kernel,
    .fin (-(1 / 4)), .fin 0, by decide +kernel, by decide +kernel, by decide +kernel, by decide +kernel⟩

/-- **C59 (negation).** With a prior on the flux the log-probability can fall: steps are compared using the prior of the
old flux. -/
theorem C59_prior_false :
    ∃ (c : Cfg ℚ) (o : Obj ℚ) (dir : Nat → St ℚ → ℚ → Option (List ℚ)) (s s' : St ℚ),
      c.minFlux = none ∧ c.sky = false ∧ forced c o dir 1 s = (s', some (.ok ())) ∧ Rises c.priors o s' s :=
  ⟨{ exCfg with minFlux := none, priors := true }, ⟨fun f _ => .fin (-100 * (f.map (· ^ 2)).sum),
      fun f _ => .ok ((f.map (fun x => (x - 1) ^ 2)).sum)⟩,
    fun _ _ _ => some [1], ⟨[0], [], true⟩, ⟨[1], [], true⟩, rfl, rfl, by decide +kernel,
    .fin (-100), .fin (-(1 / 2)), by decide +kernel, by decide +kernel, by decide +kernel, by decide +kernel⟩

/-- **C59 (negation).** With a minimum flux and sky fitting, fluxes make the best step (1/4 here) but the sky levels the
last one tried (1), and the log-probability can fall. -/
theorem C59_sky_step_false :
    ∃ (c : Cfg ℚ) (o : Obj ℚ) (dir : Nat → St ℚ → ℚ → Option (List ℚ)) (s s' : St ℚ),
      c.priors = false ∧ AboveMin c s ∧ forced c o dir 1 s = (s', some (.ok ())) ∧ Rises c.priors o s' s ∧
      (∀ n t d, dir n t d = some [1, -2]) ∧ s' = ⟨[s.flux.getD 0 0 + 1 / 4 * -2], [s.sky.getD 0 0 + 1 * 1], true⟩ :=
  ⟨{ exCfg with sky := true, damp := 1, alphas := [1 / 4, 1 / 2, 1] },
    ⟨fun _ _ => .fin 0, fun _ s => .ok ((s.map (fun x => (x - 1 / 4) ^ 2)).sum)⟩,
    fun _ _ _ => some [1, -2], ⟨[1], [0], true⟩, ⟨[1 / 2], [1], true⟩, rfl,
    by intro m hm f hf; simp [exCfg] at hm hf; subst hm hf; decide +kernel,
    by decide +kernel,
    ⟨.fin (-(9 / 32)), .fin (-(1 / 32)), by decide +kernel, by decide +kernel, by decide +kernel, by decide +kernel⟩,
    fun _ _ _ => rfl, by decide +kernel⟩

/-- **C59 (negation).** With regions of interest and no direction the tractor is left with the cut-out images. -/
theorem C59_images_false :
    ∃ (c : Cfg ℚ) (o : Obj ℚ) (dir : Nat → St ℚ → ℚ → Option (List ℚ)) (s s' : St ℚ),
      forced c o dir 1 s = (s', some (.ok ())) ∧ s'.real ≠ s.real :=
  ⟨{ exCfg with rois := true }, exObj, fun _ _ _ => none, ⟨[1], [], true⟩, ⟨[1], [], false⟩, by decide +kernel,
    by decide⟩

/-- **C59.** Without a minimum flux there is one round: fluxes and sky levels make the same full step, or none. -/
theorem C59_one_step (c : Cfg R) (o : Obj R) (dir : Nat → St R → R → Option (List R)) (fuel : Nat) (s s' : St R)
    (hm : c.minFlux = none) (hsky : c.sky = true) (h : forced c o dir (fuel + 1) s = (s', some (.ok ()))) :
    (s'.flux = s.flux ∧ s'.sky = s.sky) ∨
    ∃ X t d, dir 0 t d = some X ∧ s'.flux = List.zipWith (· + ·) s.flux (X.drop s.sky.length) ∧
      s'.sky = List.zipWith (· + ·) s.sky (X.take s.sky.length) := by
  unfold forced at h
  have hst := lnpFor_state c o s.flux none s
  cases hr : lnpFor c o s.flux none s with
  | mk s1 r =>
    rw [hr] at h hst
    have e : s1 = s := hst
    subst e
    cases r with
    | error e => simp at h
    | ok l =>
      simp only at h
      split at h
      · simp at h
      · split at h
        · simp only [Prod.mk.injEq] at h
          obtain ⟨rfl, _⟩ := h
          exact .inl ⟨rfl, rfl⟩
        · unfold loop at h
          cases hr2 : round c o (dir 0) l c.damp (1 / 1000) s1 with
          | mk s2 r =>
            rw [hr2] at h
            cases r with
            | error e => simp at h
            | ok out =>
              have hfull : ∀ X, fullOK c.minFlux s1.flux (dirFlux c s1 X) = true := by
                intro X; rw [hm]; rfl
              rcases round_ok c o (dir 0) l c.damp (1 / 1000) s1 s2 out hr2 with
                ⟨hd, rfl, rfl⟩ | ⟨X, s3, lb, ab, al, hd, _, hl, hsr, rfl, hout⟩
              · simp only [Prod.mk.injEq] at h
                obtain ⟨rfl, _⟩ := h
                left
                unfold handed
                split <;> exact ⟨rfl, rfl⟩
              · have hdone : out = .done := by
                  simp only at hout
                  rw [hout, hfull X, Bool.or_true]; rfl
                subst hdone
                simp only [Prod.mk.injEq] at h
                obtain ⟨rfl, _⟩ := h
                have key := search_ok c o s1.flux (dirFlux c s1 X) s1.sky (dirSky c s1 X) s1.flux s1.sky s1.real
                  (fun _ _ => True) (by intros; trivial) l 1 True
                  (if fullOK c.minFlux s1.flux (dirFlux c s1 X) then [1] else c.alphas) l none 0 s1
                  rfl (fun _ => rfl) rfl (.inl ⟨rfl, rfl⟩)
                  (by intro _ a ha; rw [hfull X] at ha; simpa using ha) (by intro _ a ha; cases ha)
                rw [hsr] at key
                obtain ⟨k1, _, _, k4⟩ := key
                have k6 := (k4 lb ab al rfl).2
                cases ab with
                | none =>
                  left
                  unfold accept
                  simp only
                  rw [if_pos hsky]
                  exact ⟨k1, rfl⟩
                | some a =>
                  right
                  obtain ⟨rfl, rfl⟩ := k6 trivial a rfl
                  refine ⟨X, _, _, hd, ?_, ?_⟩
                  · unfold accept
                    simp only
                    rw [if_pos hsky, hm]
                    unfold stepTo dirFlux
                    rw [if_pos hsky]
                    simp [clampOne]
                  · unfold accept
                    simp only
                    rw [if_pos hsky]
                    unfold stepTo dirSky
                    rw [if_pos hsky]
                    simp

example : forced { exCfg with minFlux := none, sky := true } ⟨fun _ _ => .fin 0, fun f s => .ok ((f.map (fun x => (x - 3) ^ 2)).sum +
    (s.map (fun x => (x - 7) ^ 2)).sum)⟩ (fun _ _ _ => some [7, 4]) 1 ⟨[-1], [0], true⟩ = (⟨[3], [7], true⟩, some (.ok ())) := by
  decide +kernel

theorem search_mem (c : Cfg R) (o : Obj R) (p0 X p0sky Xsky : List R) : ∀ (as : List R) (lb : Num R) (ab : Option R) (al : R)
    (s s' : St R) (lb' : Num R) (ab' : Option R) (al' : R),
    search c o p0 X p0sky Xsky as lb ab al s = (s', .ok (lb', ab', al')) → ab' = ab ∨ ∃ a ∈ as, ab' = some a := by
  intro as
  induction as with
  | nil =>
    intro lb ab al s s' lb' ab' al' h
    simp only [search, Prod.mk.injEq, Except.ok.injEq] at h
    exact .inl h.2.2.1.symm
  | cons a as ih =>
    intro lb ab al s s' lb' ab' al' h
    unfold search at h
    generalize lnpFor c o (stepTo p0 X a) (if c.sky then some (stepTo p0sky Xsky a) else none) s = r at h
    obtain ⟨s2, r⟩ := r
    cases r with
    | error e => simp at h
    | ok l =>
      simp only at h
      by_cases h1 : l.lt (lb.sub (.fin 1)) = true
      · rw [if_pos h1] at h
        simp only [Prod.mk.injEq, Except.ok.injEq] at h
        exact .inl h.2.2.1.symm
      · rw [if_neg h1] at h
        by_cases h2 : (!l.isFinite) = true
        · rw [if_pos h2] at h
          simp only [Prod.mk.injEq, Except.ok.injEq] at h
          exact .inl h.2.2.1.symm
        · rw [if_neg h2] at h
          by_cases h3 : lb.lt l = true
          · rw [if_pos h3] at h
            rcases ih _ _ _ _ _ _ _ _ h with g | ⟨b, hb, g⟩
            · exact .inr ⟨a, by simp, g⟩
            · exact .inr ⟨b, by simp [hb], g⟩
          · rw [if_neg h3] at h
            rcases ih _ _ _ _ _ _ _ _ h with g | ⟨b, hb, g⟩
            · exact .inl g
            · exact .inr ⟨b, by simp [hb], g⟩

theorem search_flux (c : Cfg R) (o : Obj R) (p0 X p0sky Xsky as : List R) (lb : Num R) (ab : Option R) (al : R) (s : St R) :
    (search c o p0 X p0sky Xsky as lb ab al s).1.flux = s.flux := by
  induction as generalizing lb ab al s with
  | nil => rfl
  | cons a as ih =>
    unfold search
    have hst : (lnpFor c o (stepTo p0 X a) (if c.sky then some (stepTo p0sky Xsky a) else none) s).1.flux = s.flux := by
      rw [lnpFor_state]
    generalize lnpFor c o (stepTo p0 X a) (if c.sky then some (stepTo p0sky Xsky a) else none) s = r at hst
    obtain ⟨s2, r⟩ := r
    cases r with
    | error e => exact hst
    | ok l =>
      simp only
      split
      · exact hst
      · split
        · exact hst
        · split
          · rw [ih]; exact hst
          · rw [ih]; exact hst

/-- **C59.** One round keeps the fluxes or makes one step in the direction it was given: the full step, and then it is the
last round, if no flux would come below the minimum, otherwise one of `alphas`. -/
theorem C59_round (c : Cfg R) (o : Obj R) (dir : St R → R → Option (List R)) (lnp0 : Num R) (damping damp0 : R) (s s' : St R)
    (out : Out R) (h : round c o dir lnp0 damping damp0 s = (s', .ok out)) :
    s'.flux = s.flux ∨ ∃ t X d a, dir t damping = some X ∧ d = (if c.sky then X.drop s.sky.length else X) ∧
      s'.flux = (List.zipWith (fun p x => p + a * x) s.flux d).map (fun f => match c.minFlux with | none => f | some m => max f m) ∧
      ((∀ m, c.minFlux = some m → ∀ v ∈ List.zipWith (· + ·) s.flux d, m ≤ v) → a = 1 ∧ out = .done) ∧
      (∀ m, c.minFlux = some m → (∃ v ∈ List.zipWith (· + ·) s.flux d, v < m) → a ∈ c.alphas) := by
  rcases round_ok c o dir lnp0 damping damp0 s s' out h with ⟨_, rfl, _⟩ | ⟨X, s2, lb, ab, al, hd, _, _, hsr, rfl, hout⟩
  · left
    unfold handed
    split <;> rfl
  · have hfl := search_flux c o s.flux (dirFlux c s X) s.sky (dirSky c s X)
      (if fullOK c.minFlux s.flux (dirFlux c s X) then [1] else c.alphas) lnp0 none 0 s
    rw [hsr] at hfl
    cases ab with
    | none =>
      left
      unfold accept
      simp only
      split <;> exact hfl
    | some a =>
      right
      have hmem := search_mem c o s.flux (dirFlux c s X) s.sky (dirSky c s X) _ _ _ _ _ _ _ _ _ hsr
      have ha : a ∈ (if fullOK c.minFlux s.flux (dirFlux c s X) then [1] else c.alphas) := by
        rcases hmem with g | ⟨b, hb, g⟩
        · cases g
        · cases g; exact hb
      refine ⟨_, X, dirFlux c s X, a, hd, rfl, ?_, fun hm => ?_, fun m hm hv => ?_⟩
      · unfold accept
        simp only
        split <;> rfl
      · have hf : fullOK c.minFlux s.flux (dirFlux c s X) = true := by
          unfold fullOK
          cases hmf : c.minFlux with
          | none => rfl
          | some m =>
            simp only [List.all_eq_true, decide_eq_true_eq]
            exact hm m hmf
        rw [hf] at ha hout
        refine ⟨by simpa using ha, ?_⟩
        simp only at hout
        rw [hout, Bool.or_true]; rfl
      · have hf : fullOK c.minFlux s.flux (dirFlux c s X) = false := by
          unfold fullOK
          rw [hm]
          simp only [List.all_eq_false, decide_eq_true_eq, not_le]
          exact hv
        rw [hf] at ha
        simpa using ha

/-- The full step would take one of two fluxes below 0. -/
example : round exCfg ⟨fun _ _ => .fin 0, fun f _ => .ok ((f.map (fun x => (x + 3) ^ 2)).sum)⟩ (fun _ _ => some [-3, 1])
    (.fin (-16)) 0 (1 / 1000) ⟨[1, 1], [], true⟩ =
      (⟨[0, 3 / 2], [], true⟩, .ok (.again (.fin (-(117 / 8))) (1 / 1000) (1 / 100))) := by
  decide +kernel

section ends
variable [IsStrictOrderedRing R]

omit [Field R] [LinearOrder R] [IsStrictOrderedRing R] in
theorem ite_again {P : Prop} [Decidable P] {m n : Num R} {a b a' b' : R}
    (h : Out.again m a b = if P then Out.done else Out.again n a' b') : m = n := by
  by_cases hp : P
  · rw [if_pos hp] at h; cases h
  · rw [if_neg hp] at h; exact (Out.again.inj h).1

omit [Field R] [IsStrictOrderedRing R] in
theorem lt_fin (a b : R) : (Num.fin a).lt (.fin b) = decide (a < b) := rfl

omit [LinearOrder R] [IsStrictOrderedRing R] in
theorem sub_fin (a b : R) : (Num.fin a).sub (.fin b) = .fin (a - b) := by
  simp [Num.sub, Num.neg, Num.add, sub_eq_add_neg]

theorem loop_ends (c : Cfg R) (o : Obj R) (dir : Nat → St R → R → Option (List R)) (hm : 0 < c.mindlnp) (B : R) (hB0 : 0 ≤ B)
    (hx : ∀ f q x, o.chisq f q = .ok x → 0 ≤ x) (hB : ∀ f q p, o.prior f q = .fin p → p ≤ B) :
    ∀ (fuel n N K : Nat) (l0 damping damp0 : R) (s : St R), 0 < damp0 → B < l0 + N * c.mindlnp →
      1000 ≤ damp0 * 10 ^ K → N + K < fuel → (loop c o dir fuel n (.fin l0) damping damp0 s).2 ≠ none := by
  intro fuel
  induction fuel with
  | zero => intro n N K l0 damping damp0 s _ _ _ h; omega
  | succ fuel ih =>
    intro n N K l0 damping damp0 s hd0 hN hK hfuel
    unfold loop
    cases hr : round c o (dir n) (.fin l0) damping damp0 s with
    | mk s1 r =>
      cases r with
      | error e => simp
      | ok out =>
        cases out with
        | done => simp
        | again l d d0 =>
          simp only
          rcases round_ok c o (dir n) (.fin l0) damping damp0 s s1 _ hr with
            ⟨_, _, h⟩ | ⟨X, s3, lb, ab, al, _, _, _, hsr, _, hout⟩
          · cases h
          · have key := search_ok c o s.flux (dirFlux c s X) s.sky (dirSky c s X) s.flux s.sky s.real
              (fun _ l => ∀ v, l = .fin v → v ≤ B)
              (by
                intro a st l h1 h2 h3 h4 v hv
                subst hv
                obtain ⟨x, p, g1, g2, rfl⟩ := lnpFor_val c o _ _ st v h3
                have gx := hx _ _ _ g1
                have gp : p ≤ B := by
                  by_cases hc : c.priors = true
                  · rw [if_pos hc] at g2; exact hB _ _ _ g2
                  · rw [if_neg hc] at g2
                    cases g2; exact hB0
                linarith)
              (.fin l0) 1 False (if fullOK c.minFlux s.flux (dirFlux c s X) then [1] else c.alphas) (.fin l0) none 0 s
              rfl (fun _ => rfl) rfl (.inl ⟨rfl, rfl⟩) (fun h => h.elim) (fun h => h.elim)
            rw [hsr] at key
            have k5 := (key.2.2.2 lb ab al rfl).1
            simp only at hout
            generalize fullOK c.minFlux s.flux (dirFlux c s X) = b at hout
            -- the value the loop goes on with
            have hl : ∃ v, l = .fin v ∧ l0 ≤ v ∧ (c.mindlnp ≤ v - l0 → v ≤ B) ∧
                ((accept c s.flux (dirFlux c s X) s.sky (dirSky c s X) (.fin l0) lb ab al s3).2 = .fin (v - l0)) := by
              have e : l = (match (generalizing := false) ab with | some _ => lb | none => .fin l0) := by
                exact ite_again hout
              rcases k5 with ⟨rfl, rfl⟩ | ⟨a, rfl, g1, g2, g3⟩
              · refine ⟨l0, e, le_refl _, fun h => ?_, ?_⟩
                · exfalso; linarith
                · rw [sub_self]; rfl
              · obtain ⟨v, rfl⟩ := fin_of_finite g2
                refine ⟨v, e, ?_, fun _ => g3 v rfl, ?_⟩
                · rw [lt_fin] at g1
                  exact le_of_lt (of_decide_eq_true g1)
                · show (Num.fin v).sub (.fin l0) = _
                  rw [sub_fin]
            obtain ⟨v, rfl, hv1, hv2, hv3⟩ := hl
            rw [hv3, lt_fin] at hout
            by_cases hc : ((decide (v - l0 < c.mindlnp) && !((!b && decide (c.damp = 0)) &&
              decide ((if (!b && decide (c.damp = 0)) = true then damp0 * 10 else damp0) < 1000))) || b) = true
            · rw [if_pos hc] at hout
              cases hout
            · rw [if_neg hc] at hout
              simp only [Out.again.injEq] at hout
              have hd : d0 = if (!b && decide (c.damp = 0)) = true then damp0 * 10 else damp0 := hout.2.2
              simp only [Bool.or_eq_true, Bool.and_eq_true, not_or, not_and, Bool.not_eq_true, decide_eq_true_eq] at hc
              by_cases hprog : v - l0 < c.mindlnp
              · -- damping is increased
                have hK0 : K ≠ 0 := by
                  rintro rfl
                  have := hc.1 hprog
                  simp only [Bool.not_eq_false', Bool.and_eq_true, decide_eq_true_eq] at this
                  have h2 := this.2
                  rw [if_pos (by simpa using this.1)] at h2
                  rw [pow_zero, mul_one] at hK
                  linarith
                obtain ⟨K', rfl⟩ := Nat.exists_eq_succ_of_ne_zero hK0
                have := hc.1 hprog
                simp only [Bool.not_eq_false', Bool.and_eq_true, decide_eq_true_eq] at this
                have hd' : d0 = damp0 * 10 := by rw [hd, if_pos (by simpa using this.1)]
                refine ih (n + 1) N K' v d d0 s1 (by rw [hd']; linarith) (by linarith) ?_ (by omega)
                rw [hd', mul_assoc, ← pow_succ']
                exact hK
              · have hvB := hv2 (not_lt.mp hprog)
                have hN0 : N ≠ 0 := by
                  rintro rfl
                  simp only [Nat.cast_zero, zero_mul, add_zero] at hN
                  linarith
                obtain ⟨N', rfl⟩ := Nat.exists_eq_succ_of_ne_zero hN0
                have hd1 : damp0 ≤ d0 := by
                  rw [hd]; split
                  · linarith
                  · exact le_refl _
                refine ih (n + 1) N' K v d d0 s1 (lt_of_lt_of_le hd0 hd1) ?_ ?_ (by omega)
                · push_cast at hN
                  linarith
                · exact le_trans hK (mul_le_mul_of_nonneg_right hd1 (by positivity))

/-- **C59.** The loop ends, for every objective whose priors are bounded above and every sequence of directions, provided
the smallest gain asked for (`mindlnp`) is positive. -/
theorem C59_ends [Archimedean R] (c : Cfg R) (o : Obj R) (dir : Nat → St R → R → Option (List R)) (s : St R)
    (hm : 0 < c.mindlnp) (hx : ∀ f q x, o.chisq f q = .ok x → 0 ≤ x) (B : R) (hB : ∀ f q p, o.prior f q = .fin p → p ≤ B) :
    ∃ fuel, (forced c o dir fuel s).2 ≠ none := by
  unfold forced
  cases hr : lnpFor c o s.flux none s with
  | mk s1 r =>
    cases r with
    | error e => exact ⟨0, by simp⟩
    | ok l =>
      by_cases hf : (!l.isFinite) = true
      · exact ⟨0, by simp only [if_pos hf]; simp⟩
      · obtain ⟨v, rfl⟩ := fin_of_finite (n := l) (by simpa using hf)
        by_cases hj : c.justims0 = true
        · exact ⟨0, by simp only [if_neg hf, if_pos hj]; simp⟩
        · obtain ⟨N, hN⟩ := Archimedean.arch (max B 0 - v + 1) hm
          refine ⟨N + 6 + 1, ?_⟩
          simp only [if_neg hf, if_neg hj]
          refine loop_ends c o dir hm (max B 0) (le_max_right _ _) hx
            (fun f q p h => le_trans (hB f q p h) (le_max_left _ _)) (N + 6 + 1) 0 N 6 v c.damp (1 / 1000) s1
            (by norm_num) ?_ (by norm_num) (by omega)
          rw [nsmul_eq_mul] at hN
          linarith

end ends

/-- The default `mindlnp = 1`, a bounded chi-squared and directions that go up and down forever. -/
example : ∃ fuel, (forced { exCfg with mindlnp := 1, damp := 1 } ⟨fun _ _ => .fin 0, fun f _ => .ok ((f.map (fun x => x ^ 2)).sum ^ 2)⟩
    (fun n _ _ => some [if n % 2 = 0 then -2 else 2]) fuel (⟨[1], [], true⟩ : St ℚ)).2 ≠ none :=
  C59_ends _ _ _ _ (by decide) (by intro f q x h; cases h; positivity) 0 (by intro f q p h; cases h; exact le_refl _)

/-- **C59 (negation).** With `mindlnp=0` the loop may never end. -/
theorem C59_endless_false :
    ∃ (c : Cfg ℚ) (o : Obj ℚ) (dir : Nat → St ℚ → ℚ → Option (List ℚ)) (s : St ℚ),
      c.mindlnp = 0 ∧ (∀ f q x, o.chisq f q = .ok x → 0 ≤ x) ∧ c.priors = false ∧
      ∀ fuel, (forced c o dir fuel s).2 = none := by
  refine ⟨{ exCfg with mindlnp := 0, damp := 1 }, ⟨fun _ _ => .fin 0, fun _ _ => .ok 0⟩, fun _ _ _ => some [-2],
    ⟨[1], [], true⟩, rfl, by intro f q x h; cases h; exact le_refl _, rfl, ?_⟩
  have h1 : ∀ fuel n, (loop { exCfg with mindlnp := 0, damp := 1 } ⟨fun _ _ => .fin 0, fun _ _ => .ok 0⟩
      (fun _ _ _ => some [-2]) fuel n (.fin 0) 1 (1 / 1000) ⟨[1], [], true⟩).2 = none := by
    intro fuel
    induction fuel with
    | zero => intro n; rfl
    | succ fuel ih =>
      intro n
      have e : round { exCfg with mindlnp := 0, damp := 1 } ⟨fun _ _ => .fin 0, fun _ _ => .ok 0⟩ (fun _ _ => some [-2])
          (.fin 0) 1 (1 / 1000) (⟨[1], [], true⟩ : St ℚ) = (⟨[1], [], true⟩, .ok (.again (.fin 0) 1 (1 / 1000))) := by
        decide +kernel
      unfold loop
      rw [e]
      exact ih (n + 1)
  intro fuel
  have e : lnpFor { exCfg with mindlnp := 0, damp := 1 } ⟨fun _ _ => .fin 0, fun _ _ => .ok 0⟩ [1] none
      (⟨[1], [], true⟩ : St ℚ) = (⟨[1], [], true⟩, .ok (.fin 0)) := by
    decide +kernel
  unfold forced
  rw [e]
  exact h1 fuel 0

end Verif.Forced
