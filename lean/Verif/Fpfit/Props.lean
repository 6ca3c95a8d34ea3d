import Verif.Fpfit.Lsq

/-!
# C137: forced photometry and the log-likelihood of the Tractor

Spec: `forced_photometry` never leaves the Tractor with a lower `getLogLikelihood()` than it began with; without a minimum flux it ends at the
highest there is, if the direction is a least-squares solution.
-/

namespace Verif.Fpfit

open Verif Patches Forced Linmod

variable {R M : Type} [Field R] [LinearOrder R]

/-- Each part of each thawed source has the band of the image thawed and nothing else; masks are there where they are expected; models are not
cut off, because they do not depend on the threshold or because none is asked for and the source begins with positive counts. -/
structure Suits (minsb : R) (cat : List (Source R)) (t : Tim R M) : Prop where
  band : ∀ s ∈ cat, s.thawed = true → ∀ b ∈ s.parts, b.thawed = [t.band]
  mask : ∀ s ∈ cat, s.thawed = true → t.W.expect = true → (t.W.mask s.id).isSome
  cut : ∀ s ∈ cat, s.thawed = true → (∀ k a b, t.W.unit s.id k a (t.W.mask s.id) = t.W.unit s.id k b (t.W.mask s.id)) ∨
    (minsb = 0 ∧ 0 < (s.parts.map (fun b => b.flux t.band * t.scale)).sum ∧ (s.parts.length = 2 → t.minval = 0))

theorem Suits.ready {minsb : R} {cat : List (Source R)} {t : Tim R M} (h : Suits minsb cat t) : Ready minsb cat t :=
  fun s hs ht => fit_of t.W t.img minsb s (h.band s hs ht) (h.mask s hs ht) (h.cut s hs ht)

/-- The tractor after the parameters have been set: its images and its catalog. -/
def after (sky : Bool) (tims : List (Tim R M)) (cat : List (Source R)) (s : St R) : List (Tim R M) × List (Source R) :=
  (if sky then setSky tims s.sky else tims, setParams cat s.flux)

/-- **C137.** When forced photometry of any number of images ends normally, the log-likelihood of the Tractor is what it was and so are the
parameters, or it has risen; fluxes stay above the minimum.  Missing: bands, masks and thresholds as in C135, where it is false
(`C137_start_false`); fluxes that start below the minimum and sky levels together with a minimum, where it is false (C59). -/
theorem C137_likelihood_partial [IsStrictOrderedRing R] (c : Cfg R) (minsb : R) (tims : List (Tim R M)) (cat : List (Source R))
    (dir : Nat → St R → R → Option (List R)) (fuel : Nat) (s' : St R)
    (ht : ∀ t ∈ tims, Suits minsb cat t) (hpr : c.priors = false) (hsky : c.sky = true → c.minFlux = none)
    (hmin : ∀ m, c.minFlux = some m → ∀ f ∈ getParams cat, m ≤ f)
    (h : forced c (objective minsb c.sky tims cat) dir fuel (start tims cat) = (s', some (.ok ()))) :
    ∃ L L', logLike minsb tims cat = .ok L ∧ logLike minsb (after c.sky tims cat s').1 (after c.sky tims cat s').2 = .ok L' ∧
      ((L' = L ∧ after c.sky tims cat s' = (tims, cat)) ∨ L < L') ∧ ∀ m, c.minFlux = some m → ∀ f ∈ s'.flux, m ≤ f := by
  have hr : ∀ t ∈ tims, Ready minsb cat t := fun t h => (ht t h).ready
  have hlen := (forced_length c _ dir fuel _ s' h).trans (getParams_length cat)
  obtain ⟨h1, h2, h3, h4⟩ := C59_improves_partial c (objective minsb c.sky tims cat) dir fuel (start tims cat) s'
    (fun _ _ _ _ => rfl) hsky hmin h
  obtain ⟨x, hx⟩ := forced_first c (objective minsb c.sky tims cat) hpr dir fuel (start tims cat) s' h
  rw [clamp_id c (start tims cat) hmin] at hx
  have e0 : (if c.sky then setSky tims (start tims cat).sky else tims) = tims := by
    cases c.sky
    · rfl
    · exact setSky_self tims
  have l0 := objective_like minsb c.sky tims cat hr (start tims cat).flux (start tims cat).sky (getParams_length cat)
  rw [e0, hx] at l0
  have es : setParams cat (start tims cat).flux = cat := setParams_self cat
  rw [es] at l0
  have l1 := objective_like minsb c.sky tims cat hr s'.flux s'.sky hlen
  rcases h1 with ⟨a, b⟩ | ⟨l, l', r1, r2, r3, r4⟩
  · have ea : after c.sky tims cat s' = (tims, cat) := by unfold after; rw [a, b, e0, es]
    refine ⟨_, _, l0, ?_, .inl ⟨rfl, ea⟩, h2⟩
    rw [ea]; exact l0
  · unfold logProb at r1 r2
    rw [hx] at r1
    cases hx' : (objective minsb c.sky tims cat).chisq s'.flux s'.sky with
    | error e => rw [hx'] at r2; cases r2
    | ok x' =>
      rw [hx'] at r2 l1
      rw [hpr] at r1 r2
      simp only [Bool.false_eq_true, if_false, Num.add, Except.ok.injEq] at r1 r2
      subst r1 r2
      refine ⟨_, _, l0, l1, .inr ?_, h2⟩
      simpa [Num.lt] using r3

/-! #### An example -/

/-- Two images with one star each brighter than its model, and a frozen star. -/
def exTims : List (Tim ℚ Unit) :=
  [⟨Arr.ofLists [[21, 11, 7, 1]] 4, Arr.ofLists [[1, 1, 1, 1]] 4, "r", 2, 1, 0, exW⟩,
   ⟨Arr.ofLists [[42, 10, 14, 0]] 4, Arr.ofLists [[1, 1, 0, 1]] 4, "r", 4, 0, 0, exW⟩]

/-- A direction that is good, and one that is not. -/
def exDir (d : List ℚ) : Nat → St ℚ → ℚ → Option (List ℚ) := fun _ _ _ => some d

/-- No minimum flux. -/
def exCfg0 : Cfg ℚ := ⟨none, false, false, false, 0, [], 1, false⟩

example : (forced exCfg0 (objective 0 false exTims exCat) (exDir [9, 0, 0]) 5 (start exTims exCat)).1.flux = [10, 1, 3] ∧
    (forced exCfg0 (objective 0 false exTims exCat) (exDir [99, 0, 0]) 5 (start exTims exCat)).1.flux = [1, 1, 3] ∧
    ((logLike 0 exTims exCat).toOption.map Rat.floor, (logLike 0 exTims (setParams exCat [10, 1, 3])).toOption.map Rat.floor) =
      (some (-967), some (-85)) := by decide +kernel

/-! ### The best fluxes -/

/-- The chi images hardly change with any one parameter: the chi image is orthogonal to its changes.  (The normal equations of least squares, in
terms of `getChiImages()`.) -/
def Stationary (minsb : R) (tims : List (Tim R M)) (cat : List (Source R)) (p : List R) : Prop :=
  ∀ k < numParams cat, ∀ A B, chiImages minsb (setParams cat p) tims = .ok A → chiImages minsb (setParams cat (bump p k)) tims = .ok B →
    (List.zipWith (fun a b => a * (b - a)) (flat A) (flat B)).sum = 0

omit [LinearOrder R] in
theorem zipWith_obs (n : Nat) (p q : List R) : ∀ (obs : List (Ob R)),
    List.zipWith (fun a b => a * (b - a)) (obs.map (Ob.val n p)) (obs.map (Ob.val n q)) = obs.map (fun o => o.val n p * (o.val n q - o.val n p)) := by
  intro obs
  induction obs with
  | nil => rfl
  | cons o obs ih => rw [List.map_cons, List.map_cons, List.zipWith_cons_cons, ih]; rfl

/-- Stationary fluxes are the most likely ones. -/
theorem stationary_best [IsStrictOrderedRing R] (minsb : R) (tims : List (Tim R M)) (cat : List (Source R))
    (hr : ∀ t ∈ tims, Ready minsb cat t) (hs : ∀ t ∈ tims, t.ie.h = t.data.h ∧ t.ie.w = t.data.w) (p : List R) (hp : p.length = numParams cat)
    (h : Stationary minsb tims cat p) (q : List R) (hq : q.length = numParams cat) :
    ∃ L L', logLike minsb tims (setParams cat q) = .ok L ∧ logLike minsb tims (setParams cat p) = .ok L' ∧ L ≤ L' := by
  obtain ⟨obs, ho⟩ := chiImages_affine minsb cat tims hr hs
  obtain ⟨A, a1, a2⟩ := ho p hp
  obtain ⟨B, b1, b2⟩ := ho q hq
  refine ⟨_, _, by unfold logLike; rw [b1], by unfold logLike; rw [a1], ?_⟩
  have key := least obs (numParams cat) p q hp (fun k hk => by
    obtain ⟨C, c1, c2⟩ := ho (bump p k) (by unfold bump; rw [List.length_set]; exact hp)
    have := h k hk A C a1 c1
    rw [a2, c2, zipWith_obs] at this
    exact this)
  have e : ∀ (A : List (Arr R)) r, flat A = obs.map (Ob.val (numParams cat) r) →
      chisqOf A = (obs.map (fun o => o.val (numParams cat) r * o.val (numParams cat) r)).sum := by
    intro A r h; rw [chisqOf_flat, h, List.map_map]; rfl
  rw [e A p a2, e B q b2]
  have : (0 : R) < 1 / 2 := by norm_num
  nlinarith

/-- One round without a minimum flux. -/
theorem forced_once [IsStrictOrderedRing R] (c : Cfg R) (o : Obj R) (dir : Nat → St R → R → Option (List R)) (fuel : Nat) (s : St R) (X : List R) (x0 x1 : R)
    (hm : c.minFlux = none) (hsky : c.sky = false) (hpr : c.priors = false) (hro : c.rois = false) (hj : c.justims0 = false)
    (hd : dir 0 s c.damp = some X) (hX : X ≠ []) (hl : X.length = s.flux.length)
    (h0 : o.chisq s.flux s.sky = .ok x0) (h1 : o.chisq (List.zipWith (· + ·) s.flux X) s.sky = .ok x1) :
    ∃ s', forced c o dir (fuel + 1) s = (s', some (.ok ())) ∧
      (s'.flux = List.zipWith (· + ·) s.flux X ∨ s'.flux = s.flux ∧ ¬ (-(1 / 2) * x0 < -(1 / 2) * x1)) := by
  have hc : ∀ l : List R, l.map (clampOne c.minFlux) = l := by
    intro l; rw [hm]; exact List.map_id l
  have hp : ∀ (pa : List R) x, o.chisq pa s.sky = .ok x → lnpFor c o pa none s = (s, .ok (.fin (-(1 / 2) * x))) := by
    intro pa x hx
    unfold lnpFor
    simp only [hpr, hc, hx, Bool.false_and, Bool.false_eq_true, if_false, Num.add, zero_add]
  have hstep : stepTo s.flux X 1 = List.zipWith (· + ·) s.flux X := by
    unfold stepTo; simp only [one_mul]
  unfold forced
  rw [hp _ _ h0]
  simp only [Num.isFinite, Bool.not_true, Bool.false_eq_true, if_false, hj]
  unfold loop Forced.round
  simp only [hro, Bool.false_eq_true, if_false, hd]
  cases X with
  | nil => exact (hX rfl).elim
  | cons a X =>
    simp only [hsky, Bool.false_eq_true, if_false, hl, ne_eq, not_true_eq_false]
    have hfull : fullOK c.minFlux s.flux (a :: X) = true := by rw [hm]; rfl
    have hsearch : search c o s.flux (a :: X) s.sky [] [1] (.fin (-(1 / 2) * x0)) none 0 s =
        (s, .ok (if -(1 / 2) * x0 < -(1 / 2) * x1 ∧ ¬ -(1 / 2) * x1 < -(1 / 2) * x0 + -1 then (.fin (-(1 / 2) * x1), some 1, 1)
          else (.fin (-(1 / 2) * x0), none, 1))) := by
      unfold search
      simp only [hsky, Bool.false_eq_true, if_false]
      rw [hstep, hp _ _ h1]
      simp only [Num.lt, Num.sub, Num.add, Num.neg, Num.isFinite, Bool.not_true, Bool.false_eq_true, if_false, decide_eq_true_eq]
      by_cases g1 : -(1 / 2) * x1 < -(1 / 2) * x0 + -1
      · rw [if_pos g1, if_neg (fun h => h.2 g1)]
      · rw [if_neg g1]
        by_cases g2 : -(1 / 2) * x0 < -(1 / 2) * x1
        · rw [if_pos g2, if_pos ⟨g2, g1⟩]; rfl
        · rw [if_neg g2, if_neg (fun h => g2 h.1)]; rfl
    rw [hfull]
    simp only [if_true, hsearch]
    by_cases g : -(1 / 2) * x0 < -(1 / 2) * x1 ∧ ¬ -(1 / 2) * x1 < -(1 / 2) * x0 + -1
    · rw [if_pos g]
      dsimp only
      rw [Bool.or_true, if_pos rfl]
      refine ⟨_, rfl, .inl ?_⟩
      unfold accept
      simp only [hsky, Bool.false_eq_true, if_false, hc]
      exact hstep
    · rw [if_neg g]
      dsimp only
      rw [Bool.or_true, if_pos rfl]
      refine ⟨_, rfl, ?_⟩
      unfold accept
      simp only [hsky, Bool.false_eq_true, if_false]
      refine .inr ⟨trivial, fun h => g ⟨h, fun h' => ?_⟩⟩
      linarith

/-- **C137.** Without a minimum flux, with the sky left alone: if the first direction leads to fluxes where the chi images are orthogonal to their
changes with each flux, forced photometry ends normally, and no fluxes have a higher log-likelihood than those it ends with.  Missing: the cases
of C135. -/
theorem C137_best_partial [IsStrictOrderedRing R] (c : Cfg R) (minsb : R) (tims : List (Tim R M)) (cat : List (Source R))
    (dir : Nat → St R → R → Option (List R)) (fuel : Nat) (X : List R)
    (ht : ∀ t ∈ tims, Suits minsb cat t) (hs : ∀ t ∈ tims, t.ie.h = t.data.h ∧ t.ie.w = t.data.w)
    (hm : c.minFlux = none) (hsky : c.sky = false) (hpr : c.priors = false) (hro : c.rois = false) (hj : c.justims0 = false)
    (hd : dir 0 (start tims cat) c.damp = some X) (hX : X ≠ []) (hl : X.length = numParams cat)
    (hst : Stationary minsb tims cat (List.zipWith (· + ·) (getParams cat) X)) :
    ∃ s', forced c (objective minsb c.sky tims cat) dir (fuel + 1) (start tims cat) = (s', some (.ok ())) ∧
      ∀ q, q.length = numParams cat → ∃ L L', logLike minsb tims (setParams cat q) = .ok L ∧
        logLike minsb tims (setParams cat s'.flux) = .ok L' ∧ L ≤ L' := by
  have hr : ∀ t ∈ tims, Ready minsb cat t := fun t h => (ht t h).ready
  have hp1 : (List.zipWith (· + ·) (getParams cat) X).length = numParams cat := by
    rw [List.length_zipWith, getParams_length, hl, min_self]
  have like := objective_like minsb c.sky tims cat hr
  have e0 : ∀ l, (if c.sky then setSky tims l else tims) = tims := by intro l; rw [hsky]; rfl
  have best := stationary_best minsb tims cat hr hs _ hp1 hst
  have val : ∀ p, p.length = numParams cat → ∃ x, (objective minsb c.sky tims cat).chisq p (start tims cat).sky = .ok x ∧
      logLike minsb tims (setParams cat p) = .ok (-(1 / 2) * x) := by
    intro p hp
    obtain ⟨L, _, h1, _⟩ := best p hp
    have h2 := like p (start tims cat).sky hp
    rw [e0] at h2
    cases hx : (objective minsb c.sky tims cat).chisq p (start tims cat).sky with
    | error e => rw [hx, h1] at h2; cases h2
    | ok x => rw [hx] at h2; exact ⟨x, rfl, h2⟩
  obtain ⟨x0, a0, b0⟩ := val (getParams cat) (getParams_length cat)
  obtain ⟨x1, a1, b1⟩ := val _ hp1
  obtain ⟨s', f1, f2⟩ := forced_once c (objective minsb c.sky tims cat) dir fuel (start tims cat) X x0 x1 hm hsky hpr hro hj hd hX
    (hl.trans (getParams_length cat).symm) a0 a1
  refine ⟨s', f1, fun q hq => ?_⟩
  obtain ⟨L, L', c1, c2, c3⟩ := best q hq
  rcases f2 with f2 | ⟨f2, f3⟩
  · rw [f2]; exact ⟨L, L', c1, c2, c3⟩
  · rw [f2]
    rw [b1] at c2
    injection c2 with c2
    exact ⟨L, _, c1, b0, c3.trans (by rw [← c2]; exact not_lt.1 f3)⟩

/-- One image, one star and a pixel of background: the best flux is 10. -/
def exTim1 : Tim ℚ Unit := ⟨Arr.ofLists [[21, 1]] 2, Arr.ofLists [[1, 2]] 2, "r", 2, 1, 0,
  ⟨fun _ _ _ _ => some ⟨0, 0, some (Arr.ofLists [[1]] 1)⟩, fun _ => none, false⟩⟩

example : Suits 0 [⟨0, true, [exB 7 1]⟩] exTim1 ∧ Stationary 0 [exTim1] [⟨0, true, [exB 7 1]⟩] [10] ∧
    (forced exCfg0 (objective 0 false [exTim1] [⟨0, true, [exB 7 1]⟩]) (exDir [9]) 1 (start [exTim1] [⟨0, true, [exB 7 1]⟩])).1.flux = [10] := by
  refine ⟨⟨by simp [exB, exTim1], by simp [exTim1], fun _ _ _ => .inl (fun _ _ _ => rfl)⟩, ?_, by decide +kernel⟩
  intro k hk A B hA hB
  have hk0 : k = 0 := by
    have : numParams [(⟨0, true, [exB 7 1]⟩ : Source ℚ)] = 1 := rfl
    omega
  subst hk0
  have eA : (match chiImages 0 (setParams [⟨0, true, [exB 7 1]⟩] [10]) [exTim1] with | .ok A => flat A | .error _ => [9]) = [0, 0] := by
    decide +kernel
  have eB : (match chiImages 0 (setParams [⟨0, true, [exB 7 1]⟩] (bump [10] 0)) [exTim1] with | .ok A => flat A | .error _ => [9]) = [-2, 0] := by
    decide +kernel
  rw [hA] at eA
  rw [hB] at eB
  dsimp only at eA eB
  rw [eA, eB]
  decide +kernel

/-- **C137 (negation).** A star that begins with no flux: the faint pixels of its model are left out of the fit, but not out of
`getLogLikelihood()`, which is lower after forced photometry than before. -/
theorem C137_start_false : ∃ (c : Cfg ℚ) (tims : List (Tim ℚ Unit)) (cat : List (Source ℚ)) (dir : Nat → St ℚ → ℚ → Option (List ℚ)) (s' : St ℚ),
    c.priors = false ∧ c.sky = false ∧ c.minFlux = none ∧ (∀ s ∈ cat, ∀ b ∈ s.parts, b.thawed = ["r"]) ∧ (∀ t ∈ tims, t.band = "r") ∧
    forced c (objective 0 false tims cat) dir 1 (start tims cat) = (s', some (.ok ())) ∧
    (logLike 0 tims cat).toOption = some (-2000000) ∧ (logLike 0 tims (setParams cat s'.flux)).toOption = some (-50000000) :=
  ⟨exCfg0, [⟨Arr.ofLists [[2000, 0]] 2, Arr.ofLists [[1, 10000]] 2, "r", 2, 0, 0, exW⟩], [⟨0, true, [exB 7 0]⟩], exDir [1000], ⟨[1000], [0], true⟩,
    rfl, rfl, rfl, by simp [exB], by simp, by decide +kernel, by decide +kernel, by decide +kernel⟩

end Verif.Fpfit
