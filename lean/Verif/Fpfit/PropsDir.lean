import Verif.Fpfit.DirLemmas3
import Verif.Fpfit.Props
import Verif.Lsq.Props

/-!
# C138: with an exact solver forced photometry returns the most likely fluxes and sky levels

Spec: after `forced_photometry(sky=…)` without a minimum flux no fluxes (and, with `sky=True`, sky levels) have a higher
`getLogLikelihood()` than those of the tractor.
-/

namespace Verif.Fpfit

open Verif Patches Forced Linmod

variable {R M : Type} [Field R] [LinearOrder R]

/-- The parameter changes a pixel with non-zero inverse error of some image; `d` are its derivatives. -/
def Seen (tims : List (Tim R M)) (d : List (Patch R × Nat)) : Prop :=
  ∃ e ∈ d, ∃ t, tims[e.2]? = some t ∧ ∃ y x : Nat, y < t.data.h ∧ x < t.data.w ∧ e.1.at x y * t.ie.px y x ≠ 0

/-- The column of a parameter is not zero exactly if the parameter is seen. -/
theorem column_seen [IsStrictOrderedRing R] (tims : List (Tim R M)) (chis : List (Arr R)) (hl : chis.length = tims.length) (ds : Lsq.Derivs R) (k : Nat) :
    Lsq.columnNorm (lsqImgs tims chis) ds [] k ≠ 0 ↔ Seen tims ((ds[k]?).getD []) := by
  have hI : ∀ i t, tims[i]? = some t → ∃ c, lsqImgs tims chis i = ⟨t.data.h, t.data.w, t.ie, c⟩ := by
    intro i t h
    have hi : i < tims.length := by
      by_contra hc
      rw [List.getElem?_eq_none (by omega)] at h; cases h
    refine ⟨chis[i], ?_⟩
    unfold lsqImgs
    rw [h, List.getElem?_eq_getElem (by omega)]
  unfold Lsq.columnNorm Seen
  simp only [List.filter_nil, List.map_nil, List.sum_nil, add_zero]
  generalize (ds[k]?).getD [] = d
  have hen : ∀ e, 0 ≤ Lsq.energy (lsqImgs tims chis) e := fun e =>
    Finset.sum_nonneg (fun _ _ => Finset.sum_nonneg (fun _ _ => sq_nonneg _))
  have hz : ∀ e, Lsq.energy (lsqImgs tims chis) e ≠ 0 ↔
      ∃ t, tims[e.2]? = some t ∧ ∃ y x : Nat, y < t.data.h ∧ x < t.data.w ∧ e.1.at x y * t.ie.px y x ≠ 0 := by
    intro e
    unfold Lsq.energy
    rw [Ne, Finset.sum_eq_zero_iff_of_nonneg (fun _ _ => Finset.sum_nonneg (fun _ _ => sq_nonneg _))]
    constructor
    · intro h
      push Not at h
      obtain ⟨y, hy, h⟩ := h
      rw [Ne, Finset.sum_eq_zero_iff_of_nonneg (fun _ _ => sq_nonneg _)] at h
      push Not at h
      obtain ⟨x, hx, h⟩ := h
      rw [Finset.mem_range] at hy hx
      cases ht : tims[e.2]? with
      | none =>
        have : lsqImgs tims chis e.2 = ⟨0, 0, Arr.zeros 0 0, Arr.zeros 0 0⟩ := by unfold lsqImgs; rw [ht]
        rw [this] at hy
        exact absurd hy (Nat.not_lt_zero _)
      | some t =>
        obtain ⟨c, hc⟩ := hI e.2 t ht
        rw [hc] at hy hx h
        exact ⟨t, rfl, y, x, hy, hx, fun h0 => h (by dsimp only; rw [h0]; ring)⟩
    · rintro ⟨t, ht, y, x, hy, hx, h⟩ h0
      obtain ⟨c, hc⟩ := hI e.2 t ht
      rw [hc] at h0
      have h1 := h0 y (Finset.mem_range.2 hy)
      rw [Finset.sum_eq_zero_iff_of_nonneg (fun _ _ => sq_nonneg _)] at h1
      exact h (pow_eq_zero_iff (two_ne_zero) |>.1 (h1 x (Finset.mem_range.2 hx)))
  rw [← not_iff_not]
  push Not
  induction d with
  | nil => simp
  | cons e d ih =>
    rw [List.map_cons, List.sum_cons]
    have hs : 0 ≤ (d.map (Lsq.energy (lsqImgs tims chis))).sum :=
      List.sum_nonneg (fun x hx => by obtain ⟨e, _, rfl⟩ := List.mem_map.1 hx; exact hen e)
    rw [add_eq_zero_iff_of_nonneg (hen e) hs, ih]
    simp only [List.mem_cons, forall_eq_or_imp]
    refine and_congr ?_ Iff.rfl
    have := (not_congr (hz e))
    push Not at this
    exact this

/-- `s` has a flux per parameter and a sky level per image; no fluxes (and, if the sky is fitted, sky levels) are more likely than those of `s`. -/
def Best (minsb : R) (sky : Bool) (tims : List (Tim R M)) (cat : List (Source R)) (s : St R) : Prop :=
  s.flux.length = numParams cat ∧ s.sky.length = tims.length ∧
  ∃ L', logLike minsb (after sky tims cat s).1 (after sky tims cat s).2 = .ok L' ∧
    ∀ q : St R, q.flux.length = numParams cat → q.sky.length = tims.length →
      ∃ L, logLike minsb (after sky tims cat q).1 (after sky tims cat q).2 = .ok L ∧ L ≤ L'

/-- From a direction that minimises the linearised chi-squared to the most likely fluxes. -/
theorem best_of [IsStrictOrderedRing R] (c : Cfg R) (minsb : R) (tims : List (Tim R M)) (cat : List (Source R)) (dir : Nat → St R → R → Option (List R)) (fuel : Nat)
    (ht : ∀ t ∈ tims, Suits minsb cat t) (hs : ∀ t ∈ tims, t.ie.h = t.data.h ∧ t.ie.w = t.data.w)
    (hm : c.minFlux = none) (hpr : c.priors = false) (hro : c.rois = false) (hj : c.justims0 = false) (chis : List (Arr R))
    (hc : fitChis minsb c.sky cat (getParams cat) tims (tims.map (·.sky)) = .ok chis)
    (h : (dir 0 (start tims cat) c.damp = none ∧
        ∀ X Y : List R, X.length = (derivs minsb c.sky tims cat).length → Y.length = (derivs minsb c.sky tims cat).length →
          Lsq.linearised (lsqImgs tims chis) (derivs minsb c.sky tims cat) none X =
            Lsq.linearised (lsqImgs tims chis) (derivs minsb c.sky tims cat) none Y) ∨
      ∃ X, dir 0 (start tims cat) c.damp = some X ∧
        Lsq.Minimises (derivs minsb c.sky tims cat).length (Lsq.linearised (lsqImgs tims chis) (derivs minsb c.sky tims cat) none) X) :
    ∃ s', forced c (objective minsb c.sky tims cat) dir (fuel + 1) (start tims cat) = (s', some (.ok ())) ∧ Best minsb c.sky tims cat s' := by
  have hr : ∀ t ∈ tims, Ready minsb cat t := fun t h => (ht t h).ready
  obtain ⟨C, lin⟩ := chisq_linear minsb c.sky tims cat hr hs chis hc
  have like := objective_like minsb c.sky tims cat hr
  have hhalf : (0 : R) < 1 / 2 := by norm_num
  -- all fluxes and levels have a value
  have val : ∀ p l : List R, p.length = numParams cat → l.length = tims.length → ∃ Y : List R, Y.length = (derivs minsb c.sky tims cat).length ∧
      (objective minsb c.sky tims cat).chisq p l =
        .ok (Lsq.linearised (lsqImgs tims chis) (derivs minsb c.sky tims cat) none Y + C) := by
    intro p l hp hl
    obtain ⟨Y, y1, y2⟩ := moved_any minsb c.sky tims cat p l hp hl
    exact ⟨Y, y1, lin Y p l y1 y2⟩
  have logs : ∀ (q : St R) x, q.flux.length = numParams cat → (objective minsb c.sky tims cat).chisq q.flux q.sky = .ok x →
      logLike minsb (after c.sky tims cat q).1 (after c.sky tims cat q).2 = .ok (-(1 / 2) * x) := by
    intro q x hq hx
    have := like q.flux q.sky hq
    rw [hx] at this
    exact this
  -- enough: a value that is lowest
  have fin : ∀ (s' : St R) (X : List R), s'.flux.length = numParams cat → s'.sky.length = tims.length →
      (objective minsb c.sky tims cat).chisq s'.flux s'.sky =
        .ok (Lsq.linearised (lsqImgs tims chis) (derivs minsb c.sky tims cat) none X + C) →
      (∀ Y : List R, Y.length = (derivs minsb c.sky tims cat).length →
        Lsq.linearised (lsqImgs tims chis) (derivs minsb c.sky tims cat) none X ≤
          Lsq.linearised (lsqImgs tims chis) (derivs minsb c.sky tims cat) none Y) → Best minsb c.sky tims cat s' := by
    intro s' X h1 hk h2 h3
    refine ⟨h1, hk, _, logs s' _ h1 h2, fun q hq hl => ?_⟩
    obtain ⟨Y, y1, y2⟩ := val q.flux q.sky hq hl
    refine ⟨_, logs q _ hq y2, ?_⟩
    have := h3 Y y1
    nlinarith
  have hl0 : (start tims cat).sky.length = tims.length := by unfold start; simp
  obtain ⟨Z, z1, z2⟩ := val (start tims cat).flux (start tims cat).sky (getParams_length cat) hl0
  rcases h with ⟨h1, h2⟩ | ⟨X, h1, h2, h3⟩
  · exact ⟨_, forced_none c _ dir fuel _ _ hm hpr hro hj (.inl h1) z2, fin _ Z (getParams_length cat) hl0 z2 (fun Y hY => (h2 Z Y z1 hY).le)⟩
  · by_cases hX : X = []
    · subst hX
      refine ⟨_, forced_none c _ dir fuel _ _ hm hpr hro hj (.inr h1) z2, fin _ Z (getParams_length cat) hl0 z2 (fun Y hY => ?_)⟩
      have eZ : Z = [] := List.length_eq_zero_iff.1 (z1.trans h2.symm)
      rw [eZ]
      exact h3 Y hY
    · have mv := moved_step minsb c.sky tims cat X h2
      have x2 := lin X _ _ h2 mv
      obtain ⟨s', f1, f2⟩ := forced_round c (objective minsb c.sky tims cat) dir fuel (start tims cat) X _ _ hm hpr hro hj h1 hX (by
        rw [hl0]
        have := mv.len
        rw [List.length_zipWith, getParams_length] at this
        have e : (start tims cat).flux.length = numParams cat := getParams_length cat
        rw [e]
        have h4 : (fluxOf c.sky tims.length X).length = numParams cat := by
          rw [derivs_length] at h2
          unfold fluxOf
          cases hsk : c.sky
          · rw [hsk] at h2; simpa using h2
          · rw [hsk] at h2
            simp only [if_true] at h2 ⊢
            rw [List.length_drop]; omega
        exact h4) z2 (by rw [hl0]; exact x2)
      refine ⟨s', f1, ?_⟩
      rw [hl0] at f2
      rcases f2 with ⟨g1, g2⟩ | ⟨g1, g2, g3⟩
      · refine fin s' X (by rw [g1]; exact mv.len) ?_ ?_ h3
        · rw [g2]
          cases hsk : c.sky
          · exact hl0
          · have hx := h2
            rw [derivs_length, hsk, if_pos rfl] at hx
            rw [if_pos rfl, List.length_zipWith, hl0]
            unfold skyOf
            rw [if_pos rfl, List.length_take]
            omega
        rw [g1, g2]; exact x2
      · refine fin s' Z (by rw [g1]; exact getParams_length cat) (by rw [g2]; exact hl0) (by rw [g1, g2]; exact z2) (fun Y hY => ?_)
        have := h3 Y hY
        have g4 := not_lt.1 g3
        nlinarith

/-- **C138.** Forced photometry without a minimum flux, of any number of images, with or without the sky: with a solver that solves the linear
least-squares problems it is given, the first update direction is found, the fit ends normally after one round, and no fluxes (and sky levels) have
a higher log-likelihood than those it ends with.  `shared` is `None` for `shared_params=False`; else the map found by `getUpdateDirection` for
parameters that are all distinct.  Missing: damping and priors; the cases of C135; shared parameters; with the default `shared_params=True` a last
parameter that changes no image, where it is false (`C138_shared_false`). -/
theorem C138_best_partial [IsStrictOrderedRing R] (sqrt : R → R) (hsq : Lsq.SqrtOK sqrt) (tiny : R) (lsqr : Lsq.Problem R → List R) (hls : Lsq.Solves lsqr)
    (c : Cfg R) (minsb : R) (tims : List (Tim R M)) (cat : List (Source R)) (fuel : Nat)
    (ht : ∀ t ∈ tims, Suits minsb cat t) (hs : ∀ t ∈ tims, t.ie.h = t.data.h ∧ t.ie.w = t.data.w) (hw : ∀ t ∈ tims, t.data.w * t.data.h < 2 ^ 31)
    (hm : c.minFlux = none) (hpr : c.priors = false) (hro : c.rois = false) (hj : c.justims0 = false) (hda : c.damp = 0)
    (shared : Option (List Nat))
    (hsh : shared = none ∨ ∃ st : Lsq.Store R, shared = some (Lsq.sharedMap st).1 ∧ st.cells.length = (derivs minsb c.sky tims cat).length ∧
      st.cells.Nodup ∧ Seen tims (((derivs minsb c.sky tims cat)[(derivs minsb c.sky tims cat).length - 1]?).getD [])) :
    ∃ r, firstDir sqrt tiny lsqr minsb c.sky tims cat shared = .ok r ∧
      ∀ dir : Nat → St R → R → Option (List R), dir 0 (start tims cat) 0 = r →
        ∃ s', forced c (objective minsb c.sky tims cat) dir (fuel + 1) (start tims cat) = (s', some (.ok ())) ∧ Best minsb c.sky tims cat s' := by
  have hr : ∀ t ∈ tims, Ready minsb cat t := fun t h => (ht t h).ready
  obtain ⟨chis, hc, hcl, _⟩ := fitChis_ok minsb c.sky cat (getParams cat) (getParams_length cat) tims (tims.map (·.sky)) hr hs
  have hI := images_ok minsb c.sky tims cat hr hs hw chis hc (derivs minsb c.sky tims cat)
  unfold firstDir
  rw [hc]
  dsimp only
  rw [← hda]
  have fin := fun dir => best_of c minsb tims cat dir fuel ht hs hm hpr hro hj chis hc
  rcases hsh with rfl | ⟨st, rfl, h1, h2, h3⟩
  · rcases Lsq.direction_ok sqrt hsq tiny lsqr hls (lsqImgs tims chis) (derivs minsb c.sky tims cat) hI none [] ⟨rfl, rfl, by simp⟩ false (by simp)
      none (by simp) (by simp) with ⟨e1, e2, _⟩ | ⟨_, e2, _⟩ | ⟨X, e1, _, e3, _, e5⟩
    · exact ⟨_, e1, fun dir hd => fin dir (.inl ⟨hd, e2⟩)⟩
    · exact absurd rfl e2
    · refine ⟨_, e1, fun dir hd => fin dir (.inr ⟨X, hd, e3, fun Y hY => e5 Y hY (fun a b _ _ hab => ?_)⟩)⟩
      have : a = b := hab
      rw [this]
  · rw [← column_seen tims chis hcl] at h3
    have hpos : 0 < (derivs minsb c.sky tims cat).length := by
      by_contra h0
      have : (derivs minsb c.sky tims cat) = [] := List.length_eq_zero_iff.1 (by omega)
      rw [this] at h3
      exact h3 (by simp [Lsq.columnNorm])
    obtain ⟨X, e1, e2, _, e4⟩ := Lsq.C38_update_partial sqrt hsq tiny lsqr hls (lsqImgs tims chis) (derivs minsb c.sky tims cat) hI none []
      ⟨rfl, rfl, by simp⟩ false (by simp) st h1 (by simp) ⟨_, by omega, rfl, h3⟩
    refine ⟨_, e1, fun dir hd => fin dir (.inr ⟨X, hd, e2, fun Y hY => e4 Y hY (fun a b ha hb hab => ?_)⟩)⟩
    rw [List.getElem?_eq_getElem (show a < st.cells.length by omega), List.getElem?_eq_getElem (show b < st.cells.length by omega),
      Option.some.injEq, h2.getElem_inj_iff] at hab
    rw [hab]

/-- A star of flux 10 on a sky of level 1, which the tractor takes to be 5. -/
def exTimS : Tim ℚ Unit := { exTim1 with sky := 5 }

/-- The sky is fitted. -/
def exCfgS : Cfg ℚ := { exCfg0 with sky := true }

theorem exSuits : ∀ t ∈ [exTimS], Suits 0 [⟨0, true, [exB 7 1]⟩] t := by
  intro t h
  rw [List.mem_singleton] at h
  subst h
  exact ⟨by simp [Linmod.exB, exTimS, exTim1], by simp [exTimS, exTim1], fun _ _ _ => .inl (fun _ _ _ => rfl)⟩

theorem exSeen_ne : ((derivs 0 true [exTimS] [⟨0, true, [exB 7 1]⟩])[(derivs 0 true [exTimS] [⟨0, true, [exB 7 1]⟩]).length - 1]?).getD [] ≠ [] := by
  rw [← List.length_pos_iff]
  decide +kernel

/-- The fit ends at fluxes and sky levels as likely as the true ones; it began at a log-likelihood of -130. -/
example : (logLike 0 [exTimS] [⟨0, true, [exB 7 1]⟩]).toOption = some (-130) ∧
    (logLike 0 (setSky [exTimS] [1]) (setParams [⟨0, true, [exB 7 1]⟩] [10])).toOption = some 0 ∧
    ∃ (lsqr : Lsq.Problem ℚ → List ℚ) (r : Option (List ℚ)),
      firstDir id 0 lsqr 0 true [exTimS] [⟨0, true, [exB 7 1]⟩] (some (Lsq.sharedMap (R := ℚ) ⟨[0, 1], fun _ => 0⟩).1) = .ok r ∧
      ∃ s' L, forced exCfgS (objective 0 true [exTimS] [⟨0, true, [exB 7 1]⟩]) (fun _ _ _ => r) 1 (start [exTimS] [⟨0, true, [exB 7 1]⟩]) =
          (s', some (.ok ())) ∧
        logLike 0 (setSky [exTimS] s'.sky) (setParams [⟨0, true, [exB 7 1]⟩] s'.flux) = .ok L ∧ 0 ≤ L := by
  have h0 : logLike 0 (setSky [exTimS] [1]) (setParams [⟨0, true, [exB 7 1]⟩] [10]) = .ok 0 := by
    have : (logLike 0 (setSky [exTimS] [1]) (setParams [⟨0, true, [exB 7 1]⟩] [10])).toOption = some 0 := by decide +kernel
    cases h : logLike 0 (setSky [exTimS] [1]) (setParams [⟨0, true, [exB 7 1]⟩] [10]) with
    | error e => rw [h] at this; cases this
    | ok x => rw [h] at this; injection this with this; rw [this]
  refine ⟨by decide +kernel, by rw [h0]; rfl, ?_⟩
  obtain ⟨lsqr, hl⟩ := Lsq.solver_exists (R := ℚ)
  obtain ⟨r, h1, h2⟩ := C138_best_partial id (fun x hx => hx) 0 lsqr hl exCfgS 0 [exTimS] [⟨0, true, [exB 7 1]⟩] 0 exSuits
    (by simp [exTimS, exTim1, Arr.ofLists]) (by simp [exTimS, exTim1, Arr.ofLists]) rfl rfl rfl rfl rfl
    (some (Lsq.sharedMap (R := ℚ) ⟨[0, 1], fun _ => 0⟩).1)
    (.inr ⟨_, rfl, by decide +kernel, by decide, by
      refine ⟨_, List.head_mem exSeen_ne, exTimS, ?_, 0, 0, by decide, by decide, ?_⟩
      · rw [show (List.head _ exSeen_ne).2 = 0 by decide +kernel]; rfl
      · decide +kernel⟩)
  obtain ⟨s', f1, _, _, L', f2, f3⟩ := h2 (fun _ _ _ => r) rfl
  refine ⟨lsqr, r, h1, s', L', f1, f2, ?_⟩
  obtain ⟨L, g1, g2⟩ := f3 ⟨[10], [1], true⟩ rfl rfl
  have g1 : logLike 0 (setSky [exTimS] [1]) (setParams [⟨0, true, [exB 7 1]⟩] [10]) = .ok L := g1
  rw [h0] at g1
  injection g1 with g1
  rw [g1]; exact g2

/-- **C138 (negation).** With the default `shared_params=True`, if the last parameter changes no image (for example, the last source lies outside
all of them), and another does, `getUpdateDirection` raises IndexError and with it forced photometry. -/
theorem C138_shared_false [IsStrictOrderedRing R] (sqrt : R → R) (hsq : Lsq.SqrtOK sqrt) (tiny : R) (lsqr : Lsq.Problem R → List R) (hls : Lsq.Solves lsqr)
    (minsb : R) (sky : Bool) (tims : List (Tim R M)) (cat : List (Source R))
    (ht : ∀ t ∈ tims, Suits minsb cat t) (hs : ∀ t ∈ tims, t.ie.h = t.data.h ∧ t.ie.w = t.data.w) (hw : ∀ t ∈ tims, t.data.w * t.data.h < 2 ^ 31)
    (st : Lsq.Store R) (h1 : st.cells.length = (derivs minsb sky tims cat).length) (h2 : st.cells.Nodup)
    (h3 : ¬ Seen tims (((derivs minsb sky tims cat)[(derivs minsb sky tims cat).length - 1]?).getD []))
    (h4 : ∃ d ∈ derivs minsb sky tims cat, Seen tims d) :
    firstDir sqrt tiny lsqr minsb sky tims cat (some (Lsq.sharedMap st).1) = .error .index := by
  have hr : ∀ t ∈ tims, Ready minsb cat t := fun t h => (ht t h).ready
  obtain ⟨chis, hc, hcl, _⟩ := fitChis_ok minsb sky cat (getParams cat) (getParams_length cat) tims (tims.map (·.sky)) hr hs
  have hI := images_ok minsb sky tims cat hr hs hw chis hc (derivs minsb sky tims cat)
  unfold firstDir
  rw [hc]
  dsimp only
  rw [← column_seen tims chis hcl, not_not] at h3
  obtain ⟨d, hd, h4⟩ := h4
  obtain ⟨k, hk, rfl⟩ := List.getElem_of_mem hd
  refine Lsq.C38_no_effect_false sqrt hsq tiny lsqr hls (lsqImgs tims chis) (derivs minsb sky tims cat) hI none []
      ⟨rfl, rfl, by simp⟩ false (by simp) st h1 (by simp) (fun a ha hab => ?_) ⟨k, hk, ?_⟩
  · rw [List.getElem?_eq_getElem (show a < st.cells.length by omega),
      List.getElem?_eq_getElem (show (derivs minsb sky tims cat).length - 1 < st.cells.length by omega),
      Option.some.injEq, h2.getElem_inj_iff] at hab
    rw [hab]; exact h3
  · rw [column_seen tims chis hcl, List.getElem?_eq_getElem hk]
    exact h4

/-- A second star, outside the image. -/
def exOut : List (Source ℚ) := [⟨0, true, [exB 7 1]⟩, ⟨1, true, [exB 7 1]⟩]

/-- The image, whose world has no model for the second star. -/
def exTimO : Tim ℚ Unit := { exTim1 with W := ⟨fun i _ _ _ => if i = 0 then some ⟨0, 0, some (Arr.ofLists [[1]] 1)⟩ else none, fun _ => none, false⟩ }

theorem exOut_ne : derivs 0 false [exTimO] exOut ≠ [] := by rw [← List.length_pos_iff]; decide +kernel
theorem exOut_ne' : (derivs 0 false [exTimO] exOut).head exOut_ne ≠ [] := by rw [← List.length_pos_iff]; decide +kernel

example : ∃ lsqr : Lsq.Problem ℚ → List ℚ, Lsq.Solves lsqr ∧
    firstDir id 0 lsqr 0 false [exTimO] exOut (some (Lsq.sharedMap (R := ℚ) ⟨[0, 1], fun _ => 0⟩).1) = .error .index ∧
    ∃ r, firstDir id 0 lsqr 0 false [exTimO] exOut none = .ok r := by
  obtain ⟨lsqr, hl⟩ := Lsq.solver_exists (R := ℚ)
  have hS : ∀ t ∈ [exTimO], Suits 0 exOut t := by
    intro t h
    rw [List.mem_singleton] at h
    subst h
    exact ⟨by simp [exOut, Linmod.exB, exTimO, exTim1], by simp [exTimO, exTim1], fun _ _ _ => .inl (fun _ _ _ => rfl)⟩
  have hs : ∀ t ∈ [exTimO], t.ie.h = t.data.h ∧ t.ie.w = t.data.w := by simp [exTimO, exTim1, Arr.ofLists]
  have hw : ∀ t ∈ [exTimO], t.data.w * t.data.h < 2 ^ 31 := by simp [exTimO, exTim1, Arr.ofLists]
  refine ⟨lsqr, hl, C138_shared_false id (fun x hx => hx) 0 lsqr hl 0 false [exTimO] exOut hS hs hw ⟨[0, 1], fun _ => 0⟩ (by decide +kernel) (by decide) ?_ ?_, ?_⟩
  · have : (((derivs 0 false [exTimO] exOut)[(derivs 0 false [exTimO] exOut).length - 1]?).getD []) = [] := by
      rw [← List.length_eq_zero_iff]; decide +kernel
    rw [this]
    rintro ⟨e, he, _⟩
    cases he
  · refine ⟨_, List.head_mem exOut_ne, _, List.head_mem exOut_ne', exTimO, ?_, 0, 0, by decide, by decide, ?_⟩
    · rw [show (List.head _ exOut_ne').2 = 0 by decide +kernel]; rfl
    · decide +kernel
  · obtain ⟨r, h, _⟩ := C138_best_partial id (fun x hx => hx) 0 lsqr hl exCfg0 0 [exTimO] exOut 0 hS hs hw rfl rfl rfl rfl rfl none (.inl rfl)
    exact ⟨r, h⟩

end Verif.Fpfit
