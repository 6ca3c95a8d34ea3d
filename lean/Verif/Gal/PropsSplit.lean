import Verif.Gal.FreeLemmas
import Verif.Gal.PropsMask
import Mathlib.Tactic.FieldSimp

/-!
# C97: galaxies with a hybrid PSF
-/

namespace Verif.Gal

open Verif.Psf (Zeros)
open Verif.Mog (Mix Comp)

variable {R : Type} [Field R] [LinearOrder R] [IsStrictOrderedRing R]

/-- The share of a component of size `σ` that is drawn analytically in a Fourier transform of half size `h`: all if `h` is at
most `n1` sigmas, nothing from `n2` sigmas, linear between. -/
def share (h n1 n2 σ : R) : R :=
  if h ≤ n1 * σ then 1 else if n2 * σ ≤ h then 0 else (n2 - h / σ) / (n2 - n1)

theorem share_range (h n1 n2 σ : R) (hn : n1 < n2) (hσ : 0 ≤ σ) (hh : 0 < h) : 0 ≤ share h n1 n2 σ ∧ share h n1 n2 σ ≤ 1 := by
  unfold share
  by_cases a : h ≤ n1 * σ
  · rw [if_pos a]; exact ⟨zero_le_one, le_refl _⟩
  · rw [if_neg a]
    by_cases b : n2 * σ ≤ h
    · rw [if_pos b]; exact ⟨le_refl _, zero_le_one⟩
    · rw [if_neg b]
      push Not at a b
      have hσ' : 0 < σ := by
        rcases lt_or_eq_of_le hσ with h | h
        · exact h
        · rw [← h, mul_zero] at b; linarith
      have d : 0 < n2 - n1 := by linarith
      have l1 : h / σ < n2 := by rw [div_lt_iff₀ hσ']; exact b
      have l2 : n1 < h / σ := by rw [lt_div_iff₀ hσ']; exact a
      exact ⟨le_of_lt (div_pos (by linarith) d), by rw [div_le_one d]; linarith⟩

/-- What is known about one component. -/
theorem comp_facts (sqrt : R → R) (hs : ∀ x, 0 ≤ x → 0 ≤ sqrt x ∧ sqrt x ^ 2 = x) (pW : Nat) (hp : 0 < pW) (n1 n2 : R)
    (h0 : 0 ≤ n1) (hn : n1 < n2) (hb : n2 ≤ 500000) (c : Comp R) (hc : 0 ≤ trace c) :
    (inMog pW n2 c = true ↔ 0 < share ((pW : R) / 2) n1 n2 (sqrt (trace c))) ∧
    (inFft pW n1 c = true ↔ share ((pW : R) / 2) n1 n2 (sqrt (trace c)) < 1) ∧
    (inMog pW n2 c = true → mogWeight sqrt pW n1 n2 c = share ((pW : R) / 2) n1 n2 (sqrt (trace c))) ∧
    (inFft pW n1 c = true → fftWeight sqrt pW n1 n2 c = 1 - share ((pW : R) / 2) n1 n2 (sqrt (trace c))) ∧
    (¬ (inMog pW n2 c = true ∧ inFft pW n1 c = true) → share ((pW : R) / 2) n1 n2 (sqrt (trace c)) = 0 ∨
      share ((pW : R) / 2) n1 n2 (sqrt (trace c)) = 1) := by
  obtain ⟨s0, s2⟩ := hs _ hc
  generalize hσ : sqrt (trace c) = σ at *
  have hpw : (1 : R) ≤ pW := by exact_mod_cast hp
  generalize hh : (pW : R) / 2 = h at *
  have hh0 : 1 / 2 ≤ h := by rw [← hh]; linarith
  have n20 : 0 < n2 := lt_of_le_of_lt h0 hn
  have mogIff : inMog pW n2 c = true ↔ h < n2 * σ := by
    unfold inMog
    rw [decide_eq_true_eq, hh, ← s2, ← mul_pow]
    constructor
    · intro h; exact lt_of_pow_lt_pow_left₀ 2 (by positivity) h
    · intro h; exact pow_lt_pow_left₀ h (by linarith) (by norm_num)
  have fftIff : inFft pW n1 c = true ↔ n1 * σ < h := by
    unfold inFft
    rw [decide_eq_true_eq, hh, ← s2, ← mul_pow, gt_iff_lt]
    constructor
    · intro h; exact lt_of_pow_lt_pow_left₀ 2 (by linarith) h
    · intro h; exact pow_lt_pow_left₀ h (by positivity) (by norm_num)
  have d : 0 < n2 - n1 := by linarith
  have small : ∀ n : R, n ≤ n2 → n * (1 / 1000000) ≤ h := by
    intro n hn'
    have : n * (1 / 1000000) ≤ 500000 * (1 / 1000000) := by
      apply mul_le_mul_of_nonneg_right (by linarith) (by norm_num)
    linarith [show (500000 : R) * (1 / 1000000) = 1 / 2 by norm_num]
  have hm : nsig sqrt pW c = h / max (1 / 1000000) σ := by unfold nsig; rw [hσ, hh]
  have pm : (0 : R) < max (1 / 1000000) σ := lt_of_lt_of_le (by norm_num) (le_max_left _ _)
  rw [mogIff, fftIff]
  unfold mogWeight fftWeight
  rw [hm]
  -- three cases
  by_cases a : h ≤ n1 * σ
  · -- analytic only
    have hx : share h n1 n2 σ = 1 := by unfold share; rw [if_pos a]
    have big : 1 / 1000000 ≤ σ := by
      by_contra hcon
      push Not at hcon
      have n1p : 0 < n1 := by
        rcases lt_or_eq_of_le h0 with h | h
        · exact h
        · rw [← h, zero_mul] at a; linarith
      have l1 : n1 * σ < n1 * (1 / 1000000) := mul_lt_mul_of_pos_left hcon n1p
      have l2 := small n1 (le_of_lt hn)
      linarith
    have σp : 0 < σ := lt_of_lt_of_le (by norm_num) big
    rw [hx, max_eq_right big]
    have l : h / σ ≤ n1 := by rw [div_le_iff₀ σp]; exact a
    have lt2 : n1 * σ < n2 * σ := mul_lt_mul_of_pos_right hn σp
    refine ⟨⟨fun _ => zero_lt_one, fun _ => by linarith⟩, ⟨fun h => by linarith, fun h => by linarith⟩, fun _ => ?_,
      fun h => by linarith, fun _ => Or.inr rfl⟩
    apply min_eq_left
    rw [le_div_iff₀ d]
    linarith
  · by_cases b : n2 * σ ≤ h
    · have hx : share h n1 n2 σ = 0 := by unfold share; rw [if_neg a, if_pos b]
      rw [hx]
      push Not at a
      have l : n2 ≤ h / max (1 / 1000000) σ := by
        rw [le_div_iff₀ pm]
        rcases le_total (1 / 1000000) σ with h' | h'
        · rw [max_eq_right h']; exact b
        · rw [max_eq_left h']; exact small n2 (le_refl _)
      refine ⟨⟨fun h => by linarith, fun h => absurd h (lt_irrefl _)⟩, ⟨fun _ => zero_lt_one, fun _ => a⟩, fun h => by linarith,
        fun _ => ?_, fun _ => Or.inl rfl⟩
      rw [sub_zero]
      apply min_eq_left
      rw [le_div_iff₀ d]
      linarith
    · have hx : share h n1 n2 σ = (n2 - h / σ) / (n2 - n1) := by unfold share; rw [if_neg a, if_neg b]
      rw [hx]
      push Not at a b
      have big : 1 / 1000000 ≤ σ := by
        by_contra hcon
        push Not at hcon
        have l1 : n2 * σ < n2 * (1 / 1000000) := mul_lt_mul_of_pos_left hcon n20
        have l2 := small n2 (le_refl _)
        linarith
      have σp : 0 < σ := lt_of_lt_of_le (by norm_num) big
      rw [max_eq_right big]
      have l1 : h / σ < n2 := by rw [div_lt_iff₀ σp]; exact b
      have l2 : n1 < h / σ := by rw [lt_div_iff₀ σp]; exact a
      refine ⟨⟨fun _ => div_pos (by linarith) d, fun _ => b⟩, ⟨fun _ => by rw [div_lt_one d]; linarith, fun _ => a⟩, fun _ => ?_,
        fun _ => ?_, fun h => absurd ⟨b, a⟩ h⟩
      · apply min_eq_right
        rw [div_le_one d]; linarith
      · rw [min_eq_right (by rw [div_le_one d]; linarith)]
        field_simp
        ring

/-- A list, or None if it is empty. -/
def orNone {α : Type} (l : List α) : Option (List α) := if l.isEmpty then none else some l

/-- **C97 (the split).** With `0 ≤ n1 < n2` (below 500000), a positive size, components of non-negative size: no assertion
fails, and each component is divided between the two methods in the shares `s` and `1 - s`, the analytic part being moved to the
centre of the galaxy; parts with nothing in them are left out. -/
theorem C97_split (sqrt : R → R) (hs : ∀ x, 0 ≤ x → 0 ≤ sqrt x ∧ sqrt x ^ 2 = x) (pW : Nat) (hp : 0 < pW) (n1 n2 px py : R)
    (h0 : 0 ≤ n1) (hn : n1 < n2) (hb : n2 ≤ 500000) (amix : Mix R) (hc : ∀ c ∈ amix, 0 ≤ trace c) :
    split sqrt pW n1 n2 px py amix = .ok
      (orNone ((amix.filter (fun c => 0 < share ((pW : R) / 2) n1 n2 (sqrt (trace c)))).map (fun c =>
        { c with amp := c.amp * share ((pW : R) / 2) n1 n2 (sqrt (trace c)), mx := c.mx + px, my := c.my + py })),
       orNone ((amix.filter (fun c => share ((pW : R) / 2) n1 n2 (sqrt (trace c)) < 1)).map (fun c =>
        { c with amp := c.amp * (1 - share ((pW : R) / 2) n1 n2 (sqrt (trace c))) }))) := by
  have facts := fun c hcm => comp_facts sqrt hs pW hp n1 n2 h0 hn hb c (hc c hcm)
  generalize hS : (fun c : Comp R => share ((pW : R) / 2) n1 n2 (sqrt (trace c))) = sh at *
  have hS' : ∀ c : Comp R, share ((pW : R) / 2) n1 n2 (sqrt (trace c)) = sh c := fun c => by rw [← hS]
  simp only [hS'] at facts ⊢
  have rng : ∀ c ∈ amix, 0 ≤ sh c ∧ sh c ≤ 1 := by
    intro c hcm
    rw [← hS']
    have hpw : (1 : R) ≤ pW := by exact_mod_cast hp
    exact share_range _ _ _ _ hn (hs _ (hc c hcm)).1 (by linarith)
  have f1 : amix.filter (inMog pW n2) = amix.filter (fun c => decide (0 < sh c)) := by
    apply List.filter_congr
    intro c hcm
    rw [Bool.eq_iff_iff, decide_eq_true_eq]
    exact (facts c hcm).1
  have f2 : amix.filter (inFft pW n1) = amix.filter (fun c => decide (sh c < 1)) := by
    apply List.filter_congr
    intro c hcm
    rw [Bool.eq_iff_iff, decide_eq_true_eq]
    exact (facts c hcm).2.1
  unfold split
  simp only [f1, f2]
  by_cases he : (amix.filter (fun c => decide (0 < sh c))).isEmpty = true
  · rw [if_pos he]
    have e0 : amix.filter (fun c => decide (0 < sh c)) = [] := by simpa using he
    have z : ∀ c ∈ amix, sh c = 0 := by
      intro c hcm
      have := List.filter_eq_nil_iff.mp e0 c hcm
      simp only [decide_eq_true_eq, not_lt] at this
      exact le_antisymm this (rng c hcm).1
    rw [e0]
    have m : (amix.filter (fun c => decide (sh c < 1))).map (fun c => { c with amp := c.amp * (1 - sh c) }) =
        amix.filter (fun c => decide (sh c < 1)) := by
      conv_rhs => rw [← List.map_id (amix.filter (fun c => decide (sh c < 1)))]
      apply List.map_congr_left
      intro c hcm
      rw [z c (List.mem_filter.mp hcm).1]
      simp
    rw [m]
    rfl
  · rw [if_neg he]
    -- the weights
    have wm : ∀ c ∈ amix.filter (fun c => decide (0 < sh c)),
        (if amix.any (fun c => inMog pW n2 c && inFft pW n1 c) then mogWeight sqrt pW n1 n2 c else 1) = sh c := by
      intro c hcm
      obtain ⟨c1, c2⟩ := List.mem_filter.mp hcm
      rw [decide_eq_true_eq] at c2
      by_cases hr : amix.any (fun c => inMog pW n2 c && inFft pW n1 c) = true
      · rw [if_pos hr]
        exact (facts c c1).2.2.1 ((facts c c1).1.mpr c2)
      · rw [if_neg hr]
        rw [Bool.not_eq_true, List.any_eq_false] at hr
        have := hr c c1
        rw [Bool.and_eq_true] at this
        rcases (facts c c1).2.2.2.2 this with h | h
        · rw [h] at c2; exact absurd c2 (lt_irrefl _)
        · exact h.symm
    have wf : ∀ c ∈ amix.filter (fun c => decide (sh c < 1)),
        (if amix.any (fun c => inMog pW n2 c && inFft pW n1 c) then fftWeight sqrt pW n1 n2 c else 1) = 1 - sh c := by
      intro c hcm
      obtain ⟨c1, c2⟩ := List.mem_filter.mp hcm
      rw [decide_eq_true_eq] at c2
      by_cases hr : amix.any (fun c => inMog pW n2 c && inFft pW n1 c) = true
      · rw [if_pos hr]
        exact (facts c c1).2.2.2.1 ((facts c c1).2.1.mpr c2)
      · rw [if_neg hr]
        rw [Bool.not_eq_true, List.any_eq_false] at hr
        have := hr c c1
        rw [Bool.and_eq_true] at this
        rcases (facts c c1).2.2.2.2 this with h | h
        · rw [h, sub_zero]
        · rw [h] at c2; exact absurd c2 (lt_irrefl _)
    rw [if_pos]
    · have e1 : ∀ l : List (Comp R), l.isEmpty = false → orNone l = some l := by
        intro l hl
        unfold orNone
        rw [hl]
        rfl
      congr 1
      rw [Prod.mk.injEq]
      constructor
      · rw [e1 _ (by rw [List.isEmpty_map]; simpa using he)]
        congr 1
        apply List.map_congr_left
        intro c hcm
        rw [wm c hcm]
      · unfold orNone
        rw [List.isEmpty_map]
        by_cases hf : (amix.filter (fun c => decide (sh c < 1))).isEmpty = true
        · rw [if_pos hf, if_pos hf]
        · rw [if_neg hf, if_neg hf]
          congr 1
          apply List.map_congr_left
          intro c hcm
          rw [wf c hcm]
    · rw [Bool.and_eq_true, List.all_eq_true, List.all_eq_true]
      constructor
      · intro c hcm
        rw [Bool.and_eq_true, decide_eq_true_eq, decide_eq_true_eq, wm c hcm]
        obtain ⟨c1, c2⟩ := List.mem_filter.mp hcm
        rw [decide_eq_true_eq] at c2
        exact ⟨c2, (rng c c1).2⟩
      · intro c hcm
        rw [Bool.and_eq_true, decide_eq_true_eq, decide_eq_true_eq, wf c hcm]
        obtain ⟨c1, c2⟩ := List.mem_filter.mp hcm
        rw [decide_eq_true_eq] at c2
        have := (rng c c1).1
        exact ⟨by linarith, by linarith⟩

/-- Three components, of which one is analytic, one divided and one Fourier only. -/
def exMix : Mix ℚ := [⟨4, 0, 0, 25, 0, 0, 0⟩, ⟨8, 0, 0, 4, 0, 0, 0⟩, ⟨16, 0, 0, 1, 0, 0, 0⟩]

/-- A square root of the squares below 100. -/
def exSqrt (x : ℚ) : ℚ := ((List.range 10).find? (fun i : Nat => (i : ℚ) ^ 2 = x)).getD 0

/-- Size 14: 7 pixels are 1.4, 3.5 and 7 sigmas. -/
example : (split exSqrt 14 3 4 10 20 exMix).map (fun p => (p.1.map (List.map fun c => (c.amp, c.mx, c.my)),
    p.2.map (List.map fun c => (c.amp, c.mx, c.my)))) =
    .ok (some [(4, 10, 20), (4, 10, 20)], some [(4, 0, 0), (16, 0, 0)]) := by
  decide +kernel

/-- The sum over the components of amplitude times `f`. -/
def sumOf (f : Comp R → R) (m : Option (Mix R)) : R := ((m.getD []).map (fun c => c.amp * f c)).sum

omit [LinearOrder R] [IsStrictOrderedRing R] in
theorem sum_filter_map {α : Type} (l : List α) (p : α → Bool) (f : α → R) (h : ∀ c ∈ l, p c = false → f c = 0) :
    ((l.filter p).map f).sum = (l.map f).sum := by
  induction l with
  | nil => rfl
  | cons a l ih =>
    have := ih (fun c hc => h c (by simp [hc]))
    rw [List.filter_cons]
    by_cases hp : p a = true
    · rw [if_pos hp, List.map_cons, List.sum_cons, this, List.map_cons, List.sum_cons]
    · rw [if_neg hp, this, List.map_cons, List.sum_cons, h a (by simp) (by simpa using hp), zero_add]

/-- **C97 (nothing lost or counted twice).** Suppose that a component of unit amplitude contributes `F c` to something by the
Fourier method and that the analytic method gives the same contribution for the component moved to the centre.  Then the
contributions of the two parts add up to that of the whole profile. -/
theorem C97_total (sqrt : R → R) (hs : ∀ x, 0 ≤ x → 0 ≤ sqrt x ∧ sqrt x ^ 2 = x) (pW : Nat) (hp : 0 < pW) (n1 n2 px py : R)
    (h0 : 0 ≤ n1) (hn : n1 < n2) (hb : n2 ≤ 500000) (amix : Mix R) (hc : ∀ c ∈ amix, 0 ≤ trace c)
    (A F : Comp R → R) (hA : ∀ (c : Comp R) a, A { c with amp := a, mx := c.mx + px, my := c.my + py } = F c)
    (hF : ∀ (c : Comp R) a, F { c with amp := a } = F c) :
    ∃ mm ff, split sqrt pW n1 n2 px py amix = .ok (mm, ff) ∧ sumOf A mm + sumOf F ff = sumOf F (some amix) := by
  refine ⟨_, _, C97_split sqrt hs pW hp n1 n2 px py h0 hn hb amix hc, ?_⟩
  have e : ∀ (f : Comp R → R) (l : Mix R), sumOf f (orNone l) = (l.map (fun c => c.amp * f c)).sum := by
    intro f l
    unfold orNone sumOf
    by_cases h : l.isEmpty = true
    · rw [if_pos h]
      have : l = [] := by simpa using h
      rw [this]; rfl
    · rw [if_neg h]; rfl
  rw [e, e, List.map_map, List.map_map]
  have rng : ∀ c ∈ amix, 0 ≤ share ((pW : R) / 2) n1 n2 (sqrt (trace c)) ∧ share ((pW : R) / 2) n1 n2 (sqrt (trace c)) ≤ 1 := by
    intro c hcm
    have hpw : (1 : R) ≤ pW := by exact_mod_cast hp
    exact share_range _ _ _ _ hn (hs _ (hc c hcm)).1 (by linarith)
  have e1 : ((fun c : Comp R => c.amp * A c) ∘ fun c : Comp R =>
      { c with amp := c.amp * share ((pW : R) / 2) n1 n2 (sqrt (trace c)), mx := c.mx + px, my := c.my + py }) =
      fun c => c.amp * share ((pW : R) / 2) n1 n2 (sqrt (trace c)) * F c := by
    funext c
    simp only [Function.comp, hA]
  have e2 : ((fun c : Comp R => c.amp * F c) ∘ fun c : Comp R =>
      { c with amp := c.amp * (1 - share ((pW : R) / 2) n1 n2 (sqrt (trace c))) }) =
      fun c => c.amp * (1 - share ((pW : R) / 2) n1 n2 (sqrt (trace c))) * F c := by
    funext c
    simp only [Function.comp, hF]
  rw [e1, e2, sum_filter_map, sum_filter_map]
  · unfold sumOf
    simp only [Option.getD_some]
    rw [← List.sum_map_add]
    congr 1
    apply List.map_congr_left
    intro c _
    ring
  · intro c hcm h
    rw [decide_eq_false_iff_not, not_lt] at h
    rw [le_antisymm (rng c hcm).2 h, sub_self, mul_zero, zero_mul]
  · intro c hcm h
    rw [decide_eq_false_iff_not, not_lt] at h
    rw [le_antisymm h (rng c hcm).1, mul_zero, zero_mul]

example : (split exSqrt 14 3 4 10 20 exMix).map (fun p => sumOf (fun _ => 1) p.1 + sumOf (fun _ => 1) p.2) =
    .ok (sumOf (fun _ => 1) (some exMix)) := by
  decide +kernel

variable [FloorRing R]

/-- **C97 (rendering in a mask).** A galaxy with a hybrid PSF, its centre in the mask: in every pixel of the mask the model is the sum
of the analytic rendering of one part of the profile (convolved with the PSF's mixture) and the Fourier rendering of the
other; the parts are those of `C97_split`. -/
theorem C97_hybrid (E : Env R) (hz : Zeros E.lz) (hl : E.lib = true) (hs : ∀ x, 0 ≤ x → 0 ≤ E.sqrt x ∧ E.sqrt x ^ 2 = x)
    (S : Scene R) (img : Arr R) (mix : R → R → Mix R) (g : Galaxy R) (n1 n2 : R) (force : Bool) (v : Option R)
    (px py : R) (m : ModelMask) (h1 : px ≤ m.x0 + m.w - 1) (h1' : (m.x0 : R) ≤ px)
    (h2 : py ≤ m.y0 + m.h - 1) (h2' : (m.y0 : R) ≤ py) (hh : img.h % 2 = 1) (hw : img.w % 2 = 1)
    (h8 : 8 < m.w ∨ 8 < m.h ∨ 8 < img.w ∨ 8 < img.h) (h9 : m.w < 2048 ∧ m.h < 2048 ∧ img.w ≤ 4096 ∧ img.h ≤ 4096)
    (h0 : 0 ≤ n1) (hn : n1 < n2) (hb : n2 ≤ 500000) (hc : ∀ c ∈ g.sheared px py, 0 ≤ trace c) :
    ∃ (n : Nat) (mm ff : Option (Mix R)) (pad G : Arr R) (ix iy : Int),
      split E.sqrt n n1 n2 px py (g.sheared px py) = .ok (mm, ff) ∧
      unitPatch E S (.hybrid img mix) g ⟨some (n1, n2), force, v⟩ px py (some m) = .ok (some ⟨m.x0, m.y0, some G⟩) ∧
      G.h = m.h ∧ G.w = m.w ∧ Embedded img n pad ∧ (-(1 / 2) ≤ px - ix ∧ px - ix ≤ 1 / 2) ∧
      (-(1 / 2) ≤ py - iy ∧ py - iy ≤ 1 / 2) ∧
      ∀ r c : Nat, r < m.h → c < m.w →
        G.px r c = convShifted E pad ff (px - ix) (py - iy) (((n / 2 : Nat) : Int) - 1 + (m.y0 + r - iy))
            (((n / 2 : Nat) : Int) - 1 + (m.x0 + c - ix)) +
          match mm with
          | none => 0
          | some mm =>
            match m.mask with
            | none => E.value (Mog.convolve mm (mix px py)) (m.y0 + r) (m.x0 + c)
            | some k => if k r c then E.valueMasked (Mog.convolve mm (mix px py)) (m.y0 + r) (m.x0 + c) else 0 := by
  obtain ⟨b8, b9⟩ := mask_size px py m img h1 h1' h2 h2' h8 h9
  obtain ⟨mm, ff, hsp⟩ : ∃ mm ff, split E.sqrt (fftSize ((maskHalf px py m img.h img.w : Int) : R)) n1 n2 px py
      (g.sheared px py) = .ok (mm, ff) :=
    ⟨_, _, C97_split E.sqrt hs (fftSize ((maskHalf px py m img.h img.w : Int) : R)) (by omega) n1 n2 px py h0 hn hb
      (g.sheared px py) hc⟩
  obtain ⟨pad, G, ix, iy, e, e1, e2, e3, -, e4, e5, -, e7, -⟩ := mask_core E hz S (.hybrid img mix) img g ⟨some (n1, n2), force, v⟩
    px py m h1 h1' h2 h2' hh hw _ rfl mm ff hsp
  refine ⟨_, mm, ff, pad, addMog E (mix px py) mm m G, ix, iy, hsp, ?_, ?_, ?_, e3, e4, e5, ?_⟩
  · unfold unitPatch
    simp only [e]
    rw [if_pos]
    · rfl
    · unfold addMog
      split <;> simp [Patches.Patch.shape, e1, e2]
  · unfold addMog
    split <;> simp [e1]
  · unfold addMog
    split <;> simp [e2]
  · intro r c hr hcc
    rw [← e7 hl b8 b9 r c hr hcc]
    unfold addMog
    split
    · simp
    · simp only [mogInMask]
      congr 1
      cases m.mask <;> rfl

/-- A hybrid PSF: the part drawn analytically is 100 y + x in the pixel (x, y), whatever it is. -/
example : view [(3, 5), (0, 0)] (unitPatch (exEnv true) exScene (.hybrid exStamp fun _ _ => []) { exGalaxy with sheared := fun _ _ =>
      [⟨3, 0, 0, 16, 0, 0, 0⟩, ⟨5, 0, 0, 1 / 4, 0, 0, 0⟩] } ⟨some (3, 4), false, none⟩ 25 11 (some ⟨20, 8, 9, 10, none⟩)) =
    some [20, 8, 9, 10, 5 * 13 + 1125, 820] := by
  decide +kernel

/-- **C97 (negation).** With `inner_real_nsigma = outer_real_nsigma` a component is lost if the half size is exactly that many sigmas;
with the inner above the outer, all components between are lost. -/
theorem C97_order_false :
    (split exSqrt 12 3 3 10 20 exMix).map (fun p => (p.1.map (List.map fun c => c.amp), p.2.map (List.map fun c => c.amp))) =
      .ok (some [4], some [16]) ∧
    (split exSqrt 14 4 3 10 20 exMix).map (fun p => (p.1.map (List.map fun c => c.amp), p.2.map (List.map fun c => c.amp))) =
      .ok (some [4], some [16]) := by
  decide +kernel

end Verif.Gal
