import Verif.Em.Lemmas4

/-!
# Properties of fitting mixtures to images
-/

namespace Verif.Em

open Verif
open Verif.Mog (Comp Mix)
open Verif.Gauss

/-! ## Example: four equal pixels, two round Gaussians -/

/-- Two by two pixels. -/
noncomputable def exImg : Arr ℝ := ⟨2, 2, fun _ _ => 1 / 4⟩

theorem exImg_nonneg : Nonneg (pixels exImg (-1) (-1)) := by
  intro p hp
  obtain ⟨iy, _, ix, _, rfl⟩ := mem_pixels.1 hp
  norm_num [exImg]

theorem init_good (K : Nat) (hK : 0 < K) : Good (initParams K) := by
  intro c hc
  obtain ⟨i, hi, rfl⟩ := List.mem_map.1 hc
  have hK' : (0 : ℝ) < K := by exact_mod_cast hK
  refine ⟨⟨rfl, ?_, ?_⟩, ?_⟩
  · simp only; positivity
  · simp only [ne_eq, OfNat.ofNat_ne_zero, not_false_eq_true, zero_pow, sub_zero]; positivity
  · simp only; positivity

theorem exImg_near : Near (pixels exImg (-1) (-1)) (initParams 2) := by
  intro p hp _ c hc
  obtain ⟨iy, h1, ix, h2, rfl⟩ := mem_pixels.1 hp
  obtain ⟨i, hi, rfl⟩ := List.mem_map.1 hc
  have a : ix = 0 ∨ ix = 1 := by have : ix < 2 := h2; omega
  have b : iy = 0 ∨ iy = 1 := by have : iy < 2 := h1; omega
  have k : i = 0 ∨ i = 1 := by have := List.mem_range.1 hi; omega
  rcases a with rfl | rfl <;> rcases b with rfl | rfl <;> rcases k with rfl | rfl <;> norm_num [distSq]

theorem exImg_light : ∃ p ∈ pixels exImg (-1) (-1), 0 < p.v :=
  ⟨⟨-1, -1, 1 / 4⟩, mem_pixels.2 ⟨0, by decide, 0, by decide, by norm_num [exImg]⟩, by norm_num⟩

theorem exImg_flux : flux (pixels exImg (-1) (-1)) = 1 := by
  simp only [flux, pixels, exImg, List.range_succ, List.range_zero]
  norm_num

/-! ## C104 -/

open Classical in
/-- **C104, one step.** A step of `em_fit_2d_reg` from a mixture with positive amplitudes and positive definite covariances, on an image
without negative pixels, gives again such a mixture (unless a covariance has become singular, which `alpha > 0` excludes), and the posterior
of the new mixture is at least that of the old one without what was cut off at ten standard deviations; both over the pixels within reach. -/
theorem C104_step {alpha : ℝ} (ha : 0 ≤ alpha) {px : List Px} (hpx : Nonneg px) {m m' : Mix ℝ} (hm : Good m)
    (h : step alpha px (m.map some) = some (m'.map some)) (hd : 0 < alpha ∨ ∀ c ∈ m', 0 < c.vxx * c.vyy - c.vxy * c.vyx) :
    Good m' ∧
    (px.map (fun p => if Lit m p.x p.y then p.v * Real.log (cutMix (fun _ => 100) m p.x p.y) else 0)).sum
        - (m.map (fun c => c.amp)).sum - alpha / 2 * (m.map wishart).sum ≤
      (px.map (fun p => if Lit m p.x p.y then p.v * Real.log (densityMix m' p.x p.y) else 0)).sum
        - (m'.map (fun c => c.amp)).sum - alpha / 2 * (m'.map wishart).sum := by
  refine ⟨step_good ha hpx hm h hd, ?_⟩
  have g := step_gain ha hpx hm h hd
  have e : (px.map (fun p => if cutMix (fun _ => 100) m p.x p.y = 0 then 0 else
      p.v * (Real.log (densityMix m' p.x p.y) - Real.log (cutMix (fun _ => 100) m p.x p.y)))).sum =
      (px.map (fun p => if Lit m p.x p.y then p.v * Real.log (densityMix m' p.x p.y) else 0)).sum -
      (px.map (fun p => if Lit m p.x p.y then p.v * Real.log (cutMix (fun _ => 100) m p.x p.y) else 0)).sum := by
    rw [← sum_sub]
    refine sum_congr _ _ _ (fun p _ => ?_)
    by_cases hl : Lit m p.x p.y
    · rw [if_neg (by rw [cut_zero_iff hm, not_not]; exact hl), if_pos hl, if_pos hl]; ring
    · rw [if_pos ((cut_zero_iff hm _ _).2 hl), if_neg hl, if_neg hl, sub_zero]
  rw [e] at g
  linarith

/-- **C104, a fit.** With `alpha > 0` and an image that has light and no negative pixels, as long as all the light is within ten standard
deviations of every component `em_fit_2d_reg` succeeds, the result is a mixture with positive amplitudes and positive definite covariances,
and its posterior (Poisson likelihood times inverse Wishart prior of strength `alpha`) is at least that of the starting mixture. -/
theorem C104_ascent {alpha : ℝ} (ha : 0 < alpha) (img : Arr ℝ) (x0 y0 : Int) (hpx : Nonneg (pixels img x0 y0))
    (hl : ∃ p ∈ pixels img x0 y0, 0 < p.v) (m : Mix ℝ) (hm : Good m) (n : Nat)
    (hn : ∀ j < n, ∀ m', fitReg img x0 y0 alpha j (m.map some) = (m'.map some, true) → Near (pixels img x0 y0) m') :
    ∃ m', fitReg img x0 y0 alpha n (m.map some) = (m'.map some, true) ∧ m'.length = m.length ∧ Good m' ∧
      logPost alpha 0 (pixels img x0 y0) m ≤ logPost alpha 0 (pixels img x0 y0) m' := by
  induction n with
  | zero => exact ⟨m, rfl, rfl, hm, le_rfl⟩
  | succ n ih =>
    obtain ⟨m1, h1, hlen, hg, hle⟩ := ih (fun j hj => hn j (Nat.lt_succ_of_lt hj))
    have near := hn n (Nat.lt_succ_self n) m1 h1
    obtain ⟨p, hp, hv⟩ := hl
    have hs := step_succeeds ha.le hpx hg (fun c hc => ⟨p, hp, hv, near p hp hv c hc⟩)
    refine ⟨_, ?_, ?_, step_good ha.le hpx hg hs (Or.inl ha), hle.trans (step_ascent ha.le hpx hg hs (Or.inl ha) near)⟩
    · have := run_snoc n h1
      rw [hs] at this
      exact this
    · rw [List.length_map, hlen]

/-- **C104, strong regularisation.** If `(width^2 + height^2) (flux + alpha) <= 100 alpha` then after a start near the light no light is ever
cut off: the fit succeeds with any number of steps, and more steps never give a worse posterior. -/
theorem C104_strong {alpha : ℝ} (ha : 0 < alpha) (img : Arr ℝ) (x0 y0 : Int) (hpx : Nonneg (pixels img x0 y0))
    (hl : ∃ p ∈ pixels img x0 y0, 0 < p.v) (hs : ((img.w : ℝ) ^ 2 + (img.h : ℝ) ^ 2) * (flux (pixels img x0 y0) + alpha) ≤ 100 * alpha)
    (m : Mix ℝ) (hm : Good m) (hn : Near (pixels img x0 y0) m) (n k : Nat) (hnk : n ≤ k) :
    ∃ m1 m2, fitReg img x0 y0 alpha n (m.map some) = (m1.map some, true) ∧ fitReg img x0 y0 alpha k (m.map some) = (m2.map some, true) ∧
      Good m1 ∧ Good m2 ∧ logPost alpha 0 (pixels img x0 y0) m1 ≤ logPost alpha 0 (pixels img x0 y0) m2 := by
  have all := strong_all ha hpx hl hs hm hn
  induction k, hnk using Nat.le_induction with
  | base =>
    obtain ⟨m1, h1, hg, -⟩ := all n
    exact ⟨m1, m1, h1, h1, hg, hg, le_rfl⟩
  | succ k hk ih =>
    obtain ⟨m1, m2, h1, h2, g1, g2, hle⟩ := ih
    obtain ⟨m2', h2', -, near⟩ := all k
    have e : m2' = m2 := by
      have := h2'.symm.trans h2
      exact (List.map_injective_iff.2 (Option.some_injective _)) (Prod.mk.inj this).1
    subst e
    obtain ⟨p, hp, hv⟩ := hl
    have hst := step_succeeds ha.le hpx g2 (fun c hc => ⟨p, hp, hv, near p hp hv c hc⟩)
    refine ⟨m1, _, h1, ?_, g1, step_good ha.le hpx g2 hst (Or.inl ha), hle.trans (step_ascent ha.le hpx g2 hst (Or.inl ha) near)⟩
    have := run_snoc k h2
    rw [hst] at this
    exact this

/-- The defaults of `fromStamp` with two components and `alpha = 1`. -/
example (n k : Nat) (h : n ≤ k) : ∃ m1 m2, fitReg exImg (-1) (-1) 1 n ((initParams 2).map some) = (m1.map some, true) ∧
    fitReg exImg (-1) (-1) 1 k ((initParams 2).map some) = (m2.map some, true) ∧ Good m1 ∧ Good m2 ∧
    logPost 1 0 (pixels exImg (-1) (-1)) m1 ≤ logPost 1 0 (pixels exImg (-1) (-1)) m2 :=
  C104_strong one_pos exImg (-1) (-1) exImg_nonneg exImg_light (by rw [exImg_flux]; norm_num [exImg]) (initParams 2)
    (init_good 2 (by norm_num)) exImg_near n k h

end Verif.Em
