import Verif.Em.LemmasSky
import Verif.Em.Props

namespace Verif.Em

open Verif
open Verif.Mog (Comp Mix)
open Verif.Gauss

/-! ## C106 -/

theorem start_sky {img : Arr ℝ} (ht : 0 < total img) (n : Nat) :
    0 < img.w * img.h ∧ 0 < (if n + 1 = 0 then 0 else 0.01 * total img / ((img.w * img.h : Nat) : ℝ)) ∧
      ∀ x0 y0, ∃ p ∈ pixels img x0 y0, p.v ≠ 0 := by
  have h0 : ∀ x0 y0, ∃ p ∈ pixels img x0 y0, p.v ≠ 0 := by
    intro x0 y0
    by_contra hn
    push Not at hn
    have := flux_pixels img x0 y0 id
    rw [sum_zero _ (fun p : Px => id p.v) hn, List.map_id] at this
    unfold total at ht
    linarith
  have h1 : 0 < img.w * img.h := by
    obtain ⟨p, hp, -⟩ := h0 0 0
    rw [← pixels_length img 0 0]
    exact List.length_pos_of_mem hp
  refine ⟨h1, ?_, h0⟩
  rw [if_neg (Nat.succ_ne_zero n)]
  have : (0 : ℝ) < ((img.w * img.h : Nat) : ℝ) := by exact_mod_cast h1
  positivity

/-- **C106, one step.** A step of `em_fit_2d_reg2` from a mixture with positive amplitudes and positive definite covariances and a positive
sky, on an image with light and without negative pixels, gives again such a mixture and sky (unless a covariance has become singular, which
`alpha > 0` excludes), and the posterior is worse by at most `approx * (sum of amplitudes) * flux / sky`. -/
theorem C106_step {approx alpha : ℝ} (h0 : 0 < approx) (ha : 0 ≤ alpha) (img : Arr ℝ) (x0 y0 : Int) (hpx : Nonneg (pixels img x0 y0))
    (hl : ∃ p ∈ pixels img x0 y0, p.v ≠ 0) (m m' : Mix ℝ) (hm : Good m) (b b' : ℝ) (hb : 0 < b)
    (h : step2 approx alpha (img.w * img.h) (pixels img x0 y0) ⟨m.map some, some b⟩ = some ⟨m'.map some, some b'⟩)
    (hd : 0 < alpha ∨ ∀ c ∈ m', 0 < c.vxx * c.vyy - c.vxy * c.vyx) :
    Good m' ∧ 0 < b' ∧ m'.length = m.length ∧
      logPost alpha b (pixels img x0 y0) m - approx * ((m.map (fun c => c.amp)).sum * flux (pixels img x0 y0) / b) ≤
        logPost alpha b' (pixels img x0 y0) m' := by
  rw [← pixels_length img x0 y0] at h
  have hnp : 0 < (pixels img x0 y0).length := by
    obtain ⟨p, hp, -⟩ := hl
    exact List.length_pos_of_mem hp
  have g := step2_good ha hnp hl hm hb h hd
  refine ⟨g.1, g.2, ?_, step2_ascent h0 ha hpx hl hm hb h hd⟩
  rw [(step2_ok h).1, List.length_map]

/-- **C106, flux of a fit.** After one or more steps of a successful fit (with numbers as results) to an image of positive sum: the amplitudes
are positive, so is the sky, and amplitudes plus sky times number of pixels add up to the sum of the absolute values of the pixels. -/
theorem C106_fit {approx alpha : ℝ} (ha : 0 ≤ alpha) (img : Arr ℝ) (x0 y0 : Int) (ht : 0 < total img) (m : Mix ℝ) (hm : Good m)
    (n : Nat) (m' : Mix ℝ) (b' : ℝ) (h : fitReg2 img x0 y0 alpha (n + 1) approx (m.map some) = (⟨m'.map some, some b'⟩, true)) :
    (∀ c ∈ m', 0 < c.amp) ∧ 0 < b' ∧
      (m'.map (fun c => c.amp)).sum + ((img.w * img.h : Nat) : ℝ) * b' = (img.ravel.map (fun v => |v|)).sum := by
  obtain ⟨hnp, hb, hl⟩ := start_sky ht n
  obtain ⟨m1, b1, -, g1, p1, h2⟩ := run2_good ha hnp (hl x0 y0) hm hb n h
  refine ⟨?_, ?_, ?_⟩
  · intro c' hc'
    obtain ⟨rfl, -, hw⟩ := step2_ok h2
    obtain ⟨c, hc, rfl⟩ := List.mem_map.1 hc'
    refine lt_of_le_of_ne ?_ (Ne.symm (hw c hc).1)
    exact mom_nonneg _ _ _ (fun p _ => weight2_nonneg approx p1 g1 hc p) (fun _ _ => zero_le_one)
  · obtain ⟨-, rfl, -⟩ := step2_ok h2
    obtain ⟨p, hp, hv⟩ := hl x0 y0
    have := sum_pos (pixels img x0 y0) (skyShare approx b1 m1) (fun p _ => sky_nonneg approx p1 g1 p) p hp (sky_pos approx p1 g1 p hv)
    have hn : (0 : ℝ) < ((img.w * img.h : Nat) : ℝ) := by exact_mod_cast hnp
    positivity
  · rw [amps_sky hnp g1 p1 h2]
    exact flux_pixels img x0 y0 (fun v => |v|)

/-- **C106, more steps.** One more step of a fit to an image without negative pixels makes the posterior worse by at most
`approx * flux^2 / sky`, `sky` the level after the steps so far. -/
theorem C106_ascent {approx alpha : ℝ} (h0 : 0 < approx) (ha : 0 < alpha) (img : Arr ℝ) (x0 y0 : Int) (hpx : ∀ v ∈ img.ravel, 0 ≤ v)
    (ht : 0 < total img) (m : Mix ℝ) (hm : Good m) (n : Nat) (m2 : Mix ℝ) (b2 : ℝ)
    (h : fitReg2 img x0 y0 alpha (n + 2) approx (m.map some) = (⟨m2.map some, some b2⟩, true)) :
    ∃ (m1 : Mix ℝ) (b1 : ℝ), fitReg2 img x0 y0 alpha (n + 1) approx (m.map some) = (⟨m1.map some, some b1⟩, true) ∧
      Good m1 ∧ Good m2 ∧ 0 < b1 ∧ 0 < b2 ∧
      logPost alpha b1 (pixels img x0 y0) m1 - approx * (total img ^ 2 / b1) ≤ logPost alpha b2 (pixels img x0 y0) m2 := by
  obtain ⟨hnp, hb, hl⟩ := start_sky ht n
  have hpx' : Nonneg (pixels img x0 y0) := by
    intro p hp
    obtain ⟨iy, h1, ix, h2, rfl⟩ := mem_pixels.1 hp
    refine hpx _ ?_
    unfold Arr.ravel
    exact List.mem_flatMap.2 ⟨iy, List.mem_range.2 h1, List.mem_map.2 ⟨ix, List.mem_range.2 h2, rfl⟩⟩
  have hfl : flux (pixels img x0 y0) = total img := by
    have := flux_pixels img x0 y0 id
    rw [List.map_id] at this
    exact this
  obtain ⟨m1, b1, h1, g1, p1, h2⟩ := run2_good ha.le hnp (hl x0 y0) hm hb (n + 1) h
  obtain ⟨s1, s2, -, s4⟩ := C106_step h0 ha.le img x0 y0 hpx' (hl x0 y0) m1 m2 g1 b1 b2 p1 h2 (Or.inl ha)
  refine ⟨m1, b1, h1, g1, s1, p1, s2, le_trans ?_ s4⟩
  obtain ⟨-, -, f⟩ := C106_fit ha.le img x0 y0 ht m hm n m1 b1 h1
  have e : (img.ravel.map (fun v => |v|)).sum = total img := by
    have := sum_congr img.ravel (fun v => |v|) (fun v => v) (fun v hv => abs_of_nonneg (hpx v hv))
    rw [this, List.map_id']
    rfl
  rw [e] at f
  have hA : (m1.map (fun c => c.amp)).sum ≤ total img := by
    have : 0 ≤ ((img.w * img.h : Nat) : ℝ) * b1 := by positivity
    linarith
  rw [hfl]
  have : (m1.map (fun c => c.amp)).sum * total img / b1 ≤ total img ^ 2 / b1 := by
    rw [pow_two]
    gcongr
  have := mul_le_mul_of_nonneg_left this h0.le
  linarith

/-- **C106, negative pixels (negation).** Negative pixels count as light of the sky: after any step the sky is at least the sum of their
absolute values divided by the number of pixels, also if the image is negative everywhere but in one pixel. -/
theorem C106_negative_false {approx alpha : ℝ} (ha : 0 ≤ alpha) (img : Arr ℝ) (x0 y0 : Int) (ht : 0 < total img) (m : Mix ℝ) (hm : Good m)
    (n : Nat) (m' : Mix ℝ) (b' : ℝ) (h : fitReg2 img x0 y0 alpha (n + 1) approx (m.map some) = (⟨m'.map some, some b'⟩, true)) :
    (img.ravel.map (fun v => max (-v) 0)).sum ≤ ((img.w * img.h : Nat) : ℝ) * b' := by
  obtain ⟨hnp, hb, hl⟩ := start_sky ht n
  obtain ⟨m1, b1, -, g1, p1, h2⟩ := run2_good ha hnp (hl x0 y0) hm hb n h
  obtain ⟨-, rfl, -⟩ := step2_ok h2
  have hn : ((img.w * img.h : Nat) : ℝ) ≠ 0 := by exact_mod_cast hnp.ne'
  rw [mul_div_cancel₀ _ hn, ← flux_pixels img x0 y0 (fun v => max (-v) 0)]
  refine sum_le _ _ _ (fun p _ => ?_)
  by_cases hp : p.v ≤ 0
  · rw [skyShare, if_pos hp, abs_of_nonpos hp, max_eq_left (by linarith)]
  · rw [max_eq_right (by linarith)]
    exact sky_nonneg approx p1 g1 p

/-! ### An example: one pixel, one component -/

/-- One pixel. -/
noncomputable def exOne : Arr ℝ := ⟨1, 1, fun _ _ => 1⟩

theorem exOne_pixels : pixels exOne 0 0 = [⟨0, 0, 1⟩] := by
  simp only [pixels, exOne, List.range_succ, List.range_zero]
  norm_num

theorem exOne_total : total exOne = 1 := by
  simp only [total, Arr.ravel, exOne, List.range_succ, List.range_zero]
  norm_num

theorem reach (a v : ℝ) (hv : 0 < v) (hv1 : v ≤ 1) : 0 < maxD (1 / 100) (⟨a, 0, 0, v, 0, 0, v⟩ : Comp ℝ) := by
  have hs : Real.sqrt (v * v - 0 ^ 2) = v := by rw [pow_two, mul_zero, sub_zero, Real.sqrt_mul_self hv.le]
  have e : maxD (1 / 100) (⟨a, 0, 0, v, 0, 0, v⟩ : Comp ℝ) = -2 * Real.log (1 / 100 * (2 * Real.pi * v)) := by
    simp only [maxD]
    rw [show v * v - (0 + 0 : ℝ) / 2 * ((0 + 0) / 2) = v * v - 0 ^ 2 by ring, sqrt_tpd, hs]
    norm_num
    ring
  rw [e]
  have hpi := Real.pi_pos
  have hpi4 := Real.pi_le_four
  have : Real.log (1 / 100 * (2 * Real.pi * v)) < 0 := by
    refine Real.log_neg (by positivity) ?_
    nlinarith
  linarith

theorem exOne_step (a v b : ℝ) (ha : 0 < a) (hv : 0 < v) (hv1 : v ≤ 1) (hb : 0 < b) : ∃ a' v' b', 0 < a' ∧ 0 < v' ∧ v' ≤ 1 ∧ 0 < b' ∧
    step2 (1 / 100) 1 1 [⟨0, 0, 1⟩] ⟨[some ⟨a, 0, 0, v, 0, 0, v⟩], some b⟩ = some ⟨[some ⟨a', 0, 0, v', 0, 0, v'⟩], some b'⟩ := by
  have hg : Good [⟨a, 0, 0, v, 0, 0, v⟩] := by
    intro c hc
    rw [List.mem_singleton] at hc
    subst hc
    exact ⟨⟨rfl, hv, by simp only; nlinarith⟩, ha⟩
  set c : Comp ℝ := ⟨a, 0, 0, v, 0, 0, v⟩ with hc
  have hd0 : distSq c 0 0 = 0 := by simp [distSq, hc]
  have hM : 0 < maxD (1 / 100) c := reach a v hv hv1
  have hmem : c ∈ [c] := List.mem_singleton_self c
  have hz : share (maxD (1 / 100)) c 0 0 = density c 0 0 := by rw [share, hd0, if_pos hM]
  have hden := density_pos (hg c hmem).1 ha 0 0
  have hcut : cutMix (maxD (1 / 100)) [c] 0 0 = density c 0 0 := by
    rw [← hz]
    simp [cutMix, share]
  have hw := weight2_eq (1 / 100) (psky := b) hg hmem ⟨0, 0, 1⟩ zero_le_one
  have hk := sky_eq (1 / 100) hb hg ⟨0, 0, 1⟩ zero_le_one
  simp only [hz, hcut, one_mul] at hw hk
  have hw0 : 0 < weight2 (1 / 100) b [c] c ⟨0, 0, 1⟩ := by rw [hw]; positivity
  set w := weight2 (1 / 100) b [c] c ⟨0, 0, 1⟩ with hwd
  refine ⟨w, 1 / (w + 1), b / (b + density c 0 0), hw0, by positivity, ?_, by positivity, ?_⟩
  · rw [div_le_one (by positivity)]
    linarith
  · unfold step2
    have hok : ∀ o ∈ (⟨[some c], some b⟩ : State2).comps, detOK2 o := good_detOK2 hg
    rw [if_pos hok]
    have ea : State.all [some c] = some [c] := all_some [c]
    simp only [ea]
    refine congrArg some ?_
    have eu : update2 (1 / 100) b 1 [⟨0, 0, 1⟩] [c] c = some ⟨w, 0, 0, 1 / (w + 1), 0, 0, 1 / (w + 1)⟩ := by
      have e1 : wsum2 (1 / 100) b [⟨0, 0, 1⟩] [c] c (fun _ => 1) = w := by simp [wsum2, hwd]
      unfold update2
      rw [e1, if_neg (by rw [not_or]; exact ⟨hw0.ne', by linarith⟩)]
      simp only [updated2, e1]
      simp [wsum2, hc]
    simp only [List.map_cons, List.map_nil, eu, List.sum_cons, List.sum_nil, hk]
    simp

theorem exOne_run (n : Nat) : ∃ m' b', fitReg2 exOne 0 0 1 (n + 1) (1 / 100) (List.map some [⟨1, 0, 0, 1, 0, 0, 1⟩]) =
    (⟨List.map some m', some b'⟩, true) := by
  have key : ∀ k (a v b : ℝ), 0 < a → 0 < v → v ≤ 1 → 0 < b → ∃ m' b',
      run2 (1 / 100) 1 1 [⟨0, 0, 1⟩] k ⟨[some ⟨a, 0, 0, v, 0, 0, v⟩], some b⟩ = (⟨List.map some m', some b'⟩, true) := by
    intro k
    induction k with
    | zero => intro a v b _ _ _ _; exact ⟨[⟨a, 0, 0, v, 0, 0, v⟩], b, rfl⟩
    | succ k ih =>
      intro a v b h1 h2 h3 h4
      obtain ⟨a', v', b', h1', h2', h3', h4', hs⟩ := exOne_step a v b h1 h2 h3 h4
      rw [run2, hs]
      exact ih a' v' b' h1' h2' h3' h4'
  unfold fitReg2
  simp only [exOne_pixels, exOne_total]
  exact key (n + 1) 1 1 _ one_pos one_pos le_rfl (by norm_num [exOne])

theorem exOne_good : Good [⟨1, 0, 0, 1, 0, 0, 1⟩] := by
  intro c hc
  rw [List.mem_singleton] at hc
  subst hc
  norm_num [Proper]

/-- The flux of the pixel is shared between the component and the sky. -/
example (n : Nat) : ∃ (m' : Mix ℝ) (b' : ℝ), fitReg2 exOne 0 0 1 (n + 1) (1 / 100) (List.map some [⟨1, 0, 0, 1, 0, 0, 1⟩]) =
    (⟨List.map some m', some b'⟩, true) ∧ 0 < b' ∧ (m'.map (fun c => c.amp)).sum + b' = 1 := by
  obtain ⟨m', b', h⟩ := exOne_run n
  obtain ⟨-, h2, h3⟩ := C106_fit zero_le_one exOne 0 0 (by rw [exOne_total]; exact one_pos) _ exOne_good n m' b' h
  refine ⟨m', b', h, h2, ?_⟩
  have e : (exOne.ravel.map (fun v => |v|)).sum = 1 := by
    simp [Arr.ravel, exOne, List.range_succ]
  have e2 : ((exOne.w * exOne.h : Nat) : ℝ) = 1 := by norm_num [exOne]
  rw [e, e2, one_mul] at h3
  exact h3

/-- And the posterior of another step. -/
example (n : Nat) : ∃ (m1 m2 : Mix ℝ) (b1 b2 : ℝ), 0 < b1 ∧
    fitReg2 exOne 0 0 1 (n + 1) (1 / 100) (List.map some [⟨1, 0, 0, 1, 0, 0, 1⟩]) = (⟨List.map some m1, some b1⟩, true) ∧
    fitReg2 exOne 0 0 1 (n + 2) (1 / 100) (List.map some [⟨1, 0, 0, 1, 0, 0, 1⟩]) = (⟨List.map some m2, some b2⟩, true) ∧
    logPost 1 b1 [⟨0, 0, 1⟩] m1 - 1 / 100 * (1 / b1) ≤ logPost 1 b2 [⟨0, 0, 1⟩] m2 := by
  obtain ⟨m2, b2, h⟩ := exOne_run (n + 1)
  have hpx : ∀ v ∈ exOne.ravel, 0 ≤ v := by simp [Arr.ravel, exOne, List.range_succ]
  obtain ⟨m1, b1, h1, -, -, p1, -, hle⟩ := C106_ascent (by norm_num) one_pos exOne 0 0 hpx (by rw [exOne_total]; exact one_pos) _ exOne_good n
    m2 b2 h
  rw [exOne_pixels, exOne_total, one_pow] at hle
  exact ⟨m1, m2, b1, b2, p1, h1, h, hle⟩

/-- A bright pixel and a negative one: mean 1/2, brightest pixel 2; the sky is at least 1/2. -/
example : ∃ (m' : Mix ℝ) (b' : ℝ), fitReg2 ⟨1, 2, fun _ c => if c = 0 then 2 else -1⟩ 0 0 1 1 (1 / 100) (List.map some [⟨1, 0, 0, 1, 0, 0, 1⟩]) =
    (⟨List.map some m', some b'⟩, true) ∧ 1 / 2 ≤ b' := by
  have ht : total ⟨1, 2, fun _ c => if c = 0 then 2 else -1⟩ = 1 := by
    simp only [total, Arr.ravel, List.range_succ, List.range_zero]
    norm_num
  have hp : (⟨0, 0, 2⟩ : Px) ∈ pixels ⟨1, 2, fun _ c => if c = 0 then 2 else -1⟩ 0 0 :=
    mem_pixels.2 ⟨0, by decide, 0, by decide, by norm_num⟩
  have hs := step2_succeeds (approx := 1 / 100) (alpha := 1) zero_le_one (npix := 2 * 1)
    (px := pixels ⟨1, 2, fun _ c => if c = 0 then 2 else -1⟩ 0 0) exOne_good (b := 0.01 * 1 / ((2 * 1 : Nat) : ℝ)) (by norm_num) (by
      intro c hc
      rw [List.mem_singleton] at hc
      subst hc
      refine ⟨_, hp, two_pos, ?_⟩
      have : distSq (⟨1, 0, 0, 1, 0, 0, 1⟩ : Comp ℝ) 0 0 = 0 := by simp [distSq]
      rw [this]
      exact reach 1 1 one_pos le_rfl)
  have h : ∀ s', step2 (1 / 100) 1 (2 * 1) (pixels ⟨1, 2, fun _ c => if c = 0 then 2 else -1⟩ 0 0)
      ⟨List.map some [⟨1, 0, 0, 1, 0, 0, 1⟩], some (0.01 * 1 / ((2 * 1 : Nat) : ℝ))⟩ = some s' →
      fitReg2 ⟨1, 2, fun _ c => if c = 0 then 2 else -1⟩ 0 0 1 1 (1 / 100) (List.map some [⟨1, 0, 0, 1, 0, 0, 1⟩]) = (s', true) := by
    intro s' hs'
    unfold fitReg2
    simp only [ht, one_ne_zero, if_false]
    rw [run2, hs']
    rfl
  have h1 := h _ hs
  refine ⟨_, _, h1, ?_⟩
  have := C106_negative_false zero_le_one _ 0 0 (by rw [ht]; exact one_pos) _ exOne_good 0 _ _ h1
  have e : ((⟨1, 2, fun _ c => if c = 0 then 2 else -1⟩ : Arr ℝ).ravel.map (fun v => max (-v) 0)).sum = 1 := by
    simp only [Arr.ravel, List.range_succ, List.range_zero]
    norm_num
  rw [e] at this
  norm_num at this ⊢
  linarith

end Verif.Em
