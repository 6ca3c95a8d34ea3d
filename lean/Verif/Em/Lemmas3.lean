import Verif.Em.Lemmas2

namespace Verif.Em

open Verif
open Verif.Mog (Comp Mix)
open Verif.Gauss

theorem mem_pixels {img : Arr ℝ} {x0 y0 : Int} {p : Px} : p ∈ pixels img x0 y0 ↔
    ∃ iy < img.h, ∃ ix < img.w, p = ⟨((x0 + (ix : Int) : Int) : ℝ), ((y0 + (iy : Int) : Int) : ℝ), img.px iy ix⟩ := by
  unfold pixels
  simp only [List.mem_flatMap, List.mem_map, List.mem_range]
  constructor
  · rintro ⟨iy, h1, ix, h2, rfl⟩; exact ⟨iy, h1, ix, h2, rfl⟩
  · rintro ⟨iy, h1, ix, h2, rfl⟩; exact ⟨iy, h1, ix, h2, rfl⟩

theorem cut_zero_iff {m : Mix ℝ} (hm : Good m) (x y : ℝ) : cutMix (fun _ => 100) m x y = 0 ↔ ¬ Lit m x y := by
  constructor
  · rintro h ⟨c, hc, hd⟩
    have := list_zero m (fun c => share (fun _ => 100) c x y) (fun c hc => share_nonneg _ c (hm c hc).2.le x y) h c hc
    rw [share, if_pos hd] at this
    exact absurd this (density_pos (hm c hc).1 (hm c hc).2 x y).ne'
  · intro h
    refine sum_zero _ _ (fun c hc => if_neg (fun hd => h ⟨c, hc, hd⟩))

theorem cut_near {m : Mix ℝ} {x y : ℝ} (h : ∀ c ∈ m, distSq c x y < 100) : cutMix (fun _ => 100) m x y = densityMix m x y :=
  sum_congr _ _ _ (fun c hc => if_pos (h c hc))

theorem good_detOK {m : Mix ℝ} (hm : Good m) : ∀ c ∈ m.map some, detOK c := by
  intro c hc
  obtain ⟨d, hd, rfl⟩ := List.mem_map.1 hc
  obtain ⟨⟨h1, h2, h3⟩, h4⟩ := hm d hd
  simp only [detOK]
  rw [← h1]
  linarith [pow_two d.vxy]

/-- The amplitude of a component that gets light. -/
theorem amp_pos {px : List Px} (hpx : Nonneg px) {m : Mix ℝ} (hm : Good m) {c : Comp ℝ} (hc : c ∈ m) {p : Px} (hp : p ∈ px)
    (hv : 0 < p.v) (hd : distSq c p.x p.y < 100) : 0 < wsum px m c (fun _ => 1) := by
  refine sum_pos px _ (fun q hq => ?_) p hp ?_
  · rw [mul_one]; exact weight_nonneg hpx hm hc q hq
  · rw [mul_one, weight_eq hm hc, zero_add, share, if_pos hd]
    have h1 := density_pos (hm c hc).1 (hm c hc).2 p.x p.y
    have h2 : 0 < cutMix (fun _ => 100) m p.x p.y := by
      refine lt_of_le_of_ne (cutMix_nonneg _ m (fun c hc => (hm c hc).2.le) _ _) (fun h => ?_)
      exact ((cut_zero_iff hm _ _).1 h.symm) ⟨c, hc, hd⟩
    positivity

/-- A step succeeds if every component is near some light. -/
theorem step_succeeds {alpha : ℝ} (ha : 0 ≤ alpha) {px : List Px} (hpx : Nonneg px) {m : Mix ℝ} (hm : Good m)
    (h : ∀ c ∈ m, ∃ p ∈ px, 0 < p.v ∧ distSq c p.x p.y < 100) :
    step alpha px (m.map some) = some ((m.map (updated alpha px m)).map some) := by
  unfold step
  rw [if_pos (good_detOK hm), all_some]
  refine congrArg some ?_
  change m.map (update alpha px m) = _
  rw [List.map_map]
  refine List.map_congr_left (fun c hc => ?_)
  obtain ⟨p, hp, hv, hd⟩ := h c hc
  have := amp_pos hpx hm hc hp hv hd
  unfold update
  rw [if_neg]
  · rfl
  · rw [not_or]
    exact ⟨this.ne', by linarith⟩

theorem run_snoc {alpha : ℝ} {px : List Px} (n : Nat) : ∀ {s s' : State}, run alpha px n s = (s', true) →
    run alpha px (n + 1) s = match step alpha px s' with
      | none => (s', false)
      | some s'' => (s'', true) := by
  induction n with
  | zero =>
    intro s s' h
    cases h
    rw [run]
    cases step alpha px s <;> rfl
  | succ n ih =>
    intro s s' h
    rw [run]
    rw [run] at h
    cases hs : step alpha px s with
    | none => rw [hs] at h; cases h
    | some t =>
      rw [hs] at h
      exact ih h

/-- One step does not make the posterior worse. -/
theorem step_ascent {alpha : ℝ} (ha : 0 ≤ alpha) {px : List Px} (hpx : Nonneg px) {m m' : Mix ℝ} (hm : Good m)
    (h : step alpha px (m.map some) = some (m'.map some)) (hd : 0 < alpha ∨ ∀ c ∈ m', 0 < c.vxx * c.vyy - c.vxy * c.vyx)
    (hn : Near px m) : logPost alpha 0 px m ≤ logPost alpha 0 px m' := by
  cases hm0 : m with
  | nil =>
    subst hm0
    rw [(step_ok h).1]
    exact le_rfl
  | cons c0 l =>
    have hc0 : c0 ∈ m := by rw [hm0]; exact List.mem_cons_self ..
    rw [← hm0]
    have g := step_gain ha hpx hm h hd
    have e : (px.map (fun p => if cutMix (fun _ => 100) m p.x p.y = 0 then 0 else
        p.v * (Real.log (densityMix m' p.x p.y) - Real.log (cutMix (fun _ => 100) m p.x p.y)))).sum =
        (px.map (fun p => p.v * Real.log (densityMix m' p.x p.y))).sum - (px.map (fun p => p.v * Real.log (densityMix m p.x p.y))).sum := by
      rw [← sum_sub]
      refine sum_congr _ _ _ (fun p hp => ?_)
      rcases (hpx p hp).eq_or_lt with h0 | h0
      · rw [← h0]; simp
      · rw [if_neg, cut_near (hn p hp h0)]
        · ring
        · rw [cut_zero_iff hm, not_not]
          exact ⟨c0, hc0, hn p hp h0 c0 hc0⟩
    rw [e] at g
    unfold logPost
    simp only [zero_add, sub_zero]
    linarith

/-- The weights of the components add up to the light of the pixel. -/
theorem weights_sum {m : Mix ℝ} (hm : Good m) (p : Px) :
    (m.map (fun c => weight m c p)).sum = if cutMix (fun _ => 100) m p.x p.y = 0 then 0 else p.v := by
  have e : (m.map (fun c => weight m c p)).sum =
      p.v / cutMix (fun _ => 100) m p.x p.y * (m.map (fun c => share (fun _ => 100) c p.x p.y)).sum := by
    rw [← sum_mul]
    refine sum_congr _ _ _ (fun c hc => ?_)
    rw [weight_eq hm hc, zero_add]
    ring
  rw [e]
  change _ * cutMix (fun _ => 100) m p.x p.y = _
  split
  · rename_i h; rw [h, mul_zero]
  · rename_i h; field_simp

theorem weight_le {px : List Px} (hpx : Nonneg px) {m : Mix ℝ} (hm : Good m) {c : Comp ℝ} (hc : c ∈ m) {p : Px} (hp : p ∈ px) :
    weight m c p ≤ p.v := by
  have h1 : weight m c p ≤ (m.map (fun c => weight m c p)).sum := by
    refine List.single_le_sum ?_ _ (List.mem_map_of_mem (f := fun c => weight m c p) hc)
    intro v hv
    obtain ⟨d, hd, rfl⟩ := List.mem_map.1 hv
    exact weight_nonneg hpx hm hd p hp
  refine h1.trans ?_
  rw [weights_sum hm]
  split
  · exact hpx p hp
  · exact le_rfl

theorem amp_le {px : List Px} (hpx : Nonneg px) {m : Mix ℝ} (hm : Good m) {c : Comp ℝ} (hc : c ∈ m) :
    wsum px m c (fun _ => 1) ≤ flux px :=
  sum_le _ _ _ (fun p hp => by rw [mul_one]; exact weight_le hpx hm hc hp)

/-- The total light of the components. -/
theorem amps_sum {alpha : ℝ} {px : List Px} {m : Mix ℝ} (hm : Good m) :
    ((m.map (updated alpha px m)).map (fun c => c.amp)).sum =
      (px.map (fun p => if cutMix (fun _ => 100) m p.x p.y = 0 then 0 else p.v)).sum := by
  rw [List.map_map]
  have e : ((fun c : Comp ℝ => c.amp) ∘ updated alpha px m) = fun c => (px.map (fun p => weight m c p)).sum := by
    funext c
    change wsum px m c (fun _ => 1) = _
    unfold wsum
    exact sum_congr _ _ _ (fun p _ => mul_one _)
  rw [e, sum_swap m px (fun c p => weight m c p)]
  exact sum_congr _ _ _ (fun p _ => weights_sum hm p)

/-- The covariance is not smaller than the regularisation says. -/
theorem updated_width {alpha : ℝ} (ha : 0 ≤ alpha) {px : List Px} (hpx : Nonneg px) {m : Mix ℝ} (hm : Good m) {c : Comp ℝ} (hc : c ∈ m)
    (hw : wsum px m c (fun _ => 1) ≠ 0) (a b : ℝ) :
    alpha / (flux px + alpha) * (a ^ 2 + b ^ 2) ≤ (updated alpha px m c).vxx * a ^ 2 + 2 * (updated alpha px m c).vxy * (a * b) +
      (updated alpha px m c).vyy * b ^ 2 := by
  have hw0 : ∀ p ∈ px, 0 ≤ weight m c p := fun p hp => weight_nonneg hpx hm hc p hp
  have hW : 0 < wsum px m c (fun _ => 1) :=
    lt_of_le_of_ne (mom_nonneg px (weight m c) _ hw0 (fun _ _ => zero_le_one)) (Ne.symm hw)
  obtain ⟨e1, e2, e3, e4, e5, e6, e7⟩ := updated_eqs alpha px m c hw (by linarith)
  have hle := amp_le hpx hm hc
  have f := form_ge px (weight m c) (fun p => p.x - (updated alpha px m c).mx) (fun p => p.y - (updated alpha px m c).my) hw0 alpha a b
  rw [← e4, ← e5, ← e6] at f
  change 0 < (updated alpha px m c).amp at hW
  change (updated alpha px m c).amp ≤ _ at hle
  generalize updated alpha px m c = c' at *
  have hn : 0 < c'.amp + alpha := by linarith
  have hf : 0 < flux px + alpha := by linarith
  have h1 : alpha / (c'.amp + alpha) * (a ^ 2 + b ^ 2) ≤ c'.vxx * a ^ 2 + 2 * c'.vxy * (a * b) + c'.vyy * b ^ 2 := by
    rw [div_mul_eq_mul_div, div_le_iff₀ hn]
    linarith
  refine le_trans (mul_le_mul_of_nonneg_right ?_ (by positivity)) h1
  exact div_le_div_of_nonneg_left ha hn (by linarith)

/-- The means stay among the pixels. -/
theorem mean_between {px : List Px} (w f : Px → ℝ) (hw : ∀ p ∈ px, 0 ≤ w p) (W : ℝ) (hW : 0 < W) (e : mom px w (fun _ => 1) = W)
    (lo hi : ℝ) (hf : ∀ p ∈ px, lo ≤ f p ∧ f p ≤ hi) (mu : ℝ) (h : mom px w f = W * mu) : lo ≤ mu ∧ mu ≤ hi := by
  have h1 : 0 ≤ mom px w (fun p => f p + (-lo) * 1) := mom_nonneg _ _ _ hw (fun p hp => by linarith [(hf p hp).1])
  have h2 : 0 ≤ mom px w (fun p => hi * 1 + (-1) * f p) := mom_nonneg _ _ _ hw (fun p hp => by linarith [(hf p hp).2])
  rw [mom_add, mom_mul, e, h] at h1
  rw [mom_add, mom_mul, mom_mul, e, h] at h2
  constructor
  · have : 0 ≤ W * (mu - lo) := by linarith
    have := nonneg_of_mul_nonneg_right this hW
    linarith
  · have : 0 ≤ W * (hi - mu) := by linarith
    have := nonneg_of_mul_nonneg_right this hW
    linarith

/-- Squared distances in terms of the smallest width. -/
theorem dist_le {c : Comp ℝ} (hc : Proper c) (k : ℝ) (hk : 0 < k)
    (h : ∀ a b : ℝ, k * (a ^ 2 + b ^ 2) ≤ c.vxx * a ^ 2 + 2 * c.vxy * (a * b) + c.vyy * b ^ 2) (x y : ℝ) :
    k * distSq c x y ≤ (x - c.mx) ^ 2 + (y - c.my) ^ 2 := by
  have hq := form_nonneg hc x y
  obtain ⟨-, -, hd⟩ := hc
  set D := c.vxx * c.vyy - c.vxy ^ 2 with hD
  set dx := x - c.mx
  set dy := y - c.my
  set a := (c.vyy * dx - c.vxy * dy) / D with haa
  set b := (c.vxx * dy - c.vxy * dx) / D with hbb
  have e1 : c.vxx * a ^ 2 + 2 * c.vxy * (a * b) + c.vyy * b ^ 2 = distSq c x y := by
    rw [haa, hbb]; unfold distSq; rw [← hD]; field_simp; rw [hD]; ring
  have e2 : dx * a + dy * b = distSq c x y := by
    rw [haa, hbb]; unfold distSq; rw [← hD]; field_simp; ring
  have h1 := h a b
  rw [e1] at h1
  rcases hq.eq_or_lt with h0 | h0
  · rw [← h0, mul_zero]; positivity
  · have cs : distSq c x y ^ 2 ≤ (dx ^ 2 + dy ^ 2) * (a ^ 2 + b ^ 2) := by
      rw [← e2]; nlinarith [sq_nonneg (dx * b - dy * a)]
    have h2 : k * distSq c x y ^ 2 ≤ (dx ^ 2 + dy ^ 2) * distSq c x y := by
      calc k * distSq c x y ^ 2 ≤ k * ((dx ^ 2 + dy ^ 2) * (a ^ 2 + b ^ 2)) := mul_le_mul_of_nonneg_left cs hk.le
        _ = (dx ^ 2 + dy ^ 2) * (k * (a ^ 2 + b ^ 2)) := by ring
        _ ≤ _ := mul_le_mul_of_nonneg_left h1 (by positivity)
    have h3 : distSq c x y * (k * distSq c x y) ≤ distSq c x y * (dx ^ 2 + dy ^ 2) := by linarith
    exact le_of_mul_le_mul_left h3 h0

/-- With strong regularisation all light stays near. -/
theorem strong_near {alpha : ℝ} (ha : 0 < alpha) {img : Arr ℝ} {x0 y0 : Int} (hpx : Nonneg (pixels img x0 y0))
    (hs : ((img.w : ℝ) ^ 2 + (img.h : ℝ) ^ 2) * (flux (pixels img x0 y0) + alpha) ≤ 100 * alpha) {m m' : Mix ℝ} (hm : Good m)
    (h : step alpha (pixels img x0 y0) (m.map some) = some (m'.map some)) : ∀ p ∈ pixels img x0 y0, ∀ c ∈ m', distSq c p.x p.y < 100 := by
  have hg := step_good ha.le hpx hm h (Or.inl ha)
  obtain ⟨rfl, hw⟩ := step_ok h
  intro p hp c' hc'
  have hP := (hg _ hc').1
  have hA := (hg _ hc').2
  obtain ⟨c, hc, rfl⟩ := List.mem_map.1 hc'
  have hw0 : ∀ p ∈ pixels img x0 y0, 0 ≤ weight m c p := fun p hp => weight_nonneg hpx hm hc p hp
  obtain ⟨e1, e2, e3, -⟩ := updated_eqs alpha _ m c (hw c hc).1 (hw c hc).2
  have hfl : 0 ≤ flux (pixels img x0 y0) := sum_nonneg _ _ hpx
  have hk : 0 < alpha / (flux (pixels img x0 y0) + alpha) := by positivity
  have d := dist_le hP _ hk (updated_width ha.le hpx hm hc (hw c hc).1) p.x p.y
  have bx : ∀ p ∈ pixels img x0 y0, (x0 : ℝ) ≤ p.x ∧ p.x ≤ x0 + img.w - 1 ∧ (y0 : ℝ) ≤ p.y ∧ p.y ≤ y0 + img.h - 1 := by
    intro p hp
    obtain ⟨iy, h1, ix, h2, rfl⟩ := mem_pixels.1 hp
    have g1 : (ix : ℝ) + 1 ≤ img.w := by exact_mod_cast h2
    have g2 : (iy : ℝ) + 1 ≤ img.h := by exact_mod_cast h1
    have g3 : (0 : ℝ) ≤ ix := by positivity
    have g4 : (0 : ℝ) ≤ iy := by positivity
    push_cast
    refine ⟨?_, ?_, ?_, ?_⟩ <;> linarith
  have mx := mean_between (weight m c) (fun p => p.x) hw0 _ hA e1 _ _ (fun p hp => ⟨(bx p hp).1, (bx p hp).2.1⟩) _ e2
  have my := mean_between (weight m c) (fun p => p.y) hw0 _ hA e1 _ _ (fun p hp => ⟨(bx p hp).2.2.1, (bx p hp).2.2.2⟩) _ e3
  have b := bx p hp
  have sx : (p.x - (updated alpha (pixels img x0 y0) m c).mx) ^ 2 < (img.w : ℝ) ^ 2 := by
    apply sq_lt_sq'
    · linarith [mx.2, b.1]
    · linarith [mx.1, b.2.1]
  have sy : (p.y - (updated alpha (pixels img x0 y0) m c).my) ^ 2 < (img.h : ℝ) ^ 2 := by
    apply sq_lt_sq'
    · linarith [my.2, b.2.2.1]
    · linarith [my.1, b.2.2.2]
  have t : alpha / (flux (pixels img x0 y0) + alpha) * distSq (updated alpha (pixels img x0 y0) m c) p.x p.y <
      alpha / (flux (pixels img x0 y0) + alpha) * 100 := by
    refine lt_of_le_of_lt d (lt_of_lt_of_le (add_lt_add sx sy) ?_)
    rw [div_mul_eq_mul_div, le_div_iff₀ (by positivity)]
    linarith
  exact lt_of_mul_lt_mul_left t hk.le

end Verif.Em
