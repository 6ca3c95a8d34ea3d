import Verif.Em.Lemmas4

namespace Verif.Em

open Verif
open Verif.Mog (Comp Mix)
open Verif.Gauss

theorem zraw2_eq (approx : ℝ) {c : Comp ℝ} (hc : Proper c) (x y : ℝ) : zraw2 approx c x y = share (maxD approx) c x y := by
  obtain ⟨h1, h2, h3⟩ := hc
  unfold zraw2 share
  simp only [← h1]
  have e0 : c.vxx * c.vyy - (c.vxy + c.vxy) / 2 * ((c.vxy + c.vxy) / 2) = c.vxx * c.vyy - c.vxy ^ 2 := by ring
  rw [e0]
  have e : c.vyy / (c.vxx * c.vyy - c.vxy ^ 2) * (x - c.mx) * (x - c.mx) + -2 * ((c.vxy + c.vxy) / 2) / (c.vxx * c.vyy - c.vxy ^ 2) *
      (x - c.mx) * (y - c.my) + c.vxx / (c.vxx * c.vyy - c.vxy ^ 2) * (y - c.my) * (y - c.my) = distSq c x y := by
    unfold distSq
    field_simp
    ring
  rw [e]
  by_cases h : distSq c x y < maxD approx c
  · rw [if_neg (not_le.2 h), if_pos h, sqrt_tpd]
    unfold density
    congr 2
    ring
  · rw [if_pos (not_lt.1 h), if_neg h]

theorem zsum2_eq (approx : ℝ) {m : Mix ℝ} (hm : Good m) (x y : ℝ) : zsum2 approx m x y = cutMix (maxD approx) m x y :=
  sum_congr _ _ _ (fun c hc => zraw2_eq approx (hm c hc).1 x y)

/-- What is cut off from a component is less than `approx` times its amplitude. -/
theorem cut_small {approx : ℝ} (h0 : 0 < approx) {c : Comp ℝ} (hc : Proper c) (ha : 0 < c.amp) (x y : ℝ) (h : maxD approx c ≤ distSq c x y) :
    density c x y ≤ approx * c.amp := by
  obtain ⟨h1, h2, h3⟩ := hc
  unfold maxD at h
  simp only [← h1] at h
  have e0 : c.vxx * c.vyy - (c.vxy + c.vxy) / 2 * ((c.vxy + c.vxy) / 2) = c.vxx * c.vyy - c.vxy ^ 2 := by ring
  rw [e0, sqrt_tpd] at h
  unfold density
  have hs : 0 < Real.sqrt (c.vxx * c.vyy - c.vxy ^ 2) := Real.sqrt_pos.2 h3
  have hpi := Real.pi_pos
  set S := 2 * Real.pi * Real.sqrt (c.vxx * c.vyy - c.vxy ^ 2) with hS
  have hSp : 0 < S := by positivity
  have hl : Real.log (approx * S) / -0.5 = -2 * Real.log (approx * S) := by norm_num; ring
  rw [hl] at h
  have hx : Real.exp (-distSq c x y / 2) ≤ approx * S := by
    rw [← Real.le_log_iff_exp_le (by positivity)]
    linarith
  calc c.amp / S * Real.exp (-distSq c x y / 2) ≤ c.amp / S * (approx * S) := by gcongr
    _ = approx * c.amp := by field_simp

theorem cut_loss {approx : ℝ} (h0 : 0 < approx) {m : Mix ℝ} (hm : Good m) (x y : ℝ) :
    densityMix m x y ≤ cutMix (maxD approx) m x y + approx * (m.map (fun c => c.amp)).sum := by
  unfold densityMix cutMix
  rw [← sum_mul, ← sum_add]
  refine sum_le _ _ _ (fun c hc => ?_)
  split
  · have := (hm c hc).2
    have : 0 ≤ approx * c.amp := by positivity
    linarith
  · rename_i h
    rw [zero_add]
    exact cut_small h0 (hm c hc).1 (hm c hc).2 x y (not_lt.1 h)

theorem weight2_eq (approx : ℝ) {psky : ℝ} {m : Mix ℝ} (hm : Good m) {c : Comp ℝ} (hc : c ∈ m) (p : Px) (hp : 0 ≤ p.v) :
    weight2 approx psky m c p = p.v * share (maxD approx) c p.x p.y / (psky + cutMix (maxD approx) m p.x p.y) := by
  unfold weight2
  rw [zsum2_eq approx hm, zraw2_eq approx (hm c hc).1]
  split
  · rename_i h
    rw [le_antisymm h hp, zero_mul, zero_div]
  · split
    · rename_i h
      have := list_zero m (fun c => share (maxD approx) c p.x p.y) (fun c hc => share_nonneg _ c (hm c hc).2.le p.x p.y) h c hc
      rw [this]
      simp
    · rw [add_comm psky]

theorem sky_eq (approx : ℝ) {psky : ℝ} (hs : 0 < psky) {m : Mix ℝ} (hm : Good m) (p : Px) (hp : 0 ≤ p.v) :
    skyShare approx psky m p = p.v * (psky / (psky + cutMix (maxD approx) m p.x p.y)) := by
  unfold skyShare
  rw [zsum2_eq approx hm]
  split
  · rename_i h
    rw [le_antisymm h hp, zero_mul, abs_zero]
  · split
    · rename_i h
      rw [h, add_zero, div_self hs.ne', mul_one]
    · rw [add_comm psky]

theorem weight2_nonneg (approx : ℝ) {psky : ℝ} (hs : 0 < psky) {m : Mix ℝ} (hm : Good m) {c : Comp ℝ} (hc : c ∈ m) (p : Px) :
    0 ≤ weight2 approx psky m c p := by
  by_cases hp : p.v ≤ 0
  · rw [weight2, if_pos hp]
  · rw [weight2_eq approx hm hc p (not_le.1 hp).le]
    have h1 := share_nonneg (maxD approx) c (hm c hc).2.le p.x p.y
    have h2 := cutMix_nonneg (maxD approx) m (fun c hc => (hm c hc).2.le) p.x p.y
    have h3 := (not_le.1 hp).le
    positivity

theorem sky_nonneg (approx : ℝ) {psky : ℝ} (hs : 0 < psky) {m : Mix ℝ} (hm : Good m) (p : Px) : 0 ≤ skyShare approx psky m p := by
  by_cases hp : p.v ≤ 0
  · rw [skyShare, if_pos hp]; exact abs_nonneg _
  · rw [sky_eq approx hs hm p (not_le.1 hp).le]
    have h2 := cutMix_nonneg (maxD approx) m (fun c hc => (hm c hc).2.le) p.x p.y
    have h3 := (not_le.1 hp).le
    positivity

theorem sky_pos (approx : ℝ) {psky : ℝ} (hs : 0 < psky) {m : Mix ℝ} (hm : Good m) (p : Px) (hp : p.v ≠ 0) : 0 < skyShare approx psky m p := by
  by_cases h0 : p.v ≤ 0
  · rw [skyShare, if_pos h0]; exact abs_pos.2 hp
  · have h3 := not_le.1 h0
    rw [sky_eq approx hs hm p h3.le]
    have h2 := cutMix_nonneg (maxD approx) m (fun c hc => (hm c hc).2.le) p.x p.y
    positivity

/-- Every pixel is shared out, negative ones as if they were positive. -/
theorem shares_sum (approx : ℝ) {psky : ℝ} (hs : 0 < psky) {m : Mix ℝ} (hm : Good m) (p : Px) :
    (m.map (fun c => weight2 approx psky m c p)).sum + skyShare approx psky m p = |p.v| := by
  by_cases hp : p.v ≤ 0
  · rw [skyShare, if_pos hp, sum_zero, zero_add]
    intro c _
    rw [weight2, if_pos hp]
  · have h3 := not_le.1 hp
    have h2 := cutMix_nonneg (maxD approx) m (fun c hc => (hm c hc).2.le) p.x p.y
    rw [sky_eq approx hs hm p h3.le, abs_of_pos h3]
    have e : (m.map (fun c => weight2 approx psky m c p)).sum =
        p.v / (psky + cutMix (maxD approx) m p.x p.y) * (m.map (fun c => share (maxD approx) c p.x p.y)).sum := by
      rw [← sum_mul]
      refine sum_congr _ _ _ (fun c hc => ?_)
      rw [weight2_eq approx hm hc p h3.le]
      ring
    rw [e]
    change _ * cutMix (maxD approx) m p.x p.y + _ = _
    field_simp
    ring

theorem updated2_eqs (approx psky alpha : ℝ) (px : List Px) (m : Mix ℝ) (c : Comp ℝ) (hw : wsum2 approx psky px m c (fun _ => 1) ≠ 0)
    (hn : wsum2 approx psky px m c (fun _ => 1) + alpha ≠ 0) :
    let c' := updated2 approx psky alpha px m c
    let w := weight2 approx psky m c
    mom px w (fun _ => 1) = c'.amp ∧
    mom px w (fun p => p.x) = c'.amp * c'.mx ∧ mom px w (fun p => p.y) = c'.amp * c'.my ∧
    (c'.amp + alpha) * c'.vxx = alpha + mom px w (fun p => (p.x - c.mx) * (p.x - c.mx)) ∧
    (c'.amp + alpha) * c'.vxy = mom px w (fun p => (p.x - c.mx) * (p.y - c.my)) ∧
    (c'.amp + alpha) * c'.vyy = alpha + mom px w (fun p => (p.y - c.my) * (p.y - c.my)) ∧
    c'.vxy = c'.vyx := by
  have h : ∀ a b : ℝ, a ≠ 0 → a * (b / a) = b := fun a b ha => by field_simp
  exact ⟨rfl, (h _ _ hw).symm, (h _ _ hw).symm, h _ _ hn, h _ _ hn, h _ _ hn, rfl⟩

theorem good_detOK2 {m : Mix ℝ} (hm : Good m) : ∀ c ∈ m.map some, detOK2 c := by
  intro c hc
  obtain ⟨d, hd, rfl⟩ := List.mem_map.1 hc
  obtain ⟨⟨h1, h2, h3⟩, h4⟩ := hm d hd
  simp only [detOK2]
  rw [← h1]
  linarith [show d.vxx * d.vyy - (d.vxy + d.vxy) / 2 * ((d.vxy + d.vxy) / 2) = d.vxx * d.vyy - d.vxy ^ 2 by ring]

theorem step2_ok {approx alpha : ℝ} {npix : Nat} {px : List Px} {m m' : Mix ℝ} {b b' : ℝ}
    (h : step2 approx alpha npix px ⟨m.map some, some b⟩ = some ⟨m'.map some, some b'⟩) :
    m' = m.map (updated2 approx b alpha px m) ∧ b' = (px.map (skyShare approx b m)).sum / npix ∧
      ∀ c ∈ m, wsum2 approx b px m c (fun _ => 1) ≠ 0 ∧ wsum2 approx b px m c (fun _ => 1) + alpha ≠ 0 := by
  unfold step2 at h
  split at h
  · simp only [all_some] at h
    have h := Option.some.inj h
    rw [State2.mk.injEq] at h
    have key : ∀ l l' : Mix ℝ, l.map (update2 approx b alpha px m) = l'.map some → l' = l.map (updated2 approx b alpha px m) ∧
        ∀ c ∈ l, wsum2 approx b px m c (fun _ => 1) ≠ 0 ∧ wsum2 approx b px m c (fun _ => 1) + alpha ≠ 0 := by
      intro l
      induction l with
      | nil => intro l' hl; cases l' with
        | nil => exact ⟨rfl, by simp⟩
        | cons a b => simp at hl
      | cons c l ih =>
        intro l' hl
        cases l' with
        | nil => simp at hl
        | cons c' l' =>
          rw [List.map_cons, List.map_cons, List.cons.injEq] at hl
          obtain ⟨i1, i2⟩ := ih l' hl.2
          have h1 := hl.1
          unfold update2 at h1
          split at h1
          · cases h1
          · rename_i hne
            rw [not_or] at hne
            refine ⟨?_, ?_⟩
            · rw [List.map_cons, i1, Option.some.inj h1]
            · intro d hd
              rcases List.mem_cons.1 hd with rfl | hd
              · exact hne
              · exact i2 d hd
    obtain ⟨k1, k2⟩ := key m m' h.1
    exact ⟨k1, (Option.some.inj h.2).symm, k2⟩
  · cases h

/-- A step from a good mixture: good, and the sky stays positive. -/
theorem step2_good {approx alpha : ℝ} (ha : 0 ≤ alpha) {npix : Nat} (hnp : 0 < npix) {px : List Px} (hl : ∃ p ∈ px, p.v ≠ 0)
    {m m' : Mix ℝ} (hm : Good m) {b b' : ℝ} (hb : 0 < b)
    (h : step2 approx alpha npix px ⟨m.map some, some b⟩ = some ⟨m'.map some, some b'⟩)
    (hd : 0 < alpha ∨ ∀ c ∈ m', 0 < c.vxx * c.vyy - c.vxy * c.vyx) : Good m' ∧ 0 < b' := by
  obtain ⟨rfl, rfl, hw⟩ := step2_ok h
  refine ⟨?_, ?_⟩
  · intro c' hc'
    obtain ⟨c, hc, rfl⟩ := List.mem_map.1 hc'
    obtain ⟨e1, e2, e3, e4, e5, e6, e7⟩ := updated2_eqs approx b alpha px m c (hw c hc).1 (hw c hc).2
    have hw0 : ∀ p ∈ px, 0 ≤ weight2 approx b m c p := fun p _ => weight2_nonneg approx hb hm hc p
    have hamp : 0 < (updated2 approx b alpha px m c).amp := by
      refine lt_of_le_of_ne ?_ (Ne.symm (hw c hc).1)
      rw [← e1]
      exact mom_nonneg _ _ _ hw0 (fun _ _ => zero_le_one)
    exact ⟨proper_of_moments px _ hw0 alpha ha _ _ _ hamp e4 e5 e6 e7 (hd.imp id (fun h => h _ hc')), hamp⟩
  · obtain ⟨p, hp, hv⟩ := hl
    have := sum_pos px (skyShare approx b m) (fun p _ => sky_nonneg approx hb hm p) p hp (sky_pos approx hb hm p hv)
    have hn : (0 : ℝ) < npix := by exact_mod_cast hnp
    positivity

/-- Amplitudes and sky add up. -/
theorem amps_sky {approx alpha : ℝ} {npix : Nat} (hnp : 0 < npix) {px : List Px} {m m' : Mix ℝ} (hm : Good m) {b b' : ℝ} (hb : 0 < b)
    (h : step2 approx alpha npix px ⟨m.map some, some b⟩ = some ⟨m'.map some, some b'⟩) :
    (m'.map (fun c => c.amp)).sum + npix * b' = (px.map (fun p => |p.v|)).sum := by
  obtain ⟨rfl, rfl, -⟩ := step2_ok h
  have hn : (npix : ℝ) ≠ 0 := by exact_mod_cast hnp.ne'
  rw [mul_div_cancel₀ _ hn, List.map_map]
  have e : (m.map ((fun c => c.amp) ∘ updated2 approx b alpha px m)).sum = (px.map (fun p => (m.map (fun c => weight2 approx b m c p)).sum)).sum := by
    rw [sum_swap]
    refine sum_congr _ _ _ (fun c _ => ?_)
    simp only [Function.comp, updated2, wsum2, mul_one]
  rw [e, ← sum_add]
  exact sum_congr _ _ _ (fun p _ => shares_sum approx hb hm p)

theorem log_gain {b b' : ℝ} (hb : 0 < b) (hb' : 0 < b') : b' - b ≤ b' * (Real.log b' - Real.log b) := by
  have := Real.log_le_sub_one_of_pos (show 0 < b / b' by positivity)
  rw [Real.log_div hb.ne' hb'.ne'] at this
  have h := mul_le_mul_of_nonneg_left this hb'.le
  have e : b' * (b / b' - 1) = b - b' := by field_simp
  rw [e] at h
  linarith

/-- The gain of a step with sky. -/
theorem step2_gain {approx alpha : ℝ} (ha : 0 ≤ alpha) {px : List Px} (hpx : Nonneg px) (hl : ∃ p ∈ px, p.v ≠ 0)
    {m m' : Mix ℝ} (hm : Good m) {b b' : ℝ} (hb : 0 < b)
    (h : step2 approx alpha px.length px ⟨m.map some, some b⟩ = some ⟨m'.map some, some b'⟩)
    (hd : 0 < alpha ∨ ∀ c ∈ m', 0 < c.vxx * c.vyy - c.vxy * c.vyx) :
    (px.map (fun p => p.v * Real.log (b + cutMix (maxD approx) m p.x p.y) - b)).sum - (m.map (fun c => c.amp)).sum
      - alpha / 2 * (m.map wishart).sum ≤ logPost alpha b' px m' := by
  have hnp : 0 < px.length := by
    obtain ⟨p, hp, -⟩ := hl
    exact List.length_pos_of_mem hp
  obtain ⟨hg, hb'⟩ := step2_good ha hnp hl hm hb h hd
  obtain ⟨rfl, hb2, hw⟩ := step2_ok h
  have hf : ∀ c ∈ m, Proper (updated2 approx b alpha px m c) ∧ 0 < (updated2 approx b alpha px m c).amp :=
    fun c hc => hg _ (List.mem_map_of_mem hc)
  have g := gain px hpx m hm (updated2 approx b alpha px m) hf (maxD approx) b b' hb.le hb'.le (fun _ => hb')
  have gc : (((m.map (updated2 approx b alpha px m)).map (fun c => c.amp)).sum - (m.map (fun c => c.amp)).sum) +
      alpha / 2 * (((m.map (updated2 approx b alpha px m)).map wishart).sum - (m.map wishart).sum) ≤
      (m.map (fun c => mom px (fun p => p.v * share (maxD approx) c p.x p.y / (b + cutMix (maxD approx) m p.x p.y))
        (fun p => Real.log (density (updated2 approx b alpha px m c) p.x p.y) - Real.log (density c p.x p.y)))).sum := by
    rw [List.map_map, List.map_map, ← sum_sub, ← sum_sub, ← sum_mul, ← sum_add]
    refine sum_le _ _ _ (fun c hc => ?_)
    obtain ⟨e1, e2, e3, e4, e5, e6, e7⟩ := updated2_eqs approx b alpha px m c (hw c hc).1 (hw c hc).2
    have hwt : mom px (fun p => p.v * share (maxD approx) c p.x p.y / (b + cutMix (maxD approx) m p.x p.y))
        (fun p => Real.log (density (updated2 approx b alpha px m c) p.x p.y) - Real.log (density c p.x p.y)) =
        mom px (weight2 approx b m c)
        (fun p => Real.log (density (updated2 approx b alpha px m c) p.x p.y) - Real.log (density c p.x p.y)) := by
      refine sum_congr _ _ _ (fun p hp => ?_)
      rw [weight2_eq approx hm hc p (hpx p hp)]
    rw [hwt]
    refine comp_gain px (weight2 approx b m c) alpha c (updated2 approx b alpha px m c) (hm c hc).1 (hm c hc).2 (hf c hc).1 (hf c hc).2 e1 ?_
    -- first the covariance about the old mean, then the mean
    set c' := updated2 approx b alpha px m c with hc'
    have hP : Proper (at' c' c.mx c.my) := (hf c hc).1
    have v := var_best px (weight2 approx b m c) alpha c'.amp (by linarith [(hf c hc).2]) c (hm c hc).1 (at' c' c.mx c.my) hP rfl rfl e4 e5 e6
    have bst := mean_best px (weight2 approx b m c) (at' c' c.mx c.my) hP c'.amp (hf c hc).2 e1 c'.mx c'.my e2 e3
    simp only [at', wishart] at v bst ⊢
    linarith
  have gs : (px.length : ℝ) * (b' - b) ≤ (px.map (fun p => p.v * (b / (b + cutMix (maxD approx) m p.x p.y)) * (Real.log b' - Real.log b))).sum := by
    have e : (px.map (fun p => p.v * (b / (b + cutMix (maxD approx) m p.x p.y)) * (Real.log b' - Real.log b))).sum =
        (Real.log b' - Real.log b) * (px.map (skyShare approx b m)).sum := by
      rw [← sum_mul]
      refine sum_congr _ _ _ (fun p hp => ?_)
      rw [sky_eq approx hb hm p (hpx p hp)]
      ring
    have hn : (0 : ℝ) < px.length := by exact_mod_cast hnp
    have e2 : (px.map (skyShare approx b m)).sum = px.length * b' := by rw [hb2, mul_div_cancel₀ _ hn.ne']
    rw [e, e2]
    have := mul_le_mul_of_nonneg_left (log_gain hb hb') hn.le
    linarith
  have ge : (px.map (fun p => if b + cutMix (maxD approx) m p.x p.y = 0 then 0 else
        p.v * (Real.log (b' + densityMix (m.map (updated2 approx b alpha px m)) p.x p.y) - Real.log (b + cutMix (maxD approx) m p.x p.y)))).sum =
      (px.map (fun p => p.v * Real.log (b' + densityMix (m.map (updated2 approx b alpha px m)) p.x p.y) - b')).sum -
      (px.map (fun p => p.v * Real.log (b + cutMix (maxD approx) m p.x p.y) - b)).sum + px.length * (b' - b) := by
    have e3 : (px.length : ℝ) * (b' - b) = (px.map (fun _ => b' - b)).sum := by
      rw [List.map_const', List.sum_replicate, nsmul_eq_mul]
    rw [e3, ← sum_sub, ← sum_add]
    refine sum_congr _ _ _ (fun p _ => ?_)
    have h2 := cutMix_nonneg (maxD approx) m (fun c hc => (hm c hc).2.le) p.x p.y
    rw [if_neg (by linarith)]
    ring
  rw [ge] at g
  unfold logPost
  linarith

/-- Up to what is cut off, one step does not make the posterior worse. -/
theorem step2_ascent {approx alpha : ℝ} (h0 : 0 < approx) (ha : 0 ≤ alpha) {px : List Px} (hpx : Nonneg px) (hl : ∃ p ∈ px, p.v ≠ 0)
    {m m' : Mix ℝ} (hm : Good m) {b b' : ℝ} (hb : 0 < b)
    (h : step2 approx alpha px.length px ⟨m.map some, some b⟩ = some ⟨m'.map some, some b'⟩)
    (hd : 0 < alpha ∨ ∀ c ∈ m', 0 < c.vxx * c.vyy - c.vxy * c.vyx) :
    logPost alpha b px m - approx * ((m.map (fun c => c.amp)).sum * flux px / b) ≤ logPost alpha b' px m' := by
  refine le_trans ?_ (step2_gain ha hpx hl hm hb h hd)
  have k : (px.map (fun p => p.v * Real.log (b + densityMix m p.x p.y) - b)).sum ≤
      (px.map (fun p => p.v * Real.log (b + cutMix (maxD approx) m p.x p.y) - b)).sum + approx * ((m.map (fun c => c.amp)).sum * flux px / b) := by
    have e : approx * ((m.map (fun c => c.amp)).sum * flux px / b) =
        (px.map (fun p => (approx * (m.map (fun c => c.amp)).sum / b) * p.v)).sum := by
      rw [sum_mul]
      unfold flux
      ring
    rw [e, ← sum_add]
    refine sum_le _ _ _ (fun p hp => ?_)
    have h2 := cutMix_nonneg (maxD approx) m (fun c hc => (hm c hc).2.le) p.x p.y
    have h3 := cut_loss h0 hm p.x p.y
    have hA : 0 ≤ (m.map (fun c => c.amp)).sum := sum_nonneg _ _ (fun c hc => (hm c hc).2.le)
    set A := (m.map (fun c => c.amp)).sum
    set C := cutMix (maxD approx) m p.x p.y
    have h4 : Real.log (b + densityMix m p.x p.y) ≤ Real.log (b + C) + approx * A / b := by
      have hD : 0 ≤ densityMix m p.x p.y := sum_nonneg _ _ (fun c hc => density_nonneg c _ _ (hm c hc).2.le)
      have hC : 0 < b + C := by linarith
      have l1 := Real.log_le_sub_one_of_pos (show 0 < (b + densityMix m p.x p.y) / (b + C) by positivity)
      rw [Real.log_div (by linarith) (by linarith)] at l1
      have l2 : (b + densityMix m p.x p.y) / (b + C) - 1 ≤ approx * A / b := by
        have e : (b + densityMix m p.x p.y) / (b + C) - 1 = (densityMix m p.x p.y - C) / (b + C) := by field_simp; ring
        rw [e]
        have : (densityMix m p.x p.y - C) / (b + C) ≤ approx * A / (b + C) := by gcongr; linarith
        refine this.trans ?_
        gcongr
        linarith
      linarith
    have := mul_le_mul_of_nonneg_left h4 (hpx p hp)
    linarith
  unfold logPost
  linarith

theorem run2_last {approx alpha : ℝ} {npix : Nat} {px : List Px} (n : Nat) : ∀ {s s' : State2}, run2 approx alpha npix px (n + 1) s = (s', true) →
    ∃ s1, run2 approx alpha npix px n s = (s1, true) ∧ step2 approx alpha npix px s1 = some s' := by
  induction n with
  | zero =>
    intro s s' h
    rw [run2] at h
    cases hs : step2 approx alpha npix px s with
    | none => rw [hs] at h; cases h
    | some t => rw [hs] at h; cases h; exact ⟨s, rfl, hs⟩
  | succ n ih =>
    intro s s' h
    rw [run2] at h
    cases hs : step2 approx alpha npix px s with
    | none => rw [hs] at h; cases h
    | some t =>
      rw [hs] at h
      obtain ⟨s1, h1, h2⟩ := ih h
      refine ⟨s1, ?_, h2⟩
      rw [run2, hs]
      exact h1

theorem step2_before {approx alpha : ℝ} {npix : Nat} {px : List Px} {s : State2} {m' : Mix ℝ} {b' : ℝ}
    (h : step2 approx alpha npix px s = some ⟨m'.map some, some b'⟩) :
    ∃ (m : Mix ℝ) (b : ℝ), s = ⟨m.map some, some b⟩ ∧ ∀ c ∈ m, 0 < c.vxx * c.vyy - (c.vxy + c.vyx) / 2 * ((c.vxy + c.vyx) / 2) := by
  unfold step2 at h
  split at h
  · rename_i hd
    obtain ⟨cs, ps⟩ := s
    cases hs : State.all cs with
    | some m =>
      cases ps with
      | some b =>
        refine ⟨m, b, by rw [all_of_some hs], fun c hc => ?_⟩
        exact hd (some c) (by simp only; rw [all_of_some hs]; exact List.mem_map_of_mem hc)
      | none => simp only [hs] at h; cases congrArg State2.psky (Option.some.inj h)
    | none => simp only [hs] at h; cases congrArg State2.psky (Option.some.inj h)
  · cases h

/-- States before the last step are good. -/
theorem run2_good {approx alpha : ℝ} (ha : 0 ≤ alpha) {npix : Nat} (hnp : 0 < npix) {px : List Px} (hl : ∃ p ∈ px, p.v ≠ 0)
    {m : Mix ℝ} (hm : Good m) {b : ℝ} (hb : 0 < b) (n : Nat) {m' : Mix ℝ} {b' : ℝ}
    (h : run2 approx alpha npix px (n + 1) ⟨m.map some, some b⟩ = (⟨m'.map some, some b'⟩, true)) :
    ∃ (m1 : Mix ℝ) (b1 : ℝ), run2 approx alpha npix px n ⟨m.map some, some b⟩ = (⟨m1.map some, some b1⟩, true) ∧ Good m1 ∧ 0 < b1 ∧
      step2 approx alpha npix px ⟨m1.map some, some b1⟩ = some ⟨m'.map some, some b'⟩ := by
  induction n generalizing m' b' with
  | zero =>
    obtain ⟨s1, h1, h2⟩ := run2_last 0 h
    rw [run2] at h1
    cases h1
    exact ⟨m, b, rfl, hm, hb, h2⟩
  | succ n ih =>
    obtain ⟨s1, h1, h2⟩ := run2_last (n + 1) h
    obtain ⟨m1, b1, rfl, hd⟩ := step2_before h2
    obtain ⟨m0, b0, -, g0, p0, h4⟩ := ih h1
    have := step2_good ha hnp hl g0 p0 h4 (Or.inr (fun c hc => by
      have h5 := hd c hc
      obtain ⟨e, -, -⟩ := step2_ok h4
      rw [e] at hc
      obtain ⟨d, -, rfl⟩ := List.mem_map.1 hc
      have e7 : (updated2 approx b0 alpha px m0 d).vyx = (updated2 approx b0 alpha px m0 d).vxy := rfl
      rw [e7] at h5 ⊢
      rw [add_self_div_two] at h5
      exact h5))
    exact ⟨m1, b1, h1, this.1, this.2, h2⟩

theorem pixels_length (img : Arr ℝ) (x0 y0 : Int) : (pixels img x0 y0).length = img.w * img.h := by
  unfold pixels
  rw [List.length_flatMap]
  simp only [List.length_map, List.length_range]
  rw [List.map_const', List.sum_replicate, List.length_range, smul_eq_mul, mul_comm]

/-- A step succeeds if every component reaches some light. -/
theorem step2_succeeds {approx alpha : ℝ} (ha : 0 ≤ alpha) {npix : Nat} {px : List Px} {m : Mix ℝ} (hm : Good m) {b : ℝ} (hb : 0 < b)
    (h : ∀ c ∈ m, ∃ p ∈ px, 0 < p.v ∧ distSq c p.x p.y < maxD approx c) :
    step2 approx alpha npix px ⟨m.map some, some b⟩ = some ⟨(m.map (updated2 approx b alpha px m)).map some,
      some ((px.map (skyShare approx b m)).sum / npix)⟩ := by
  have hok : ∀ o ∈ (⟨m.map some, some b⟩ : State2).comps, detOK2 o := good_detOK2 hm
  unfold step2
  rw [if_pos hok]
  simp only [all_some]
  refine congrArg some ?_
  refine congrArg (fun l => State2.mk l _) ?_
  rw [List.map_map]
  refine List.map_congr_left (fun c hc => ?_)
  obtain ⟨p, hp, hv, hd⟩ := h c hc
  have : 0 < wsum2 approx b px m c (fun _ => 1) := by
    refine sum_pos px _ (fun q _ => ?_) p hp ?_
    · rw [mul_one]; exact weight2_nonneg approx hb hm hc q
    · rw [mul_one, weight2_eq approx hm hc p hv.le, share, if_pos hd]
      have h1 := density_pos (hm c hc).1 (hm c hc).2 p.x p.y
      have h2 := cutMix_nonneg (maxD approx) m (fun c hc => (hm c hc).2.le) p.x p.y
      positivity
  unfold update2
  rw [if_neg]
  · rfl
  · rw [not_or]
    exact ⟨this.ne', by linarith⟩

end Verif.Em
