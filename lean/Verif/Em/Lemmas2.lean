import Verif.Em.Lemmas

namespace Verif.Em

open Verif
open Verif.Mog (Comp Mix)
open Verif.Gauss

/-- The light a component gets from a pixel before normalisation. -/
noncomputable def share (cut : Comp ℝ → ℝ) (c : Comp ℝ) (x y : ℝ) : ℝ := if distSq c x y < cut c then density c x y else 0

theorem share_nonneg (cut : Comp ℝ → ℝ) (c : Comp ℝ) (ha : 0 ≤ c.amp) (x y : ℝ) : 0 ≤ share cut c x y := by
  unfold share
  split
  · exact density_nonneg c x y ha
  · exact le_rfl

theorem cutMix_nonneg (cut : Comp ℝ → ℝ) (m : Mix ℝ) (hm : ∀ c ∈ m, 0 ≤ c.amp) (x y : ℝ) : 0 ≤ cutMix cut m x y :=
  sum_nonneg _ _ (fun c hc => share_nonneg cut c (hm c hc) x y)

/-- What the E step and any new components give. -/
theorem gain (px : List Px) (hpx : Nonneg px) (m : Mix ℝ) (hm : Good m) (f : Comp ℝ → Comp ℝ) (hf : ∀ c ∈ m, Proper (f c) ∧ 0 < (f c).amp)
    (cut : Comp ℝ → ℝ) (b b' : ℝ) (hb : 0 ≤ b) (hb' : 0 ≤ b') (hbb : 0 < b → 0 < b') :
    (px.map (fun p => p.v * (b / (b + cutMix cut m p.x p.y)) * (Real.log b' - Real.log b))).sum +
      (m.map (fun c => mom px (fun p => p.v * share cut c p.x p.y / (b + cutMix cut m p.x p.y))
        (fun p => Real.log (density (f c) p.x p.y) - Real.log (density c p.x p.y)))).sum ≤
      (px.map (fun p => if b + cutMix cut m p.x p.y = 0 then 0 else
        p.v * (Real.log (b' + densityMix (m.map f) p.x p.y) - Real.log (b + cutMix cut m p.x p.y)))).sum := by
  unfold mom
  rw [← sum_swap px m (fun p c => p.v * share cut c p.x p.y / (b + cutMix cut m p.x p.y) *
    (Real.log (density (f c) p.x p.y) - Real.log (density c p.x p.y))), ← sum_add]
  refine sum_le _ _ _ (fun p hp => ?_)
  have hS : 0 ≤ cutMix cut m p.x p.y := cutMix_nonneg cut m (fun c hc => (hm c hc).2.le) p.x p.y
  split
  · rename_i h0
    simp only [h0, div_zero, mul_zero, zero_mul]
    rw [sum_zero _ _ (fun _ _ => rfl), add_zero]
  · rename_i h0
    have hS' : 0 < b + cutMix cut m p.x p.y := lt_of_le_of_ne (by linarith) (Ne.symm h0)
    have g := gibbs m (fun c => share cut c p.x p.y) (fun c => density (f c) p.x p.y) (b + cutMix cut m p.x p.y)
      (fun c hc => share_nonneg cut c (hm c hc).2.le p.x p.y) (fun c hc => density_pos (hf c hc).1 (hf c hc).2 p.x p.y)
      b hb b' hb' hbb rfl hS'
    have e1 : (m.map (fun c => density (f c) p.x p.y)).sum = densityMix (m.map f) p.x p.y := by
      unfold densityMix; rw [List.map_map]; rfl
    rw [e1] at g
    generalize b + cutMix cut m p.x p.y = S at g hS' h0
    have e2 : (m.map (fun c => share cut c p.x p.y / S * (Real.log (density (f c) p.x p.y) - Real.log (share cut c p.x p.y)))).sum =
        (m.map (fun c => share cut c p.x p.y / S * (Real.log (density (f c) p.x p.y) - Real.log (density c p.x p.y)))).sum := by
      refine sum_congr _ _ _ (fun c _ => ?_)
      by_cases hc : distSq c p.x p.y < cut c
      · simp only [share, hc, if_true]
      · simp only [share, hc, if_false, zero_div, zero_mul]
    rw [e2] at g
    have e3 : (m.map (fun c => p.v * share cut c p.x p.y / S * (Real.log (density (f c) p.x p.y) - Real.log (density c p.x p.y)))).sum =
        p.v * (m.map (fun c => share cut c p.x p.y / S * (Real.log (density (f c) p.x p.y) - Real.log (density c p.x p.y)))).sum := by
      rw [← sum_mul]
      exact sum_congr _ _ _ (fun c _ => by ring)
    rw [e3]
    have := mul_le_mul_of_nonneg_left g (hpx p hp)
    nlinarith [this]

/-! ## The code -/

/-- The entries of `Z`. -/
theorem zraw_eq {c : Comp ℝ} (hc : Proper c) (x y : ℝ) : zraw c x y = share (fun _ => 100) c x y := by
  obtain ⟨h1, h2, h3⟩ := hc
  unfold zraw share
  simp only [← h1]
  have e0 : c.vxx * c.vyy - c.vxy * c.vxy = c.vxx * c.vyy - c.vxy ^ 2 := by ring
  rw [e0]
  have e : c.vyy / (c.vxx * c.vyy - c.vxy ^ 2) * (x - c.mx) * (x - c.mx) + -c.vxy / (c.vxx * c.vyy - c.vxy ^ 2) * (x - c.mx) * (y - c.my) +
      -c.vxy / (c.vxx * c.vyy - c.vxy ^ 2) * (x - c.mx) * (y - c.my) + c.vxx / (c.vxx * c.vyy - c.vxy ^ 2) * (y - c.my) * (y - c.my) =
      distSq c x y := by
    unfold distSq
    field_simp
    ring
  rw [e]
  by_cases h : distSq c x y < 100
  · rw [if_neg (not_le.2 h), if_pos h, sqrt_tpd]
    unfold density
    congr 2
    ring
  · rw [if_pos (not_lt.1 h), if_neg h]

theorem zsum_eq {m : Mix ℝ} (hm : Good m) (x y : ℝ) : zsum m x y = cutMix (fun _ => 100) m x y :=
  sum_congr _ _ _ (fun c hc => zraw_eq (hm c hc).1 x y)

theorem list_zero {α : Type} (l : List α) (f : α → ℝ) (h : ∀ a ∈ l, 0 ≤ f a) (hs : (l.map f).sum = 0) : ∀ a ∈ l, f a = 0 := by
  intro a ha
  by_contra hne
  exact absurd hs (sum_pos l f h a ha (lt_of_le_of_ne (h a ha) (Ne.symm hne))).ne'

theorem weight_eq {m : Mix ℝ} (hm : Good m) {c : Comp ℝ} (hc : c ∈ m) (p : Px) :
    weight m c p = p.v * share (fun _ => 100) c p.x p.y / (0 + cutMix (fun _ => 100) m p.x p.y) := by
  unfold weight zfrac
  rw [zsum_eq hm, zraw_eq (hm c hc).1, zero_add]
  split
  · rename_i h
    have := list_zero m (fun c => share (fun _ => 100) c p.x p.y) (fun c hc => share_nonneg _ c (hm c hc).2.le p.x p.y) h c hc
    rw [this]
    simp
  · rw [mul_div_assoc]

theorem weight_nonneg {px : List Px} (hpx : Nonneg px) {m : Mix ℝ} (hm : Good m) {c : Comp ℝ} (hc : c ∈ m) (p : Px) (hp : p ∈ px) :
    0 ≤ weight m c p := by
  rw [weight_eq hm hc, zero_add]
  exact div_nonneg (mul_nonneg (hpx p hp) (share_nonneg _ c (hm c hc).2.le _ _)) (cutMix_nonneg _ m (fun c hc => (hm c hc).2.le) _ _)

/-- Matrices `alpha I + sum w d d^T` are at least `alpha I`. -/
theorem form_ge (px : List Px) (w fx fy : Px → ℝ) (hw : ∀ p ∈ px, 0 ≤ w p) (alpha a b : ℝ) :
    alpha * (a ^ 2 + b ^ 2) ≤ (alpha + mom px w (fun p => fx p * fx p)) * a ^ 2 + 2 * mom px w (fun p => fx p * fy p) * (a * b) +
      (alpha + mom px w (fun p => fy p * fy p)) * b ^ 2 := by
  have h : 0 ≤ mom px w (fun p => (a * fx p + b * fy p) ^ 2) := mom_nonneg _ _ _ hw (fun p _ => by positivity)
  have e : (fun p => (a * fx p + b * fy p) ^ 2) = (fun p => a ^ 2 * (fx p * fx p) + ((2 * (a * b)) * (fx p * fy p) + b ^ 2 * (fy p * fy p))) := by
    funext p; ring
  rw [e, mom_add, mom_add, mom_mul, mom_mul, mom_mul] at h
  linarith

/-- So they are positive definite. -/
theorem det_pos (px : List Px) (w fx fy : Px → ℝ) (hw : ∀ p ∈ px, 0 ≤ w p) (alpha : ℝ) (ha : 0 < alpha) :
    0 < (alpha + mom px w (fun p => fx p * fx p)) * (alpha + mom px w (fun p => fy p * fy p)) - mom px w (fun p => fx p * fy p) ^ 2 := by
  have hx : 0 ≤ mom px w (fun p => fx p * fx p) := mom_nonneg _ _ _ hw (fun p _ => mul_self_nonneg _)
  have hy : 0 ≤ mom px w (fun p => fy p * fy p) := mom_nonneg _ _ _ hw (fun p _ => mul_self_nonneg _)
  generalize hX : mom px w (fun p => fx p * fx p) = X at *
  generalize hY : mom px w (fun p => fy p * fy p) = Y at *
  generalize hZ : mom px w (fun p => fx p * fy p) = Z at *
  have h := form_ge px w fx fy hw alpha (alpha + Y) (-Z)
  rw [hX, hY, hZ] at h
  have e : (alpha + X) * (alpha + Y) ^ 2 + 2 * Z * ((alpha + Y) * -Z) + (alpha + Y) * (-Z) ^ 2 =
      (alpha + Y) * ((alpha + X) * (alpha + Y) - Z ^ 2) := by ring
  rw [e] at h
  have h0 : 0 < alpha * ((alpha + Y) ^ 2 + (-Z) ^ 2) := by positivity
  by_contra hn
  have := mul_nonpos_of_nonneg_of_nonpos (show 0 ≤ alpha + Y by positivity) (not_lt.1 hn)
  linarith

/-- The entries of the updated component. -/
theorem updated_eqs (alpha : ℝ) (px : List Px) (m : Mix ℝ) (c : Comp ℝ) (hw : wsum px m c (fun _ => 1) ≠ 0)
    (hn : wsum px m c (fun _ => 1) + alpha ≠ 0) :
    let c' := updated alpha px m c
    mom px (weight m c) (fun _ => 1) = c'.amp ∧
    mom px (weight m c) (fun p => p.x) = c'.amp * c'.mx ∧ mom px (weight m c) (fun p => p.y) = c'.amp * c'.my ∧
    (c'.amp + alpha) * c'.vxx = alpha + mom px (weight m c) (fun p => (p.x - c'.mx) * (p.x - c'.mx)) ∧
    (c'.amp + alpha) * c'.vxy = mom px (weight m c) (fun p => (p.x - c'.mx) * (p.y - c'.my)) ∧
    (c'.amp + alpha) * c'.vyy = alpha + mom px (weight m c) (fun p => (p.y - c'.my) * (p.y - c'.my)) ∧
    c'.vxy = c'.vyx := by
  have h : ∀ a b : ℝ, a ≠ 0 → a * (b / a) = b := fun a b ha => by field_simp
  refine ⟨rfl, (h _ _ hw).symm, (h _ _ hw).symm, h _ _ hn, h _ _ hn, h _ _ hn, ?_⟩
  simp only [updated]
  congr 2
  funext p
  ring

/-- Positive definite, if regularised or the determinant is positive. -/
theorem proper_of_moments (px : List Px) (w : Px → ℝ) (hw : ∀ p ∈ px, 0 ≤ w p) (alpha : ℝ) (ha : 0 ≤ alpha) (c' : Comp ℝ) (mx my : ℝ)
    (hamp : 0 < c'.amp)
    (h1 : (c'.amp + alpha) * c'.vxx = alpha + mom px w (fun p => (p.x - mx) * (p.x - mx)))
    (h2 : (c'.amp + alpha) * c'.vxy = mom px w (fun p => (p.x - mx) * (p.y - my)))
    (h3 : (c'.amp + alpha) * c'.vyy = alpha + mom px w (fun p => (p.y - my) * (p.y - my)))
    (h4 : c'.vxy = c'.vyx) (hd : 0 < alpha ∨ 0 < c'.vxx * c'.vyy - c'.vxy * c'.vyx) : Proper c' := by
  have hn : 0 < c'.amp + alpha := by linarith
  have hx : 0 ≤ mom px w (fun p => (p.x - mx) * (p.x - mx)) := mom_nonneg _ _ _ hw (fun p _ => mul_self_nonneg _)
  have hx' : 0 ≤ c'.vxx := by
    have : 0 ≤ (c'.amp + alpha) * c'.vxx := by rw [h1]; linarith
    exact nonneg_of_mul_nonneg_right this hn
  have hdet : 0 < c'.vxx * c'.vyy - c'.vxy ^ 2 := by
    rcases hd with hd | hd
    · have := det_pos px w (fun p => p.x - mx) (fun p => p.y - my) hw alpha hd
      rw [← h1, ← h2, ← h3] at this
      have e : (c'.amp + alpha) * c'.vxx * ((c'.amp + alpha) * c'.vyy) - ((c'.amp + alpha) * c'.vxy) ^ 2 =
          (c'.amp + alpha) ^ 2 * (c'.vxx * c'.vyy - c'.vxy ^ 2) := by ring
      rw [e] at this
      by_contra hneg
      have := mul_nonpos_of_nonneg_of_nonpos (sq_nonneg (c'.amp + alpha)) (not_lt.1 hneg)
      linarith
    · rw [← h4] at hd
      rw [pow_two]
      exact hd
  refine ⟨h4, lt_of_le_of_ne hx' (fun h0 => ?_), hdet⟩
  rw [← h0, zero_mul] at hdet
  nlinarith [sq_nonneg c'.vxy]

theorem all_some (m : Mix ℝ) : State.all (m.map some) = some m := by
  induction m with
  | nil => rfl
  | cons c m ih => simp only [List.map_cons, State.all, ih, Option.map_some]

/-- A successful step. -/
theorem step_ok {alpha : ℝ} {px : List Px} {m m' : Mix ℝ} (h : step alpha px (m.map some) = some (m'.map some)) :
    m' = m.map (updated alpha px m) ∧
      ∀ c ∈ m, wsum px m c (fun _ => 1) ≠ 0 ∧ wsum px m c (fun _ => 1) + alpha ≠ 0 := by
  unfold step at h
  split at h
  · rw [all_some] at h
    have h := Option.some.inj h
    simp only at h
    have key : ∀ l l' : Mix ℝ, l.map (update alpha px m) = l'.map some → l' = l.map (updated alpha px m) ∧
        ∀ c ∈ l, wsum px m c (fun _ => 1) ≠ 0 ∧ wsum px m c (fun _ => 1) + alpha ≠ 0 := by
      intro l
      induction l with
      | nil => intro l' hl; cases l' with
        | nil => exact ⟨rfl, by simp⟩
        | cons a b => simp at hl
      | cons c l ih =>
        intro l' hl
        cases l' with
        | nil => simp at hl
        | cons c' l' =>
          rw [List.map_cons, List.map_cons, List.cons.injEq] at hl
          obtain ⟨i1, i2⟩ := ih l' hl.2
          have h1 := hl.1
          unfold update at h1
          split at h1
          · cases h1
          · rename_i hne
            rw [not_or] at hne
            refine ⟨?_, ?_⟩
            · rw [List.map_cons, i1, Option.some.inj h1]
            · intro d hd
              rcases List.mem_cons.1 hd with rfl | hd
              · exact hne
              · exact i2 d hd
    exact key m m' h
  · cases h

/-- The step of a good mixture gives a good mixture. -/
theorem step_good {alpha : ℝ} (ha : 0 ≤ alpha) {px : List Px} (hpx : Nonneg px) {m m' : Mix ℝ} (hm : Good m)
    (h : step alpha px (m.map some) = some (m'.map some)) (hd : 0 < alpha ∨ ∀ c ∈ m', 0 < c.vxx * c.vyy - c.vxy * c.vyx) : Good m' := by
  obtain ⟨rfl, hw⟩ := step_ok h
  intro c' hc'
  obtain ⟨c, hc, rfl⟩ := List.mem_map.1 hc'
  obtain ⟨e1, e2, e3, e4, e5, e6, e7⟩ := updated_eqs alpha px m c (hw c hc).1 (hw c hc).2
  have hw0 : ∀ p ∈ px, 0 ≤ weight m c p := fun p hp => weight_nonneg hpx hm hc p hp
  have hamp : 0 < (updated alpha px m c).amp := by
    refine lt_of_le_of_ne ?_ (Ne.symm (hw c hc).1)
    rw [← e1]
    exact mom_nonneg _ _ _ hw0 (fun _ _ => zero_le_one)
  exact ⟨proper_of_moments px _ hw0 alpha ha _ _ _ hamp e4 e5 e6 e7 (hd.imp id (fun h => h _ hc')), hamp⟩

/-- The gain of a step. -/
theorem step_gain {alpha : ℝ} (ha : 0 ≤ alpha) {px : List Px} (hpx : Nonneg px) {m m' : Mix ℝ} (hm : Good m)
    (h : step alpha px (m.map some) = some (m'.map some)) (hd : 0 < alpha ∨ ∀ c ∈ m', 0 < c.vxx * c.vyy - c.vxy * c.vyx) :
    ((m'.map (fun c => c.amp)).sum - (m.map (fun c => c.amp)).sum) + alpha / 2 * ((m'.map wishart).sum - (m.map wishart).sum) ≤
      (px.map (fun p => if cutMix (fun _ => 100) m p.x p.y = 0 then 0 else
        p.v * (Real.log (densityMix m' p.x p.y) - Real.log (cutMix (fun _ => 100) m p.x p.y)))).sum := by
  have hg := step_good ha hpx hm h hd
  obtain ⟨rfl, hw⟩ := step_ok h
  have hf : ∀ c ∈ m, Proper (updated alpha px m c) ∧ 0 < (updated alpha px m c).amp :=
    fun c hc => hg _ (List.mem_map_of_mem hc)
  have g := gain px hpx m hm (updated alpha px m) hf (fun _ => 100) 0 0 le_rfl le_rfl id
  simp only [zero_add, zero_div, mul_zero, zero_mul] at g
  rw [sum_zero px _ (fun _ _ => rfl), zero_add] at g
  refine le_trans ?_ g
  rw [List.map_map, List.map_map, ← sum_sub, ← sum_sub, ← sum_mul, ← sum_add]
  refine sum_le _ _ _ (fun c hc => ?_)
  obtain ⟨e1, e2, e3, e4, e5, e6, e7⟩ := updated_eqs alpha px m c (hw c hc).1 (hw c hc).2
  have hwt : (fun p : Px => p.v * share (fun _ => 100) c p.x p.y / cutMix (fun _ => 100) m p.x p.y) = weight m c := by
    funext p; rw [weight_eq hm hc, zero_add]
  rw [hwt]
  refine comp_gain px (weight m c) alpha c (updated alpha px m c) (hm c hc).1 (hm c hc).2 (hf c hc).1 (hf c hc).2 e1 ?_
  -- first the covariance about the new mean, then the mean
  set c' := updated alpha px m c with hc'
  have hP : Proper (at' c c'.mx c'.my) := (hm c hc).1
  have v := var_best px (weight m c) alpha c'.amp (by linarith [(hf c hc).2]) (at' c c'.mx c'.my) hP c' (hf c hc).1 rfl rfl e4 e5 e6
  have b := mean_best px (weight m c) c (hm c hc).1 c'.amp (hf c hc).2 e1 c'.mx c'.my e2 e3
  simp only [at', wishart] at v b ⊢
  linarith

end Verif.Em
