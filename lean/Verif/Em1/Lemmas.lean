import Verif.Em1.Spec
import Verif.Em.Lemmas

namespace Verif.Em1

open Verif.Em (sum_nonneg sum_le sum_congr sum_add sum_sub sum_mul sum_zero sum_swap sum_pos gibbs)

/-! ## The E step -/

theorem near_iff {c : Comp} (hc : 0 < c.var) (x : ℝ) : near c x ↔ Within c x := by
  unfold near Within
  have e : 1 / c.var * (x - c.mean) * (x - c.mean) = (x - c.mean) ^ 2 / c.var := by ring
  rw [e, div_lt_iff₀ hc]
  exact ⟨fun h => h.2, fun h => ⟨hc, h⟩⟩

theorem density_pos {c : Comp} (hc : 0 < c.var) (ha : 0 < c.amp) (x : ℝ) : 0 < density c x := by
  have hpi := Real.pi_pos
  have : 0 < Real.sqrt (2 * Real.pi * c.var) := Real.sqrt_pos.2 (by positivity)
  unfold density
  positivity

open Classical in
theorem zraw_eq {c : Comp} (hc : 0 < c.var) (x : ℝ) : zraw c x = if Within c x then density c x else 0 := by
  unfold zraw
  rw [if_congr (near_iff hc x) rfl rfl]
  split
  · unfold density
    have e : -(1 / 2) * (1 / c.var * (x - c.mean) * (x - c.mean)) = -(x - c.mean) ^ 2 / (2 * c.var) := by
      field_simp
    rw [e]; ring
  · rfl

theorem zraw_nonneg {c : Comp} (hc : 0 < c.var) (ha : 0 < c.amp) (x : ℝ) : 0 ≤ zraw c x := by
  classical
  rw [zraw_eq hc]
  split
  · exact (density_pos hc ha x).le
  · exact le_rfl

theorem zraw_pos {c : Comp} (hc : 0 < c.var) (ha : 0 < c.amp) {x : ℝ} (h : Within c x) : 0 < zraw c x := by
  classical
  rw [zraw_eq hc, if_pos h]
  exact density_pos hc ha x

theorem zsum_eq {m : List Comp} (hm : Good m) (x : ℝ) : zsum m x = cutMix m x := by
  unfold zsum cutMix
  exact sum_congr _ _ _ (fun c hc => zraw_eq (hm c hc).1 x)

theorem zsum_nonneg {m : List Comp} (hm : Good m) (x : ℝ) : 0 ≤ zsum m x :=
  sum_nonneg _ _ (fun c hc => zraw_nonneg (hm c hc).1 (hm c hc).2 x)

theorem zsum_pos_iff {m : List Comp} (hm : Good m) (x : ℝ) : 0 < zsum m x ↔ Lit m x := by
  classical
  constructor
  · intro h
    by_contra hl
    have : zsum m x = 0 := by
      refine sum_zero _ _ (fun c hc => ?_)
      rw [zraw_eq (hm c hc).1, if_neg (fun hw => hl ⟨c, hc, hw⟩)]
    linarith
  · rintro ⟨c, hc, hw⟩
    exact sum_pos _ _ (fun c hc => zraw_nonneg (hm c hc).1 (hm c hc).2 x) c hc (zraw_pos (hm c hc).1 (hm c hc).2 hw)

theorem zfrac_eq {m : List Comp} (hm : Good m) {c : Comp} (hc : c ∈ m) (x : ℝ) : zfrac m c x = zraw c x / zsum m x := by
  unfold zfrac
  split
  · rename_i h0
    rw [h0, div_zero]
    have h1 : ¬ Lit m x := fun hl => by
      have := (zsum_pos_iff hm x).2 hl
      linarith
    classical
    rw [zraw_eq (hm c hc).1, if_neg (fun hw => h1 ⟨c, hc, hw⟩)]
  · rfl

theorem zfrac_nonneg {m : List Comp} (hm : Good m) {c : Comp} (hc : c ∈ m) (x : ℝ) : 0 ≤ zfrac m c x := by
  rw [zfrac_eq hm hc]
  exact div_nonneg (zraw_nonneg (hm c hc).1 (hm c hc).2 x) (zsum_nonneg hm x)

open Classical in
/-- The shares of a sample add to one, if it is in reach. -/
theorem zfrac_sum {m : List Comp} (hm : Good m) (x : ℝ) : (m.map (fun c => zfrac m c x)).sum = if Lit m x then 1 else 0 := by
  have e : (m.map (fun c => zfrac m c x)).sum = (zsum m x)⁻¹ * zsum m x := by
    unfold zsum
    rw [← sum_mul]
    refine sum_congr _ _ _ (fun c hc => ?_)
    rw [zfrac_eq hm hc, div_eq_inv_mul]; rfl
  rw [e]
  split
  · rename_i h
    exact inv_mul_cancel₀ ((zsum_pos_iff hm x).2 h).ne'
  · rename_i h
    have : zsum m x = 0 := le_antisymm (not_lt.1 (fun h' => h ((zsum_pos_iff hm x).1 h'))) (zsum_nonneg hm x)
    rw [this, mul_zero]

/-- The sum over the components of weighted sums. -/
theorem wsum_sum {m : List Comp} (hm : Good m) (xs : List ℝ) (hl : ∀ x ∈ xs, Lit m x) (f : ℝ → ℝ) :
    (m.map (fun c => wsum xs m c f)).sum = (xs.map f).sum := by
  classical
  unfold wsum
  rw [sum_swap m xs (fun c x => zfrac m c x * f x)]
  refine sum_congr _ _ _ (fun x hx => ?_)
  have e : (m.map (fun c => zfrac m c x * f x)).sum = f x * (m.map (fun c => zfrac m c x)).sum := by
    rw [← sum_mul]; exact sum_congr _ _ _ (fun c _ => mul_comm _ _)
  rw [e, zfrac_sum hm, if_pos (hl x hx), mul_one]

theorem wsum_add (xs : List ℝ) (m : List Comp) (c : Comp) (f g : ℝ → ℝ) : wsum xs m c (fun x => f x + g x) = wsum xs m c f + wsum xs m c g := by
  unfold wsum; rw [← sum_add]; exact sum_congr _ _ _ (fun x _ => by ring)

theorem wsum_mul (xs : List ℝ) (m : List Comp) (c : Comp) (f : ℝ → ℝ) (k : ℝ) : wsum xs m c (fun x => k * f x) = k * wsum xs m c f := by
  unfold wsum; rw [← sum_mul]; exact sum_congr _ _ _ (fun x _ => by ring)

theorem wsum_le {xs : List ℝ} {m : List Comp} (hm : Good m) {c : Comp} (hc : c ∈ m) {f g : ℝ → ℝ} (h : ∀ x ∈ xs, f x ≤ g x) :
    wsum xs m c f ≤ wsum xs m c g :=
  sum_le _ _ _ (fun x hx => mul_le_mul_of_nonneg_left (h x hx) (zfrac_nonneg hm hc x))

theorem wsum_nonneg {xs : List ℝ} {m : List Comp} (hm : Good m) {c : Comp} (hc : c ∈ m) {f : ℝ → ℝ} (h : ∀ x ∈ xs, 0 ≤ f x) :
    0 ≤ wsum xs m c f :=
  sum_nonneg _ _ (fun x hx => mul_nonneg (zfrac_nonneg hm hc x) (h x hx))

theorem wsum_pos {xs : List ℝ} {m : List Comp} (hm : Good m) {c : Comp} (hc : c ∈ m) {x : ℝ} (hx : x ∈ xs) (hw : Within c x) :
    0 < wsum xs m c (fun _ => 1) := by
  refine sum_pos _ _ (fun x _ => ?_) x hx ?_
  · rw [mul_one]; exact zfrac_nonneg hm hc x
  · rw [mul_one, zfrac_eq hm hc]
    exact div_pos (zraw_pos (hm c hc).1 (hm c hc).2 hw) ((zsum_pos_iff hm x).2 ⟨c, hc, hw⟩)

theorem zfrac_le_one {m : List Comp} (hm : Good m) {c : Comp} (hc : c ∈ m) (x : ℝ) : zfrac m c x ≤ 1 := by
  classical
  have h := List.single_le_sum (l := m.map (fun c => zfrac m c x))
    (fun a ha => by
      obtain ⟨c, hc, rfl⟩ := List.mem_map.1 ha
      exact zfrac_nonneg hm hc x) _ (List.mem_map.2 ⟨c, hc, rfl⟩)
  rw [zfrac_sum hm] at h
  refine h.trans ?_
  split
  · exact le_rfl
  · exact zero_le_one

theorem wsum_le_length {m : List Comp} (hm : Good m) {c : Comp} (hc : c ∈ m) (xs : List ℝ) :
    wsum xs m c (fun _ => 1) ≤ xs.length := by
  have h := sum_le xs (fun x => zfrac m c x * 1) (fun _ => (1 : ℝ)) (fun x _ => by rw [mul_one]; exact zfrac_le_one hm hc x)
  refine h.trans (le_of_eq ?_)
  simp

theorem wsum_one_nonneg {m : List Comp} (hm : Good m) {c : Comp} (hc : c ∈ m) (xs : List ℝ) : 0 ≤ wsum xs m c (fun _ => 1) :=
  wsum_nonneg hm hc (fun _ _ => zero_le_one)

/-! ## One component -/

/-- Second moments about another point. -/
theorem wsum_shift (xs : List ℝ) (m : List Comp) (c : Comp) (a : ℝ) (hW : wsum xs m c (fun _ => 1) ≠ 0) :
    wsum xs m c (fun x => (x - a) ^ 2) =
      wsum xs m c (fun x => (x - wsum xs m c (fun x => x) / wsum xs m c (fun _ => 1)) *
        (x - wsum xs m c (fun x => x) / wsum xs m c (fun _ => 1))) +
      wsum xs m c (fun _ => 1) * (a - wsum xs m c (fun x => x) / wsum xs m c (fun _ => 1)) ^ 2 := by
  set W := wsum xs m c (fun _ => 1) with eW
  set M := wsum xs m c (fun x => x) with eM
  have h : ∀ b : ℝ, wsum xs m c (fun x => (x - b) ^ 2) = wsum xs m c (fun x => x ^ 2) - 2 * b * M + b ^ 2 * W := by
    intro b
    have e : (fun x : ℝ => (x - b) ^ 2) = (fun x => x ^ 2 + (-2 * b * x + b ^ 2 * 1)) := by funext x; ring
    rw [e, wsum_add, wsum_add, wsum_mul, wsum_mul, ← eW, ← eM]; ring
  have h2 : wsum xs m c (fun x => (x - M / W) * (x - M / W)) = wsum xs m c (fun x => (x - M / W) ^ 2) := by
    congr 1; funext x; ring
  rw [h2, h a, h (M / W)]
  field_simp
  ring

theorem log_density {c : Comp} (hc : 0 < c.var) (ha : 0 < c.amp) (x : ℝ) :
    Real.log (density c x) = Real.log c.amp - Real.log c.var / 2 - (x - c.mean) ^ 2 / (2 * c.var) - Real.log (2 * Real.pi) / 2 := by
  have hpi : 0 < 2 * Real.pi := by have := Real.pi_pos; positivity
  have hs : 0 < Real.sqrt (2 * Real.pi * c.var) := Real.sqrt_pos.2 (by positivity)
  unfold density
  rw [Real.log_mul ha.ne' (by positivity), Real.log_div (Real.exp_pos _).ne' hs.ne', Real.log_exp, Real.log_sqrt (by positivity),
    Real.log_mul hpi.ne' hc.ne']
  ring

/-- What one component gains. -/
theorem comp_gain {alpha : ℝ} (ha : 0 ≤ alpha) (xs : List ℝ) {m : List Comp} (hm : Good m) {c : Comp} (hc : c ∈ m)
    (hW : 0 < wsum xs m c (fun _ => 1)) (hv : 0 < (updated alpha xs m c).var) (hN : 0 < (xs.length : ℝ)) :
    xs.length * ((updated alpha xs m c).amp - c.amp) + alpha / 2 * (penalty (updated alpha xs m c) - penalty c) ≤
      wsum xs m c (fun x => Real.log (density (updated alpha xs m c) x) - Real.log (density c x)) := by
  obtain ⟨hcv, hca⟩ := hm c hc
  set W := wsum xs m c (fun _ => 1) with eW
  set c' := updated alpha xs m c with ec
  have ea : c'.amp = W / xs.length := rfl
  have em : c'.mean = wsum xs m c (fun x => x) / W := rfl
  have ev : c'.var = (alpha + wsum xs m c (fun x => (x - c'.mean) * (x - c'.mean))) / (W + alpha) := rfl
  have ha' : 0 < c'.amp := by rw [ea]; positivity
  have hs := wsum_shift xs m c c.mean hW.ne'
  rw [← eW, ← em] at hs
  have hs' : wsum xs m c (fun x => (x - c'.mean) ^ 2) = wsum xs m c (fun x => (x - c'.mean) * (x - c'.mean)) := by
    congr 1; funext x; ring
  clear_value c'
  set S := wsum xs m c (fun x => (x - c'.mean) * (x - c'.mean)) with eS
  have e : wsum xs m c (fun x => Real.log (density c' x) - Real.log (density c x)) =
      W * (Real.log c'.amp - Real.log c.amp) - W * (Real.log c'.var - Real.log c.var) / 2 -
        (S / c'.var - (S + W * (c.mean - c'.mean) ^ 2) / c.var) / 2 := by
    have e1 : (fun x => Real.log (density c' x) - Real.log (density c x)) = (fun x =>
        ((Real.log c'.amp - Real.log c.amp) - (Real.log c'.var - Real.log c.var) / 2) * 1 +
        ((-1 / (2 * c'.var)) * (x - c'.mean) ^ 2 + (1 / (2 * c.var)) * (x - c.mean) ^ 2)) := by
      funext x
      rw [log_density hcv hca, log_density hv ha']
      field_simp
      ring
    rw [e1, wsum_add, wsum_add, wsum_mul, wsum_mul, wsum_mul, hs, hs', ← eW]
    field_simp
    ring
  rw [e]
  have hn : 0 < W + alpha := by linarith
  have l1 : W * (Real.log c.amp - Real.log c'.amp) ≤ xs.length * (c.amp - c'.amp) := by
    have l := Real.log_le_sub_one_of_pos (show 0 < c.amp / c'.amp by positivity)
    rw [Real.log_div hca.ne' ha'.ne'] at l
    calc W * (Real.log c.amp - Real.log c'.amp) ≤ W * (c.amp / c'.amp - 1) := mul_le_mul_of_nonneg_left l hW.le
      _ = _ := by rw [ea]; field_simp
  have l2 : (W + alpha) * (Real.log c'.var - Real.log c.var) ≤ (W + alpha) * (c'.var / c.var - 1) := by
    have l := Real.log_le_sub_one_of_pos (show 0 < c'.var / c.var by positivity)
    rw [Real.log_div hv.ne' hcv.ne'] at l
    exact mul_le_mul_of_nonneg_left l hn.le
  have e3 : alpha + S = (W + alpha) * c'.var := by rw [ev]; field_simp
  have e4 : S / c'.var = W + alpha - alpha / c'.var := by
    have : S = (W + alpha) * c'.var - alpha := by linarith
    rw [this]; field_simp
  have l5 : ((W + alpha) * c'.var - alpha) / c.var ≤ (S + W * (c.mean - c'.mean) ^ 2) / c.var := by
    apply (div_le_div_iff_of_pos_right hcv).2
    have : 0 ≤ W * (c.mean - c'.mean) ^ 2 := by positivity
    linarith
  have e6 : ((W + alpha) * c'.var - alpha) / c.var = (W + alpha) * (c'.var / c.var) - alpha / c.var := by field_simp
  rw [e6] at l5
  rw [e4]
  have e7 : alpha / 2 * (penalty c' - penalty c) =
      alpha * (Real.log c'.var - Real.log c.var) / 2 + alpha / c'.var / 2 - alpha / c.var / 2 := by
    unfold penalty; field_simp; ring
  rw [e7]
  nlinarith [l1, l2, l5]

/-! ## A step -/

open Classical in
/-- What the E step and any new components give. -/
theorem gain (xs : List ℝ) {m : List Comp} (hm : Good m) (f : Comp → Comp) (hf : ∀ c ∈ m, 0 < (f c).var ∧ 0 < (f c).amp) :
    (m.map (fun c => wsum xs m c (fun x => Real.log (density (f c) x) - Real.log (density c x)))).sum ≤
      (xs.map (fun x => if Lit m x then Real.log (mix (m.map f) x) - Real.log (cutMix m x) else 0)).sum := by
  unfold wsum
  rw [sum_swap m xs (fun c x => zfrac m c x * (Real.log (density (f c) x) - Real.log (density c x)))]
  refine sum_le _ _ _ (fun x _ => ?_)
  split
  · rename_i hl
    have hz := (zsum_pos_iff hm x).2 hl
    have g := gibbs m (fun c => zraw c x) (fun c => density (f c) x) (zsum m x)
      (fun c hc => zraw_nonneg (hm c hc).1 (hm c hc).2 x) (fun c hc => density_pos (hf c hc).1 (hf c hc).2 x)
      0 le_rfl 0 le_rfl (fun h => h) (by rw [zero_add]; rfl) hz
    rw [zero_div, zero_mul, zero_add, zero_add, zsum_eq hm] at g
    have e1 : (m.map (fun c => density (f c) x)).sum = mix (m.map f) x := by unfold mix; rw [List.map_map]; rfl
    rw [e1] at g
    have e2 : (m.map (fun c => zfrac m c x * (Real.log (density (f c) x) - Real.log (density c x)))).sum =
        (m.map (fun c => zraw c x / cutMix m x * (Real.log (density (f c) x) - Real.log (zraw c x)))).sum := by
      refine sum_congr _ _ _ (fun c hc => ?_)
      rw [zfrac_eq hm hc, zsum_eq hm, zraw_eq (hm c hc).1]
      split
      · rfl
      · rw [zero_div, zero_mul, zero_mul]
    rw [e2]
    linarith
  · rename_i hl
    have hz : zsum m x = 0 := le_antisymm (not_lt.1 (fun h' => hl ((zsum_pos_iff hm x).1 h'))) (zsum_nonneg hm x)
    refine le_of_eq (sum_zero _ _ (fun c hc => ?_))
    rw [zfrac_eq hm hc, hz, div_zero, zero_mul]

theorem all_some (m : List Comp) : State.all (m.map some) = some m := by
  induction m with
  | nil => rfl
  | cons c m ih => rw [List.map_cons, State.all, ih]; rfl

theorem not_bad {m : List Comp} (hm : Good m) (xs : List ℝ) : ¬ ∃ x ∈ xs, ∃ c ∈ m, Bad c x := by
  rintro ⟨x, -, c, hc, h⟩
  have := (hm c hc).1
  rcases h with h | ⟨h, -⟩ <;> linarith

theorem step_eq (alpha : ℝ) (xs : List ℝ) {m : List Comp} (hm : Good m) : step alpha xs (m.map some) = m.map (update alpha xs m) := by
  unfold step
  rw [all_some]
  exact if_neg (not_bad hm xs)

theorem map_some_inj {a b : List Comp} (h : a.map some = b.map some) : a = b :=
  List.map_injective_iff.2 (Option.some_injective _) h

/-- A step that gives numbers. -/
theorem step_num {alpha : ℝ} {xs : List ℝ} {m m' : List Comp} (hm : Good m) (h : step alpha xs (m.map some) = m'.map some) :
    m' = m.map (updated alpha xs m) ∧ ∀ c ∈ m, wsum xs m c (fun _ => 1) ≠ 0 := by
  rw [step_eq alpha xs hm] at h
  have hne : ∀ c ∈ m, ¬ (wsum xs m c (fun _ => 1) = 0 ∨ wsum xs m c (fun _ => 1) + alpha = 0) := by
    intro c hc hw
    have h1 : update alpha xs m c ∈ m'.map some := by rw [← h]; exact List.mem_map.2 ⟨c, hc, rfl⟩
    unfold update at h1
    rw [if_pos hw] at h1
    obtain ⟨c', -, h2⟩ := List.mem_map.1 h1
    cases h2
  refine ⟨map_some_inj ?_, fun c hc h0 => hne c hc (Or.inl h0)⟩
  rw [← h, List.map_map]
  refine (List.map_congr_left (fun c hc => ?_)).symm
  change some _ = update alpha xs m c
  unfold update
  rw [if_neg (hne c hc)]

/-- If every component has a sample in reach the step gives numbers. -/
theorem step_succeeds {alpha : ℝ} (ha : 0 ≤ alpha) {xs : List ℝ} {m : List Comp} (hm : Good m)
    (h : ∀ c ∈ m, ∃ x ∈ xs, Within c x) : step alpha xs (m.map some) = (m.map (updated alpha xs m)).map some := by
  rw [step_eq alpha xs hm, List.map_map]
  refine List.map_congr_left (fun c hc => ?_)
  obtain ⟨x, hx, hw⟩ := h c hc
  have := wsum_pos hm hc hx hw
  unfold update
  rw [if_neg (by rintro (h | h) <;> linarith)]
  rfl

theorem updated_var_pos {alpha : ℝ} (ha : 0 < alpha) (xs : List ℝ) {m : List Comp} (hm : Good m) {c : Comp} (hc : c ∈ m) :
    0 < (updated alpha xs m c).var := by
  have h1 := wsum_one_nonneg hm hc xs
  have h2 := wsum_nonneg (xs := xs) hm hc (f := fun x => (x - wsum xs m c (fun x => x) / wsum xs m c (fun _ => 1)) *
    (x - wsum xs m c (fun x => x) / wsum xs m c (fun _ => 1))) (fun x _ => mul_self_nonneg _)
  exact div_pos (by linarith) (by linarith)

theorem length_pos {xs : List ℝ} {m : List Comp} {c : Comp} (h : wsum xs m c (fun _ => 1) ≠ 0) : 0 < (xs.length : ℝ) := by
  cases xs with
  | nil => exact absurd rfl h
  | cons x xs => rw [List.length_cons]; positivity

theorem step_good {alpha : ℝ} {xs : List ℝ} {m m' : List Comp} (hm : Good m)
    (h : step alpha xs (m.map some) = m'.map some) (hv : 0 < alpha ∨ ∀ c ∈ m', 0 < c.var) : Good m' := by
  obtain ⟨rfl, hw⟩ := step_num hm h
  intro c' hc'
  obtain ⟨c, hc, rfl⟩ := List.mem_map.1 hc'
  refine ⟨?_, ?_⟩
  · rcases hv with ha | hv
    · exact updated_var_pos ha xs hm hc
    · exact hv _ hc'
  · have := lt_of_le_of_ne (wsum_one_nonneg hm hc xs) (Ne.symm (hw c hc))
    have hN := length_pos (hw c hc)
    exact div_pos this hN

open Classical in
theorem step_gain {alpha : ℝ} (ha : 0 ≤ alpha) {xs : List ℝ} {m m' : List Comp} (hm : Good m)
    (h : step alpha xs (m.map some) = m'.map some) (hv : 0 < alpha ∨ ∀ c ∈ m', 0 < c.var) :
    xs.length * ((m'.map (fun c => c.amp)).sum - (m.map (fun c => c.amp)).sum) + alpha / 2 * ((m'.map penalty).sum - (m.map penalty).sum) ≤
      (xs.map (fun x => if Lit m x then Real.log (mix m' x) - Real.log (cutMix m x) else 0)).sum := by
  have hg := step_good hm h hv
  obtain ⟨rfl, hw⟩ := step_num hm h
  have hf : ∀ c ∈ m, 0 < (updated alpha xs m c).var ∧ 0 < (updated alpha xs m c).amp :=
    fun c hc => hg _ (List.mem_map.2 ⟨c, hc, rfl⟩)
  refine le_trans ?_ (gain xs hm (updated alpha xs m) hf)
  have e1 : xs.length * (((m.map (updated alpha xs m)).map (fun c => c.amp)).sum - (m.map (fun c => c.amp)).sum) +
      alpha / 2 * (((m.map (updated alpha xs m)).map penalty).sum - (m.map penalty).sum) =
      (m.map (fun c => xs.length * ((updated alpha xs m c).amp - c.amp) + alpha / 2 * (penalty (updated alpha xs m c) - penalty c))).sum := by
    rw [sum_add, sum_mul, sum_mul, sum_sub, sum_sub, List.map_map, List.map_map]; rfl
  rw [e1]
  refine sum_le _ _ _ (fun c hc => ?_)
  exact comp_gain ha xs hm hc (lt_of_le_of_ne (wsum_one_nonneg hm hc xs) (Ne.symm (hw c hc))) (hf c hc).1 (length_pos (hw c hc))

theorem run_snoc (alpha : ℝ) (xs : List ℝ) (n : Nat) (s : State) : run alpha xs (n + 1) s = step alpha xs (run alpha xs n s) := by
  induction n generalizing s with
  | zero => rfl
  | succ n ih => rw [run, ih, run]

theorem cutMix_near {m : List Comp} {x : ℝ} (h : ∀ c ∈ m, Within c x) : cutMix m x = mix m x := by
  classical
  unfold cutMix mix
  exact sum_congr _ _ _ (fun c hc => if_pos (h c hc))

theorem step_ascent {alpha : ℝ} (ha : 0 ≤ alpha) {xs : List ℝ} {m m' : List Comp} (hm : Good m)
    (h : step alpha xs (m.map some) = m'.map some) (hv : 0 < alpha ∨ ∀ c ∈ m', 0 < c.var) (hn : Near xs m) :
    logPost alpha xs m ≤ logPost alpha xs m' := by
  classical
  have g := step_gain ha hm h hv
  have e : (xs.map (fun x => if Lit m x then Real.log (mix m' x) - Real.log (cutMix m x) else 0)).sum =
      (xs.map (fun x => Real.log (mix m' x))).sum - (xs.map (fun x => Real.log (mix m x))).sum := by
    rw [← sum_sub]
    refine sum_congr _ _ _ (fun x hx => ?_)
    cases m with
    | nil =>
      have : m' = [] := by
        have := (step_num hm h).1
        simpa using this
      subst this
      rw [if_neg (by rintro ⟨c, hc, -⟩; cases hc)]
      ring
    | cons c m =>
      rw [if_pos ⟨c, List.mem_cons_self .., hn x hx c (List.mem_cons_self ..)⟩, cutMix_near (hn x hx)]
  rw [e] at g
  unfold logPost
  linarith

end Verif.Em1
