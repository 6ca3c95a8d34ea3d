import Verif.Em1.Lemmas2

/-!
# C134: fitting a mixture of Gaussians to samples
-/

namespace Verif.Em1

open Verif.Em (sum_nonneg sum_le sum_congr sum_add sum_sub sum_mul sum_zero sum_swap sum_pos)

/-! ## The posterior -/

open Classical in
/-- **C134, one step.** A step of `em_fit_1d_samples_reg` from a mixture with positive amplitudes and variances gives again such a mixture
(unless a variance has become zero, which `alpha > 0` excludes), and the posterior of the new mixture is at least that of the old one without
what was cut off at ten standard deviations; both over the samples within reach.  The amplitudes need not have been normalised. -/
theorem C134_step {alpha : ℝ} (ha : 0 ≤ alpha) {xs : List ℝ} {m0 m m' : List Comp} {n : Nat} (hm : Good m)
    (h : fitFrom xs m0 alpha n = (0, some (m.map some))) (h' : fitFrom xs m0 alpha (n + 1) = (0, some (m'.map some)))
    (hv : 0 < alpha ∨ ∀ c ∈ m', 0 < c.var) :
    Good m' ∧
    (xs.map (fun x => if Lit m x then Real.log (cutMix m x) else 0)).sum - xs.length * (m.map (fun c => c.amp)).sum
        - alpha / 2 * (m.map penalty).sum ≤
      (xs.map (fun x => if Lit m x then Real.log (mix m' x) else 0)).sum - xs.length * (m'.map (fun c => c.amp)).sum
        - alpha / 2 * (m'.map penalty).sum := by
  have hs := fitFrom_step h h'
  refine ⟨step_good hm hs hv, ?_⟩
  have g := step_gain ha hm hs hv
  have e : (xs.map (fun x => if Lit m x then Real.log (mix m' x) - Real.log (cutMix m x) else 0)).sum =
      (xs.map (fun x => if Lit m x then Real.log (mix m' x) else 0)).sum -
      (xs.map (fun x => if Lit m x then Real.log (cutMix m x) else 0)).sum := by
    rw [← sum_sub]
    refine sum_congr _ _ _ (fun x _ => ?_)
    split
    · rfl
    · rw [sub_zero]
  rw [e] at g
  linarith

/-- **C134, a fit.** With `alpha > 0` and at least one sample, as long as all samples are within ten standard deviations of every component
the result is a mixture with positive amplitudes and variances whose posterior is at least that of the starting mixture.  (Partial: not so in
general though 0 is returned, `C134_far_false` and `C134_collapse_false`.) -/
theorem C134_ascent_partial {alpha : ℝ} (ha : 0 < alpha) {xs : List ℝ} (hx : xs ≠ []) {m : List Comp} (hm : Good m) (n : Nat)
    (hn : ∀ j < n, ∀ m', fitFrom xs m alpha j = (0, some (m'.map some)) → Near xs m') :
    ∃ m', fitFrom xs m alpha n = (0, some (m'.map some)) ∧ m'.length = m.length ∧ Good m' ∧ logPost alpha xs m ≤ logPost alpha xs m' := by
  induction n with
  | zero => exact ⟨m, by rw [fitFrom_eq]; rfl, rfl, hm, le_rfl⟩
  | succ n ih =>
    obtain ⟨m1, h1, hlen, hg, hle⟩ := ih (fun j hj => hn j (Nat.lt_succ_of_lt hj))
    have near := hn n (Nat.lt_succ_self n) m1 h1
    obtain ⟨x, hxs⟩ := List.exists_mem_of_ne_nil xs hx
    have hs := step_succeeds ha.le hg (fun c hc => ⟨x, hxs, near x hxs c hc⟩)
    refine ⟨_, ?_, ?_, step_good hg hs (Or.inl ha), hle.trans (step_ascent ha.le hg hs (Or.inl ha) near)⟩
    · rw [fitFrom_iff] at h1 ⊢
      rw [run_snoc, h1, hs]
    · rw [List.length_map, hlen]

/-- **C134, strong regularisation.** If the samples are in an interval of length `L` with `L^2 (N + alpha) < 100 alpha` then after a start
near the samples nothing is ever cut off: any number of steps gives a mixture, and more steps never give a worse posterior. -/
theorem C134_strong {alpha lo hi : ℝ} (ha : 0 < alpha) {xs : List ℝ} (hne : xs ≠ []) (hx : ∀ x ∈ xs, lo ≤ x ∧ x ≤ hi)
    (hs : (hi - lo) ^ 2 * (xs.length + alpha) < 100 * alpha) {m : List Comp} (hm : Good m) (hn : Near xs m) {n k : Nat} (hnk : n ≤ k) :
    ∃ m1 m2, fitFrom xs m alpha n = (0, some (m1.map some)) ∧ fitFrom xs m alpha k = (0, some (m2.map some)) ∧ Good m1 ∧ Good m2 ∧
      logPost alpha xs m1 ≤ logPost alpha xs m2 := by
  obtain ⟨x, hxs⟩ := List.exists_mem_of_ne_nil xs hne
  have all : ∀ j, ∃ m', fitFrom xs m alpha j = (0, some (m'.map some)) ∧ Good m' ∧ Near xs m' := by
    intro j
    induction j with
    | zero => exact ⟨m, by rw [fitFrom_eq]; rfl, hm, hn⟩
    | succ j ih =>
      obtain ⟨m1, h1, hg, near⟩ := ih
      have hst := step_succeeds ha.le hg (fun c hc => ⟨x, hxs, near x hxs c hc⟩)
      refine ⟨_, ?_, step_good hg hst (Or.inl ha), near_of_bound ha hx hs hg hst⟩
      rw [fitFrom_iff] at h1 ⊢
      rw [run_snoc, h1, hst]
  induction k, hnk using Nat.le_induction with
  | base =>
    obtain ⟨m1, h1, hg, -⟩ := all n
    exact ⟨m1, m1, h1, h1, hg, hg, le_rfl⟩
  | succ k hk ih =>
    obtain ⟨m1, m2, h1, h2, g1, g2, hle⟩ := ih
    obtain ⟨m2', h2', -, near⟩ := all k
    have e : m2' = m2 := by
      rw [h2] at h2'
      exact map_some_inj (Option.some.inj (Prod.mk.inj h2').2).symm
    subst e
    have hst := step_succeeds ha.le g2 (fun c hc => ⟨x, hxs, near x hxs c hc⟩)
    refine ⟨m1, _, h1, ?_, g1, step_good g2 hst (Or.inl ha), hle.trans (step_ascent ha.le g2 hst (Or.inl ha) near)⟩
    rw [fitFrom_iff] at h2 ⊢
    rw [run_snoc, h2, hst]

/-! ## The result -/

open Classical in
/-- **C134, amplitudes.** After a step the amplitudes are positive and add to the fraction of the samples that were within ten standard
deviations of some component: to one if none was lost. -/
theorem C134_amplitudes {alpha : ℝ} {xs : List ℝ} {m0 m m' : List Comp} {n : Nat} (hm : Good m)
    (h : fitFrom xs m0 alpha n = (0, some (m.map some))) (h' : fitFrom xs m0 alpha (n + 1) = (0, some (m'.map some))) :
    (∀ c ∈ m', 0 < c.amp) ∧ (m'.map (fun c => c.amp)).sum = ((xs.filter (fun x => Lit m x)).length : ℝ) / xs.length := by
  obtain ⟨rfl, hw⟩ := step_num hm (fitFrom_step h h')
  refine ⟨fun c' hc' => ?_, ?_⟩
  · obtain ⟨c, hc, rfl⟩ := List.mem_map.1 hc'
    exact div_pos (lt_of_le_of_ne (wsum_one_nonneg hm hc xs) (Ne.symm (hw c hc))) (length_pos (hw c hc))
  · have e1 : ((m.map (updated alpha xs m)).map (fun c => c.amp)).sum = (xs.length : ℝ)⁻¹ * (m.map (fun c => wsum xs m c (fun _ => 1))).sum := by
      rw [← sum_mul, List.map_map]
      exact sum_congr _ _ _ (fun c _ => div_eq_inv_mul _ _)
    have e2 : (m.map (fun c => wsum xs m c (fun _ => 1))).sum = ((xs.filter (fun x => Lit m x)).length : ℝ) := by
      unfold wsum
      rw [sum_swap m xs (fun c x => zfrac m c x * 1)]
      have e3 : ∀ x, (m.map (fun c => zfrac m c x * 1)).sum = if Lit m x then 1 else 0 := by
        intro x
        rw [← zfrac_sum hm x]
        exact sum_congr _ _ _ (fun c _ => mul_one _)
      simp only [e3]
      clear h h' hw e1
      induction xs with
      | nil => simp
      | cons x xs ih =>
        rw [List.map_cons, List.sum_cons, ih]
        by_cases hl : Lit m x
        · rw [if_pos hl, List.filter_cons_of_pos (by simpa using hl), List.length_cons]
          push_cast; ring
        · rw [if_neg hl, List.filter_cons_of_neg (by simpa using hl), zero_add]
    rw [e1, e2, div_eq_inv_mul]

/-- **C134, moments.** If no sample was lost the mixture after a step has total amplitude one and the mean of the samples; without
regularisation it has their second moment and hence their variance, too.  This holds after each step whether the fit has converged or not. -/
theorem C134_moments {alpha : ℝ} (ha : 0 ≤ alpha) {xs : List ℝ} (hne : xs ≠ []) {m0 m m' : List Comp} {n : Nat} (hm : Good m)
    (h : fitFrom xs m0 alpha n = (0, some (m.map some))) (h' : fitFrom xs m0 alpha (n + 1) = (0, some (m'.map some)))
    (hl : ∀ x ∈ xs, Lit m x) :
    (m'.map (fun c => c.amp)).sum = 1 ∧
    (m'.map (fun c => c.amp * c.mean)).sum = avg xs (fun x => x) ∧
    (m'.map (fun c => c.amp * (c.var + c.mean ^ 2))).sum + alpha * (m'.map (fun c => c.var - 1)).sum / xs.length = avg xs (fun x => x ^ 2) := by
  obtain ⟨rfl, hw⟩ := step_num hm (fitFrom_step h h')
  have hN : (0 : ℝ) < xs.length := by
    have := List.length_pos_iff.2 hne
    exact_mod_cast this
  have hW : ∀ c ∈ m, 0 < wsum xs m c (fun _ => 1) := fun c hc => lt_of_le_of_ne (wsum_one_nonneg hm hc xs) (Ne.symm (hw c hc))
  refine ⟨?_, ?_, ?_⟩
  · have e1 : ((m.map (updated alpha xs m)).map (fun c => c.amp)).sum = (xs.length : ℝ)⁻¹ * (m.map (fun c => wsum xs m c (fun _ => 1))).sum := by
      rw [← sum_mul, List.map_map]
      exact sum_congr _ _ _ (fun c _ => div_eq_inv_mul _ _)
    rw [e1, wsum_sum hm xs hl]
    simp [hN.ne']
  · have e1 : ((m.map (updated alpha xs m)).map (fun c => c.amp * c.mean)).sum = (xs.length : ℝ)⁻¹ * (m.map (fun c => wsum xs m c (fun x => x))).sum := by
      rw [← sum_mul, List.map_map]
      refine sum_congr _ _ _ (fun c hc => ?_)
      have := hW c hc
      change wsum xs m c (fun _ => 1) / xs.length * (wsum xs m c (fun x => x) / wsum xs m c (fun _ => 1)) = _
      field_simp
    rw [e1, wsum_sum hm xs hl]
    unfold avg
    rw [div_eq_inv_mul]
  · have e1 := wsum_sum hm xs hl (fun x => x ^ 2)
    rw [sum_congr m _ _ (fun c hc => updated_second ha xs (hW c hc)), sum_add, sum_mul, sum_mul] at e1
    unfold avg
    rw [← e1, List.map_map, List.map_map, eq_div_iff hN.ne', add_mul, div_mul_cancel₀ _ hN.ne', mul_comm _ (xs.length : ℝ)]
    rfl

/-- **C134, range.** After a step the means are within the range of the samples, and the variances are between `alpha / (N + alpha)` and the
greater of one (the variance of the prior) and the square of that range. -/
theorem C134_range {alpha lo hi : ℝ} (ha : 0 ≤ alpha) {xs : List ℝ} (hx : ∀ x ∈ xs, lo ≤ x ∧ x ≤ hi) {m0 m m' : List Comp} {n : Nat} (hm : Good m)
    (h : fitFrom xs m0 alpha n = (0, some (m.map some))) (h' : fitFrom xs m0 alpha (n + 1) = (0, some (m'.map some))) :
    ∀ c ∈ m', lo ≤ c.mean ∧ c.mean ≤ hi ∧ alpha / (xs.length + alpha) ≤ c.var ∧ c.var ≤ max 1 ((hi - lo) ^ 2) := by
  obtain ⟨rfl, hw⟩ := step_num hm (fitFrom_step h h')
  intro c' hc'
  obtain ⟨c, hc, rfl⟩ := List.mem_map.1 hc'
  have hW := lt_of_le_of_ne (wsum_one_nonneg hm hc xs) (Ne.symm (hw c hc))
  have h1 := updated_mean (alpha := alpha) hx hm hc hW
  have h2 := updated_var ha hx hm hc hW
  exact ⟨h1.1, h1.2, h2.1, h2.2⟩

/-- **C134, one component.** With one component that has all samples within ten standard deviations, one step gives the mean of the samples
and the regularised variance, whatever the component was. -/
theorem C134_single {alpha : ℝ} (ha : 0 ≤ alpha) {xs : List ℝ} (hne : xs ≠ []) {c : Comp} (hc : Good [c]) (hn : Near xs [c]) :
    fitFrom xs [c] alpha 1 = (0, some [some ⟨1, avg xs (fun x => x),
      (alpha + (xs.map (fun x => (x - avg xs (fun x => x)) ^ 2)).sum) / (xs.length + alpha)⟩]) := by
  obtain ⟨x, hxs⟩ := List.exists_mem_of_ne_nil xs hne
  have hst := step_succeeds ha hc (fun c' hc' => ⟨x, hxs, hn x hxs c' hc'⟩)
  rw [fitFrom_iff]
  change step alpha xs ([c].map some) = _
  rw [hst]
  have hN : (0 : ℝ) < xs.length := by
    have := List.length_pos_iff.2 hne
    exact_mod_cast this
  have hw : ∀ f : ℝ → ℝ, wsum xs [c] c f = (xs.map f).sum := by
    intro f
    have := wsum_sum hc xs (fun x hx => ⟨c, List.mem_singleton_self c, hn x hx c (List.mem_singleton_self c)⟩) f
    simpa using this
  have h1 : (xs.map (fun _ => (1 : ℝ))).sum = xs.length := by simp
  simp only [List.map_cons, List.map_nil, updated, hw, h1, avg, div_self hN.ne']
  congr 4
  congr 2
  exact List.map_congr_left (fun x _ => by ring)

/-- **C134, components that are equal.** Two components that start equal are equal after any number of steps: starting values that do not
differ do not give a mixture. -/
theorem C134_equal {alpha : ℝ} {xs amp mean var : List ℝ} {n : Nat} {s : State} {i j : Nat} (ha : amp[i]? = amp[j]?) (hm : mean[i]? = mean[j]?)
    (hv : var[i]? = var[j]?) (h : fitReg xs amp mean var alpha n = (0, some s)) : s[i]? = s[j]? := by
  unfold fitReg at h
  split at h
  · cases h
  split at h
  · cases h
  obtain ⟨-, rfl⟩ := Prod.mk.inj h |>.imp id Option.some.inj
  have h0 : (entries amp mean var)[i]? = (entries amp mean var)[j]? := by
    unfold entries
    simp only [List.getElem?_zipWith, List.zip, ha, hm, hv]
  clear h
  induction n with
  | zero => exact h0
  | succ n ih =>
    rw [run_snoc]
    exact step_getElem alpha xs _ ih

/-- **C134, arguments.** Arrays of different lengths are refused and left as they are; otherwise 0 is returned, whatever the result is. -/
theorem C134_args (xs amp mean var : List ℝ) (alpha : ℝ) (n : Nat) :
    ((mean.length ≠ amp.length ∨ var.length ≠ amp.length) → fitReg xs amp mean var alpha n = (-1, none)) ∧
    (mean.length = amp.length → var.length = amp.length →
      ∃ s : State, fitReg xs amp mean var alpha n = (0, some s) ∧ s.length = amp.length) := by
  constructor
  · intro h
    unfold fitReg
    by_cases h1 : mean.length ≠ amp.length
    · rw [if_pos h1]
    · rw [if_neg h1, if_pos (h.resolve_left h1)]
  · intro h1 h2
    refine ⟨run alpha xs n (entries amp mean var), ?_, ?_⟩
    · unfold fitReg
      rw [if_neg (by simpa using h1), if_neg (by simpa using h2)]
    · rw [run_length]
      unfold entries
      rw [List.length_zipWith, List.length_zip, h1, h2]; omega

/-! ## Failures that are not reported -/

/-- **C134, negation: a component without samples.** If one of the components has no sample within ten standard deviations then after two
steps or more no entry of the arrays is a number, and 0 is returned. -/
theorem C134_far_false {alpha : ℝ} {xs : List ℝ} {m : List Comp} (hm : Good m) {c : Comp} (hc : c ∈ m)
    (hf : ∀ x ∈ xs, ¬ Within c x) (n : Nat) : fitFrom xs m alpha (n + 2) = (0, some (List.replicate m.length none)) := by
  rw [fitFrom_iff, run, run, step_eq alpha xs hm]
  have hW : wsum xs m c (fun _ => 1) = 0 := by
    classical
    refine sum_zero _ _ (fun x hx => ?_)
    rw [zfrac_eq hm hc, zraw_eq (hm c hc).1, if_neg (hf x hx), zero_div, zero_mul]
  have hnone : none ∈ m.map (update alpha xs m) := by
    refine List.mem_map.2 ⟨c, hc, ?_⟩
    unfold update
    rw [if_pos (Or.inl hW)]
  rw [step_none alpha xs hnone, List.length_map, run_none]

/-- **C134, negation: samples that are equal.** `em_fit_1d_samples` of samples that are all equal, from any mixture within reach: 0 is returned
and no entry of the arrays is a number. -/
theorem C134_collapse_false {x : ℝ} {k : Nat} {m : List Comp} (hm : Good m) (hn : ∀ c ∈ m, Within c x) :
    fit (List.replicate (k + 1) x) (m.map (fun c => c.amp)) (m.map (fun c => c.mean)) (m.map (fun c => c.var)) =
      (0, some (List.replicate m.length none)) := by
  change fitFrom (List.replicate (k + 1) x) m 0 (998 + 2) = _
  set xs := List.replicate (k + 1) x with ex
  have hx : x ∈ xs := by rw [ex]; simp
  rw [fitFrom_iff, run, run, step_succeeds le_rfl hm (fun c hc => ⟨x, hx, hn c hc⟩)]
  cases m with
  | nil =>
    change run 0 xs 998 (step 0 xs []) = []
    exact List.length_eq_zero_iff.1 (by rw [run_length, step_length]; rfl)
  | cons c m =>
    have hW := wsum_pos hm (List.mem_cons_self ..) hx (hn c (List.mem_cons_self ..))
    have e1 : ∀ f : ℝ → ℝ, wsum xs (c :: m) c f = f x * wsum xs (c :: m) c (fun _ => 1) := by
      intro f
      rw [← wsum_mul]
      refine sum_congr _ _ _ (fun y hy => ?_)
      rw [ex] at hy
      rw [List.eq_of_mem_replicate hy, mul_one]
    have hmean : (updated 0 xs (c :: m) c).mean = x := by
      change wsum xs (c :: m) c (fun x => x) / wsum xs (c :: m) c (fun _ => 1) = x
      rw [e1 (fun x => x), mul_div_assoc, div_self hW.ne', mul_one]
    have hvar : (updated 0 xs (c :: m) c).var = 0 := by
      change (0 + wsum xs (c :: m) c (fun y => (y - (updated 0 xs (c :: m) c).mean) * (y - (updated 0 xs (c :: m) c).mean))) / _ = 0
      rw [e1, hmean]; simp
    have hst : step 0 xs (((c :: m).map (updated 0 xs (c :: m))).map some) = List.replicate (c :: m).length none := by
      unfold step
      rw [all_some]
      dsimp only
      rw [if_pos ⟨x, hx, _, List.mem_map.2 ⟨c, List.mem_cons_self .., rfl⟩, Or.inr ⟨hvar, hmean.symm⟩⟩, List.map_map]
      exact List.map_const' ..
    rw [hst, run_none]

/-! ## Examples -/

/-- Two unit components. -/
noncomputable def exMix : List Comp := [⟨1, 0, 1⟩, ⟨1, 0, 2⟩]

/-- Three samples. -/
noncomputable def exXs : List ℝ := [-1, 0, 2]

theorem exMix_good : Good exMix := by
  intro c hc
  rcases List.mem_cons.1 hc with rfl | hc
  · norm_num
  · rw [List.mem_singleton.1 hc]; norm_num

theorem exXs_range : ∀ x ∈ exXs, (-1 : ℝ) ≤ x ∧ x ≤ 2 := by
  intro x hx
  simp only [exXs, List.mem_cons, List.not_mem_nil, or_false] at hx
  rcases hx with rfl | rfl | rfl <;> norm_num

theorem ex_near : Near exXs exMix := by
  intro x hx c hc
  obtain ⟨h1, h2⟩ := exXs_range x hx
  unfold Within
  rcases List.mem_cons.1 hc with rfl | hc
  · dsimp only; nlinarith
  · rw [List.mem_singleton.1 hc]; dsimp only; nlinarith

/-- The starting values of test_em.py (amplitudes 1 and 1, means 0 and 0, variances 1 and 2), `alpha = 1`: each further step is an improvement. -/
example {n k : Nat} (h : n ≤ k) : ∃ m1 m2, fitFrom exXs exMix 1 n = (0, some (m1.map some)) ∧ fitFrom exXs exMix 1 k = (0, some (m2.map some)) ∧
    Good m1 ∧ Good m2 ∧ logPost 1 exXs m1 ≤ logPost 1 exXs m2 :=
  C134_strong one_pos (by simp [exXs]) exXs_range (by norm_num [exXs]) exMix_good ex_near h

/-- The first step. -/
example : ∃ m' : List Comp, fitFrom exXs exMix 0 1 = (0, some (m'.map some)) ∧ (m'.map (fun c => c.amp)).sum = 1 ∧
    (m'.map (fun c => c.amp * c.mean)).sum = 1 / 3 ∧ (m'.map (fun c => c.amp * (c.var + c.mean ^ 2))).sum = 5 / 3 := by
  have hx : (0 : ℝ) ∈ exXs := by simp [exXs]
  have hst := step_succeeds (alpha := 0) le_rfl exMix_good (fun c hc => ⟨0, hx, ex_near 0 hx c hc⟩)
  have h1 : fitFrom exXs exMix 0 1 = (0, some ((exMix.map (updated 0 exXs exMix)).map some)) := by
    rw [fitFrom_iff]; exact hst
  obtain ⟨a, b, c⟩ := C134_moments (n := 0) le_rfl (by simp [exXs]) exMix_good (by rw [fitFrom_eq]; rfl) h1
    (fun x hx => ⟨_, List.mem_cons_self .., ex_near x hx _ (List.mem_cons_self ..)⟩)
  refine ⟨_, h1, a, ?_, ?_⟩
  · rw [b]; norm_num [avg, exXs]
  · rw [zero_mul, zero_div, add_zero] at c
    rw [c]; norm_num [avg, exXs]

/-- One component. -/
example : fitFrom exXs [⟨7, 5, 1⟩] 0 1 = (0, some [some ⟨1, 1 / 3, 14 / 9⟩]) := by
  rw [C134_single le_rfl (by simp [exXs]) (by intro c hc; rw [List.mem_singleton.1 hc]; norm_num)
    (by
      intro x hx c hc
      obtain ⟨h1, h2⟩ := exXs_range x hx
      rw [List.mem_singleton.1 hc]
      unfold Within
      dsimp only; nlinarith)]
  have e : avg exXs (fun x => x) = 1 / 3 := by norm_num [avg, exXs]
  rw [e]
  norm_num [exXs]

/-- Equal components, as from `em_init_params`-like starting values without noise. -/
example {s : State} {n : Nat} (h : fitReg exXs [1, 1] [0, 0] [3, 3] 1 n = (0, some s)) : s[0]? = s[1]? := C134_equal rfl rfl rfl h

/-- Arrays of different lengths. -/
example : fitReg exXs [1, 1] [0] [3, 3] 1 5 = (-1, none) := (C134_args _ _ _ _ _ _).1 (Or.inl (by decide))

/-- A component at 50 spoils the fit. -/
example : fitFrom exXs [⟨1, 0, 1⟩, ⟨1, 50, 1⟩] 0 1000 = (0, some [none, none]) := by
  refine C134_far_false (n := 998) (c := ⟨1, 50, 1⟩) ?_ (by simp) ?_
  · intro c hc
    rcases List.mem_cons.1 hc with rfl | hc
    · norm_num
    · rw [List.mem_singleton.1 hc]; norm_num
  · intro x hx
    obtain ⟨h1, h2⟩ := exXs_range x hx
    unfold Within
    dsimp only; nlinarith

/-- A single sample. -/
example : fit [3] [1] [2] [1] = (0, some [none]) :=
  C134_collapse_false (k := 0) (x := 3) (m := [⟨1, 2, 1⟩]) (by intro c hc; rw [List.mem_singleton.1 hc]; norm_num)
    (by intro c hc; rw [List.mem_singleton.1 hc]; unfold Within; norm_num)

end Verif.Em1
