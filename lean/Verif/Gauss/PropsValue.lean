import Verif.Gauss.DerivLemmas

/-!
# C99: the routines that evaluate a mixture give its density

Components are left out where they are negligible; the theorems say by how much the sum can fall short, and that nothing else differs.
-/

namespace Verif.Gauss

open Verif.Mog (Comp Mix)

/-- The sum of the peaks of the components. -/
noncomputable def peaks (m : Mix ℝ) : ℝ := (m.map peak).sum

/-- A sum over the components within a distance is the density up to what the components outside contribute. -/
theorem within {m : Mix ℝ} {x y t v : ℝ} (hv : v = ((m.filter (fun c => decide (distSq c x y < t))).map (fun c => density c x y)).sum) :
    |densityMix m x y - v| ≤ Real.exp (-t / 2) * peaks m := by
  have h := skipped_le m (fun c => distSq c x y < t) (fun c => density c x y) (fun c => peak c * Real.exp (-t / 2))
    (fun c _ hn => density_le c x y t (not_lt.mp hn)) (fun c _ => mul_nonneg (peak_nonneg c) (Real.exp_pos _).le)
  rw [map_sum_mul, mul_comm] at h
  rw [hv]
  exact h

theorem all_within {m : Mix ℝ} {x y t v : ℝ} (hv : v = ((m.filter (fun c => decide (distSq c x y < t))).map (fun c => density c x y)).sum)
    (h : ∀ c ∈ m, distSq c x y < t) : v = densityMix m x y := by
  rw [hv, List.filter_eq_self.mpr (fun c hc => by simpa using h c hc)]
  rfl

/-- `evaluate` gives the density: exactly within ten standard deviations of every component, and everywhere up to `exp(-50)` of the peaks. -/
theorem C99_evaluate (m : Mix ℝ) (hm : ∀ c ∈ m, Proper c) (x y : ℝ) :
    |densityMix m x y - evaluate m x y| ≤ Real.exp (-50) * peaks m ∧
    ((∀ c ∈ m, distSq c x y < 100) → evaluate m x y = densityMix m x y) := by
  have hv : evaluate m x y = ((m.filter (fun c => decide (distSq c x y < 100))).map (fun c => density c x y)).sum := by
    unfold evaluate
    rw [fold_filter _ (fun c => density c x y) (fun c => distSq c x y < 100) m 0 (fun c hc r => gaussTerm_eq (hm c hc) x y r), zero_add]
  refine ⟨?_, all_within hv⟩
  have := within hv
  norm_num at this ⊢
  exact this

/-- `evaluate_grid` gives in each pixel the density at the pixel less `(fx, fy)`. -/
theorem C99_grid (m : Mix ℝ) (hm : ∀ c ∈ m, Proper c) (fx fy : ℝ) (ix iy : Int) :
    |densityMix m (ix - fx) (iy - fy) - evaluateGrid m fx fy ix iy| ≤ Real.exp (-50) * peaks m ∧
    ((∀ c ∈ m, distSq c (ix - fx) (iy - fy) < 100) → evaluateGrid m fx fy ix iy = densityMix m (ix - fx) (iy - fy)) := by
  have hv : evaluateGrid m fx fy ix iy =
      ((m.filter (fun c => decide (distSq c (ix - fx) (iy - fy) < 100))).map (fun c => density c (ix - fx) (iy - fy))).sum := by
    unfold evaluateGrid
    rw [fold_filter _ (fun c => density c (ix - fx) (iy - fy)) (fun c => distSq c (ix - fx) (iy - fy) < 100) m 0
      (fun c hc r => gridTerm_eq (hm c hc) fx fy ix iy r), zero_add]
  refine ⟨?_, all_within hv⟩
  have := within hv
  norm_num at this ⊢
  exact this

/-- `evaluate_3` gives the density up to `exp(-350)` of the peaks. -/
theorem C99_numpy (m : Mix ℝ) (hm : ∀ c ∈ m, Proper c) (x y : ℝ) :
    |densityMix m x y - evaluate3 m x y| ≤ Real.exp (-350) * peaks m ∧
    ((∀ c ∈ m, distSq c x y < 700) → evaluate3 m x y = densityMix m x y) := by
  have hv : evaluate3 m x y = ((m.filter (fun c => decide (distSq c x y < 700))).map (fun c => density c x y)).sum := by
    unfold evaluate3
    rw [fold_filter _ (fun c => density c x y) (fun c => distSq c x y < 700) m 0 (fun c hc r => numpyTerm_eq (hm c hc) x y r), zero_add]
  refine ⟨?_, all_within hv⟩
  have := within hv
  norm_num at this ⊢
  exact this

/-- `eval_all` gives the density up to `exp(-100)` of the peaks. -/
theorem C99_all (m : Mix ℝ) (hm : ∀ c ∈ m, Proper c) (x y : ℝ) :
    |densityMix m x y - evalAll m x y| ≤ Real.exp (-100) * peaks m ∧
    ((∀ c ∈ m, distSq c x y ≤ 200) → evalAll m x y = densityMix m x y) := by
  have hv : evalAll m x y = ((m.filter (fun c => decide (distSq c x y ≤ 200))).map (fun c => density c x y)).sum := by
    unfold evalAll
    rw [fold_filter _ (fun c => density c x y) (fun c => distSq c x y ≤ 200) m 0 (fun c hc r => ?_), zero_add]
    obtain ⟨h1, h2, _⟩ := prep_eq (hm c hc) x y
    unfold evalG
    simp only [h1, h2]
    by_cases h : distSq c x y ≤ 200
    · rw [if_pos h, if_neg (by linarith)]; rfl
    · rw [if_neg h, if_pos (by linarith)]; ring
  constructor
  · have h := skipped_le m (fun c => distSq c x y ≤ 200) (fun c => density c x y) (fun c => peak c * Real.exp (-200 / 2))
      (fun c _ hn => density_le c x y 200 (not_le.mp hn).le) (fun c _ => mul_nonneg (peak_nonneg c) (Real.exp_pos _).le)
    rw [map_sum_mul, mul_comm] at h
    rw [hv]
    norm_num at h ⊢
    exact h
  · intro h
    rw [hv, List.filter_eq_self.mpr (fun c hc => by simpa using h c hc)]
    rfl

/-- `evaluate_grid_masked`: nothing outside the mask; inside it the density up to `exp(-30)` of the peaks. -/
theorem C99_masked (m : Mix ℝ) (hm : ∀ c ∈ m, Proper c) (mask : Int → Int → Bool) (fx fy : ℝ) (x y : Int) :
    (mask y x = false → masked m mask fx fy x y = (0, 0, 0)) ∧
    (mask y x = true → |densityMix m (x - fx) (y - fy) - (masked m mask fx fy x y).1| ≤ Real.exp (-30) * peaks m ∧
      ((∀ c ∈ m, distSq c (x - fx) (y - fy) ≤ 60) → (masked m mask fx fy x y).1 = densityMix m (x - fx) (y - fy) ∧
        HasDerivAt (fun t => densityMix m (x - t) (y - fy)) (masked m mask fx fy x y).2.1 fx ∧
        HasDerivAt (fun t => densityMix m (x - fx) (y - t)) (masked m mask fx fy x y).2.2 fy)) := by
  rw [masked_eq hm]
  refine ⟨fun h => by rw [if_neg (by simp [h])], fun h => ?_⟩
  rw [if_pos h, evalDxy_eq hm]
  constructor
  · have h := skipped_le m (fun c => (-30 : ℝ) ≤ -(distSq c (x - fx) (y - fy)) / 2) (fun c => density c (x - fx) (y - fy))
      (fun c => peak c * Real.exp (-60 / 2))
      (fun c _ hn => density_le c _ _ 60 (by have := not_le.mp hn; linarith)) (fun c _ => mul_nonneg (peak_nonneg c) (Real.exp_pos _).le)
    rw [map_sum_mul, mul_comm] at h
    norm_num at h ⊢
    exact h
  · intro hd
    rw [List.filter_eq_self.mpr (fun c hc => by
      have := hd c hc; simp only [decide_eq_true_eq]; linarith)]
    exact ⟨rfl, densityMix_deriv_x m x _ fx, densityMix_deriv_y m _ y fy⟩

theorem share_sum (m : Mix ℝ) (k : ℝ) (h : 0 < (m.map (·.amp)).sum) :
    (m.map (fun c => c.amp * (k / (m.map (·.amp)).sum))).sum = k := by
  rw [map_sum_mul]
  field_simp

/-- A pixel evaluated by `evaluate_grid_approx3` with a minimum value: what is left out is less than the minimum (and `exp(-100)` of the peaks). -/
theorem C99_minval (m : Mix ℝ) (hm : ∀ c ∈ m, Proper c) (ha : ∀ c ∈ m, 0 ≤ c.amp) (hs : 0 < (m.map (·.amp)).sum)
    (minval : ℝ) (h0 : 0 < minval) (fx fy : ℝ) (x y : Int) :
    (approx3 minval m fx fy x y).1 ≤ densityMix m (x - fx) (y - fy) ∧
    densityMix m (x - fx) (y - fy) ≤ (approx3 minval m fx fy x y).1 + minval + Real.exp (-100) * peaks m := by
  unfold approx3
  rw [evalDxy_eq hm]
  have hn : ∀ c ∈ m, 0 ≤ density c (x - fx) (y - fy) := fun c hc => density_nonneg c _ _ (ha c hc)
  refine ⟨skipped_nonneg m (fun c => approxMaxD minval m c ≤ -(distSq c (x - fx) (y - fy)) / 2) _ hn, ?_⟩
  have h := skipped_le m (fun c => approxMaxD minval m c ≤ -(distSq c (x - fx) (y - fy)) / 2) (fun c => density c (x - fx) (y - fy))
      (fun c => c.amp * (minval / (m.map (·.amp)).sum) + peak c * Real.exp (-100)) ?_ ?_
  · rw [map_sum_add, share_sum m minval hs, map_sum_mul] at h
    have := (abs_le.mp h).2
    unfold densityMix peaks
    simp only
    linarith
  · intro c hc hk
    have hdet : 0 < c.vxx * c.vyy - c.vxy ^ 2 := (hm c hc).2.2
    have hsq := Real.sqrt_pos.mpr hdet
    have hpi := Real.pi_pos
    have hk := not_le.mp hk
    unfold approxMaxD at hk
    rw [if_pos h0] at hk
    simp only [(prep_eq (hm c hc) 0 0).2.2, sqrt_tpd] at hk
    set K : ℝ := minval * (2 * Real.pi * Real.sqrt (c.vxx * c.vyy - c.vxy ^ 2)) / (m.map (·.amp)).sum with hK
    have hKpos : 0 < K := by positivity
    have hp := mul_nonneg (peak_nonneg c) (Real.exp_pos (-100)).le
    have hshare : 0 ≤ c.amp * (minval / (m.map (·.amp)).sum) := mul_nonneg (ha c hc) (by positivity)
    split at hk
    · have := density_le c (x - fx) (y - fy) 200 (by linarith)
      norm_num at this
      linarith
    · have he : Real.exp (-(distSq c (x - fx) (y - fy)) / 2) ≤ K := by
        rw [← Real.exp_log hKpos]; exact Real.exp_le_exp.mpr hk.le
      rw [abs_of_nonneg (hn c hc)]
      unfold density
      have hA : 0 ≤ c.amp / (2 * Real.pi * Real.sqrt (c.vxx * c.vyy - c.vxy ^ 2)) := div_nonneg (ha c hc) (by positivity)
      have h1 := mul_le_mul_of_nonneg_left he hA
      have h2 : c.amp / (2 * Real.pi * Real.sqrt (c.vxx * c.vyy - c.vxy ^ 2)) * K = c.amp * (minval / (m.map (·.amp)).sum) := by
        rw [hK]; field_simp
      linarith
  · intro c hc
    exact add_nonneg (mul_nonneg (ha c hc) (by positivity)) (mul_nonneg (peak_nonneg c) (Real.exp_pos _).le)

/-- Without a minimum value (zero), only components beyond `dist^2 = 200` are left out, of any sign. -/
theorem C99_nomin (m : Mix ℝ) (hm : ∀ c ∈ m, Proper c) (minval : ℝ) (h0 : minval ≤ 0) (fx fy : ℝ) (x y : Int) :
    |densityMix m (x - fx) (y - fy) - (approx3 minval m fx fy x y).1| ≤ Real.exp (-100) * peaks m := by
  unfold approx3
  rw [evalDxy_eq hm]
  have hD : ∀ c, approxMaxD minval m c = -100 := fun c => by unfold approxMaxD; rw [if_neg (not_lt.mpr h0)]
  have h := skipped_le m (fun c => approxMaxD minval m c ≤ -(distSq c (x - fx) (y - fy)) / 2) (fun c => density c (x - fx) (y - fy))
      (fun c => peak c * Real.exp (-200 / 2))
      (fun c _ hn => density_le c _ _ 200 (by have := not_le.mp hn; rw [hD] at this; linarith))
      (fun c _ => mul_nonneg (peak_nonneg c) (Real.exp_pos _).le)
  rw [map_sum_mul, mul_comm] at h
  norm_num at h ⊢
  exact h

/-- The derivatives are those of the density of the components that are kept, as `(fx, fy)` moves. -/
theorem C99_derivs (m : Mix ℝ) (hm : ∀ c ∈ m, Proper c) (minval fx fy : ℝ) (x y : Int) :
    ∃ kept : Mix ℝ, kept.Sublist m ∧ (approx3 minval m fx fy x y).1 = densityMix kept (x - fx) (y - fy) ∧
      HasDerivAt (fun t => densityMix kept (x - t) (y - fy)) (approx3 minval m fx fy x y).2.1 fx ∧
      HasDerivAt (fun t => densityMix kept (x - fx) (y - t)) (approx3 minval m fx fy x y).2.2 fy := by
  unfold approx3
  rw [evalDxy_eq hm]
  exact ⟨_, List.filter_sublist, rfl, densityMix_deriv_x _ x _ fx, densityMix_deriv_y _ _ y fy⟩

/-- Two components, one of them with correlated axes. -/
noncomputable def two : Mix ℝ := [⟨1, 0, 0, 1, 0, 0, 1⟩, ⟨2, 1, 0, 2, 1, 1, 3⟩]

theorem two_proper : ∀ c ∈ two, Proper c := by
  intro c hc
  simp only [two, List.mem_cons, List.not_mem_nil, or_false] at hc
  rcases hc with rfl | rfl <;> (unfold Proper; norm_num)

/-- At the origin the first component gives `1 / 2 pi`, the second `1 / (pi sqrt 5) exp(-3/10)`. -/
example : evaluate two 0 0 = 1 / (2 * Real.pi) + 2 / (2 * Real.pi * Real.sqrt 5) * Real.exp (-3 / 10) := by
  rw [(C99_evaluate two two_proper 0 0).2 (by
    intro c hc
    simp only [two, List.mem_cons, List.not_mem_nil, or_false] at hc
    rcases hc with rfl | rfl <;> (unfold distSq; norm_num))]
  simp [densityMix, two, density, distSq]
  norm_num

/-- With a minimum value of one hundredth the value at the origin is within that of the density. -/
example : densityMix two ((0 : Int) - 0) ((0 : Int) - 0) ≤ (approx3 0.01 two 0 0 0 0).1 + 0.01 + Real.exp (-100) * peaks two :=
  (C99_minval two two_proper (by
    intro c hc
    simp only [two, List.mem_cons, List.not_mem_nil, or_false] at hc
    rcases hc with rfl | rfl <;> norm_num) (by simp [two]; norm_num) 0.01 (by norm_num) 0 0 0 0).2

/-- Far away a single component is left out altogether. -/
example : evaluate [⟨1, 0, 0, 1, 0, 0, 1⟩] 20 0 = 0 := by
  unfold evaluate gaussTerm
  norm_num

end Verif.Gauss
