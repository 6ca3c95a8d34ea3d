import Verif.Sbright.Model
import Verif.Forced.PropsGetims

namespace Verif.Sbright

open Verif Patches

section
variable {R : Type} [Field R] [LinearOrder R]

theorem blend_ok (T : Thresh R) (c noise fb fa : R) (bright : R → Patch R) (faint : Patch R) (hc : c ≠ 0) (hw : weights T c = .ok (fb, fa))
    (hs : fa + fb = 1) (hb : ∀ dc, (bright dc).patch ≠ none) (hf : faint.patch ≠ none) :
    ∃ p, modelPatch T false c (some noise) bright faint = .ok (some p) ∧
      ∀ x y, p.at x y = c * (fa * faint.at x y + fb * (bright (1 / 1000 * noise / c)).at x y) := by
  unfold modelPatch
  rw [if_neg (by simp), if_neg hc, hw]
  dsimp only
  by_cases h0 : fb = 0
  · have h1 : fa = 1 := by rw [h0, add_zero] at hs; exact hs
    rw [if_neg (by simp [h0]), if_pos (by rw [h1]; exact one_ne_zero)]
    refine ⟨_, rfl, fun x y => ?_⟩
    rw [Forced.at_mul, h0, h1]
    ring
  · rw [if_pos h0]
    by_cases h1 : fa = 0
    · rw [if_neg (by simp [h1])]
      have h2 : fb = 1 := by rw [h1, zero_add] at hs; exact hs
      refine ⟨_, rfl, fun x y => ?_⟩
      rw [Forced.at_mul, Forced.at_mul, h1, h2]
      ring
    · rw [if_pos h1]
      obtain ⟨A, hA⟩ := Option.ne_none_iff_exists'.1 (hb (1 / 1000 * noise / c))
      obtain ⟨B, hB⟩ := Option.ne_none_iff_exists'.1 hf
      obtain ⟨r, r1, r2, -⟩ := arith_ok (α := R) (· + ·) (by simp) ((bright (1 / 1000 * noise / c)).mul fb) (faint.mul fa)
        (A.map (· * fb)) (B.map (· * fa)) (by unfold Patch.mul; rw [hA]; rfl) (by unfold Patch.mul; rw [hB]; rfl)
      have r1' : ((bright (1 / 1000 * noise / c)).mul fb).add (faint.mul fa) = .ok r := r1
      rw [r1']
      refine ⟨_, rfl, fun x y => ?_⟩
      rw [Forced.at_mul, r2, Forced.at_mul, Forced.at_mul]
      ring

end

/-! ### The radius -/

variable (B : Bright)

theorem ratio_ge_one {q e : ℝ} (h0 : 0 < q) (h1 : q ≤ 1) (he : 0 < e) : 1 ≤ q ^ (-2 / e) :=
  Real.one_le_rpow_of_pos_of_le_one_of_nonpos h0 h1 (div_nonpos_of_nonpos_of_nonneg (by norm_num) he.le)

/-- The power law reaches `dc` at the radius. -/
theorem power_at_radius (hb : 0 < B.beta) (hs : 0 < B.sigmap) (dc : ℝ) (h0 : 0 < dc) (h1 : dc ≤ B.a3) :
    B.power (B.rawRadius dc ^ 2) = dc := by
  have ha : 0 < B.a3 := h0.trans_le h1
  have hq : 0 < dc / B.a3 := div_pos h0 ha
  have hk : 0 < B.beta * B.sigmap ^ 2 := by positivity
  have h2 := ratio_ge_one hq ((div_le_one ha).2 h1) hb
  unfold Bright.rawRadius
  rw [if_neg (not_lt.2 h1), Real.sq_sqrt (mul_nonneg hk.le (by linarith))]
  unfold Bright.power
  rw [mul_div_cancel_left₀ _ hk.ne', add_sub_cancel, ← Real.rpow_mul hq.le]
  have : -2 / B.beta * (-B.beta / 2) = 1 := by field_simp
  rw [this, Real.rpow_one]
  field_simp

/-- The power law falls with the distance. -/
theorem power_anti (hb : 0 < B.beta) (hs : 0 < B.sigmap) (ha : 0 ≤ B.a3) {u v : ℝ} (hu : 0 ≤ u) (h : u ≤ v) : B.power v ≤ B.power u := by
  have hk : 0 < B.beta * B.sigmap ^ 2 := by positivity
  unfold Bright.power
  refine mul_le_mul_of_nonneg_left ?_ ha
  refine Real.rpow_le_rpow_of_nonpos (by positivity) ?_ (by linarith)
  gcongr

theorem power_nonneg (hb : 0 < B.beta) (ha : 0 ≤ B.a3) {u : ℝ} (hu : 0 ≤ u) : 0 ≤ B.power u := by
  unfold Bright.power
  exact mul_nonneg ha (Real.rpow_nonneg (by positivity) _)

theorem power_pos (hb : 0 < B.beta) (ha : 0 < B.a3) {u : ℝ} (hu : 0 ≤ u) : 0 < B.power u := by
  unfold Bright.power
  exact mul_pos ha (Real.rpow_pos_of_pos (by positivity) _)

theorem rawRadius_nonneg (dc : ℝ) : 0 ≤ B.rawRadius dc := by
  unfold Bright.rawRadius
  split
  · norm_num
  · exact Real.sqrt_nonneg _

theorem radius_range (dc : ℝ) : 25 ≤ B.radius dc ∧ B.radius dc ≤ 200 := by
  unfold Bright.radius
  exact ⟨le_min (le_max_right _ _) (by norm_num), min_le_right _ _⟩

theorem radius_ge (dc : ℝ) (h : B.rawRadius dc ≤ 200) : B.rawRadius dc ≤ B.radius dc := by
  unfold Bright.radius
  exact le_min (le_max_left _ _) h

/-- Pixels within the radius are in the patch. -/
theorem covers_within (px py dc : ℝ) (x y : Int) (hx : |(x : ℝ) - px| ≤ B.radius dc) (hy : |(y : ℝ) - py| ≤ B.radius dc) :
    (B.patch px py dc).covers x y := by
  obtain ⟨x1, x2⟩ := abs_le.1 hx
  obtain ⟨y1, y2⟩ := abs_le.1 hy
  have a1 : ⌊px - B.radius dc⌋ ≤ x := by
    have := Int.floor_le (px - B.radius dc)
    exact_mod_cast (show ((⌊px - B.radius dc⌋ : ℤ) : ℝ) ≤ x by linarith)
  have a2 : x ≤ ⌈px + B.radius dc⌉ := by
    have := Int.le_ceil (px + B.radius dc)
    exact_mod_cast (show (x : ℝ) ≤ ((⌈px + B.radius dc⌉ : ℤ) : ℝ) by linarith)
  have b1 : ⌊py - B.radius dc⌋ ≤ y := by
    have := Int.floor_le (py - B.radius dc)
    exact_mod_cast (show ((⌊py - B.radius dc⌋ : ℤ) : ℝ) ≤ y by linarith)
  have b2 : y ≤ ⌈py + B.radius dc⌉ := by
    have := Int.le_ceil (py + B.radius dc)
    exact_mod_cast (show (y : ℝ) ≤ ((⌈py + B.radius dc⌉ : ℤ) : ℝ) by linarith)
  unfold Patch.covers Bright.patch
  dsimp only [Arr.map, Bright.grid]
  omega

theorem uncovered_far (px py dc : ℝ) (x y : Int) (h : ¬ (B.patch px py dc).covers x y) :
    B.radius dc ^ 2 ≤ ((x : ℝ) - px) ^ 2 + ((y : ℝ) - py) ^ 2 := by
  have hR : 0 ≤ B.radius dc := by linarith [(radius_range B dc).1]
  by_contra hc
  push Not at hc
  refine h (covers_within B px py dc x y ?_ ?_)
  · refine abs_le_of_sq_le_sq ?_ hR
    nlinarith [sq_nonneg ((y : ℝ) - py)]
  · refine abs_le_of_sq_le_sq ?_ hR
    nlinarith [sq_nonneg ((x : ℝ) - px)]

theorem profile_ge_power (h1 : 0 ≤ B.a1) (h2 : 0 ≤ B.a2) (r2 : ℝ) : B.power r2 ≤ B.profile r2 := by
  unfold Bright.profile
  have := mul_nonneg h1 (Real.exp_pos (-(1 / 2) * r2 / B.s1 ^ 2)).le
  have := mul_nonneg h2 (Real.exp_pos (-(1 / 2) * r2 / B.s2 ^ 2)).le
  linarith

theorem ravel_sum_pos (A : Arr ℝ) (h : ∀ j i, 0 < A.px j i) (hh : 0 < A.h) (hw : 0 < A.w) : 0 < A.ravel.sum := by
  have hp : ∀ v ∈ A.ravel, 0 < v := by
    intro v hv
    simp only [Arr.ravel, List.mem_flatMap, List.mem_map] at hv
    obtain ⟨j, _, i, _, rfl⟩ := hv
    exact h j i
  have hne : A.ravel ≠ [] := by
    intro he
    have : A.px 0 0 ∈ A.ravel := by
      simp only [Arr.ravel, List.mem_flatMap, List.mem_map, List.mem_range]
      exact ⟨0, hh, 0, hw, rfl⟩
    rw [he] at this
    cases this
  exact List.sum_pos _ hp hne

theorem grid_pos (px py dc : ℝ) : 0 < (B.grid px py dc).h ∧ 0 < (B.grid px py dc).w := by
  have hR := (radius_range B dc).1
  have e : ∀ p : ℝ, ⌊p - B.radius dc⌋ ≤ ⌈p + B.radius dc⌉ := by
    intro p
    have a := Int.floor_le (p - B.radius dc)
    have b := Int.le_ceil (p + B.radius dc)
    exact_mod_cast (show ((⌊p - B.radius dc⌋ : ℤ) : ℝ) ≤ ((⌈p + B.radius dc⌉ : ℤ) : ℝ) by linarith)
  have ex := e px
  have ey := e py
  unfold Bright.grid
  dsimp only
  omega

theorem grid_sum_pos (h1 : 0 ≤ B.a1) (h2 : 0 ≤ B.a2) (h3 : 0 < B.a3) (hb : 0 < B.beta) (px py dc : ℝ) : 0 < (B.grid px py dc).ravel.sum := by
  obtain ⟨hh, hw⟩ := grid_pos B px py dc
  refine ravel_sum_pos _ (fun j i => ?_) hh hw
  exact (power_pos B hb h3 (by positivity)).trans_le (profile_ge_power B h1 h2 _)

theorem ravel_map_sum (A : Arr ℝ) (s : ℝ) : (A.map (· / s)).ravel.sum = A.ravel.sum / s := by
  have e : (A.map (· / s)).ravel = A.ravel.map (· / s) := by
    simp only [Arr.ravel, Arr.map, List.map_flatMap, List.map_map]
    rfl
  rw [e]
  generalize A.ravel = l
  induction l with
  | nil => simp
  | cons a l ih => rw [List.map_cons, List.sum_cons, ih, List.sum_cons, add_div]

theorem ravel_sum_le (A : Arr ℝ) (b : ℝ) (h : ∀ j i, A.px j i ≤ b) : A.ravel.sum ≤ (A.h * A.w : ℕ) * b := by
  have hp : ∀ v ∈ A.ravel, v ≤ b := by
    intro v hv
    simp only [Arr.ravel, List.mem_flatMap, List.mem_map] at hv
    obtain ⟨j, _, i, _, rfl⟩ := hv
    exact h j i
  have hl : A.ravel.length = A.h * A.w := by
    simp [Arr.ravel, List.length_flatMap]
  have := List.sum_le_card_nsmul _ _ hp
  rw [hl, nsmul_eq_mul] at this
  exact this

end Verif.Sbright
