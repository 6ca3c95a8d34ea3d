import Verif.Sbright.Lemmas
import Mathlib.Algebra.BigOperators.Ring.Finset
import Mathlib.Algebra.BigOperators.Group.Finset.Basic

/-!
# C136: bright SDSS point sources keep their flux and blend smoothly between the two PSF models
-/

namespace Verif.Sbright

open Verif Patches

section
variable {R : Type} [Field R] [LinearOrder R] [IsStrictOrderedRing R]

/-- **C136.** The weight of the bright model for thresholds `t2 < t1`: both weights add to one, the bright one is 0 up to `t2`, 1 from `t1` on,
linear in between, never falls with the counts and has no jumps. -/
theorem C136_weights (t1 t2 : R) (h : t2 < t1) : ∃ fb : R → R, (∀ c, weights ⟨some t1, some t2⟩ c = .ok (fb c, 1 - fb c)) ∧
    (∀ c, 0 ≤ fb c ∧ fb c ≤ 1) ∧ (∀ c, c ≤ t2 → fb c = 0) ∧ (∀ c, t1 ≤ c → fb c = 1) ∧
    (∀ c, t2 ≤ c → c ≤ t1 → fb c * (t1 - t2) = c - t2) ∧ (∀ c d, c ≤ d → fb c ≤ fb d) ∧
    (∀ c d, |fb c - fb d| * (t1 - t2) ≤ |c - d|) := by
  have ht : 0 < t1 - t2 := sub_pos.2 h
  have e : ∀ c, t2 ≤ c → min (max ((c - t2) / (t1 - t2)) 0) 1 = min ((c - t2) / (t1 - t2)) 1 := by
    intro c hc
    rw [max_eq_left (div_nonneg (sub_nonneg.2 hc) ht.le)]
  have low : ∀ c, c ≤ t2 → min (max ((c - t2) / (t1 - t2)) 0) 1 = 0 := by
    intro c hc
    rw [max_eq_right (div_nonpos_of_nonpos_of_nonneg (sub_nonpos.2 hc) ht.le), min_eq_left zero_le_one]
  refine ⟨fun c => min (max ((c - t2) / (t1 - t2)) 0) 1, fun c => ?_, fun c => ⟨le_min (le_max_right _ _) zero_le_one, min_le_right _ _⟩, low, ?_, ?_, ?_, ?_⟩
  · unfold weights
    dsimp only
    by_cases hc : t2 ≤ c
    · rw [if_pos hc, if_neg ht.ne']
    · rw [if_neg hc, low c (not_le.1 hc).le, sub_zero]
  · intro c hc
    dsimp only
    rw [e c (h.le.trans hc), min_eq_right]
    rw [le_div_iff₀ ht]
    linarith
  · intro c h1 h2
    dsimp only
    rw [e c h1, min_eq_left (by rw [div_le_one ht]; linarith), div_mul_cancel₀ _ ht.ne']
  · intro c d hcd
    dsimp only
    refine min_le_min_right _ (max_le_max_right _ ?_)
    gcongr
  · intro c d
    have h1 := abs_min_sub_min_le_max (max ((c - t2) / (t1 - t2)) 0) 1 (max ((d - t2) / (t1 - t2)) 0) 1
    have h2 := abs_max_sub_max_le_max ((c - t2) / (t1 - t2)) 0 ((d - t2) / (t1 - t2)) 0
    simp only [sub_self, abs_zero] at h1 h2
    rw [max_eq_left (abs_nonneg (max ((c - t2) / (t1 - t2)) 0 - max ((d - t2) / (t1 - t2)) 0))] at h1
    rw [max_eq_left (abs_nonneg ((c - t2) / (t1 - t2) - (d - t2) / (t1 - t2)))] at h2
    have h3 := h1.trans h2
    have e3 : (c - t2) / (t1 - t2) - (d - t2) / (t1 - t2) = (c - d) / (t1 - t2) := by rw [← sub_div]; congr 1; ring
    rw [e3, abs_div, abs_of_pos ht, le_div_iff₀ ht] at h3
    exact h3

example : weights ⟨some 10, some 4⟩ (7 : ℚ) = .ok (1 / 2, 1 / 2) ∧ weights ⟨some 10, some 4⟩ (3 : ℚ) = .ok (0, 1) ∧
    weights ⟨some 10, some 4⟩ (20 : ℚ) = .ok (1, 0) := by decide +kernel

/-- **C136.** The rendered source: for all counts but zero, at every pixel, counts times the weighted mean of the two models; hence in every
set of pixels the fluxes of the models are mixed in the same way, and where both hold their whole flux the source has its counts. -/
theorem C136_blend_partial (t1 t2 c noise : R) (h : t2 < t1) (hc : c ≠ 0) (bright : R → Patch R) (faint : Patch R)
    (hb : ∀ dc, (bright dc).patch ≠ none) (hf : faint.patch ≠ none) :
    ∃ p fb, modelPatch ⟨some t1, some t2⟩ false c (some noise) bright faint = .ok (some p) ∧ weights ⟨some t1, some t2⟩ c = .ok (fb, 1 - fb) ∧
      (∀ x y, p.at x y = c * ((1 - fb) * faint.at x y + fb * (bright (1 / 1000 * noise / c)).at x y)) ∧
      (∀ S : Finset (ℤ × ℤ), S.sum (fun t => faint.at t.1 t.2) = 1 → S.sum (fun t => (bright (1 / 1000 * noise / c)).at t.1 t.2) = 1 →
        S.sum (fun t => p.at t.1 t.2) = c) := by
  obtain ⟨fb, h1, -⟩ := C136_weights t1 t2 h
  obtain ⟨p, p1, p2⟩ := blend_ok ⟨some t1, some t2⟩ c noise (fb c) (1 - fb c) bright faint hc (h1 c) (by ring) hb hf
  refine ⟨p, fb c, p1, h1 c, p2, fun S hA hB => ?_⟩
  have : S.sum (fun t => p.at t.1 t.2) = c * ((1 - fb c) * S.sum (fun t => faint.at t.1 t.2) +
      fb c * S.sum (fun t => (bright (1 / 1000 * noise / c)).at t.1 t.2)) := by
    rw [Finset.mul_sum, Finset.mul_sum, ← Finset.sum_add_distrib, Finset.mul_sum]
    exact Finset.sum_congr rfl (fun t _ => p2 t.1 t.2)
  rw [this, hA, hB]
  ring

/-- Half way between the thresholds. -/
example : (modelPatch ⟨some 10, some 4⟩ false (7 : ℚ) (some 1) (fun _ => ⟨0, 0, some (Arr.ofLists [[1 / 4, 1 / 2, 1 / 4]] 3)⟩)
    ⟨1, 0, some (Arr.ofLists [[1]] 1)⟩).toOption.map (fun p => p.map (fun p => (p.x0, p.patch.map Arr.toLists))) =
      some (some (0, some [[7 / 8, 21 / 4, 7 / 8]])) := by decide +kernel

/-- **C136.** Thresholds: the second one is 2.5 times (one magnitude) below the first unless it is given, and not above it; sources without
thresholds and sources below the second one are point sources; a mask is refused; no counts, no model. -/
theorem C136_args (T : Thresh R) (bright : R → Patch R) (faint : Patch R) (noise : Option R) (c : R) :
    (∀ t : R, init (some t) none = .ok ⟨some t, some (2 / 5 * t)⟩) ∧
    (∀ t t2 : R, init (some t) (some t2) = .ok ⟨some t, some t2⟩ ↔ t2 ≤ t) ∧
    (∀ t2 : R, init none (some t2) = .error .typeErr) ∧
    modelPatch T true c noise bright faint = .error .assertion ∧
    modelPatch T false 0 noise bright faint = .ok none ∧
    (c ≠ 0 → T.t2 = none ∨ (∃ t2, T.t2 = some t2 ∧ c < t2) →
      modelPatch T false c noise bright faint = .ok (some ((unitPatch faint).mul c))) := by
  refine ⟨fun t => ?_, fun t t2 => ?_, fun _ => rfl, rfl, ?_, fun hc ht => ?_⟩
  · have : t / (5 / 2) = 2 / 5 * t := by field_simp
    unfold init
    dsimp only
    rw [this]
  · unfold init
    dsimp only
    constructor
    · intro hh
      by_contra hn
      rw [if_neg hn] at hh
      cases hh
    · intro hh
      rw [if_pos hh]
  · unfold modelPatch
    rw [if_neg (by simp), if_pos rfl]
  · have hw : weights T c = .ok (0, 1) := by
      unfold weights
      rcases ht with h | ⟨t2, h, h2⟩
      · rw [h]
      · rw [h]
        dsimp only
        rw [if_neg (not_le.2 h2)]
    unfold modelPatch
    rw [if_neg (by simp), if_neg hc, hw]
    dsimp only
    rw [if_neg (by simp), if_pos one_ne_zero]
    rfl

example : init (some (10 : ℚ)) none = .ok ⟨some 10, some 4⟩ := by
  have := (C136_args (R := ℚ) ⟨none, none⟩ (fun _ => ⟨0, 0, none⟩) ⟨0, 0, none⟩ none 0).1 10
  rw [this]; norm_num

/-- **C136 (negation).** No class of images has `getMedianPixelNoise`: every source above the second threshold ends with an AttributeError. -/
theorem C136_image_false (t1 t2 c : R) (h : t2 < t1) (h0 : 0 < t2) (hc : t2 < c) (bright : R → Patch R) (faint : Patch R) :
    modelPatch ⟨some t1, some t2⟩ false c none bright faint = .error .attribute := by
  have ht : 0 < t1 - t2 := sub_pos.2 h
  have hw : weights ⟨some t1, some t2⟩ c = .ok (min (max ((c - t2) / (t1 - t2)) 0) 1, 1 - min (max ((c - t2) / (t1 - t2)) 0) 1) := by
    unfold weights
    dsimp only
    rw [if_pos hc.le, if_neg ht.ne']
  have hp : 0 < min (max ((c - t2) / (t1 - t2)) 0) 1 := lt_min (lt_max_of_lt_left (div_pos (sub_pos.2 hc) ht)) zero_lt_one
  unfold modelPatch
  rw [if_neg (by simp), if_neg (h0.trans hc).ne', hw]
  dsimp only
  rw [if_pos hp.ne']

omit [IsStrictOrderedRing R] in
/-- **C136 (negation).** Equal thresholds are accepted, but sources at or above them are not rendered. -/
theorem C136_equal_false (t c : R) (h0 : 0 < t) (hc : t ≤ c) (noise : Option R) (bright : R → Patch R) (faint : Patch R) :
    ∃ T, init (some t) (some t) = .ok T ∧ modelPatch T false c noise bright faint = .error .zeroDiv := by
  refine ⟨⟨some t, some t⟩, by unfold init; dsimp only; rw [if_pos le_rfl], ?_⟩
  have hw : weights ⟨some t, some t⟩ c = .error .zeroDiv := by
    unfold weights
    dsimp only
    rw [if_pos hc, if_pos (sub_self t)]
  unfold modelPatch
  rw [if_neg (by simp), if_neg (h0.trans_le hc).ne', hw]

/-- **C136 (negation).** The unit-flux model, with which forced photometry and the derivatives work, is not that of a bright source. -/
theorem C136_unit_false : ∃ (T : Thresh ℚ) (c : ℚ) (bright : ℚ → Patch ℚ) (faint : Patch ℚ),
    (modelPatch T false c (some 1) bright faint).toOption.map (Option.map (fun p => p.at 0 0)) = some (some 5) ∧
      ((unitPatch faint).mul c).at 0 0 = 10 :=
  ⟨⟨some 8, some 4⟩, 10, fun _ => ⟨0, 0, some (Arr.ofLists [[1 / 2, 1 / 2]] 2)⟩, ⟨0, 0, some (Arr.ofLists [[1]] 1)⟩, by decide +kernel, by decide +kernel⟩

end

/-- **C136.** The patch of the bright model has total one, contains all pixels within its radius (at least 25, at most 200), and that radius,
unless cut to 200, is not less than the distance at which the power law falls to `dc`, beyond which it stays below. -/
theorem C136_bright (B : Bright) (h1 : 0 ≤ B.a1) (h2 : 0 ≤ B.a2) (h3 : 0 < B.a3) (hb : 0 < B.beta) (hs : 0 < B.sigmap) (px py dc : ℝ)
    (h0 : 0 < dc) (hd : dc ≤ B.a3) :
    (∃ A, (B.patch px py dc).patch = some A ∧ A.ravel.sum = 1) ∧ 25 ≤ B.radius dc ∧ B.radius dc ≤ 200 ∧
    (∀ x y : ℤ, ((x : ℝ) - px) ^ 2 + ((y : ℝ) - py) ^ 2 ≤ B.radius dc ^ 2 → (B.patch px py dc).covers x y) ∧
    B.a3 * (1 + B.rawRadius dc ^ 2 / (B.beta * B.sigmap ^ 2)) ^ (-B.beta / 2) = dc ∧
    (B.rawRadius dc ≤ 200 → ∀ x y : ℤ, ¬ (B.patch px py dc).covers x y →
      B.a3 * (1 + (((x : ℝ) - px) ^ 2 + ((y : ℝ) - py) ^ 2) / (B.beta * B.sigmap ^ 2)) ^ (-B.beta / 2) ≤ dc) := by
  have hS := grid_sum_pos B h1 h2 h3 hb px py dc
  refine ⟨⟨_, rfl, ?_⟩, (radius_range B dc).1, (radius_range B dc).2, fun x y hxy => ?_, power_at_radius B hb hs dc h0 hd, fun hr x y hx => ?_⟩
  · rw [ravel_map_sum, div_self hS.ne']
  · have hR : 0 ≤ B.radius dc := by linarith [(radius_range B dc).1]
    refine covers_within B px py dc x y (abs_le_of_sq_le_sq ?_ hR) (abs_le_of_sq_le_sq ?_ hR)
    · nlinarith [sq_nonneg ((y : ℝ) - py)]
    · nlinarith [sq_nonneg ((x : ℝ) - px)]
  · have hfar := uncovered_far B px py dc x y hx
    have hge := radius_ge B dc hr
    have h5 : B.rawRadius dc ^ 2 ≤ ((x : ℝ) - px) ^ 2 + ((y : ℝ) - py) ^ 2 :=
      (pow_le_pow_left₀ (rawRadius_nonneg B dc) hge 2).trans hfar
    have h6 := power_anti B hb hs h3.le (sq_nonneg (B.rawRadius dc)) h5
    rw [power_at_radius B hb hs dc h0 hd] at h6
    exact h6

/-- **C136.** Hence, if the profile adds to at least one before normalisation, the power law that is cut off is less than a thousandth of the
noise per pixel. -/
theorem C136_tail_partial (B : Bright) (h1 : 0 ≤ B.a1) (h2 : 0 ≤ B.a2) (h3 : 0 < B.a3) (hb : 0 < B.beta) (hs : 0 < B.sigmap) (px py c noise : ℝ)
    (hc : 0 < c) (hn : 0 < noise) (hd : 1 / 1000 * noise / c ≤ B.a3) (hr : B.rawRadius (1 / 1000 * noise / c) ≤ 200)
    (hS : 1 ≤ (B.grid px py (1 / 1000 * noise / c)).ravel.sum) (x y : ℤ) (hx : ¬ (B.patch px py (1 / 1000 * noise / c)).covers x y) :
    c * (B.power (((x : ℝ) - px) ^ 2 + ((y : ℝ) - py) ^ 2) / (B.grid px py (1 / 1000 * noise / c)).ravel.sum) ≤ 1 / 1000 * noise := by
  have h := (C136_bright B h1 h2 h3 hb hs px py (1 / 1000 * noise / c) (by positivity) hd).2.2.2.2.2 hr x y hx
  have hp : 0 ≤ B.power (((x : ℝ) - px) ^ 2 + ((y : ℝ) - py) ^ 2) := power_nonneg B hb h3.le (by positivity)
  have h4 : B.power (((x : ℝ) - px) ^ 2 + ((y : ℝ) - py) ^ 2) / (B.grid px py (1 / 1000 * noise / c)).ravel.sum ≤ 1 / 1000 * noise / c :=
    (div_le_self hp hS).trans h
  calc _ ≤ c * (1 / 1000 * noise / c) := mul_le_mul_of_nonneg_left h4 hc.le
    _ = _ := by field_simp

/-- A power law of index 2 and amplitude `a`. -/
noncomputable def exB (a : ℝ) : Bright := ⟨0, 1, 0, 1, a, 1, 2⟩

theorem exB_power (a r2 : ℝ) : (exB a).power r2 = a / (1 + r2 / 2) := by
  unfold Bright.power exB
  dsimp only
  rw [show (-2 / 2 : ℝ) = -1 by norm_num, Real.rpow_neg_one, one_pow, mul_one, div_eq_mul_inv a]

theorem exB_profile (a r2 : ℝ) : (exB a).profile r2 = a / (1 + r2 / 2) := by
  unfold Bright.profile
  rw [exB_power a r2]
  simp [exB]

/-- The hypotheses of `C136_bright` can be met: amplitude one, cut at a fiftieth, where the power law is after `√98`; the radius is 25. -/
example : (exB 1).rawRadius (1 / 50) = Real.sqrt 98 ∧ (exB 1).radius (1 / 50) = 25 := by
  have h : (exB 1).rawRadius (1 / 50) = Real.sqrt 98 := by
    unfold Bright.rawRadius exB
    rw [if_neg (by norm_num)]
    congr 1
    norm_num [Real.rpow_neg_one]
  refine ⟨h, ?_⟩
  unfold Bright.radius
  rw [h, max_eq_right, min_eq_left (by norm_num)]
  rw [Real.sqrt_le_left (by norm_num)]
  norm_num

/-- … and those of `C136_tail_partial` (one count, noise 20): the central pixel alone has value one. -/
example : 1 ≤ ((exB 1).grid 0 0 (1 / 1000 * 20 / 1)).ravel.sum := by
  obtain ⟨hh, hw⟩ := grid_pos (exB 1) 0 0 (1 / 1000 * 20 / 1)
  have hc := covers_within (exB 1) 0 0 (1 / 1000 * 20 / 1) 0 0 (by simp; linarith [(radius_range (exB 1) (1 / 1000 * 20 / 1)).1])
    (by simp; linarith [(radius_range (exB 1) (1 / 1000 * 20 / 1)).1])
  unfold Patch.covers Bright.patch at hc
  dsimp only [Arr.map] at hc
  set f := ⌊(0 : ℝ) - (exB 1).radius (1 / 1000 * 20 / 1)⌋ with hf
  have hm : (1 : ℝ) ∈ ((exB 1).grid 0 0 (1 / 1000 * 20 / 1)).ravel := by
    simp only [Arr.ravel, List.mem_flatMap, List.mem_map, List.mem_range]
    refine ⟨(-f).toNat, by omega, (-f).toNat, by omega, ?_⟩
    have e : ((-f).toNat : ℝ) = -(f : ℝ) := by
      have : (((-f).toNat : ℤ) : ℝ) = ((-f : ℤ) : ℝ) := by rw [Int.toNat_of_nonneg (by omega)]
      push_cast at this
      exact_mod_cast this
    unfold Bright.grid
    dsimp only
    rw [← hf, e, exB_profile]
    norm_num
  refine List.single_le_sum (fun v hv => ?_) _ hm
  simp only [Arr.ravel, List.mem_flatMap, List.mem_map] at hv
  obtain ⟨j, _, i, _, rfl⟩ := hv
  unfold Bright.grid
  dsimp only
  rw [exB_profile]
  positivity

/-- **C136 (negation).** The cut is made before normalisation.  For a profile of small total the power law that is cut off is more than the
noise. -/
theorem C136_tail_false : ∃ (B : Bright) (c noise : ℝ), 0 ≤ B.a1 ∧ 0 ≤ B.a2 ∧ 0 < B.a3 ∧ 0 < B.beta ∧ 0 < B.sigmap ∧ 0 < c ∧ 0 < noise ∧
    ∃ x y : ℤ, ¬ (B.patch 0 0 (1 / 1000 * noise / c)).covers x y ∧
      noise < c * (B.power (((x : ℝ) - 0) ^ 2 + ((y : ℝ) - 0) ^ 2) / (B.grid 0 0 (1 / 1000 * noise / c)).ravel.sum) := by
  refine ⟨exB (1 / 10 ^ 10), 10 ^ 6, 1, by simp [exB], by simp [exB], by simp [exB], by simp [exB], by simp [exB], by norm_num, by norm_num, 26, 0, ?_, ?_⟩
  all_goals
    have hr : (exB (1 / 10 ^ 10)).radius (1 / 1000 * 1 / 10 ^ 6) = 25 := by
      unfold Bright.radius Bright.rawRadius
      rw [if_pos (by simp only [exB]; norm_num)]
      norm_num
  · unfold Patch.covers Bright.patch
    dsimp only [Arr.map, Bright.grid]
    rw [hr]
    norm_num
  · have hS := ravel_sum_le ((exB (1 / 10 ^ 10)).grid 0 0 (1 / 1000 * 1 / 10 ^ 6)) (1 / 10 ^ 10) (fun j i => by
      unfold Bright.grid
      dsimp only
      rw [exB_profile]
      refine div_le_self (by positivity) ?_
      have : 0 ≤ ((((⌊(0 : ℝ) - (exB (1 / 10 ^ 10)).radius (1 / 1000 * 1 / 10 ^ 6)⌋ : ℝ) + i) - 0) ^ 2 +
        (((⌊(0 : ℝ) - (exB (1 / 10 ^ 10)).radius (1 / 1000 * 1 / 10 ^ 6)⌋ : ℝ) + j) - 0) ^ 2) / 2 := by positivity
      linarith)
    have hP := grid_sum_pos (exB (1 / 10 ^ 10)) (by simp [exB]) (by simp [exB]) (by simp [exB]) (by simp [exB]) 0 0 (1 / 1000 * 1 / 10 ^ 6)
    have hd : ((exB (1 / 10 ^ 10)).grid 0 0 (1 / 1000 * 1 / 10 ^ 6)).h * ((exB (1 / 10 ^ 10)).grid 0 0 (1 / 1000 * 1 / 10 ^ 6)).w = 2601 := by
      unfold Bright.grid
      dsimp only
      rw [hr]
      norm_num
      rfl
    rw [hd] at hS
    generalize ((exB (1 / 10 ^ 10)).grid 0 0 (1 / 1000 * 1 / 10 ^ 6)).ravel.sum = S at hS hP
    rw [exB_power]
    rw [← mul_div_assoc, lt_div_iff₀ hP]
    norm_num at hS ⊢
    linarith

end Verif.Sbright
