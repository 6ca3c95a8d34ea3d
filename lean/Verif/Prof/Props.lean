import Verif.Prof.Lemmas
import Verif.Gauss.Lemmas

/-!
# C141: galaxies of the fixed profiles

Spec: the light of a mixture within a set is the integral of its density; a component without extent is at its mean.  Of each galaxy all of the light
is there, half of it within the effective radius, and almost all of it within the radius that is rendered, whatever the shape of the galaxy.
-/

namespace Verif.Prof

open Verif.Mog Verif.Gauss MeasureTheory Set

noncomputable section

/-- A component in real numbers. -/
def real (c : Comp ℚ) : Comp ℝ := ⟨c.amp, c.mx, c.my, c.vxx, c.vxy, c.vyx, c.vyy⟩

/-- `galmix.apply_affine(np.array([px, py]), Tinv)`: the profile in the pixels of an image, at the place `c`, galaxy.py 648-657. -/
def placed (k : Kind) (T : Mat ℝ) (c : ℝ × ℝ) : Mix ℝ := applyAffine ((profile k).map real) c T

open Classical in
/-- The light of a component within `S`. -/
def lightOf (S : Set (ℝ × ℝ)) (c : Comp ℝ) : ℝ :=
  if c.vxx = 0 ∧ c.vyy = 0 then (if (c.mx, c.my) ∈ S then c.amp else 0) else ∫ p in S, density c p.1 p.2

/-- The light of a mixture within `S`. -/
def light (m : Mix ℝ) (S : Set (ℝ × ℝ)) : ℝ := (m.map (lightOf S)).sum

/-! #### The tables -/

theorem circular_of (k : Kind) : ∀ c ∈ profile k, c = ⟨c.amp, 0, 0, c.vxx, 0, 0, c.vxx⟩ ∧ 0 < c.amp ∧ 0 ≤ c.vxx := by
  cases k <;> decide +kernel

/-- **C141.** Amplitudes are positive and add to one, components are round and centred, in order of increasing size; only the first one of
deVaucouleurs galaxies has no extent. -/
theorem C141_total (k : Kind) : ((profile k).map (·.amp)).sum = 1 ∧ (∀ c ∈ profile k, 0 < c.amp ∧ c.mx = 0 ∧ c.my = 0 ∧ c.vxy = 0 ∧ c.vyx = 0 ∧ c.vxx = c.vyy) ∧
    (profile k).Pairwise (fun a b => a.vxx < b.vxx) ∧ ∀ c ∈ profile k, 0 < c.vxx ∨ k = .dev ∧ c.vxx = 0 ∧ c.amp = 10233 / 1000000 := by
  cases k <;> decide +kernel

/-- The light within `r` effective radii. -/
def within (k : Kind) (r : ℝ) : ℝ :=
  ((profile k).map (fun c => if c.vxx = 0 then (c.amp : ℝ) else c.amp * (1 - Real.exp (-r ^ 2 / (2 * c.vxx))))).sum

/-- **C141.** The light within an ellipse of `r` effective radii of a galaxy of any shape, orientation and place (`T`: any matrix with an inverse). -/
theorem C141_light (k : Kind) (T : Mat ℝ) (hT : det T ≠ 0) (c : ℝ × ℝ) (r : ℝ) (hr : 0 ≤ r) :
    light (placed k T c) (ellipse T c r) =
      ((profile k).map (fun c => if c.vxx = 0 then (c.amp : ℝ) else c.amp * (1 - Real.exp (-r ^ 2 / (2 * c.vxx))))).sum := by
  unfold light placed applyAffine
  rw [List.map_map, List.map_map]
  congr 1
  apply List.map_congr_left
  intro b hb
  obtain ⟨e, _, hv⟩ := circular_of k b hb
  have hreal : real b = ⟨b.amp, 0, 0, b.vxx, 0, 0, b.vxx⟩ := by
    rw [e]
    unfold real
    simp
  dsimp only [Function.comp]
  rw [hreal]
  dsimp only
  by_cases h0 : b.vxx = 0
  · rw [if_pos h0, h0]
    unfold lightOf sandwich
    rw [if_pos (by simp), if_pos]
    exact ⟨0, 0, by nlinarith, by simp⟩
  · rw [if_neg h0]
    have hv : 0 < b.vxx := lt_of_le_of_ne hv (Ne.symm h0)
    have hv' : (0 : ℝ) < b.vxx := by exact_mod_cast hv
    unfold lightOf
    rw [if_neg, ellipse_light hv' hr T hT c]
    unfold sandwich
    dsimp only
    rintro ⟨h1, h2⟩
    have h1 : (b.vxx : ℝ) * (T.xx ^ 2 + T.xy ^ 2) = 0 := by linear_combination h1
    have h2 : (b.vxx : ℝ) * (T.yx ^ 2 + T.yy ^ 2) = 0 := by linear_combination h2
    have h1 : T.xx ^ 2 + T.xy ^ 2 = 0 := (mul_eq_zero.1 h1).resolve_left hv'.ne'
    have e1 : T.xx = 0 := by nlinarith [sq_nonneg T.xx, sq_nonneg T.xy]
    have e2 : T.xy = 0 := by nlinarith [sq_nonneg T.xx, sq_nonneg T.xy]
    apply hT
    unfold det
    rw [e1, e2]
    ring

/-! #### Half the light -/

/-- A lower bound of `exp(-q)`. -/
def lo (q : ℚ) : ℚ := (max 0 (1 - q / 256)) ^ 256

/-- An upper bound. -/
def hi (q : ℚ) : ℚ := 1 / (1 + q / 256) ^ 256

theorem lo_le {q : ℚ} (hq : 0 ≤ q) : ((lo q : ℚ) : ℝ) ≤ Real.exp (-(q : ℝ)) := by
  have := (exp_bounds (q := (q : ℝ)) (by exact_mod_cast hq)).1
  unfold lo
  push_cast
  exact this

theorem le_hi {q : ℚ} (hq : 0 ≤ q) : Real.exp (-(q : ℝ)) ≤ ((hi q : ℚ) : ℝ) := by
  have := (exp_bounds (q := (q : ℝ)) (by exact_mod_cast hq)).2
  unfold hi
  push_cast
  exact this

/-- Bounds of the light within `r` effective radii. -/
theorem within_bounds (k : Kind) (r : ℚ) :
    (((((profile k).map (fun c => if c.vxx = 0 then c.amp else c.amp * (1 - hi (r ^ 2 / (2 * c.vxx))))).sum : ℚ)) : ℝ) ≤ within k r ∧
    within k r ≤ (((((profile k).map (fun c => if c.vxx = 0 then c.amp else c.amp * (1 - lo (r ^ 2 / (2 * c.vxx))))).sum : ℚ)) : ℝ) := by
  have key : ∀ m : Mix ℚ, (∀ c ∈ m, 0 < c.amp ∧ 0 ≤ c.vxx) →
      ((((m.map (fun c => if c.vxx = 0 then c.amp else c.amp * (1 - hi (r ^ 2 / (2 * c.vxx))))).sum : ℚ)) : ℝ) ≤
        (m.map (fun c => if c.vxx = 0 then (c.amp : ℝ) else c.amp * (1 - Real.exp (-(r : ℝ) ^ 2 / (2 * c.vxx))))).sum ∧
      (m.map (fun c => if c.vxx = 0 then (c.amp : ℝ) else c.amp * (1 - Real.exp (-(r : ℝ) ^ 2 / (2 * c.vxx))))).sum ≤
        ((((m.map (fun c => if c.vxx = 0 then c.amp else c.amp * (1 - lo (r ^ 2 / (2 * c.vxx))))).sum : ℚ)) : ℝ) := by
    intro m hm
    induction m with
    | nil => simp
    | cons c m ih =>
      have ih := ih (fun b hb => hm b (List.mem_cons_of_mem _ hb))
      obtain ⟨ha, hv⟩ := hm c List.mem_cons_self
      simp only [List.map_cons, List.sum_cons]
      by_cases h0 : c.vxx = 0
      · simp only [if_pos h0]
        push_cast at ih ⊢
        constructor <;> linarith [ih.1, ih.2]
      · simp only [if_neg h0]
        have hq : 0 ≤ r ^ 2 / (2 * c.vxx) := by positivity
        have h1 := lo_le hq
        have h2 := le_hi hq
        have ha' : (0 : ℝ) < c.amp := by exact_mod_cast ha
        have e : -(r : ℝ) ^ 2 / (2 * c.vxx) = -((r ^ 2 / (2 * c.vxx) : ℚ) : ℝ) := by push_cast; ring
        rw [e]
        push_cast at ih h1 h2 ⊢
        constructor
        · have := mul_le_mul_of_nonneg_left h2 ha'.le
          linarith [ih.1]
        · have := mul_le_mul_of_nonneg_left h1 ha'.le
          linarith [ih.2]
  exact key _ (fun c hc => ⟨(circular_of k c hc).2.1, (circular_of k c hc).2.2⟩)

/-- Bounds of the light within one effective radius. -/
def part : Kind → ℚ × ℚ
  | .gauss => (39 / 100, 40 / 100)
  | .exp => (50 / 100, 51 / 100)
  | .dev => (53 / 100, 54 / 100)

theorem part_ok (k : Kind) : (part k).1 < ((profile k).map (fun c => if c.vxx = 0 then c.amp else c.amp * (1 - hi (1 ^ 2 / (2 * c.vxx))))).sum ∧
    ((profile k).map (fun c => if c.vxx = 0 then c.amp else c.amp * (1 - lo (1 ^ 2 / (2 * c.vxx))))).sum < (part k).2 := by
  cases k <;> decide +kernel

theorem extent_ok (k : Kind) : 99 / 100 < ((profile k).map (fun c => if c.vxx = 0 then c.amp else c.amp * (1 - hi (nre k ^ 2 / (2 * c.vxx))))).sum := by
  cases k <;> decide +kernel

/-- **C141.** Exponential galaxies have half of their light within the effective radius (50 to 51%), deVaucouleurs galaxies 53 to 54%, whatever the
shape.  Not exactly half, and for `GaussianGalaxy` 39% (`C141_half_false`). -/
theorem C141_half_partial (T : Mat ℝ) (hT : det T ≠ 0) (c : ℝ × ℝ) :
    (0.50 < light (placed .exp T c) (ellipse T c 1) ∧ light (placed .exp T c) (ellipse T c 1) < 0.51) ∧
    (0.53 < light (placed .dev T c) (ellipse T c 1) ∧ light (placed .dev T c) (ellipse T c 1) < 0.54) := by
  have key : ∀ k, ((part k).1 : ℝ) < light (placed k T c) (ellipse T c 1) ∧ light (placed k T c) (ellipse T c 1) < ((part k).2 : ℝ) := by
    intro k
    have h := within_bounds k 1
    obtain ⟨p1, p2⟩ := part_ok k
    have p1 : ((part k).1 : ℝ) < _ := Rat.cast_lt.2 p1
    have p2 := (Rat.cast_lt (K := ℝ)).2 p2
    have e := C141_light k T hT c 1 zero_le_one
    unfold within at h
    push_cast at h p1 p2
    rw [e]
    exact ⟨lt_of_lt_of_le p1 h.1, lt_of_le_of_lt h.2 p2⟩
  have h1 := key .exp
  have h2 := key .dev
  unfold part at h1 h2
  norm_num at h1 h2 ⊢
  exact ⟨h1, h2⟩

/-- **C141 (negation).** No galaxy class has exactly half of its light within the effective radius; `GaussianGalaxy`, whose profile has variance 1 in
effective radii, has less than 40%. -/
theorem C141_half_false (k : Kind) (T : Mat ℝ) (hT : det T ≠ 0) (c : ℝ × ℝ) : light (placed k T c) (ellipse T c 1) ≠ 1 / 2 ∧
    (k = .gauss → light (placed k T c) (ellipse T c 1) < 0.40) := by
  have h := within_bounds k 1
  obtain ⟨p1, p2⟩ := part_ok k
  have p1 : ((part k).1 : ℝ) < _ := Rat.cast_lt.2 p1
  have p2 := (Rat.cast_lt (K := ℝ)).2 p2
  have e := C141_light k T hT c 1 zero_le_one
  unfold within at h
  push_cast at h p1 p2
  rw [← e] at h
  have a := lt_of_lt_of_le p1 h.1
  have b := lt_of_le_of_lt h.2 p2
  refine ⟨fun h2 => ?_, fun hk => ?_⟩
  · rw [h2] at a b
    cases k <;> unfold part at a b <;> first | (norm_num at a; done) | (norm_num at b; done)
  · subst hk
    unfold part at b
    norm_num at b ⊢
    exact b

/-- **C141.** More than 99% of the light is within the radius up to which a galaxy is rendered. -/
theorem C141_extent (k : Kind) (T : Mat ℝ) (hT : det T ≠ 0) (c : ℝ × ℝ) : 0.99 < light (placed k T c) (ellipse T c (nre k)) := by
  have h := within_bounds k (nre k)
  have p1 := (Rat.cast_lt (K := ℝ)).2 (extent_ok k)
  have hn : (0 : ℝ) ≤ nre k := by cases k <;> unfold nre <;> norm_num
  have e := C141_light k T hT c (nre k) hn
  unfold within at h
  push_cast at h p1
  rw [← e] at h
  have := lt_of_lt_of_le p1 h.1
  norm_num at this ⊢
  exact this

/-- **C141.** Convolved with the mixture of a PSF, a galaxy has a density, although a deVaucouleurs galaxy has none itself: all covariances are positive
definite. -/
theorem C141_psf (k : Kind) (T : Mat ℝ) (c : ℝ × ℝ) (psf : Mix ℝ) (hp : ∀ b ∈ psf, Proper b) :
    ∀ b ∈ convolve (placed k T c) psf, Proper b := by
  intro b hb
  unfold convolve convolveOne placed applyAffine at hb
  simp only [List.mem_flatMap, List.mem_map] at hb
  obtain ⟨q, hq, g, ⟨h, ⟨e, he, rfl⟩, rfl⟩, rfl⟩ := hb
  obtain ⟨ee, _, hv⟩ := circular_of k e he
  have hreal : real e = ⟨e.amp, 0, 0, e.vxx, 0, 0, e.vxx⟩ := by
    rw [ee]
    unfold real
    simp
  rw [hreal]
  obtain ⟨h1, h2, h3⟩ := hp q hq
  have hv : (0 : ℝ) ≤ e.vxx := by exact_mod_cast hv
  generalize (e.vxx : ℝ) = v at hv
  unfold sandwich Proper
  dsimp only
  have hyy : 0 < q.vyy := by
    by_contra hn
    nlinarith [sq_nonneg q.vxy]
  refine ⟨by rw [h1]; ring, by nlinarith [mul_nonneg hv (sq_nonneg T.xx), mul_nonneg hv (sq_nonneg T.xy)], ?_⟩
  -- det of a sum of two nonnegative matrices
  have e1 : (T.xx * v + T.xy * 0) * T.xx + (T.xx * 0 + T.xy * v) * T.xy = v * (T.xx ^ 2 + T.xy ^ 2) := by ring
  have e2 : (T.yx * v + T.yy * 0) * T.yx + (T.yx * 0 + T.yy * v) * T.yy = v * (T.yx ^ 2 + T.yy ^ 2) := by ring
  have e3 : (T.xx * v + T.xy * 0) * T.yx + (T.xx * 0 + T.xy * v) * T.yy = v * (T.xx * T.yx + T.xy * T.yy) := by ring
  rw [e1, e2, e3]
  have hid : (v * (T.xx ^ 2 + T.xy ^ 2) + q.vxx) * (v * (T.yx ^ 2 + T.yy ^ 2) + q.vyy) - (v * (T.xx * T.yx + T.xy * T.yy) + q.vxy) ^ 2 =
      v ^ 2 * det T ^ 2 + (q.vxx * q.vyy - q.vxy ^ 2) +
      v * ((q.vxx * T.yx ^ 2 - 2 * q.vxy * (T.xx * T.yx) + q.vyy * T.xx ^ 2) + (q.vxx * T.yy ^ 2 - 2 * q.vxy * (T.xy * T.yy) + q.vyy * T.xy ^ 2)) := by
    unfold det
    ring
  rw [hid]
  have hform : ∀ x y : ℝ, 0 ≤ q.vxx * y ^ 2 - 2 * q.vxy * (x * y) + q.vyy * x ^ 2 := by
    intro x y
    have : 0 ≤ q.vxx * (q.vxx * y ^ 2 - 2 * q.vxy * (x * y) + q.vyy * x ^ 2) := by
      have e : q.vxx * (q.vxx * y ^ 2 - 2 * q.vxy * (x * y) + q.vyy * x ^ 2) = (q.vxx * y - q.vxy * x) ^ 2 + (q.vxx * q.vyy - q.vxy ^ 2) * x ^ 2 := by ring
      rw [e]
      positivity
    exact nonneg_of_mul_nonneg_right this h2
  have := mul_nonneg hv (add_nonneg (hform T.xx T.yx) (hform T.xy T.yy))
  have := mul_nonneg (sq_nonneg v) (sq_nonneg (det T))
  linarith

/-- **C141 (negation).** A deVaucouleurs galaxy has no density without a PSF: one of its covariances is zero for every shape. -/
theorem C141_core_false (T : Mat ℝ) (c : ℝ × ℝ) : ∃ b ∈ placed .dev T c, ¬ Proper b ∧ b.vxx * b.vyy - b.vxy ^ 2 = 0 ∧ 0 < b.amp := by
  have h : (⟨10233 / 1000000, 0, 0, 0, 0, 0, 0⟩ : Comp ℚ) ∈ profile .dev := by decide +kernel
  refine ⟨_, List.mem_map.2 ⟨_, List.mem_map.2 ⟨_, h, rfl⟩, rfl⟩, ?_⟩
  unfold real sandwich Proper
  norm_num

/-- The exponential galaxy of a WCS with pixels of a quarter of the effective radius, twice as long as wide, at (10, 20). -/
example : 0.50 < light (placed .exp ⟨4, 0, 0, 2⟩ (10, 20)) (ellipse ⟨4, 0, 0, 2⟩ (10, 20) 1) ∧ ((14, 20) : ℝ × ℝ) ∈ ellipse ⟨4, 0, 0, 2⟩ (10, 20) 1 ∧
    ((10, 23) : ℝ × ℝ) ∉ ellipse ⟨4, 0, 0, 2⟩ (10, 20) 1 := by
  refine ⟨(C141_half_partial _ (by unfold det; norm_num) _).1.1, ⟨1, 0, by norm_num, by norm_num⟩, ?_⟩
  rintro ⟨u, w, h, e⟩
  simp only [Prod.mk.injEq] at e
  nlinarith [e.1, e.2]

end

end Verif.Prof
