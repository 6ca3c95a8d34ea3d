import Verif.Ell.Props

/-!
# Properties of ellipses as matrices (C44, C85, C86)
-/

namespace Verif.Ell

open Verif

/-- Spec: `M` maps the vector (x, y) to `l` times itself. -/
def Mat.Eigen (M : Mat) (x y l : ℝ) : Prop := M.a * x + M.b * y = l * x ∧ M.c * x + M.d * y = l * y

/-- The covariance of an ellipse whose axis ratio is at least 1/1000, entry by entry. -/
theorem covOf_eq (re e theta : ℝ) (h0 : 0 ≤ e) (h1 : e < 1) (hb : 1 / 1000 ≤ abOf e) :
    covOf re e theta =
      ⟨re ^ 2 * (Real.sin theta ^ 2 + abOf e ^ 2 * Real.cos theta ^ 2),
        re ^ 2 * (1 - abOf e ^ 2) * (Real.sin theta * Real.cos theta),
        re ^ 2 * (1 - abOf e ^ 2) * (Real.sin theta * Real.cos theta),
        re ^ 2 * (Real.cos theta ^ 2 + abOf e ^ 2 * Real.sin theta ^ 2)⟩ := by
  have hab : (if e ≥ 1 then (1000 : ℝ) else min 1000 ((1 + e) / (1 - e))) = (abOf e)⁻¹ := by
    rw [if_neg (not_le.mpr h1)]
    have : (1 + e) / (1 - e) = (abOf e)⁻¹ := by unfold abOf; rw [inv_div]
    rw [this]
    apply min_eq_right
    rw [inv_le_comm₀ (abOf_pos h0 h1).1 (by norm_num)]
    linarith
  unfold covOf basis
  simp only [hab, Mat.smul, Mat.gram, Mat.mk.injEq, div_inv_eq_mul]
  refine ⟨by ring, by ring, by ring, by ring⟩

/-- **C44.** The covariance of an ellipse (axis ratio at least 1/1000) has the axes of the ellipse as principal axes: variance
`re²` in the direction (sin θ, cos θ) of (RA, Dec), `(re ab)²` at right angles. -/
theorem C44_covariance (E : EllE) (h1 : E.e < 1) (hb : 1 / 1000 ≤ E.ab) :
    E.cov.Eigen (Real.sin E.theta) (Real.cos E.theta) (E.re ^ 2) ∧
    E.cov.Eigen (Real.cos E.theta) (-Real.sin E.theta) ((E.re * E.ab) ^ 2) := by
  unfold EllE.cov
  rw [covOf_eq E.re E.e E.theta (hypot_nonneg _ _) h1 hb]
  show (_ ∧ _) ∧ (_ ∧ _)
  have hsc := Real.sin_sq_add_cos_sq E.theta
  unfold EllE.ab
  simp only
  generalize Real.sin E.theta = s at *
  generalize Real.cos E.theta = c at *
  generalize abOf E.e = b at *
  refine ⟨⟨?_, ?_⟩, ⟨?_, ?_⟩⟩
  · linear_combination (E.re ^ 2 * s) * hsc
  · linear_combination (E.re ^ 2 * c) * hsc
  · linear_combination (E.re ^ 2 * b ^ 2 * c) * hsc
  · linear_combination (-(E.re ^ 2 * b ^ 2 * s)) * hsc

/-- **C44.** The same for soft ellipses. -/
theorem C44_soft_covariance (S : Soft) (hb : 1 / 1000 ≤ S.ab) :
    S.cov.Eigen (Real.sin S.theta) (Real.cos S.theta) (S.re ^ 2) ∧
    S.cov.Eigen (Real.cos S.theta) (-Real.sin S.theta) ((S.re * S.ab) ^ 2) := by
  obtain ⟨h0, h1, _⟩ := C44_soft_range S
  unfold Soft.cov
  rw [covOf_eq _ _ _ h0 h1 hb]
  show (_ ∧ _) ∧ (_ ∧ _)
  have hsc := Real.sin_sq_add_cos_sq S.theta
  unfold Soft.ab
  simp only
  generalize Real.sin S.theta = s at *
  generalize Real.cos S.theta = c at *
  generalize abOf S.e = b at *
  refine ⟨⟨?_, ?_⟩, ⟨?_, ?_⟩⟩
  · linear_combination (S.re ^ 2 * s) * hsc
  · linear_combination (S.re ^ 2 * c) * hsc
  · linear_combination (S.re ^ 2 * b ^ 2 * c) * hsc
  · linear_combination (-(S.re ^ 2 * b ^ 2 * s)) * hsc

/-- Spec: `u`, `s0`, `s1` are a singular value decomposition of the symmetric positive matrix `M` (so that the right factor is
the transpose of the left one). -/
structure IsSvd (M u : Mat) (s0 s1 : ℝ) : Prop where
  /-- `u` is orthogonal -/
  c1 : u.a ^ 2 + u.c ^ 2 = 1
  c2 : u.b ^ 2 + u.d ^ 2 = 1
  c3 : u.a * u.b + u.c * u.d = 0
  /-- in decreasing order -/
  le : s1 ≤ s0
  nonneg : 0 ≤ s1
  /-- `M = u diag(s) uᵀ` -/
  ma : M.a = s0 * u.a ^ 2 + s1 * u.b ^ 2
  mb : M.b = s0 * (u.a * u.c) + s1 * (u.b * u.d)
  mc : M.c = s0 * (u.a * u.c) + s1 * (u.b * u.d)
  md : M.d = s0 * u.c ^ 2 + s1 * u.d ^ 2

/-- An orthogonal matrix is a reflection or a rotation. -/
theorem orthogonal_cases {M u : Mat} {s0 s1 : ℝ} (h : IsSvd M u s0 s1) :
    (u.b = u.c ∧ u.d = -u.a) ∨ (u.b = -u.c ∧ u.d = u.a) := by
  have h1 := h.c1
  have h2 := h.c2
  have h3 := h.c3
  have hb : u.b = -(u.c * (u.a * u.d - u.b * u.c)) := by linear_combination (-u.b) * h1 + u.a * h3
  have hd : u.d = u.a * (u.a * u.d - u.b * u.c) := by linear_combination (-u.d) * h1 + u.c * h3
  have hdet : (u.a * u.d - u.b * u.c - 1) * (u.a * u.d - u.b * u.c + 1) = 0 := by
    linear_combination (u.b ^ 2 + u.d ^ 2) * h1 + h2 - (u.a * u.b + u.c * u.d) * h3
  rcases mul_eq_zero.1 hdet with g | g
  · have : u.a * u.d - u.b * u.c = 1 := by linarith
    rw [this] at hb hd
    right; constructor <;> linarith
  · have : u.a * u.d - u.b * u.c = -1 := by linarith
    rw [this] at hb hd
    left; constructor <;> linarith

theorem abOf_ecc {e : ℝ} (h0 : 0 ≤ e) (h1 : e < 1) : (1 / abOf e - 1) / (1 / abOf e + 1) = e := by
  unfold abOf
  have h2 : (1 - e) ≠ 0 := by linarith
  have h3 : (1 + e) ≠ 0 := by linarith
  rw [one_div_div, div_sub_one h2, div_add_one h2, div_div_div_cancel_right₀ h2]
  rw [show 1 + e - (1 - e) = e * 2 from by ring, show 1 + e + (1 - e) = 2 from by ring]
  exact mul_div_cancel_right₀ e (by norm_num)

theorem ecc_zero {e : ℝ} (h0 : 0 ≤ e) (h1 : e < 1) (h : 1 - abOf e ^ 2 = 0) : e = 0 := by
  obtain ⟨b0, b1⟩ := abOf_pos h0 h1
  have hb : abOf e = 1 := by nlinarith
  unfold abOf at hb
  rw [div_eq_iff (by linarith)] at hb
  linarith

theorem svd_values {R b s c p q s0 s1 : ℝ} (hR : 0 < R) (b0 : 0 < b) (b1 : b ≤ 1) (hsc : s ^ 2 + c ^ 2 = 1)
    (hpq : p ^ 2 + q ^ 2 = 1) (ha : R ^ 2 * (s ^ 2 + b ^ 2 * c ^ 2) = s0 * p ^ 2 + s1 * q ^ 2)
    (hm : R ^ 2 * (1 - b ^ 2) * (s * c) = s0 * (p * q) + s1 * -(p * q))
    (hd : R ^ 2 * (c ^ 2 + b ^ 2 * s ^ 2) = s0 * q ^ 2 + s1 * p ^ 2) (hle : s1 ≤ s0) :
    s0 = R ^ 2 ∧ s1 = R ^ 2 * b ^ 2 ∧ (1 - b ^ 2) * (p ^ 2 - s ^ 2) = 0 ∧ (1 - b ^ 2) * (p * q - s * c) = 0 := by
  have t1 : s0 + s1 = R ^ 2 * (1 + b ^ 2) := by
    linear_combination (-(s0 + s1)) * hpq - ha - hd + (R ^ 2 * (1 + b ^ 2)) * hsc
  have t2 : s0 * s1 = R ^ 4 * b ^ 2 := by
    have e1 : R ^ 2 * (s ^ 2 + b ^ 2 * c ^ 2) * (R ^ 2 * (c ^ 2 + b ^ 2 * s ^ 2)) - (R ^ 2 * (1 - b ^ 2) * (s * c)) ^ 2 =
        R ^ 4 * b ^ 2 * (s ^ 2 + c ^ 2) ^ 2 := by ring
    have e2 : (s0 * p ^ 2 + s1 * q ^ 2) * (s0 * q ^ 2 + s1 * p ^ 2) - (s0 * (p * q) + s1 * -(p * q)) ^ 2 =
        s0 * s1 * (p ^ 2 + q ^ 2) ^ 2 := by ring
    rw [ha, hd, hm, e2, hsc, hpq] at e1
    linarith
  have hR2 : 0 < R ^ 2 := by positivity
  have hb2 : b ^ 2 ≤ 1 := by nlinarith
  have t3 : s0 = R ^ 2 := by
    have : (s0 - R ^ 2) * (s0 - R ^ 2 * b ^ 2) = 0 := by linear_combination s0 * t1 - t2
    rcases mul_eq_zero.1 this with g | g
    · linarith
    · have : s1 = R ^ 2 := by linarith
      nlinarith
  have t4 : s1 = R ^ 2 * b ^ 2 := by linarith
  refine ⟨t3, t4, ?_, ?_⟩
  · apply mul_left_cancel₀ hR2.ne'
    rw [mul_zero]
    rw [t3, t4] at ha
    linear_combination (-1) * ha + (R ^ 2 * b ^ 2) * hsc - (R ^ 2 * b ^ 2) * hpq
  · apply mul_left_cancel₀ hR2.ne'
    rw [mul_zero]
    rw [t3, t4] at hm
    linear_combination (-1) * hm

/-- What `fromCovariance` makes of the covariance of an ellipse. -/
theorem fromSvd_cov (E : EllE) (hr : 0 < E.re) (h1 : E.e < 1) (hb : 1 / 1000 ≤ E.ab) (u : Mat) (s0 s1 : ℝ)
    (h : IsSvd E.cov u s0 s1) :
    fromSvd u s0 s1 = .ok (if u.b = u.c ∧ u.d = -u.a then E else ⟨E.re, E.e1, -E.e2⟩) := by
  have h0 : 0 ≤ E.e := hypot_nonneg _ _
  obtain ⟨b0, b1⟩ := abOf_pos h0 h1
  have hab : E.ab = abOf E.e := rfl
  rw [hab] at hb
  have hcov : E.cov = _ := covOf_eq E.re E.e E.theta h0 h1 hb
  have ha := h.ma
  have hm := h.mb
  have hd := h.md
  have hle := h.le
  have hn := h.nonneg
  have hcases := orthogonal_cases h
  have hc1 := h.c1
  rw [hcov] at ha hm hd
  simp only at ha hm hd
  have hsc := Real.sin_sq_add_cos_sq E.theta
  have hub : u.b ^ 2 = u.c ^ 2 := by
    rcases hcases with ⟨g, _⟩ | ⟨g, _⟩
    · rw [g]
    · rw [g]; ring
  have hud : u.d ^ 2 = u.a ^ 2 := by
    rcases hcases with ⟨_, g⟩ | ⟨_, g⟩
    · rw [g]; ring
    · rw [g]
  have hbd : u.b * u.d = -(u.a * u.c) := by rcases hcases with ⟨g, g'⟩ | ⟨g, g'⟩ <;> (rw [g, g']; ring)
  rw [hub] at ha
  rw [hud] at hd
  rw [hbd] at hm
  have he1 : E.e1 = E.e * (1 - 2 * Real.sin E.theta ^ 2) := by
    have := hypot_cos E.e1 E.e2
    rw [show atan2 E.e2 E.e1 = 2 * E.theta from by unfold EllE.theta; ring, Real.cos_two_mul] at this
    have e : E.e * (2 * Real.cos E.theta ^ 2 - 1) = E.e1 := this
    rw [← e]
    linear_combination (2 * E.e) * hsc
  have he2 : E.e2 = E.e * (2 * Real.sin E.theta * Real.cos E.theta) := by
    have := hypot_sin E.e1 E.e2
    rw [show atan2 E.e2 E.e1 = 2 * E.theta from by unfold EllE.theta; ring, Real.sin_two_mul] at this
    exact this.symm
  have hbe := abOf_ecc h0 h1
  obtain ⟨v0, v1, v2, v3⟩ := svd_values hr b0 b1 hsc hc1 ha hm hd hle
  have hR : E.re ≠ 0 := hr.ne'
  have r0 : Real.sqrt s0 = E.re := by rw [v0, Real.sqrt_sq hr.le]
  have r1 : Real.sqrt (s1 / s0) = abOf E.e := by
    rw [v1, v0, mul_div_cancel_left₀ _ (pow_ne_zero 2 hR), Real.sqrt_sq b0.le]
  have hone : hypot u.b u.a = 1 := by
    unfold hypot
    rw [hub, add_comm, hc1, Real.sqrt_one]
  have hcos := hypot_cos u.b u.a
  have hsin := hypot_sin u.b u.a
  rw [hone, one_mul] at hcos hsin
  unfold fromSvd
  simp only [r0, r1]
  rw [fromRAbPhi_ok _ _ b0, hbe, neg_neg,
    show radians (2 * degrees (atan2 u.a u.b)) = 2 * radians (degrees (atan2 u.a u.b)) from by unfold radians; ring,
    radians_degrees, Real.cos_two_mul, Real.sin_two_mul, hcos, hsin]
  -- unless the ellipse is round, the axes agree
  have w1 : E.e * (u.a ^ 2 - Real.sin E.theta ^ 2) = 0 := by
    rcases mul_eq_zero.1 v2 with g | g
    · rw [ecc_zero h0 h1 g, zero_mul]
    · rw [g, mul_zero]
  have w2 : E.e * (u.a * u.c - Real.sin E.theta * Real.cos E.theta) = 0 := by
    rcases mul_eq_zero.1 v3 with g | g
    · rw [ecc_zero h0 h1 g, zero_mul]
    · rw [g, mul_zero]
  have x1 : E.e * (2 * u.b ^ 2 - 1) = E.e1 := by
    rw [hub, he1]
    linear_combination (2 * E.e) * hc1 - 2 * w1
  rw [x1]
  rcases hcases with ⟨g, g'⟩ | ⟨g, g'⟩
  · rw [if_pos ⟨g, g'⟩]
    have x2 : E.e * (2 * u.a * u.b) = E.e2 := by
      rw [g, he2]
      linear_combination 2 * w2
    rw [x2]
  · have x2 : E.e * (2 * u.a * u.b) = -E.e2 := by
      rw [g, he2]
      linear_combination (-2) * w2
    rw [x2]
    by_cases hc : u.b = u.c ∧ u.d = -u.a
    · rw [if_pos hc]
      -- then `u` would be zero in one column: both cases hold only if `E.e2 = 0`
      have hz : u.a * u.b = 0 := by
        have : u.a = 0 := by linarith [hc.2]
        rw [this, zero_mul]
      have hz2 : E.e2 = 0 := by
        have := x2
        rw [show E.e * (2 * u.a * u.b) = 2 * E.e * (u.a * u.b) from by ring, hz] at this
        linarith
      have : (⟨E.re, E.e1, -E.e2⟩ : EllE) = E := by rw [hz2, neg_zero]; cases E; simp only at hz2; rw [hz2]
      rw [this]
    · rw [if_neg hc]

/-- **C44 (in part).** `fromCovariance(E.getCovariance())` is `E` (axis ratio at least 1/1000), if the singular value
decomposition returns a reflection for `u`.  Missing: a decomposition with a rotation, which is as good
(`C44_from_covariance_false`). -/
theorem C44_from_covariance_partial (E : EllE) (hr : 0 < E.re) (h1 : E.e < 1) (hb : 1 / 1000 ≤ E.ab) (u : Mat) (s0 s1 : ℝ)
    (h : IsSvd E.cov u s0 s1) (hu : u.a * u.d - u.b * u.c = -1) : fromSvd u s0 s1 = .ok E := by
  rw [fromSvd_cov E hr h1 hb u s0 s1 h, if_pos]
  rcases orthogonal_cases h with g | ⟨g, g'⟩
  · exact g
  · exfalso
    have := h.c1
    rw [g, g'] at hu
    nlinarith

/-- Spec: every ellipse's covariance has a decomposition with a reflection and one with a rotation. -/
theorem svd_exists (E : EllE) (h1 : E.e < 1) (hb : 1 / 1000 ≤ E.ab) (σ : ℝ) (hσ : σ ^ 2 = 1) :
    IsSvd E.cov ⟨Real.sin E.theta, σ * Real.cos E.theta, Real.cos E.theta, -(σ * Real.sin E.theta)⟩ (E.re ^ 2)
      ((E.re * E.ab) ^ 2) := by
  have h0 : 0 ≤ E.e := hypot_nonneg _ _
  obtain ⟨b0, b1⟩ := abOf_pos h0 h1
  have hab : E.ab = abOf E.e := rfl
  have hcov : E.cov = _ := covOf_eq E.re E.e E.theta h0 h1 hb
  have hsc := Real.sin_sq_add_cos_sq E.theta
  rw [hcov, hab]
  have hb2 : abOf E.e ^ 2 ≤ 1 := by nlinarith
  constructor <;> try simp only
  · linarith
  · linear_combination (Real.sin E.theta ^ 2 + Real.cos E.theta ^ 2) * hσ + hsc
  · ring
  · rw [mul_pow]; exact mul_le_of_le_one_right (by positivity) hb2
  · positivity
  · linear_combination (-(E.re ^ 2 * abOf E.e ^ 2 * Real.cos E.theta ^ 2)) * hσ
  · linear_combination (E.re ^ 2 * abOf E.e ^ 2 * Real.cos E.theta * Real.sin E.theta) * hσ
  · linear_combination (E.re ^ 2 * abOf E.e ^ 2 * Real.cos E.theta * Real.sin E.theta) * hσ
  · linear_combination (-(E.re ^ 2 * abOf E.e ^ 2 * Real.sin E.theta ^ 2)) * hσ

/-- **C44 (negation).** With a rotation for `u`, which is a decomposition just as well, `fromCovariance` mirrors the
ellipse: for every ellipse with `e2 ≠ 0` there is a decomposition of its covariance from which another ellipse is made. -/
theorem C44_from_covariance_false (E : EllE) (hr : 0 < E.re) (h1 : E.e < 1) (hb : 1 / 1000 ≤ E.ab) (h2 : E.e2 ≠ 0) :
    ∃ u s0 s1, IsSvd E.cov u s0 s1 ∧ fromSvd u s0 s1 = .ok ⟨E.re, E.e1, -E.e2⟩ ∧ (⟨E.re, E.e1, -E.e2⟩ : EllE) ≠ E := by
  have hs := svd_exists E h1 hb (-1) (by norm_num)
  refine ⟨_, _, _, hs, ?_, ?_⟩
  · rw [fromSvd_cov E hr h1 hb _ _ _ hs, if_neg]
    rintro ⟨g1, g2⟩
    simp only at g1 g2
    have hc : Real.cos E.theta = 0 := by linarith
    have hs' : Real.sin E.theta = 0 := by linarith
    have := Real.sin_sq_add_cos_sq E.theta
    rw [hc, hs'] at this
    norm_num at this
  · intro h
    have : -E.e2 = E.e2 := congrArg EllE.e2 h
    apply h2; linarith

/-- An ellipse with `e = 1/2`, axis ratio 1/3. -/
example : ∃ u s0 s1, IsSvd (EllE.cov ⟨1, 3 / 10, 4 / 10⟩) u s0 s1 ∧ u.a * u.d - u.b * u.c = -1 ∧
    fromSvd u s0 s1 = .ok ⟨1, 3 / 10, 4 / 10⟩ := by
  have he : EllE.e ⟨1, 3 / 10, 4 / 10⟩ = 1 / 2 := by
    unfold EllE.e hypot
    rw [show ((3 / 10 : ℝ) ^ 2 + (4 / 10) ^ 2) = (1 / 2) ^ 2 from by norm_num, Real.sqrt_sq (by norm_num)]
  have h1 : EllE.e ⟨1, 3 / 10, 4 / 10⟩ < 1 := by rw [he]; norm_num
  have hb : 1 / 1000 ≤ EllE.ab ⟨1, 3 / 10, 4 / 10⟩ := by unfold EllE.ab abOf; rw [he]; norm_num
  have hs := svd_exists ⟨1, 3 / 10, 4 / 10⟩ h1 hb 1 (by norm_num)
  have hu : ∀ t : ℝ, Real.sin t * -(1 * Real.sin t) - 1 * Real.cos t * Real.cos t = -1 := by
    intro t
    linear_combination (-1) * Real.sin_sq_add_cos_sq t
  exact ⟨_, _, _, hs, hu _, C44_from_covariance_partial _ (by norm_num) h1 hb _ _ _ hs (hu _)⟩

/-! ### C85: GalaxyShape -/

/-- **C85.** `GalaxyShape(r, ab, phi)` (radius at least 1/30) and `EllipseE.fromRAbPhi(r, ab, phi)` (axis ratio in
[1/1000, 1]) are the same ellipse: `G Gᵀ` agree. -/
theorem C85_same_ellipse (r ab phi : ℝ) (hr : 1 / 30 ≤ r) (h0 : 1 / 1000 ≤ ab) (h1 : ab ≤ 1) :
    ∃ E, fromRAbPhi r ab phi = .ok E ∧ E.basis.gram = (shapeBasis r ab phi).gram := by
  have hpos : 0 < ab := by linarith
  obtain ⟨E, g1, g2, g3, g4, g5⟩ := C44_fromRAbPhi r ab phi hpos h1
  obtain ⟨q1, q2, q3⟩ := ecc_range hpos h1
  have hE := fromRAbPhi_ok r phi hpos
  refine ⟨E, g1, ?_⟩
  have hlt : E.e < 1 := by
    rw [hE] at g1
    cases g1
    unfold EllE.e
    simp only
    rw [hypot_polar, abs_of_nonneg q1]
    exact q2
  have hcov := covOf_eq E.re E.e E.theta (hypot_nonneg _ _) hlt (by show 1 / 1000 ≤ E.ab; rw [g3]; exact h0)
  have hab : abOf E.e = ab := g3
  have hg : ∀ G : Mat, (Mat.smul 3600 G).gram = Mat.smul (3600 ^ 2) G.gram := by
    intro G
    simp only [Mat.smul, Mat.gram, Mat.mk.injEq]
    refine ⟨by ring, by ring, by ring, by ring⟩
  have hinj : ∀ G H : Mat, Mat.smul (3600 ^ 2) G = Mat.smul (3600 ^ 2) H → G = H := by
    intro G H h
    cases G; cases H
    simp only [Mat.smul, Mat.mk.injEq] at h ⊢
    have n : (3600 ^ 2 : ℝ) ≠ 0 := by norm_num
    exact ⟨mul_left_cancel₀ n h.1, mul_left_cancel₀ n h.2.1, mul_left_cancel₀ n h.2.2.1, mul_left_cancel₀ n h.2.2.2⟩
  apply hinj
  unfold EllE.basis
  rw [← hg, ← hg]
  show covOf E.re E.e E.theta = _
  rw [hcov, hab, g2]
  unfold shapeBasis
  simp only
  rw [max_eq_right hr]
  have c1 : Real.cos (radians (90 - phi)) = Real.sin (radians phi) := by
    rw [show radians (90 - phi) = Real.pi / 2 - radians phi from by unfold radians; ring, Real.cos_pi_div_two_sub]
  have s1 : Real.sin (radians (90 - phi)) = Real.cos (radians phi) := by
    rw [show radians (90 - phi) = Real.pi / 2 - radians phi from by unfold radians; ring, Real.sin_pi_div_two_sub]
  rw [c1, s1]
  rcases eq_or_lt_of_le h1 with rfl | hlt1
  · have a := Real.sin_sq_add_cos_sq E.theta
    have b := Real.sin_sq_add_cos_sq (radians phi)
    simp only [Mat.smul, Mat.gram, Mat.mk.injEq]
    refine ⟨?_, by ring, by ring, ?_⟩
    · linear_combination r ^ 2 * a - r ^ 2 * b
    · linear_combination r ^ 2 * a - r ^ 2 * b
  · obtain ⟨k, hk⟩ := g4 hlt1
    have hs2 : Real.sin E.theta ^ 2 = Real.sin (radians phi) ^ 2 := by
      rw [Real.sin_sq_eq_half_sub, Real.sin_sq_eq_half_sub, hk]
      rw [show 2 * (radians (-phi) + k * Real.pi) = -(2 * radians phi) + k * (2 * Real.pi) from by unfold radians; ring,
        Real.cos_add_int_mul_two_pi, Real.cos_neg]
    have hc2 : Real.cos E.theta ^ 2 = Real.cos (radians phi) ^ 2 := by
      have a := Real.sin_sq_add_cos_sq E.theta
      have b := Real.sin_sq_add_cos_sq (radians phi)
      linarith
    have hsc : Real.sin E.theta * Real.cos E.theta = -(Real.sin (radians phi) * Real.cos (radians phi)) := by
      have e1 : 2 * Real.sin E.theta * Real.cos E.theta = -(2 * Real.sin (radians phi) * Real.cos (radians phi)) := by
        rw [← Real.sin_two_mul, ← Real.sin_two_mul, hk,
          show 2 * (radians (-phi) + k * Real.pi) = -(2 * radians phi) + k * (2 * Real.pi) from by unfold radians; ring,
          Real.sin_add_int_mul_two_pi, Real.sin_neg]
      linarith
    rw [hs2, hc2, hsc]
    simp only [Mat.smul, Mat.gram, Mat.mk.injEq]
    refine ⟨by ring, by ring, by ring, by ring⟩

example : ∃ E, fromRAbPhi 2 (1 / 2) 30 = .ok E ∧ E.basis.gram = (shapeBasis 2 (1 / 2) 30).gram :=
  C85_same_ellipse 2 (1 / 2) 30 (by norm_num) (by norm_num) (by norm_num)

/-- **C85.** The major axis of a `GalaxyShape` has the direction (−sin φ, cos φ) of (RA, Dec): `phi` is measured from North
through West. -/
theorem C85_position_angle (r ab phi : ℝ) :
    ∃ k, 0 < k ∧ (shapeBasis r ab phi).gram.Eigen (-Real.sin (radians phi)) (Real.cos (radians phi)) (k ^ 2) ∧
      (shapeBasis r ab phi).gram.Eigen (Real.cos (radians phi)) (Real.sin (radians phi)) ((k * ab) ^ 2) := by
  have c1 : Real.cos (radians (90 - phi)) = Real.sin (radians phi) := by
    rw [show radians (90 - phi) = Real.pi / 2 - radians phi from by unfold radians; ring, Real.cos_pi_div_two_sub]
  have s1 : Real.sin (radians (90 - phi)) = Real.cos (radians phi) := by
    rw [show radians (90 - phi) = Real.pi / 2 - radians phi from by unfold radians; ring, Real.sin_pi_div_two_sub]
  refine ⟨max (1 / 30) r / 3600, div_pos (lt_of_lt_of_le (by norm_num) (le_max_left _ _)) (by norm_num), ?_⟩
  unfold shapeBasis
  simp only
  rw [c1, s1]
  generalize max (1 / 30) r / 3600 = k
  have b := Real.sin_sq_add_cos_sq (radians phi)
  generalize Real.sin (radians phi) = s at *
  generalize Real.cos (radians phi) = c at *
  simp only [Mat.Eigen, Mat.smul, Mat.gram]
  refine ⟨⟨?_, ?_⟩, ⟨?_, ?_⟩⟩
  · linear_combination (-(k ^ 2 * s)) * b
  · linear_combination (k ^ 2 * c) * b
  · linear_combination (k ^ 2 * ab ^ 2 * c) * b
  · linear_combination (k ^ 2 * ab ^ 2 * s) * b

/-- **C85 (negation).** The documentation of `GalaxyShape` says that `phi` is measured East of North, i.e. that the major
axis has the direction (sin φ, cos φ) of (RA, Dec); at 45° it is not even a principal axis of the larger variance. -/
theorem C85_east_of_north_false :
    ∃ r ab phi k : ℝ, 0 < k ∧ ab < 1 ∧
      (shapeBasis r ab phi).gram.Eigen (Real.sin (radians phi)) (Real.cos (radians phi)) ((k * ab) ^ 2) ∧
      ¬ (shapeBasis r ab phi).gram.Eigen (Real.sin (radians phi)) (Real.cos (radians phi)) (k ^ 2) := by
  have h45 : Real.sin (radians 45) = Real.cos (radians 45) := by
    rw [← Real.cos_pi_div_two_sub]; congr 1; unfold radians; ring
  have b := Real.sin_sq_add_cos_sq (radians 45)
  obtain ⟨k, hk, _, h2⟩ := C85_position_angle 1 (1 / 2) 45
  refine ⟨1, 1 / 2, 45, k, hk, by norm_num, ?_, ?_⟩
  · rw [← h45] at h2 ⊢
    exact h2
  · rintro ⟨g, _⟩
    have g2 := h2.1
    rw [← h45] at g g2 b
    have hs : Real.sin (radians 45) ≠ 0 := by
      intro h
      rw [h] at b
      norm_num at b
    have : k ^ 2 = (k * (1 / 2)) ^ 2 := mul_right_cancel₀ hs (g.symm.trans g2)
    nlinarith

/-! ### C86: step sizes -/

/-- **C86.** The step sizes of `EllipseE.getAllStepSizes` point towards the round ellipse: a component that is not smaller than
half a step does not grow. -/
theorem C86_towards_round (E : EllE) :
    ∃ s0 s1 s2, E.steps = [s0, s1, s2] ∧ (1 / 200 ≤ |E.e1| → |E.e1 + s1| ≤ |E.e1|) ∧ (1 / 200 ≤ |E.e2| → |E.e2 + s2| ≤ |E.e2|) := by
  have key : ∀ x : ℝ, 1 / 200 ≤ |x| → |x + (if x ≤ 0 then 1 / 100 else -(1 / 100))| ≤ |x| := by
    intro x h
    by_cases hx : x ≤ 0
    · rw [if_pos hx]
      rw [abs_of_nonpos hx] at h ⊢
      rw [abs_le]; constructor <;> linarith
    · rw [if_neg hx]
      rw [abs_of_pos (not_le.mp hx)] at h ⊢
      rw [abs_le]; constructor <;> linarith
  exact ⟨_, _, _, rfl, key _, key _⟩

/-- **C86 (negation).** `getStepSizes`, which derivatives use, does not return these: with nothing frozen it differs from
`getAllStepSizes` for every ellipse with a positive component, and its step can leave the legal ellipses. -/
theorem C86_step_sizes_false :
    (∀ E : EllE, (0 < E.e1 ∨ 0 < E.e2) → E.stepSizes ≠ E.steps) ∧
    ∃ (E : EllE) (s1 : ℝ), E.isLegal ∧ E.stepSizes[1]? = some s1 ∧ ¬ EllE.isLegal { E with e1 := E.e1 + s1 } := by
  constructor
  · rintro E h he
    simp only [EllE.stepSizes, EllE.steps, List.replicate, List.cons.injEq, and_true, true_and] at he
    rcases h with h | h
    · have := he.1
      rw [if_neg (not_le.mpr h)] at this
      norm_num at this
    · have := he.2
      rw [if_neg (not_le.mpr h)] at this
      norm_num at this
  · refine ⟨⟨1, 995 / 1000, 0⟩, 1 / 100, ⟨by norm_num, by norm_num⟩, rfl, ?_⟩
    rintro ⟨h, _⟩
    norm_num at h

/-- **C86 (negation).** `EllipseESoft.getAllStepSizes` always fails. -/
theorem C86_soft_false (S : Soft) (other : Bool) :
    S.steps other = .error .attribute ∨ S.steps other = .error .key := by
  unfold Soft.steps Soft.attr
  cases other
  · left; rfl
  · right; rfl

end Verif.Ell
