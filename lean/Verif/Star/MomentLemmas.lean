import Verif.Star.MomentSpec
import Verif.Star.SeenLemmas
import Mathlib.Probability.Distributions.Gaussian.Real

/-!
# Integrals of a Gaussian against polynomials of degree two
-/

namespace Verif.Star

open Verif.Mog (Comp Mix Mat)
open Verif.Gauss
open MeasureTheory ProbabilityTheory

/-- A normal density along a line against a parabola. -/
theorem line_moments (m v : ℝ) (hv : 0 < v) (a b c : ℝ) :
    Integrable (fun t : ℝ => (a * t ^ 2 + b * t + c) * Real.exp (-(t - m) ^ 2 / (2 * v))) ∧
    ∫ t : ℝ, (a * t ^ 2 + b * t + c) * Real.exp (-(t - m) ^ 2 / (2 * v)) = Real.sqrt (2 * Real.pi * v) * (a * (m ^ 2 + v) + b * m + c) := by
  obtain ⟨w, rfl⟩ : ∃ w : NNReal, (w : ℝ) = v := ⟨⟨v, hv.le⟩, rfl⟩
  have hw : w ≠ 0 := by rintro rfl; simp at hv
  have hs : 0 < Real.sqrt (2 * Real.pi * w) := Real.sqrt_pos.mpr (by positivity)
  have e : ∀ t : ℝ, (a * t ^ 2 + b * t + c) * Real.exp (-(t - m) ^ 2 / (2 * w)) =
      Real.sqrt (2 * Real.pi * w) * (gaussianPDFReal m w t • (a * t ^ 2 + b * t + c)) := by
    intro t
    rw [gaussianPDFReal, smul_eq_mul]
    field_simp
  have h2 : Integrable (fun t : ℝ => t ^ 2) (gaussianReal m w) := (memLp_id_gaussianReal (μ := m) (v := w) 2).integrable_sq
  have h1 : Integrable (fun t : ℝ => t) (gaussianReal m w) := (memLp_id_gaussianReal (μ := m) (v := w) 1).integrable (by norm_num)
  have h0 : Integrable (fun _ : ℝ => c) (gaussianReal m w) := integrable_const c
  have hq : Integrable (fun t : ℝ => a * t ^ 2 + b * t + c) (gaussianReal m w) := ((h2.const_mul a).add (h1.const_mul b)).add h0
  have hvar := variance_eq_sub (memLp_id_gaussianReal (μ := m) (v := w) 2)
  rw [variance_id_gaussianReal] at hvar
  have i1 : ∫ t : ℝ, t ∂gaussianReal m w = m := integral_id_gaussianReal
  have i2 : ∫ t : ℝ, t ^ 2 ∂gaussianReal m w = m ^ 2 + w := by
    have e2 : ∫ t : ℝ, t ^ 2 ∂gaussianReal m w = ∫ t, (id ^ 2 : ℝ → ℝ) t ∂gaussianReal m w := rfl
    have e1 : ∫ t : ℝ, id t ∂gaussianReal m w = m := integral_id_gaussianReal
    rw [e2]
    rw [e1] at hvar
    linarith
  simp_rw [e]
  constructor
  · refine Integrable.const_mul ?_ _
    rw [gaussianReal_of_var_ne_zero m hw] at hq
    rw [integrable_withDensity_iff_integrable_smul' (measurable_gaussianPDF m w) (ae_of_all _ (fun t => gaussianPDF_lt_top))] at hq
    refine hq.congr (ae_of_all _ (fun t => ?_))
    simp only [toReal_gaussianPDF]
  · have ha : ∫ t : ℝ, (a * t ^ 2 + b * t + c) ∂gaussianReal m w =
        (∫ t : ℝ, (a * t ^ 2 + b * t) ∂gaussianReal m w) + ∫ _ : ℝ, c ∂gaussianReal m w := integral_add ((h2.const_mul a).add (h1.const_mul b)) h0
    rw [integral_const_mul, ← integral_gaussianReal_eq_integral_smul hw, ha,
      integral_add (h2.const_mul a) (h1.const_mul b), integral_const_mul, integral_const_mul, i1, i2]
    simp

/-- The two squares of the distance. -/
theorem distSq_split {c : Comp ℝ} (hc : Proper c) (x y : ℝ) :
    distSq c x y = (x - (c.mx + c.vxy / c.vyy * (y - c.my))) ^ 2 / ((c.vxx * c.vyy - c.vxy ^ 2) / c.vyy) + (y - c.my) ^ 2 / c.vyy := by
  have hD := (vyy_pos hc).ne'
  have hd := hc.2.2.ne'
  unfold distSq
  rw [show x - (c.mx + c.vxy / c.vyy * (y - c.my)) = (x - c.mx) - c.vxy / c.vyy * (y - c.my) by ring]
  generalize x - c.mx = w
  generalize y - c.my = u
  obtain ⟨d, hdd⟩ : ∃ d, d = c.vxx * c.vyy - c.vxy ^ 2 := ⟨_, rfl⟩
  rw [← hdd] at hd ⊢
  field_simp
  linear_combination (-u ^ 2) * hdd

/-- A polynomial of degree two against a component. -/
theorem comp_moments {c : Comp ℝ} (hc : Proper c) (A B C D E F : ℝ) :
    (∀ y : ℝ, Integrable (fun x : ℝ => (A * x ^ 2 + B * (x * y) + C * y ^ 2 + D * x + E * y + F) * density c x y)) ∧
    Integrable (fun y : ℝ => ∫ x : ℝ, (A * x ^ 2 + B * (x * y) + C * y ^ 2 + D * x + E * y + F) * density c x y) ∧
    ∫ y : ℝ, ∫ x : ℝ, (A * x ^ 2 + B * (x * y) + C * y ^ 2 + D * x + E * y + F) * density c x y =
      c.amp * (A * (c.mx ^ 2 + c.vxx) + B * (c.mx * c.my + c.vxy) + C * (c.my ^ 2 + c.vyy) + D * c.mx + E * c.my + F) := by
  have hD := vyy_pos hc
  have hd := hc.2.2
  set d := c.vxx * c.vyy - c.vxy ^ 2 with hdd
  have hs : 0 < d / c.vyy := div_pos hd hD
  set k := c.amp / (2 * Real.pi * Real.sqrt d) with hk
  set r := c.vxy / c.vyy with hr
  have e : ∀ x y : ℝ, (A * x ^ 2 + B * (x * y) + C * y ^ 2 + D * x + E * y + F) * density c x y =
      (k * Real.exp (-(y - c.my) ^ 2 / (2 * c.vyy))) *
        ((A * x ^ 2 + (B * y + D) * x + (C * y ^ 2 + E * y + F)) * Real.exp (-(x - (c.mx + r * (y - c.my))) ^ 2 / (2 * (d / c.vyy)))) := by
    intro x y
    unfold density
    rw [distSq_split hc, ← hdd, ← hk, ← hr]
    have : Real.exp (-((x - (c.mx + r * (y - c.my))) ^ 2 / (d / c.vyy) + (y - c.my) ^ 2 / c.vyy) / 2) =
        Real.exp (-(y - c.my) ^ 2 / (2 * c.vyy)) * Real.exp (-(x - (c.mx + r * (y - c.my))) ^ 2 / (2 * (d / c.vyy))) := by
      rw [← Real.exp_add]
      congr 1
      field_simp
      ring
    rw [this]
    ring
  have hin : ∀ y : ℝ, ∫ x : ℝ, (A * x ^ 2 + B * (x * y) + C * y ^ 2 + D * x + E * y + F) * density c x y =
      (k * Real.sqrt (2 * Real.pi * (d / c.vyy))) *
        (((A * r ^ 2 + B * r + C) * y ^ 2 + (2 * A * r * (c.mx - r * c.my) + B * (c.mx - r * c.my) + D * r + E) * y +
          (A * ((c.mx - r * c.my) ^ 2 + d / c.vyy) + D * (c.mx - r * c.my) + F)) * Real.exp (-(y - c.my) ^ 2 / (2 * c.vyy))) := by
    intro y
    simp_rw [e]
    rw [integral_const_mul, (line_moments _ _ hs _ _ _).2]
    ring
  refine ⟨fun y => ?_, ?_, ?_⟩
  · simp_rw [e]
    exact (line_moments _ _ hs _ _ _).1.const_mul _
  · simp_rw [hin]
    exact (line_moments _ _ hD _ _ _).1.const_mul _
  · simp_rw [hin]
    rw [integral_const_mul, (line_moments _ _ hD _ _ _).2]
    have hrt : Real.sqrt (2 * Real.pi * (d / c.vyy)) * Real.sqrt (2 * Real.pi * c.vyy) = 2 * Real.pi * Real.sqrt d := by
      rw [← Real.sqrt_mul (by positivity), show 2 * Real.pi * (d / c.vyy) * (2 * Real.pi * c.vyy) = (2 * Real.pi) ^ 2 * d by field_simp,
        Real.sqrt_mul (by positivity), Real.sqrt_sq (by positivity)]
    have hsd := Real.sqrt_pos.mpr hd
    have hka : k * Real.sqrt (2 * Real.pi * (d / c.vyy)) * Real.sqrt (2 * Real.pi * c.vyy) = c.amp := by
      rw [mul_assoc, hrt, hk]
      field_simp
    have hxy : r * c.vyy = c.vxy := by rw [hr]; field_simp
    have hxx : r ^ 2 * c.vyy + d / c.vyy = c.vxx := by rw [hr, hdd]; field_simp; ring
    rw [← mul_assoc, hka]
    linear_combination (c.amp * A) * hxx + (c.amp * B) * hxy

/-- A polynomial of degree two against a mixture. -/
theorem mix_moments (m : Mix ℝ) (hm : ∀ c ∈ m, Proper c) (A B C D E F : ℝ) :
    (∀ y : ℝ, Integrable (fun x : ℝ => (A * x ^ 2 + B * (x * y) + C * y ^ 2 + D * x + E * y + F) * densityMix m x y)) ∧
    Integrable (fun y : ℝ => ∫ x : ℝ, (A * x ^ 2 + B * (x * y) + C * y ^ 2 + D * x + E * y + F) * densityMix m x y) ∧
    ∫ y : ℝ, ∫ x : ℝ, (A * x ^ 2 + B * (x * y) + C * y ^ 2 + D * x + E * y + F) * densityMix m x y =
      (m.map (fun c => c.amp * (A * (c.mx ^ 2 + c.vxx) + B * (c.mx * c.my + c.vxy) + C * (c.my ^ 2 + c.vyy) + D * c.mx + E * c.my + F))).sum := by
  induction m with
  | nil => simp [densityMix]
  | cons c m ih =>
    obtain ⟨h1, h2, h3⟩ := comp_moments (hm c (by simp)) A B C D E F
    obtain ⟨j1, j2, j3⟩ := ih (fun c hc => hm c (by simp [hc]))
    have e : ∀ x y : ℝ, (A * x ^ 2 + B * (x * y) + C * y ^ 2 + D * x + E * y + F) * densityMix (c :: m) x y =
        (A * x ^ 2 + B * (x * y) + C * y ^ 2 + D * x + E * y + F) * density c x y +
          (A * x ^ 2 + B * (x * y) + C * y ^ 2 + D * x + E * y + F) * densityMix m x y := by
      intro x y
      unfold densityMix
      rw [List.map_cons, List.sum_cons, mul_add]
    simp_rw [e]
    have hin : ∀ y : ℝ, ∫ x : ℝ, ((A * x ^ 2 + B * (x * y) + C * y ^ 2 + D * x + E * y + F) * density c x y +
          (A * x ^ 2 + B * (x * y) + C * y ^ 2 + D * x + E * y + F) * densityMix m x y) =
        (∫ x : ℝ, (A * x ^ 2 + B * (x * y) + C * y ^ 2 + D * x + E * y + F) * density c x y) +
          ∫ x : ℝ, (A * x ^ 2 + B * (x * y) + C * y ^ 2 + D * x + E * y + F) * densityMix m x y :=
      fun y => integral_add (h1 y) (j1 y)
    simp_rw [hin]
    refine ⟨fun y => (h1 y).add (j1 y), h2.add j2, ?_⟩
    rw [integral_add h2 j2, h3, j3, List.map_cons, List.sum_cons]

theorem conv_sum (a b : Mix ℝ) (g : Comp ℝ → ℝ) :
    ((Mog.convolve a b).map g).sum = (b.map (fun q => (a.map (fun p => g (join p q))).sum)).sum := by
  induction b with
  | nil => simp [Mog.convolve]
  | cons q b ih =>
    unfold Mog.convolve at ih ⊢
    rw [List.flatMap_cons, List.map_append, List.sum_append, ih, List.map_cons, List.sum_cons]
    congr 1
    unfold Mog.convolveOne
    rw [List.map_map]
    rfl

theorem sum_prod (a b : Mix ℝ) (u v : Comp ℝ → ℝ) :
    (b.map (fun q => (a.map (fun p => u p * v q)).sum)).sum = (a.map u).sum * (b.map v).sum := by
  simp_rw [List.sum_map_mul_right]
  rw [List.sum_map_mul_left]

theorem sum_prod4 (a b : Mix ℝ) (u1 v1 u2 v2 u3 v3 u4 v4 : Comp ℝ → ℝ) (g : Comp ℝ → ℝ)
    (h : ∀ p q, g (join p q) = u1 p * v1 q + u2 p * v2 q + u3 p * v3 q + u4 p * v4 q) :
    ((Mog.convolve a b).map g).sum = (a.map u1).sum * (b.map v1).sum + (a.map u2).sum * (b.map v2).sum + (a.map u3).sum * (b.map v3).sum +
      (a.map u4).sum * (b.map v4).sum := by
  rw [conv_sum, ← sum_prod, ← sum_prod, ← sum_prod, ← sum_prod, ← List.sum_map_add, ← List.sum_map_add, ← List.sum_map_add]
  congr 1
  refine List.map_congr_left (fun q _ => ?_)
  rw [← List.sum_map_add, ← List.sum_map_add, ← List.sum_map_add]
  congr 1
  exact List.map_congr_left (fun p _ => h p q)

/-- Light, displacement and spread of a mixture, from its components. -/
noncomputable def inLight (m : Mix ℝ) : ℝ := (m.map (·.amp)).sum
noncomputable def inX (px : ℝ) (m : Mix ℝ) : ℝ := (m.map (fun c => c.amp * (c.mx - px))).sum
noncomputable def inY (py : ℝ) (m : Mix ℝ) : ℝ := (m.map (fun c => c.amp * (c.my - py))).sum
noncomputable def inXX (px : ℝ) (m : Mix ℝ) : ℝ := (m.map (fun c => c.amp * ((c.mx - px) ^ 2 + c.vxx))).sum
noncomputable def inXY (px py : ℝ) (m : Mix ℝ) : ℝ := (m.map (fun c => c.amp * ((c.mx - px) * (c.my - py) + c.vxy))).sum
noncomputable def inYY (py : ℝ) (m : Mix ℝ) : ℝ := (m.map (fun c => c.amp * ((c.my - py) ^ 2 + c.vyy))).sum

theorem conv_in (a b : Mix ℝ) (px py qx qy : ℝ) :
    inLight (Mog.convolve a b) = inLight a * inLight b ∧
    inX (px + qx) (Mog.convolve a b) = inX px a * inLight b + inLight a * inX qx b ∧
    inY (py + qy) (Mog.convolve a b) = inY py a * inLight b + inLight a * inY qy b ∧
    inXX (px + qx) (Mog.convolve a b) = inXX px a * inLight b + 2 * (inX px a * inX qx b) + inLight a * inXX qx b ∧
    inXY (px + qx) (py + qy) (Mog.convolve a b) =
      inXY px py a * inLight b + (inX px a * inY qy b + inY py a * inX qx b) + inLight a * inXY qx qy b ∧
    inYY (py + qy) (Mog.convolve a b) = inYY py a * inLight b + 2 * (inY py a * inY qy b) + inLight a * inYY qy b := by
  refine ⟨amps_conv a b, ?_, ?_, ?_, ?_, ?_⟩
  · have h := sum_prod4 a b (fun p => p.amp * (p.mx - px)) (·.amp) (·.amp) (fun q => q.amp * (q.mx - qx)) (fun _ => 0) (fun _ => 0) (fun _ => 0)
      (fun _ => 0) (fun c => c.amp * (c.mx - (px + qx))) (fun p q => by simp only [join]; ring)
    refine h.trans ?_
    unfold inX inLight
    simp
  · have h := sum_prod4 a b (fun p => p.amp * (p.my - py)) (·.amp) (·.amp) (fun q => q.amp * (q.my - qy)) (fun _ => 0) (fun _ => 0) (fun _ => 0)
      (fun _ => 0) (fun c => c.amp * (c.my - (py + qy))) (fun p q => by simp only [join]; ring)
    refine h.trans ?_
    unfold inY inLight
    simp
  · have h := sum_prod4 a b (fun p => p.amp * ((p.mx - px) ^ 2 + p.vxx)) (·.amp) (fun p => p.amp * (p.mx - px)) (fun q => q.amp * (q.mx - qx))
      (fun p => p.amp * (p.mx - px)) (fun q => q.amp * (q.mx - qx)) (·.amp) (fun q => q.amp * ((q.mx - qx) ^ 2 + q.vxx))
      (fun c => c.amp * ((c.mx - (px + qx)) ^ 2 + c.vxx)) (fun p q => by simp only [join]; ring)
    refine h.trans ?_
    unfold inXX inX inLight
    ring
  · have h := sum_prod4 a b (fun p => p.amp * ((p.mx - px) * (p.my - py) + p.vxy)) (·.amp) (fun p => p.amp * (p.mx - px)) (fun q => q.amp * (q.my - qy))
      (fun p => p.amp * (p.my - py)) (fun q => q.amp * (q.mx - qx)) (·.amp) (fun q => q.amp * ((q.mx - qx) * (q.my - qy) + q.vxy))
      (fun c => c.amp * ((c.mx - (px + qx)) * (c.my - (py + qy)) + c.vxy)) (fun p q => by simp only [join]; ring)
    refine h.trans ?_
    unfold inXY inX inY inLight
    ring
  · have h := sum_prod4 a b (fun p => p.amp * ((p.my - py) ^ 2 + p.vyy)) (·.amp) (fun p => p.amp * (p.my - py)) (fun q => q.amp * (q.my - qy))
      (fun p => p.amp * (p.my - py)) (fun q => q.amp * (q.my - qy)) (·.amp) (fun q => q.amp * ((q.my - qy) ^ 2 + q.vyy))
      (fun c => c.amp * ((c.my - (py + qy)) ^ 2 + c.vyy)) (fun p q => by simp only [join]; ring)
    refine h.trans ?_
    unfold inYY inY inLight
    ring

/-- Round Gaussians about the origin, put onto the image. -/
theorem affine_in {profile : Mix ℝ} (hp : ∀ c ∈ profile, Round c) (T : Mat ℝ) (px py : ℝ) :
    inLight (Mog.applyAffine profile (px, py) T) = (profile.map (·.amp)).sum ∧
    inX px (Mog.applyAffine profile (px, py) T) = 0 ∧ inY py (Mog.applyAffine profile (px, py) T) = 0 ∧
    inXX px (Mog.applyAffine profile (px, py) T) = (profile.map (fun c => c.amp * c.vxx)).sum * (T.xx ^ 2 + T.xy ^ 2) ∧
    inXY px py (Mog.applyAffine profile (px, py) T) = (profile.map (fun c => c.amp * c.vxx)).sum * (T.xx * T.yx + T.xy * T.yy) ∧
    inYY py (Mog.applyAffine profile (px, py) T) = (profile.map (fun c => c.amp * c.vxx)).sum * (T.yx ^ 2 + T.yy ^ 2) := by
  induction profile with
  | nil => simp [inLight, inX, inY, inXX, inXY, inYY, Mog.applyAffine]
  | cons c l ih =>
    obtain ⟨h1, h2, h3, h4, h5, h6⟩ := ih (fun d hd => hp d (by simp [hd]))
    obtain ⟨g1, g2, g3, g4, g5, _⟩ := hp c (by simp)
    unfold inLight Mog.applyAffine at h1
    unfold inX Mog.applyAffine at h2
    unfold inY Mog.applyAffine at h3
    unfold inXX Mog.applyAffine at h4
    unfold inXY Mog.applyAffine at h5
    unfold inYY Mog.applyAffine at h6
    unfold inLight inX inY inXX inXY inYY Mog.applyAffine
    simp only [List.map_cons, List.sum_cons]
    rw [h1, h2, h3, h4, h5, h6]
    simp only [Mog.sandwich, g1, g2, g3, g4, g5]
    refine ⟨trivial, by ring, by ring, by ring, by ring, by ring⟩

end Verif.Star
