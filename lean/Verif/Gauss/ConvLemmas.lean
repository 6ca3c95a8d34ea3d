import Verif.Gauss.FourierLemmas
import Verif.Mog.Model
import Mathlib.Tactic.LinearCombination

/-!
# Lemmas: the convolution of Gaussians
-/

namespace Verif.Gauss

open Verif.Mog (Comp Mix convolve convolveOne)
open MeasureTheory

/-- The component of `convolve` for two components. -/
def join (a b : Comp ℝ) : Comp ℝ :=
  ⟨a.amp * b.amp, a.mx + b.mx, a.my + b.my, a.vxx + b.vxx, a.vxy + b.vxy, a.vyx + b.vyx, a.vyy + b.vyy⟩

theorem join_proper {a b : Comp ℝ} (ha : Proper a) (hb : Proper b) : Proper (join a b) := by
  have hDa := vyy_pos ha
  have hDb := vyy_pos hb
  obtain ⟨h1, h2, h3⟩ := ha
  obtain ⟨h4, h5, h6⟩ := hb
  refine ⟨by simp [join, h1, h4], by simp only [join]; linarith, ?_⟩
  simp only [join]
  -- (A1 D2 + A2 D1)^2 >= 4 A1 D1 A2 D2 > 4 B1^2 B2^2
  have k : 2 * (a.vxy * b.vxy) ≤ a.vxx * b.vyy + b.vxx * a.vyy := by
    have hs : (2 * (a.vxy * b.vxy)) ^ 2 ≤ (a.vxx * b.vyy + b.vxx * a.vyy) ^ 2 := by
      have e1 : a.vxy ^ 2 ≤ a.vxx * a.vyy := by linarith
      have e2 : b.vxy ^ 2 ≤ b.vxx * b.vyy := by linarith
      have e3 := mul_le_mul e1 e2 (sq_nonneg _) (by positivity)
      nlinarith [sq_nonneg (a.vxx * b.vyy - b.vxx * a.vyy)]
    exact (abs_le_of_sq_le_sq' hs (by positivity)).2
  nlinarith

/-- The squared distance at `V u - S`. -/
theorem quad_at {A B D d : ℝ} (hd : d = A * D - B ^ 2) (h : d ≠ 0) (u w S T : ℝ) :
    (D * (A * u + B * w + S) ^ 2 - 2 * B * ((A * u + B * w + S) * (B * u + D * w + T)) + A * (B * u + D * w + T) ^ 2) / d =
      A * u ^ 2 + 2 * B * u * w + D * w ^ 2 + 2 * (u * S + w * T) + (D * S ^ 2 - 2 * B * S * T + A * T ^ 2) / d := by
  field_simp
  subst hd
  ring

/-- The sum of two quadratic forms as two squares. -/
theorem two_squares {A1 B1 D1 d1 A2 B2 D2 d2 g dj : ℝ} (h1 : d1 = A1 * D1 - B1 ^ 2) (h2 : d2 = A2 * D2 - B2 ^ 2)
    (hg : g = D1 * d2 + D2 * d1) (hj : dj = (A1 + A2) * (D1 + D2) - (B1 + B2) ^ 2) (n1 : d1 ≠ 0) (n2 : d2 ≠ 0) (ng : g ≠ 0) (S T : ℝ) :
    (D1 * S ^ 2 - 2 * B1 * S * T + A1 * T ^ 2) / d1 + (D2 * S ^ 2 - 2 * B2 * S * T + A2 * T ^ 2) / d2 =
      g / (d1 * d2) * (S - (B1 * d2 + B2 * d1) / g * T) ^ 2 + dj / g * T ^ 2 := by
  field_simp
  subst hg hj h1 h2
  ring

theorem solve_two {A B D d X Y u w : ℝ} (hd : d = A * D - B ^ 2) (h : d ≠ 0) (hu : u = (D * X - B * Y) / d) (hw : w = (A * Y - B * X) / d) :
    X = A * u + B * w ∧ Y = B * u + D * w := by
  rw [hu, hw]
  constructor <;> (field_simp; subst hd; ring)

/-- The sum of the two squared distances, about the point where it is least: the squared distance of the joined component, and a quadratic
form written as two squares. -/
theorem distSq_sum {a b : Comp ℝ} (ha : Proper a) (hb : Proper b) (x y : ℝ) :
    ∃ (r sx ν : ℝ), ∀ s t : ℝ, distSq a (x - s) (y - t) + distSq b s t = distSq (join a b) x y +
      (a.vyy * (b.vxx * b.vyy - b.vxy ^ 2) + b.vyy * (a.vxx * a.vyy - a.vxy ^ 2)) /
        ((a.vxx * a.vyy - a.vxy ^ 2) * (b.vxx * b.vyy - b.vxy ^ 2)) * (s - (sx + r * (t - ν))) ^ 2 +
      ((a.vxx + b.vxx) * (a.vyy + b.vyy) - (a.vxy + b.vxy) ^ 2) /
        (a.vyy * (b.vxx * b.vyy - b.vxy ^ 2) + b.vyy * (a.vxx * a.vyy - a.vxy ^ 2)) * (t - ν) ^ 2 := by
  have hj := (join_proper ha hb).2.2
  simp only [join] at hj
  have hDa := vyy_pos ha
  have hDb := vyy_pos hb
  have h1 := ha.2.2
  have h2 := hb.2.2
  have hg : 0 < a.vyy * (b.vxx * b.vyy - b.vxy ^ 2) + b.vyy * (a.vxx * a.vyy - a.vxy ^ 2) := by positivity
  have n1 := ne_of_gt h1
  have n2 := ne_of_gt h2
  have ng := ne_of_gt hg
  have nj := ne_of_gt hj
  -- (u, w) = (V1 + V2)^-1 (X, Y)
  obtain ⟨u, hu⟩ : ∃ u, u = ((a.vyy + b.vyy) * (x - a.mx - b.mx) - (a.vxy + b.vxy) * (y - a.my - b.my)) /
      ((a.vxx + b.vxx) * (a.vyy + b.vyy) - (a.vxy + b.vxy) ^ 2) := ⟨_, rfl⟩
  obtain ⟨w, hw⟩ : ∃ w, w = ((a.vxx + b.vxx) * (y - a.my - b.my) - (a.vxy + b.vxy) * (x - a.mx - b.mx)) /
      ((a.vxx + b.vxx) * (a.vyy + b.vyy) - (a.vxy + b.vxy) ^ 2) := ⟨_, rfl⟩
  obtain ⟨hX, hY⟩ := solve_two rfl nj hu hw
  clear hu hw
  refine ⟨(a.vxy * (b.vxx * b.vyy - b.vxy ^ 2) + b.vxy * (a.vxx * a.vyy - a.vxy ^ 2)) /
    (a.vyy * (b.vxx * b.vyy - b.vxy ^ 2) + b.vyy * (a.vxx * a.vyy - a.vxy ^ 2)), b.mx + b.vxx * u + b.vxy * w,
    b.my + b.vxy * u + b.vyy * w, fun s t => ?_⟩
  obtain ⟨S, hS⟩ : ∃ S, S = s - (b.mx + b.vxx * u + b.vxy * w) := ⟨_, rfl⟩
  obtain ⟨T, hT⟩ : ∃ T, T = t - (b.my + b.vxy * u + b.vyy * w) := ⟨_, rfl⟩
  have e1 : x - s - a.mx = a.vxx * u + a.vxy * w + -S := by rw [hS]; linarith
  have e2 : y - t - a.my = a.vxy * u + a.vyy * w + -T := by rw [hT]; linarith
  have e3 : s - b.mx = b.vxx * u + b.vxy * w + S := by rw [hS]; ring
  have e4 : t - b.my = b.vxy * u + b.vyy * w + T := by rw [hT]; ring
  have e5 : s - (b.mx + b.vxx * u + b.vxy * w + (a.vxy * (b.vxx * b.vyy - b.vxy ^ 2) + b.vxy * (a.vxx * a.vyy - a.vxy ^ 2)) /
    (a.vyy * (b.vxx * b.vyy - b.vxy ^ 2) + b.vyy * (a.vxx * a.vyy - a.vxy ^ 2)) * (t - (b.my + b.vxy * u + b.vyy * w))) =
      S - (a.vxy * (b.vxx * b.vyy - b.vxy ^ 2) + b.vxy * (a.vxx * a.vyy - a.vxy ^ 2)) /
    (a.vyy * (b.vxx * b.vyy - b.vxy ^ 2) + b.vyy * (a.vxx * a.vyy - a.vxy ^ 2)) * T := by rw [hS, hT]; ring
  rw [e5, ← hT]
  have d1 : distSq a (x - s) (y - t) = a.vxx * u ^ 2 + 2 * a.vxy * u * w + a.vyy * w ^ 2 + 2 * (u * -S + w * -T) +
      (a.vyy * (-S) ^ 2 - 2 * a.vxy * -S * -T + a.vxx * (-T) ^ 2) / (a.vxx * a.vyy - a.vxy ^ 2) := by
    unfold distSq; rw [e1, e2]; exact quad_at rfl n1 u w (-S) (-T)
  have d2 : distSq b s t = b.vxx * u ^ 2 + 2 * b.vxy * u * w + b.vyy * w ^ 2 + 2 * (u * S + w * T) +
      (b.vyy * S ^ 2 - 2 * b.vxy * S * T + b.vxx * T ^ 2) / (b.vxx * b.vyy - b.vxy ^ 2) := by
    unfold distSq; rw [e3, e4]; exact quad_at rfl n2 u w S T
  have d3 : distSq (join a b) x y = (a.vxx + b.vxx) * u ^ 2 + 2 * (a.vxy + b.vxy) * u * w + (a.vyy + b.vyy) * w ^ 2 := by
    unfold distSq; simp only [join]
    rw [← sub_sub, ← sub_sub, hX, hY]
    have := quad_at rfl nj u w 0 0
    simp only [add_zero, mul_zero, zero_div, ne_eq, OfNat.ofNat_ne_zero, not_false_eq_true, zero_pow, sub_zero] at this
    exact this
  rw [d1, d2, d3]
  clear d1 d2 d3 e1 e2 e3 e4 e5 hX hY hS hT
  have key := two_squares (A1 := a.vxx) (B1 := a.vxy) (D1 := a.vyy) (A2 := b.vxx) (B2 := b.vxy) (D2 := b.vyy) rfl rfl rfl rfl n1 n2 ng S T
  rw [neg_sq, neg_sq, show 2 * a.vxy * -S * -T = 2 * a.vxy * S * T by ring]
  linear_combination key

/-- A Gaussian along a line. -/
theorem gauss_line (p m : ℝ) (hp : 0 < p) : Integrable (fun s : ℝ => Real.exp (-(p * (s - m) ^ 2) / 2)) ∧
    ∫ s : ℝ, Real.exp (-(p * (s - m) ^ 2) / 2) = Real.sqrt (2 * Real.pi / p) := by
  have e : ∀ s : ℝ, Real.exp (-(p * (s - m) ^ 2) / 2) = (fun s => Real.exp (-(p / 2) * s ^ 2)) (s - m) := fun s => by
    simp only; congr 1; ring
  simp_rw [e]
  constructor
  · exact (integrable_exp_neg_mul_sq (by positivity)).comp_sub_right m
  · rw [integral_sub_right_eq_self (fun s : ℝ => Real.exp (-(p / 2) * s ^ 2)) m, integral_gaussian]
    congr 1; field_simp

/-- Two components. -/
theorem conv_two {a b : Comp ℝ} (ha : Proper a) (hb : Proper b) (x y : ℝ) :
    (∀ t : ℝ, Integrable (fun s : ℝ => density a (x - s) (y - t) * density b s t)) ∧
    Integrable (fun t : ℝ => ∫ s : ℝ, density a (x - s) (y - t) * density b s t) ∧
    ∫ t : ℝ, ∫ s : ℝ, density a (x - s) (y - t) * density b s t = density (join a b) x y := by
  obtain ⟨r, sx, ν, h⟩ := distSq_sum ha hb x y
  have hj := (join_proper ha hb).2.2
  have hDa := vyy_pos ha
  have hDb := vyy_pos hb
  have h1 := ha.2.2
  have h2 := hb.2.2
  have hg : 0 < a.vyy * (b.vxx * b.vyy - b.vxy ^ 2) + b.vyy * (a.vxx * a.vyy - a.vxy ^ 2) := by positivity
  have hj' := hj
  simp only [join] at hj'
  set d1 := a.vxx * a.vyy - a.vxy ^ 2 with hd1
  set d2 := b.vxx * b.vyy - b.vxy ^ 2 with hd2
  set g := a.vyy * d2 + b.vyy * d1 with hgdef
  set dj := (a.vxx + b.vxx) * (a.vyy + b.vyy) - (a.vxy + b.vxy) ^ 2 with hdj
  have hp : 0 < g / (d1 * d2) := by positivity
  have hq : 0 < dj / g := by positivity
  have hprod : ∀ s t : ℝ, density a (x - s) (y - t) * density b s t =
      (a.amp / (2 * Real.pi * Real.sqrt d1) * (b.amp / (2 * Real.pi * Real.sqrt d2)) * Real.exp (-(distSq (join a b) x y) / 2) *
        Real.exp (-(dj / g * (t - ν) ^ 2) / 2)) * Real.exp (-(g / (d1 * d2) * (s - (sx + r * (t - ν))) ^ 2) / 2) := by
    intro s t
    unfold density
    have e : Real.exp (-(distSq a (x - s) (y - t)) / 2) * Real.exp (-(distSq b s t) / 2) =
        Real.exp (-(distSq (join a b) x y) / 2) * Real.exp (-(dj / g * (t - ν) ^ 2) / 2) *
          Real.exp (-(g / (d1 * d2) * (s - (sx + r * (t - ν))) ^ 2) / 2) := by
      rw [← Real.exp_add, ← Real.exp_add, ← Real.exp_add]
      congr 1
      have := h s t
      linarith
    rw [← hd1, ← hd2]
    linear_combination (a.amp / (2 * Real.pi * Real.sqrt d1) * (b.amp / (2 * Real.pi * Real.sqrt d2))) * e
  have hin : ∀ t : ℝ, ∫ s : ℝ, density a (x - s) (y - t) * density b s t =
      (a.amp / (2 * Real.pi * Real.sqrt d1) * (b.amp / (2 * Real.pi * Real.sqrt d2)) * Real.exp (-(distSq (join a b) x y) / 2) *
        Real.sqrt (2 * Real.pi / (g / (d1 * d2)))) * Real.exp (-(dj / g * (t - ν) ^ 2) / 2) := by
    intro t
    simp_rw [hprod]
    rw [integral_const_mul, (gauss_line _ _ hp).2]
    ring
  refine ⟨fun t => ?_, ?_, ?_⟩
  · simp_rw [hprod]; exact (gauss_line _ _ hp).1.const_mul _
  · simp_rw [hin]; exact (gauss_line _ _ hq).1.const_mul _
  · simp_rw [hin]
    rw [integral_const_mul, (gauss_line _ _ hq).2]
    have hpi := Real.pi_pos
    have e : Real.sqrt (2 * Real.pi / (g / (d1 * d2))) * Real.sqrt (2 * Real.pi / (dj / g)) =
        2 * Real.pi * (Real.sqrt d1 * Real.sqrt d2) / Real.sqrt dj := by
      rw [← Real.sqrt_mul (by positivity)]
      have : 2 * Real.pi / (g / (d1 * d2)) * (2 * Real.pi / (dj / g)) = (2 * Real.pi) ^ 2 * (d1 * d2) / dj := by field_simp
      rw [this, Real.sqrt_div (by positivity), Real.sqrt_mul (by positivity), Real.sqrt_sq (by positivity), Real.sqrt_mul h1.le]
    unfold density
    have hs1 := Real.sqrt_pos.mpr h1
    have hs2 := Real.sqrt_pos.mpr h2
    have hsj := Real.sqrt_pos.mpr hj'
    have hamp : (join a b).amp = a.amp * b.amp := rfl
    have hdet : (join a b).vxx * (join a b).vyy - (join a b).vxy ^ 2 = dj := rfl
    rw [hamp, hdet, mul_assoc, e]
    field_simp

theorem conv_one (a : Mix ℝ) (b : Comp ℝ) (ha : ∀ c ∈ a, Proper c) (hb : Proper b) (x y : ℝ) :
    (∀ t : ℝ, Integrable (fun s : ℝ => densityMix a (x - s) (y - t) * density b s t)) ∧
    Integrable (fun t : ℝ => ∫ s : ℝ, densityMix a (x - s) (y - t) * density b s t) ∧
    ∫ t : ℝ, ∫ s : ℝ, densityMix a (x - s) (y - t) * density b s t = densityMix (convolveOne a b) x y := by
  induction a with
  | nil => simp [densityMix, convolveOne]
  | cons c a ih =>
    obtain ⟨h1, h2, h3⟩ := ih (fun c' hc' => ha c' (by simp [hc']))
    obtain ⟨k1, k2, k3⟩ := conv_two (ha c (by simp)) hb x y
    have hs : ∀ s t : ℝ, densityMix (c :: a) (x - s) (y - t) * density b s t =
        density c (x - s) (y - t) * density b s t + densityMix a (x - s) (y - t) * density b s t := by
      intro s t
      simp only [densityMix, List.map_cons, List.sum_cons]
      ring
    have hin : ∀ t : ℝ, ∫ s : ℝ, densityMix (c :: a) (x - s) (y - t) * density b s t =
        (∫ s : ℝ, density c (x - s) (y - t) * density b s t) + ∫ s : ℝ, densityMix a (x - s) (y - t) * density b s t := by
      intro t
      simp_rw [hs]
      exact integral_add (k1 t) (h1 t)
    refine ⟨fun t => ?_, ?_, ?_⟩
    · simp_rw [hs]; exact (k1 t).add (h1 t)
    · simp_rw [hin]; exact k2.add h2
    · simp_rw [hin]
      rw [integral_add k2 h2, h3, k3]
      rfl

theorem densityMix_append (a b : Mix ℝ) (x y : ℝ) : densityMix (a ++ b) x y = densityMix a x y + densityMix b x y := by
  unfold densityMix; rw [List.map_append, List.sum_append]

theorem conv_mix (a b : Mix ℝ) (ha : ∀ c ∈ a, Proper c) (hb : ∀ c ∈ b, Proper c) (x y : ℝ) :
    (∀ t : ℝ, Integrable (fun s : ℝ => densityMix a (x - s) (y - t) * densityMix b s t)) ∧
    Integrable (fun t : ℝ => ∫ s : ℝ, densityMix a (x - s) (y - t) * densityMix b s t) ∧
    ∫ t : ℝ, ∫ s : ℝ, densityMix a (x - s) (y - t) * densityMix b s t = densityMix (convolve a b) x y := by
  induction b with
  | nil => simp [densityMix, convolve]
  | cons c b ih =>
    obtain ⟨h1, h2, h3⟩ := ih (fun c' hc' => hb c' (by simp [hc']))
    obtain ⟨k1, k2, k3⟩ := conv_one a c ha (hb c (by simp)) x y
    have hs : ∀ s t : ℝ, densityMix a (x - s) (y - t) * densityMix (c :: b) s t =
        densityMix a (x - s) (y - t) * density c s t + densityMix a (x - s) (y - t) * densityMix b s t := by
      intro s t
      rw [show densityMix (c :: b) s t = density c s t + densityMix b s t by simp [densityMix]]
      ring
    have hin : ∀ t : ℝ, ∫ s : ℝ, densityMix a (x - s) (y - t) * densityMix (c :: b) s t =
        (∫ s : ℝ, densityMix a (x - s) (y - t) * density c s t) + ∫ s : ℝ, densityMix a (x - s) (y - t) * densityMix b s t := by
      intro t
      simp_rw [hs]
      exact integral_add (k1 t) (h1 t)
    refine ⟨fun t => ?_, ?_, ?_⟩
    · simp_rw [hs]; exact (k1 t).add (h1 t)
    · simp_rw [hin]; exact k2.add h2
    · simp_rw [hin]
      rw [integral_add k2 h2, h3, k3]
      unfold convolve
      rw [List.flatMap_cons, densityMix_append]

end Verif.Gauss
