import Verif.Gauss.Model
import Verif.Gauss.Spec
import Mathlib.Tactic.Ring
import Mathlib.Tactic.FieldSimp
import Mathlib.Tactic.Linarith
import Mathlib.Tactic.Positivity
import Mathlib.Tactic.NormNum

/-!
# Lemmas: the terms are those of the density
-/

namespace Verif.Gauss

open Verif.Mog (Comp Mix)

theorem sqrt_tpd (d : ℝ) : Real.sqrt (tpd * d) = 2 * Real.pi * Real.sqrt d := by
  unfold tpd
  rw [Real.sqrt_mul (by positivity), Real.sqrt_sq (by positivity)]

theorem gaussTerm_eq {c : Comp ℝ} (hc : Proper c) (x y r : ℝ) :
    gaussTerm c x y r = if distSq c x y < 100 then r + density c x y else r := by
  obtain ⟨hs, hv, hd⟩ := hc
  have e : c.vxx * c.vyy - c.vxy * c.vyx = c.vxx * c.vyy - c.vxy ^ 2 := by rw [← hs]; ring
  have hne : c.vxx * c.vyy - c.vxy ^ 2 ≠ 0 := ne_of_gt hd
  have hq : c.vyy / (c.vxx * c.vyy - c.vxy ^ 2) * (x - c.mx) * (x - c.mx) + -c.vxy / (c.vxx * c.vyy - c.vxy ^ 2) * (x - c.mx) * (y - c.my) +
      -c.vyx / (c.vxx * c.vyy - c.vxy ^ 2) * (x - c.mx) * (y - c.my) + c.vxx / (c.vxx * c.vyy - c.vxy ^ 2) * (y - c.my) * (y - c.my) =
      distSq c x y := by
    unfold distSq; rw [← hs]; field_simp; ring
  unfold gaussTerm
  simp only [e, sqrt_tpd]
  rw [hq]
  by_cases h : distSq c x y < 100
  · rw [if_neg (not_le.mpr h), if_pos h]; unfold density
    rw [show -(distSq c x y) / 2 = -0.5 * distSq c x y by ring]
  · rw [if_pos (not_lt.mp h), if_neg h]

theorem gridTerm_eq {c : Comp ℝ} (hc : Proper c) (fx fy : ℝ) (ix iy : Int) (r : ℝ) :
    gridTerm c fx fy ix iy r = if distSq c (ix - fx) (iy - fy) < 100 then r + density c (ix - fx) (iy - fy) else r := by
  rw [← gaussTerm_eq hc]
  unfold gridTerm gaussTerm
  simp only []
  have : -(c.vxy + c.vyx) / (c.vxx * c.vyy - c.vxy * c.vyx) * (ix - fx - c.mx) * (iy - fy - c.my) =
      -c.vxy / (c.vxx * c.vyy - c.vxy * c.vyx) * (ix - fx - c.mx) * (iy - fy - c.my) +
      -c.vyx / (c.vxx * c.vyy - c.vxy * c.vyx) * (ix - fx - c.mx) * (iy - fy - c.my) := by ring
  rw [this, ← add_assoc]

theorem numpyTerm_eq {c : Comp ℝ} (hc : Proper c) (x y r : ℝ) :
    numpyTerm c x y r = if distSq c x y < 700 then r + density c x y else r := by
  obtain ⟨hs, hv, hd⟩ := hc
  have e : c.vxx * c.vyy - c.vxy * c.vyx = c.vxx * c.vyy - c.vxy ^ 2 := by rw [← hs]; ring
  have hne : c.vxx * c.vyy - c.vxy ^ 2 ≠ 0 := ne_of_gt hd
  have hq : (x - c.mx) * ((x - c.mx) * (c.vyy / (c.vxx * c.vyy - c.vxy ^ 2)) + (y - c.my) * (-c.vyx / (c.vxx * c.vyy - c.vxy ^ 2))) +
      (y - c.my) * ((x - c.mx) * (-c.vxy / (c.vxx * c.vyy - c.vxy ^ 2)) + (y - c.my) * (c.vxx / (c.vxx * c.vyy - c.vxy ^ 2))) =
      distSq c x y := by
    unfold distSq; rw [← hs]; field_simp; ring
  unfold numpyTerm
  simp only [e]
  rw [hq, show (2 * Real.pi) ^ 2 * (c.vxx * c.vyy - c.vxy ^ 2) = tpd * (c.vxx * c.vyy - c.vxy ^ 2) from rfl, sqrt_tpd]
  unfold density
  rw [show -(distSq c x y) / 2 = -0.5 * distSq c x y by ring]

theorem prep_eq {c : Comp ℝ} (hc : Proper c) (x y : ℝ) :
    (prep c).i0 * (x - c.mx) * (x - c.mx) + (prep c).i1 * (x - c.mx) * (y - c.my) + (prep c).i2 * (y - c.my) * (y - c.my) =
      -(distSq c x y) / 2 ∧
    (prep c).scale = c.amp / (2 * Real.pi * Real.sqrt (c.vxx * c.vyy - c.vxy ^ 2)) ∧
    (prep c).det = c.vxx * c.vyy - c.vxy ^ 2 := by
  obtain ⟨hs, hv, hd⟩ := hc
  have e : c.vxx * c.vyy - (c.vxy + c.vyx) * 0.5 * ((c.vxy + c.vyx) * 0.5) = c.vxx * c.vyy - c.vxy ^ 2 := by rw [← hs]; ring
  have hne : c.vxx * c.vyy - c.vxy ^ 2 ≠ 0 := ne_of_gt hd
  unfold prep
  simp only [e, sqrt_tpd, and_true]
  unfold distSq; rw [← hs]; field_simp; ring

/-- The slopes of the density as its mean moves in x and in y. -/
noncomputable def slopeX (c : Comp ℝ) (x y : ℝ) : ℝ :=
  density c x y * ((c.vyy * (x - c.mx) - c.vxy * (y - c.my)) / (c.vxx * c.vyy - c.vxy ^ 2))

noncomputable def slopeY (c : Comp ℝ) (x y : ℝ) : ℝ :=
  density c x y * ((c.vxx * (y - c.my) - c.vxy * (x - c.mx)) / (c.vxx * c.vyy - c.vxy ^ 2))

theorem dxyTerm_eq {c : Comp ℝ} (hc : Proper c) (maxD : Comp ℝ → ℝ) (x y : ℝ) (r : ℝ × ℝ × ℝ) :
    dxyTerm maxD c x y r = if maxD c ≤ -(distSq c x y) / 2 then
      (r.1 + density c x y, r.2.1 + slopeX c x y, r.2.2 + slopeY c x y) else r := by
  obtain ⟨h1, h2, h3⟩ := prep_eq hc x y
  obtain ⟨hs, hv, hd⟩ := hc
  have e : c.vxx * c.vyy - (c.vxy + c.vyx) * 0.5 * ((c.vxy + c.vyx) * 0.5) = c.vxx * c.vyy - c.vxy ^ 2 := by rw [← hs]; ring
  have hne : c.vxx * c.vyy - c.vxy ^ 2 ≠ 0 := ne_of_gt hd
  have hx : -(density c x y) * (2 * (prep c).i0 * (x - c.mx) + (prep c).i1 * (y - c.my)) = slopeX c x y := by
    unfold slopeX
    have : -(2 * (prep c).i0 * (x - c.mx) + (prep c).i1 * (y - c.my)) =
        (c.vyy * (x - c.mx) - c.vxy * (y - c.my)) / (c.vxx * c.vyy - c.vxy ^ 2) := by
      unfold prep; simp only [e]; rw [← hs]; field_simp; ring
    rw [← this]; ring
  have hy : -(density c x y) * (2 * (prep c).i2 * (y - c.my) + (prep c).i1 * (x - c.mx)) = slopeY c x y := by
    unfold slopeY
    have : -(2 * (prep c).i2 * (y - c.my) + (prep c).i1 * (x - c.mx)) =
        (c.vxx * (y - c.my) - c.vxy * (x - c.mx)) / (c.vxx * c.vyy - c.vxy ^ 2) := by
      unfold prep; simp only [e]; rw [← hs]; field_simp; ring
    rw [← this]; ring
  have hG : (prep c).scale * Real.exp (-(distSq c x y) / 2) = density c x y := by rw [h2]; rfl
  unfold dxyTerm
  simp only [h1, hG, hx, hy]
  by_cases h : maxD c ≤ -(distSq c x y) / 2
  · rw [if_neg (not_not.mpr h), if_pos h]
  · rw [if_pos h, if_neg h]

/-- A sum over the components that are kept. -/
theorem fold_filter (f : ℝ → Comp ℝ → ℝ) (g : Comp ℝ → ℝ) (p : Comp ℝ → Prop) [DecidablePred p] :
    ∀ (m : Mix ℝ) (r : ℝ), (∀ c ∈ m, ∀ r, f r c = if p c then r + g c else r) →
      m.foldl f r = r + ((m.filter (fun c => decide (p c))).map g).sum
  | [], r, _ => by simp
  | c :: m, r, h => by
    rw [List.foldl_cons, fold_filter f g p m _ (fun c' hc' => h c' (by simp [hc'])), h c (by simp)]
    by_cases hp : p c
    · rw [if_pos hp, List.filter_cons_of_pos (by simpa using hp), List.map_cons, List.sum_cons]; ring
    · rw [if_neg hp, List.filter_cons_of_neg (by simpa using hp)]

theorem fold_filter3 (f : ℝ × ℝ × ℝ → Comp ℝ → ℝ × ℝ × ℝ) (g g1 g2 : Comp ℝ → ℝ) (p : Comp ℝ → Prop) [DecidablePred p] :
    ∀ (m : Mix ℝ) (r : ℝ × ℝ × ℝ), (∀ c ∈ m, ∀ r, f r c = if p c then (r.1 + g c, r.2.1 + g1 c, r.2.2 + g2 c) else r) →
      m.foldl f r = (r.1 + ((m.filter (fun c => decide (p c))).map g).sum,
        r.2.1 + ((m.filter (fun c => decide (p c))).map g1).sum, r.2.2 + ((m.filter (fun c => decide (p c))).map g2).sum)
  | [], r, _ => by simp
  | c :: m, r, h => by
    rw [List.foldl_cons, fold_filter3 f g g1 g2 p m _ (fun c' hc' => h c' (by simp [hc'])), h c (by simp)]
    by_cases hp : p c
    · rw [if_pos hp, List.filter_cons_of_pos (by simpa using hp)]
      simp only [List.map_cons, List.sum_cons, Prod.mk.injEq]
      refine ⟨by ring, by ring, by ring⟩
    · rw [if_neg hp, List.filter_cons_of_neg (by simpa using hp)]

/-- What is left out is bounded by the sum of bounds on the components left out. -/
theorem skipped_le (m : Mix ℝ) (p : Comp ℝ → Prop) [DecidablePred p] (g b : Comp ℝ → ℝ)
    (h : ∀ c ∈ m, ¬ p c → |g c| ≤ b c) (hb : ∀ c ∈ m, 0 ≤ b c) :
    |(m.map g).sum - ((m.filter (fun c => decide (p c))).map g).sum| ≤ (m.map b).sum := by
  induction m with
  | nil => simp
  | cons c m ih =>
    have ih := ih (fun c' hc' => h c' (by simp [hc'])) (fun c' hc' => hb c' (by simp [hc']))
    have hbc := hb c (by simp)
    simp only [List.map_cons, List.sum_cons]
    by_cases hp : p c
    · rw [List.filter_cons_of_pos (by simpa using hp), List.map_cons, List.sum_cons, add_sub_add_left_eq_sub]
      linarith
    · rw [List.filter_cons_of_neg (by simpa using hp), add_sub_assoc]
      have := h c (by simp) hp
      have h2 := abs_add_le (g c) ((m.map g).sum - ((m.filter (fun c => decide (p c))).map g).sum)
      linarith

theorem skipped_nonneg (m : Mix ℝ) (p : Comp ℝ → Prop) [DecidablePred p] (g : Comp ℝ → ℝ) (h : ∀ c ∈ m, 0 ≤ g c) :
    ((m.filter (fun c => decide (p c))).map g).sum ≤ (m.map g).sum := by
  induction m with
  | nil => simp
  | cons c m ih =>
    have ih := ih (fun c' hc' => h c' (by simp [hc']))
    have hc := h c (by simp)
    simp only [List.map_cons, List.sum_cons]
    by_cases hp : p c
    · rw [List.filter_cons_of_pos (by simpa using hp), List.map_cons, List.sum_cons]; linarith
    · rw [List.filter_cons_of_neg (by simpa using hp)]; linarith

theorem peak_nonneg (c : Comp ℝ) : 0 ≤ peak c := by unfold peak; positivity

theorem density_le (c : Comp ℝ) (x y t : ℝ) (h : t ≤ distSq c x y) : |density c x y| ≤ peak c * Real.exp (-t / 2) := by
  unfold density
  rw [abs_mul, abs_div, abs_of_pos (Real.exp_pos _), abs_of_nonneg (a := 2 * Real.pi * _) (by positivity)]
  exact mul_le_mul_of_nonneg_left (Real.exp_le_exp.mpr (by linarith)) (peak_nonneg c)

theorem density_nonneg (c : Comp ℝ) (x y : ℝ) (h : 0 ≤ c.amp) : 0 ≤ density c x y := by unfold density; positivity

theorem map_sum_mul (m : Mix ℝ) (f : Comp ℝ → ℝ) (k : ℝ) : (m.map (fun c => f c * k)).sum = (m.map f).sum * k := by
  induction m with
  | nil => simp
  | cons c m ih => simp only [List.map_cons, List.sum_cons, ih]; ring

theorem map_sum_add (m : Mix ℝ) (f g : Comp ℝ → ℝ) : (m.map (fun c => f c + g c)).sum = (m.map f).sum + (m.map g).sum := by
  induction m with
  | nil => simp
  | cons c m ih => simp only [List.map_cons, List.sum_cons, ih]; ring

end Verif.Gauss
