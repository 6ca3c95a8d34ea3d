import Verif.Star.Model
import Verif.Star.Spec
import Verif.Gauss.PropsValue
import Verif.Approx.PropsRound
import Verif.Gal.Composite
import Mathlib.Algebra.Order.Floor.Ring

/-!
# Lemmas: boxes, eigenvalues
-/

namespace Verif.Star

open Verif.Patches (Patch)
open Verif.Mog (Comp Mix)
open Verif.Approx (Box)
open Verif.Gal (ModelMask)
open Verif.Gauss

theorem extent_clip (px py r : ℝ) (H W : Nat) :
    extent px py r (some ((0 : Int), (W : Int), (0 : Int), (H : Int))) =
      ⟨max ⌊px - r⌋ 0, min (⌈px + r⌉ + 1) W, max ⌊py - r⌋ 0, min (⌈py + r⌉ + 1) H⟩ := rfl

theorem side (p r : ℝ) (i : Int) (h : |(i : ℝ) - p| ≤ r) : ⌊p - r⌋ ≤ i ∧ i < ⌈p + r⌉ + 1 := by
  obtain ⟨h1, h2⟩ := abs_le.mp h
  refine ⟨?_, ?_⟩
  · have := Int.floor_le (p - r)
    exact (Int.cast_le (R := ℝ)).mp (by linarith)
  · have := Int.le_ceil (p + r)
    have : i ≤ ⌈p + r⌉ := (Int.cast_le (R := ℝ)).mp (by linarith)
    omega

theorem side_out (p r : ℝ) (i : Int) (h1 : ⌊p - r⌋ ≤ i) (h2 : i < ⌈p + r⌉ + 1) : |(i : ℝ) - p| < r + 1 := by
  have a := Int.sub_one_lt_floor (p - r)
  have b := Int.ceil_lt_add_one (p + r)
  have c : ((⌊p - r⌋ : Int) : ℝ) ≤ i := by exact_mod_cast h1
  have d : (i : ℝ) ≤ ((⌈p + r⌉ : Int) : ℝ) := by exact_mod_cast (by omega : i ≤ ⌈p + r⌉)
  rw [abs_lt]
  constructor <;> linarith

/-- A pixel near the star in the image lies in the box, and one of the box lies in the image. -/
theorem near_box {px py r : ℝ} {H W : Nat} {x y : Int} (hi : InImage H W x y) (hn : Near px py r x y) :
    Approx.Inside (max ⌊px - r⌋ 0) (min (⌈px + r⌉ + 1) W) (max ⌊py - r⌋ 0) (min (⌈py + r⌉ + 1) H) y x := by
  have a := side px r x hn.1
  have b := side py r y hn.2
  unfold InImage at hi
  unfold Approx.Inside
  omega

theorem shown_grid (m : Mix ℝ) (b : Box) (px py : ℝ) (x y : Int) :
    (Approx.Inside b.x0 b.x1 b.y0 b.y1 y x → shown (some (grid m b px py)) x y = evaluateGrid m px py x y) ∧
    (¬ Approx.Inside b.x0 b.x1 b.y0 b.y1 y x → shown (some (grid m b px py)) x y = 0) := by
  constructor
  · intro h
    unfold Approx.Inside at h
    have hp : InPatch (grid m b px py) x y := by
      unfold InPatch grid; dsimp only; omega
    unfold shown
    have : (grid m b px py).patch = some ⟨(b.y1 - b.y0).toNat, (b.x1 - b.x0).toNat, fun r c => evaluateGrid m px py (b.x0 + c) (b.y0 + r)⟩ := rfl
    simp only [this]
    rw [if_pos hp]
    have e1 : b.x0 + ((x - (grid m b px py).x0).toNat : Int) = x := by unfold grid; dsimp only; omega
    have e2 : b.y0 + ((y - (grid m b px py).y0).toNat : Int) = y := by unfold grid; dsimp only; omega
    rw [e1, e2]
  · intro h
    have hp : ¬ InPatch (grid m b px py) x y := by
      unfold Approx.Inside at h
      unfold InPatch grid; dsimp only; omega
    unfold shown
    have : (grid m b px py).patch = some ⟨(b.y1 - b.y0).toNat, (b.x1 - b.x0).toNat, fun r c => evaluateGrid m px py (b.x0 + c) (b.y0 + r)⟩ := rfl
    simp only [this]
    rw [if_neg hp]

/-- The Mahalanobis distance is at least the distance in units of the larger standard deviation. -/
theorem distSq_ge {c : Comp ℝ} (hc : Proper c) (x y : ℝ) :
    0 < maxEig c ∧ ((x - c.mx) ^ 2 + (y - c.my) ^ 2) / maxEig c ≤ distSq c x y ∧ maxEig c ≤ c.vxx + c.vyy := by
  obtain ⟨hs, hx, hd⟩ := hc
  have hy : 0 < c.vyy := by nlinarith [sq_nonneg c.vxy]
  set s := Real.sqrt ((c.vxx - c.vyy) ^ 2 + 4 * c.vyx ^ 2) with hsdef
  have hs0 : 0 ≤ s := Real.sqrt_nonneg _
  have hs2 : s ^ 2 = (c.vxx - c.vyy) ^ 2 + 4 * c.vxy ^ 2 := by
    rw [hsdef, Real.sq_sqrt (by positivity), hs]
  have hst : s ≤ c.vxx + c.vyy := by nlinarith
  have hlt : s < c.vxx + c.vyy := by
    rcases lt_or_eq_of_le hst with h | h
    · exact h
    · exfalso; rw [h] at hs2; nlinarith
  have hm : maxEig c = (c.vxx + c.vyy + s) / 2 := by
    unfold maxEig
    simp only [← hsdef]
    rw [abs_of_nonneg (by linarith), abs_of_nonneg (by linarith), max_eq_left (by linarith)]
  have hpos : 0 < (c.vxx + c.vyy + s) / 2 := by linarith
  refine ⟨by rw [hm]; exact hpos, ?_, by rw [hm]; linarith⟩
  rw [hm]
  unfold distSq
  rw [div_le_div_iff₀ hpos hd]
  generalize x - c.mx = dx
  generalize y - c.my = dy
  have ha : 0 ≤ (c.vyy - c.vxx + s) / 2 := by
    have := Real.abs_le_sqrt (x := c.vxx - c.vyy) (y := (c.vxx - c.vyy) ^ 2 + 4 * c.vyx ^ 2) (by nlinarith [sq_nonneg c.vyx])
    rw [← hsdef, abs_le] at this
    linarith
  have hb : 0 ≤ (c.vxx - c.vyy + s) / 2 := by
    have := Real.abs_le_sqrt (x := c.vxx - c.vyy) (y := (c.vxx - c.vyy) ^ 2 + 4 * c.vyx ^ 2) (by nlinarith [sq_nonneg c.vyx])
    rw [← hsdef, abs_le] at this
    linarith
  have hab : (c.vyy - c.vxx + s) / 2 * ((c.vxx - c.vyy + s) / 2) = c.vxy ^ 2 := by nlinarith
  have hq : 0 ≤ (c.vyy - c.vxx + s) / 2 * dx ^ 2 - 2 * c.vxy * (dx * dy) + (c.vxx - c.vyy + s) / 2 * dy ^ 2 := by
    rcases lt_or_eq_of_le ha with h | h
    · have : 0 ≤ (c.vyy - c.vxx + s) / 2 *
          ((c.vyy - c.vxx + s) / 2 * dx ^ 2 - 2 * c.vxy * (dx * dy) + (c.vxx - c.vyy + s) / 2 * dy ^ 2) := by
        have : (c.vyy - c.vxx + s) / 2 *
          ((c.vyy - c.vxx + s) / 2 * dx ^ 2 - 2 * c.vxy * (dx * dy) + (c.vxx - c.vyy + s) / 2 * dy ^ 2) =
          ((c.vyy - c.vxx + s) / 2 * dx - c.vxy * dy) ^ 2 := by
          linear_combination dy ^ 2 * hab
        rw [this]; positivity
      exact nonneg_of_mul_nonneg_right this h
    · have hv : c.vxy = 0 := by
        have : c.vxy ^ 2 = 0 := by rw [← hab, ← h]; ring
        exact pow_eq_zero_iff (two_ne_zero) |>.mp this
      rw [← h, hv]
      have := mul_nonneg hb (sq_nonneg dy)
      linarith
  have hdet : c.vxx * c.vyy - c.vxy ^ 2 = (c.vxx + c.vyy + s) / 2 * ((c.vxx + c.vyy - s) / 2) := by nlinarith
  have hfin := mul_nonneg hpos.le hq
  rw [hdet]
  nlinarith

/-- Outside the square of half width `r` around its mean a component is below its peak by the Gaussian of `r` over the larger standard deviation. -/
theorem density_out {c : Comp ℝ} (hc : Proper c) (x y r : ℝ) (hr : 0 ≤ r) (h : r ≤ |x - c.mx| ∨ r ≤ |y - c.my|) :
    |density c x y| ≤ peak c * Real.exp (-(r ^ 2 / maxEig c) / 2) := by
  obtain ⟨h1, h2, _⟩ := distSq_ge hc x y
  refine density_le c x y _ (le_trans ?_ h2)
  refine div_le_div_of_nonneg_right ?_ h1.le
  rcases h with h | h
  · have := pow_le_pow_left₀ hr h 2
    rw [sq_abs] at this
    nlinarith [sq_nonneg (y - c.my)]
  · have := pow_le_pow_left₀ hr h 2
    rw [sq_abs] at this
    nlinarith [sq_nonneg (x - c.mx)]

theorem sum_le_sum (m : Mix ℝ) (f g : Comp ℝ → ℝ) (h : ∀ c ∈ m, f c ≤ g c) : (m.map f).sum ≤ (m.map g).sum := by
  induction m with
  | nil => simp
  | cons c m ih =>
    simp only [List.map_cons, List.sum_cons]
    exact add_le_add (h c (by simp)) (ih (fun c hc => h c (by simp [hc])))

theorem abs_sum_le (m : Mix ℝ) (f g : Comp ℝ → ℝ) (h : ∀ c ∈ m, |f c| ≤ g c) : |(m.map f).sum| ≤ (m.map g).sum := by
  induction m with
  | nil => simp
  | cons c m ih =>
    simp only [List.map_cons, List.sum_cons]
    exact (abs_add_le _ _).trans (add_le_add (h c (by simp)) (ih (fun c hc => h c (by simp [hc]))))

theorem le_fold (m : Mix ℝ) (f : Comp ℝ → ℝ) (e : ℝ) : e ≤ m.foldl (fun e c => max e (f c)) e ∧
    ∀ c ∈ m, f c ≤ m.foldl (fun e c => max e (f c)) e := by
  induction m generalizing e with
  | nil => simp
  | cons d m ih =>
    obtain ⟨h1, h2⟩ := ih (max e (f d))
    simp only [List.foldl_cons]
    refine ⟨le_trans (le_max_left _ _) h1, ?_⟩
    intro c hc
    rcases List.mem_cons.mp hc with rfl | hc
    · exact le_trans (le_max_right _ _) h1
    · exact h2 c hc

/-- The radius covers five of the larger standard deviations of each component. -/
theorem radius_ge {m : Mix ℝ} {r : ℝ} (h : computeRadius m = .ok r) :
    0 ≤ r ∧ ∀ c ∈ m, 0 < maxEig c → 25 * maxEig c ≤ r ^ 2 := by
  cases m with
  | nil => cases h
  | cons d m =>
    unfold computeRadius at h
    dsimp only at h
    injection h with h
    subst h
    refine ⟨by positivity, fun c hc h0 => ?_⟩
    obtain ⟨h1, h2⟩ := le_fold m maxEig (maxEig d)
    have hle : maxEig c ≤ m.foldl (fun e c => max e (maxEig c)) (maxEig d) := by
      rcases List.mem_cons.mp hc with rfl | hc
      · exact h1
      · exact h2 c hc
    rw [mul_pow, Real.sq_sqrt (by linarith)]
    linarith

theorem trunc_near (x : ℝ) : |x - trunc x| < 1 := by
  unfold trunc
  by_cases h : 0 ≤ x
  · rw [if_pos h, abs_lt]
    have := Int.floor_le x
    have := Int.lt_floor_add_one x
    constructor <;> linarith
  · rw [if_neg h, abs_lt]
    have := Int.le_ceil x
    have := Int.ceil_lt_add_one x
    constructor <;> linarith

end Verif.Star
