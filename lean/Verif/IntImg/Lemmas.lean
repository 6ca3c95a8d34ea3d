import Verif.IntImg.Model
import Mathlib.Algebra.BigOperators.Intervals
import Mathlib.Algebra.BigOperators.Group.Finset.Basic
import Mathlib.Order.Interval.Finset.Basic
import Mathlib.Data.Int.Interval
import Mathlib.Tactic.Abel

namespace Verif.IntImg

open Finset

variable {M : Type} [AddCommGroup M]

/-- The sum of the pixels in columns `x0+1 .. x1`, rows `y0+1 .. y1`. -/
def boxSum (I : Arr M) (x0 x1 y0 y1 : Int) : M :=
  ∑ j ∈ Ioc y0 y1, ∑ i ∈ Ioc x0 x1, I.px j.toNat i.toNat

theorem sum_split (f : Int → M) (a b c : Int) (h : a ≤ b) (h' : b ≤ c) :
    ∑ i ∈ Ioc a b, f i + ∑ i ∈ Ioc b c, f i = ∑ i ∈ Ioc a c, f i := by
  rw [← sum_union]
  · rw [Ioc_union_Ioc_eq_Ioc h h']
  · rw [disjoint_left]; intro i hi hj; simp only [mem_Ioc] at hi hj; omega

theorem sum_mirror (f : Int → M) (m a b : Int) (h : ∀ i, a < i → i ≤ b → f (2 * m - i) = f i) :
    ∑ i ∈ Ioc (2 * m - b - 1) (2 * m - a - 1), f i = ∑ i ∈ Ioc a b, f i := by
  refine sum_nbij' (fun i => 2 * m - i) (fun i => 2 * m - i) ?_ ?_ ?_ ?_ ?_
  · intro i hi; simp only [mem_Ioc] at hi ⊢; omega
  · intro i hi; simp only [mem_Ioc] at hi ⊢; omega
  · intro i _; omega
  · intro i _; omega
  · intro i hi
    simp only [mem_Ioc] at hi
    have := h (2 * m - i) (by omega) (by omega)
    rw [← this]; congr 1; omega

theorem cum_eq (f : Nat → M) (n : Nat) : cum f n = ∑ i ∈ Ioc (-1 : Int) n, f i.toNat := by
  induction n with
  | zero =>
    have : Ioc (-1 : Int) ((0 : Nat) : Int) = {0} := by ext i; simp only [mem_Ioc, mem_singleton]; omega
    rw [this]; simp [cum]
  | succ n ih =>
    rw [cum, ih, ← sum_split _ (-1) n (n + 1 : Nat) (by omega) (by omega)]
    have : Ioc (n : Int) ((n + 1 : Nat) : Int) = {((n + 1 : Nat) : Int)} := by
      ext i; simp only [mem_Ioc, mem_singleton]; omega
    rw [this]; simp

theorem boxSum_split_x (I : Arr M) (a b c y0 y1 : Int) (h : a ≤ b) (h' : b ≤ c) :
    boxSum I a b y0 y1 + boxSum I b c y0 y1 = boxSum I a c y0 y1 := by
  simp only [boxSum]
  rw [← sum_add_distrib]
  exact sum_congr rfl (fun j _ => sum_split _ a b c h h')

theorem boxSum_split_y (I : Arr M) (x0 x1 a b c : Int) (h : a ≤ b) (h' : b ≤ c) :
    boxSum I x0 x1 a b + boxSum I x0 x1 b c = boxSum I x0 x1 a c := by
  simp only [boxSum]
  exact sum_split _ a b c h h'

theorem boxSum_empty_x (I : Arr M) (a b y0 y1 : Int) (h : b ≤ a) : boxSum I a b y0 y1 = 0 := by
  simp [boxSum, Ioc_eq_empty_of_le h]

theorem boxSum_empty_y (I : Arr M) (x0 x1 a b : Int) (h : b ≤ a) : boxSum I x0 x1 a b = 0 := by
  simp [boxSum, Ioc_eq_empty_of_le h]

theorem integral_px (I : Arr M) (r c : Nat) :
    (integralImage I).px r c = boxSum I (-1) c (-1) r := by
  simp only [integralImage, boxSum]
  rw [cum_eq, sum_comm]
  refine sum_congr rfl (fun i _ => ?_)
  rw [cum_eq]

theorem get_integral (I : Arr M) (y x : Int) (hy : 0 ≤ y) (hy' : y < I.h) (hx : 0 ≤ x) (hx' : x < I.w) :
    get (integralImage I) y x = .ok (boxSum I (-1) x (-1) y) := by
  have h1 : axisIndex (integralImage I).h y = .ok y.toNat := by simp [axisIndex, integralImage, hy, hy']
  have h2 : axisIndex (integralImage I).w x = .ok x.toNat := by simp [axisIndex, integralImage, hx, hx']
  simp only [get, h1, h2, integral_px, Int.toNat_of_nonneg hx, Int.toNat_of_nonneg hy]

theorem box_inclusion (I : Arr M) (x0 x1 y0 y1 : Int) (hx : -1 ≤ x0) (hx' : x0 ≤ x1) (hy : -1 ≤ y0)
    (hy' : y0 ≤ y1) :
    boxSum I (-1) x1 (-1) y1 + boxSum I (-1) x0 (-1) y0 - boxSum I (-1) x0 (-1) y1 - boxSum I (-1) x1 (-1) y0 =
      boxSum I x0 x1 y0 y1 := by
  rw [← boxSum_split_y I (-1) x1 (-1) y0 y1 hy hy', ← boxSum_split_y I (-1) x0 (-1) y0 y1 hy hy',
    ← boxSum_split_x I (-1) x0 x1 y0 y1 hx hx', ← boxSum_split_x I (-1) x0 x1 (-1) y0 hx hx']
  abel

theorem rect_ok (I : Arr M) (x0 x1 y0 y1 : Int) (hx : -1 ≤ x0) (hx' : x0 < x1) (hy : -1 ≤ y0)
    (hy' : y0 < y1) (hw : x1 < I.w) (hh : y1 < I.h) :
    intimgRect (integralImage I) x0 x1 y0 y1 = .ok (boxSum I x0 x1 y0 y1) := by
  have e := box_inclusion I x0 x1 y0 y1 hx hx'.le hy hy'.le
  have n1 : 0 ≤ x1 := by omega
  have n2 : 0 ≤ y1 := by omega
  simp only [intimgRect, addIf, subIf, n1, n2, hx', hy', not_true_eq_false, if_false, bind,
    get_integral I y1 x1 n2 hh n1 hw, Except.bind]
  rcases Int.lt_or_le x0 0 with a | a <;> rcases Int.lt_or_le y0 0 with b | b
  · have : ¬ 0 ≤ x0 := by omega
    have : ¬ 0 ≤ y0 := by omega
    simp only [*, if_false, false_and]
    rw [← e, boxSum_empty_x I (-1) x0 _ _ (by omega), boxSum_empty_x I (-1) x0 _ _ (by omega),
      boxSum_empty_y I _ _ (-1) y0 (by omega)]
    simp
  · have : ¬ 0 ≤ x0 := by omega
    have g := get_integral I y0 x1 b (by omega) n1 hw
    simp only [*, if_false, false_and, if_true, Except.map]
    rw [← e, boxSum_empty_x I (-1) x0 _ _ (by omega), boxSum_empty_x I (-1) x0 _ _ (by omega)]
    simp
  · have : ¬ 0 ≤ y0 := by omega
    have g := get_integral I y1 x0 n2 hh a (by omega)
    simp only [*, if_false, and_false, if_true, Except.map]
    rw [← e, boxSum_empty_y I _ _ (-1) y0 (by omega), boxSum_empty_y I _ _ (-1) y0 (by omega)]
    simp
  · have g1 := get_integral I y0 x0 b (by omega) a (by omega)
    have g2 := get_integral I y1 x0 n2 hh a (by omega)
    have g3 := get_integral I y0 x1 b (by omega) n1 hw
    simp only [a, b, and_self, if_true, g1, g2, g3, Except.map]
    rw [← e]

/-- Mirror symmetry in both axes of a `(2m+1) x (2m+1)` image. -/
def Mirror (I : Arr M) (m : Nat) : Prop :=
  I.h = 2 * m + 1 ∧ I.w = 2 * m + 1 ∧
  (∀ r c, r ≤ 2 * m → c ≤ 2 * m → I.px (2 * m - r) c = I.px r c) ∧
  (∀ r c, r ≤ 2 * m → c ≤ 2 * m → I.px r (2 * m - c) = I.px r c)

theorem mirror_x (I : Arr M) (m : Nat) (h : Mirror I m) (a b y0 y1 : Int) (ha : -1 ≤ a) (hb : b ≤ 2 * m)
    (hy : -1 ≤ y0) (hy' : y1 ≤ 2 * m) :
    boxSum I (2 * m - b - 1) (2 * m - a - 1) y0 y1 = boxSum I a b y0 y1 := by
  simp only [boxSum]
  refine sum_congr rfl (fun j hj => ?_)
  simp only [mem_Ioc] at hj
  refine sum_mirror _ m a b (fun i hi hi' => ?_)
  have := h.2.2.2 j.toNat i.toNat (by omega) (by omega)
  rw [← this]; congr 1; omega

theorem mirror_y (I : Arr M) (m : Nat) (h : Mirror I m) (x0 x1 a b : Int) (ha : -1 ≤ a) (hb : b ≤ 2 * m)
    (hx' : x1 ≤ 2 * m) :
    boxSum I x0 x1 (2 * m - b - 1) (2 * m - a - 1) = boxSum I x0 x1 a b := by
  simp only [boxSum]
  refine sum_mirror _ m a b (fun j hj hj' => ?_)
  refine sum_congr rfl (fun i hi => ?_)
  simp only [mem_Ioc] at hi
  have := h.2.2.1 j.toNat i.toNat (by omega) (by omega)
  rw [← this]; congr 1; omega

end Verif.IntImg
