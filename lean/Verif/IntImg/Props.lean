import Verif.IntImg.Lemmas

/-!
# C46, C47: integral images

The specification is `boxSum`: the sum of the pixels in columns `x0+1 .. x1` and rows `y0+1 .. y1`, and
`Mirror`: symmetry of a `(2m+1) x (2m+1)` image about its middle row and middle column (`Lemmas.lean`).
-/

namespace Verif.IntImg

open Finset

variable {M : Type} [AddCommGroup M]

/-- A rectangle the functions accept for an image of height `h` and width `w`: not empty, inside. -/
def Inside (h w : Nat) (r : Rect) : Prop :=
  -1 ≤ r.1 ∧ r.1 < r.2.1 ∧ r.2.1 < w ∧ -1 ≤ r.2.2.1 ∧ r.2.2.1 < r.2.2.2 ∧ r.2.2.2 < h

/-- **C46.** The query returns the sum of the rectangle, for every image and every non-empty rectangle inside
it, including those starting in the first row or column. -/
theorem C46_rect (I : Arr M) (x0 x1 y0 y1 : Int) (h : Inside I.h I.w (x0, x1, y0, y1)) :
    intimgRect (integralImage I) x0 x1 y0 y1 =
      .ok (∑ j ∈ Ioc y0 y1, ∑ i ∈ Ioc x0 x1, I.px j.toNat i.toNat) := by
  obtain ⟨a, b, c, d, e, f⟩ := h
  exact rect_ok I x0 x1 y0 y1 a b d e c f

theorem mapM_ok {A B : Type} (f : A → Except PyErr B) (g : A → B) (l : List A) (h : ∀ a ∈ l, f a = .ok (g a)) :
    l.mapM f = .ok (l.map g) := by
  induction l with
  | nil => rfl
  | cons a l ih =>
    simp only [List.mapM_cons, h a (by simp), ih (fun b hb => h b (by simp [hb])), List.map_cons]
    rfl

/-- The same for arrays of rectangles. -/
theorem C46_rects (I : Arr M) (rs : List Rect) (h : ∀ r ∈ rs, Inside I.h I.w r) :
    intimgRects (integralImage I) rs = .ok (rs.map (fun r => boxSum I r.1 r.2.1 r.2.2.1 r.2.2.2)) :=
  mapM_ok _ _ rs (fun r hr => C46_rect I r.1 r.2.1 r.2.2.1 r.2.2.2 (h r hr))

/-- The value of the integral image itself. -/
theorem C46_integral (I : Arr M) (r c : Nat) :
    (integralImage I).px r c = ∑ j ∈ Ioc (-1 : Int) r, ∑ i ∈ Ioc (-1 : Int) c, I.px j.toNat i.toNat :=
  integral_px I r c

/-- An example image. -/
def exImg : Arr Int := Arr.ofLists [[1, 2, 3], [4, 5, 6], [7, 8, 9], [1, 1, 1]] 3

example : Inside exImg.h exImg.w (0, 2, -1, 1) ∧
    intimgRect (integralImage exImg) 0 2 (-1) 1 = .ok (2 + 3 + 5 + 6) := by
  constructor
  · refine ⟨?_, ?_, ?_, ?_, ?_, ?_⟩ <;> decide
  · decide +kernel

/-- Empty rectangles are refused. -/
theorem C46_empty_refused (A : Arr M) (x0 x1 y0 y1 : Int) (h : x1 ≤ x0 ∨ y1 ≤ y0) :
    intimgRect A x0 x1 y0 y1 = .error .assertion := by
  simp only [intimgRect]
  split
  · rfl
  · split
    · rfl
    · split
      · rfl
      · split
        · rfl
        · omega

/-! ## C47 -/

/-- The quadrant `I[:k, :k]`. -/
def quadrant (I : Arr M) (k : Nat) : Arr M := I.slice none (some k) none (some k)

theorem quadrant_box (I : Arr M) (k : Nat) (x0 x1 y0 y1 : Int) :
    boxSum (quadrant I k) x0 x1 y0 y1 = boxSum I x0 x1 y0 y1 := by
  simp [boxSum, quadrant, Arr.slice, Arr.axis]

omit [AddCommGroup M] in
theorem quadrant_h (I : Arr M) (m k : Nat) (h : Mirror I m) (hk : k ≤ 2 * m + 1) :
    (quadrant I k).h = k ∧ (quadrant I k).w = k := by
  obtain ⟨h1, h2, -⟩ := h
  have n : ¬ (k : Int) < 0 := by omega
  simp [quadrant, Arr.slice, Arr.axis, Arr.bound, h1, h2, n]
  omega

/-- A query on the quadrant gives the sum over the full image. -/
theorem quad_rect (I : Arr M) (m k : Nat) (h : Mirror I m) (hk : k ≤ 2 * m + 1) (x0 x1 y0 y1 : Int)
    (a : -1 ≤ x0) (b : x0 < x1) (c : x1 < k) (d : -1 ≤ y0) (e : y0 < y1) (f : y1 < k) :
    intimgRect (integralImage (quadrant I k)) x0 x1 y0 y1 = .ok (boxSum I x0 x1 y0 y1) := by
  obtain ⟨h1, h2⟩ := quadrant_h I m k h hk
  rw [rect_ok _ _ _ _ _ a b d e (by rw [h2]; exact c) (by rw [h1]; exact f), quadrant_box]

theorem split_mid_x (I : Arr M) (m x0 x1 u v : Int) (_h : x0 ≤ x1) :
    boxSum I x0 (min x1 m) u v + boxSum I (max m x0) x1 u v = boxSum I x0 x1 u v := by
  rcases Int.lt_or_le x0 m with p | p <;> rcases Int.lt_or_le m x1 with q | q
  · rw [min_eq_right q.le, max_eq_left p.le, boxSum_split_x I _ _ _ u v p.le q.le]
  · rw [min_eq_left q, boxSum_empty_x I (max m x0) x1 u v (by omega), add_zero]
  · rw [max_eq_right p, boxSum_empty_x I x0 (min x1 m) u v (by omega), zero_add]
  · rw [min_eq_left q, boxSum_empty_x I (max m x0) x1 u v (by omega), add_zero]

theorem split_mid_y (I : Arr M) (m u v y0 y1 : Int) (_h : y0 ≤ y1) :
    boxSum I u v y0 (min y1 m) + boxSum I u v (max m y0) y1 = boxSum I u v y0 y1 := by
  rcases Int.lt_or_le y0 m with p | p <;> rcases Int.lt_or_le m y1 with q | q
  · rw [min_eq_right q.le, max_eq_left p.le, boxSum_split_y I u v _ _ _ p.le q.le]
  · rw [min_eq_left q, boxSum_empty_y I u v (max m y0) y1 (by omega), add_zero]
  · rw [max_eq_right p, boxSum_empty_y I u v y0 (min y1 m) (by omega), zero_add]
  · rw [min_eq_left q, boxSum_empty_y I u v (max m y0) y1 (by omega), add_zero]

/-- **C47 (rectangles).** For a mirror-symmetric image, the query on the integral image of its first quadrant
(or of any larger corner) returns the sum of the rectangle in the full image, for every non-empty rectangle
of the full image, wherever it lies relative to the two midlines. -/
theorem C47_rect (I : Arr M) (m k : Nat) (h : Mirror I m) (hk : m + 1 ≤ k) (hk' : k ≤ 2 * m + 1)
    (x0 x1 y0 y1 : Int) (hr : Inside I.h I.w (x0, x1, y0, y1)) :
    symmRect (integralImage (quadrant I k)) x0 x1 y0 y1 m =
      .ok (∑ j ∈ Ioc y0 y1, ∑ i ∈ Ioc x0 x1, I.px j.toNat i.toNat) := by
  obtain ⟨a, b, c, d, e, f⟩ := hr
  have c : x1 < ((2 * m + 1 : Nat) : Int) := by rw [← h.2.1]; exact c
  have f : y1 < ((2 * m + 1 : Nat) : Int) := by rw [← h.1]; exact f
  simp only at a b d e
  have qA : ∀ r : M, addIf (y0 < m ∧ x0 < m) r (intimgRect (integralImage (quadrant I k)) x0 (min x1 m) y0 (min y1 m)) =
      .ok (r + boxSum I x0 (min x1 m) y0 (min y1 m)) := fun r => by
    simp only [addIf]
    split
    · rw [quad_rect I m k h hk' _ _ _ _ (by omega) (by omega) (by omega) (by omega) (by omega) (by omega)]
      rfl
    · rcases Int.lt_or_le x0 m with p | p
      · rw [boxSum_empty_y I _ _ y0 (min y1 m) (by omega), add_zero]
      · rw [boxSum_empty_x I x0 (min x1 m) _ _ (by omega), add_zero]
  have qB : ∀ r : M, addIf ((m : Int) < x1 ∧ y0 < m) r (intimgRect (integralImage (quadrant I k)) (2 * m - x1 - 1) (2 * m - max ((m : Int) + 1) (x0 + 1))
        y0 (min y1 m)) =
      .ok (r + boxSum I (max m x0) x1 y0 (min y1 m)) := fun r => by
    simp only [addIf]
    split
    · rw [quad_rect I m k h hk' _ _ _ _ (by omega) (by omega) (by omega) (by omega) (by omega) (by omega),
        ← mirror_x I m h (max m x0) x1 y0 _ (by omega) (by omega) (by omega) (by omega)]
      simp only [Except.map]; congr 3; omega
    · rcases Int.lt_or_le m x1 with p | p
      · rw [boxSum_empty_y I _ _ y0 (min y1 m) (by omega), add_zero]
      · rw [boxSum_empty_x I (max m x0) x1 _ _ (by omega), add_zero]
  have qC : ∀ r : M, addIf ((m : Int) < y1 ∧ x0 < m) r (intimgRect (integralImage (quadrant I k)) x0 (min x1 m)
        (2 * m - y1 - 1) (2 * m - max ((m : Int) + 1) (y0 + 1))) =
      .ok (r + boxSum I x0 (min x1 m) (max m y0) y1) := fun r => by
    simp only [addIf]
    split
    · rw [quad_rect I m k h hk' _ _ _ _ (by omega) (by omega) (by omega) (by omega) (by omega) (by omega),
        ← mirror_y I m h x0 _ (max m y0) y1 (by omega) (by omega) (by omega)]
      simp only [Except.map]; congr 3; omega
    · rcases Int.lt_or_le m y1 with p | p
      · rw [boxSum_empty_x I x0 (min x1 m) _ _ (by omega), add_zero]
      · rw [boxSum_empty_y I _ _ (max m y0) y1 (by omega), add_zero]
  have qD : ∀ r : M, addIf ((m : Int) < y1 ∧ (m : Int) < x1) r (intimgRect (integralImage (quadrant I k)) (2 * m - x1 - 1) (2 * m - max ((m : Int) + 1) (x0 + 1))
        (2 * m - y1 - 1) (2 * m - max ((m : Int) + 1) (y0 + 1))) =
      .ok (r + boxSum I (max m x0) x1 (max m y0) y1) := fun r => by
    simp only [addIf]
    split
    · rw [quad_rect I m k h hk' _ _ _ _ (by omega) (by omega) (by omega) (by omega) (by omega) (by omega),
        ← mirror_x I m h (max m x0) x1 (max m y0) y1 (by omega) (by omega) (by omega) (by omega),
        ← mirror_y I m h _ _ (max m y0) y1 (by omega) (by omega) (by omega)]
      simp only [Except.map]; congr 3 <;> omega
    · rcases Int.lt_or_le m y1 with p | p
      · rw [boxSum_empty_x I (max m x0) x1 _ _ (by omega), add_zero]
      · rw [boxSum_empty_y I _ _ (max m y0) y1 (by omega), add_zero]
  have n1 : x0 ≤ x1 := by omega
  have n2 : y0 ≤ y1 := by omega
  simp only [symmRect, n1, n2, not_true_eq_false, if_false, bind, Except.bind,
    qA, qB, qC, qD]
  congr 1
  change _ = boxSum I x0 x1 y0 y1
  rw [zero_add, ← split_mid_y I m x0 x1 y0 y1 n2, ← split_mid_x I m x0 x1 y0 _ n1,
    ← split_mid_x I m x0 x1 _ y1 n1]
  abel

/-- The same for arrays of rectangles. -/
theorem C47_rects (I : Arr M) (m k : Nat) (h : Mirror I m) (hk : m + 1 ≤ k) (hk' : k ≤ 2 * m + 1)
    (rs : List Rect) (hr : ∀ r ∈ rs, Inside I.h I.w r) :
    symmRects (integralImage (quadrant I k)) m rs =
      .ok (rs.map (fun r => boxSum I r.1 r.2.1 r.2.2.1 r.2.2.2)) :=
  mapM_ok _ _ rs (fun r hrs => C47_rect I m k h hk hk' r.1 r.2.1 r.2.2.1 r.2.2.2 (hr r hrs))

/-- A value of the quadrant's integral image. -/
theorem quad_get (I : Arr M) (m k : Nat) (h : Mirror I m) (hk : k ≤ 2 * m + 1) (y x : Int) (hy : 0 ≤ y)
    (hy' : y < k) (hx : 0 ≤ x) (hx' : x < k) :
    get (integralImage (quadrant I k)) y x = .ok (boxSum I (-1) x (-1) y) := by
  obtain ⟨h1, h2⟩ := quadrant_h I m k h hk
  rw [get_integral _ _ _ hy (by rw [h1]; exact hy') hx (by rw [h2]; exact hx'), quadrant_box]

/-- The integral up to a column right of the midline, by integrals up to columns not right of it. -/
theorem fold_x (I : Arr M) (m : Nat) (h : Mirror I m) (x y : Int) (hx : (m : Int) ≤ x) (hx' : x ≤ 2 * m)
    (hy' : y ≤ 2 * m) :
    boxSum I (-1) x (-1) y = boxSum I (-1) m (-1) y + boxSum I (-1) (m - 1) (-1) y -
      boxSum I (-1) (2 * m - x - 1) (-1) y := by
  have e := mirror_x I m h m x (-1) y (by omega) hx' (by omega) hy'
  rw [← boxSum_split_x I (-1) m x (-1) y (by omega) hx, ← e,
    ← boxSum_split_x I (-1) (2 * m - x - 1) (m - 1) (-1) y (by omega) (by omega),
    show (2 * (m : Int) - m - 1) = m - 1 by omega]
  abel

theorem fold_y (I : Arr M) (m : Nat) (h : Mirror I m) (x y : Int) (hy : (m : Int) ≤ y) (hy' : y ≤ 2 * m)
    (hx' : x ≤ 2 * m) :
    boxSum I (-1) x (-1) y = boxSum I (-1) x (-1) m + boxSum I (-1) x (-1) (m - 1) -
      boxSum I (-1) x (-1) (2 * m - y - 1) := by
  have e := mirror_y I m h (-1) x m y (by omega) hy' hx'
  rw [← boxSum_split_y I (-1) x (-1) m y (by omega) hy, ← e,
    ← boxSum_split_y I (-1) x (-1) (2 * m - y - 1) (m - 1) (by omega) (by omega),
    show (2 * (m : Int) - m - 1) = m - 1 by omega]
  abel

/-- **C47 (values).** `symm_intimg_ref` on the quadrant is the value of the full image's integral image at
every pixel of the full image. -/
theorem C47_ref (I : Arr M) (m k : Nat) (h : Mirror I m) (hk : m + 1 ≤ k) (hk' : k ≤ 2 * m + 1)
    (x y : Nat) (hx : x ≤ 2 * m) (hy : y ≤ 2 * m) :
    symmRef (integralImage (quadrant I k)) x y m = .ok ((integralImage I).px y x) := by
  have g := quad_get I m k h hk'
  rw [integral_px]
  simp only [symmRef]
  split
  · rename_i c
    rw [g _ _ (by omega) (by omega) (by omega) (by omega)]
  · split
    · rename_i c
      rw [g m x (by omega) (by omega) (by omega) (by omega),
        g (m - 1) x (by omega) (by omega) (by omega) (by omega),
        fold_y I m h x y (by omega) (by omega) (by omega)]
      simp only [bind, Except.bind, both, pure, Except.pure, subIf]
      split
      · rw [g _ _ (by omega) (by omega) (by omega) (by omega)]; rfl
      · rw [boxSum_empty_y I (-1) x (-1) (2 * m - y - 1) (by omega), sub_zero]
    · split
      · rename_i c
        rw [g y m (by omega) (by omega) (by omega) (by omega),
          g y (m - 1) (by omega) (by omega) (by omega) (by omega),
          fold_x I m h x y (by omega) (by omega) (by omega)]
        simp only [bind, Except.bind, both, pure, Except.pure, subIf]
        split
        · rw [g _ _ (by omega) (by omega) (by omega) (by omega)]; rfl
        · rw [boxSum_empty_x I (-1) (2 * m - x - 1) (-1) y (by omega), sub_zero]
      · have cx : (m : Int) < x := by omega
        have cy : (m : Int) < y := by omega
        rw [g m m (by omega) (by omega) (by omega) (by omega),
          g m (m - 1) (by omega) (by omega) (by omega) (by omega),
          g (m - 1) m (by omega) (by omega) (by omega) (by omega),
          g (m - 1) (m - 1) (by omega) (by omega) (by omega) (by omega),
          fold_x I m h x y (by omega) (by omega) (by omega),
          fold_y I m h m y (by omega) (by omega) (by omega),
          fold_y I m h (m - 1) y (by omega) (by omega) (by omega),
          fold_y I m h (2 * m - x - 1) y (by omega) (by omega) (by omega)]
        simp only [bind, Except.bind, both, pure, Except.pure, subIf, addIf]
        rcases Int.lt_or_le 0 (2 * (m : Int) - x) with px | px <;>
          rcases Int.lt_or_le 0 (2 * (m : Int) - y) with py | py
        · simp only [px, py, and_self, if_true]
          rw [g (2 * m - y - 1) (2 * m - x - 1) (by omega) (by omega)
            (by omega) (by omega), g m (2 * m - x - 1) (by omega) (by omega) (by omega) (by omega),
            g (m - 1) (2 * m - x - 1) (by omega) (by omega) (by omega) (by omega),
            g (2 * m - y - 1) m (by omega) (by omega) (by omega) (by omega),
            g (2 * m - y - 1) (m - 1) (by omega) (by omega) (by omega) (by omega)]
          simp only [Except.map]
          congr 1; abel
        · have py' : ¬ 0 < 2 * (m : Int) - y := by omega
          simp only [px, py', and_false, if_true, if_false]
          rw [g m (2 * m - x - 1) (by omega) (by omega) (by omega) (by omega),
            g (m - 1) (2 * m - x - 1) (by omega) (by omega) (by omega) (by omega),
            boxSum_empty_y I (-1) m (-1) (2 * m - y - 1) (by omega),
            boxSum_empty_y I (-1) (m - 1) (-1) (2 * m - y - 1) (by omega),
            boxSum_empty_y I (-1) (2 * m - x - 1) (-1) (2 * m - y - 1) (by omega)]
          simp only [Except.map]
          congr 1; abel
        · have px' : ¬ 0 < 2 * (m : Int) - x := by omega
          simp only [py, px', false_and, if_true, if_false]
          rw [g (2 * m - y - 1) m (by omega) (by omega) (by omega) (by omega),
            g (2 * m - y - 1) (m - 1) (by omega) (by omega) (by omega) (by omega),
            boxSum_empty_x I (-1) (2 * m - x - 1) (-1) m (by omega),
            boxSum_empty_x I (-1) (2 * m - x - 1) (-1) (m - 1) (by omega),
            boxSum_empty_x I (-1) (2 * m - x - 1) (-1) (2 * m - y - 1) (by omega)]
          simp only [Except.map]
          congr 1; abel
        · have px' : ¬ 0 < 2 * (m : Int) - x := by omega
          have py' : ¬ 0 < 2 * (m : Int) - y := by omega
          simp only [px', py', false_and, if_false]
          rw [boxSum_empty_x I (-1) (2 * m - x - 1) (-1) m (by omega),
            boxSum_empty_x I (-1) (2 * m - x - 1) (-1) (m - 1) (by omega),
            boxSum_empty_x I (-1) (2 * m - x - 1) (-1) (2 * m - y - 1) (by omega),
            boxSum_empty_y I (-1) m (-1) (2 * m - y - 1) (by omega),
            boxSum_empty_y I (-1) (m - 1) (-1) (2 * m - y - 1) (by omega)]
          congr 1; abel

/-- A symmetric example, 5 x 5. -/
def exSym : Arr Int := ⟨5, 5, fun r c => (min r (4 - r) : Nat) * 10 + (min c (4 - c) : Nat)⟩

example : Mirror exSym 2 := by
  refine ⟨rfl, rfl, ?_, ?_⟩ <;> intro r c hr hc <;> simp only [exSym] <;> omega

example : Inside exSym.h exSym.w (0, 3, 1, 4) ∧
    symmRect (integralImage (quadrant exSym 3)) 0 3 1 4 2 = .ok 102 ∧
    intimgRect (integralImage exSym) 0 3 1 4 = .ok 102 ∧
    symmRef (integralImage (quadrant exSym 3)) 4 3 2 = .ok 216 ∧ (integralImage exSym).px 3 4 = 216 := by
  refine ⟨⟨?_, ?_, ?_, ?_, ?_, ?_⟩, ?_, ?_, ?_, ?_⟩ <;> decide +kernel

/-- The function's own assertion lets empty rectangles through, but the queries it makes do not: an empty
rectangle left of the midline is an AssertionError, one on the midline has sum zero. -/
theorem C47_empty_differs :
    symmRect (integralImage (quadrant exSym 3)) 1 1 0 1 2 = .error .assertion ∧
    symmRect (integralImage (quadrant exSym 3)) 2 2 0 1 2 = .ok 0 := by
  decide +kernel

end Verif.IntImg
