import Verif.Approx.Props
import Mathlib.Tactic.Linarith
import Mathlib.Tactic.IntervalCases
import Mathlib.Tactic.NormNum
import Mathlib.Tactic.Push
import Mathlib.Algebra.Order.Ring.Int
import Mathlib.Data.Int.Cast.Lemmas
import Mathlib.Algebra.Order.Ring.Cast

/-!
# C98: sources that fall off along rows and columns, and one that does not
-/

namespace Verif.Approx

open Verif.Patches (Patch)

variable {R : Type} [Zero R] [LinearOrder R]
variable {F : Type} [Field F] [LinearOrder F] [IsStrictOrderedRing F]

/-- Going towards the truncated mean, along an axis and from at least two pixels away, is going towards the mean. -/
theorem closer (m : F) (c i j : Int) (hm : |m - c| < 1) (h : (c + 1 ≤ j ∧ j ≤ i) ∨ (i ≤ j ∧ j ≤ c - 1)) :
    |(j : F) - m| ≤ |(i : F) - m| := by
  rw [abs_lt] at hm
  obtain ⟨m1, m2⟩ := hm
  rcases h with ⟨h1, h2⟩ | ⟨h1, h2⟩
  · have a1 : (c : F) + 1 ≤ j := by exact_mod_cast h1
    have a2 : (j : F) ≤ i := by exact_mod_cast h2
    rw [abs_of_nonneg (by linarith), abs_of_nonneg (by linarith)]; linarith
  · have a1 : (i : F) ≤ j := by exact_mod_cast h1
    have a2 : (j : F) ≤ c - 1 := by
      have : ((j : Int) : F) ≤ ((c - 1 : Int) : F) := by exact_mod_cast h2
      push_cast at this; exact this
    rw [abs_of_nonpos (by linarith), abs_of_nonpos (by linarith)]; linarith

omit [Zero R] in
theorem bright_reached (val : Int → Int → R) (minval : R) (minradius cx cy x0 x1 y0 y1 : Int) (hc : Inside x0 x1 y0 y1 cy cx)
    (mx my : F) (hmx : |mx - cx| < 1) (hmy : |my - cy| < 1)
    (hx : ∀ y x x' : Int, |(x' : F) - mx| ≤ |(x : F) - mx| → val y x ≤ val y x')
    (hy : ∀ y y' x : Int, |(y' : F) - my| ≤ |(y : F) - my| → val y x ≤ val y' x) :
    ∀ (n : Nat) (y x : Int), far cy cx y x = n → minval ≤ val y x → Inside x0 x1 y0 y1 y x →
      Reached val minval minradius (Inside x0 x1 y0 y1) cy cx y x
  | 0, y, x, hf, _, hi => near_reached val minval minradius cx cy x0 x1 y0 y1 hc 0 y x hf (by omega) hi
  | 1, y, x, hf, _, hi => near_reached val minval minradius cx cy x0 x1 y0 y1 hc 1 y x hf (by omega) hi
  | n + 2, y, x, hf, hn, hi => by
    obtain ⟨⟨i1, i2⟩, i3, i4⟩ := hi
    obtain ⟨⟨h1, h2⟩, h3, h4⟩ := hc
    obtain ⟨y', hy'⟩ : ∃ y', (y' = y ∧ (y - cy).natAbs ≤ n + 1) ∨ (y' = y - 1 ∧ y - cy = n + 2) ∨ (y' = y + 1 ∧ cy - y = n + 2) := by
      unfold far at hf
      rcases (by omega : (y - cy).natAbs ≤ n + 1 ∨ y - cy = n + 2 ∨ cy - y = n + 2) with h | h | h
      · exact ⟨y, .inl ⟨rfl, h⟩⟩
      · exact ⟨y - 1, .inr (.inl ⟨rfl, h⟩)⟩
      · exact ⟨y + 1, .inr (.inr ⟨rfl, h⟩)⟩
    obtain ⟨x', hx'⟩ : ∃ x', (x' = x ∧ (x - cx).natAbs ≤ n + 1) ∨ (x' = x - 1 ∧ x - cx = n + 2) ∨ (x' = x + 1 ∧ cx - x = n + 2) := by
      unfold far at hf
      rcases (by omega : (x - cx).natAbs ≤ n + 1 ∨ x - cx = n + 2 ∨ cx - x = n + 2) with h | h | h
      · exact ⟨x, .inl ⟨rfl, h⟩⟩
      · exact ⟨x - 1, .inr (.inl ⟨rfl, h⟩)⟩
      · exact ⟨x + 1, .inr (.inr ⟨rfl, h⟩)⟩
    have hf' : far cy cx y' x' = n + 1 := by unfold far at hf ⊢; omega
    have v1 : val y x ≤ val y x' := by
      rcases hx' with ⟨rfl, -⟩ | h | h
      · exact le_refl _
      · exact hx y x x' (closer mx cx x x' hmx (by omega))
      · exact hx y x x' (closer mx cx x x' hmx (by omega))
    have v2 : val y x' ≤ val y' x' := by
      rcases hy' with ⟨rfl, -⟩ | h | h
      · exact le_refl _
      · exact hy y y' x' (closer my cy y y' hmy (by omega))
      · exact hy y y' x' (closer my cy y y' hmy (by omega))
    have hb : minval ≤ val y' x' := le_trans hn (le_trans v1 v2)
    refine .step (bright_reached val minval minradius cx cy x0 x1 y0 y1 ⟨⟨h1, h2⟩, h3, h4⟩ mx my hmx hmy hx hy (n + 1) y' x' hf' hb ?_)
      (.inr (.inr hb)) ⟨⟨i1, i2⟩, i3, i4⟩ ?_ ?_
    · unfold Inside; omega
    · unfold Adjacent; omega
    · rw [hf', hf]

/-- For a source whose value does not increase away from its mean along rows and along columns, the patch returned (sliced or not) has the value
of every pixel of the box that is not below `minval`, and all its pixels have either their value or, only where that is below
`minval`, zero. -/
theorem C98_falling (val0 val : Int → Int → R) (cx cy x0 x1 y0 y1 : Int) (minval : R) (minradius maxmargin : Int) (doslice : Bool)
    (hc : Inside x0 x1 y0 y1 cy cx) (hm : 0 ≤ maxmargin) (mx my : F) (hmx : |mx - cx| < 1) (hmy : |my - cy| < 1)
    (hx : ∀ y x x' : Int, |(x' : F) - mx| ≤ |(x : F) - mx| → val y x ≤ val y x')
    (hy : ∀ y y' x : Int, |(y' : F) - my| ≤ |(y : F) - my| → val y x ≤ val y' x) :
    ∃ (A : Arr R) (px py : Int),
      gridApprox3 val0 val cx cy ⟨x0, x1, y0, y1⟩ minval minradius doslice maxmargin = .ok (some ⟨px, py, some A⟩) ∧
      (∀ y x, Inside px (px + A.w) py (py + A.h) y x → Inside x0 x1 y0 y1 y x ∧
        (A.px (y - py).toNat (x - px).toNat = val y x ∨ (A.px (y - py).toNat (x - px).toNat = 0 ∧ val y x < minval))) ∧
      ∀ y x, Inside x0 x1 y0 y1 y x → minval ≤ val y x →
        Inside px (px + A.w) py (py + A.h) y x ∧ A.px (y - py).toNat (x - px).toNat = val y x := by
  have bright := bright_reached val minval minradius cx cy x0 x1 y0 y1 hc mx my hmx hmy hx hy
  have near := near_reached val minval minradius cx cy x0 x1 y0 y1 hc
  have either : ∀ y x (v : R), Inside x0 x1 y0 y1 y x →
      (Reached val minval minradius (Inside x0 x1 y0 y1) cy cx y x → v = val y x) →
      (¬ Reached val minval minradius (Inside x0 x1 y0 y1) cy cx y x → v = 0) → v = val y x ∨ (v = 0 ∧ val y x < minval) := by
    intro y x v hi h1 h2
    by_cases h : Reached val minval minradius (Inside x0 x1 y0 y1) cy cx y x
    · exact .inl (h1 h)
    · refine .inr ⟨h2 h, ?_⟩
      by_contra hb
      exact h (bright _ y x rfl (not_lt.mp hb) hi)
  cases doslice with
  | false =>
    obtain ⟨A, hrun, hh, hw, hpx⟩ := C98_grid val0 val cx cy x0 x1 y0 y1 minval minradius maxmargin hc hm
    have heq : ∀ y x, Inside x0 (x0 + A.w) y0 (y0 + A.h) y x ↔ Inside x0 x1 y0 y1 y x := by
      intro y x; unfold Inside; omega
    refine ⟨A, x0, y0, hrun, fun y x hi => ?_, fun y x hi hb => ?_⟩
    · rw [heq] at hi
      exact ⟨hi, either y x _ hi (hpx y x hi).1 (hpx y x hi).2⟩
    · exact ⟨(heq y x).mpr hi, (hpx y x hi).1 (bright _ y x rfl hb hi)⟩
  | true =>
    obtain ⟨A, nt, nb, nl, nr, hrun, hh, hw, gt, gb, gl, gr, bx, bY, hpx⟩ :=
      C98_slice_partial val0 val cx cy x0 x1 y0 y1 minval minradius maxmargin hc hm
    refine ⟨A, _, _, hrun, fun y x hi => ?_, fun y x hi hb => ?_⟩
    · have hi2 : Inside x0 x1 y0 y1 y x := by unfold Inside at hi ⊢; omega
      have := hpx y x (by unfold Inside at hi; omega) (by unfold Inside at hi; omega) (by unfold Inside at hi; omega)
        (by unfold Inside at hi; omega)
      exact ⟨hi2, either y x _ hi2 this.1 this.2⟩
    have hv := bright _ y x rfl hb hi
    have hc' := hc
    obtain ⟨⟨h1, h2⟩, h3, h4⟩ := hc'
    have hi' := hi
    obtain ⟨⟨i1, i2⟩, i3, i4⟩ := hi'
    have g1 := gt.1
    have g2 := gb.1
    have g3 := gl.1
    have g4 := gr.1
    -- along the row to the ring of the row
    have row : ∀ k : Int, 1 ≤ k → ∃ x' : Int, minval ≤ val y x' ∧ (x' - cx).natAbs ≤ k ∧ x0 ≤ x' ∧ x' < x1 := by
      intro k hk
      rcases (by omega : ((x - cx).natAbs : Int) ≤ k ∨ k < x - cx ∨ k < cx - x) with h | h | h
      · exact ⟨x, hb, h, i1, i2⟩
      · exact ⟨cx + k, le_trans hb (hx y x _ (closer mx cx x _ hmx (by omega))), by omega, by omega, by omega⟩
      · exact ⟨cx - k, le_trans hb (hx y x _ (closer mx cx x _ hmx (by omega))), by omega, by omega, by omega⟩
    have col : ∀ k : Int, 2 ≤ k → ∃ y' : Int, minval ≤ val y' x ∧ (y' - cy).natAbs < k ∧ y0 ≤ y' ∧ y' < y1 := by
      intro k hk
      rcases (by omega : ((y - cy).natAbs : Int) < k ∨ k ≤ y - cy ∨ k ≤ cy - y) with h | h | h
      · exact ⟨y, hb, h, i3, i4⟩
      · exact ⟨cy + (k - 1), le_trans hb (hy y _ x (closer my cy y _ hmy (by omega))), by omega, by omega, by omega⟩
      · exact ⟨cy - (k - 1), le_trans hb (hy y _ x (closer my cy y _ hmy (by omega))), by omega, by omega, by omega⟩
    have b1 : y ≤ cy + nt := by
      by_cases h : 1 ≤ y - cy
      · obtain ⟨x', v', d', e1, e2⟩ := row (y - cy) h
        have := gt.2.2 (y - cy) h ⟨x', by
          rw [show cy + (y - cy) = y by omega]; exact bright _ y x' rfl v' ⟨⟨e1, e2⟩, i3, i4⟩, d'⟩
        omega
      · omega
    have b2 : cy - nb ≤ y := by
      by_cases h : 1 ≤ cy - y
      · obtain ⟨x', v', d', e1, e2⟩ := row (cy - y) h
        have := gb.2.2 (cy - y) h ⟨x', by
          rw [show cy - (cy - y) = y by omega]; exact bright _ y x' rfl v' ⟨⟨e1, e2⟩, i3, i4⟩, d'⟩
        omega
      · omega
    have b3 : x ≤ cx + nr := by
      by_cases h : 1 ≤ x - cx
      · have := gr.2.2 (x - cx) h (by
          simp only [show cx + (x - cx) = x by omega]
          by_cases h2 : x - cx = 1
          · exact ⟨cy, near _ cy x rfl (by unfold far; omega) ⟨⟨i1, i2⟩, h3, h4⟩, by omega⟩
          · obtain ⟨y', v', d', e1, e2⟩ := col (x - cx) (by omega)
            exact ⟨y', bright _ y' x rfl v' ⟨⟨i1, i2⟩, e1, e2⟩, d'⟩)
        omega
      · omega
    have b4 : cx - nl ≤ x := by
      by_cases h : 1 ≤ cx - x
      · have := gl.2.2 (cx - x) h (by
          simp only [show cx - (cx - x) = x by omega]
          by_cases h2 : cx - x = 1
          · exact ⟨cy, near _ cy x rfl (by unfold far; omega) ⟨⟨i1, i2⟩, h3, h4⟩, by omega⟩
          · obtain ⟨y', v', d', e1, e2⟩ := col (cx - x) (by omega)
            exact ⟨y', bright _ y' x rfl v' ⟨⟨i1, i2⟩, e1, e2⟩, d'⟩)
        omega
      · omega
    exact ⟨by unfold Inside; omega, (hpx y x b2 b1 b4 b3).1 hv⟩

/-- A source at (2.7, 1.2), for which the conditions hold. -/
example : (∀ y x x' : Int, |(x' : ℚ) - 27 / 10| ≤ |(x : ℚ) - 27 / 10| →
      (100 - ((x : ℚ) - 27 / 10) ^ 2 - 2 * ((y : ℚ) - 6 / 5) ^ 2 : ℚ) ≤ 100 - ((x' : ℚ) - 27 / 10) ^ 2 - 2 * ((y : ℚ) - 6 / 5) ^ 2) ∧
    |(27 / 10 : ℚ) - (2 : Int)| < 1 ∧ |(6 / 5 : ℚ) - (1 : Int)| < 1 := by
  refine ⟨fun y x x' h => ?_, by rw [abs_lt]; constructor <;> norm_num, by rw [abs_lt]; constructor <;> norm_num⟩
  have := sq_le_sq.mpr h
  linarith

/-- A narrow source tilted so that it rises steeply to the left. -/
def tilted (y x : Int) : Int := 100 * 100 - (100 * (4 * x + y) ^ 2 + (4 * y - x) ^ 2)

theorem tilted_reached : ∀ n : Nat, n ≤ 5 → ∀ m : Nat, m ≤ 3 → n * 4 + m ≤ 20 →
    Reached tilted 0 3 (Inside (-30) 30 (-30) 30) 0 0 (4 * n + m) (-n) := by
  intro n
  induction n with
  | zero =>
    intro _ m
    induction m with
    | zero => intro _ _; simpa using Reached.centre
    | succ m ih =>
      intro h1 h2
      have := ih (by omega) (by omega)
      refine .step this (.inr (.inl ?_)) ?_ ?_ ?_
      · unfold far; omega
      · unfold Inside; omega
      · unfold Adjacent; omega
      · unfold far; omega
  | succ n ih =>
    intro h1 m
    induction m with
    | zero =>
      intro _ h2
      have := ih (by omega) 3 (by omega) (by omega)
      refine .step this (.inr (.inr ?_)) ?_ ?_ ?_
      · have hn : n ≤ 4 := by omega
        clear * - hn
        interval_cases n <;> decide
      · unfold Inside; omega
      · unfold Adjacent; omega
      · unfold far; omega
    | succ m ih2 =>
      intro h3 h2
      have := ih2 (by omega) (by omega)
      refine .step this (.inr (.inr ?_)) ?_ ?_ ?_
      · have hn : n ≤ 3 := by omega
        have hm : m ≤ 2 := by omega
        clear * - hn hm
        interval_cases n <;> interval_cases m <;> decide
      · unfold Inside; omega
      · unfold Adjacent; omega
      · unfold far; omega

/-- From column -5 on only pixels above or below the diagonals are reached. -/
theorem tilted_side : ∀ y x, Reached tilted 0 3 (Inside (-30) 30 (-30) 30) 0 0 y x → x ≤ -5 → -x < (y.natAbs : Int) := by
  intro y x h
  induction h with
  | centre => intro h; omega
  | @step y x y' x' h hp hi ha hf ih =>
    intro hx'
    by_contra hn
    unfold far at hf hp
    unfold Adjacent at ha
    have hx : x = x' + 1 := by omega
    have hxy : (y.natAbs : Int) ≤ -x := by omega
    by_cases h5 : x ≤ -5
    · have := ih h5; omega
    · have h4 : x = -4 := by omega
      subst h4
      rcases hp with hp | hp | hp
      · omega
      · omega
      · have y1 : -4 ≤ y := by omega
        have y2 : y ≤ 4 := by omega
        clear * - hp y1 y2
        interval_cases y <;> revert hp <;> decide

/-- The bounding box of the non-zero pixels is not what is returned: with the default minradius of 3 the pixel (row 20, column -5) of
this source has the value 2775, above minval, and is evaluated, but the patch returned ends at column -4. -/
theorem C98_slice_false :
    (∃ A, gridApprox3 tilted tilted 0 0 ⟨-30, 30, -30, 30⟩ 0 3 false 100 = .ok (some ⟨-30, -30, some A⟩) ∧ A.px 50 25 = 2775) ∧
    ∃ p, gridApprox3 tilted tilted 0 0 ⟨-30, 30, -30, 30⟩ 0 3 true 100 = .ok (some p) ∧ -4 ≤ p.x0 := by
  have hc : Inside (-30) 30 (-30) 30 0 0 := by unfold Inside; omega
  constructor
  · obtain ⟨A, hrun, -, -, hpx⟩ := C98_grid tilted tilted 0 0 (-30) 30 (-30) 30 0 3 100 hc (by omega)
    refine ⟨A, hrun, ?_⟩
    have := (hpx 20 (-5) (by unfold Inside; omega)).1 (tilted_reached 5 (by omega) 0 (by omega) (by omega))
    rw [show A.px 50 25 = tilted 20 (-5) from this]; decide
  · obtain ⟨A, nt, nb, nl, nr, hrun, -, -, -, -, gl, -⟩ := C98_slice_partial tilted tilted 0 0 (-30) 30 (-30) 30 0 3 100 hc (by omega)
    refine ⟨_, hrun, ?_⟩
    simp only []
    by_contra hn
    obtain ⟨y, hv, hy⟩ := gl.2.1 (by omega)
    have := tilted_side _ _ hv
    omega

end Verif.Approx
