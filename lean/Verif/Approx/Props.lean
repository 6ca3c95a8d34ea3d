import Verif.Approx.LoopLemmas
import Verif.Patch.Lemmas
import Mathlib.Data.Rat.Defs
import Mathlib.Algebra.Order.Ring.Rat
import Mathlib.Algebra.Order.Ring.Abs

/-!
# C98: mixtures rendered down to a minimum value
-/

namespace Verif.Approx

open Verif.Patches (Patch slice_range)

variable {R : Type} [Zero R] [LinearOrder R]

/-- What is returned when the centre is in the box. -/
theorem run_inside (val0 val : Int → Int → R) (cx cy x0 x1 y0 y1 : Int) (minval : R) (minradius : Int) (doslice : Bool)
    (maxmargin : Int) (hc : Inside x0 x1 y0 y1 cy cx) (hm : 0 ≤ maxmargin) :
    ∃ res e, Done (⟨val, minval, minradius, ⟨x0, x1, y0, y1⟩, cx, cy⟩ : Job R) res e ∧
      gridApprox3 val0 val cx cy ⟨x0, x1, y0, y1⟩ minval minradius doslice maxmargin =
        let A : Arr R := ⟨(y1 - y0).toNat, (x1 - x0).toNat, fun r c => res (y0 + r) (x0 + c)⟩
        if doslice then
          .ok (some ⟨x0 + e.x0, y0 + e.y0, some (A.slice (some e.y0) (some (e.y1 + 1)) (some e.x0) (some (e.x1 + 1)))⟩)
        else .ok (some ⟨x0, y0, some A⟩) := by
  obtain ⟨res, e, hrun, hd⟩ := expand_ok (J := (⟨val, minval, minradius, ⟨x0, x1, y0, y1⟩, cx, cy⟩ : Job R)) hc
  obtain ⟨⟨h1, h2⟩, h3, h4⟩ := hc
  refine ⟨res, e, hd, ?_⟩
  have hs : startPixel val0 ⟨x0, x1, y0, y1⟩ cx cy = (cx, cy) := by
    unfold startPixel; rw [if_neg (by simp only []; omega)]
  unfold gridApprox3
  rw [if_neg (by simp only []; omega), if_neg (by simp only []; omega), hs]
  simp only []
  rw [if_neg (by omega), hrun]

/-- Without slicing the whole box is returned: the value in every pixel that is reached from the centre, and
zero in all others.  The number of rings needs no limit other than that given in the model. -/
theorem C98_grid (val0 val : Int → Int → R) (cx cy x0 x1 y0 y1 : Int) (minval : R) (minradius maxmargin : Int)
    (hc : Inside x0 x1 y0 y1 cy cx) (hm : 0 ≤ maxmargin) :
    ∃ A : Arr R, gridApprox3 val0 val cx cy ⟨x0, x1, y0, y1⟩ minval minradius false maxmargin = .ok (some ⟨x0, y0, some A⟩) ∧
      (A.h : Int) = y1 - y0 ∧ (A.w : Int) = x1 - x0 ∧
      ∀ y x, Inside x0 x1 y0 y1 y x →
        (Reached val minval minradius (Inside x0 x1 y0 y1) cy cx y x → A.px (y - y0).toNat (x - x0).toNat = val y x) ∧
        (¬ Reached val minval minradius (Inside x0 x1 y0 y1) cy cx y x → A.px (y - y0).toNat (x - x0).toNat = 0) := by
  obtain ⟨res, e, hd, hrun⟩ := run_inside val0 val cx cy x0 x1 y0 y1 minval minradius false maxmargin hc hm
  obtain ⟨⟨h1, h2⟩, h3, h4⟩ := hc
  refine ⟨_, hrun, by simp only []; omega, by simp only []; omega, fun y x hi => ?_⟩
  obtain ⟨⟨i1, i2⟩, i3, i4⟩ := hi
  simp only []
  rw [show y0 + ((y - y0).toNat : Int) = y by omega, show x0 + ((x - x0).toNat : Int) = x by omega]
  exact ⟨hd.hit y x, hd.miss y x⟩

/-- With slicing the part returned reaches, upwards, to the last ring whose top side (corners included) is reached from the centre, and
likewise downwards; to the left and right it is the last ring whose side without its corners is reached.  In it the pixels are
as without slicing. -/
theorem C98_slice_partial (val0 val : Int → Int → R) (cx cy x0 x1 y0 y1 : Int) (minval : R) (minradius maxmargin : Int)
    (hc : Inside x0 x1 y0 y1 cy cx) (hm : 0 ≤ maxmargin) :
    ∃ (A : Arr R) (nt nb nl nr : Int),
      gridApprox3 val0 val cx cy ⟨x0, x1, y0, y1⟩ minval minradius true maxmargin = .ok (some ⟨cx - nl, cy - nb, some A⟩) ∧
      (A.h : Int) = nb + nt + 1 ∧ (A.w : Int) = nl + nr + 1 ∧
      Greatest (fun k => ∃ x, Reached val minval minradius (Inside x0 x1 y0 y1) cy cx (cy + k) x ∧ ((x - cx).natAbs : Int) ≤ k) nt ∧
      Greatest (fun k => ∃ x, Reached val minval minradius (Inside x0 x1 y0 y1) cy cx (cy - k) x ∧ ((x - cx).natAbs : Int) ≤ k) nb ∧
      Greatest (fun k => ∃ y, Reached val minval minradius (Inside x0 x1 y0 y1) cy cx y (cx - k) ∧ ((y - cy).natAbs : Int) < k) nl ∧
      Greatest (fun k => ∃ y, Reached val minval minradius (Inside x0 x1 y0 y1) cy cx y (cx + k) ∧ ((y - cy).natAbs : Int) < k) nr ∧
      (x0 ≤ cx - nl ∧ cx + nr < x1) ∧ (y0 ≤ cy - nb ∧ cy + nt < y1) ∧
      ∀ y x, cy - nb ≤ y → y ≤ cy + nt → cx - nl ≤ x → x ≤ cx + nr →
        (Reached val minval minradius (Inside x0 x1 y0 y1) cy cx y x → A.px (y - (cy - nb)).toNat (x - (cx - nl)).toNat = val y x) ∧
        (¬ Reached val minval minradius (Inside x0 x1 y0 y1) cy cx y x → A.px (y - (cy - nb)).toNat (x - (cx - nl)).toNat = 0) := by
  obtain ⟨res, e, hd, hrun⟩ := run_inside val0 val cx cy x0 x1 y0 y1 minval minradius true maxmargin hc hm
  have hin : ∀ y x, Reached val minval minradius (Inside x0 x1 y0 y1) cy cx y x → Inside x0 x1 y0 y1 y x :=
    fun y x h => vis_inside (J := (⟨val, minval, minradius, ⟨x0, x1, y0, y1⟩, cx, cy⟩ : Job R)) hc h
  obtain ⟨hhit, hmiss, rad, hrad, ht, hb, hl, hr⟩ := hd
  obtain ⟨⟨h1, h2⟩, h3, h4⟩ := hc
  simp only [Job.Vis] at hrad ht hb hl hr hhit hmiss
  obtain ⟨nt, hnt⟩ : ∃ n, n = e.y1 - (cy - y0) := ⟨_, rfl⟩
  obtain ⟨nb, hnb⟩ : ∃ n, n = cy - y0 - e.y0 := ⟨_, rfl⟩
  obtain ⟨nl, hnl⟩ : ∃ n, n = cx - x0 - e.x0 := ⟨_, rfl⟩
  obtain ⟨nr, hnr⟩ : ∃ n, n = e.x1 - (cx - x0) := ⟨_, rfl⟩
  rw [← hnt] at ht
  rw [← hnb] at hb
  rw [← hnl] at hl
  rw [← hnr] at hr
  have bt : cy + nt < y1 := by
    by_cases h : 1 ≤ nt
    · obtain ⟨x, hv, -⟩ := ht.mem h; exact (hin _ _ hv).2.2
    · have := ht.lo; omega
  have bb : y0 ≤ cy - nb := by
    by_cases h : 1 ≤ nb
    · obtain ⟨x, hv, -⟩ := hb.mem h; exact (hin _ _ hv).2.1
    · have := hb.lo; omega
  have bl : x0 ≤ cx - nl := by
    by_cases h : 1 ≤ nl
    · obtain ⟨x, hv, -⟩ := hl.mem h; exact (hin _ _ hv).1.1
    · have := hl.lo; omega
  have br : cx + nr < x1 := by
    by_cases h : 1 ≤ nr
    · obtain ⟨x, hv, -⟩ := hr.mem h; exact (hin _ _ hv).1.2
    · have := hr.lo; omega
  have l1 := ht.lo
  have l2 := hb.lo
  have l3 := hl.lo
  have l4 := hr.lo
  rw [hrun]
  simp only [if_true]
  rw [slice_range _ _ _ _ _ (by omega) (by omega) (by simp only []; omega) (by omega) (by omega) (by simp only []; omega)]
  refine ⟨_, nt, nb, nl, nr, by rw [show x0 + e.x0 = cx - nl by omega, show y0 + e.y0 = cy - nb by omega],
    by simp only []; omega, by simp only []; omega, ⟨l1, ht.mem, fun k k1 hk => ?_⟩, ⟨l2, hb.mem, fun k k1 hk => ?_⟩,
    ⟨l3, hl.mem, fun k k1 hk => ?_⟩, ⟨l4, hr.mem, fun k k1 hk => ?_⟩, ⟨bl, br⟩, ⟨bb, bt⟩, fun y x i1 i2 i3 i4 => ?_⟩
  · refine ht.max k k1 ?_ hk
    obtain ⟨x, hv, hx⟩ := hk; have := hrad _ _ hv; unfold Job.far far at this; simp only [] at this; omega
  · refine hb.max k k1 ?_ hk
    obtain ⟨x, hv, hx⟩ := hk; have := hrad _ _ hv; unfold Job.far far at this; simp only [] at this; omega
  · refine hl.max k k1 ?_ hk
    obtain ⟨x, hv, hx⟩ := hk; have := hrad _ _ hv; unfold Job.far far at this; simp only [] at this; omega
  · refine hr.max k k1 ?_ hk
    obtain ⟨x, hv, hx⟩ := hk; have := hrad _ _ hv; unfold Job.far far at this; simp only [] at this; omega
  · simp only []
    rw [show y0 + ((e.y0.toNat + (y - (cy - nb)).toNat : Nat) : Int) = y by omega,
      show x0 + ((e.x0.toNat + (x - (cx - nl)).toNat : Nat) : Int) = x by omega]
    exact ⟨hhit y x, hmiss y x⟩

omit [Zero R] in
/-- Everything in the box up to one ring beyond minradius is reached. -/
theorem near_reached (val : Int → Int → R) (minval : R) (minradius cx cy x0 x1 y0 y1 : Int) (hc : Inside x0 x1 y0 y1 cy cx) :
    ∀ (n : Nat) (y x : Int), far cy cx y x = n → (n : Int) ≤ max minradius 0 + 1 → Inside x0 x1 y0 y1 y x →
      Reached val minval minradius (Inside x0 x1 y0 y1) cy cx y x
  | 0, y, x, hf, _, _ => by
    have : y = cy ∧ x = cx := by unfold far at hf; omega
    rw [this.1, this.2]; exact .centre
  | n + 1, y, x, hf, hn, hi => by
    obtain ⟨⟨i1, i2⟩, i3, i4⟩ := hi
    obtain ⟨⟨h1, h2⟩, h3, h4⟩ := hc
    obtain ⟨y', hy'⟩ : ∃ y', (y' = y ∧ (y - cy).natAbs ≤ n) ∨ (y' = y - 1 ∧ y - cy = n + 1) ∨ (y' = y + 1 ∧ cy - y = n + 1) := by
      unfold far at hf
      rcases (by omega : (y - cy).natAbs ≤ n ∨ y - cy = n + 1 ∨ cy - y = n + 1) with h | h | h
      · exact ⟨y, .inl ⟨rfl, h⟩⟩
      · exact ⟨y - 1, .inr (.inl ⟨rfl, h⟩)⟩
      · exact ⟨y + 1, .inr (.inr ⟨rfl, h⟩)⟩
    obtain ⟨x', hx'⟩ : ∃ x', (x' = x ∧ (x - cx).natAbs ≤ n) ∨ (x' = x - 1 ∧ x - cx = n + 1) ∨ (x' = x + 1 ∧ cx - x = n + 1) := by
      unfold far at hf
      rcases (by omega : (x - cx).natAbs ≤ n ∨ x - cx = n + 1 ∨ cx - x = n + 1) with h | h | h
      · exact ⟨x, .inl ⟨rfl, h⟩⟩
      · exact ⟨x - 1, .inr (.inl ⟨rfl, h⟩)⟩
      · exact ⟨x + 1, .inr (.inr ⟨rfl, h⟩)⟩
    have hf' : far cy cx y' x' = n := by unfold far at hf ⊢; omega
    refine .step (near_reached val minval minradius cx cy x0 x1 y0 y1 ⟨⟨h1, h2⟩, h3, h4⟩ n y' x' hf' (by omega) ?_) ?_ ?_ ?_ ?_
    · unfold Inside; omega
    · rw [hf']; omega
    · exact ⟨⟨i1, i2⟩, i3, i4⟩
    · unfold Adjacent; omega
    · rw [hf', hf]

/-- Every pixel of the box up to one ring beyond `minradius` (and beyond 0) is in the patch returned, sliced or not, and has its value. -/
theorem C98_near (val0 val : Int → Int → R) (cx cy x0 x1 y0 y1 : Int) (minval : R) (minradius maxmargin : Int) (doslice : Bool)
    (hc : Inside x0 x1 y0 y1 cy cx) (hm : 0 ≤ maxmargin) :
    ∃ (A : Arr R) (px py : Int),
      gridApprox3 val0 val cx cy ⟨x0, x1, y0, y1⟩ minval minradius doslice maxmargin = .ok (some ⟨px, py, some A⟩) ∧
      ∀ y x, Inside x0 x1 y0 y1 y x → (far cy cx y x : Int) ≤ max minradius 0 + 1 →
        Inside px (px + A.w) py (py + A.h) y x ∧ A.px (y - py).toNat (x - px).toNat = val y x := by
  have near := near_reached val minval minradius cx cy x0 x1 y0 y1 hc
  cases doslice with
  | false =>
    obtain ⟨A, hrun, hh, hw, hpx⟩ := C98_grid val0 val cx cy x0 x1 y0 y1 minval minradius maxmargin hc hm
    refine ⟨A, x0, y0, hrun, fun y x hi hf => ⟨?_, (hpx y x hi).1 (near _ y x rfl hf hi)⟩⟩
    unfold Inside at hi ⊢; omega
  | true =>
    obtain ⟨A, nt, nb, nl, nr, hrun, hh, hw, gt, gb, gl, gr, -, -, hpx⟩ :=
      C98_slice_partial val0 val cx cy x0 x1 y0 y1 minval minradius maxmargin hc hm
    refine ⟨A, _, _, hrun, fun y x hi hf => ?_⟩
    have hv := near _ y x rfl hf hi
    have hc' := hc
    obtain ⟨⟨h1, h2⟩, h3, h4⟩ := hc'
    have hi' := hi
    obtain ⟨⟨i1, i2⟩, i3, i4⟩ := hi'
    have g1 := gt.1
    have g2 := gb.1
    have g3 := gl.1
    have g4 := gr.1
    have b1 : y ≤ cy + nt := by
      by_cases h : 1 ≤ y - cy
      · have hf2 : (far cy cx y cx : Int) = y - cy := by unfold far; omega
        have := gt.2.2 (y - cy) h ⟨cx, by
          rw [show cy + (y - cy) = y by omega]
          exact near _ y cx rfl (by unfold far at hf hf2 ⊢; omega) ⟨⟨h1, h2⟩, i3, i4⟩, by omega⟩
        omega
      · omega
    have b2 : cy - nb ≤ y := by
      by_cases h : 1 ≤ cy - y
      · have hf2 : (far cy cx y cx : Int) = cy - y := by unfold far; omega
        have := gb.2.2 (cy - y) h ⟨cx, by
          rw [show cy - (cy - y) = y by omega]
          exact near _ y cx rfl (by unfold far at hf hf2 ⊢; omega) ⟨⟨h1, h2⟩, i3, i4⟩, by omega⟩
        omega
      · omega
    have b3 : x ≤ cx + nr := by
      by_cases h : 1 ≤ x - cx
      · have hf2 : (far cy cx cy x : Int) = x - cx := by unfold far; omega
        have := gr.2.2 (x - cx) h ⟨cy, by
          rw [show cx + (x - cx) = x by omega]
          exact near _ cy x rfl (by unfold far at hf hf2 ⊢; omega) ⟨⟨i1, i2⟩, h3, h4⟩, by omega⟩
        omega
      · omega
    have b4 : cx - nl ≤ x := by
      by_cases h : 1 ≤ cx - x
      · have hf2 : (far cy cx cy x : Int) = cx - x := by unfold far; omega
        have := gl.2.2 (cx - x) h ⟨cy, by
          rw [show cx - (cx - x) = x by omega]
          exact near _ cy x rfl (by unfold far at hf hf2 ⊢; omega) ⟨⟨i1, i2⟩, h3, h4⟩, by omega⟩
        omega
      · omega
    exact ⟨by unfold Inside; omega, (hpx y x b2 b1 b4 b3).1 hv⟩

/-- The pixels returned. -/
def view (g : Except PyErr (Option (Patch Int))) : List (List Int) :=
  match g with
  | .ok (some ⟨_, _, some A⟩) => A.toLists
  | _ => []

def exLine (y x : Int) : Int := 10 - (x + y) ^ 2 - (x - y) ^ 2 / 4

/-- A tilted source in a box: pixels beyond those below 1 are not reached. -/
example : view (gridApprox3 exLine exLine 0 0 ⟨-4, 5, -3, 4⟩ 1 1 false 100) =
    [[0, 0, -15, -7, -1, 2, 3, 1, -3], [0, -15, -6, 1, 5, 7, 6, 3, -3], [0, -7, 1, 6, 9, 9, 7, 2, -5],
     [-10, -1, 5, 9, 10, 9, 5, -1, -10], [-5, 2, 7, 9, 9, 6, 1, -7, 0], [-3, 3, 6, 7, 5, 1, -6, -15, 0],
     [-3, 1, 3, 2, -1, -7, -15, 0, 0]] := by decide +kernel

/-- One whose slice is smaller than the box. -/
example : view (gridApprox3 (fun y x => 5 - 2 * x ^ 2 - 4 * y ^ 2) (fun y x => 5 - 2 * x ^ 2 - 4 * y ^ 2) 0 0 ⟨-4, 5, -3, 4⟩ 3 0 true 100) =
    [[-7, -1, 1, -1, -7], [-3, 3, 5, 3, -3], [-7, -1, 1, -1, -7]] := by decide +kernel

end Verif.Approx
