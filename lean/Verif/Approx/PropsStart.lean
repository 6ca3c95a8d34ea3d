import Verif.Approx.Props

/-!
# C98: sources centred outside the box
-/

namespace Verif.Approx

open Verif.Patches (Patch)

variable {R : Type} [Zero R] [LinearOrder R]

omit [Zero R] in
/-- Searching an edge: the best so far stays unless a pixel of the edge is brighter. -/
theorem scan_ok (val0 : Int → Int → R) (pix : Int → Int × Int) : ∀ (l : List Int) (b : R × Int × Int),
    b.1 ≤ (scanEdge val0 pix l b).1 ∧ (∀ i ∈ l, val0 (pix i).2 (pix i).1 ≤ (scanEdge val0 pix l b).1) ∧
    (scanEdge val0 pix l b = b ∨ ∃ i ∈ l, (scanEdge val0 pix l b).2 = pix i ∧
      (scanEdge val0 pix l b).1 = val0 (pix i).2 (pix i).1 ∧ b.1 < val0 (pix i).2 (pix i).1)
  | [], b => ⟨le_refl _, by simp, .inl rfl⟩
  | i :: l, b => by
    have hrun : scanEdge val0 pix (i :: l) b =
        scanEdge val0 pix l (if val0 (pix i).2 (pix i).1 > b.1 then (val0 (pix i).2 (pix i).1, (pix i).1, (pix i).2) else b) := rfl
    rw [hrun]
    by_cases h : val0 (pix i).2 (pix i).1 > b.1
    · rw [if_pos h]
      obtain ⟨h1, h2, h3⟩ := scan_ok val0 pix l (val0 (pix i).2 (pix i).1, (pix i).1, (pix i).2)
      refine ⟨le_trans (le_of_lt h) h1, ?_, .inr ?_⟩
      · intro j hj
        rcases List.mem_cons.mp hj with rfl | hj
        · exact h1
        · exact h2 j hj
      · rcases h3 with h3 | ⟨j, hj, e1, e2, e3⟩
        · exact ⟨i, by simp, by rw [h3], by rw [h3], h⟩
        · exact ⟨j, by simp [hj], e1, e2, lt_trans h e3⟩
    · rw [if_neg h]
      obtain ⟨h1, h2, h3⟩ := scan_ok val0 pix l b
      refine ⟨h1, ?_, ?_⟩
      · intro j hj
        rcases List.mem_cons.mp hj with rfl | hj
        · exact le_trans (not_lt.mp h) h1
        · exact h2 j hj
      · rcases h3 with h3 | ⟨j, hj, e⟩
        · exact .inl h3
        · exact .inr ⟨j, by simp [hj], e⟩

/-- The pixels on the edge or edges of the box facing the pixel `(cy, cx)` outside it. -/
def Facing (x0 x1 y0 y1 cy cx y x : Int) : Prop :=
  Inside x0 x1 y0 y1 y x ∧ ((cx < x0 ∧ x = x0) ∨ (x1 ≤ cx ∧ x = x1 - 1) ∨ (cy < y0 ∧ y = y0) ∨ (y1 ≤ cy ∧ y = y1 - 1))

theorem start_ok (val0 : Int → Int → R) (cx cy x0 x1 y0 y1 : Int) (hout : ¬ Inside x0 x1 y0 y1 cy cx) (hx : x0 < x1) (hy : y0 < y1) :
    (∃ y x, Facing x0 x1 y0 y1 cy cx y x ∧ 0 < val0 y x ∧ startPixel val0 ⟨x0, x1, y0, y1⟩ cx cy = (x, y) ∧
      ∀ y' x', Facing x0 x1 y0 y1 cy cx y' x' → val0 y' x' ≤ val0 y x) ∨
    ((∀ y x, Facing x0 x1 y0 y1 cy cx y x → val0 y x ≤ 0) ∧
      startPixel val0 ⟨x0, x1, y0, y1⟩ cx cy = ((x0 + x1).tdiv 2, (y0 + y1).tdiv 2)) := by
  obtain ⟨b0, hb0⟩ : ∃ b : R × Int × Int, b = (0, (x0 + x1).tdiv 2, (y0 + y1).tdiv 2) := ⟨_, rfl⟩
  obtain ⟨b1, hb1⟩ : ∃ b, b = if cx < x0 ∨ cx ≥ x1 then
      scanEdge val0 (fun iy => (if cx < x0 then x0 else x1 - 1, iy)) (span y0 y1) b0 else b0 := ⟨_, rfl⟩
  obtain ⟨b2, hb2⟩ : ∃ b, b = if cy < y0 ∨ cy ≥ y1 then
      scanEdge val0 (fun ix => (ix, if cy < y0 then y0 else y1 - 1)) (span x0 x1) b1 else b1 := ⟨_, rfl⟩
  have hrun : startPixel val0 ⟨x0, x1, y0, y1⟩ cx cy = (b2.2.1, b2.2.2) := by
    unfold startPixel
    rw [if_pos (by unfold Inside at hout; simp only []; omega)]
    rw [hb2, hb1, hb0]
  -- each search
  have s1 : b0.1 ≤ b1.1 ∧ (∀ y x, Inside x0 x1 y0 y1 y x → ((cx < x0 ∧ x = x0) ∨ (x1 ≤ cx ∧ x = x1 - 1)) → val0 y x ≤ b1.1) ∧
      (b1 = b0 ∨ ∃ y x, Facing x0 x1 y0 y1 cy cx y x ∧ b1 = (val0 y x, x, y) ∧ b0.1 < val0 y x) := by
    by_cases h : cx < x0 ∨ cx ≥ x1
    · rw [if_pos h] at hb1
      obtain ⟨h1, h2, h3⟩ := scan_ok val0 (fun iy => (if cx < x0 then x0 else x1 - 1, iy)) (span y0 y1) b0
      rw [← hb1] at h1 h2 h3
      refine ⟨h1, fun y x hi hf => ?_, ?_⟩
      · have := h2 y ((mem_span _ _ _).mpr hi.2)
        simp only [] at this
        rcases hf with ⟨hf, rfl⟩ | ⟨hf, rfl⟩
        · rwa [if_pos hf] at this
        · rwa [if_neg (by omega)] at this
      · rcases h3 with h3 | ⟨i, hi, e1, e2, e3⟩
        · exact .inl h3
        · refine .inr ⟨i, if cx < x0 then x0 else x1 - 1, ⟨?_, ?_⟩, ?_, e3⟩
          · have := (mem_span _ _ _).mp hi; unfold Inside; split_ifs <;> omega
          · split_ifs <;> omega
          · exact Prod.ext e2 e1
    · rw [if_neg h] at hb1
      refine ⟨by rw [hb1], fun y x _ hf => by omega, .inl hb1⟩
  have s2 : b1.1 ≤ b2.1 ∧ (∀ y x, Inside x0 x1 y0 y1 y x → ((cy < y0 ∧ y = y0) ∨ (y1 ≤ cy ∧ y = y1 - 1)) → val0 y x ≤ b2.1) ∧
      (b2 = b1 ∨ ∃ y x, Facing x0 x1 y0 y1 cy cx y x ∧ b2 = (val0 y x, x, y) ∧ b1.1 < val0 y x) := by
    by_cases h : cy < y0 ∨ cy ≥ y1
    · rw [if_pos h] at hb2
      obtain ⟨h1, h2, h3⟩ := scan_ok val0 (fun ix => (ix, if cy < y0 then y0 else y1 - 1)) (span x0 x1) b1
      rw [← hb2] at h1 h2 h3
      refine ⟨h1, fun y x hi hf => ?_, ?_⟩
      · have := h2 x ((mem_span _ _ _).mpr hi.1)
        simp only [] at this
        rcases hf with ⟨hf, rfl⟩ | ⟨hf, rfl⟩
        · rwa [if_pos hf] at this
        · rwa [if_neg (by omega)] at this
      · rcases h3 with h3 | ⟨i, hi, e1, e2, e3⟩
        · exact .inl h3
        · refine .inr ⟨if cy < y0 then y0 else y1 - 1, i, ⟨?_, ?_⟩, ?_, e3⟩
          · have := (mem_span _ _ _).mp hi; unfold Inside; split_ifs <;> omega
          · split_ifs <;> omega
          · exact Prod.ext e2 e1
    · rw [if_neg h] at hb2
      refine ⟨by rw [hb2], fun y x _ hf => by omega, .inl hb2⟩
  have all : ∀ y x, Facing x0 x1 y0 y1 cy cx y x → val0 y x ≤ b2.1 := by
    rintro y x ⟨hi, hf⟩
    rcases (by tauto : ((cx < x0 ∧ x = x0) ∨ (x1 ≤ cx ∧ x = x1 - 1)) ∨ ((cy < y0 ∧ y = y0) ∨ (y1 ≤ cy ∧ y = y1 - 1))) with h | h
    · exact le_trans (s1.2.1 y x hi h) s2.1
    · exact s2.2.1 y x hi h
  have h00 : b0.1 = 0 := by rw [hb0]
  rcases s2.2.2 with h2 | ⟨y, x, hf, he, hl⟩
  · rcases s1.2.2 with h1 | ⟨y, x, hf, he, hl⟩
    · right
      rw [h2, h1, hb0] at hrun all
      exact ⟨all, hrun⟩
    · left
      rw [h2, he] at hrun all
      exact ⟨y, x, hf, by rw [← h00]; exact hl, hrun, all⟩
  · left
    rw [he] at hrun all
    refine ⟨y, x, hf, ?_, hrun, all⟩
    have := s1.1
    rw [h00] at this
    exact lt_of_le_of_lt this hl

/-- Starting elsewhere is rendering with that centre. -/
theorem run_from (val0 val : Int → Int → R) (cx cy sx sy x0 x1 y0 y1 : Int) (minval : R) (minradius maxmargin : Int) (doslice : Bool)
    (hs : startPixel val0 ⟨x0, x1, y0, y1⟩ cx cy = (sx, sy)) (hin : Inside x0 x1 y0 y1 sy sx)
    (hmx : x0 - maxmargin ≤ cx ∧ cx ≤ x1 + maxmargin) (hmy : y0 - maxmargin ≤ cy ∧ cy ≤ y1 + maxmargin) (hm : 0 ≤ maxmargin) :
    gridApprox3 val0 val cx cy ⟨x0, x1, y0, y1⟩ minval minradius doslice maxmargin =
      gridApprox3 val0 val sx sy ⟨x0, x1, y0, y1⟩ minval minradius doslice maxmargin := by
  obtain ⟨⟨h1, h2⟩, h3, h4⟩ := hin
  have hs' : startPixel val0 ⟨x0, x1, y0, y1⟩ sx sy = (sx, sy) := by
    unfold startPixel; rw [if_neg (by simp only []; omega)]
  unfold gridApprox3
  rw [if_neg (by simp only []; omega), if_neg (by simp only []; omega), if_neg (by simp only []; omega),
    if_neg (by simp only []; omega), hs, hs']

/-- No model of a source centred more than `maxmargin` pixels outside the box. -/
theorem C98_margin (val0 val : Int → Int → R) (cx cy x0 x1 y0 y1 : Int) (minval : R) (minradius maxmargin : Int) (doslice : Bool)
    (hx : x0 < x1) (hy : y0 < y1) :
    gridApprox3 val0 val cx cy ⟨x0, x1, y0, y1⟩ minval minradius doslice maxmargin = .ok none ↔
      ¬ ((x0 - maxmargin ≤ cx ∧ cx ≤ x1 + maxmargin) ∧ (y0 - maxmargin ≤ cy ∧ cy ≤ y1 + maxmargin)) := by
  constructor
  · intro h hin
    unfold gridApprox3 at h
    rw [if_neg (by simp only []; omega), if_neg (by simp only []; omega)] at h
    simp only [] at h
    split_ifs at h with h5
    · have hin : Inside x0 x1 y0 y1 (startPixel val0 ⟨x0, x1, y0, y1⟩ cx cy).2 (startPixel val0 ⟨x0, x1, y0, y1⟩ cx cy).1 := by
        unfold Inside; omega
      obtain ⟨res, e, hrun, -⟩ := expand_ok (J := (⟨val, minval, minradius, ⟨x0, x1, y0, y1⟩,
        (startPixel val0 ⟨x0, x1, y0, y1⟩ cx cy).1, (startPixel val0 ⟨x0, x1, y0, y1⟩ cx cy).2⟩ : Job R)) hin
      rw [hrun] at h
      simp at h
    · have hin : Inside x0 x1 y0 y1 (startPixel val0 ⟨x0, x1, y0, y1⟩ cx cy).2 (startPixel val0 ⟨x0, x1, y0, y1⟩ cx cy).1 := by
        unfold Inside; omega
      obtain ⟨res, e, hrun, -⟩ := expand_ok (J := (⟨val, minval, minradius, ⟨x0, x1, y0, y1⟩,
        (startPixel val0 ⟨x0, x1, y0, y1⟩ cx cy).1, (startPixel val0 ⟨x0, x1, y0, y1⟩ cx cy).2⟩ : Job R)) hin
      rw [hrun] at h
      simp at h
  · intro h
    unfold gridApprox3
    rw [if_neg (by simp only []; omega), if_pos (by simp only []; omega)]

/-- A source centred outside the box by at most `maxmargin`: the model is that of a source centred on the brightest of the pixels on the edges of
the box facing its centre, if one of them is positive. -/
theorem C98_outside (val0 val : Int → Int → R) (cx cy x0 x1 y0 y1 : Int) (minval : R) (minradius maxmargin : Int) (doslice : Bool)
    (hx : x0 < x1) (hy : y0 < y1) (hm : 0 ≤ maxmargin) (hout : ¬ Inside x0 x1 y0 y1 cy cx)
    (hmx : x0 - maxmargin ≤ cx ∧ cx ≤ x1 + maxmargin) (hmy : y0 - maxmargin ≤ cy ∧ cy ≤ y1 + maxmargin)
    (hpos : ∃ y x, Facing x0 x1 y0 y1 cy cx y x ∧ 0 < val0 y x) :
    ∃ sy sx, Facing x0 x1 y0 y1 cy cx sy sx ∧ (∀ y x, Facing x0 x1 y0 y1 cy cx y x → val0 y x ≤ val0 sy sx) ∧
      gridApprox3 val0 val cx cy ⟨x0, x1, y0, y1⟩ minval minradius doslice maxmargin =
        gridApprox3 val0 val sx sy ⟨x0, x1, y0, y1⟩ minval minradius doslice maxmargin := by
  rcases start_ok val0 cx cy x0 x1 y0 y1 hout hx hy with ⟨y, x, hf, -, hs, hall⟩ | ⟨hall, -⟩
  · exact ⟨y, x, hf, hall, run_from val0 val cx cy x y x0 x1 y0 y1 minval minradius maxmargin doslice hs hf.1 hmx hmy hm⟩
  · obtain ⟨y, x, hf, hp⟩ := hpos
    exact absurd hp (not_lt.mpr (hall y x hf))

/-- If none is positive the search begins in the middle of the box, as long as the box does not extend to negative coordinates. -/
theorem C98_dark (val0 val : Int → Int → R) (cx cy x0 x1 y0 y1 : Int) (minval : R) (minradius maxmargin : Int) (doslice : Bool)
    (hx : x0 < x1) (hy : y0 < y1) (hm : 0 ≤ maxmargin) (hout : ¬ Inside x0 x1 y0 y1 cy cx)
    (hmx : x0 - maxmargin ≤ cx ∧ cx ≤ x1 + maxmargin) (hmy : y0 - maxmargin ≤ cy ∧ cy ≤ y1 + maxmargin)
    (hdark : ∀ y x, Facing x0 x1 y0 y1 cy cx y x → val0 y x ≤ 0) (hx0 : 0 ≤ x0) (hy0 : 0 ≤ y0) :
    gridApprox3 val0 val cx cy ⟨x0, x1, y0, y1⟩ minval minradius doslice maxmargin =
      gridApprox3 val0 val ((x0 + x1) / 2) ((y0 + y1) / 2) ⟨x0, x1, y0, y1⟩ minval minradius doslice maxmargin := by
  rcases start_ok val0 cx cy x0 x1 y0 y1 hout hx hy with ⟨y, x, hf, hp, -⟩ | ⟨-, hs⟩
  · exact absurd hp (not_lt.mpr (hdark y x hf))
  · rw [Int.tdiv_eq_ediv_of_nonneg (by omega), Int.tdiv_eq_ediv_of_nonneg (by omega)] at hs
    exact run_from val0 val cx cy _ _ x0 x1 y0 y1 minval minradius maxmargin doslice hs (by unfold Inside; omega) hmx hmy hm

/-- With negative coordinates the middle found may be outside the box: a box one pixel wide and a source too far away to have a positive value there.
The C code then writes outside its array. -/
theorem C98_dark_false : gridApprox3 (R := Int) (fun _ _ => 0) (fun _ _ => 0) 50 0 ⟨-5, -4, -3, 3⟩ 1 3 true 100 = .error .index := by
  have hs : startPixel (R := Int) (fun _ _ => 0) ⟨-5, -4, -3, 3⟩ 50 0 = (-4, 0) := by decide +kernel
  unfold gridApprox3
  rw [hs]
  rfl

/-- A source to the left of a box: rendered from the pixel of the left edge in its row, and, above and left of it, from the corner. -/
example : startPixel (fun y x => 100 - x ^ 2 - (y - 3) ^ 2 : Int → Int → Int) ⟨2, 9, 0, 7⟩ 0 3 = (2, 3) ∧
    startPixel (fun y x => 100 - x ^ 2 - (y + 3) ^ 2 : Int → Int → Int) ⟨2, 9, 0, 7⟩ 0 (-3) = (2, 0) := by
  decide +kernel

end Verif.Approx
