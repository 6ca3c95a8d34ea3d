import Mathlib.Algebra.Order.Field.Basic
import Mathlib.Data.Rat.Cast.Order
import Mathlib.Tactic.Linarith
import Mathlib.Tactic.NormNum
import Verif.Wcat.Spec

/-!
# C147: WISE catalogs
-/

namespace Verif.Wcat

open Verif

variable {D Row : Type}

theorem takeRows_filter (p : D × D → Bool) (es pre : List (Entry D Row)) :
    takeRows ((pre ++ es).map (·.row)) ((((es.map (fun e => (e.ra, e.dec))).zipIdx pre.length).filter (fun e => p e.1)).map (·.2)) =
      .ok ((es.filter (fun e => p (e.ra, e.dec))).map (·.row)) := by
  induction es generalizing pre with
  | nil => rfl
  | cons e es ih =>
    have h := ih (pre ++ [e])
    rw [List.append_assoc, List.singleton_append, List.length_append, List.length_singleton] at h
    rw [List.map_cons, List.zipIdx_cons, List.filter_cons, List.filter_cons]
    by_cases hp : p (e.ra, e.dec) = true
    · simp only [hp, if_true, List.map_cons]
      unfold takeRows at h ⊢
      rw [List.mapM_cons, h]
      have he : ((pre ++ e :: es).map (·.row))[pre.length]? = some e.row := by simp
      rw [he]
      rfl
    · simp only [hp]
      exact h

theorem takeRows_ok (p : D × D → Bool) (es : List (Entry D Row)) :
    takeRows (es.map (·.row)) (flatnonzero p (es.map (fun e => (e.ra, e.dec)))) = .ok ((es.filter (fun e => p (e.ra, e.dec))).map (·.row)) := by
  have := takeRows_filter p es []
  simpa [flatnonzero] using this

theorem flatnonzero_empty (p : D × D → Bool) (es : List (Entry D Row)) :
    (flatnonzero p (es.map (fun e => (e.ra, e.dec)))).isEmpty = (es.filter (fun e => p (e.ra, e.dec))).isEmpty := by
  have h := takeRows_ok p es
  cases hf : flatnonzero p (es.map (fun e => (e.ra, e.dec))) with
  | nil =>
    rw [hf] at h
    have h2 : (Except.ok [] : Except PyErr (List Row)) = .ok ((es.filter (fun e => p (e.ra, e.dec))).map (·.row)) := h
    injection h2 with h2
    rw [eq_comm, List.map_eq_nil_iff] at h2
    rw [h2]
    rfl
  | cons i I =>
    cases hg : es.filter (fun e => p (e.ra, e.dec)) with
    | cons a l => rfl
    | nil =>
      exfalso
      rw [List.filter_eq_nil_iff] at hg
      have hi : i ∈ flatnonzero p (es.map (fun e => (e.ra, e.dec))) := by rw [hf]; simp
      unfold flatnonzero at hi
      rw [List.mem_map] at hi
      obtain ⟨⟨q, j⟩, h1, -⟩ := hi
      rw [List.mem_filter] at h1
      have h3 := List.fst_mem_of_mem_zipIdx h1.1
      rw [List.mem_map] at h3
      obtain ⟨e, he, heq⟩ := h3
      exact hg e he (by rw [heq]; exact h1.2)

theorem scan_ok (F : Files D Row) (skip : D × D → Bool) (p : D × D → Bool) (ranges : List (D × D)) (parts : List (List (Entry D Row)))
    (hl : parts.length = ranges.length) (k : Nat)
    (hh : ∀ (i : Nat) (es : List (Entry D Row)) (rng : D × D), parts[i]? = some es → ranges[i]? = some rng → skip rng = false → F.Hold (k + i) es)
    (hs : ∀ (i : Nat) (es : List (Entry D Row)) (rng : D × D), parts[i]? = some es → ranges[i]? = some rng → skip rng = true →
      ∀ e ∈ es, p (e.ra, e.dec) = false) :
    ∃ TT, scan F skip p (ranges.zipIdx k) = .ok TT ∧ (∀ t ∈ TT, t ≠ []) ∧
      TT.flatten = (parts.flatten.filter (fun e => p (e.ra, e.dec))).map (·.row) := by
  induction ranges generalizing parts k with
  | nil =>
    rw [List.length_nil, List.length_eq_zero_iff] at hl
    subst hl
    exact ⟨[], rfl, by simp, rfl⟩
  | cons rng ranges ih =>
    cases parts with
    | nil => simp at hl
    | cons es parts =>
      obtain ⟨TT, h1, h2, h3⟩ := ih parts (by simpa using hl) (k + 1)
        (fun i es' r a b c => by have := hh (i + 1) es' r (by simpa using a) (by simpa using b) c; rwa [show k + 1 + i = k + (i + 1) by omega])
        (fun i es' r a b c => hs (i + 1) es' r (by simpa using a) (by simpa using b) c)
      rw [List.zipIdx_cons, scan, List.flatten_cons, List.filter_append, List.map_append]
      by_cases hsk : skip rng = true
      · rw [if_pos hsk]
        refine ⟨TT, h1, h2, ?_⟩
        have : es.filter (fun e => p (e.ra, e.dec)) = [] := by
          rw [List.filter_eq_nil_iff]
          intro e he
          rw [hs 0 es rng rfl rfl hsk e he]
          simp
        rw [this, h3]
        rfl
      · rw [if_neg hsk]
        obtain ⟨g1, g2⟩ := hh 0 es rng rfl rfl (by simpa using hsk)
        rw [Nat.add_zero] at g1 g2
        rw [g1]
        dsimp only
        rw [flatnonzero_empty]
        by_cases he : (es.filter (fun e => p (e.ra, e.dec))).isEmpty = true
        · rw [if_pos he]
          refine ⟨TT, h1, h2, ?_⟩
          rw [List.isEmpty_iff] at he
          rw [he, h3]
          rfl
        · rw [if_neg he, g2]
          dsimp only
          rw [takeRows_ok]
          dsimp only
          rw [h1]
          refine ⟨_, rfl, ?_, by rw [List.flatten_cons, h3]⟩
          intro t ht
          rcases List.mem_cons.1 ht with rfl | ht
          · rw [List.isEmpty_iff] at he
            simpa using he
          · exact h2 t ht

theorem merge_ok (TT : List (List Row)) (h : ∀ t ∈ TT, t ≠ []) : merge TT = orNone TT.flatten := by
  match TT with
  | [] => rfl
  | [t] =>
    have := h t (by simp)
    simp [merge, orNone, this]
  | a :: b :: l =>
    have := h a (by simp)
    simp [merge, orNone, this]

section
variable [LinearOrder D]

/-- **C147, boxes.** `wise_catalog_radecbox` and `allwise_catalog_radecbox` give the rows of all objects whose position is in the box (edges included), once
each and in the order of the catalog, or None if there are none; only the files of parts whose declinations meet those of the box are needed. -/
theorem C147_box (F : Files D Row) (ranges : List (D × D)) (parts : List (List (Entry D Row))) (hc : CutBy ranges parts) (r0 r1 d0 d1 : D)
    (hF : ∀ (i : Nat) (es : List (Entry D Row)) (rng : D × D), parts[i]? = some es → ranges[i]? = some rng → rng.1 ≤ d1 → d0 ≤ rng.2 → F.Hold i es) :
    readBox F ranges r0 r1 d0 d1 =
      .ok (orNone ((parts.flatten.filter (fun e => r0 ≤ e.ra ∧ e.ra ≤ r1 ∧ d0 ≤ e.dec ∧ e.dec ≤ d1)).map (·.row))) := by
  obtain ⟨TT, h1, h2, h3⟩ := scan_ok F (fun rng => d1 < rng.1 ∨ rng.2 < d0) (fun q => r0 ≤ q.1 ∧ q.1 ≤ r1 ∧ d0 ≤ q.2 ∧ q.2 ≤ d1) ranges parts hc.1 0
    (by
      intro i es rng a b c
      rw [Nat.zero_add]
      have c' := of_decide_eq_false c
      rw [not_or, not_lt, not_lt] at c'
      exact hF i es rng a b c'.1 c'.2)
    (by
      intro i es rng a b c e he
      have c' := of_decide_eq_true c
      obtain ⟨g1, g2⟩ := hc.2 i es rng a b e he
      refine decide_eq_false ?_
      rintro ⟨-, -, k1, k2⟩
      rcases c' with c' | c'
      · exact absurd (lt_of_lt_of_le c' g1) (not_lt.2 k2)
      · exact absurd (lt_of_le_of_lt g2 c') (not_lt.2 k1))
  unfold readBox
  rw [h1]
  show Except.ok (merge TT) = _
  rw [merge_ok TT h2, h3]

/-- **C147, right ascension 0**: a box given with `r0 > r1`, across right ascension 0, finds nothing whatever the catalog holds. -/
theorem C147_wrap_false (F : Files D Row) (ranges : List (D × D)) (parts : List (List (Entry D Row))) (hc : CutBy ranges parts) (r0 r1 d0 d1 : D) (hr : r1 < r0)
    (hF : ∀ (i : Nat) (es : List (Entry D Row)) (rng : D × D), parts[i]? = some es → ranges[i]? = some rng → rng.1 ≤ d1 → d0 ≤ rng.2 → F.Hold i es) :
    readBox F ranges r0 r1 d0 d1 = .ok none := by
  rw [C147_box F ranges parts hc r0 r1 d0 d1 hF]
  have : parts.flatten.filter (fun e => r0 ≤ e.ra ∧ e.ra ≤ r1 ∧ d0 ≤ e.dec ∧ e.dec ≤ d1) = [] := by
    rw [List.filter_eq_nil_iff]
    intro e _ h
    have h' := of_decide_eq_true h
    exact absurd (h'.1.trans h'.2.1) (not_le.2 hr)
  rw [this]
  rfl

end

/-- **C147, fields.** `allwise_catalog_wcs(wcs, pixelmargin)` gives the rows of all objects that the WCS puts within the image enlarged by the margin on
each side, once each and in the order of the catalog, if no object of the enlarged image is farther north or south than the bounds of the WCS by more than
the diagonal of the margin. -/
theorem C147_field [Field D] [LinearOrder D] (F : Files D Row) (root2 : D) (ranges : List (D × D)) (parts : List (List (Entry D Row))) (hc : CutBy ranges parts)
    (W : Wcs D) (pm : D)
    (hF : ∀ (i : Nat) (es : List (Entry D Row)) (rng : D × D), parts[i]? = some es → ranges[i]? = some rng →
      rng.1 ≤ W.dhi + root2 * pm * W.scale / 3600 → W.dlo - root2 * pm * W.scale / 3600 ≤ rng.2 → F.Hold i es)
    (hW : ∀ ra dec x y, W.pix ra dec = some (x, y) → 1 / 2 - pm ≤ x → 1 / 2 - pm ≤ y → x ≤ W.w + 1 / 2 + pm → y ≤ W.h + 1 / 2 + pm →
      W.dlo - root2 * pm * W.scale / 3600 ≤ dec ∧ dec ≤ W.dhi + root2 * pm * W.scale / 3600) :
    ∃ found : Entry D Row → Bool, readWcs F root2 ranges W pm = .ok (orNone ((parts.flatten.filter found).map (·.row))) ∧
      ∀ e : Entry D Row, (found e = true ↔ ∃ x y, W.pix e.ra e.dec = some (x, y) ∧ 1 / 2 - pm ≤ x ∧ 1 / 2 - pm ≤ y ∧ x ≤ W.w + 1 / 2 + pm ∧
        y ≤ W.h + 1 / 2 + pm) := by
  set d0 := W.dlo - root2 * pm * W.scale / 3600 with hd0
  set d1 := W.dhi + root2 * pm * W.scale / 3600 with hd1
  let inside : D × D → Bool := fun q =>
    (decide (d0 ≤ q.2 ∧ q.2 ≤ d1)) &&
    match W.pix q.1 q.2 with
    | none => false
    | some (x, y) => decide (1 / 2 - pm ≤ x ∧ 1 / 2 - pm ≤ y ∧ x ≤ W.w + 1 / 2 + pm ∧ y ≤ W.h + 1 / 2 + pm)
  obtain ⟨TT, h1, h2, h3⟩ := scan_ok F (fun rng => d1 < rng.1 ∨ rng.2 < d0) inside ranges parts hc.1 0
    (by
      intro i es rng a b c
      rw [Nat.zero_add]
      have c' := of_decide_eq_false c
      rw [not_or, not_lt, not_lt] at c'
      exact hF i es rng a b c'.1 c'.2)
    (by
      intro i es rng a b c e he
      have c' := of_decide_eq_true c
      obtain ⟨g1, g2⟩ := hc.2 i es rng a b e he
      have : ¬ (d0 ≤ e.dec ∧ e.dec ≤ d1) := by
        rintro ⟨k1, k2⟩
        rcases c' with c' | c'
        · exact absurd (lt_of_lt_of_le c' g1) (not_lt.2 k2)
        · exact absurd (lt_of_le_of_lt g2 c') (not_lt.2 k1)
      show (decide (d0 ≤ e.dec ∧ e.dec ≤ d1) && _) = false
      rw [decide_eq_false this, Bool.false_and])
  refine ⟨fun e => inside (e.ra, e.dec), ?_, fun e => ?_⟩
  · unfold readWcs
    dsimp only
    rw [← hd0, ← hd1]
    have h1' := congrArg (Except.map merge) h1
    refine h1'.trans ?_
    show Except.ok (merge TT) = _
    rw [merge_ok TT h2, h3]
  · refine ⟨fun h => ?_, ?_⟩
    · have h4 : inside (e.ra, e.dec) = true := h
      have h5 := (Bool.and_eq_true_iff.1 h4).2
      cases hp : W.pix e.ra e.dec with
      | none =>
        simp only [hp] at h5
        cases h5
      | some v =>
        simp only [hp] at h5
        exact ⟨v.1, v.2, rfl, of_decide_eq_true h5⟩
    · rintro ⟨x, y, hp, k1, k2, k3, k4⟩
      have hd := hW e.ra e.dec x y hp k1 k2 k3 k4
      show (decide (d0 ≤ e.dec ∧ e.dec ≤ d1) && _) = true
      rw [decide_eq_true hd, Bool.true_and]
      simp only [hp]
      exact decide_eq_true ⟨k1, k2, k3, k4⟩

/-- Ranges that follow one another cover what is between the first and the last edge. -/
theorem chain_covers (t : List (Int × Int)) (a : Int × Int) (hc : List.IsChain (fun x y => x.2 = y.1) (a :: t)) (d : ℚ)
    (h0 : (a.1 : ℚ) / 10000 ≤ d) (h1 : d ≤ (((a :: t).getLast (by simp)).2 : ℚ) / 10000) : ∃ r ∈ degrees (a :: t), r.1 ≤ d ∧ d ≤ r.2 := by
  induction t generalizing a with
  | nil => exact ⟨((a.1 : ℚ) / 10000, (a.2 : ℚ) / 10000), by simp [degrees], h0, by simpa using h1⟩
  | cons b t ih =>
    rw [List.isChain_cons_cons] at hc
    by_cases h : d ≤ (a.2 : ℚ) / 10000
    · exact ⟨((a.1 : ℚ) / 10000, (a.2 : ℚ) / 10000), by simp [degrees], h0, h⟩
    · rw [not_le, hc.1] at h
      obtain ⟨r, hr, h2⟩ := ih b hc.2 h.le (by simpa using h1)
      exact ⟨r, by unfold degrees at hr ⊢; rw [List.map_cons]; exact List.mem_cons_of_mem _ hr, h2⟩

/-- **C147, all declinations.** The ranges of declination of both catalogs leave no gap from pole to pole and do not overlap: every declination is in one of
them, and in two only if it is the edge between them. -/
theorem C147_sky (t : List (Int × Int)) (ht : t = allskyTable ∨ t = allwiseTable) :
    (∀ d : ℚ, -90 ≤ d → d ≤ 90 → ∃ r ∈ degrees t, r.1 ≤ d ∧ d ≤ r.2) ∧ (degrees t).Pairwise (fun r s => r.2 ≤ s.1) := by
  have key : ∀ t : List (Int × Int), t = allskyTable ∨ t = allwiseTable → t.Pairwise (fun r s => r.2 ≤ s.1) ∧
      List.IsChain (fun x y => x.2 = y.1) t ∧ t.head?.map (·.1) = some (-900000) ∧ t.getLast?.map (·.2) = some 900000 := by
    rintro t (rfl | rfl) <;> decide +kernel
  obtain ⟨h1, h2, h3, h4⟩ := key t ht
  refine ⟨fun d d0 d1 => ?_, ?_⟩
  · cases t with
    | nil => cases h3
    | cons a t =>
      have ha : a.1 = -900000 := by simpa using h3
      have hb : ((a :: t).getLast (by simp)).2 = 900000 := by
        rw [List.getLast?_eq_some_getLast (by simp)] at h4
        simpa using h4
      refine chain_covers t a h2 d ?_ ?_
      · rw [ha]; norm_num; exact d0
      · rw [hb]; norm_num; exact d1
  · unfold degrees
    rw [List.pairwise_map]
    refine h1.imp fun h => ?_
    have : ((_ : Int) : ℚ) ≤ ((_ : Int) : ℚ) := Int.cast_le.2 h
    dsimp only
    linarith

/-! Examples: two parts, an object on the edge of the box, one across right ascension 0. -/

def exParts : List (List (Entry ℚ Nat)) := [[⟨10, -5, 1⟩, ⟨20, -1, 2⟩], [⟨359, 3, 3⟩, ⟨10, 2, 4⟩]]

def exFiles : Files ℚ Nat where
  radec i := (match exParts[i]? with | some es => .ok (es.map (fun e => (e.ra, e.dec))) | none => .error .runtime)
  rows i := (match exParts[i]? with | some es => .ok (es.map (·.row)) | none => .error .runtime)

theorem exCut : CutBy [(-90, 0), (0, 90)] exParts := by
  refine ⟨rfl, ?_⟩
  intro i es rng h1 h2 e he
  match i with
  | 0 => simp [exParts] at h1 h2; subst h1 h2; revert e; decide +kernel
  | 1 => simp [exParts] at h1 h2; subst h1 h2; revert e; decide +kernel
  | n + 2 => simp [exParts] at h1

theorem exHold (i : Nat) (es : List (Entry ℚ Nat)) (h : exParts[i]? = some es) : exFiles.Hold i es := by
  simp [Files.Hold, exFiles, h]

example : readBox exFiles [(-90, 0), (0, 90)] 10 20 (-1) 2 = .ok (some [2, 4]) := by
  rw [C147_box exFiles _ exParts exCut 10 20 (-1) 2 (fun i es _ h _ _ _ => exHold i es h)]
  decide +kernel

/-- The files of the second part are not needed in the south. -/
example : readBox (⟨fun i => if i = 0 then exFiles.radec i else .error .runtime, fun i => if i = 0 then exFiles.rows i else .error .runtime⟩ : Files ℚ Nat)
    [(-90, 0), (0, 90)] 0 360 (-10) (-1) = .ok (some [1, 2]) := by
  rw [C147_box _ _ exParts exCut 0 360 (-10) (-1) ?_]
  · decide +kernel
  · intro i es rng h h2 h3 _
    match i with
    | 0 => exact exHold 0 es h
    | 1 => simp at h2; subst h2; norm_num at h3
    | n + 2 => simp [exParts] at h

/-- The object at right ascension 359 is in the box from 350 across 0 to 15, and so are those at 10, but nothing is found. -/
example : readBox exFiles [(-90, 0), (0, 90)] 350 15 (-10) 10 = .ok none :=
  C147_wrap_false exFiles _ exParts exCut 350 15 (-10) 10 (by norm_num) (fun i es _ h _ _ _ => exHold i es h)

/-- A field of 20 x 4 pixels of one degree, with (0.5, 0.5) at right ascension 5, declination -2. -/
def exWcs : Wcs ℚ := ⟨-2, 2, 3600, 20, 4, fun ra dec => some (ra - 5 + 1 / 2, dec + 2 + 1 / 2)⟩

example : ∃ found : Entry ℚ Nat → Bool, readWcs exFiles 2 [(-90, 0), (0, 90)] exWcs 1 = .ok (orNone ((exParts.flatten.filter found).map (·.row))) ∧
    ∀ e : Entry ℚ Nat, (found e = true ↔ ∃ x y, exWcs.pix e.ra e.dec = some (x, y) ∧ 1 / 2 - 1 ≤ x ∧ 1 / 2 - 1 ≤ y ∧ x ≤ exWcs.w + 1 / 2 + 1 ∧
      y ≤ exWcs.h + 1 / 2 + 1) := by
  refine C147_field exFiles 2 _ exParts exCut exWcs 1 (fun i es _ h _ _ _ => exHold i es h) ?_
  intro ra dec x y h _ h2 _ h4
  simp only [exWcs, Option.some.injEq, Prod.mk.injEq] at h h2 h4 ⊢
  obtain ⟨rfl, rfl⟩ := h
  constructor <;> linarith

example : readWcs exFiles 2 [(-90, 0), (0, 90)] exWcs 1 = .ok (some [2, 4]) := by decide +kernel

end Verif.Wcat
