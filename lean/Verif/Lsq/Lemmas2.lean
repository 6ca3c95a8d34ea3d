import Verif.Lsq.Lemmas
import Mathlib.Algebra.BigOperators.Group.Finset.Basic

/-!
# Lemmas: layout of the rows, sums over rows of the assembled matrix
-/

namespace Verif.Lsq

open Verif Verif.Params Verif.Patches

variable {R : Type}

/-- Consecutive row ranges, one per image, ending at the given row. -/
inductive Layout (npix : Nat → Nat) : List (Nat × Nat) → Nat → Prop
  | nil : Layout npix [] 0
  | snoc {offs n i} : Layout npix offs n → (∀ e ∈ offs, e.1 ≠ i) →
      Layout npix (offs ++ [(i, n)]) (n + npix i)

theorem layout_fold (npix : Nat → Nat) (is : List Nat) :
    ∀ (offs : List (Nat × Nat)) (n : Nat), Layout npix offs n →
      Layout npix (is.foldl (offsetStep npix) (offs, n)).1 (is.foldl (offsetStep npix) (offs, n)).2 ∧
      ∀ i, i ∈ (is.foldl (offsetStep npix) (offs, n)).1.map (·.1) ↔ i ∈ offs.map (·.1) ∨ i ∈ is := by
  induction is with
  | nil => intro offs n h; exact ⟨h, by simp⟩
  | cons j is ih =>
    intro offs n h
    simp only [List.foldl_cons]
    by_cases hj : offs.any (fun e => e.1 = j) = true
    · have hs : offsetStep npix (offs, n) j = (offs, n) := by simp only [offsetStep, if_pos hj]
      rw [hs]
      refine ⟨(ih offs n h).1, fun i => ?_⟩
      rw [(ih offs n h).2 i]
      simp only [List.any_eq_true, decide_eq_true_eq] at hj
      obtain ⟨e, he, rfl⟩ := hj
      constructor
      · rintro (h | h)
        · exact Or.inl h
        · exact Or.inr (by simp [h])
      · rintro (h | h)
        · exact Or.inl h
        · rcases List.mem_cons.1 h with rfl | h
          · exact Or.inl (List.mem_map_of_mem he)
          · exact Or.inr h
    · have hs : offsetStep npix (offs, n) j = (offs ++ [(j, n)], n + npix j) := by
        simp only [offsetStep, if_neg hj]
      rw [hs]
      have hl : Layout npix (offs ++ [(j, n)]) (n + npix j) := by
        refine Layout.snoc h ?_
        intro e he hej
        exact hj (List.any_eq_true.2 ⟨e, he, by simpa using hej⟩)
      refine ⟨(ih _ _ hl).1, fun i => ?_⟩
      rw [(ih _ _ hl).2 i]
      simp only [List.map_append, List.map_cons, List.map_nil, List.mem_append, List.mem_cons,
        List.not_mem_nil, or_false]
      tauto

theorem imgOffsets_ok (npix : Nat → Nat) (ds : Derivs R) :
    Layout npix (imgOffsets npix ds).1 (imgOffsets npix ds).2 ∧
    ∀ i, i ∈ (imgOffsets npix ds).1.map (·.1) ↔ i ∈ usedImages ds := by
  have := layout_fold npix (ds.flatMap (fun param => param.map (·.2))) [] 0 Layout.nil
  refine ⟨this.1, fun i => ?_⟩
  have h2 := this.2 i
  simp only [List.map_nil, List.not_mem_nil, false_or] at h2
  rw [usedImages, List.mem_toFinset, ← h2]
  rfl

theorem Layout.nodup {npix : Nat → Nat} {offs : List (Nat × Nat)} {n : Nat} (h : Layout npix offs n) :
    (offs.map (·.1)).Nodup := by
  induction h with
  | nil => simp
  | snoc h hne ih =>
    rw [List.map_append, List.nodup_append]
    refine ⟨ih, by simp, ?_⟩
    intro a ha b hb
    simp only [List.mem_map] at ha
    obtain ⟨e, he, rfl⟩ := ha
    simp only [List.map_cons, List.map_nil, List.mem_singleton] at hb
    subst hb
    exact hne e he

theorem Layout.le {npix : Nat → Nat} {offs : List (Nat × Nat)} {n : Nat} (h : Layout npix offs n) :
    ∀ e ∈ offs, e.2 + npix e.1 ≤ n := by
  induction h with
  | nil => simp
  | snoc h hne ih =>
    intro e he
    rcases List.mem_append.1 he with he | he
    · have := ih e he; omega
    · simp only [List.mem_singleton] at he; subst he; simp

theorem Layout.disjoint {npix : Nat → Nat} {offs : List (Nat × Nat)} {n : Nat} (h : Layout npix offs n) :
    ∀ e ∈ offs, ∀ e' ∈ offs, e.1 ≠ e'.1 → e.2 + npix e.1 ≤ e'.2 ∨ e'.2 + npix e'.1 ≤ e.2 := by
  induction h with
  | nil => simp
  | snoc h hne ih =>
    intro e he e' he' hne'
    rcases List.mem_append.1 he with he | he <;> rcases List.mem_append.1 he' with he' | he'
    · exact ih e he e' he' hne'
    · simp only [List.mem_singleton] at he'; subst he'
      left; exact h.le e he
    · simp only [List.mem_singleton] at he; subst he
      right; exact h.le e' he'
    · simp only [List.mem_singleton] at he he'; subst he; subst he'; exact absurd rfl hne'

theorem lookupOff_mem {npix : Nat → Nat} {offs : List (Nat × Nat)} {n : Nat} (h : Layout npix offs n)
    (e : Nat × Nat) (he : e ∈ offs) : lookupOff offs e.1 = .ok e.2 := by
  have hn := h.nodup
  clear h
  induction offs with
  | nil => simp at he
  | cons a offs ih =>
    simp only [List.map_cons, List.nodup_cons] at hn
    rcases List.mem_cons.1 he with rfl | he'
    · simp [lookupOff]
    · have hne : a.1 ≠ e.1 := fun hh => hn.1 (List.mem_map.2 ⟨e, he', hh.symm⟩)
      have := ih he' hn.2
      simp only [lookupOff] at this ⊢
      rw [List.find?_cons_of_neg (by simpa using hne)]
      exact this

section field
variable [Field R]

theorem Layout.sum {npix : Nat → Nat} {offs : List (Nat × Nat)} {n : Nat} (h : Layout npix offs n)
    (g : Nat → R) :
    ∑ r ∈ Finset.range n, g r = (offs.map (fun e => ∑ k ∈ Finset.range (npix e.1), g (e.2 + k))).sum := by
  induction h with
  | nil => simp
  | snoc h hne ih => rw [Finset.sum_range_add, ih]; simp

/-- Component of `A x` for the matrix made of the blocks, with coefficient `f c` in column `c`. -/
def rowVal (bs : List (Block R)) (r : Int) (f : Nat → R) : R :=
  (((cellsOf' bs).filter (fun t => t.1 = r)).map (fun t => t.2.2 * f t.2.1)).sum
where cellsOf' (bs : List (Block R)) : List (Int × Nat × R) :=
  bs.flatMap (fun b => (b.rows.zip b.vals).map (fun e => (e.1, b.col, e.2)))

theorem rowVal_nil (r : Int) (f : Nat → R) : rowVal [] r f = 0 := by simp [rowVal, rowVal.cellsOf']

theorem rowVal_append (bs bs' : List (Block R)) (r : Int) (f : Nat → R) :
    rowVal (bs ++ bs') r f = rowVal bs r f + rowVal bs' r f := by
  simp [rowVal, rowVal.cellsOf', List.flatMap_append]

theorem rowVal_cons (b : Block R) (bs : List (Block R)) (r : Int) (f : Nat → R) :
    rowVal (b :: bs) r f = keySum (b.rows.zip b.vals) r * f b.col + rowVal bs r f := by
  rw [← List.singleton_append, rowVal_append]
  congr 1
  simp only [rowVal, rowVal.cellsOf', keySum, List.flatMap_cons, List.flatMap_nil, List.append_nil]
  generalize b.rows.zip b.vals = l
  induction l with
  | nil => simp
  | cons a l ih =>
    by_cases h : a.1 = r
    · rw [List.map_cons, List.filter_cons_of_pos (by simpa using h),
        List.filter_cons_of_pos (by simpa using h)]
      simp only [List.map_cons, List.sum_cons, ih]
      ring
    · rw [List.map_cons, List.filter_cons_of_neg (by simpa using h),
        List.filter_cons_of_neg (by simpa using h)]
      exact ih

/-- A block as the assembly makes them: as many rows as values, no zeros, not empty, rows in range. -/
structure GoodBlock (n : Nat) (b : Block R) : Prop where
  len : b.rows.length = b.vals.length
  ne : b.vals ≠ []
  nz : ∀ v ∈ b.vals, v ≠ 0
  rng : ∀ r ∈ b.rows, 0 ≤ r ∧ r < n

theorem rowVal_out (n : Nat) (bs : List (Block R)) (h : ∀ b ∈ bs, GoodBlock n b) (r : Int) (hr : (n : Int) ≤ r)
    (f : Nat → R) : rowVal bs r f = 0 := by
  induction bs with
  | nil => exact rowVal_nil r f
  | cons b bs ih =>
    rw [rowVal_cons, ih (fun b hb => h b (by simp [hb])), keySum_not_mem]
    · simp
    · intro e he
      have := (h b (by simp)).rng e.1 (List.of_mem_zip he).1
      omega

end field

section ordered
variable [Field R] [LinearOrder R]

omit [LinearOrder R] in
theorem keySum_zip (l : List (Int × R)) (r : Int) :
    keySum ((l.map (·.1)).zip (l.map (·.2))) r = keySum l r := by
  congr 1
  induction l with
  | nil => rfl
  | cons a l ih => simp [ih]

omit [LinearOrder R] in
theorem slope_cons (imgs : Nat → Img R) (e : Patch R × Nat) (l : List (Patch R × Nat)) (i y x : Nat) :
    slope imgs (e :: l) i y x =
      (if e.2 = i then e.1.at x y * (imgs i).inverr.px y x else 0) + slope imgs l i y x := by
  simp only [slope]
  by_cases h : e.2 = i
  · rw [List.filter_cons_of_pos (by simpa using h), if_pos h]; simp
  · rw [List.filter_cons_of_neg (by simpa using h), if_neg h]; simp

/-- The image part of the layout: row of pixel (x, y) of image `e.1` at offset `e.2`. -/
theorem paramBlocks_ok (imgs : Nat → Img R) (offs : List (Nat × Nat)) (n : Nat)
    (hl : Layout (fun i => (imgs i).npix) offs n) (col : Nat) (param : List (Patch R × Nat))
    (him : ∀ e ∈ param, e.2 ∈ offs.map (·.1) ∧ (imgs e.2).inverr.h = (imgs e.2).h ∧
      (imgs e.2).inverr.w = (imgs e.2).w ∧ (imgs e.2).w * (imgs e.2).h < 2 ^ 31) :
    ∃ bs, paramBlocks imgs offs col param = .ok bs ∧ (∀ b ∈ bs, b.col = col ∧ GoodBlock n b ∧ ∀ v ∈ b.vals, ∃ e ∈ param, ∃ y x : Nat,
        y < (imgs e.2).h ∧ x < (imgs e.2).w ∧ v = e.1.at x y * (imgs e.2).inverr.px y x) ∧
      (∀ e ∈ offs, ∀ y x : Nat, y < (imgs e.1).h → x < (imgs e.1).w → ∀ f : Nat → R,
        rowVal bs (e.2 + (y * (imgs e.1).w + x : Nat)) f = slope imgs param e.1 y x * f col) ∧
      (bs.map Block.dot).sum = (param.map (energy imgs)).sum := by
  induction param with
  | nil =>
    refine ⟨[], rfl, by simp, ?_, by simp⟩
    intro e _ y x _ _ f
    rw [rowVal_nil]; simp [slope]
  | cons p param ih =>
    obtain ⟨bs, hbs, hgood, hrow, hdot⟩ := ih (fun e he => him e (by simp [he]))
    obtain ⟨d, i⟩ := p
    obtain ⟨hi, h1, h2, hsz⟩ := him (d, i) (by simp)
    simp only at hi h1 h2 hsz
    obtain ⟨e0, he0, rfl⟩ := List.mem_map.1 hi
    obtain ⟨l, hblk, hnd, hnz, hrng, hks⟩ := derivBlock_ok (imgs e0.1) e0.2 col d h1 h2 hsz
    have hle := hl.le e0 he0
    have hen : (l.map (fun e => e.2 * e.2)).sum = energy imgs (d, e0.1) := by
      have := keySum_total l hnd e0.2 (imgs e0.1).npix hrng (fun v => v * v) (by simp)
      rw [this]
      simp only [Img.npix]
      rw [sum_range_mul]
      simp only [energy]
      apply Finset.sum_congr rfl
      intro y hy
      apply Finset.sum_congr rfl
      intro x hx
      rw [hks y x (Finset.mem_range.1 hy) (Finset.mem_range.1 hx)]
      ring
    simp only [paramBlocks, lookupOff_mem hl e0 he0, hblk, hbs, Except.map]
    refine ⟨_, rfl, ?_, ?_, ?_⟩
    · intro b hb
      rcases List.mem_append.1 hb with hb | hb
      · by_cases hz : l.isEmpty
        · simp [hz] at hb
        · simp only [hz, Bool.false_eq_true, if_false, Option.toList_some, List.mem_singleton] at hb
          subst hb
          refine ⟨rfl, ⟨by simp, by simpa using hz, ?_, ?_⟩, ?_⟩
          · intro v hv
            simp only [List.mem_map] at hv
            obtain ⟨e, he, rfl⟩ := hv
            exact hnz e he
          · intro r hr
            simp only [List.mem_map] at hr
            obtain ⟨e, he, rfl⟩ := hr
            have := hrng e he
            omega
          · intro v hv
            simp only [List.mem_map] at hv
            obtain ⟨e, he, rfl⟩ := hv
            obtain ⟨y, x, hyx⟩ := value_of_key (imgs e0.1) e0.2 d l hnd hrng hks e he
            exact ⟨(d, e0.1), by simp, y, x, hyx⟩
      · obtain ⟨a1, a2, a3⟩ := hgood b hb
        refine ⟨a1, a2, fun v hv => ?_⟩
        obtain ⟨e, he, h⟩ := a3 v hv
        exact ⟨e, by simp [he], h⟩
    · intro e he y x hy hx f
      rw [rowVal_append, hrow e he y x hy hx f, slope_cons, add_mul]
      congr 1
      have hkey : keySum l (e.2 + (y * (imgs e.1).w + x : Nat)) =
          if e0.1 = e.1 then d.at x y * (imgs e.1).inverr.px y x else 0 := by
        by_cases hee : e0.1 = e.1
        · have : e0 = e := List.inj_on_of_nodup_map hl.nodup he0 he hee
          subst this
          rw [if_pos rfl]
          exact hks y x hy hx
        · rw [if_neg hee]
          apply keySum_not_mem
          intro a ha hh
          have r1 := hrng a ha
          have r2 := hl.disjoint e0 he0 e he hee
          have : y * (imgs e.1).w + x < (imgs e.1).npix := by
            simp only [Img.npix]
            calc y * (imgs e.1).w + x < y * (imgs e.1).w + (imgs e.1).w := by omega
              _ = (y + 1) * (imgs e.1).w := by ring
              _ ≤ (imgs e.1).h * (imgs e.1).w := Nat.mul_le_mul_right _ hy
          omega
      rw [← hkey]
      by_cases hz : l.isEmpty
      · have : l = [] := by simpa using hz
        subst this
        simp [rowVal_nil, keySum]
      · simp only [hz, Bool.false_eq_true, if_false, Option.toList_some]
        rw [rowVal_cons, rowVal_nil, add_zero, keySum_zip]
    · rw [List.map_append, List.sum_append, hdot, List.map_cons, List.sum_cons]
      congr 1
      rw [← hen]
      by_cases hz : l.isEmpty
      · have : l = [] := by simpa using hz
        subst this
        simp
      · simp [hz, Block.dot, Function.comp_def]

end ordered

end Verif.Lsq
