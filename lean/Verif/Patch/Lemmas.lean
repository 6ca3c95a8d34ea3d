import Verif.Patch.Spec
import Mathlib.Tactic.SplitIfs
import Mathlib.Tactic.Tauto

set_option linter.unusedSimpArgs false
set_option linter.unusedVariables false

/-! Helper lemmas for the patch properties. -/

namespace Verif.Patches

open Verif

variable {α : Type}

theorem bound_of_range (n : Nat) (a : Int) (h0 : 0 ≤ a) (h1 : a ≤ n) : Arr.bound n a = a.toNat := by
  simp only [Arr.bound]; split_ifs <;> omega

theorem axis_range (n : Nat) (a b : Int) (h0 : 0 ≤ a) (h1 : a ≤ b) (h2 : b ≤ n) :
    Arr.axis n (some a) (some b) = (a.toNat, (b - a).toNat) := by
  simp only [Arr.axis, Option.map_some, Option.getD_some]
  rw [bound_of_range n a h0 (by omega), bound_of_range n b (by omega) h2]
  simp only [Prod.mk.injEq, true_and]; omega

theorem axis_full (n : Nat) : Arr.axis n none none = (0, n) := by simp [Arr.axis]

theorem axis_from (n : Nat) (a : Int) (h0 : 0 ≤ a) :
    Arr.axis n (some a) none = (min a.toNat n, n - a.toNat) := by
  simp only [Arr.axis, Option.map_some, Option.getD_some, Option.map_none, Option.getD_none, Arr.bound]
  split_ifs
  · omega
  · simp only [Prod.mk.injEq, true_and]; omega

theorem axis_to (n : Nat) (b : Int) (h0 : 0 ≤ b) :
    Arr.axis n none (some b) = (0, min b.toNat n) := by
  simp only [Arr.axis, Option.map_some, Option.getD_some, Option.map_none, Option.getD_none, Arr.bound]
  split_ifs
  · omega
  · simp

theorem slice_range (A : Arr α) (a b c d : Int) (h0 : 0 ≤ a) (h1 : a ≤ b) (h2 : b ≤ A.h)
    (h3 : 0 ≤ c) (h4 : c ≤ d) (h5 : d ≤ A.w) :
    A.slice (some a) (some b) (some c) (some d) =
      ⟨(b - a).toNat, (d - c).toNat, fun r k => A.px (a.toNat + r) (c.toNat + k)⟩ := by
  simp only [Arr.slice]
  rw [axis_range _ _ _ h0 h1 h2, axis_range _ _ _ h3 h4 h5]

theorem modify_range (A B : Arr α) (f : α → α → α) (a b c d : Int) (h0 : 0 ≤ a) (h1 : a ≤ b)
    (h2 : b ≤ A.h) (h3 : 0 ≤ c) (h4 : c ≤ d) (h5 : d ≤ A.w) (hh : (B.h : Int) = b - a)
    (hw : (B.w : Int) = d - c) :
    A.modify (some a) (some b) (some c) (some d) f B =
      .ok ⟨A.h, A.w, fun r k => if a ≤ r ∧ r < b ∧ c ≤ k ∧ k < d then
        f (A.px r k) (B.px (r - a.toNat) (k - c.toNat)) else A.px r k⟩ := by
  simp only [Arr.modify]
  rw [axis_range _ _ _ h0 h1 h2, axis_range _ _ _ h3 h4 h5]
  simp only []
  rw [if_pos (by constructor <;> omega)]
  congr 2
  funext r k
  by_cases h : a ≤ r ∧ r < b ∧ c ≤ k ∧ k < d
  · rw [if_pos h, if_pos (by omega)]
  · rw [if_neg h, if_neg (by omega)]

theorem overlap_spec (lo hi mn mx : Int) :
    (overlapRegion lo hi mn mx = none ↔ (mx < lo ∨ hi < mn ∨ hi < lo ∨ mx < mn)) ∧
    (∀ r, overlapRegion lo hi mn mx = some r →
      r = ((max lo mn, min hi mx + 1), (max lo mn - lo, min hi mx - lo + 1)) ∧
      lo ≤ mx ∧ mn ≤ hi ∧ lo ≤ hi ∧ mn ≤ mx) := by
  unfold overlapRegion
  split_ifs with h
  · simp only [true_iff]
    exact ⟨by omega, by rintro r ⟨⟩⟩
  · refine ⟨⟨by rintro ⟨⟩, by omega⟩, ?_⟩
    rintro r ⟨⟩
    exact ⟨rfl, by omega, by omega, by omega, by omega⟩

theorem arith_ok [Zero α] (f : α → α → α) (hf : ∀ a, f a 0 = a) (p q : Patch α) (A B : Arr α)
    (hA : p.patch = some A) (hB : q.patch = some B) :
    ∃ r, p.arith f q = .ok r ∧ (∀ x y, r.at x y = f (p.at x y) (q.at x y)) ∧
      (∀ x y, p.covers x y ∨ q.covers x y → r.covers x y) ∧
      r.extent = (min p.x0 q.x0, max (p.x0 + A.w) (q.x0 + B.w),
        min p.y0 q.y0, max (p.y0 + A.h) (q.y0 + B.h)) := by
  by_cases hsame : p.x0 = q.x0 ∧ p.y0 = q.y0 ∧ p.shape = q.shape
  · obtain ⟨hx, hy, hs⟩ := hsame
    simp only [Patch.shape, hA, hB, Prod.mk.injEq] at hs
    have hs' : p.shape = q.shape := by simp [Patch.shape, hA, hB, hs.1, hs.2]
    refine ⟨⟨p.x0, p.y0, some ⟨A.h, A.w, fun r c => if r < A.h ∧ c < A.w then
      f (A.px r c) (B.px r c) else A.px r c⟩⟩, ?_, ?_, ?_, ?_⟩
    · simp only [Patch.arith, if_pos (And.intro hx (And.intro hy hs')), hA, hB, Arr.modify, axis_full,
        hs.1, hs.2, and_self, if_true]
      simp
    · intro x y
      simp only [Patch.at, hA, hB, ← hx, ← hy, ← hs.1, ← hs.2]
      by_cases h : p.x0 ≤ x ∧ x < p.x0 + A.w ∧ p.y0 ≤ y ∧ y < p.y0 + A.h
      · simp only [if_pos h]
        rw [if_pos (by omega)]
      · simp only [if_neg h, hf]
    · intro x y h
      simp only [Patch.covers, hA, hB, ← hx, ← hy, ← hs.1, ← hs.2] at h ⊢
      tauto
    · simp only [Patch.extent, Patch.shape, ← hx, ← hy, ← hs.1, ← hs.2]
      simp
  · rw [Patch.arith, if_neg hsame]
    simp only [hA, hB, Patch.shape, Arr.zeros]
    rw [modify_range _ _ _ _ _ _ _ (by omega) (by omega) (by simp only []; omega) (by omega)
      (by omega) (by simp only []; omega) (by omega) (by omega)]
    simp only []
    rw [modify_range _ _ _ _ _ _ _ (by omega) (by omega) (by simp only []; omega) (by omega)
      (by omega) (by simp only []; omega) (by omega) (by omega)]
    refine ⟨_, rfl, ?_, ?_, ?_⟩
    · intro x y
      simp only [Patch.at, hA, hB]
      by_cases hu : min q.x0 p.x0 ≤ x ∧ x < max (q.x0 + B.w) (p.x0 + A.w) ∧
          min q.y0 p.y0 ≤ y ∧ y < max (q.y0 + B.h) (p.y0 + A.h)
      · rw [if_pos (by omega)]
        by_cases h1 : p.x0 ≤ x ∧ x < p.x0 + A.w ∧ p.y0 ≤ y ∧ y < p.y0 + A.h
        · rw [if_pos h1]
          have e1 : (y - min q.y0 p.y0).toNat - (p.y0 - min q.y0 p.y0).toNat = (y - p.y0).toNat := by
            omega
          have e2 : (x - min q.x0 p.x0).toNat - (p.x0 - min q.x0 p.x0).toNat = (x - p.x0).toNat := by
            omega
          by_cases h2 : q.x0 ≤ x ∧ x < q.x0 + B.w ∧ q.y0 ≤ y ∧ y < q.y0 + B.h
          · have e3 : (y - min q.y0 p.y0).toNat - (q.y0 - min q.y0 p.y0).toNat = (y - q.y0).toNat := by
              omega
            have e4 : (x - min q.x0 p.x0).toNat - (q.x0 - min q.x0 p.x0).toNat = (x - q.x0).toNat := by
              omega
            rw [if_pos h2, if_pos (by omega), if_pos (by omega), e1, e2, e3, e4]
          · rw [if_neg h2, if_neg (by omega), if_pos (by omega), e1, e2, hf]
        · rw [if_neg h1]
          by_cases h2 : q.x0 ≤ x ∧ x < q.x0 + B.w ∧ q.y0 ≤ y ∧ y < q.y0 + B.h
          · have e3 : (y - min q.y0 p.y0).toNat - (q.y0 - min q.y0 p.y0).toNat = (y - q.y0).toNat := by
              omega
            have e4 : (x - min q.x0 p.x0).toNat - (q.x0 - min q.x0 p.x0).toNat = (x - q.x0).toNat := by
              omega
            rw [if_pos h2, if_pos (by omega), if_neg (by omega), e3, e4]
          · rw [if_neg h2, if_neg (by omega), if_neg (by omega), hf]
      · rw [if_neg (by omega), if_neg (by omega), if_neg (by omega), hf]
    · intro x y h
      simp only [Patch.covers, hA, hB] at h ⊢
      omega
    · simp only [Patch.extent, Patch.shape, Prod.mk.injEq]
      omega

theorem addTo_ok [Add α] [Mul α] [Zero α] (p : Patch α) (img : Arr α) (s : α) :
    ∃ r, p.addTo img s = .ok r ∧ r.h = img.h ∧ r.w = img.w ∧
      ∀ y x : Nat, y < img.h → x < img.w →
        r.px y x = if p.covers x y then img.px y x + p.at x y * s else img.px y x := by
  cases hA : p.patch with
  | none => exact ⟨img, by simp [Patch.addTo, hA], rfl, rfl, by simp [Patch.covers, hA]⟩
  | some A =>
    simp only [Patch.addTo, hA, Patch.covers, Patch.at]
    have hx := overlap_spec p.x0 (p.x0 + A.w - 1) 0 (img.w - 1)
    have hy := overlap_spec p.y0 (p.y0 + A.h - 1) 0 (img.h - 1)
    cases hox : overlapRegion p.x0 (p.x0 + A.w - 1) 0 (img.w - 1) with
    | none =>
      have := hx.1.1 hox
      refine ⟨img, rfl, rfl, rfl, ?_⟩
      intro y x h1 h2
      rw [if_neg (by omega)]
    | some rx =>
      obtain ⟨ex, x1, x2, x3, x4⟩ := hx.2 _ hox
      cases hoy : overlapRegion p.y0 (p.y0 + A.h - 1) 0 (img.h - 1) with
      | none =>
        have := hy.1.1 hoy
        refine ⟨img, rfl, rfl, rfl, ?_⟩
        intro y x h1 h2
        rw [if_neg (by omega)]
      | some ry =>
        obtain ⟨ey, y1, y2, y3, y4⟩ := hy.2 _ hoy
        subst ex; subst ey
        simp only []
        rw [slice_range _ _ _ _ _ (by omega) (by omega) (by omega) (by omega) (by omega) (by omega)]
        rw [modify_range _ _ _ _ _ _ _ (by omega) (by omega) (by omega) (by omega) (by omega)
          (by omega) (by simp only [Arr.map]; omega) (by simp only [Arr.map]; omega)]
        refine ⟨_, rfl, rfl, rfl, ?_⟩
        intro y x h1 h2
        by_cases h : p.x0 ≤ x ∧ (x:Int) < p.x0 + A.w ∧ p.y0 ≤ y ∧ (y:Int) < p.y0 + A.h
        · simp only [if_pos h]
          rw [if_pos (by omega)]
          simp only [Arr.map]
          have e1 : (max p.y0 0 - p.y0).toNat + (y - (max p.y0 0).toNat) = ((y:Int) - p.y0).toNat := by
            omega
          have e2 : (max p.x0 0 - p.x0).toNat + (x - (max p.x0 0).toNat) = ((x:Int) - p.x0).toNat := by
            omega
          rw [e1, e2]
        · simp only [if_neg h]
          rw [if_neg (by omega)]

/-- Cutting the left columns. -/
theorem slice_left (A : Arr α) (k : Int) (h : 0 ≤ k) :
    A.slice none none (some k) none =
      ⟨A.h, A.w - k.toNat, fun r c => A.px r (min k.toNat A.w + c)⟩ := by
  simp [Arr.slice, axis_full, axis_from _ _ h]

theorem slice_top (A : Arr α) (k : Int) (h : 0 ≤ k) :
    A.slice (some k) none none none =
      ⟨A.h - k.toNat, A.w, fun r c => A.px (min k.toNat A.h + r) c⟩ := by
  simp [Arr.slice, axis_full, axis_from _ _ h]

theorem slice_right (A : Arr α) (k : Int) (h : 0 ≤ k) :
    A.slice none none none (some k) = ⟨A.h, min k.toNat A.w, A.px⟩ := by
  simp [Arr.slice, axis_full, axis_to _ _ h]

theorem slice_bottom (A : Arr α) (k : Int) (h : 0 ≤ k) :
    A.slice none (some k) none none = ⟨min k.toNat A.h, A.w, A.px⟩ := by
  simp [Arr.slice, axis_full, axis_to _ _ h]

/-- A patch that is the part of `p` inside a box. -/
def CutTo [Zero α] (p q : Patch α) (x0 x1 y0 y1 : Int) : Prop :=
  (∀ x y, q.covers x y ↔ p.covers x y ∧ x0 ≤ x ∧ x < x1 ∧ y0 ≤ y ∧ y < y1) ∧
  (∀ x y, x0 ≤ x ∧ x < x1 ∧ y0 ≤ y ∧ y < y1 → q.at x y = p.at x y)

theorem left_uniform (A : Arr α) (o lo : Int) :
    (if o < lo then (lo, A.slice none none (some (lo - o)) none) else (o, A)) =
      (max o lo, ⟨A.h, A.w - (lo - o).toNat, fun r c => A.px r (min (lo - o).toNat A.w + c)⟩) := by
  split_ifs with h
  · rw [slice_left _ _ (by omega), show max o lo = lo by omega]
  · have : (lo - o).toNat = 0 := by omega
    rw [show max o lo = o by omega, this]; simp

theorem top_uniform (A : Arr α) (o lo : Int) :
    (if o < lo then (lo, A.slice (some (lo - o)) none none none) else (o, A)) =
      (max o lo, ⟨A.h - (lo - o).toNat, A.w, fun r c => A.px (min (lo - o).toNat A.h + r) c⟩) := by
  split_ifs with h
  · rw [slice_top _ _ (by omega), show max o lo = lo by omega]
  · have : (lo - o).toNat = 0 := by omega
    rw [show max o lo = o by omega, this]; simp

theorem right_uniform (A : Arr α) (o hi : Int) (h : o ≤ hi) (n : Nat) (hn : n = A.w) :
    (if o + n > hi then A.slice none none none (some (hi - o)) else A) =
      ⟨A.h, min (hi - o).toNat A.w, A.px⟩ := by
  subst hn
  split_ifs with h'
  · rw [slice_right _ _ (by omega)]
  · rw [show min (hi - o).toNat A.w = A.w by omega]

theorem bottom_uniform (A : Arr α) (o hi : Int) (h : o ≤ hi) (n : Nat) (hn : n = A.h) :
    (if o + n > hi then A.slice none (some (hi - o)) none none else A) =
      ⟨min (hi - o).toNat A.h, A.w, A.px⟩ := by
  subst hn
  split_ifs with h'
  · rw [slice_bottom _ _ (by omega)]
  · rw [show min (hi - o).toNat A.h = A.h by omega]

theorem cut_key [Zero α] (p : Patch α) (A : Arr α) (hA : p.patch = some A) (x0 x1 y0 y1 : Int)
    (hx : p.x0 < x1) (hy : p.y0 < y1) (hx1 : x0 ≤ x1) (hy1 : y0 ≤ y1) :
    CutTo p ⟨max p.x0 x0, max p.y0 y0, some
      ⟨min (y1 - max p.y0 y0).toNat (A.h - (y0 - p.y0).toNat),
        min (x1 - max p.x0 x0).toNat (A.w - (x0 - p.x0).toNat),
        fun r c => A.px (min (y0 - p.y0).toNat A.h + r) (min (x0 - p.x0).toNat A.w + c)⟩⟩
      x0 x1 y0 y1 := by
  constructor
  · intro x y
    simp only [Patch.covers, hA]
    omega
  · intro x y hb
    simp only [Patch.at, hA]
    by_cases hin : p.x0 ≤ x ∧ x < p.x0 + A.w ∧ p.y0 ≤ y ∧ y < p.y0 + A.h
    · rw [if_pos hin, if_pos (by omega)]
      have e1 : min (y0 - p.y0).toNat A.h + (y - max p.y0 y0).toNat = (y - p.y0).toNat := by omega
      have e2 : min (x0 - p.x0).toNat A.w + (x - max p.x0 x0).toNat = (x - p.x0).toNat := by omega
      rw [e1, e2]
    · rw [if_neg hin, if_neg (by omega)]

theorem clipTo_ok [Zero α] (p : Patch α) (W H : Nat) :
    ∃ q b, p.clipTo W H = (q, .ok b) ∧ CutTo p q 0 W 0 H ∧
      (b = false ↔ (p.patch = none ∨ (W : Int) ≤ p.x0 ∨ (H : Int) ≤ p.y0)) ∧
      (b = false ↔ q.patch = none) := by
  cases hA : p.patch with
  | none =>
    refine ⟨p, false, by simp [Patch.clipTo, hA], ?_, by simp [hA], by simp [hA]⟩
    constructor <;> intro x y <;> simp [Patch.covers, hA]
  | some A =>
    simp only [Patch.clipTo, hA]
    by_cases h1 : p.x0 ≥ W
    · rw [if_pos h1]
      refine ⟨_, false, rfl, ⟨?_, ?_⟩, by simp [h1], by simp⟩
      · intro x y; simp only [Patch.covers, hA, false_iff]; omega
      · intro x y h; simp only [Patch.at, hA]; rw [if_neg (by omega)]
    · rw [if_neg h1]
      by_cases h2 : p.y0 ≥ H
      · rw [if_pos h2]
        refine ⟨_, false, rfl, ⟨?_, ?_⟩, by simp [h2], by simp⟩
        · intro x y; simp only [Patch.covers, hA, false_iff]; omega
        · intro x y h; simp only [Patch.at, hA]; rw [if_neg (by omega)]
      · rw [if_neg h2]
        have e1 := left_uniform A p.x0 0
        simp only [Int.zero_sub] at e1
        rw [e1]
        simp only []
        have e2 := fun B : Arr α => top_uniform B p.y0 0
        simp only [Int.zero_sub] at e2
        rw [e2]
        simp only []
        rw [right_uniform _ (max p.x0 0) W (by omega) _ ?hw]
        case hw => rfl
        simp only []
        rw [bottom_uniform _ (max p.y0 0) H (by omega) _ ?hh]
        case hh => rfl
        simp only []
        rw [if_pos (by omega)]
        refine ⟨_, true, rfl, ?_, by simp; omega, by simp⟩
        have := cut_key p A hA 0 W 0 H (by omega) (by omega) (by omega) (by omega)
        simpa only [Int.zero_sub] using this

theorem clipToRoi_ok [Zero α] (p : Patch α) (x0 x1 y0 y1 : Int) (hx : x0 ≤ x1) (hy : y0 ≤ y1) :
    CutTo p (p.clipToRoi x0 x1 y0 y1).1 x0 x1 y0 y1 ∧
    ((p.clipToRoi x0 x1 y0 y1).2 = false ↔ (p.clipToRoi x0 x1 y0 y1).1.patch = none) ∧
    ((p.clipToRoi x0 x1 y0 y1).2 = true ↔ ∃ A, p.patch = some A ∧
      p.x0 < x1 ∧ x0 < p.x0 + A.w ∧ p.y0 < y1 ∧ y0 < p.y0 + A.h) := by
  cases hA : p.patch with
  | none =>
    simp only [Patch.clipToRoi, hA]
    refine ⟨⟨?_, ?_⟩, by simp, by simp⟩ <;> intro x y <;> simp [Patch.covers, hA]
  | some A =>
    simp only [Patch.clipToRoi, hA]
    by_cases h : p.x0 ≥ x1 ∨ p.x0 + A.w ≤ x0 ∨ p.y0 ≥ y1 ∨ p.y0 + A.h ≤ y0
    · rw [if_pos h]
      refine ⟨⟨?_, ?_⟩, by simp, ?_⟩
      · intro x y; simp only [Patch.covers, hA, false_iff]; omega
      · intro x y hb; simp only [Patch.at, hA]; rw [if_neg (by omega)]
      · simp only [Option.some.injEq, Bool.false_eq_true, false_iff]
        rintro ⟨B, rfl, hB⟩
        omega
    · rw [if_neg h, left_uniform]
      simp only []
      rw [top_uniform]
      simp only []
      rw [right_uniform _ (max p.x0 x0) x1 (by omega) _ ?hw]
      case hw => rfl
      simp only []
      rw [bottom_uniform _ (max p.y0 y0) y1 (by omega) _ ?hh]
      case hh => rfl
      refine ⟨cut_key p A hA x0 x1 y0 y1 (by omega) (by omega) hx hy, by simp, ?_⟩
      simp only [Option.some.injEq, true_iff]
      exact ⟨A, rfl, by omega⟩

end Verif.Patches
