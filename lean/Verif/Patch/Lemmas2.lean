import Verif.Patch.Lemmas
import Mathlib.Algebra.Order.Ring.Defs
import Mathlib.Algebra.Order.BigOperators.Group.List
import Mathlib.Algebra.Order.Ring.Int

set_option linter.unusedSimpArgs false
set_option linter.unusedVariables false

/-! Helper lemmas: trimming, pixel indices, overlaps. -/

namespace Verif.Patches

open Verif

variable {α : Type}

/-! ### trimToNonZero -/

/-- The two loops on one axis. -/
theorem trim_axis (z : Nat → Bool) (n : Nat) (hn : 0 < n) :
    ((∃ x, x < n ∧ z x = false) →
      trimLo z n < trimHi z n (trimLo z n) ∧ trimHi z n (trimLo z n) ≤ n ∧
      z (trimLo z n) = false ∧ z (trimHi z n (trimLo z n) - 1) = false ∧
      ∀ x, x < n → z x = false → trimLo z n ≤ x ∧ x < trimHi z n (trimLo z n)) ∧
    ((∀ x, x < n → z x = true) →
      trimLo z n = n - 1 ∧ trimHi z n (trimLo z n) = if n = 1 then 1 else n - 1) := by
  constructor
  · rintro ⟨x, hx, hz⟩
    -- the first loop stops at the first nonzero
    have hlo : ∃ a, (List.range n).find? (fun x => !z x) = some a := by
      cases h : (List.range n).find? (fun x => !z x) with
      | some a => exact ⟨a, rfl⟩
      | none =>
        rw [List.find?_eq_none] at h
        have := h x (by simpa using hx)
        simp [hz] at this
    obtain ⟨a, ha⟩ := hlo
    have hla : trimLo z n = a := by simp [trimLo, ha]
    rw [hla]
    have ha1 : z a = false := by simpa using List.find?_some ha
    have ha2 : a < n := by simpa using List.mem_of_find?_eq_some ha
    have ha3 : ∀ y, y < a → z y = true := by
      rw [List.find?_range_eq_some] at ha
      intro y hy
      have := ha.2.2 y hy
      simpa using this
    have hhi : ∃ b, ((List.range n).reverse.map (· + 1)).find?
        (fun x => !z (x - 1) || decide (x ≤ a)) = some b := by
      cases h : ((List.range n).reverse.map (· + 1)).find?
          (fun x => !z (x - 1) || decide (x ≤ a)) with
      | some a => exact ⟨a, rfl⟩
      | none =>
        rw [List.find?_eq_none] at h
        have := h (a + 1) (by simp; exact ha2)
        simp [ha1] at this
    obtain ⟨b, hb⟩ := hhi
    have hlb : trimHi z n a = b := by rw [trimHi, hb]; rfl
    rw [hlb]
    rw [List.find?_eq_some_iff_append] at hb
    obtain ⟨hb1, as, bs, hb2, hb3⟩ := hb
    -- elements before b in the loop are those larger than b
    have hsplit : ∀ (m : Nat) (as bs : List Nat) (b : Nat),
        (List.range m).reverse.map (· + 1) = as ++ b :: bs →
          b ≤ m ∧ 1 ≤ b ∧ ∀ y, b < y → y ≤ m → y ∈ as := by
      intro m
      induction m with
      | zero => intro as bs b h; simp at h
      | succ m ih =>
        intro as bs b h
        rw [List.range_succ, List.reverse_append, List.map_append] at h
        simp only [List.reverse_cons, List.reverse_nil, List.nil_append, List.map_cons, List.map_nil,
          List.cons_append] at h
        cases as with
        | nil =>
          simp only [List.nil_append, List.cons.injEq] at h
          exact ⟨by omega, by omega, by intro y h1 h2; omega⟩
        | cons c as =>
          simp only [List.cons_append, List.cons.injEq] at h
          obtain ⟨h1, h2, h3⟩ := ih as bs b h.2
          refine ⟨by omega, h2, ?_⟩
          intro y hy1 hy2
          by_cases hy : y ≤ m
          · simp [h3 y hy1 hy]
          · have : y = m + 1 := by omega
            simp [this, ← h.1]
    obtain ⟨s1, s2, s3⟩ := hsplit n as bs b hb2
    have hbig : ∀ y, b < y → y ≤ n → z (y - 1) = true ∧ a < y := by
      intro y h1 h2
      have := hb3 y (s3 y h1 h2)
      simp only [Bool.not_eq_true', Bool.or_eq_false_iff, Bool.not_eq_false', decide_eq_false_iff_not,
        not_le] at this
      exact ⟨this.1, by omega⟩
    have hab : a < b := by
      rcases Nat.lt_or_ge a b with h | h
      · exact h
      · have := (hbig (a + 1) (by omega) (by omega)).1
        simp [ha1] at this
    refine ⟨hab, s1, ha1, ?_, ?_⟩
    · have hnot : ¬ b ≤ a := by omega
      simpa [hnot] using hb1
    · intro x hx hz
      constructor
      · rcases Nat.lt_or_ge x a with h | h
        · have := ha3 x h; simp [hz] at this
        · exact h
      · rcases Nat.lt_or_ge x b with h | h
        · exact h
        · have := (hbig (x + 1) (by omega) (by omega)).1
          simp [hz] at this
  · intro hz
    have hlo : trimLo z n = n - 1 := by
      have : (List.range n).find? (fun x => !z x) = none := by
        rw [List.find?_eq_none]
        intro x hx
        simp [hz x (by simpa using hx)]
      simp [trimLo, this]
    refine ⟨hlo, ?_⟩
    rw [hlo]
    match n, hn with
    | 1, _ => simp [trimHi, hz 0 (by omega), List.range_succ]
    | k + 2, _ =>
      have h1 : z (k + 1) = true := hz _ (by omega)
      simp [trimHi, List.range_succ, h1]

theorem colZero_eq [Zero α] [DecidableEq α] (A : Arr α) (c : Nat) :
    A.colZero c = true ↔ ∀ r, r < A.h → A.px r c = 0 := by
  simp [Arr.colZero]

theorem rowZero_eq [Zero α] [DecidableEq α] (A : Arr α) (r : Nat) :
    A.rowZero r = true ↔ ∀ c, c < A.w → A.px r c = 0 := by
  simp [Arr.rowZero]

theorem colZero_false [Zero α] [DecidableEq α] (A : Arr α) (c : Nat) :
    A.colZero c = false ↔ ∃ r, r < A.h ∧ A.px r c ≠ 0 := by
  rw [← Bool.not_eq_true, colZero_eq]; simp

theorem rowZero_false [Zero α] [DecidableEq α] (A : Arr α) (r : Nat) :
    A.rowZero r = false ↔ ∃ c, c < A.w ∧ A.px r c ≠ 0 := by
  rw [← Bool.not_eq_true, rowZero_eq]; simp

/-- First/last row/column of an array are not entirely zero. -/
def Tight [Zero α] (A : Arr α) : Prop :=
  0 < A.h ∧ 0 < A.w ∧
  (∃ c, c < A.w ∧ A.px 0 c ≠ 0) ∧ (∃ c, c < A.w ∧ A.px (A.h - 1) c ≠ 0) ∧
  (∃ r, r < A.h ∧ A.px r 0 ≠ 0) ∧ (∃ r, r < A.h ∧ A.px r (A.w - 1) ≠ 0)

theorem trim_ok [Zero α] [DecidableEq α] (p : Patch α) :
    (∀ x y, p.trimToNonZero.at x y = p.at x y) ∧
    ((∀ x y, p.trimToNonZero.covers x y → p.covers x y)) ∧
    (p.trimToNonZero.isEmpty ∨ (∃ B, p.trimToNonZero.patch = some B ∧ Tight B) ∨
      (∃ A, p.patch = some A ∧ A.h = 1 ∧ A.w = 1 ∧ A.px 0 0 = 0)) := by
  cases hA : p.patch with
  | none =>
    have : p.trimToNonZero = p := by simp [Patch.trimToNonZero, hA]
    rw [this]
    exact ⟨fun _ _ => rfl, fun _ _ h => h, .inl (by intro x y; simp [Patch.covers, hA])⟩
  | some A =>
    by_cases h0 : A.w = 0 ∨ A.h = 0
    · have : p.trimToNonZero = p := by simp only [Patch.trimToNonZero, hA, if_pos h0]
      rw [this]
      refine ⟨fun _ _ => rfl, fun _ _ h => h, .inl ?_⟩
      intro x y
      simp only [Patch.covers, hA]
      omega
    · have hw : 0 < A.w := by omega
      have hh : 0 < A.h := by omega
      obtain ⟨hx1, hx2⟩ := trim_axis A.colZero A.w hw
      obtain ⟨hy1, hy2⟩ := trim_axis A.rowZero A.h hh
      generalize hx0 : trimLo A.colZero A.w = x0 at hx1 hx2
      generalize hxe : trimHi A.colZero A.w x0 = x1 at hx1 hx2
      generalize hy0 : trimLo A.rowZero A.h = y0 at hy1 hy2
      generalize hye : trimHi A.rowZero A.h y0 = y1 at hy1 hy2
      by_cases hnz : ∃ r c, r < A.h ∧ c < A.w ∧ A.px r c ≠ 0
      · obtain ⟨r, c, hr, hc, hrc⟩ := hnz
        obtain ⟨a1, a2, a3, a4, a5⟩ := hx1 ⟨c, hc, (colZero_false A c).2 ⟨r, hr, hrc⟩⟩
        obtain ⟨b1, b2, b3, b4, b5⟩ := hy1 ⟨r, hr, (rowZero_false A r).2 ⟨c, hc, hrc⟩⟩
        have hz : ∀ r c, r < A.h → c < A.w → ¬ (x0 ≤ c ∧ c < x1 ∧ y0 ≤ r ∧ r < y1) → A.px r c = 0 := by
          intro r c hr hc hn
          by_contra hne
          have h1 := a5 c hc ((colZero_false A c).2 ⟨r, hr, hne⟩)
          have h2 := b5 r hr ((rowZero_false A r).2 ⟨c, hc, hne⟩)
          exact hn ⟨h1.1, h1.2, h2.1, h2.2⟩
        -- a uniform description of the result
        have hres : p.trimToNonZero.patch.map (fun B => (B.h, B.w)) = some (y1 - y0, x1 - x0) ∧
            p.trimToNonZero.x0 = p.x0 + x0 ∧ p.trimToNonZero.y0 = p.y0 + y0 ∧
            ∀ B, p.trimToNonZero.patch = some B → B.px = fun r c => A.px (y0 + r) (x0 + c) := by
          simp only [Patch.trimToNonZero, hA, if_neg h0, hx0, hxe, hy0, hye]
          by_cases hsame : x0 = 0 ∧ y0 = 0 ∧ x1 = A.w ∧ y1 = A.h
          · rw [if_pos hsame]
            obtain ⟨e1, e2, e3, e4⟩ := hsame
            simp only [hA, Option.map_some, e1, e2, e3, e4]
            refine ⟨by simp, by simp, by simp, ?_⟩
            intro B hB; cases hB; simp
          · rw [if_neg hsame, slice_range _ _ _ _ _ (by omega) (by omega) (by omega) (by omega)
              (by omega) (by omega)]
            simp only []
            rw [if_neg (by omega)]
            refine ⟨?_, trivial, trivial, ?_⟩
            · simp only [Option.map_some, Option.some.injEq, Prod.mk.injEq]; omega
            · intro B hB
              simp only [Option.some.injEq] at hB
              subst hB
              simp
        obtain ⟨r1, r2, r3, r4⟩ := hres
        rw [Option.map_eq_some_iff] at r1
        obtain ⟨B, hB, hBs⟩ := r1
        simp only [Prod.mk.injEq] at hBs
        have hBpx := r4 B hB
        refine ⟨?_, ?_, .inr (.inl ⟨B, hB, ?_⟩)⟩
        · intro x y
          simp only [Patch.at, hA, hB, r2, r3, hBpx]
          by_cases hin : p.x0 ≤ x ∧ x < p.x0 + A.w ∧ p.y0 ≤ y ∧ y < p.y0 + A.h
          · rw [if_pos hin]
            by_cases hbox : x0 ≤ (x - p.x0).toNat ∧ (x - p.x0).toNat < x1 ∧ y0 ≤ (y - p.y0).toNat ∧
                (y - p.y0).toNat < y1
            · rw [if_pos (by omega)]
              have e1 : y0 + (y - (p.y0 + y0)).toNat = (y - p.y0).toNat := by omega
              have e2 : x0 + (x - (p.x0 + x0)).toNat = (x - p.x0).toNat := by omega
              rw [e1, e2]
            · rw [if_neg (by omega)]
              exact (hz _ _ (by omega) (by omega) hbox).symm
          · rw [if_neg hin, if_neg (by omega)]
        · intro x y
          simp only [Patch.covers, hA, hB, r2, r3]
          omega
        · have hb : ∀ c, c < A.w → ∀ r, r < A.h → A.px r c ≠ 0 → x0 ≤ c ∧ c < x1 ∧ y0 ≤ r ∧ r < y1 := by
            intro c hc r hr hne
            by_contra hn
            exact hne (hz r c hr hc hn)
          refine ⟨by omega, by omega, ?_, ?_, ?_, ?_⟩
          · obtain ⟨c', hc', hne⟩ := (rowZero_false A y0).1 b3
            have := hb c' hc' y0 (by omega) hne
            refine ⟨c' - x0, by omega, ?_⟩
            rw [hBpx]; simp only [Nat.add_zero]
            rwa [show x0 + (c' - x0) = c' by omega]
          · obtain ⟨c', hc', hne⟩ := (rowZero_false A (y1 - 1)).1 b4
            have := hb c' hc' (y1 - 1) (by omega) hne
            refine ⟨c' - x0, by omega, ?_⟩
            rw [hBpx]
            simp only []
            rwa [show x0 + (c' - x0) = c' by omega, show y0 + (B.h - 1) = y1 - 1 by omega]
          · obtain ⟨r', hr', hne⟩ := (colZero_false A x0).1 a3
            have := hb x0 (by omega) r' hr' hne
            refine ⟨r' - y0, by omega, ?_⟩
            rw [hBpx]; simp only [Nat.add_zero]
            rwa [show y0 + (r' - y0) = r' by omega]
          · obtain ⟨r', hr', hne⟩ := (colZero_false A (x1 - 1)).1 a4
            have := hb (x1 - 1) (by omega) r' hr' hne
            refine ⟨r' - y0, by omega, ?_⟩
            rw [hBpx]
            simp only []
            rwa [show y0 + (r' - y0) = r' by omega, show x0 + (B.w - 1) = x1 - 1 by omega]
      · -- all pixels zero
        have hall : ∀ r c, r < A.h → c < A.w → A.px r c = 0 := by
          intro r c hr hc
          by_contra hne
          exact hnz ⟨r, c, hr, hc, hne⟩
        have hatz : ∀ x y, p.at x y = 0 := by
          intro x y
          simp only [Patch.at, hA]
          split_ifs with h
          · exact hall _ _ (by omega) (by omega)
          · rfl
        obtain ⟨a1, a2⟩ := hx2 (fun c hc => (colZero_eq A c).2 (fun r hr => hall r c hr hc))
        obtain ⟨b1, b2⟩ := hy2 (fun r hr => (rowZero_eq A r).2 (fun c hc => hall r c hr hc))
        by_cases hone : A.h = 1 ∧ A.w = 1
        · have hsame : x0 = 0 ∧ y0 = 0 ∧ x1 = A.w ∧ y1 = A.h := by
            rw [if_pos hone.2] at a2; rw [if_pos hone.1] at b2; omega
          have : p.trimToNonZero = p := by
            simp only [Patch.trimToNonZero, hA, if_neg h0, hx0, hxe, hy0, hye, if_pos hsame]
          rw [this]
          exact ⟨fun _ _ => rfl, fun _ _ h => h, .inr (.inr ⟨A, rfl, hone.1, hone.2, hall 0 0 hh hw⟩)⟩
        · have hnone : p.trimToNonZero.patch = none := by
            have hns : ¬ (x0 = 0 ∧ y0 = 0 ∧ x1 = A.w ∧ y1 = A.h) := by
              intro h
              split_ifs at a2 b2 <;> omega
            simp only [Patch.trimToNonZero, hA, if_neg h0, hx0, hxe, hy0, hye, if_neg hns]
            have hx1r : x0 ≤ x1 ∧ x1 ≤ A.w := by split_ifs at a2 <;> omega
            have hy1r : y0 ≤ y1 ∧ y1 ≤ A.h := by split_ifs at b2 <;> omega
            rw [slice_range _ _ _ _ _ (by omega) (by omega) (by omega) (by omega) (by omega) (by omega)]
            simp only []
            rw [if_pos]
            split_ifs at a2 b2 <;> omega
          refine ⟨?_, ?_, .inl ?_⟩
          · intro x y; rw [hatz]; simp [Patch.at, hnone]
          · intro x y; simp [Patch.covers, hnone]
          · intro x y; simp [Patch.covers, hnone]

/-! ### Pixel indices -/

theorem wrap32_of_range (n : Int) (h0 : 0 ≤ n) (h1 : n < 2 ^ 31) : wrap32 n = n := by
  simp only [wrap32]; omega

theorem pixelIndices_ok (p : Patch α) (A : Arr α) (hA : p.patch = some A) (W H : Nat)
    (hx : 0 ≤ p.x0) (hy : 0 ≤ p.y0) (hx1 : p.x0 + A.w ≤ W) (hy1 : p.y0 + A.h ≤ H)
    (hsz : W * H < 2 ^ 31) :
    p.getPixelIndices W = (List.range A.h).flatMap (fun j : Nat => (List.range A.w).map (fun i : Nat =>
      (p.y0 + j) * W + (p.x0 + i))) := by
  simp only [Patch.getPixelIndices, hA]
  apply List.flatMap_congr
  intro j hj
  apply List.map_congr_left
  intro i hi
  simp only [List.mem_range] at hi hj
  have hpos : 0 < W ∧ 0 < H := by omega
  have hWH : W ≤ W * H := Nat.le_mul_of_pos_right W hpos.2
  have hHW : H ≤ W * H := Nat.le_mul_of_pos_left H hpos.1
  have hmul : (p.y0 + j + 1) * (W : Int) ≤ (W : Int) * H := by
    rw [Int.mul_comm]
    apply Int.mul_le_mul_of_nonneg_left <;> omega
  have hmul0 : 0 ≤ (p.y0 + j) * (W : Int) := by
    apply Int.mul_nonneg <;> omega
  have hsz' : (W : Int) * H < 2 ^ 31 := by exact_mod_cast hsz
  rw [Int.add_mul, Int.one_mul] at hmul
  rw [wrap32_of_range p.x0 hx (by omega), wrap32_of_range p.y0 hy (by omega),
    wrap32_of_range (W : Int) (by omega) (by omega), wrap32_of_range (i + p.x0) (by omega) (by omega),
    wrap32_of_range (j + p.y0) (by omega) (by omega)]
  have e : ((j : Int) + p.y0) * W = (p.y0 + j) * W := by rw [Int.add_comm]
  rw [e, wrap32_of_range ((p.y0 + j) * W) hmul0 (by omega), wrap32_of_range _ (by omega) (by omega)]
  omega

/-! ### Overlaps -/

theorem sum_pos_iff [Ring α] [LinearOrder α] [IsStrictOrderedRing α] (l : List α)
    (h : ∀ a ∈ l, 0 ≤ a) : 0 < l.sum ↔ ∃ a ∈ l, a ≠ 0 := by
  induction l with
  | nil => simp
  | cons a l ih =>
    have h1 := h a (by simp)
    have h2 : 0 ≤ l.sum := List.sum_nonneg (fun b hb => h b (by simp [hb]))
    have ih := ih (fun b hb => h b (by simp [hb]))
    simp only [List.sum_cons, List.mem_cons, exists_eq_or_imp]
    rw [← ih]
    constructor
    · intro hs
      by_cases ha : a = 0
      · right; simpa [ha] using hs
      · exact .inl ha
    · rintro (ha | hl)
      · exact add_pos_of_pos_of_nonneg (lt_of_le_of_ne h1 (Ne.symm ha)) h2
      · exact add_pos_of_nonneg_of_pos h1 hl

theorem nonzeroOverlap_ok [Ring α] [LinearOrder α] [IsStrictOrderedRing α] (p q : Patch α) (A B : Arr α)
    (hA : p.patch = some A) (hB : q.patch = some B) (h1 : 0 < A.h ∧ 0 < A.w) (h2 : 0 < B.h ∧ 0 < B.w)
    (hp : ∀ x y, 0 ≤ p.at x y) (hq : ∀ x y, 0 ≤ q.at x y) :
    ∃ b, p.hasNonzeroOverlapWith q = .ok b ∧ (b = true ↔ ∃ x y, p.at x y ≠ 0 ∧ q.at x y ≠ 0) := by
  simp only [Patch.hasNonzeroOverlapWith, Patch.overlapsBbox, Patch.extent, Patch.shape, hA, hB]
  simp only [Int.sub_zero, Int.add_zero]
  by_cases hdis : p.x0 ≥ q.x0 + B.w ∨ q.x0 ≥ p.x0 + A.w ∨ p.y0 ≥ q.y0 + B.h ∨ q.y0 ≥ p.y0 + A.h
  · rw [if_pos hdis]
    refine ⟨false, by simp, ?_⟩
    simp only [Bool.false_eq_true, false_iff]
    rintro ⟨x, y, hpx, hqx⟩
    simp only [Patch.at, hA, hB] at hpx hqx
    split_ifs at hpx hqx <;> first | omega | simp at *
  · rw [if_neg hdis]
    simp only [Bool.true_eq_false, if_false]
    have hox := overlap_spec q.x0 (q.x0 + B.w - 1) p.x0 (p.x0 + A.w - 1)
    have hoy := overlap_spec q.y0 (q.y0 + B.h - 1) p.y0 (p.y0 + A.h - 1)
    cases ex : overlapRegion q.x0 (q.x0 + B.w - 1) p.x0 (p.x0 + A.w - 1) with
    | none => have := hox.1.1 ex; omega
    | some rx =>
      cases ey : overlapRegion q.y0 (q.y0 + B.h - 1) p.y0 (p.y0 + A.h - 1) with
      | none => have := hoy.1.1 ey; omega
      | some ry =>
        obtain ⟨hrx, -⟩ := hox.2 _ ex
        obtain ⟨hry, -⟩ := hoy.2 _ ey
        subst hrx; subst hry
        simp only []
        rw [slice_range A _ _ _ _ (by omega) (by omega) (by omega) (by omega) (by omega) (by omega),
          slice_range B _ _ _ _ (by omega) (by omega) (by omega) (by omega) (by omega) (by omega)]
        simp only []
        rw [if_pos (by constructor <;> omega)]
        refine ⟨_, rfl, ?_⟩
        have hpA : ∀ r c, r < A.h → c < A.w → 0 ≤ A.px r c := by
          intro r c hr hc
          have := hp (p.x0 + c) (p.y0 + r)
          simp only [Patch.at, hA] at this
          rw [if_pos (by omega), show (p.y0 + (r:Int) - p.y0).toNat = r by omega,
            show (p.x0 + (c:Int) - p.x0).toNat = c by omega] at this
          exact this
        have hqB : ∀ r c, r < B.h → c < B.w → 0 ≤ B.px r c := by
          intro r c hr hc
          have := hq (q.x0 + c) (q.y0 + r)
          simp only [Patch.at, hB] at this
          rw [if_pos (by omega), show (q.y0 + (r:Int) - q.y0).toNat = r by omega,
            show (q.x0 + (c:Int) - q.x0).toNat = c by omega] at this
          exact this
        rw [decide_eq_true_eq, sum_pos_iff]
        · constructor
          · rintro ⟨a, ha, hne⟩
            simp only [List.mem_flatMap, List.mem_map, List.mem_range] at ha
            obtain ⟨r, hr, c, hc, rfl⟩ := ha
            refine ⟨max q.x0 p.x0 + c, max q.y0 p.y0 + r, ?_, ?_⟩
            · simp only [Patch.at, hA]
              rw [if_pos (by omega)]
              have e1 : (max q.y0 p.y0 - p.y0).toNat + r = (max q.y0 p.y0 + (r:Int) - p.y0).toNat := by omega
              have e2 : (max q.x0 p.x0 - p.x0).toNat + c = (max q.x0 p.x0 + (c:Int) - p.x0).toNat := by omega
              rw [← e1, ← e2]
              exact left_ne_zero_of_mul hne
            · simp only [Patch.at, hB]
              rw [if_pos (by omega)]
              have e1 : (max q.y0 p.y0 - q.y0).toNat + r = (max q.y0 p.y0 + (r:Int) - q.y0).toNat := by omega
              have e2 : (max q.x0 p.x0 - q.x0).toNat + c = (max q.x0 p.x0 + (c:Int) - q.x0).toNat := by omega
              rw [← e1, ← e2]
              exact right_ne_zero_of_mul hne
          · rintro ⟨x, y, hpx, hqx⟩
            simp only [Patch.at, hA] at hpx
            simp only [Patch.at, hB] at hqx
            split_ifs at hpx with hin1
            · split_ifs at hqx with hin2
              · refine ⟨_, ?_, mul_ne_zero hpx hqx⟩
                simp only [List.mem_flatMap, List.mem_map, List.mem_range]
                refine ⟨(y - max q.y0 p.y0).toNat, by omega, (x - max q.x0 p.x0).toNat, by omega, ?_⟩
                rw [show (max q.y0 p.y0 - p.y0).toNat + (y - max q.y0 p.y0).toNat = (y - p.y0).toNat by omega,
                  show (max q.x0 p.x0 - p.x0).toNat + (x - max q.x0 p.x0).toNat = (x - p.x0).toNat by omega,
                  show (max q.y0 p.y0 - q.y0).toNat + (y - max q.y0 p.y0).toNat = (y - q.y0).toNat by omega,
                  show (max q.x0 p.x0 - q.x0).toNat + (x - max q.x0 p.x0).toNat = (x - q.x0).toNat by omega]
              · exact absurd rfl hqx
            · exact absurd rfl hpx
        · intro a ha
          simp only [List.mem_flatMap, List.mem_map, List.mem_range] at ha
          obtain ⟨r, hr, c, hc, rfl⟩ := ha
          exact mul_nonneg (hpA _ _ (by omega) (by omega)) (hqB _ _ (by omega) (by omega))

/-- The two slices returned by `getSlices` have equal sizes and correspond pixel by pixel. -/
theorem getSlices_ok (p : Patch α) (H W : Nat) :
    ∀ iy ix oy ox, p.getSlices H W = ((iy, ix), (oy, ox)) →
      (0 ≤ ix.1 ∧ ix.1 ≤ ix.2 ∧ ix.2 ≤ p.shape.2 ∧ 0 ≤ iy.1 ∧ iy.1 ≤ iy.2 ∧ iy.2 ≤ p.shape.1) ∧
      (0 ≤ ox.1 ∧ ox.1 ≤ ox.2 ∧ ox.2 ≤ W ∧ 0 ≤ oy.1 ∧ oy.1 ≤ oy.2 ∧ oy.2 ≤ H) ∧
      (ix.2 - ix.1 = ox.2 - ox.1 ∧ iy.2 - iy.1 = oy.2 - oy.1) ∧
      (∀ x y : Int, (ox.1 ≤ x ∧ x < ox.2 ∧ oy.1 ≤ y ∧ y < oy.2) ↔
        (p.covers x y ∧ 0 ≤ x ∧ x < W ∧ 0 ≤ y ∧ y < H)) ∧
      (ox.1 < ox.2 → oy.1 < oy.2 → ox.1 - ix.1 = p.x0 ∧ oy.1 - iy.1 = p.y0) := by
  intro iy ix oy ox h
  have hcov : ∀ x y : Int, p.covers x y ↔ (p.x0 ≤ x ∧ x < p.x0 + p.shape.2 ∧ p.y0 ≤ y ∧
      y < p.y0 + p.shape.1) := by
    intro x y
    simp only [Patch.covers, Patch.shape]
    cases p.patch with
    | none => simp
    | some A => simp
  simp only [hcov]
  simp only [Patch.getSlices] at h
  have hox := overlap_spec p.x0 (p.x0 + p.shape.2 - 1) 0 (W - 1)
  have hoy := overlap_spec p.y0 (p.y0 + p.shape.1 - 1) 0 (H - 1)
  cases ex : overlapRegion p.x0 (p.x0 + p.shape.2 - 1) 0 (W - 1) with
  | none =>
    have := hox.1.1 ex
    simp only [ex, Prod.mk.injEq] at h
    obtain ⟨⟨rfl, rfl⟩, rfl, rfl⟩ := h
    simp only []
    refine ⟨by omega, by omega, ⟨trivial, trivial⟩, ?_, by intro _ _; omega⟩
    intro x y; omega
  | some rx =>
    cases ey : overlapRegion p.y0 (p.y0 + p.shape.1 - 1) 0 (H - 1) with
    | none =>
      have := hoy.1.1 ey
      simp only [ex, ey, Prod.mk.injEq] at h
      obtain ⟨⟨rfl, rfl⟩, rfl, rfl⟩ := h
      simp only []
      refine ⟨by omega, by omega, ⟨trivial, trivial⟩, ?_, by intro _ _; omega⟩
      intro x y; omega
    | some ry =>
      obtain ⟨hrx, x1, x2, x3, x4⟩ := hox.2 _ ex
      obtain ⟨hry, y1, y2, y3, y4⟩ := hoy.2 _ ey
      subst hrx; subst hry
      simp only [ex, ey, Prod.mk.injEq] at h
      obtain ⟨⟨rfl, rfl⟩, rfl, rfl⟩ := h
      simp only []
      refine ⟨by omega, by omega, by omega, ?_, by intro _ _; omega⟩
      intro x y; omega

end Verif.Patches
