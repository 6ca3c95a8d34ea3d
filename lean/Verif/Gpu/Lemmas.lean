import Verif.Gpu.Model
import Verif.Psf.PropsLanczos

namespace Verif.Gpu

open Verif Verif.Psf

variable {R : Type}

section
variable [Field R]

omit [Field R] in
/-- A list of computations that all succeed. -/
theorem mapM_ok {α β : Type} (f : α → Except PyErr β) (g : α → β) : ∀ l : List α, (∀ a ∈ l, f a = .ok (g a)) →
    l.mapM f = .ok (l.map g) := by
  intro l
  induction l with
  | nil => intro _; rfl
  | cons a l ih =>
    intro h
    rw [List.mapM_cons, h a (by simp), ih (fun a ha => h a (by simp [ha]))]
    rfl

omit [Field R] in
/-- A list of computations that all succeed, without naming the results. -/
theorem mapM_ex {α β : Type} (f : α → Except PyErr β) (Q : α → β → Prop) : ∀ l : List α,
    (∀ a ∈ l, ∃ b, f a = .ok b ∧ Q a b) → ∃ bs, l.mapM f = .ok bs ∧ bs.length = l.length ∧
      ∀ (i : Nat) (a : α) (b : β), l[i]? = some a → bs[i]? = some b → f a = .ok b ∧ Q a b := by
  intro l
  induction l with
  | nil => intro _; exact ⟨[], rfl, rfl, by simp⟩
  | cons a l ih =>
    intro h
    obtain ⟨b, hb, q⟩ := h a (by simp)
    obtain ⟨bs, e, hl, hi⟩ := ih (fun a ha => h a (by simp [ha]))
    refine ⟨b :: bs, ?_, by simp [hl], ?_⟩
    · rw [List.mapM_cons, hb, e]; rfl
    · intro i a' b' h1 h2
      cases i with
      | zero =>
        simp only [List.getElem?_cons_zero, Option.some.injEq] at h1 h2
        subst h1; subst h2; exact ⟨hb, q⟩
      | succ i =>
        simp only [List.getElem?_cons_succ] at h1 h2
        exact hi i a' b' h1 h2

/-! ### Slices -/

omit [Field R] in
theorem modify_of (A B : Arr R) (op : R → R → R) (r0 r1 c0 c1 : Option Int) (i n j m : Nat)
    (hr : Arr.axis A.h r0 r1 = (i, n)) (hc : Arr.axis A.w c0 c1 = (j, m)) (h1 : B.h = n) (h2 : B.w = m) :
    A.modify r0 r1 c0 c1 op B = .ok ⟨A.h, A.w, fun r c => if i ≤ r ∧ r < i + n ∧ j ≤ c ∧ c < j + m then
      op (A.px r c) (B.px (r - i) (c - j)) else A.px r c⟩ := by
  subst h1; subst h2
  simp [Arr.modify, hr, hc]

omit [Field R] in
theorem slice_of (A : Arr R) (r0 r1 c0 c1 : Option Int) (i n j m : Nat)
    (hr : Arr.axis A.h r0 r1 = (i, n)) (hc : Arr.axis A.w c0 c1 = (j, m)) :
    A.slice r0 r1 c0 c1 = ⟨n, m, fun r c => A.px (i + r) (j + c)⟩ := by
  simp [Arr.slice, hr, hc]

theorem axis_nat (n a b : Nat) (hb : a + b ≤ n) : Arr.axis n (some (a : Int)) (some ((a : Int) + b)) = (a, b) := by
  rw [axis_of n _ _ (by omega) (by omega), Prod.mk.injEq]
  omega

theorem axis_int (n : Nat) (a b : Int) (ha : 0 ≤ a) (hab : a ≤ b) (hb : b ≤ n) :
    Arr.axis n (some a) (some b) = (a.toNat, (b - a).toNat) := by
  rw [axis_of n _ _ (by omega) (by omega), Prod.mk.injEq]
  omega

theorem axis_all (n : Nat) : Arr.axis n none none = (0, n) := rfl

/-! ### The padded stamp -/

/-- One axis. -/
theorem padStart_ok (sz p : Nat) (hs : sz % 2 = 0) : (padStart sz p).1 + min p sz ≤ sz ∧ (padStart sz p).2 + min p sz ≤ p ∧
    ∀ c : Nat, c < sz → (((padStart sz p).1 ≤ c ∧ c < (padStart sz p).1 + min p sz) ↔
      (0 ≤ (c : Int) - (sz / 2 : Nat) + (p / 2 : Nat) ∧ (c : Int) - (sz / 2 : Nat) + (p / 2 : Nat) < p)) ∧
      ((padStart sz p).1 ≤ c → (((padStart sz p).2 + (c - (padStart sz p).1) : Nat) : Int) =
        (c : Int) - (sz / 2 : Nat) + (p / 2 : Nat)) := by
  unfold padStart
  by_cases h : p / 2 ≥ sz / 2
  · rw [if_pos h]
    refine ⟨by simp only; omega, by simp only; omega, fun c hc => ⟨by simp only; omega, by simp only; omega⟩⟩
  · rw [if_neg h]
    refine ⟨by simp only; omega, by simp only; omega, fun c hc => ⟨by simp only; omega, by simp only; omega⟩⟩

theorem padPsf_ok (sz : Nat) (hs : sz % 2 = 0) (psf : Arr R) : ∃ P, padPsf sz psf = .ok P ∧ P.h = sz ∧ P.w = sz ∧
    ∀ r c : Nat, r < sz → c < sz →
      P.px r c = ext psf (r - (sz / 2 : Nat) + (psf.h / 2 : Nat)) (c - (sz / 2 : Nat) + (psf.w / 2 : Nat)) := by
  obtain ⟨a1, a2, a3⟩ := padStart_ok sz psf.w hs
  obtain ⟨b1, b2, b3⟩ := padStart_ok sz psf.h hs
  unfold padPsf
  simp only
  rw [slice_of psf _ _ _ _ _ _ _ _ (axis_nat psf.h _ _ b2) (axis_nat psf.w _ _ a2),
    modify_of (Arr.zeros sz sz) _ _ _ _ _ _ _ _ _ _ (axis_nat sz _ _ b1) (axis_nat sz _ _ a1) rfl rfl]
  refine ⟨_, rfl, rfl, rfl, ?_⟩
  intro r c hr hc
  obtain ⟨i1, i2⟩ := a3 c hc
  obtain ⟨j1, j2⟩ := b3 r hr
  unfold ext
  simp only
  by_cases h : 0 ≤ (r : Int) - (sz / 2 : Nat) + (psf.h / 2 : Nat) ∧ (r : Int) - (sz / 2 : Nat) + (psf.h / 2 : Nat) < psf.h ∧
      0 ≤ (c : Int) - (sz / 2 : Nat) + (psf.w / 2 : Nat) ∧ (c : Int) - (sz / 2 : Nat) + (psf.w / 2 : Nat) < psf.w
  · have h1 := j1.mpr ⟨h.1, h.2.1⟩
    have h2 := i1.mpr ⟨h.2.2.1, h.2.2.2⟩
    rw [if_pos h, if_pos ⟨h1.1, h1.2, h2.1, h2.2⟩, ← i2 h2.1, ← j2 h1.1, Int.toNat_natCast, Int.toNat_natCast]
  · rw [if_neg h, if_neg]
    · rfl
    · rintro ⟨h1, h2, h3, h4⟩
      have h1 := j1.mp ⟨h1, h2⟩
      have h2 := i1.mp ⟨h3, h4⟩
      exact h ⟨h1.1, h1.2, h2.1, h2.2⟩

theorem ext_pad (sz : Nat) (P psf : Arr R) (hh : P.h = sz) (hw : P.w = sz)
    (hp : ∀ r c : Nat, r < sz → c < sz →
      P.px r c = ext psf (r - (sz / 2 : Nat) + (psf.h / 2 : Nat)) (c - (sz / 2 : Nat) + (psf.w / 2 : Nat)))
    (y x : Int) (h : (0 ≤ y ∧ y < sz ∧ 0 ≤ x ∧ x < sz) ∨ (sz % 2 = 0 ∧ psf.h ≤ sz ∧ psf.w ≤ sz)) :
    ext P y x = ext psf (y - (sz / 2 : Nat) + (psf.h / 2 : Nat)) (x - (sz / 2 : Nat) + (psf.w / 2 : Nat)) := by
  by_cases hin : 0 ≤ y ∧ y < sz ∧ 0 ≤ x ∧ x < sz
  · obtain ⟨r, rfl⟩ := Int.eq_ofNat_of_zero_le hin.1
    obtain ⟨c, rfl⟩ := Int.eq_ofNat_of_zero_le hin.2.2.1
    rw [ext_in P r c (by omega) (by omega), hp r c (by omega) (by omega)]
  · have h := h.resolve_left hin
    unfold ext
    rw [if_neg (by omega), if_neg (by omega)]

/-- The interpolated padded stamp is the interpolated stamp. -/
theorem shifted_pad (kern : R → Nat → R) (sz : Nat) (P psf : Arr R) (hh : P.h = sz) (hw : P.w = sz)
    (hp : ∀ r c : Nat, r < sz → c < sz →
      P.px r c = ext psf (r - (sz / 2 : Nat) + (psf.h / 2 : Nat)) (c - (sz / 2 : Nat) + (psf.w / 2 : Nat)))
    (dx dy : R) (y x : Int)
    (h : (3 ≤ y ∧ y + 3 < sz ∧ 3 ≤ x ∧ x + 3 < sz) ∨ (sz % 2 = 0 ∧ psf.h ≤ sz ∧ psf.w ≤ sz)) :
    shiftedImage kern P dx dy y x =
      shiftedImage kern psf dx dy (y - (sz / 2 : Nat) + (psf.h / 2 : Nat)) (x - (sz / 2 : Nat) + (psf.w / 2 : Nat)) := by
  unfold shiftedImage
  congr 1
  refine List.map_congr_left (fun j hj => ?_)
  rw [List.mem_range] at hj
  congr 2
  refine List.map_congr_left (fun i hi => ?_)
  rw [List.mem_range] at hi
  rw [ext_pad sz P psf hh hw hp]
  · congr 2 <;> omega
  · rcases h with h | h
    · left; omega
    · right; exact h

/-! ### The padded image -/

theorem padPix_ok (sz : Nat) (A : Arr R) (x0 x1 y0 y1 dx dy : Int) (hx : 0 ≤ x0 ∧ x0 ≤ x1 ∧ x1 ≤ A.w)
    (hy : 0 ≤ y0 ∧ y0 ≤ y1 ∧ y1 ≤ A.h) (gx : 0 ≤ x0 + dx ∧ x1 + dx ≤ sz) (gy : 0 ≤ y0 + dy ∧ y1 + dy ≤ sz) :
    ∃ P, padPix sz A x0 x1 y0 y1 dx dy = .ok P ∧ P.h = sz ∧ P.w = sz ∧
      ∀ r c : Nat, r < sz → c < sz →
        P.px r c = if x0 ≤ (c : Int) - dx ∧ (c : Int) - dx < x1 ∧ y0 ≤ (r : Int) - dy ∧ (r : Int) - dy < y1 then
          A.px ((r : Int) - dy).toNat ((c : Int) - dx).toNat else 0 := by
  unfold padPix
  rw [slice_of A _ _ _ _ _ _ _ _ (axis_int A.h y0 y1 hy.1 hy.2.1 hy.2.2) (axis_int A.w x0 x1 hx.1 hx.2.1 hx.2.2),
    modify_of (Arr.zeros sz sz) _ _ _ _ _ _ _ _ _ _ (axis_int sz (y0 + dy) (y1 + dy) gy.1 (by omega) gy.2)
      (axis_int sz (x0 + dx) (x1 + dx) gx.1 (by omega) gx.2) (by simp only; omega) (by simp only; omega)]
  refine ⟨_, rfl, rfl, rfl, ?_⟩
  intro r c hr hc
  simp only
  by_cases h : x0 ≤ (c : Int) - dx ∧ (c : Int) - dx < x1 ∧ y0 ≤ (r : Int) - dy ∧ (r : Int) - dy < y1
  · rw [if_pos h, if_pos (by omega)]
    congr 1 <;> omega
  · rw [if_neg h, if_neg (by omega)]
    rfl

/-! ### The interpolation -/

theorem axis_mid (n : Nat) (h : 6 ≤ n) : Arr.axis n (some 3) (some (-3)) = (3, n - 6) := by
  simp only [Arr.axis, Arr.bound, Option.map_some, Option.getD_some, Prod.mk.injEq]
  constructor <;> simp <;> omega

omit [Field R] in
theorem modify_cols (A : Arr R) (op : R → R → R) (B : Arr R) (hw : 6 ≤ A.w) (h1 : B.h = A.h) (h2 : B.w = A.w - 6) :
    A.modify none none (some 3) (some (-3)) op B = .ok ⟨A.h, A.w, fun r c =>
      if r < A.h ∧ 3 ≤ c ∧ c < A.w - 3 then op (A.px r c) (B.px r (c - 3)) else A.px r c⟩ := by
  rw [modify_of A B op _ _ _ _ _ _ _ _ (axis_all A.h) (axis_mid A.w hw) h1 h2]
  congr 2
  funext r c
  by_cases h : r < A.h ∧ 3 ≤ c ∧ c < A.w - 3
  · rw [if_pos h, if_pos (by omega)]; rfl
  · rw [if_neg h, if_neg (by omega)]

omit [Field R] in
theorem modify_rows (A : Arr R) (op : R → R → R) (B : Arr R) (hw : 6 ≤ A.h) (h1 : B.w = A.w) (h2 : B.h = A.h - 6) :
    A.modify (some 3) (some (-3)) none none op B = .ok ⟨A.h, A.w, fun r c =>
      if c < A.w ∧ 3 ≤ r ∧ r < A.h - 3 then op (A.px r c) (B.px (r - 3) c) else A.px r c⟩ := by
  rw [modify_of A B op _ _ _ _ _ _ _ _ (axis_mid A.h hw) (axis_all A.w) h2 h1]
  congr 2
  funext r c
  by_cases h : c < A.w ∧ 3 ≤ r ∧ r < A.h - 3
  · rw [if_pos h, if_pos (by omega)]; rfl
  · rw [if_neg h, if_neg (by omega)]

end

end Verif.Gpu
