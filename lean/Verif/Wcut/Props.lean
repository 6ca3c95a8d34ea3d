import Verif.Wcut.Model
import Mathlib.Data.Int.Cast.Lemmas
import Mathlib.Algebra.Order.Ring.Int
import Mathlib.Algebra.Order.Ring.Rat
import Mathlib.Algebra.Order.Ring.Cast
import Mathlib.Tactic.Linarith

/-!
# C180: cut-outs of WISE level-3 images
-/

namespace Verif.Wcut

variable {K : Type} [Ring K] [LinearOrder K] [IsStrictOrderedRing K]

theorem bound_clip (v : K) (n : Int) (hn : 0 ≤ n) :
    bound (clipTo v n) = if 0 < v ∧ v ≤ n then .error .typeErr else .ok (if v ≤ 0 then 0 else n) := by
  have h0 : (0 : K) ≤ (n : K) := by exact_mod_cast hn
  unfold clipTo
  by_cases h1 : (n : K) < v
  · have e1 : pyMin (.float v) (.int n) = (.int n : Val K) := if_pos h1
    rw [e1, if_neg (fun h => absurd h.2 (not_le.mpr h1)), if_neg (not_le.mpr (lt_of_le_of_lt h0 h1))]
    by_cases h2 : n = 0
    · subst h2
      have e2 : pyMax (.int 0) (.int 0) = (.int 0 : Val K) := if_neg (lt_irrefl _)
      rw [e2]
      rfl
    · have e2 : pyMax (.int 0) (.int n) = (.int n : Val K) := if_pos (show ((0 : Int) : K) < (n : K) by exact_mod_cast (by omega : (0 : Int) < n))
      rw [e2]
      rfl
  · have e1 : pyMin (.float v) (.int n) = (.float v : Val K) := if_neg h1
    rw [e1]
    by_cases h2 : 0 < v
    · have e2 : pyMax (.int 0) (.float v) = (.float v : Val K) := if_pos (show ((0 : Int) : K) < v by rwa [Int.cast_zero])
      rw [e2, if_pos ⟨h2, not_lt.mp h1⟩]
      rfl
    · have e2 : pyMax (.int 0) (.float v) = (.int 0 : Val K) := if_neg (show ¬ ((0 : Int) : K) < v by rwa [Int.cast_zero])
      rw [e2, if_neg (fun h => h2 h.1), if_pos (not_lt.mp h2)]
      rfl

/-- **When a region can be read**: TypeError exactly if one of its bounds is in the image; otherwise the columns are all, none, or the last one, and so are the rows. -/
theorem C180_slice (w h : Nat) (hw : 1 ≤ w) (hh : 1 ≤ h) (xlo xhi ylo yhi : K) :
    (((0 < xlo ∧ xlo ≤ (w : K) - 1) ∨ (0 < xhi ∧ xhi ≤ w) ∨ (0 < ylo ∧ ylo ≤ (h : K) - 1) ∨ (0 < yhi ∧ yhi ≤ h)) → slice w h xlo xhi ylo yhi = .error .typeErr) ∧
    (¬ ((0 < xlo ∧ xlo ≤ (w : K) - 1) ∨ (0 < xhi ∧ xhi ≤ w) ∨ (0 < ylo ∧ ylo ≤ (h : K) - 1) ∨ (0 < yhi ∧ yhi ≤ h)) →
      slice w h xlo xhi ylo yhi = .ok ((if xlo ≤ 0 then 0 else (w : Int) - 1, if xhi ≤ 0 then 0 else (w : Int)), (if ylo ≤ 0 then 0 else (h : Int) - 1, if yhi ≤ 0 then 0 else (h : Int)))) := by
  have ew : (((w : Int) - 1 : Int) : K) = (w : K) - 1 := by push_cast; rfl
  have eh : (((h : Int) - 1 : Int) : K) = (h : K) - 1 := by push_cast; rfl
  have ew' : (((w : Int) : Int) : K) = (w : K) := by push_cast; rfl
  have eh' : (((h : Int) : Int) : K) = (h : K) := by push_cast; rfl
  unfold slice
  rw [bound_clip ylo _ (by omega), bound_clip yhi _ (by omega), bound_clip xlo _ (by omega), bound_clip xhi _ (by omega), ew, eh, ew', eh']
  by_cases a : 0 < ylo ∧ ylo ≤ (h : K) - 1
  · rw [if_pos a]
    exact ⟨fun _ => rfl, fun hn => absurd (.inr (.inr (.inl a))) hn⟩
  · rw [if_neg a]
    by_cases b : 0 < yhi ∧ yhi ≤ (h : K)
    · rw [if_pos b]
      exact ⟨fun _ => rfl, fun hn => absurd (.inr (.inr (.inr b))) hn⟩
    · rw [if_neg b]
      by_cases c : 0 < xlo ∧ xlo ≤ (w : K) - 1
      · rw [if_pos c]
        exact ⟨fun _ => rfl, fun hn => absurd (.inl c) hn⟩
      · rw [if_neg c]
        by_cases d : 0 < xhi ∧ xhi ≤ (w : K)
        · rw [if_pos d]
          exact ⟨fun _ => rfl, fun hn => absurd (.inr (.inl d)) hn⟩
        · rw [if_neg d]
          exact ⟨fun hn => by tauto, fun _ => rfl⟩

/-- **No proper cut-out**: if the columns and rows that are taken are not none, they are all or just the last one; in the first case the region covers the image in that direction. -/
theorem C180_no_cut (w h : Nat) (hw : 1 ≤ w) (hh : 1 ≤ h) (xlo xhi ylo yhi : K) (x0 x1 y0 y1 : Int) (hs : slice w h xlo xhi ylo yhi = .ok ((x0, x1), (y0, y1))) (hx : x0 < x1)
    (hy : y0 < y1) : ((x0 = 0 ∧ x1 = w ∧ xlo ≤ 0 ∧ (w : K) < xhi) ∨ (x0 = (w : Int) - 1 ∧ x1 = w ∧ (w : K) - 1 < xlo ∧ (w : K) < xhi)) ∧
      ((y0 = 0 ∧ y1 = h ∧ ylo ≤ 0 ∧ (h : K) < yhi) ∨ (y0 = (h : Int) - 1 ∧ y1 = h ∧ (h : K) - 1 < ylo ∧ (h : K) < yhi)) := by
  obtain ⟨c1, c2⟩ := C180_slice w h hw hh xlo xhi ylo yhi
  by_cases hb : (0 < xlo ∧ xlo ≤ (w : K) - 1) ∨ (0 < xhi ∧ xhi ≤ w) ∨ (0 < ylo ∧ ylo ≤ (h : K) - 1) ∨ (0 < yhi ∧ yhi ≤ h)
  · rw [c1 hb] at hs
    cases hs
  · rw [c2 hb] at hs
    have hs := Except.ok.inj hs
    simp only [not_or, not_and, not_le] at hb
    obtain ⟨b1, b2, b3, b4⟩ := hb
    have e := Prod.mk.inj hs
    have e1 := Prod.mk.inj e.1
    have e2 := Prod.mk.inj e.2
    have side : ∀ (n : Nat) (lo hi : K) (p q : Int), 1 ≤ n → (0 < lo → (n : K) - 1 < lo) → (0 < hi → (n : K) < hi) → (if lo ≤ 0 then 0 else (n : Int) - 1) = p →
        (if hi ≤ 0 then 0 else (n : Int)) = q → p < q → (p = 0 ∧ q = n ∧ lo ≤ 0 ∧ (n : K) < hi) ∨ (p = (n : Int) - 1 ∧ q = n ∧ (n : K) - 1 < lo ∧ (n : K) < hi) := by
      intro n lo hi p q hn f1 f2 g1 g2 hpq
      by_cases k2 : hi ≤ 0
      · rw [if_pos k2] at g2
        by_cases k1 : lo ≤ 0
        · rw [if_pos k1] at g1
          omega
        · rw [if_neg k1] at g1
          omega
      · rw [if_neg k2] at g2
        by_cases k1 : lo ≤ 0
        · rw [if_pos k1] at g1
          exact .inl ⟨g1.symm, g2.symm, k1, f2 (not_le.mp k2)⟩
        · rw [if_neg k1] at g1
          exact .inr ⟨g1.symm, g2.symm, f1 (not_le.mp k1), f2 (not_le.mp k2)⟩
    exact ⟨side w xlo xhi x0 x1 hw b1 b2 e1.1 e1.2 hx, side h ylo yhi y0 y1 hh b3 b4 e2.1 e2.2 hy⟩

/-! An image of 10 by 8 pixels. -/

-- a region inside, and one that covers the image
example : slice 10 8 (2 : ℚ) 5 3 6 = .error .typeErr := (C180_slice 10 8 (by decide) (by decide) (2 : ℚ) 5 3 6).1 (by norm_num)

example : slice 10 8 (-1 : ℚ) 11 (-2) 9 = .ok ((0, 10), (0, 8)) := by
  rw [(C180_slice 10 8 (by decide) (by decide) (-1 : ℚ) 11 (-2) 9).2 (by norm_num)]
  norm_num

example := C180_no_cut 10 8 (by decide) (by decide) (-1 : ℚ) 11 (-2) 9 0 10 0 8 (by
  rw [(C180_slice 10 8 (by decide) (by decide) (-1 : ℚ) 11 (-2) 9).2 (by norm_num)]
  norm_num) (by decide) (by decide)

end Verif.Wcut
