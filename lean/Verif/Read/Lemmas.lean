import Verif.Read.Model
import Verif.Roi.Props
import Mathlib.Tactic.Linarith
import Mathlib.Tactic.Ring
import Mathlib.Tactic.Positivity
import Mathlib.Algebra.Order.Group.Abs
import Mathlib.Data.Int.Cast.Lemmas
import Mathlib.Algebra.Order.Ring.Cast

/-!
# Lemmas for C139 and C140
-/

namespace Verif.Read

open Verif Roi

variable {P R S : Type}

/-- The region lies in an image of height `H` and width `W`. -/
structure Inside (H W : Nat) (r : Region) : Prop where
  left : 0 ≤ r.x0
  width : r.x0 ≤ r.x1
  right : r.x1 ≤ W
  low : 0 ≤ r.y0
  height : r.y0 ≤ r.y1
  high : r.y1 ≤ H

theorem clip_inside (H W : Nat) (a b c d : Int) (hab : a ≤ b) (hcd : c ≤ d) : Inside H W ⟨clip a W, clip b W, clip c H, clip d H⟩ := by
  constructor <;> simp only [clip] <;> omega

theorem ite_some {α : Type} {c : Prop} [Decidable c] {x : Option α} {y : α} (h : (if c then none else x) = some y) : x = some y := by
  by_cases hc : c
  · rw [if_pos hc] at h; cases h
  · rwa [if_neg hc] at h

/-- Regions are in the image, if a region given by the caller is. -/
theorem ask_inside (rnd : R → Int) (f : P → R × R) (H W : Nat) (q : Request P) (hq : ∀ r, q.roi = some r → Inside H W r) (r : Region) (b : Bool)
    (h : ask rnd f H W q = some (r, b)) : Inside H W r := by
  unfold ask interpretRoi at h
  obtain ⟨roi, size, box⟩ := q
  dsimp only at h hq
  cases box with
  | some e =>
    simp only [Option.map_some, Option.isSome_some, Bool.true_and] at h
    replace h := ite_some (ite_some h)
    simp only [Option.getD_some, Option.some.injEq, Prod.mk.injEq] at h
    rw [← h.1]
    unfold boxRegion
    apply clip_inside
    · simp only [minOf_spec, maxOf_spec]; omega
    · simp only [minOf_spec, maxOf_spec]; omega
  | none =>
    cases size with
    | some e =>
      simp only [Option.map_some, Option.map_none, Option.isSome_some, Bool.true_and, Option.isSome_none, Bool.false_and, Bool.false_eq_true, if_false] at h
      replace h := ite_some h
      simp only [Option.getD_some, Option.some.injEq, Prod.mk.injEq] at h
      rw [← h.1]
      unfold sizeRegion
      apply clip_inside <;> omega
    | none =>
      simp only [Option.map_none, Option.isSome_none, Bool.false_and, Bool.false_eq_true, if_false, Option.some.injEq, Prod.mk.injEq] at h
      rw [← h.1]
      cases roi with
      | none => constructor <;> simp
      | some r => exact hq r rfl

/-- A cut-out of an image. -/
theorem cut_ok (a : Arr R) (r : Region) (h : Inside a.h a.w r) :
    ((cut a r).h : Int) = r.y1 - r.y0 ∧ ((cut a r).w : Int) = r.x1 - r.x0 ∧
    ∀ y x, (cut a r).px y x = a.px (r.y0.toNat + y) (r.x0.toNat + x) := by
  obtain ⟨h1, h2, h3, h4, h5, h6⟩ := h
  unfold cut Arr.slice Arr.axis
  simp only [Option.map_some, Option.getD_some]
  have b : ∀ (n : Nat) (i : Int), 0 ≤ i → i ≤ n → Arr.bound n i = i.toNat := by
    intro n i a b
    unfold Arr.bound
    rw [if_neg (by omega)]
    omega
  rw [b _ _ h4 (by omega), b _ _ (by omega) h6, b _ _ h1 (by omega), b _ _ (by omega) h3]
  refine ⟨by omega, by omega, fun y x => rfl⟩

end Verif.Read
