import Mathlib.Order.Defs.LinearOrder
import Mathlib.Order.Lattice

/-!
# What it means for a pixel to be reached

Rings of pixels about a centre, and the pixels reached from the centre by steps that each go one ring outwards, leaving
only pixels that are near the centre or bright.  Nothing here refers to the model.
-/

namespace Verif.Approx

/-- The number of the ring of a pixel about `(yc, xc)`: the larger of the distances along the axes. -/
def far (yc xc y x : Int) : Nat := max (x - xc).natAbs (y - yc).natAbs

/-- The pixels at most one row and at most one column apart. -/
def Adjacent (y x y' x' : Int) : Prop := (x' - x).natAbs ≤ 1 ∧ (y' - y).natAbs ≤ 1

/-- The pixels of a box. -/
def Inside (x0 x1 y0 y1 y x : Int) : Prop := (x0 ≤ x ∧ x < x1) ∧ (y0 ≤ y ∧ y < y1)

/-- Reached from the centre by steps outwards within `inside`, from pixels no further than `minradius` or
not below `minval`. -/
inductive Reached {R : Type} [LE R] (val : Int → Int → R) (minval : R) (minradius : Int) (inside : Int → Int → Prop)
    (yc xc : Int) : Int → Int → Prop
  | centre : Reached val minval minradius inside yc xc yc xc
  | step {y x y' x' : Int} : Reached val minval minradius inside yc xc y x →
      (far yc xc y x = 0 ∨ (far yc xc y x : Int) ≤ minradius ∨ minval ≤ val y x) →
      inside y' x' → Adjacent y x y' x' → far yc xc y' x' = far yc xc y x + 1 →
      Reached val minval minradius inside yc xc y' x'

/-- `n` is the greatest positive number with `S`, or 0 if there is none. -/
def Greatest (S : Int → Prop) (n : Int) : Prop := 0 ≤ n ∧ (1 ≤ n → S n) ∧ ∀ k, 1 ≤ k → S k → k ≤ n

end Verif.Approx
