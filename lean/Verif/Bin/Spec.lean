import Verif.Bin.Model
import Mathlib.Algebra.BigOperators.Ring.Finset
import Mathlib.Data.Real.Basic

/-! What rebinned images are compared with. -/

namespace Verif.Bin

variable {R : Type} [Field R]

/-- The sum over the pixels of block `(r, c)`: rows `S r, ..., S r + S - 1`, columns `S c, ..., S c + S - 1`. -/
def blockSum (S : Nat) (f : Nat → Nat → R) (r c : Nat) : R := ∑ i ∈ Finset.range S, ∑ j ∈ Finset.range S, f (S * r + i) (S * c + j)

/-- Chi-squared of the pixels of an image with respect to a model. -/
def chiSq (data invvar : Arr R) (model : Nat → Nat → R) : R :=
  ∑ y ∈ Finset.range data.h, ∑ x ∈ Finset.range data.w, invvar.px y x * (data.px y x - model y x) ^ 2

/-- Chi-squared over those pixels of an image that belong to whole blocks. -/
def chiSqBlocks (S : Nat) (data invvar : Arr R) (model : Nat → Nat → R) : R :=
  ∑ y ∈ Finset.range (S * (data.h / S)), ∑ x ∈ Finset.range (S * (data.w / S)), invvar.px y x * (data.px y x - model y x) ^ 2

end Verif.Bin
