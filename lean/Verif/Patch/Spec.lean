import Verif.Patch.Model

/-! Vocabulary for the patch properties. -/

namespace Verif.Patches

variable {α : Type}

/-- Does the patch have a pixel at image position `(x, y)`? -/
def Patch.covers (p : Patch α) (x y : Int) : Prop :=
  match p.patch with
  | none => False
  | some A => p.x0 ≤ x ∧ x < p.x0 + A.w ∧ p.y0 ≤ y ∧ y < p.y0 + A.h

instance (p : Patch α) (x y : Int) : Decidable (p.covers x y) := by
  unfold Patch.covers; cases p.patch <;> infer_instance

/-- The pixel at image position `(x, y)` of the zero-extended patch. -/
def Patch.at [Zero α] (p : Patch α) (x y : Int) : α :=
  match p.patch with
  | none => 0
  | some A =>
    if p.x0 ≤ x ∧ x < p.x0 + A.w ∧ p.y0 ≤ y ∧ y < p.y0 + A.h then
      A.px (y - p.y0).toNat (x - p.x0).toNat
    else 0

/-- The patch has no pixels. -/
def Patch.isEmpty (p : Patch α) : Prop := ∀ x y, ¬ p.covers x y

/-- The box of an extent (half open) contains `(x, y)`. -/
def inBox (b : Int × Int × Int × Int) (x y : Int) : Prop :=
  b.1 ≤ x ∧ x < b.2.1 ∧ b.2.2.1 ≤ y ∧ y < b.2.2.2

end Verif.Patches
