import Verif.Patch.Model
import Verif.Mog.Model
import Mathlib.Analysis.Real.Sqrt

/-!
# What a patch shows
-/

namespace Verif.Star

open Verif.Patches (Patch)

noncomputable section

/-- The pixel lies in the image. -/
def InImage (H W : Nat) (x y : Int) : Prop := (0 ≤ x ∧ x < W) ∧ (0 ≤ y ∧ y < H)

/-- The pixel lies in the patch. -/
def InPatch (q : Patch ℝ) (x y : Int) : Prop :=
  match q.patch with
  | none => False
  | some A => (q.x0 ≤ x ∧ x < q.x0 + A.w) ∧ (q.y0 ≤ y ∧ y < q.y0 + A.h)

open Classical in
/-- What a source puts in a pixel: the pixel of its patch, nothing outside the patch or where there is none. -/
def shown (res : Option (Patch ℝ)) (x y : Int) : ℝ :=
  match res with
  | none => 0
  | some q =>
    match q.patch with
    | none => 0
    | some A => if InPatch q x y then A.px (y - q.y0).toNat (x - q.x0).toNat else 0

/-- In the square of half width `r` around `(px, py)`. -/
def Near (px py r : ℝ) (x y : Int) : Prop := |(x : ℝ) - px| ≤ r ∧ |(y : ℝ) - py| ≤ r

end

end Verif.Star
