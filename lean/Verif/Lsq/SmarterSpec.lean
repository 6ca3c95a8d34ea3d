import Verif.Lsq.Smarter
import Verif.Lsq.Spec

/-!
# Specification vocabulary for SmarterDenseOptimizer
-/

namespace Verif.Lsq

open Verif Verif.Params Verif.Patches

variable {R : Type} [Field R] [LinearOrder R]

/-- A non-empty box inside the image. -/
def FullBox (im : Img R) (b : Box) : Prop :=
  0 ≤ b.1 ∧ b.1 < b.2.1 ∧ b.2.1 ≤ im.w ∧ 0 ≤ b.2.2.1 ∧ b.2.2.1 < b.2.2.2 ∧ b.2.2.2 ≤ im.h

/-- A derivative that has no pixels, or lies right of or below the image. -/
def Outside (im : Img R) (d : Patch R) : Prop := d.patch = none ∨ (im.w : Int) ≤ d.x0 ∨ (im.h : Int) ≤ d.y0

/-- Within the image the derivative covers exactly the box. -/
def Fills (im : Img R) (d : Patch R) (b : Box) : Prop :=
  ∀ x y : Int, (d.covers x y ∧ 0 ≤ x ∧ x < im.w ∧ 0 ≤ y ∧ y < im.h) ↔ inBox b x y

/-- In every image all derivatives that overlap it cover the same box, and there is one that does. -/
structure OneBox (imgs : Nat → Img R) (ds : Derivs R) (box : Nat → Box) : Prop where
  inside : ∀ i ∈ usedImages ds, FullBox (imgs i) (box i)
  each : ∀ param ∈ ds, ∀ e ∈ param, Outside (imgs e.2) e.1 ∨ Fills (imgs e.2) e.1 (box e.2)
  some : ∀ i ∈ usedImages ds, ∃ param ∈ ds, ∃ e ∈ param, e.2 = i ∧ Fills (imgs i) e.1 (box i)

/-- `np.sqrt` as far as it matters. -/
def SqrtPos (sqrt : R → R) : Prop := ∀ x, 0 < sqrt x ↔ 0 < x

/-- Parameter `k` has derivatives or a prior. -/
def Live (ds : Derivs R) (es : List (Entry R)) (k : Nat) : Prop :=
  (∃ param, ds[k]? = some param ∧ param ≠ []) ∨ ∃ e ∈ es, e.col = k

/-- Element (k, l) of the inverse covariance matrix: the products of the derivatives of the model with respect to the two
parameters, summed over all pixels with the inverse variances as weights, and the squares of the prior elements on the
diagonal. -/
def fisher (imgs : Nat → Img R) (ds : Derivs R) (es : List (Entry R)) (k l : Nat) : R :=
  (∑ i ∈ usedImages ds, ∑ y ∈ Finset.range (imgs i).h, ∑ x ∈ Finset.range (imgs i).w,
    slope imgs ((ds[k]?).getD []) i y x * slope imgs ((ds[l]?).getD []) i y x) +
  if k = l then ((es.filter (fun e => e.col = k)).map (fun e => e.val ^ 2)).sum else 0

end Verif.Lsq
