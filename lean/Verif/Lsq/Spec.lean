import Verif.Lsq.Model
import Verif.Patch.Spec
import Verif.Params.PriorSpec
import Mathlib.Algebra.BigOperators.Group.Finset.Basic

/-!
# Specification vocabulary for the least-squares problem
-/

namespace Verif.Lsq

open Verif Verif.Params Verif.Patches

variable {R : Type} [Field R] [LinearOrder R]

/-- Weighted derivative of pixel (x, y) of image `i` with respect to a parameter with the given list of
(patch, image) pairs. -/
def slope (imgs : Nat → Img R) (param : List (Patch R × Nat)) (i y x : Nat) : R :=
  ((param.filter (fun e => e.2 = i)).map (fun e => e.1.at x y * (imgs i).inverr.px y x)).sum

/-- Predicted change of the (weighted) model pixel for a change `X` of the parameters. -/
def change (imgs : Nat → Img R) (ds : Derivs R) (X : List R) (i y x : Nat) : R :=
  (List.zipWith (fun param dx => slope imgs param i y x * dx) ds X).sum

/-- The images that occur in the list of derivatives. -/
def usedImages (ds : Derivs R) : Finset Nat := (ds.flatMap (fun param => param.map (·.2))).toFinset

/-- The linearised chi-squared after a change `X` of the parameters: residuals of all pixels of the
images that have derivatives, plus the prior terms. -/
def linearised (imgs : Nat → Img R) (ds : Derivs R) (prior : Option (PriorDerivs R)) (X : List R) : R :=
  (∑ i ∈ usedImages ds, ∑ y ∈ Finset.range (imgs i).h, ∑ x ∈ Finset.range (imgs i).w,
    ((imgs i).chi.px y x - change imgs ds X i y x) ^ 2) + linearChi prior X

/-- Component `r` of `A x`. -/
def Problem.apply (P : Problem R) (X : List R) (r : Nat) : R :=
  ((P.cells.filter (fun t => t.1 = (r : Int))).map (fun t => t.2.2 * (X[t.2.1]?).getD 0)).sum

/-- Element of the matrix in row `r`, column `c` (elements at the same place are added up). -/
def Problem.entry (P : Problem R) (r c : Nat) : R :=
  ((P.cells.filter (fun t => t.1 = (r : Int) ∧ t.2.1 = c)).map (fun t => t.2.2)).sum

/-- `‖A x - b‖²`. -/
def Problem.chisq (P : Problem R) (X : List R) : R :=
  ∑ r ∈ Finset.range P.nrows, (P.b r - P.apply X r) ^ 2

/-- `X` minimises `f` among the vectors of length `n`. -/
def Minimises (n : Nat) (f : List R → R) (X : List R) : Prop :=
  X.length = n ∧ ∀ Y : List R, Y.length = n → f X ≤ f Y

/-- A solver that solves every linear least-squares problem. -/
def Solves (lsqr : Problem R → List R) : Prop := ∀ P, Minimises P.ncols P.chisq (lsqr P)

/-- Arrays have the shape of their image and images are small enough for the 32-bit pixel numbers. -/
def ImagesOK (imgs : Nat → Img R) (ds : Derivs R) : Prop :=
  ∀ i ∈ usedImages ds, (imgs i).inverr.h = (imgs i).h ∧ (imgs i).inverr.w = (imgs i).w ∧
    (imgs i).chi.h = (imgs i).h ∧ (imgs i).chi.w = (imgs i).w ∧ (imgs i).w * (imgs i).h < 2 ^ 31

/-- The prior lists are of the form `getLogPriorDerivatives` returns (C14): one entry per row, rows
numbered from 0, columns are parameters, non-zero elements; `es` are the entries. -/
def PriorOK (n : Nat) (prior : Option (PriorDerivs R)) (es : List (Entry R)) : Prop :=
  RepresentsOpt prior es ∧ es.map (·.row) = List.range es.length ∧ ∀ e ∈ es, e.col < n ∧ e.val ≠ 0

/-- Sum of squares of the weighted derivative over its image. -/
def energy (imgs : Nat → Img R) (e : Patch R × Nat) : R :=
  ∑ y ∈ Finset.range (imgs e.2).h, ∑ x ∈ Finset.range (imgs e.2).w,
    (e.1.at x y * (imgs e.2).inverr.px y x) ^ 2

/-- Squared norm of the column of parameter `k`: derivatives and prior elements. -/
def columnNorm (imgs : Nat → Img R) (ds : Derivs R) (es : List (Entry R)) (k : Nat) : R :=
  (((ds[k]?).getD []).map (energy imgs)).sum + ((es.filter (fun e => e.col = k)).map (fun e => e.val ^ 2)).sum

/-- The non-zero matrix elements of column `k`: weighted derivatives and prior elements. -/
def IsElement (imgs : Nat → Img R) (ds : Derivs R) (es : List (Entry R)) (k : Nat) (v : R) : Prop :=
  v ≠ 0 ∧ ((∃ param e, ds[k]? = some param ∧ e ∈ param ∧ ∃ y x : Nat, y < (imgs e.2).h ∧ x < (imgs e.2).w ∧
    v = e.1.at x y * (imgs e.2).inverr.px y x) ∨ ∃ e ∈ es, e.col = k ∧ v = e.val)

/-- After division by the norm of its column no non-zero matrix element is as small as `tiny`. -/
def NoTiny (sqrt : R → R) (tiny : R) (imgs : Nat → Img R) (ds : Derivs R) (es : List (Entry R)) : Prop :=
  ∀ k v, IsElement imgs ds es k v → tiny < |v / sqrt (columnNorm imgs ds es k)|

/-- `np.sqrt` as far as it matters. -/
def SqrtOK (sqrt : R → R) : Prop := ∀ x, 0 < x → 0 < sqrt x

/-- `‖A x - B‖²` for a dense matrix with `n` rows and `m` columns. -/
def denseChisq (n m : Nat) (A : Dense R) (B : Nat → R) (X : List R) : R :=
  ∑ r ∈ Finset.range n, (B r - ∑ c ∈ Finset.range m, A r c * (X[c]?).getD 0) ^ 2

/-- A dense solver that solves every linear least-squares problem. -/
def DenseSolves (lstsq : Nat → Nat → Dense R → (Nat → R) → List R) : Prop :=
  ∀ n m A B, Minimises m (denseChisq n m A B) (lstsq n m A B)

/-- No image occurs twice in the derivatives of one parameter (as in `Tractor.getDerivs`). -/
def DistinctImages (ds : Derivs R) : Prop := ∀ param ∈ ds, (param.map (·.2)).Nodup

end Verif.Lsq
