import Verif.Params.Model2
import Verif.Patch.Model
import Mathlib.Algebra.Order.Field.Basic
import Mathlib.Algebra.Order.Group.Abs
import Mathlib.Data.List.Sort
import Mathlib.Data.List.Dedup

/-!
# The least-squares problem of the optimizers

`LsqrOptimizer.getUpdateDirection` (tractor/lsqr_optimizer.py) and
`ConstrainedDenseOptimizer.getUpdateDirection` (tractor/dense_optimizer.py).  `scipy.sparse.linalg.lsqr`,
`numpy.linalg.lstsq` and `np.sqrt` are external (parameters); floating point rounding, the float32
storage of the matrices, and the tests for non-finite numbers are not modelled.
-/

namespace Verif.Lsq

open Verif Verif.Params Verif.Patches

variable {R : Type}

/-- What is used of an image: its shape and inverse errors (`img.getInvError()`) and its residuals
(`tractor.getChiImage(img=img)`, or the entry of `chiImages`). -/
structure Img (R : Type) where
  h : Nat
  w : Nat
  inverr : Arr R
  chi : Arr R

/-- `img.numberOfPixels()`. -/
def Img.npix (im : Img R) : Nat := im.h * im.w

/-- `allderivs`: for each parameter the (patch, image) pairs; images are numbered. -/
abbrev Derivs (R : Type) := List (List (Patch R × Nat))

/-- One step of the loop over all (deriv, img) pairs, lsqr_optimizer.py 390-397: (imgoffs, nextrow). -/
def offsetStep (npix : Nat → Nat) (acc : List (Nat × Nat) × Nat) (img : Nat) : List (Nat × Nat) × Nat :=
  if acc.1.any (fun e => e.1 = img) then acc
  else (acc.1 ++ [(img, acc.2)], acc.2 + npix img)

/-- `imgoffs` (in insertion order) and the number of pixel rows, lsqr_optimizer.py 387-398;
dense_optimizer.py 65-75 is the same. -/
def imgOffsets (npix : Nat → Nat) (ds : Derivs R) : List (Nat × Nat) × Nat :=
  (ds.flatMap (fun param => param.map (·.2))).foldl (offsetStep npix) ([], 0)

/-- `imgoffs[img]`. -/
def lookupOff (offs : List (Nat × Nat)) (img : Nat) : Except PyErr Nat :=
  match offs.find? (fun e => e.1 = img) with
  | some e => .ok e.2
  | none => .error .key

/-- One block of the sparse matrix: the arrays appended to `sprows`, `spcols`, `spvals`. -/
structure Block (R : Type) where
  rows : List Int
  col : Nat
  vals : List R

/-- `np.dot(vals, vals)`. -/
def Block.dot [Zero R] [Add R] [Mul R] (b : Block R) : R := (b.vals.map (fun v => v * v)).sum

section sparse
variable [Field R] [LinearOrder R]

/-- Body of the inner loop, lsqr_optimizer.py 406-431: the block of one derivative, or none
("continue").  (`deriv.clipTo` also shrinks the caller's patch, which nothing here uses again.) -/
def derivBlock (im : Img R) (row0 col : Nat) (d : Patch R) : Except PyErr (Option (Block R)) :=
  match d.clipTo im.w im.h with
  | (_, .error e) => .error e
  | (q, .ok _) =>
    let pix := q.getPixelIndices im.w
    if pix.isEmpty then .ok none
    else if ¬ pix.all (fun k => k < im.npix) then .error .assertion
    else
      match q.patch, q.getSliceIn im.h im.w with
      | some dimg, some (sy, sx) =>
        let w := im.inverr.slice (some sy.1) (some sy.2) (some sx.1) (some sx.2)
        if dimg.h = w.h ∧ dimg.w = w.w then
          let vals := List.zipWith (· * ·) dimg.ravel w.ravel
          let nz := (pix.zip vals).filter (fun e => e.2 ≠ 0)
          if nz.isEmpty then .ok none
          else .ok (some ⟨nz.map (fun e => row0 + e.1), col, nz.map (·.2)⟩)
        else .error .value
      | _, _ => .error .attribute

/-- The inner loop for one parameter. -/
def paramBlocks (imgs : Nat → Img R) (offs : List (Nat × Nat)) (col : Nat) :
    List (Patch R × Nat) → Except PyErr (List (Block R))
  | [] => .ok []
  | (d, i) :: rest =>
    match lookupOff offs i with
    | .error e => .error e
    | .ok row0 =>
      match derivBlock (imgs i) row0 col d with
      | .error e => .error e
      | .ok ob => (paramBlocks imgs offs col rest).map (ob.toList ++ ·)

/-- The loop over parameters, lsqr_optimizer.py 404-431. -/
def allBlocks (imgs : Nat → Img R) (offs : List (Nat × Nat)) :
    Nat → Derivs R → Except PyErr (List (Block R))
  | _, [] => .ok []
  | col, param :: rest =>
    match paramBlocks imgs offs col param with
    | .error e => .error e
    | .ok bs => (allBlocks imgs offs (col + 1) rest).map (bs ++ ·)

/-- The prior blocks, lsqr_optimizer.py 441-448. -/
def priorBlocks (nrows : Nat) (d : PriorDerivs R) : List (Block R) :=
  ((d.rows.zip d.cols).zip d.vals).map (fun x =>
    ⟨x.1.1.map (fun r => (r : Int) + nrows), x.1.2, x.2⟩)

/-- `colscales` before the square root: every block adds the dot product of its values to its column
(lsqr_optimizer.py 424, 443; accumulated in the loops there). -/
def colNorms (ncols : Nat) (bs : List (Block R)) : List R :=
  (List.range ncols).map (fun c => ((bs.filter (fun b => b.col = c)).map Block.dot).sum)

/-- Division of the blocks by the column scales, lsqr_optimizer.py 470-486: blocks of a column with scale
zero are dropped, values that are tiny afterwards too. -/
def scaleBlocks (tiny : R) (scales : List R) (bs : List (Block R)) : List (Block R) :=
  bs.filterMap (fun b =>
    let s := (scales[b.col]?).getD 0
    if s = 0 then none
    else
      let keep := (b.rows.zip b.vals).filter (fun e => |e.2 / s| > tiny)
      if keep.isEmpty then none
      else some ⟨keep.map (·.1), b.col, keep.map (fun e => e.2 / s)⟩)

/-- Renaming of the columns by `paramindexmap`, lsqr_optimizer.py 498. -/
def mapCols (m : List Nat) : List (Block R) → Except PyErr (List (Block R))
  | [] => .ok []
  | b :: bs =>
    match m[b.col]? with
    | none => .error .index
    | some c => (mapCols m bs).map ({ b with col := c } :: ·)

/-- The matrix elements (row, column, value); `csr_matrix` adds up elements at the same place. -/
def cellsOf (bs : List (Block R)) : List (Int × Nat × R) :=
  bs.flatMap (fun b => (b.rows.zip b.vals).map (fun e => (e.1, b.col, e.2)))

/-- `b[row0: row0 + NP] = chi` for every image, lsqr_optimizer.py 519-531 (a vector is a function of the
index); dense_optimizer.py 180-187. -/
def fillChi (imgs : Nat → Img R) : List (Nat × Nat) → (Nat → R) → (Nat → R)
  | [], B => B
  | e :: offs, B => fillChi imgs offs (fun r =>
      if e.2 ≤ r ∧ r < e.2 + (imgs e.1).npix then (((imgs e.1).chi.ravel)[r - e.2]?).getD 0 else B r)

/-- The vector `b`, lsqr_optimizer.py 450-455, 509-531: zeros, the prior terms from row `nrows` on
(`hstack(pb)` must have the length of that slice), then the residuals of the images at their offsets. -/
def rhsVector (imgs : Nat → Img R) (offs : List (Nat × Nat)) (nrows npriors : Nat) (pb : List R) :
    Except PyErr (Nat → R) :=
  if pb.length = npriors then
    .ok (fillChi imgs offs (fun r => if r < nrows then 0 else (pb[r - nrows]?).getD 0))
  else .error .value

/-- The linear least-squares problem handed to the solver: minimise `‖A x - b‖²`. -/
structure Problem (R : Type) where
  nrows : Nat
  ncols : Nat
  cells : List (Int × Nat × R)
  b : Nat → R

/-- `csr_matrix((spvals, (sprows, spcols)), shape=(Nrows, Ncols))`: ValueError if an index is out of
range. -/
def mkProblem (nrows ncols : Nat) (bs : List (Block R)) (b : Nat → R) : Except PyErr (Problem R) :=
  if (cellsOf bs).all (fun t => 0 ≤ t.1 ∧ t.1 < nrows ∧ t.2.1 < ncols) then
    .ok ⟨nrows, ncols, cellsOf bs, b⟩
  else .error .value

/-- `np.max(spcols) + 1`, ValueError for an empty list. -/
def maxCols (bs : List (Block R)) : Except PyErr Nat :=
  if bs.isEmpty then .error .value else .ok ((bs.map (·.col)).foldl (fun m c => max m (c + 1)) 0)

/-- Lines 376-574 of lsqr_optimizer.py: the blocks of the unscaled matrix, the number of rows and the
prior right-hand side. -/
def assemble (imgs : Nat → Img R) (ds : Derivs R) (prior : Option (PriorDerivs R)) :
    Except PyErr (List (Block R) × List (Nat × Nat) × Nat × Nat × List R) :=
  let o := imgOffsets (fun i => (imgs i).npix) ds
  match allBlocks imgs o.1 0 ds with
  | .error e => .error e
  | .ok bs =>
    match prior with
    | none => .ok (bs, o.1, o.2, 0, [])
    | some d => .ok (bs ++ priorBlocks o.2 d, o.1, o.2, rowsEnd d.rows, d.bs.flatten)

/-- `X[paramindexmap]`, lsqr_optimizer.py 622. -/
def unshare (X : List R) : List Nat → Except PyErr (List R)
  | [] => .ok []
  | i :: m =>
    match X[i]? with
    | none => .error .index
    | some x => (unshare X m).map (x :: ·)

/-- The same if `shared_params` is set. -/
def unshareOpt (X : List R) : Option (List Nat) → Except PyErr (List R)
  | none => .ok X
  | some m => unshare X m

/-- `X[colscales > 0] /= colscales[colscales > 0]`, lsqr_optimizer.py 627. -/
def unscale (scales X : List R) : List R :=
  List.zipWith (fun s x => if 0 < s then x / s else x) scales X

/-- Does the matrix get renamed columns, and how many columns are there, lsqr_optimizer.py 493-504. -/
def applyMap (shared : Option (List Nat)) (ncols : Nat) (bs : List (Block R)) :
    Except PyErr (List (Block R) × Nat) :=
  match shared with
  | none => .ok (bs, ncols)
  | some m =>
    match mapCols m bs with
    | .error e => .error e
    | .ok bs' => (maxCols bs').map (fun n => (bs', n))

/-- `LsqrOptimizer.getUpdateDirection`, lsqr_optimizer.py 328-636, for `damp = 0`, `scales_only`,
`get_A_matrix` and `variance` False; `shared` is `paramindexmap` (None: `shared_params=False`), `lsqr` the
solver.  The empty list returned for an empty matrix is `none`. -/
def getUpdateDirection (sqrt : R → R) (tiny : R) (lsqr : Problem R → List R) (imgs : Nat → Img R)
    (ds : Derivs R) (prior : Option (PriorDerivs R)) (scaleColumns : Bool) (shared : Option (List Nat)) :
    Except PyErr (Option (List R)) :=
  match assemble imgs ds prior with
  | .error e => .error e
  | .ok (bs, offs, nrows, npriors, pb) =>
    if scaleColumns ∧ bs.any (fun b => ds.length ≤ b.col) then .error .index
    else if bs.isEmpty then .ok none
    else
      let scales := (colNorms ds.length bs).map sqrt
      let bs1 := if scaleColumns then scaleBlocks tiny scales bs else bs
      match applyMap shared ds.length bs1 with
      | .error e => .error e
      | .ok (bs2, ncols) =>
        match rhsVector imgs offs nrows npriors pb with
        | .error e => .error e
        | .ok b =>
          if bs2.isEmpty then .error .value else
          match mkProblem (nrows + npriors) ncols bs2 b with
          | .error e => .error e
          | .ok P =>
            match unshareOpt (lsqr P) shared with
            | .error e => .error e
            | .ok X' => .ok (some (if scaleColumns then unscale scales X' else X'))

end sparse

/-! ### Shared parameters -/

section shared
variable [Field R] [LinearOrder R]

/-- Parameter objects that may share values: slot `i` of the parameter vector is cell `cells[i]` of the
store. -/
structure Store (R : Type) where
  cells : List Nat
  val : Nat → R

/-- `tractor.getParams()`. -/
def Store.getParams (s : Store R) : List R := s.cells.map s.val

/-- `tractor.setParams(p)`: assigns slot after slot, so a shared cell keeps the last value. -/
def Store.setParams (s : Store R) (p : List R) : Store R :=
  { s with val := (s.cells.zip p).foldl (fun v e => fun c => if c = e.1 then e.2 else v c) s.val }

/-- `np.unique(p, return_inverse=True)[1]`: positions in the sorted list of distinct values. -/
def uniqueInverse (p : List R) : List Nat :=
  let u := (p.dedup).insertionSort (· ≤ ·)
  p.map (fun x => u.idxOf x)

/-- `paramindexmap` and the store afterwards, lsqr_optimizer.py 368-376. -/
def sharedMap (s : Store R) : List Nat × Store R :=
  let p0 := s.getParams
  let s1 := s.setParams ((List.range p0.length).map (fun i : Nat => (i : R)))
  let p1 := s1.getParams
  (uniqueInverse p1, s1.setParams p0)

/-- The variances returned with `variance=True`, lsqr_optimizer.py 467, 630-635: inverse of the squared
column norms, looked up through `paramindexmap`. -/
def variances (norms : List R) (shared : Option (List Nat)) : List R :=
  match shared with
  | none => norms.map (1 / ·)
  | some m => m.map (fun i => 1 / (norms[i]?).getD 0)

/-- The second part of the result of `getUpdateDirection(variance=True)` (with `scale_columns=True`, else
the norms are not computed), lsqr_optimizer.py 376-467, 630-635; `none` for the empty list of 459. -/
def updateVariance (imgs : Nat → Img R) (ds : Derivs R) (prior : Option (PriorDerivs R))
    (shared : Option (List Nat)) : Except PyErr (Option (List R)) :=
  match assemble imgs ds prior with
  | .error e => .error e
  | .ok (bs, _, _, _, _) =>
    if bs.isEmpty then .ok none else .ok (some (variances (colNorms ds.length bs) shared))

/-- How `spcols` is filled, lsqr_optimizer.py 416-433 and 441-455: with `scales_only` each turn of the loop
ends (`continue` in 425-426, 444-445) after the scale is stored and before the append. -/
def collectCols (scalesOnly : Bool) (bs : List (Block R)) : List Nat :=
  bs.foldl (fun acc b => if scalesOnly then acc else acc ++ [b.col]) []

/-- `getUpdateDirection(scales_only=True)`, lsqr_optimizer.py 399-465: 457 tests `len(spcols) == 0`.
`none` is the empty list. -/
def scalesOnly (sqrt : R → R) (imgs : Nat → Img R) (ds : Derivs R) (prior : Option (PriorDerivs R)) :
    Except PyErr (Option (List R)) :=
  match assemble imgs ds prior with
  | .error e => .error e
  | .ok (bs, _, _, _, _) =>
    if (collectCols true bs).isEmpty then .ok none else .ok (some ((colNorms ds.length bs).map sqrt))

end shared

/-! ### The dense optimizer -/

section dense
variable [Field R] [LinearOrder R]

/-- The weighted derivative image, dense_optimizer.py 124-142: the whole image, zero where the patch has
no pixel; `none` if the patch has no image. -/
def denseColumn (im : Img R) (d : Patch R) : Except PyErr (Option (List R)) :=
  match d.patch with
  | none => .ok none
  | some A =>
    if d.x0 = 0 ∧ d.y0 = 0 ∧ A.h = im.h ∧ A.w = im.w then
      .ok (some (List.zipWith (· * ·) A.ravel im.inverr.ravel))
    else
      match d.addTo (Arr.zeros im.h im.w) 1 with
      | .error e => .error e
      | .ok dimg => .ok (some (List.zipWith (· * ·) dimg.ravel im.inverr.ravel))

/-- A dense matrix as a function of row and column. -/
abbrev Dense (R : Type) := Nat → Nat → R

/-- `A[row0:row0+n, col] = vals`. -/
def setRows (A : Dense R) (row0 col : Nat) (vals : List R) : Dense R :=
  fun r c => if c = col ∧ row0 ≤ r ∧ r < row0 + vals.length then (vals[r - row0]?).getD 0 else A r c

/-- The inner loop for one parameter, dense_optimizer.py 121-148: the matrix and the squared norm. -/
def denseParam (imgs : Nat → Img R) (offs : List (Nat × Nat)) (col : Nat) :
    List (Patch R × Nat) → Dense R × R → Except PyErr (Dense R × R)
  | [], acc => .ok acc
  | (d, i) :: rest, (A, s) =>
    match denseColumn (imgs i) d with
    | .error e => .error e
    | .ok none => denseParam imgs offs col rest (A, s)
    | .ok (some vals) =>
      match lookupOff offs i with
      | .error e => .error e
      | .ok row0 =>
        denseParam imgs offs col rest
          (setRows A row0 col vals, s + (vals.map (fun v => v * v)).sum)

/-- The loop over parameters: the matrix and the squared norms of the columns. -/
def denseAll (imgs : Nat → Img R) (offs : List (Nat × Nat)) :
    Nat → Derivs R → Dense R → Except PyErr (Dense R × List R)
  | _, [], A => .ok (A, [])
  | col, param :: rest, A =>
    match denseParam imgs offs col param (A, 0) with
    | .error e => .error e
    | .ok (A', s) => (denseAll imgs offs (col + 1) rest A').map (fun r => (r.1, s :: r.2))

/-- The prior loop, dense_optimizer.py 153-164: matrix, right-hand side and squared norms. -/
def densePriors (npix : Nat) : List (((List Nat × Nat) × List R) × List R) →
    Dense R × (Nat → R) × List R → Dense R × (Nat → R) × List R
  | [], acc => acc
  | (((ri, ci), vi), bi) :: rest, (A, B, norms) =>
    let cells := (ri.zip vi).zip bi
    let A' := cells.foldl (fun A e => fun r c => if r = npix + e.1.1 ∧ c = ci then e.1.2 else A r c) A
    let B' := cells.foldl (fun B e => fun r => if r = npix + e.1.1 then B r + e.2 else B r) B
    densePriors npix rest
      (A', B', norms.modify ci (· + (vi.map (fun v => v * v)).sum))

/-- The prior rows, if any: matrix, right-hand side, squared norms, number of rows added
(dense_optimizer.py 104-105, 151-164). -/
def addPriors (npix : Nat) (prior : Option (PriorDerivs R)) (A : Dense R) (norms : List R) :
    Dense R × (Nat → R) × List R × Nat :=
  match prior with
  | none => (A, fun _ => 0, norms, 0)
  | some d =>
    let r := densePriors npix (((d.rows.zip d.cols).zip d.vals).zip d.bs) (A, fun _ => 0, norms)
    (r.1, r.2.1, r.2.2, rowsEnd d.rows)

/-- Division of the columns by their norms, dense_optimizer.py 166-173. -/
def scaleDense (sqrt : R → R) (norms : List R) (A : Dense R) : Dense R :=
  fun r c =>
    match norms[c]? with
    | some s => if 0 < s then A r c / sqrt s else A r c
    | none => A r c

/-- The matrix, right-hand side and column scales of the dense optimizer, dense_optimizer.py 65-187
(up to the call of `lstsq`): number of rows, matrix, vector, scales. -/
def denseProblem (sqrt : R → R) (imgs : Nat → Img R) (ds : Derivs R)
    (prior : Option (PriorDerivs R)) (scaleColumns : Bool) :
    Except PyErr (Nat × Dense R × (Nat → R) × List R) :=
  let o := imgOffsets (fun i => (imgs i).npix) ds
  match denseAll imgs o.1 0 ds (fun _ _ => 0) with
  | .error e => .error e
  | .ok (A, norms) =>
    let p := addPriors o.2 prior A norms
    .ok (o.2 + p.2.2.2, if scaleColumns then scaleDense sqrt p.2.2.1 p.1 else p.1,
      fillChi imgs o.1 p.2.1, p.2.2.1.map (fun s => if 0 < s then sqrt s else sqrt 1))

/-- `ConstrainedDenseOptimizer.getUpdateDirection`, dense_optimizer.py 17-262; `lstsq` gets the number of
rows and columns, matrix and vector.  No rows: the empty list (`none`). -/
def denseUpdateDirection (sqrt : R → R) (lstsq : Nat → Nat → Dense R → (Nat → R) → List R)
    (imgs : Nat → Img R) (ds : Derivs R) (prior : Option (PriorDerivs R)) (scaleColumns : Bool) :
    Except PyErr (Option (List R)) :=
  match denseProblem sqrt imgs ds prior scaleColumns with
  | .error e => .error e
  | .ok (nrows, A, B, scales) =>
    if nrows = 0 then .ok none
    else
      let X := lstsq nrows ds.length A B
      .ok (some (if scaleColumns then List.zipWith (fun s x => x / s) scales X else X))

end dense

end Verif.Lsq
