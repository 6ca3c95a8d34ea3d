import Verif.Lsq.Model

/-!
# SmarterDenseOptimizer

tractor/smarter_dense_optimizer.py `getUpdateDirection`.  `lstsq` and `np.sqrt` are parameters, as in
`Verif.Lsq.Model`; float32 storage and the tests for non-finite numbers are not modelled.
-/

namespace Verif.Lsq

open Verif Verif.Params Verif.Patches

variable {R : Type}

/-- (x0, x1, y0, y1), as in `Patch.extent`. -/
abbrev Box := Int × Int × Int × Int

/-- `min(dx0, x0), max(dx1, x1), min(dy0, y0), max(dy1, y1)`, line 112. -/
def Box.join (d b : Box) : Box := (min d.1 b.1, max d.2.1 b.2.1, min d.2.2.1 b.2.2.1, max d.2.2.2 b.2.2.2)

/-- `img_bounds[img]`, if there. -/
def boundOf (bounds : List (Nat × Box)) (img : Nat) : Option Box := (bounds.find? (fun e => e.1 = img)).map (·.2)

/-- Lines 110-114: the entry of an image is widened or made. -/
def widen (bounds : List (Nat × Box)) (img : Nat) (d : Box) : List (Nat × Box) :=
  if bounds.any (fun e => e.1 = img) then bounds.map (fun e => if e.1 = img then (img, Box.join d e.2) else e)
  else bounds ++ [(img, d)]

section field
variable [Field R] [LinearOrder R]

/-- The loop over the derivatives of one parameter, lines 94-114: the clipped patches (`clipTo` changes them in place) and the
bounds. -/
def clipParam (imgs : Nat → Img R) : List (Patch R × Nat) → List (Nat × Box) →
    Except PyErr (List (Patch R × Nat) × List (Nat × Box))
  | [], bounds => .ok ([], bounds)
  | (d, i) :: rest, bounds =>
    match d.clipTo (imgs i).w (imgs i).h with
    | (_, .error e) => .error e
    | (q, .ok b) =>
      match clipParam imgs rest (if b then widen bounds i q.extent else bounds) with
      | .error e => .error e
      | .ok (l, bounds') => .ok ((q, i) :: l, bounds')

/-- Lines 90-114. -/
def clipAll (imgs : Nat → Img R) : Derivs R → List (Nat × Box) → Except PyErr (Derivs R × List (Nat × Box))
  | [], bounds => .ok ([], bounds)
  | param :: rest, bounds =>
    match clipParam imgs param bounds with
    | .error e => .error e
    | .ok (l, bounds1) =>
      match clipAll imgs rest bounds1 with
      | .error e => .error e
      | .ok (ls, bounds2) => .ok (l :: ls, bounds2)

/-- `Npriors`, lines 140-143: ValueError for `max` of an empty list. -/
def priorRows (prior : Option (PriorDerivs R)) : Except PyErr Nat :=
  match prior with
  | none => .ok 0
  | some d => if d.rows.isEmpty || d.rows.any (·.isEmpty) then .error .value else .ok (rowsEnd d.rows)

/-- `cA`, line 142. -/
def priorCols : Option (PriorDerivs R) → List Nat
  | none => []
  | some d => d.cols

/-- `cols_live`, lines 87-93, 144: IndexError for a prior on a column that is not there. -/
def liveCols (ds : Derivs R) (prior : Option (PriorDerivs R)) : Except PyErr (List Bool) :=
  if (priorCols prior).any (fun c => ds.length ≤ c) then .error .index
  else .ok ((List.range ds.length).map (fun k => !((ds[k]?).getD []).isEmpty || (priorCols prior).contains k))

/-- `column_map[k]` for a live column, lines 169-173: the number of live columns before. -/
def colOf (live : List Bool) (k : Nat) : Nat := (live.take k).count true

/-- Number of pixels of a box, line 157. -/
def Box.npix (b : Box) : Nat := ((b.2.1 - b.1) * (b.2.2.2 - b.2.2.1)).toNat

/-- `img_offsets` and `Npixels`, lines 146-157: KeyError for an image without bounds. -/
def smartOffsets (bounds : List (Nat × Box)) : List Nat → List (Nat × Nat) × Nat → Except PyErr (List (Nat × Nat) × Nat)
  | [], acc => .ok acc
  | img :: rest, acc =>
    if acc.1.any (fun e => e.1 = img) then smartOffsets bounds rest acc
    else
      match boundOf bounds img with
      | none => .error .key
      | some b => smartOffsets bounds rest (acc.1 ++ [(img, acc.2)], acc.2 + b.npix)

/-- `a[y0:y1, x0:x1]`. -/
def cut (A : Arr R) (b : Box) : Arr R := A.slice (some b.2.2.1) (some b.2.2.2) (some b.1) (some b.2.1)

/-- The loop over the derivatives of one parameter, lines 183-210. -/
def smartParam (imgs : Nat → Img R) (bounds : List (Nat × Box)) (offs : List (Nat × Nat)) (col : Nat) :
    List (Patch R × Nat) → Dense R × R → Except PyErr (Dense R × R)
  | [], acc => .ok acc
  | (d, i) :: rest, (A, s) =>
    match d.patch with
    | none => smartParam imgs bounds offs col rest (A, s)
    | some P =>
      match boundOf bounds i with
      | none => .error .key
      | some b =>
        if d.extent = b then
          match lookupOff offs i with
          | .error e => .error e
          | .ok row0 =>
            let w := cut (imgs i).inverr b
            if P.h = w.h ∧ P.w = w.w then
              let vals := List.zipWith (· * ·) P.ravel w.ravel
              smartParam imgs bounds offs col rest (setRows A row0 col vals, s + (vals.map (fun v => v * v)).sum)
            else .error .value
        else .error .runtime

/-- The loop over parameters, lines 177-213: matrix and squared norms of the live columns. -/
def smartAll (imgs : Nat → Img R) (bounds : List (Nat × Box)) (offs : List (Nat × Nat)) :
    Nat → List (List (Patch R × Nat) × Bool) → Dense R → Except PyErr (Dense R × List R)
  | _, [], A => .ok (A, [])
  | col, (param, live) :: rest, A =>
    if live then
      match smartParam imgs bounds offs col param (A, 0) with
      | .error e => .error e
      | .ok (A', s) => (smartAll imgs bounds offs (col + 1) rest A').map (fun r => (r.1, s :: r.2))
    else smartAll imgs bounds offs col rest A

/-- The prior rows, lines 215-227 (the loop is that of the dense optimizer, with columns looked up in `column_map`). -/
def smartPriors (npix : Nat) (live : List Bool) (prior : Option (PriorDerivs R)) (A : Dense R) (norms : List R) :
    Dense R × (Nat → R) × List R :=
  match prior with
  | none => (A, fun _ => 0, norms)
  | some d =>
    densePriors npix (((d.rows.zip (d.cols.map (colOf live))).zip d.vals).zip d.bs) (A, fun _ => 0, norms)

/-- `colscales` afterwards, lines 229-236. -/
def smartScales (sqrt : R → R) (norms : List R) : List R := norms.map (fun s => if 0 < sqrt s then sqrt s else 1)

/-- The scaled matrix, lines 229-233. -/
def smartScaled (sqrt : R → R) (norms : List R) (A : Dense R) : Dense R :=
  fun r c =>
    match norms[c]? with
    | some s => if 0 < sqrt s then A r c / sqrt s else A r c
    | none => A r c

/-- `B[rowstart: rowstart + w*h] = chi[y0:y1, x0:x1].flat`, lines 243-253. -/
def smartChi (imgs : Nat → Img R) (bounds : List (Nat × Box)) : List (Nat × Nat) → (Nat → R) → (Nat → R)
  | [], B => B
  | e :: offs, B => smartChi imgs bounds offs (fun r =>
      match boundOf bounds e.1 with
      | none => B r
      | some b => if e.2 ≤ r ∧ r < e.2 + b.npix then ((cut (imgs e.1).chi b).ravel[r - e.2]?).getD 0 else B r)

/-- The least-squares problem, lines 83-253: number of rows, matrix (scaled if asked for), vector, squared norms of the
columns, live columns.  `none` if there are no rows (line 162). -/
def smartProblem (sqrt : R → R) (imgs : Nat → Img R) (ds : Derivs R) (prior : Option (PriorDerivs R))
    (scaleColumns : Bool) : Except PyErr (Option (Nat × Dense R × (Nat → R) × List R × List Bool)) := do
  let (cs, bounds) ← clipAll imgs ds []
  let npriors ← priorRows prior
  let live ← liveCols ds prior
  let (offs, npix) ← smartOffsets bounds (ds.flatMap (fun param => param.map (·.2))) ([], 0)
  if npix + npriors = 0 then .ok none
  else do
    let (A0, norms0) ← smartAll imgs bounds offs 0 (cs.zip live) (fun _ _ => 0)
    let p := smartPriors npix live prior A0 norms0
    .ok (some (npix + npriors, if scaleColumns then smartScaled sqrt p.2.2 p.1 else p.1,
      smartChi imgs bounds offs p.2.1, p.2.2, live))

/-- `X_full[inv_column_map] = X`, lines 303-306. -/
def expand : List Bool → List R → List R
  | [], _ => []
  | false :: live, X => 0 :: expand live X
  | true :: live, x :: X => x :: expand live X
  | true :: live, [] => 0 :: expand live []

/-- `SmarterDenseOptimizer.getUpdateDirection`, lines 37-306, with `shared_params=False` (anything else raises RuntimeError,
line 47), `get_A`, `get_cov` False. -/
def smartUpdateDirection (sqrt : R → R) (lstsq : Nat → Nat → Dense R → (Nat → R) → List R) (imgs : Nat → Img R)
    (ds : Derivs R) (prior : Option (PriorDerivs R)) (scaleColumns : Bool) : Except PyErr (Option (List R)) :=
  match smartProblem sqrt imgs ds prior scaleColumns with
  | .error e => .error e
  | .ok none => .ok none
  | .ok (some (nrows, A, B, norms, live)) =>
    let X := lstsq nrows (live.count true) A B
    let X := if scaleColumns then List.zipWith (fun s x => x / s) (smartScales sqrt norms) X else X
    .ok (some (expand live X))

/-- `np.flatnonzero(live)`: `inv_column_map`, line 170. -/
def flatnonzero (live : List Bool) : List Nat := (live.zipIdx.filter (fun e => e.1)).map (fun e => e.2)

/-- The result with `get_cov=True`, lines 287-290: update of the live parameters, their inverse covariance matrix as a
function of (live) columns, and the parameter of each column.  Without column scaling `colscales` still holds the zeros of
line 177. -/
def smartCovariance (sqrt : R → R) (lstsq : Nat → Nat → Dense R → (Nat → R) → List R) (imgs : Nat → Img R)
    (ds : Derivs R) (prior : Option (PriorDerivs R)) (scaleColumns : Bool) :
    Except PyErr (Option (List R × (Nat → Nat → R) × List Nat)) :=
  match smartProblem sqrt imgs ds prior scaleColumns with
  | .error e => .error e
  | .ok none => .ok none
  | .ok (some (nrows, A, B, norms, live)) =>
    let X := lstsq nrows (live.count true) A B
    let X := if scaleColumns then List.zipWith (fun s x => x / s) (smartScales sqrt norms) X else X
    let scales := if scaleColumns then smartScales sqrt norms else norms.map (fun _ => 0)
    .ok (some (X, fun c c' => ((List.range nrows).map (fun r => A r c * A r c')).sum *
      ((scales[c]?).getD 0 * (scales[c']?).getD 0), flatnonzero live))

end field

end Verif.Lsq
