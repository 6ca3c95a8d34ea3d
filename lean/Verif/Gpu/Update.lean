import Verif.Gpu.Prof
import Verif.Lsq.Model

/-!
# The update direction of the GPU optimizer

tractor/gpu_optimizer.py `gpu_one_source_update` (467-811).  `cupy` is taken to behave as `numpy`; numbers are exact, so
they are always finite (the assertion in 798).
-/

namespace Verif.Gpu

open Verif Verif.Psf Verif.Mog Verif.Params Verif.Lsq

variable {R : Type}

/-- The source: `positionToPixel`, `brightnessToCounts` and `cdInverseAtPixel` for each image; `npos` the number of
position parameters if `pos` is thawed, else 0 (gpu_optimizer.py 590-592); `bands` is `getBrightness().getParamNames()`;
`nparams` is `numberOfParams()`; `nshapes` and `step` are number and step sizes of `getDerivativeShearedProfiles`, none
for a point source; `models` gives for each image the unit-flux models on the grid, first of the source itself, then of
its derivative profiles (gpu_optimizer.py 536-554). -/
structure Star (R : Type) where
  pos : Tim R → R × R
  cnt : Tim R → R
  cdi : Tim R → Nat → Nat → R
  npos : Nat
  bands : List String
  nparams : Nat
  nshapes : Nat
  step : Tim R → Nat → R
  models : List (Tim R) → Params R → List (R × R) → Except PyErr (List (List (Arr R)))

/-- The constant surface brightness: `brightnessToCounts`, `pixel_scale()` and `brightness.getParamNames()`. -/
structure Glow (R : Type) where
  cnt : Tim R → R
  scale : Tim R → R
  bands : List String

/-- The tractor: the images that have masks, their bands, the source and the surface brightness (sources whose `len` is
zero, which `if src` passes over, do not occur), and `getLogPriorDerivatives()`, `none` also for `priors=False`. -/
structure UpJob (R : Type) where
  tims : List (Tim R)
  band : Tim R → String
  src : Option (Star R)
  sb : Option (Glow R)
  prior : Option (PriorDerivs R)

/-- What the function returns when there is an update: `sX`, or with `get_A` also the matrix of `Nrows` rows, the
right-hand side and the column scales. -/
inductive UpOut (R : Type) where
  | direction (x : List R)
  | system (nrows : Nat) (A : Dense R) (B : Nat → R) (x : List R) (scales : List R)

/-- `dict(pairs)[k]`: the last pair with this key. -/
def dictGet (d : List (Nat × Nat)) (k : Nat) : Option Nat := (d.reverse.find? (fun e => e.1 = k)).map (·.2)

/-- `list(np.unique(tim_bands))`, gpu_optimizer.py 599. -/
def uniqueBands (bands : List String) : List String := bands.dedup.mergeSort (fun a b => decide (a ≤ b))

/-- `if band in tim_ubands: param_indices.append((s0 + i, f0 + tim_ubands.index(band)))`, gpu_optimizer.py 638-640,
647-650. -/
def bandPairs (ub : List String) (s0 f0 : Nat) (bands : List String) : List (Nat × Nat) :=
  bands.zipIdx.filterMap (fun bi => if bi.1 ∈ ub then some (s0 + bi.2, f0 + ub.idxOf bi.1) else none)

/-- Numbers of columns: position, fluxes (`Nbands`), shapes, surface brightness, gpu_optimizer.py 590-626. -/
structure Cols where
  npos : Nat
  nbands : Nat
  nshapes : Nat
  nsb : Nat

def Cols.total (k : Cols) : Nat := k.npos + k.nbands + k.nshapes + k.nsb

/-- gpu_optimizer.py 590-626; `ub` is `tim_ubands`. -/
def colsOf (job : UpJob R) (ub : List String) : Cols :=
  ⟨(match job.src with | some s => s.npos | none => 0), (match job.src with | some _ => ub.length | none => 0),
    (match job.src with | some s => s.nshapes | none => 0), (match job.sb with | some _ => ub.length | none => 0)⟩

/-- `src_bands`. -/
def srcBands (job : UpJob R) : List String :=
  match job.src with
  | some s => s.bands
  | none => []

/-- `sb_bands`. -/
def sbBands (job : UpJob R) : List String :=
  match job.sb with
  | some g => g.bands
  | none => []

/-- `param_indices`, (source parameter, column) pairs, gpu_optimizer.py 634-650. -/
def paramIndices (job : UpJob R) (ub : List String) : List (Nat × Nat) :=
  let k := colsOf job ub
  (if k.npos ≠ 0 then [(0, 0), (1, 1)] else []) ++
    bandPairs ub k.npos k.npos (srcBands job) ++
    (List.range k.nshapes).map (fun i => (k.npos + (srcBands job).length + i, k.npos + k.nbands + i)) ++
    bandPairs ub (k.npos + (srcBands job).length + k.nshapes) (k.npos + k.nbands + k.nshapes) (sbBands job)

section
variable [Field R]

/-- `Gtmp[itim, k, y_out, x_out] = G[itim, k, y_in, x_in]` into zeros, gpu_optimizer.py 558-581.  (If no image is shifted
the arrays are kept, which is the same.) -/
def shiftInto (dx dy : Int) (A : Arr R) : Except PyErr (Arr R) :=
  (Arr.zeros A.h A.w : Arr R).modify (shiftSlices dy).1.1 (shiftSlices dy).1.2 (shiftSlices dx).1.1 (shiftSlices dx).1.2
    (fun _ b => b) (A.slice (shiftSlices dy).2.1 (shiftSlices dy).2.2 (shiftSlices dx).2.1 (shiftSlices dx).2.2)

/-- `dx` and `dy`: differences of the neighbours, zero in the edge pixels, gpu_optimizer.py 675-694. -/
def gradX (sz : Nat) (G : Arr R) (r c : Nat) : R :=
  if r = 0 ∨ c = 0 ∨ r + 1 = sz ∨ c + 1 = sz then 0 else (G.px r (c - 1) - G.px r (c + 1)) / 2

def gradY (sz : Nat) (G : Arr R) (r c : Nat) : R :=
  if r = 0 ∨ c = 0 ∨ r + 1 = sz ∨ c + 1 = sz then 0 else (G.px (r - 1) c - G.px (r + 1) c) / 2

/-- `G[i, k]`. -/
def profAt (G : List (List (Arr R))) (i k : Nat) : Arr R := (G.getD i []).getD k (Arr.zeros 0 0)

/-- The element of `A` in column `col` for the pixel in row `r`, column `c` of the arrays of image `i`, gpu_optimizer.py
671-738.  The columns written are all different ones. -/
def cellOf (job : UpJob R) (k : Cols) (ub : List String) (sz : Nat) (G : List (List (Arr R))) (i : Nat) (tim : Tim R)
    (p : Padded R) (col r c : Nat) : R :=
  let ie := p.padie.px r c
  let g := profAt G i
  let own (s : Star R) : R :=
    if k.npos ≠ 0 ∧ col < 2 then
      s.cnt tim * (gradX sz (g 0) r c * s.cdi tim 0 col + gradY sz (g 0) r c * s.cdi tim 1 col) * ie
    else if col = k.npos + ub.idxOf (job.band tim) then (g 0).px r c * ie
    else if k.npos + k.nbands ≤ col ∧ col < k.npos + k.nbands + k.nshapes then
      s.cnt tim * ((g (col - (k.npos + k.nbands) + 1)).px r c - (g 0).px r c) / s.step tim (col - (k.npos + k.nbands)) * ie
    else 0
  match job.src, job.sb with
  | some s, some b => if col = k.npos + k.nbands + k.nshapes + ub.idxOf (job.band tim) then b.scale tim ^ 2 * ie else own s
  | some s, none => own s
  | none, some b => if col = k.npos + k.nbands + k.nshapes + ub.idxOf (job.band tim) then b.scale tim ^ 2 * ie else 0
  | none, none => 0

/-- The elements of `B` in the pixels, gpu_optimizer.py 740-748. -/
def restOf (job : UpJob R) (G : List (List (Arr R))) (i : Nat) (tim : Tim R) (p : Padded R) (r c : Nat) : R :=
  match job.src, job.sb with
  | some s, some b =>
    (p.padpix.px r c - (s.cnt tim * (profAt G i 0).px r c + b.cnt tim * b.scale tim ^ 2)) * p.padie.px r c
  | none, some b => (p.padpix.px r c - b.cnt tim * b.scale tim ^ 2) * p.padie.px r c
  | some s, none => (p.padpix.px r c - s.cnt tim * (profAt G i 0).px r c) * p.padie.px r c
  | none, none => 0

/-- The rows of the pixels: `i * pH * pW + r * pW + c` belongs to pixel `(r, c)` of image `i` (`ravel`). -/
def pixelRow (tims : List (Tim R)) (P : Params R) (f : Nat → Tim R → Padded R → Nat → Nat → R) (row : Nat) : R :=
  let n := P.sz * P.sz
  match tims[row / n]?, P.ims[row / n]? with
  | some tim, some p => f (row / n) tim p (row % n / P.sz) (row % n % P.sz)
  | _, _ => 0

/-- The inner loop over the rows of one column of the priors, gpu_optimizer.py 753-757: the column is looked up again for
every row. -/
def priorRows (d : List (Nat × Nat)) (npix : Nat) :
    Nat → List ((Nat × R) × R) → Dense R × (Nat → R) → Except PyErr (Dense R × (Nat → R))
  | _, [], AB => .ok AB
  | ci, ((rij, vij), bij) :: rest, (A, B) =>
    match dictGet d ci with
    | none => .error .key
    | some cj =>
      priorRows d npix cj rest (fun r c => if r = npix + rij ∧ c = cj then vij else A r c,
        fun r => if r = npix + rij then B r + bij else B r)

/-- The loop over the columns, gpu_optimizer.py 750-757. -/
def priorCols (d : List (Nat × Nat)) (npix : Nat) :
    List (((List Nat × Nat) × List R) × List R) → Dense R × (Nat → R) → Except PyErr (Dense R × (Nat → R))
  | [], AB => .ok AB
  | (((ri, ci), vi), bi) :: rest, AB =>
    match priorRows d npix ci ((ri.zip vi).zip bi) AB with
    | .error e => .error e
    | .ok AB => priorCols d npix rest AB

/-- Number of prior rows and the prior loops, gpu_optimizer.py 660-664, 750-758.  (`Npriors = 0` does not happen when there
are priors, since `1 + max(r)` is positive.) -/
def withPriors (d : List (Nat × Nat)) (npix : Nat) (prior : Option (PriorDerivs R)) (AB : Dense R × (Nat → R)) :
    Except PyErr (Nat × Dense R × (Nat → R)) :=
  match prior with
  | none => .ok (0, AB.1, AB.2)
  | some q =>
    match priorCols d npix (((q.rows.zip q.cols).zip q.vals).zip q.bs) AB with
    | .error e => .error e
    | .ok AB => .ok (rowsEnd q.rows, AB.1, AB.2)

section
variable [LinearOrder R]

/-- `colscales`, gpu_optimizer.py 761. -/
def colScale (sqrt : R → R) (nrows : Nat) (A : Dense R) (c : Nat) : R :=
  sqrt ((List.range nrows).map (fun r => A r c ^ 2)).sum

/-- The columns that are kept, `np.flatnonzero(colscales)`, gpu_optimizer.py 764-767. -/
def liveCols (sqrt : R → R) (nrows ncols : Nat) (A : Dense R) : List Nat :=
  (List.range ncols).filter (fun c => decide (colScale sqrt nrows A c ≠ 0))

/-- The rows that are kept, `cp.any(A, axis=1)`, gpu_optimizer.py 784-788. -/
def liveRows (nrows : Nat) (I : List Nat) (A : Dense R) : List Nat :=
  (List.range nrows).filter (fun r => I.any (fun c => decide (A r c ≠ 0)))

/-- Columns and rows cut, columns divided by their scales, the system solved, gpu_optimizer.py 764-794.  `lstsq` is
`linalg.lstsq`. -/
def solveCut (sqrt : R → R) (lstsq : Nat → Nat → Dense R → (Nat → R) → List R) (nrows : Nat) (I : List Nat) (A : Dense R)
    (B : Nat → R) : List R :=
  let good := liveRows nrows I A
  let X := lstsq good.length I.length
    (fun r c => A (good.getD r 0) (I.getD c 0) / colScale sqrt nrows A (I.getD c 0)) (fun r => B (good.getD r 0))
  X.zipIdx.map (fun xj => xj.1 / colScale sqrt nrows A (I.getD xj.2 0))

/-- `sX = np.zeros(Nout); sX[I] = X`, gpu_optimizer.py 796-802: an index out of range is an IndexError. -/
def scatter (nout : Nat) (I : List Nat) (X : List R) : Except PyErr (List R) :=
  if I.any (fun i => decide (nout ≤ i)) then .error .index
  else .ok ((I.zip X).foldl (fun l ix => l.set ix.1 ix.2) (List.replicate nout 0))

/-- `[fit_to_src_param[i] for i in I]`, gpu_optimizer.py 772-775, 796: a column without parameter is a KeyError. -/
def fitToSrc (d : List (Nat × Nat)) : List Nat → Except PyErr (List Nat)
  | [] => .ok []
  | i :: I =>
    match dictGet (d.map (fun e => (e.2, e.1))) i with
    | none => .error .key
    | some s =>
      match fitToSrc d I with
      | .error e => .error e
      | .ok l => .ok (s :: l)

/-- From the matrix to the result, gpu_optimizer.py 760-811.  With `get_A`, `sA[goodrows,:][:,I] = A` writes into a copy:
the first index makes a new array. -/
def finish (sqrt : R → R) (lstsq : Nat → Nat → Dense R → (Nat → R) → List R) (d : List (Nat × Nat)) (nrows ncols nout : Nat)
    (A : Dense R) (B : Nat → R) (getA : Bool) : Except PyErr (Option (UpOut R)) :=
  let I := liveCols sqrt nrows ncols A
  if I.length = 0 then .ok none
  else
    match fitToSrc d I with
    | .error e => .error e
    | .ok S =>
      match scatter nout S (solveCut sqrt lstsq nrows I A B), scatter nout S (I.map (colScale sqrt nrows A)) with
      | .error e, _ => .error e
      | _, .error e => .error e
      | .ok sX, .ok sc =>
        if getA then
          .ok (some (.system nrows (fun _ _ => 0) (fun r => if r ∈ liveRows nrows I A then B r else 0) sX sc))
        else .ok (some (.direction sX))

/-- The position used for the arrays, gpu_optimizer.py 488-506: that of the source, or the middle of the mask. -/
def upPos (job : UpJob R) (tim : Tim R) : R × R :=
  match job.src with
  | some s => s.pos tim
  | none => ((tim.x0 + tim.x1) / 2, (tim.y0 + tim.y1) / 2)

/-- `dx_vals`, `dy_vals` of one image, gpu_optimizer.py 508-520. -/
def upShift (rnd : R → Int) (job : UpJob R) (tim : Tim R) (p : Padded R) : Int × Int :=
  (rnd (upPos job tim).1 - p.ipx, rnd (upPos job tim).2 - p.ipy)

/-- The shift goes beyond the limits of the arrays, gpu_optimizer.py 522-526. -/
def overLimit (p : Padded R) (d : Int × Int) : Bool :=
  (decide (d.1 > 0) && decide (d.1 > p.maxdx)) || (decide (d.1 < 0) && decide (d.1 < p.mindx)) ||
    (decide (d.2 > 0) && decide (d.2 > p.maxdy)) || (decide (d.2 < 0) && decide (d.2 < p.mindy))

/-- The models, each moved by the shift of its image, gpu_optimizer.py 536-581; nothing without a source. -/
def upModels (rnd : R → Int) (job : UpJob R) (P : Params R) : Except PyErr (List (List (Arr R))) :=
  match job.src with
  | none => .ok []
  | some s =>
    match s.models job.tims P (job.tims.map (fun tim => ((upPos job tim).1 - rnd (upPos job tim).1,
      (upPos job tim).2 - rnd (upPos job tim).2))) with
    | .error e => .error e
    | .ok G => ((job.tims.zip P.ims).zip G).mapM (fun x =>
        x.2.mapM (shiftInto (upShift rnd job x.1.1 x.1.2).1 (upShift rnd job x.1.1 x.1.2).2))

/-- `Nout`, gpu_optimizer.py 798-799. -/
def nOut (job : UpJob R) : Nat := (match job.src with | some s => s.nparams | none => 0) + (sbBands job).length

/-- The two assertions of gpu_optimizer.py 513-514. -/
def subpixel (rnd : R → Int) (job : UpJob R) : Bool :=
  job.tims.all (fun tim => decide (|(upPos job tim).1 - rnd (upPos job tim).1| ≤ 1 / 2) &&
    decide (|(upPos job tim).2 - rnd (upPos job tim).2| ≤ 1 / 2))

/-- From the models on, gpu_optimizer.py 536-811.  Without source and surface brightness `fluxes` is not defined. -/
def upBody (rnd : R → Int) (sqrt : R → R) (lstsq : Nat → Nat → Dense R → (Nat → R) → List R) (job : UpJob R) (P : Params R)
    (getA : Bool) : Except PyErr (Option (UpOut R)) :=
  match upModels rnd job P with
  | .error e => .error e
  | .ok G =>
    let ub := uniqueBands (job.tims.map job.band)
    let k := colsOf job ub
    if P.ims.length ≠ job.tims.length then .error .assertion
    else if k.npos ≠ 0 ∧ k.npos ≠ 2 then .error .assertion
    else if job.src.isNone && job.sb.isNone then .error .nameErr
    else
      let d := paramIndices job ub
      let npix := job.tims.length * (P.sz * P.sz)
      let A : Dense R := fun row col => pixelRow job.tims P (fun i tim p => cellOf job k ub P.sz G i tim p col) row
      let B := fun row => pixelRow job.tims P (restOf job G) row
      match withPriors d npix job.prior (A, B) with
      | .error e => .error e
      | .ok (np, A, B) => finish sqrt lstsq d (npix + np) k.total (nOut job) A B getA

/-- `gpu_one_source_update(tr, priors, get_A)`, gpu_optimizer.py 467-811: `self.image_params` afterwards, and the result.
When cached arrays are too small the function calls itself without the cache and without `get_A`; an exception then
leaves the cache empty. -/
def oneSourceUpdate (rnd : R → Int) (sqrt : R → R) (lstsq : Nat → Nat → Dense R → (Nat → R) → List R)
    (cache : Option (Params R)) (job : UpJob R) (getA : Bool) :
    Option (Params R) × Except PyErr (Option (UpOut R)) :=
  if job.tims.length = 0 then (cache, .ok none)
  else
    match getImageParams rnd cache job.tims (upPos job) with
    | .error e => (cache, .error e)
    | .ok P =>
      if !subpixel rnd job then (cache, .error .assertion)
      else if cache.isSome && (job.tims.zip P.ims).any (fun tp => overLimit tp.2 (upShift rnd job tp.1 tp.2)) then
        match getImageParams rnd none job.tims (upPos job) with
        | .error e => (none, .error e)
        | .ok P' =>
          match upBody rnd sqrt lstsq job P' false with
          | .error e => (none, .error e)
          | .ok r => (cache, .ok r)
      else (cache, upBody rnd sqrt lstsq job P getA)

/-- The models of a point source, gpu_optimizer.py 549-550, 904-925. -/
def pointModels (lz : R → R) (junk junk' : Nat → Nat → R) (_ : List (Tim R)) (P : Params R) (mus : List (R × R)) :
    Except PyErr (List (List (Arr R))) :=
  (P.ims.zip mus).mapM (fun pm => do
    let A ← unitFluxPsf lz junk junk' pm.1.psfPad pm.2.1 pm.2.2
    .ok [A])

/-- The models of a galaxy, gpu_optimizer.py 536-548: `profs` are the profiles of the image, `_getShearedProfile` first,
then those of `getDerivativeShearedProfiles`; `lib` and `psf` belong to arrays of the given size. -/
def galaxyModels (lib : Nat → Lib R) (lz : R → R) (junk : Nat → Nat → Nat → Nat → R) (psf : Nat → Tim R → ImPsf R)
    (profs : Tim R → List (Mix R)) (tims : List (Tim R)) (P : Params R) (mus : List (R × R)) :
    Except PyErr (List (List (Arr R))) :=
  galaxyProfiles (lib P.sz) lz junk P.sz (tims.map (psf P.sz)) (tims.map profs) (fun i _ => (mus.getD i (0, 0)).1)
    (fun i _ => (mus.getD i (0, 0)).2)

end

end

end Verif.Gpu
