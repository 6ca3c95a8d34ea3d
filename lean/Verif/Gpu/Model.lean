import Verif.Psf.Lanczos
import Mathlib.Algebra.Order.Group.Abs
import Mathlib.Algebra.Order.Field.Basic
import Mathlib.Data.Nat.Log

/-!
# The image layout and the models of the GPU optimizer

tractor/gpu_optimizer.py `GpuOptimizer`: `get_image_params`, `cache_image_params`, `gpu_setup_image_params`,
`get_vectorized_psfs` (the padded stamps), `lanczos_shift_images_gpu`, `correlate7_2d_gpu`, `lanczos_filter`,
`gpu_get_unitflux_psf` and `gpu_one_source_models` for a point source.  `cupy` is taken to behave as `numpy`, and
single-precision rounding is not modelled.  The arrays of all images and models are stacked in the code and every
operation acts on each of them alone; here each is an array of its own.
-/

namespace Verif.Gpu

open Verif Verif.Psf

variable {R : Type}

/-- What is read of an image: pixels, inverse errors, the pixels of its (hybrid) PSF, and the extent of the mask
(`mm.extent`).  `supported`: the sky is a `ConstantSky` of level zero, the PSF is a `HybridPSF` of sampling 1 whose
mixture has mean zero (gpu_optimizer.py 821-829, 1107-1125).  `name` tells images apart: what depends on the WCS, the
calibration or the band of an image is a function of this record. -/
structure Tim (R : Type) where
  pix : Arr R
  ie : Arr R
  psf : Arr R
  x0 : Int
  x1 : Int
  y0 : Int
  y1 : Int
  supported : Bool
  name : Nat := 0

/-- One image of `img_params`, gpu_optimizer.py 878-897. -/
structure Padded (R : Type) where
  psfPad : Arr R
  padpix : Arr R
  padie : Arr R
  ipx : Int
  ipy : Int
  mindx : Int
  maxdx : Int
  mindy : Int
  maxdy : Int
  padx0 : Int
  pady0 : Int

/-- `img_params`: the size `pH = pW` and the images.  The centre `cx = cy` is `sz / 2`. -/
structure Params (R : Type) where
  sz : Nat
  ims : List (Padded R)

section
variable [Field R]

/-- First index in the array and in the stamp on one axis, gpu_optimizer.py 1138-1147 (and 1149-1157): stamp of
length `p`, array of length `n`. -/
def padStart (n p : Nat) : Nat × Nat :=
  if p / 2 ≥ n / 2 then (0, p / 2 - n / 2) else (n / 2 - p / 2, 0)

/-- The stamp in the middle of an array of zeros, `get_vectorized_psfs`, gpu_optimizer.py 1130-1161. -/
def padPsf (sz : Nat) (psf : Arr R) : Except PyErr (Arr R) :=
  let xs := padStart sz psf.w
  let ys := padStart sz psf.h
  let nx := min psf.w sz
  let ny := min psf.h sz
  (Arr.zeros sz sz : Arr R).modify (some ys.1) (some (ys.1 + ny)) (some xs.1) (some (xs.1 + nx)) (fun _ b => b)
    (psf.slice (some ys.2) (some (ys.2 + ny)) (some xs.2) (some (xs.2 + nx)))

/-- `padpix[i, y0+dy : y1+dy, x0+dx : x1+dx] = pix[y0:y1, x0:x1]`, gpu_optimizer.py 851-856. -/
def padPix (sz : Nat) (A : Arr R) (x0 x1 y0 y1 dx dy : Int) : Except PyErr (Arr R) :=
  (Arr.zeros sz sz : Arr R).modify (some (y0 + dy)) (some (y1 + dy)) (some (x0 + dx)) (some (x1 + dx))
    (fun _ b => b) (A.slice (some y0) (some y1) (some x0) (some x1))

section
variable [LinearOrder R]

/-- `cp.flatnonzero(cp.max(padie > 0, axis=0))`, gpu_optimizer.py 861. -/
def hotCols (A : Arr R) : List Nat :=
  (List.range A.w).filter (fun c => (List.range A.h).any (fun r => decide (A.px r c > 0)))

/-- `cp.flatnonzero(cp.max(padie > 0, axis=1))`, gpu_optimizer.py 869. -/
def hotRows (A : Arr R) : List Nat :=
  (List.range A.h).filter (fun r => (List.range A.w).any (fun c => decide (A.px r c > 0)))

/-- `(min, max)` of the shifts on one axis of length `n`, gpu_optimizer.py 862-868, 870-875. -/
def limits (n : Nat) (hot : List Nat) : Int × Int :=
  match hot.head?, hot.getLast? with
  | some a, some b => ((b : Int) - n + 1, a)
  | _, _ => (-(n : Int), n)

/-- One iteration of the loop of `gpu_setup_image_params`, gpu_optimizer.py 846-876, with the stamp of
`get_vectorized_psfs`. -/
def setupOne (sz : Nat) (t : Tim R) (ipx ipy : Int) : Except PyErr (Padded R) :=
  if !t.supported then .error .assertion
  else do
    let psfPad ← padPsf sz t.psf
    let c : Int := (sz / 2 : Nat)
    let dx := c - ipx
    let dy := c - ipy
    let padpix ← padPix sz t.pix t.x0 t.x1 t.y0 t.y1 dx dy
    let padie ← padPix sz t.ie t.x0 t.x1 t.y0 t.y1 dx dy
    let lx := limits sz (hotCols padie)
    let ly := limits sz (hotRows padie)
    .ok ⟨psfPad, padpix, padie, ipx, ipy, lx.1, lx.2, ly.1, ly.2, ipx - c, ipy - c⟩

/-- `[1+ipx-x0, 1+x1-ipx, 1+ipy-y0, 1+y1-ipy]`, gpu_optimizer.py 105. -/
def reach (t : Tim R) (ipx ipy : Int) : List Int :=
  [1 + ipx - t.x0, 1 + t.x1 - ipx, 1 + ipy - t.y0, 1 + t.y1 - ipy]

/-- `2**int(np.ceil(np.log2(halfsize * 2.)))`, gpu_optimizer.py 1127: the least power of two that is not less. -/
def gridSize (halfsize : Int) : Except PyErr Nat :=
  if halfsize ≤ 0 then .error .value else .ok (2 ^ Nat.clog 2 (2 * halfsize).toNat)

/-- `get_image_params(tims, px, py, x0, x1, y0, y1)`, gpu_optimizer.py 97-108.  `rnd` is `round`, `pos` the position of
the source in each image, `cache` is `self.image_params`.  Without images there is no maximum (ValueError). -/
def getImageParams (rnd : R → Int) (cache : Option (Params R)) (tims : List (Tim R)) (pos : Tim R → R × R) :
    Except PyErr (Params R) :=
  match cache with
  | some P => .ok P
  | none =>
    match (tims.flatMap (fun t => reach t (rnd (pos t).1) (rnd (pos t).2))).max? with
    | none => .error .value
    | some m => do
      let sz ← gridSize (5 + m)
      let ims ← tims.mapM (fun t => setupOne sz t (rnd (pos t).1) (rnd (pos t).2))
      .ok ⟨sz, ims⟩

/-- `cache_image_params(tr)`, gpu_optimizer.py 113-131, with images that have masks: the new `self.image_params`. -/
def cacheImageParams (rnd : R → Int) (cache : Option (Params R)) (tims : List (Tim R)) (pos : Tim R → R × R) :
    Option (Params R) × Option PyErr :=
  match getImageParams rnd cache tims pos with
  | .error e => (cache, some e)
  | .ok P => (some P, none)

end

/-! ### Interpolation -/

/-- `A[:, c] = v`. -/
def setCol (A : Arr R) (c : Nat) (v : Nat → R) : Arr R :=
  ⟨A.h, A.w, fun r c' => if c' = c then v r else A.px r c'⟩

/-- `A[r, :] = v`. -/
def setRow (A : Arr R) (r : Nat) (v : Nat → R) : Arr R :=
  ⟨A.h, A.w, fun r' c => if r' = r then v c else A.px r' c⟩

/-- `cp.sum(A * f[a:], axis=-1)`, the weights `f[a], f[a+1], ...` along the rows. -/
def dotCols (A : Arr R) (f : Nat → R) (a : Nat) (r : Nat) : R :=
  ((List.range A.w).map (fun k => A.px r k * f (a + k))).sum

/-- `cp.sum(A * f[a:], axis=-2)`. -/
def dotRows (A : Arr R) (f : Nat → R) (a : Nat) (c : Nat) : R :=
  ((List.range A.h).map (fun k => A.px k c * f (a + k))).sum

/-- The x filter of `correlate7_2d_gpu` on one image, gpu_optimizer.py 1238-1259 and 1286-1305.  `work` is the array
written.  Fewer than six columns: the shapes do not match or an index is out of range. -/
def filterX (f : Nat → R) (inp work : Arr R) : Except PyErr (Arr R) :=
  if inp.w < 6 then .error .value
  else do
    let w := setCol work 0 (dotCols (inp.slice none none none (some 4)) f 3)
    let w := setCol w 1 (dotCols (inp.slice none none none (some 5)) f 2)
    let w := setCol w 2 (dotCols (inp.slice none none none (some 6)) f 1)
    let w := setCol w (w.w - 1) (dotCols (inp.slice none none (some (-4)) none) f 0)
    let w := setCol w (w.w - 2) (dotCols (inp.slice none none (some (-5)) none) f 0)
    let w := setCol w (w.w - 3) (dotCols (inp.slice none none (some (-6)) none) f 0)
    let mid (w : Arr R) (op : R → R → R) (a b : Option Int) (k : Nat) : Except PyErr (Arr R) :=
      w.modify none none (some 3) (some (-3)) op ((inp.slice none none a b).map (· * f k))
    let w ← mid w (fun _ b => b) none (some (-6)) 0
    let w ← mid w (· + ·) (some 1) (some (-5)) 1
    let w ← mid w (· + ·) (some 2) (some (-4)) 2
    let w ← mid w (· + ·) (some 3) (some (-3)) 3
    let w ← mid w (· + ·) (some 4) (some (-2)) 4
    let w ← mid w (· + ·) (some 5) (some (-1)) 5
    mid w (· + ·) (some 6) none 6

/-- The y filter, gpu_optimizer.py 1261-1282 and 1307-1325. -/
def filterY (f : Nat → R) (inp out : Arr R) : Except PyErr (Arr R) :=
  if inp.h < 6 then .error .value
  else do
    let w := setRow out 0 (dotRows (inp.slice none (some 4) none none) f 3)
    let w := setRow w 1 (dotRows (inp.slice none (some 5) none none) f 2)
    let w := setRow w 2 (dotRows (inp.slice none (some 6) none none) f 1)
    let w := setRow w (w.h - 1) (dotRows (inp.slice (some (-4)) none none none) f 0)
    let w := setRow w (w.h - 2) (dotRows (inp.slice (some (-5)) none none none) f 0)
    let w := setRow w (w.h - 3) (dotRows (inp.slice (some (-6)) none none none) f 0)
    let mid (w : Arr R) (op : R → R → R) (a b : Option Int) (k : Nat) : Except PyErr (Arr R) :=
      w.modify (some 3) (some (-3)) none none op ((inp.slice a b none none).map (· * f k))
    let w ← mid w (fun _ b => b) none (some (-6)) 0
    let w ← mid w (· + ·) (some 1) (some (-5)) 1
    let w ← mid w (· + ·) (some 2) (some (-4)) 2
    let w ← mid w (· + ·) (some 3) (some (-3)) 3
    let w ← mid w (· + ·) (some 4) (some (-2)) 4
    let w ← mid w (· + ·) (some 5) (some (-1)) 5
    mid w (· + ·) (some 6) none 6

/-- `correlate7_2d_gpu(in_img, out_img, fx, fy, work)` on one image, gpu_optimizer.py 1212-1325; `work` and `out` are
arrays of the same shape, `out` may be the input itself. -/
def correlate (fx fy : Nat → R) (inp work out : Arr R) : Except PyErr (Arr R) := do
  let work ← filterX fx inp work
  filterY fy work out

/-- The pixels of the mask cut out of a model, gpu_optimizer.py 1403-1423.  `[]` for both axes or for the rows selects
nothing on both sides of the assignment; for the columns alone the selection `mods[i, yi, []]` has its axes
exchanged and does not fit (ValueError). -/
def cutModel (mods : Arr R) (mx0 mx1 my0 my1 : Int) : Except PyErr (Arr R) :=
  if mx0 < 0 ∨ my0 < 0 ∨ mx1 ≥ mods.w ∨ my1 ≥ mods.h then
    let mod : Arr R := Arr.zeros (my1 - my0).toNat (mx1 - mx0).toNat
    match overlapRegion mx0 (mx1 - 1) 0 ((mods.w : Int) - 1), overlapRegion my0 (my1 - 1) 0 ((mods.h : Int) - 1) with
    | some (xi, xo), some (yi, yo) =>
      mod.modify (some yo.1) (some yo.2) (some xo.1) (some xo.2) (fun _ b => b)
        (mods.slice (some yi.1) (some yi.2) (some xi.1) (some xi.2))
    | none, some _ => .error .value
    | _, none => .ok mod
  else .ok (mods.slice (some my0) (some my1) (some mx0) (some mx1))

variable [LinearOrder R]

/-- `gpu_get_unitflux_psf` for one image and one model, gpu_optimizer.py 904-925, with `lanczos_shift_images_gpu`
(1171-1210) and the normalised weights of `lanczos_filter` (1430-1439), which are those of psf.py.  `junk` and `junk'`
are what `cp.empty` contains. -/
def unitFluxPsf (lz : R → R) (junk junk' : Nat → Nat → R) (psfPad : Arr R) (mux muy : R) : Except PyErr (Arr R) :=
  correlate (kernPy lz mux) (kernPy lz muy) psfPad ⟨psfPad.h, psfPad.w, junk⟩ ⟨psfPad.h, psfPad.w, junk'⟩

/-- One image of `gpu_one_source_models` for a point source, gpu_optimizer.py 1343-1423: `px`, `py` its position,
`counts` its counts. -/
def modelOne (rnd : R → Int) (lz : R → R) (junk junk' : Nat → Nat → R) (t : Tim R) (p : Padded R) (px py counts : R) :
    Except PyErr (Stamp R) :=
  let ix := rnd px
  let iy := rnd py
  let dx := ix - p.ipx
  let dy := iy - p.ipy
  let mux := px - ix
  let muy := py - iy
  if ¬ (|mux| ≤ 1 / 2) ∨ ¬ (|muy| ≤ 1 / 2) then .error .assertion
  else do
    let m ← unitFluxPsf lz junk junk' p.psfPad mux muy
    let mods := m.map (· * counts)
    let mod ← cutModel mods (t.x0 - p.padx0 - dx) (t.x1 - p.padx0 - dx) (t.y0 - p.pady0 - dy) (t.y1 - p.pady0 - dy)
    .ok ⟨t.x0, t.y0, mod⟩

/-- `gpu_one_source_models(tr)` for a point source, gpu_optimizer.py 1327-1427: `pos` and `cnt` give its position and
counts in each image. -/
def oneSourceModels (rnd : R → Int) (lz : R → R) (junk junk' : Nat → Nat → R) (cache : Option (Params R))
    (tims : List (Tim R)) (pos : Tim R → R × R) (cnt : Tim R → R) : Except PyErr (List (Stamp R)) := do
  let P ← getImageParams rnd cache tims pos
  (tims.zip P.ims).mapM (fun tp => modelOne rnd lz junk junk' tp.1 tp.2 (pos tp.1).1 (pos tp.1).2 (cnt tp.1))

end

end Verif.Gpu
