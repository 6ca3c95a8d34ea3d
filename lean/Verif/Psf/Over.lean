import Verif.Psf.Model
import Mathlib.Algebra.Order.Field.Basic
import Mathlib.Algebra.Module.Basic

/-!
# Oversampled and normalised pixelized PSFs

tractor/psf.py `PixelizedPSF` with any `sampling`, `NormalizedPsf`, `NormalizedPixelizedPsf`; tractor/psfex.py `PixelizedPsfEx`,
`NormalizedPixelizedPsfEx`.
-/

namespace Verif.Psf

variable {R V : Type} [Field R] [LinearOrder R]

/-- What is external: `round`, `int`, the weights of the Lanczos shift, `lanczos3_interpolate_grid` of astrometry.net (the value
interpolated in an image at column `x`, row `y`), `np.fft.rfft2` and the entry `[0][0]` of a transform (whose modulus is taken; it is real
for real images). -/
structure Numerics (R V : Type) where
  rnd : R → Int
  trunc : R → Int
  kern : R → Nat → R
  interp : Arr R → R → R → R
  fft : Arr R → V
  dc : V → R

/-- The parts of a spatially varying PSF that matter here, psfex.py 294-346: eigen-images and polynomial terms at a position. -/
structure Vary (R : Type) where
  bases : List (Arr R)
  terms : R → R → List R

/-- `PsfExModel.at(x, y)`, psfex.py 326-346 (shape of the first eigen-image). -/
def Vary.at (v : Vary R) (x y : R) : Arr R :=
  ⟨(v.bases.map (·.h)).headD 0, (v.bases.map (·.w)).headD 0,
    fun r c => ((List.zip (v.terms x y) v.bases).map (fun tb => tb.1 * tb.2.px r c)).sum⟩

/-- What `getFourierTransform` returns: transform, centre, size (the frequencies follow from the size). -/
structure Fourier (R V : Type) where
  fft : V
  cx : R
  cy : R
  sz : Nat

/-- The attributes of a `PixelizedPSF`, psf.py 81-105, or of a `PixelizedPsfEx` (with `vary`), psfex.py 428-441; `normalized` tells
whether the class has the mixin `NormalizedPsf`.  The keys of `fftcache` are a size, or a size and a position (psf.py 264-274, 347-363). -/
structure PixPsf (R V : Type) where
  img : Arr R
  sampling : R
  nativeW : Nat
  nativeH : Nat
  vary : Option (Vary R)
  normalized : Bool
  cache : List ((Nat × Option (R × R)) × Fourier R V)

/-- The sum of all pixels. -/
def sumPix (A : Arr R) : R := A.ravel.sum

/-- `n = img.sum(); if n != 0: img /= n`, psf.py 955-960. -/
def normImg (A : Arr R) : Arr R := if sumPix A = 0 then A else A.map (· / sumPix A)

/-- `getImage(px, py)`, psf.py 134-135, psfex.py 471-472, with 954-959 for the mixin.  The image of a constant PSF is the attribute itself,
which `/=` changes; that of a varying one is new. -/
def getImage (s : PixPsf R V) (px py : R) : PixPsf R V × Arr R :=
  match s.vary with
  | some v => (s, if s.normalized then normImg (v.at px py) else v.at px py)
  | none => if s.normalized then ({ s with img := normImg s.img }, normImg s.img) else (s, s.img)

/-- `PixelizedPSF._sampleImage(img, dx, dy, xlo, ylo, width, height)`, psf.py 286-312, without the defaults. -/
def sampleGrid (N : Numerics R V) (sampling : R) (img : Arr R) (dx dy : R) (xlo ylo : Int) (w h : Nat) : Arr R :=
  let xstep := 1 / sampling
  let ystep := 1 / sampling
  let xstart := (((img.w / 2 : Nat) : R) - dx / sampling) + xlo * xstep
  let ystart := (((img.h / 2 : Nat) : R) - dy / sampling) + ylo * ystep
  ⟨h, w, fun r c => N.interp img (xstart + c * xstep) (ystart + r * ystep)⟩

/-- `_sampleImage` of the class: with the mixin, psf.py 961-966, the sampled image is normalised. -/
def sampleImage (N : Numerics R V) (s : PixPsf R V) (img : Arr R) (dx dy : R) (xlo ylo : Int) (w h : Nat) : Arr R :=
  if s.normalized then normImg (sampleGrid N s.sampling img dx dy xlo ylo w h) else sampleGrid N s.sampling img dx dy xlo ylo w h

/-- `_getOversampledPointSourcePatch`, psf.py 314-345, from the image on. -/
def overPatch (N : Numerics R V) (s : PixPsf R V) (img : Arr R) (px py : R) (rad : Option Nat) (mask : Option Mask) : Stamp R :=
  let ix := N.rnd px
  let iy := N.rnd py
  let dx := px - ix
  let dy := py - iy
  match mask with
  | some m => ⟨m.x0 - ix + ix, m.y0 - iy + iy, sampleImage N s img dx dy (m.x0 - ix) (m.y0 - iy) m.w m.h⟩
  | none =>
    let xl : Int := -((s.nativeW / 2 : Nat) : Int)
    let yl : Int := -((s.nativeH / 2 : Nat) : Int)
    let img := sampleImage N s img dx dy xl yl s.nativeW s.nativeH
    match rad with
    | none => ⟨ix + xl, iy + yl, img⟩
    | some r =>
      ⟨ix + xl + max (((img.w / 2 : Nat) : Int) - r) 0, iy + yl + max (((img.h / 2 : Nat) : Int) - r) 0, cut img (some r)⟩

/-- `getPointSourcePatch(px, py, modelMask, radius)`, psf.py 137-197. -/
def pointPatch (N : Numerics R V) (s : PixPsf R V) (px py : R) (rad : Option Nat) (mask : Option Mask) :
    PixPsf R V × Except PyErr (Option (Stamp R)) :=
  let r := getImage s px py
  if s.sampling ≠ 1 then (r.1, .ok (some (overPatch N s r.2 px py rad mask)))
  else (r.1, render N.rnd N.kern r.2 px py rad mask)

section
variable [AddCommGroup V] [Module R V]

/-- `n = np.abs(fft[0][0]); if n != 0: fft /= n`, psf.py 950-952. -/
def normFft (N : Numerics R V) (f : V) : V := if |N.dc f| = 0 then f else (|N.dc f|)⁻¹ • f

/-- The transform computed when there is none in the cache, for the key, psf.py 269-283 and 352-367.  The oversampled one samples
`self.img` (first argument None). -/
def computeFft (N : Numerics R V) (s : PixPsf R V) (key : Nat × Option (R × R)) : Except PyErr (Fourier R V) :=
  match key with
  | (sz, none) => (padInImage sz sz s.img).map (fun p => ⟨N.fft p.1, p.2.1, p.2.2, sz⟩)
  | (sz, some (px, py)) =>
    let dx := px - N.trunc px
    let dy := py - N.trunc py
    let img := sampleImage N s s.img dx dy (-((s.nativeW / 2 : Nat) : Int)) (-((s.nativeH / 2 : Nat) : Int)) s.nativeW s.nativeH
    (padInImage sz sz img).map (fun p => ⟨N.fft p.1, p.2.1 + dx, p.2.2 + dy, sz⟩)

/-- The sum of the transforms of the eigen-images, psfex.py 476-512, for sampling 1.  The transforms of the eigen-images are cached by
size; neither they nor the eigen-images ever change, so the cache is left out. -/
def varyFft (N : Numerics R V) (v : Vary R) (px py : R) (sz : Nat) : Except PyErr (Fourier R V) :=
  match v.bases.mapM (fun b => padInImage sz sz b) with
  | .error e => .error e
  | .ok pads =>
    match pads.getLast? with
    | none => .error .nameErr
    | some l => .ok ⟨((List.zip (v.terms px py) pads).map (fun tp => tp.1 • N.fft tp.2.1)).sum, l.2.1, l.2.2, sz⟩

/-- Looking a key up. -/
def find (c : List ((Nat × Option (R × R)) × Fourier R V)) (key : Nat × Option (R × R)) : Option (Fourier R V) :=
  (c.find? (fun e => e.1 = key)).map (·.2)

/-- The transform of a normalised class divides the array in the cache in place, psf.py 948-953. -/
def normEntry (N : Numerics R V) (s : PixPsf R V) (f : Fourier R V) : Fourier R V :=
  if s.normalized then { f with fft := normFft N f.fft } else f

/-- Looking in the cache, computing what is not there, and normalising: psf.py 268-283, 349-367, 948-953. -/
def cachedFft (N : Numerics R V) (s : PixPsf R V) (key : Nat × Option (R × R)) : PixPsf R V × Except PyErr (Fourier R V) :=
  match find s.cache key with
  | some f => ({ s with cache := (key, normEntry N s f) :: s.cache }, .ok (normEntry N s f))
  | none =>
    match computeFft N s key with
    | .error e => (s, .error e)
    | .ok f => ({ s with cache := (key, normEntry N s f) :: s.cache }, .ok (normEntry N s f))

/-- `getFourierTransform(px, py, radius)`, psf.py 249-283, 347-367, 948-953, psfex.py 476-518; `sz` is the size for the radius. -/
def fourier (N : Numerics R V) (s : PixPsf R V) (px py : R) (sz : Nat) : PixPsf R V × Except PyErr (Fourier R V) :=
  if s.sampling ≠ 1 then cachedFft N s (sz, some (px, py))
  else
    match s.vary with
    | some v => (s, (varyFft N v px py sz).map (normEntry N s))
    | none => cachedFft N s (sz, none)

end

/-- A use of a PSF. -/
inductive Use (R : Type) where
  | image (px py : R)
  | patch (px py : R) (rad : Option Nat) (mask : Option Mask)
  | transform (px py : R) (sz : Nat)

/-- What a use gives. -/
inductive Answer (R V : Type) where
  | image (A : Arr R)
  | patch (p : Except PyErr (Option (Stamp R)))
  | transform (f : Except PyErr (Fourier R V))

/-- One use. -/
def use [AddCommGroup V] [Module R V] (N : Numerics R V) (s : PixPsf R V) : Use R → PixPsf R V × Answer R V
  | .image px py => ((getImage s px py).1, .image (getImage s px py).2)
  | .patch px py rad mask => ((pointPatch N s px py rad mask).1, .patch (pointPatch N s px py rad mask).2)
  | .transform px py sz => ((fourier N s px py sz).1, .transform (fourier N s px py sz).2)

/-- Any number of uses. -/
def uses [AddCommGroup V] [Module R V] (N : Numerics R V) (s : PixPsf R V) : List (Use R) → PixPsf R V
  | [] => s
  | u :: us => uses N (use N s u).1 us

/-- `PixelizedPSF(img, sampling)`, psf.py 81-105, of either class; `ceil` is `int(np.ceil(.))`.  Without oversampling there are no native
sizes (and they are not used). -/
def mkPix (ceil : R → Nat) (normalized : Bool) (vary : Option (Vary R)) (img : Arr R) (sampling : R) : Except PyErr (PixPsf R V) :=
  if img.h % 2 ≠ 1 then .error .assertion
  else if img.w % 2 ≠ 1 then .error .assertion
  else if sampling ≠ 1 then .ok ⟨img, sampling, ceil (img.w * sampling), ceil (img.h * sampling), vary, normalized, []⟩
  else .ok ⟨img, sampling, 0, 0, vary, normalized, []⟩

/-- `constantPsfAt(x, y)`, psf.py 127-129 (the object itself), psfex.py 465-467 and 739-744. -/
def constantAt (ceil : R → Nat) (s : PixPsf R V) (x y : R) : Except PyErr (PixPsf R V) :=
  match s.vary with
  | none => .ok s
  | some v => mkPix ceil s.normalized none (if s.normalized then normImg (v.at x y) else v.at x y) s.sampling

end Verif.Psf
