import Verif.Psf.Lanczos
import Verif.Patch.Model
import Verif.Mog.Model
import Mathlib.Algebra.Order.Floor.Defs
import Mathlib.Data.Nat.Log

/-!
# Rendering galaxies

tractor/galaxy.py `ProfileGalaxy.getUnitFluxModelPatch`, `_realGetUnitFluxModelPatch`,
`HoggGalaxy._getUnitFluxPatchSize`, with tractor/psf.py `PixelizedPSF.getFourierTransform` (`sampling == 1`).

Numbers are elements of an ordered field with floors.  External: the product of Fourier transforms transformed
back (numpy.fft), the evaluation of mixtures of Gaussians on a grid (C), the square root, the Lanczos window, the pixel scale of
the WCS.  Rounding to single precision is not modelled.
-/

namespace Verif.Gal

open Verif.Patches (Patch)
open Verif.Mog (Mix Comp)

variable {R : Type} [Field R] [LinearOrder R]

/-- `int(np.round(x))`: to the nearest integer, halves to the even one. -/
def roundEven [FloorRing R] (x : R) : Int :=
  let n := ⌊x⌋
  if x - n < 1 / 2 then n
  else if x - n > 1 / 2 then n + 1
  else if n % 2 = 0 then n else n + 1

/-- `ModelMask`, patch.py 13-58: a rectangle and perhaps an array of booleans of that shape. -/
structure ModelMask where
  x0 : Int
  y0 : Int
  h : Nat
  w : Nat
  mask : Option (Nat → Nat → Bool)

/-- External functions and the state of the C library's scratch memory. -/
structure Env (R : Type) where
  sqrt : R → R
  /-- the Lanczos-3 window away from 0 -/
  lz : R → R
  /-- mp_fourier could be imported -/
  lib : Bool
  junk : Psf.Mem R
  work : Psf.Mem R
  /-- `np.fft.irfftn(mix.getFourierTransform(v, w, zero_mean=True) * np.fft.rfft2(pad))` -/
  conv : Arr R → Mix R → Nat → Nat → R
  /-- the mixture in the pixel (row, column), by `c_gauss_2d_grid` and by `c_gauss_2d_masked` -/
  value : Mix R → Int → Int → R
  valueMasked : Mix R → Int → Int → R
  /-- `evaluate_grid_approx3(x0, x1, y0, y1, 0., 0., minval)` -/
  approx : Mix R → Int → Int → Int → Int → R → Except PyErr (Option (Patch R))

/-- The PSF: `getMixtureOfGaussians(px, py)` and the image of a pixelized PSF.  `hybrid` is a `HybridPixelizedPSF`. -/
inductive PsfModel (R : Type) where
  | gauss (mix : R → R → Mix R)
  | pix (img : Arr R)
  | hybrid (img : Arr R) (mix : R → R → Mix R)

/-- The image: `img.shape` and `img.wcs.pixscale_at`. -/
structure Scene (R : Type) where
  H : Nat
  W : Nat
  pixscale : R → R → R

/-- The galaxy: `_getAffineProfile`, `_getShearedProfile`, `getRadius`, `_getUnitFluxPatchSize`. -/
structure Galaxy (R : Type) where
  affine : R → R → Mix R
  sheared : R → R → Mix R
  radius : R
  patchSize : R → R → R

/-- Arguments of `_realGetUnitFluxModelPatch`: `inner_real_nsigma`, `outer_real_nsigma` (both numbers or both None),
`force_sourceOut`, `minval`.  `force_halfsize`, which no caller in the package uses, is left out. -/
structure Args (R : Type) where
  nsigma : Option (R × R)
  force : Bool
  minval : Option R

section
variable [FloorRing R]

/-- `mp.mixture_to_patch(mix, x0, x1, y0, y1, minval)`, mixture_profiles.py 425-439, with
`evaluate_grid` (270-283); `np.zeros` of a negative size raises ValueError. -/
def mixtureToPatch (E : Env R) (m : Mix R) (x0 x1 y0 y1 : Int) : Option R → Except PyErr (Option (Patch R))
  | some v => if v = 0 then grid else E.approx m x0 x1 y0 y1 v
  | none => grid
where
  grid : Except PyErr (Option (Patch R)) :=
    if x1 < x0 ∨ y1 < y0 then .error .value
    else .ok (some ⟨x0, y0, some ⟨(y1 - y0).toNat, (x1 - x0).toNat, fun r c => E.value m (y0 + r) (x0 + c)⟩⟩)

/-- A mixture evaluated in the mask, galaxy.py 326-331. -/
def mogInMask (E : Env R) (cmix : Mix R) (m : ModelMask) : Arr R :=
  ⟨m.h, m.w, fun r c =>
    match m.mask with
    | some k => if k r c then E.valueMasked cmix (m.y0 + r) (m.x0 + c) else 0
    | none => E.value cmix (m.y0 + r) (m.x0 + c)⟩

/-- `getFourierTransformSize(radius)`, psf.py 209-212: the least power of two not below `2 * radius` (for radii above
a quarter of a pixel). -/
def fftSize (radius : R) : Nat := 2 ^ Nat.clog 2 ⌈2 * radius⌉.toNat

/-- `halfsize` for a mask, galaxy.py 339-351. -/
def maskHalf (px py : R) (m : ModelMask) (psfh psfw : Nat) : Int :=
  let x0 : R := m.x0
  let y0 : R := m.y0
  let x1 : R := x0 + m.w
  let y1 : R := y0 + m.h
  let halfsize := max ((m.h : R) / 2) ((m.w : R) / 2)
  let halfsize := max halfsize (max (max (1 + px - x0) (1 + x1 - px)) (max (1 + py - y0) (1 + y1 - py)))
  let halfsize := max halfsize (max ((psfw : R) / 2) ((psfh : R) / 2))
  ⌈halfsize⌉

/-- `sourceOut`, galaxy.py 354. -/
def sourceOut (px py : R) (m : ModelMask) : Bool :=
  px < m.x0 || px > m.x0 + m.w - 1 || py < m.y0 || py > m.y0 + m.h - 1

/-- `nearest > self.getRadius() / pixscale`, galaxy.py 356-368. -/
def tooFar (E : Env R) (S : Scene R) (g : Galaxy R) (px py : R) (m : ModelMask) : Bool :=
  let x0 : R := m.x0
  let y0 : R := m.y0
  let x1 : R := x0 + m.w
  let y1 : R := y0 + m.h
  let neardx := if px > x1 then px - x1 else if px < x0 then x0 - px else 0
  let neardy := if py > y1 then py - y1 else if py < y0 then y0 - py else 0
  let nearest := E.sqrt (neardx ^ 2 + neardy ^ 2)
  let pixscale := S.pixscale ((x0 + x1) / 2) ((y0 + y1) / 2)
  nearest > g.radius / pixscale

/-- `vv` of one component, galaxy.py 415. -/
def trace (c : Comp R) : R := c.vxx + c.vyy

/-- `IM`, galaxy.py 424. -/
def inMog (pW : Nat) (n2 : R) (c : Comp R) : Bool := ((pW : R) / 2) ^ 2 < n2 ^ 2 * trace c

/-- `IF`, galaxy.py 425. -/
def inFft (pW : Nat) (n1 : R) (c : Comp R) : Bool := ((pW : R) / 2) ^ 2 > n1 ^ 2 * trace c

/-- `ns`, galaxy.py 434. -/
def nsig (sqrt : R → R) (pW : Nat) (c : Comp R) : R := ((pW : R) / 2) / max (1 / 1000000) (sqrt (trace c))

/-- `mogweights`, galaxy.py 435. -/
def mogWeight (sqrt : R → R) (pW : Nat) (n1 n2 : R) (c : Comp R) : R := min 1 ((n2 - nsig sqrt pW c) / (n2 - n1))

/-- `fftweights`, galaxy.py 436. -/
def fftWeight (sqrt : R → R) (pW : Nat) (n1 n2 : R) (c : Comp R) : R := min 1 ((nsig sqrt pW c - n1) / (n2 - n1))

/-- Splitting the mixture, galaxy.py 415-455: `(mogmix, fftmix)`.  Division by `n2 - n1 = 0` gives inf or nan in numpy; it is
only done if `ramp`, which `n1 = n2` excludes.  `amix.amp[IM]` is a copy, so `amps *= mogweights` does not change `amix`. -/
def split (sqrt : R → R) (pW : Nat) (n1 n2 px py : R) (amix : Mix R) : Except PyErr (Option (Mix R) × Option (Mix R)) :=
  let im := amix.filter (inMog pW n2)
  let jf := amix.filter (inFft pW n1)
  let ramp := amix.any (fun c => inMog pW n2 c && inFft pW n1 c)
  if im.isEmpty then .ok (none, if jf.isEmpty then none else some jf)
  else
    let wm := fun c => if ramp then mogWeight sqrt pW n1 n2 c else 1
    let wf := fun c => if ramp then fftWeight sqrt pW n1 n2 c else 1
    if im.all (fun c => 0 < wm c && wm c ≤ 1) && jf.all (fun c => 0 < wf c && wf c ≤ 1) then
      .ok (some (im.map (fun c => { c with amp := c.amp * wm c, mx := c.mx + px, my := c.my + py })),
        if jf.isEmpty then none else some (jf.map (fun c => { c with amp := c.amp * wf c })))
    else .error .assertion

/-- The parts of the profile for the two methods, galaxy.py 408-412. -/
def parts (E : Env R) (psf : PsfModel R) (nsigma : Option (R × R)) (pW : Nat) (px py : R) (amix : Mix R) :
    Except PyErr (Option (Mix R) × Option (Mix R)) :=
  match psf, nsigma with
  | .hybrid _ _, some (n1, n2) => split E.sqrt pW n1 n2 px py amix
  | _, _ => .ok (none, some amix)

/-- The FFT rendering before it is cut out, galaxy.py 457-474; the shift is made in place. -/
def fftImage (E : Env R) (pad : Arr R) (fftmix : Option (Mix R)) (mux muy : R) : Except PyErr (Arr R) :=
  match fftmix with
  | none => .ok (Arr.zeros pad.h pad.w)
  | some f =>
    let G : Arr R := ⟨pad.h, pad.w, E.conv pad f⟩
    if mux ≠ 0 ∨ muy ≠ 0 then
      (Psf.shiftImage E.lz E.lib false E.junk E.work 4096 4096 G mux muy true).map (·.2)
    else .ok G

/-- The part of the rendering in the mask, galaxy.py 476-494.  (Where nothing overlaps the index is an empty list and
nothing is copied.) -/
def placeMask (G : Arr R) (sx sy : Int) (mh mw : Nat) : Except PyErr (Arr R) :=
  let shifted : Except PyErr (Arr R) :=
    if sx ≠ 0 ∨ sy ≠ 0 then
      match overlapRegion (-sy) (-sy + mh - 1) 0 ((G.h : Int) - 1), overlapRegion (-sx) (-sx + mw - 1) 0 ((G.w : Int) - 1) with
      | some (yi, yo), some (xi, xo) =>
        (Arr.zeros mh mw).modify (some yo.1) (some yo.2) (some xo.1) (some xo.2) (fun _ b => b)
          (G.slice (some yi.1) (some yi.2) (some xi.1) (some xi.2))
      | _, _ => .ok (Arr.zeros mh mw)
    else .ok G
  match shifted with
  | .error e => .error e
  | .ok A =>
    let A := if G.h > mh ∨ G.w > mw then A.slice none (some (mh : Int)) none (some (mw : Int)) else A
    if A.h = mh ∧ A.w = mw then .ok A else .error .assertion

/-- Clipping without a mask, galaxy.py 496-508. -/
def clipFree (G : Arr R) (ix0 iy0 x0 x1 y0 y1 : Int) : Int × Int × Arr R :=
  let (G, ix0) := if x0 > ix0 then (G.slice none none (some (x0 - ix0)) none, x0) else (G, ix0)
  let (G, iy0) := if y0 > iy0 then (G.slice (some (y0 - iy0)) none none none, y0) else (G, iy0)
  let gh := G.h
  let gw := G.w
  let G := if gw + ix0 > x1 then G.slice none none none (some (x1 - ix0)) else G
  let G := if gh + iy0 > y1 then G.slice none (some (y1 - iy0)) none none else G
  (ix0, iy0, G)

/-- `G += mogpatch.patch`, galaxy.py 510-517. -/
def addMog (E : Env R) (psfmix : Mix R) (mogmix : Option (Mix R)) (m : ModelMask) (G : Arr R) : Arr R :=
  match mogmix with
  | none => G
  | some mm =>
    let p := mogInMask E (Mog.convolve mm psfmix) m
    ⟨G.h, G.w, fun r c => G.px r c + p.px r c⟩

/-- The mixture of a hybrid PSF. -/
def PsfModel.mixAt (px py : R) : PsfModel R → Mix R
  | .gauss mix => mix px py
  | .pix _ => []
  | .hybrid _ mix => mix px py

/-- The FFT branch with a mask, galaxy.py 336-519. -/
def renderMaskFft (E : Env R) (S : Scene R) (psf : PsfModel R) (img : Arr R) (g : Galaxy R) (a : Args R) (px py : R)
    (m : ModelMask) : Except PyErr (Option (Patch R)) :=
  let halfsize := maskHalf px py m img.h img.w
  if sourceOut px py m then
    if tooFar E S g px py m && !a.force then .ok none
    else
      match psf with
      | .hybrid _ mix => .ok (some ⟨m.x0, m.y0, some (mogInMask E (Mog.convolve (g.affine px py) (mix px py)) m)⟩)
      | _ => .error .runtime
  else
    let sz := fftSize (halfsize : R)
    match Psf.padInImage sz sz img with
    | .error e => .error e
    | .ok (pad, cx, cy) =>
      let mux := px - cx - m.x0
      let muy := py - cy - m.y0
      let sx := roundEven mux
      let sy := roundEven muy
      match parts E psf a.nsigma pad.w px py (g.sheared px py) with
      | .error e => .error e
      | .ok (mogmix, fftmix) =>
        match fftImage E pad fftmix (mux - sx) (muy - sy) with
        | .error e => .error e
        | .ok G =>
          match placeMask G sx sy m.h m.w with
          | .error e => .error e
          | .ok G => .ok (some ⟨m.x0, m.y0, some (addMog E (psf.mixAt px py) mogmix m G)⟩)

/-- The region rendered without a mask, galaxy.py 275-290: `(x0, x1, y0, y1)`. -/
def freeBox (S : Scene R) (px py halfsize : R) : Option (Int × Int × Int × Int) :=
  match overlapRegion ⌊px - halfsize⌋ ⌈px + halfsize + 1⌉ 0 ((S.W : Int) - 1),
      overlapRegion ⌊py - halfsize⌋ ⌈py + halfsize + 1⌉ 0 ((S.H : Int) - 1) with
  | some (outx, _), some (outy, _) => some (outx.1, outx.2, outy.1, outy.2)
  | _, _ => none

/-- The FFT branch without a mask. -/
def renderFreeFft (E : Env R) (psf : PsfModel R) (img : Arr R) (g : Galaxy R) (a : Args R) (px py : R)
    (x0 x1 y0 y1 : Int) : Except PyErr (Option (Patch R)) :=
  let sz := fftSize (g.patchSize px py)
  match Psf.padInImage sz sz img with
  | .error e => .error e
  | .ok (pad, cx, cy) =>
    let dx := px - cx
    let dy := py - cy
    let ix0 := roundEven dx
    let iy0 := roundEven dy
    match parts E psf a.nsigma pad.w px py (g.sheared px py) with
    | .error e => .error e
    | .ok (mogmix, fftmix) =>
      match fftImage E pad fftmix (dx - ix0) (dy - iy0) with
      | .error e => .error e
      | .ok G =>
        let (ix0, iy0, G) := clipFree G ix0 iy0 x0 x1 y0 y1
        .ok (some ⟨ix0, iy0, some (addMog E (psf.mixAt px py) mogmix ⟨ix0, iy0, G.h, G.w, none⟩ G)⟩)

/-- `getUnitFluxModelPatch(img, px, py, minval, modelMask)`, galaxy.py 256-264, with `_realGetUnitFluxModelPatch`, 266-519. -/
def unitPatch (E : Env R) (S : Scene R) (psf : PsfModel R) (g : Galaxy R) (a : Args R) (px py : R)
    (mask : Option ModelMask) : Except PyErr (Option (Patch R)) :=
  match mask with
  | some m =>
    let res : Except PyErr (Option (Patch R)) := match psf with
      | .gauss mix => .ok (some ⟨m.x0, m.y0, some (mogInMask E (Mog.convolve (g.affine px py) (mix px py)) m)⟩)
      | .pix img => renderMaskFft E S psf img g a px py m
      | .hybrid img _ => renderMaskFft E S psf img g a px py m
    match res with
    | .ok (some p) => if p.shape = (m.h, m.w) then .ok (some p) else .error .assertion
    | r => r
  | none =>
    match freeBox S px py (g.patchSize px py) with
    | none => .ok none
    | some (x0, x1, y0, y1) =>
      match psf with
      | .gauss mix => mixtureToPatch E (Mog.convolve (g.affine px py) (mix px py)) x0 x1 y0 y1 a.minval
      | .pix img => renderFreeFft E psf img g a px py x0 x1 y0 y1
      | .hybrid img _ => renderFreeFft E psf img g a px py x0 x1 y0 y1

/-- `HoggGalaxy._getUnitFluxPatchSize`, galaxy.py 678-691, without the attribute `halfsize`: from `getRadius()`, the pixel
scale, the shape of the image and the radius of the PSF. -/
def hoggPatchSize (S : Scene R) (radius psfRadius px py : R) : R :=
  let halfsize := max 1 (radius / S.pixscale px py)
  let imsize := max (max (max px ((S.W : R) - 1 - px)) py) ((S.H : R) - 1 - py) + 1
  let halfsize := min halfsize imsize
  let halfsize := max halfsize psfRadius
  ((⌈halfsize⌉ : Int) : R)

end

end Verif.Gal
