import Verif.Arr
import Mathlib.Algebra.Field.Basic

/-!
# Pixelized PSFs and PsfEx models

tractor/psf.py `PixelizedPSF` (with `sampling == 1`) and tractor/psfex.py `PsfExModel`.  Numbers are elements
of a field; `round` and the Lanczos interpolation weights are parameters.
-/

namespace Verif.Psf

variable {R : Type} [Field R]

/-- The image continued by zeros (`mode='constant'`). -/
def ext (A : Arr R) (y x : Int) : R :=
  if 0 ≤ y ∧ y < A.h ∧ 0 ≤ x ∧ x < A.w then A.px y.toNat x.toNat else 0

/-- `scipy.ndimage.correlate1d(img, k, axis=1, mode='constant')` with seven weights. -/
def corrX (k : Nat → R) (A : Arr R) : Arr R :=
  ⟨A.h, A.w, fun r c => ((List.range 7).map (fun i : Nat => k i * ext A r (c + i - 3))).sum⟩

/-- The same with `axis=0`. -/
def corrY (k : Nat → R) (A : Arr R) : Arr R :=
  ⟨A.h, A.w, fun r c => ((List.range 7).map (fun i : Nat => k i * ext A (r + i - 3) c)).sum⟩

/-- `lanczos_shift_image(img, dx, dy)`, psf.py 26-49: the Python path.  `kern d` are the seven normalised
weights for a shift by `d`.  (The C routine `lanczos_shift_3f`, lines 51-58, is meant to compute the same.) -/
def lanczosShift (kern : R → Nat → R) (img : Arr R) (dx dy : R) : Arr R :=
  corrY (kern dy) (corrX (kern dx) img)

/-- A patch of pixels at integer coordinates. -/
structure Stamp (R : Type) where
  x0 : Int
  y0 : Int
  pix : Arr R

/-- A `ModelMask` as far as it matters: its rectangle. -/
structure Mask where
  x0 : Int
  y0 : Int
  h : Nat
  w : Nat
  deriving DecidableEq, Repr

/-- The stamp limited to a radius, psf.py 149-155; `rad` is `int(np.ceil(radius))`. -/
def cut (img : Arr R) : Option Nat → Arr R
  | none => img
  | some rad =>
    let cx : Int := img.w / 2
    let cy : Int := img.h / 2
    img.slice (some (max (cy - rad) 0)) (some (min (cy + rad + 1) ((img.h : Int) - 1)))
      (some (max (cx - rad) 0)) (some (min (cx + rad + 1) ((img.w : Int) - 1)))

/-- The stamp inserted in an array covering the mask and a margin of 3 pixels, shifted, and the margin
removed, psf.py 184-194. -/
def maskedPixels (kern : R → Nat → R) (img : Arr R) (x0 y0 : Int) (dx dy : R) (m : Mask) :
    Except PyErr (Arr R) :=
  let mm : Arr R := Arr.zeros (m.h + 2 * 3) (m.w + 2 * 3)
  match overlapRegion (m.y0 - y0 - 3) (m.y0 - y0 + m.h - 1 + 3) 0 ((img.h : Int) - 1),
      overlapRegion (m.x0 - x0 - 3) (m.x0 - x0 + m.w - 1 + 3) 0 ((img.w : Int) - 1) with
  | some (yi, yo), some (xi, xo) =>
    (mm.modify (some yo.1) (some yo.2) (some xo.1) (some xo.2) (fun _ b => b)
      (img.slice (some yi.1) (some yi.2) (some xi.1) (some xi.2))).map
      (fun mm => (lanczosShift kern mm dx dy).slice (some 3) (some (-3)) (some 3) (some (-3)))
  | _, _ => .error .index

/-- `PixelizedPSF.getPointSourcePatch(px, py, modelMask, radius)` with `derivs=False`, psf.py 137-197. -/
def render (rnd : R → Int) (kern : R → Nat → R) (img : Arr R) (px py : R) (rad : Option Nat)
    (mask : Option Mask) : Except PyErr (Option (Stamp R)) :=
  let img := cut img rad
  let ix := rnd px
  let iy := rnd py
  let dx := px - ix
  let dy := py - iy
  let x0 := ix - (img.w / 2 : Nat)
  let y0 := iy - (img.h / 2 : Nat)
  match mask with
  | none => .ok (some ⟨x0, y0, lanczosShift kern img dx dy⟩)
  | some m =>
    if m.x0 ≥ x0 + img.w ∨ m.x0 + m.w ≤ x0 ∨ m.y0 ≥ y0 + img.h ∨ m.y0 + m.h ≤ y0 then .ok none
    else (maskedPixels kern img x0 y0 dx dy m).map (fun p => some ⟨m.x0, m.y0, p⟩)

/-- `dx[1:-1, 1:-1] = -(p[1:-1, 2:] - p[1:-1, :-2]) / 2.` in an array of zeros, psf.py 201-202. -/
def gradX (p : Arr R) : Arr R :=
  ⟨p.h, p.w, fun r c => if 1 ≤ r ∧ r + 1 < p.h ∧ 1 ≤ c ∧ c + 1 < p.w then
    -(p.px r (c + 1) - p.px r (c - 1)) / 2 else 0⟩

/-- The same along y, psf.py 203-204. -/
def gradY (p : Arr R) : Arr R :=
  ⟨p.h, p.w, fun r c => if 1 ≤ r ∧ r + 1 < p.h ∧ 1 ≤ c ∧ c + 1 < p.w then
    -(p.px (r + 1) c - p.px (r - 1) c) / 2 else 0⟩

/-- What `getPointSourcePatch(derivs=True)` returns: nothing, a single patch, or three patches. -/
inductive Derivs (R : Type) where
  | nothing
  | single (p : Stamp R)
  | triple (p dx dy : Stamp R)

/-- `getPointSourcePatch(..., derivs=True)`, psf.py 197-207: without a mask the argument is ignored (lines
168-170). -/
def renderDerivs (rnd : R → Int) (kern : R → Nat → R) (img : Arr R) (px py : R) (rad : Option Nat)
    (mask : Option Mask) : Except PyErr (Derivs R) :=
  match render rnd kern img px py rad mask with
  | .error e => .error e
  | .ok none => .ok .nothing
  | .ok (some p) =>
    match mask with
    | none => .ok (.single p)
    | some _ => .ok (.triple p ⟨p.x0, p.y0, gradX p.pix⟩ ⟨p.x0, p.y0, gradY p.pix⟩)

/-- One axis of `_padInImage`: the first index and the number of pixels taken from the stamp, where they go,
and the new centre; psf.py 225-233 (and 235-243). -/
def padAxis (n p : Nat) : Nat × Nat × Nat × Nat :=
  if n ≥ p then
    let y0 := (n - p) / 2
    (0, p, y0, y0 + p / 2)
  else
    let c := (p - n) / 2
    (c, n, 0, p / 2 - c)

/-- `_padInImage(H, W, img)`, psf.py 214-247: `(pad, cx, cy)`. -/
def padInImage (H W : Nat) (img : Arr R) : Except PyErr (Arr R × Nat × Nat) :=
  let (sy, ny, y0, cy) := padAxis H img.h
  let (sx, nx, x0, cx) := padAxis W img.w
  let subimg := img.slice (some (sy : Int)) (some ((sy + ny : Nat) : Int)) (some (sx : Int))
    (some ((sx + nx : Nat) : Int))
  let pad : Arr R := Arr.zeros H W
  (pad.modify (some (y0 : Int)) (some ((y0 + subimg.h : Nat) : Int)) (some (x0 : Int))
    (some ((x0 + subimg.w : Nat) : Int)) (fun _ b => b) subimg).map (fun pad => (pad, cx, cy))

/-- The attributes of a `PixelizedPSF`. -/
structure Pixelized (R : Type) where
  img : Arr R
  sampling : R
  lorder : Nat

/-- `PixelizedPSF(img)`, psf.py 81-105: sizes must be odd; default sampling 1 and order 3. -/
def mkPixelized (img : Arr R) : Except PyErr (Pixelized R) :=
  if ¬ (img.h % 2 = 1) then .error .assertion
  else if ¬ (img.w % 2 = 1) then .error .assertion
  else .ok ⟨img, 1, 3⟩

/-- `copy()`, psf.py 120-121. -/
def copyPixelized (p : Pixelized R) : Except PyErr (Pixelized R) := mkPixelized p.img

/-! ### PsfEx -/

/-- `PsfExModel`: the attributes used (psfex.py 166-235). -/
structure PsfEx (R : Type) where
  bases : List (Arr R)
  degree : Nat
  x0 : R
  y0 : R
  xscale : R
  yscale : R
  /-- `sampling`, `radius`; `fwhm` is missing (`none`) in shifted copies -/
  sampling : R
  radius : R
  fwhm : Option R

/-- The index of the term `x^j y^k`, psfex.py 310. -/
def termIndex (degree j k : Nat) : Int := j + (degree + 1) * k - (k * (k - 1) : Int) / 2

/-- `terms[ii] = amp` in an array of length `terms.length`: negative indices count from the end. -/
def setTerm {A : Type} (terms : List A) (ii : Int) (amp : A) : Except PyErr (List A) :=
  if 0 ≤ ii ∧ ii < terms.length then .ok (terms.set ii.toNat amp)
  else if ii < 0 ∧ 0 ≤ ii + terms.length then .ok (terms.set (ii + terms.length).toNat amp)
  else .error .index

/-- The pairs `(j, k)` in the order of the loops, psfex.py 303-307. -/
def powerPairs (degree : Nat) : List (Nat × Nat) :=
  (List.range (degree + 1)).flatMap (fun d => (List.range (d + 1)).map (fun j => (j, d - j)))

/-- The loops of `polynomials`, psfex.py 303-317, for an arbitrary value `amp j k` of each term. -/
def polyLoop {A : Type} (degree : Nat) (amp : Nat → Nat → A) : List (Nat × Nat) → List A → Except PyErr (List A)
  | [], terms => .ok terms
  | (j, k) :: ps, terms =>
    match setTerm terms (termIndex degree j k) (amp j k) with
    | .ok terms => polyLoop degree amp ps terms
    | .error e => .error e

/-- `polynomials(x, y)`, psfex.py 294-321. -/
def polynomials (m : PsfEx R) (x y : R) : Except PyErr (List R) :=
  let dx := (x - m.x0) / m.xscale
  let dy := (y - m.y0) / m.yscale
  polyLoop m.degree (fun j k => dx ^ j * dy ^ k) (powerPairs m.degree) (List.replicate m.bases.length 0)

/-- `at(x, y)`, psfex.py 326-346; pixel `(r, c)` of the result (shape of the first basis image). -/
def psfAt (m : PsfEx R) (x y : R) (r c : Nat) : Except PyErr R :=
  (polynomials m x y).map (fun terms => ((List.zip terms m.bases).map (fun tb => tb.1 * tb.2.px r c)).sum)

/-- `shifted(dx, dy)`, psfex.py 276-286. -/
def shiftedPsfEx (m : PsfEx R) (dx dy : R) : PsfEx R :=
  { m with x0 := m.x0 - dx, y0 := m.y0 - dy, fwhm := none }

end Verif.Psf
