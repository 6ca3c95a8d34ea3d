import Verif.Psf.Model
import Mathlib.Algebra.Order.Ring.Defs

/-!
# Shifting images with the C library

tractor/mp_fourier.i `correlate7f_inout`, `lanczos_filter_3`, `lanczos_shift_3f` and tractor/psf.py
`lanczos_shift_image`.  C arrays are flat memories: functions from addresses.  Single-precision rounding is not
modelled.
-/

namespace Verif.Psf

variable {R : Type}

/-- Memory. -/
abbrev Mem (R : Type) := Nat → R

/-- `mem[a] = v`. -/
def Mem.write (mem : Mem R) (a : Nat) (v : R) : Mem R := fun x => if x = a then v else mem x

/-- A sequence of writes. -/
def Mem.writes (mem : Mem R) (ws : List (Nat × R)) : Mem R := ws.foldl (fun m w => m.write w.1 w.2) mem

section
variable [Field R]

/-- `for (k=0; k<n; k++) sum += f(k)`. -/
def sumTo (n : Nat) (f : Nat → R) : R := (List.range n).foldl (fun s k => s + f k) 0

/-- The writes of one row `j` of the first pass (mp_fourier.i 294-319; the second pass, 327-351, is the same with `H` and `W`
exchanged): left edge, middle section, right edge.  They go to the transposed position. -/
def rowWrites (filter : Nat → R) (H W : Nat) (src : Mem R) (j : Nat) : List (Nat × R) :=
  (List.range 3).map (fun i => (i * H + j, sumTo (4 + i) (fun k => filter (3 - i + k) * src (j * W + k)))) ++
  (List.range (W - 7 + 1)).map (fun i => ((i + 3) * H + j, sumTo 7 (fun k => filter k * src (j * W + i + k)))) ++
  (List.range 3).map (fun i => ((W - 1 - i) * H + j,
    sumTo (4 + i) (fun k => filter k * src (j * W + W - (4 + i) + k))))

/-- One pass: all rows. -/
def passWrites (filter : Nat → R) (H W : Nat) (src : Mem R) : List (Nat × R) :=
  (List.range H).flatMap (rowWrites filter H W src)

/-- `correlate7f_inout`, mp_fourier.i 267-352: the memory of `outimg` and of `work` afterwards; a failing assert is
an error. -/
def correlate7 (filtx filty : Nat → R) (H W : Nat) (inimg outimg work : Mem R) (workH workW : Nat) :
    Except PyErr (Mem R × Mem R) :=
  if ¬ (workH ≥ H) then .error .assertion
  else if ¬ (workW ≥ W) then .error .assertion
  else if ¬ (H > 8) then .error .assertion
  else if ¬ (W > 8) then .error .assertion
  else
    let work := work.writes (passWrites filtx H W inimg)
    .ok (outimg.writes (passWrites filty W H work), work)

end

section
variable [Field R] [LinearOrder R]

/-- The weights before normalisation, in C: `lz x` is `3 sin(pi x) sin(pi x / 3) / (pi x)^2`.  `lanczos_filter_3`,
mp_fourier.i 355-402. -/
def filter3 (lz : R → R) (dx : R) : Except PyErr (Nat → R) :=
  if ¬ (dx ≥ -(1 / 2)) then .error .assertion
  else if ¬ (dx ≤ 1 / 2) then .error .assertion
  else if dx = 0 then .ok (fun i => if i = 3 then 1 else 0)
  else if dx > 0 then
    let sum := ((List.range 6).map (fun i : Nat => lz ((i : R) - 3 + dx))).sum
    .ok (fun i => if i < 6 then lz ((i : R) - 3 + dx) / sum else 0)
  else
    let sum := ((List.range 6).map (fun i : Nat => lz (((i + 1 : Nat) : R) - 3 + dx))).sum
    .ok (fun i => if 1 ≤ i ∧ i < 7 then lz ((i : R) - 3 + dx) / sum else 0)

/-- `lanczos_shift_3f`, mp_fourier.i 405-429. -/
def shift3f (lz : R → R) (H W : Nat) (inimg outimg : Mem R) (dx dy : R) (work : Mem R) (workH workW : Nat) :
    Except PyErr (Mem R × Mem R) :=
  if ¬ (workH ≥ H) then .error .assertion
  else if ¬ (workW ≥ W) then .error .assertion
  else
    match filter3 lz dx with
    | .error e => .error e
    | .ok fx =>
      match filter3 lz dy with
      | .error e => .error e
      | .ok fy => correlate7 fx fy H W inimg outimg work workH workW

/-- astrometry.net's `lanczos_filter(3, x)`: one at 0, zero outside (-3, 3). -/
def lanczosFn (lz : R → R) (x : R) : R := if x = 0 then 1 else if x < 3 ∧ x > -3 then lz x else 0

/-- The weights in Python, psf.py 42-46. -/
def kernPy (lz : R → R) (d : R) (i : Nat) : R :=
  lanczosFn lz ((i : R) - 3 + d) / ((List.range 7).map (fun i : Nat => lanczosFn lz ((i : R) - 3 + d))).sum

/-- An image as contiguous memory. -/
def Arr.toMem (A : Arr R) : Mem R := fun a => A.px (a / A.w) (a % A.w)

/-- Contiguous memory as an image. -/
def Arr.ofMem (h w : Nat) (m : Mem R) : Arr R := ⟨h, w, fun r c => m (r * w + c)⟩

/-- `lanczos_shift_image(img, dx, dy, inplace, force_python)`, psf.py 26-58: the image returned and the caller's
array afterwards.  `lib`: the C library could be imported; `junk` is what `np.empty` and the scratch array contain. -/
def shiftImage (lz : R → R) (lib force : Bool) (junk work : Mem R) (workH workW : Nat) (img : Arr R) (dx dy : R)
    (inplace : Bool) : Except PyErr (Arr R × Arr R) :=
  if !lib || force || img.w ≤ 8 || img.h ≤ 8 || img.h > workH || img.w > workW then
    .ok (lanczosShift (kernPy lz) img dx dy, img)
  else
    match shift3f lz img.h img.w (Arr.toMem img) junk dx dy work workH workW with
    | .error e => .error e
    | .ok out =>
      let outimg := Arr.ofMem img.h img.w out.1
      .ok (outimg, if inplace then outimg else img)

end

end Verif.Psf
