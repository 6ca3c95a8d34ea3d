import Verif.Arr
import Mathlib.Algebra.Ring.Defs

/-!
# Model of image patches (tractor/patch.py)

Pixel values are of an arbitrary type; integer sizes and offsets are unbounded except where stated.
-/

namespace Verif.Patches

open Verif

/-- `Patch`, patch.py 71-92: offset of the lower corner and the image, which may be None.
The attributes `name` and `size` are not modelled. -/
structure Patch (α : Type) where
  x0 : Int
  y0 : Int
  patch : Option (Arr α)

variable {α : Type}

/-- `Patch.shape`, patch.py 220-224: (height, width), (0, 0) without image. -/
def Patch.shape (p : Patch α) : Nat × Nat :=
  match p.patch with
  | none => (0, 0)
  | some A => (A.h, A.w)

/-- `Patch.getExtent`, patch.py 206-213: (x0, x1, y0, y1). -/
def Patch.extent (p : Patch α) (margin : Int := 0) : Int × Int × Int × Int :=
  (p.x0 - margin, p.x0 + p.shape.2 + margin, p.y0 - margin, p.y0 + p.shape.1 + margin)

/-- `Patch.performArithmetic`, patch.py 406-440, with `f` the elementwise in-place operator.
`None` images: 413-414 for equal position and shape; otherwise `self.patch.shape` raises
AttributeError (420), and the operator applied to None raises TypeError (439). -/
def Patch.arith [Zero α] (f : α → α → α) (p q : Patch α) : Except PyErr (Patch α) :=
  if p.x0 = q.x0 ∧ p.y0 = q.y0 ∧ p.shape = q.shape then
    match p.patch, q.patch with
    | some A, some B =>
      match A.modify none none none none f B with
      | .ok C => .ok ⟨p.x0, p.y0, some C⟩
      | .error e => .error e
    | _, _ => .ok ⟨p.x0, p.y0, none⟩
  else
    match p.patch with
    | none => .error .attribute
    | some A =>
      let (oh, ow) := q.shape
      let ux0 := min q.x0 p.x0
      let uy0 := min q.y0 p.y0
      let ux1 := max (q.x0 + ow) (p.x0 + A.w)
      let uy1 := max (q.y0 + oh) (p.y0 + A.h)
      let z : Arr α := Arr.zeros (uy1 - uy0).toNat (ux1 - ux0).toNat
      match z.modify (some (p.y0 - uy0)) (some (p.y0 - uy0 + A.h))
          (some (p.x0 - ux0)) (some (p.x0 - ux0 + A.w)) (fun _ b => b) A with
      | .error e => .error e
      | .ok z1 =>
        match q.patch with
        | none => .error .typeErr
        | some B =>
          match z1.modify (some (q.y0 - uy0)) (some (q.y0 - uy0 + oh))
              (some (q.x0 - ux0)) (some (q.x0 - ux0 + ow)) f B with
          | .error e => .error e
          | .ok z2 => .ok ⟨ux0, uy0, some z2⟩

/-- `Patch.__add__`, patch.py 442-443. -/
def Patch.add [Zero α] [Add α] (p q : Patch α) : Except PyErr (Patch α) := p.arith (· + ·) q

/-- `Patch.__sub__`, patch.py 445-446. -/
def Patch.sub [Zero α] [Sub α] (p q : Patch α) : Except PyErr (Patch α) := p.arith (· - ·) q

/-- `add_patches(pa, pb)`, patch.py 61-68; `None` arguments allowed (`p += pb` is `p = p + pb`, there
being no `__iadd__`). -/
def addPatches [Zero α] [Add α] : Option (Patch α) → Option (Patch α) → Except PyErr (Option (Patch α))
  | p, none => .ok p
  | none, some q => .ok (some q)
  | some p, some q => (p.add q).map some

/-- `Patch.__mul__`, patch.py 395-398. -/
def Patch.mul [Mul α] (p : Patch α) (f : α) : Patch α :=
  ⟨p.x0, p.y0, p.patch.map (Arr.map (· * f))⟩

/-- `Patch.addTo(img, scale)`, patch.py 341-354: the image afterwards. -/
def Patch.addTo [Add α] [Mul α] (p : Patch α) (img : Arr α) (scale : α) : Except PyErr (Arr α) :=
  match p.patch with
  | none => .ok img
  | some A =>
    match overlapRegion p.x0 (p.x0 + A.w - 1) 0 (img.w - 1),
        overlapRegion p.y0 (p.y0 + A.h - 1) 0 (img.h - 1) with
    | some (outx, inx), some (outy, iny) =>
      let sub := A.slice (some iny.1) (some iny.2) (some inx.1) (some inx.2)
      img.modify (some outy.1) (some outy.2) (some outx.1) (some outx.2) (· + ·)
        (sub.map (· * scale))
    | _, _ => .ok img

/-- `Patch.getSlices(shape)`, patch.py 313-329, with `shape = (H, W)`: row and column slices into the
patch and into the image. -/
def Patch.getSlices (p : Patch α) (H W : Nat) :
    ((Int × Int) × (Int × Int)) × ((Int × Int) × (Int × Int)) :=
  match overlapRegion p.x0 (p.x0 + p.shape.2 - 1) 0 (W - 1),
      overlapRegion p.y0 (p.y0 + p.shape.1 - 1) 0 (H - 1) with
  | some (outx, inx), some (outy, iny) => ((iny, inx), (outy, outx))
  | _, _ => (((0, 0), (0, 0)), ((0, 0), (0, 0)))

/-- `Patch.clipTo(W, H)`, patch.py 241-278: the patch afterwards, and the result or exception. -/
def Patch.clipTo (p : Patch α) (W H : Int) : Patch α × Except PyErr Bool :=
  match p.patch with
  | none => (p, .ok false)
  | some A =>
    if p.x0 ≥ W then ({ p with patch := none }, .ok false)
    else if p.y0 ≥ H then ({ p with patch := none }, .ok false)
    else
      let (x0, A) := if p.x0 < 0 then (0, A.slice none none (some (-p.x0)) none) else (p.x0, A)
      let (y0, A) := if p.y0 < 0 then (0, A.slice (some (-p.y0)) none none none) else (p.y0, A)
      let (h, w) := (A.h, A.w)
      let A := if x0 + w > W then A.slice none none none (some (W - x0)) else A
      let A := if y0 + h > H then A.slice none (some (H - y0)) none none else A
      let p' : Patch α := ⟨x0, y0, some A⟩
      if x0 ≥ 0 ∧ y0 ≥ 0 ∧ (A.w : Int) ≤ W ∧ (A.h : Int) ≤ H then (p', .ok true)
      else (p', .error .assertion)

/-- `Patch.clipToRoi(x0, x1, y0, y1)`, patch.py 280-300. -/
def Patch.clipToRoi (p : Patch α) (x0 x1 y0 y1 : Int) : Patch α × Bool :=
  match p.patch with
  | none => (p, false)
  | some A =>
    if p.x0 ≥ x1 ∨ p.x0 + A.w ≤ x0 ∨ p.y0 ≥ y1 ∨ p.y0 + A.h ≤ y0 then
      ({ p with patch := none }, false)
    else
      let (px, A) := if p.x0 < x0 then (x0, A.slice none none (some (x0 - p.x0)) none) else (p.x0, A)
      let (py, A) := if p.y0 < y0 then (y0, A.slice (some (y0 - p.y0)) none none none) else (p.y0, A)
      let (h, w) := (A.h, A.w)
      let A := if px + w > x1 then A.slice none none none (some (x1 - px)) else A
      let A := if py + h > y1 then A.slice none (some (y1 - py)) none none else A
      (⟨px, py, some A⟩, true)

/-- First loop of `trimToNonZero` on one axis of length `n ≥ 1`, patch.py 127-130 (138-141): the loop
variable after `for x in range(n): if not zero(x): break`. -/
def trimLo (zero : Nat → Bool) (n : Nat) : Nat :=
  ((List.range n).find? (fun x => !zero x)).getD (n - 1)

/-- Second loop, patch.py 131-136 (142-147): the loop variable after
`for x in range(n, 0, -1): if not zero(x-1): break; if x <= x0: break`. -/
def trimHi (zero : Nat → Bool) (n x0 : Nat) : Nat :=
  (((List.range n).reverse.map (· + 1)).find? (fun x => !zero (x - 1) || decide (x ≤ x0))).getD 1

/-- `Patch.trimToNonZero`, patch.py 121-157. -/
def Patch.trimToNonZero [Zero α] [DecidableEq α] (p : Patch α) : Patch α :=
  match p.patch with
  | none => p
  | some A =>
    if A.w = 0 ∨ A.h = 0 then p
    else
      let x0 := trimLo A.colZero A.w
      let x1 := trimHi A.colZero A.w x0
      let y0 := trimLo A.rowZero A.h
      let y1 := trimHi A.rowZero A.h y0
      if x0 = 0 ∧ y0 = 0 ∧ x1 = A.w ∧ y1 = A.h then p
      else
        let B := A.slice (some (y0 : Int)) (some (y1 : Int)) (some (x0 : Int)) (some (x1 : Int))
        ⟨p.x0 + x0, p.y0 + y0, if B.h = 0 ∨ B.w = 0 then none else some B⟩

/-- `Patch.getSlice()` without parent, patch.py 302-304, 310-311: row and column ranges. -/
def Patch.getSlice (p : Patch α) : Option ((Int × Int) × (Int × Int)) :=
  p.patch.map (fun A => ((p.y0, p.y0 + A.h), (p.x0, p.x0 + A.w)))

/-- `Patch.getSlice(parent)`, patch.py 305-309 (`np.clip`). -/
def Patch.getSliceIn (p : Patch α) (H W : Nat) : Option ((Int × Int) × (Int × Int)) :=
  let clip (v : Int) (n : Nat) : Int := min (max v 0) n
  p.patch.map (fun A => ((clip p.y0 H, clip (p.y0 + A.h) H), (clip p.x0 W, clip (p.x0 + A.w) W)))

/-- numpy int32 arithmetic wraps around. -/
def wrap32 (n : Int) : Int := (n + 2 ^ 31) % 2 ^ 32 - 2 ^ 31

/-- `Patch.getPixelIndices(parent)` for a parent of width `W`, patch.py 331-337, default dtype int32. -/
def Patch.getPixelIndices (p : Patch α) (W : Nat) : List Int :=
  match p.patch with
  | none => []
  | some A =>
    (List.range A.h).flatMap (fun j : Nat => (List.range A.w).map (fun i : Nat =>
      wrap32 (wrap32 ((i : Int) + wrap32 p.x0) +
        wrap32 (wrap32 ((j : Int) + wrap32 p.y0) * wrap32 (W : Int)))))

/-- `Patch.overlapsBbox(bbox)`, patch.py 159-165. -/
def Patch.overlapsBbox (p : Patch α) (b : Int × Int × Int × Int) : Bool :=
  let (x0, x1, y0, y1) := p.extent
  let (ox0, ox1, oy0, oy1) := b
  if x0 ≥ ox1 ∨ ox0 ≥ x1 ∨ y0 ≥ oy1 ∨ oy0 ≥ y1 then false else true

/-- `Patch.hasNonzeroOverlapWith(other)`, patch.py 171-186. -/
def Patch.hasNonzeroOverlapWith [AddCommMonoid α] [Mul α] [LT α] [DecidableLT α]
    (p q : Patch α) : Except PyErr Bool :=
  if p.overlapsBbox q.extent = false then .ok false
  else
    let (x0, x1, y0, y1) := p.extent
    let (ox0, ox1, oy0, oy1) := q.extent
    match overlapRegion ox0 (ox1 - 1) x0 (x1 - 1), overlapRegion oy0 (oy1 - 1) y0 (y1 - 1),
        p.patch, q.patch with
    | some (ix, ox), some (iy, oy), some A, some B =>
      let sub := A.slice (some (iy.1 - y0)) (some (iy.2 - y0)) (some (ix.1 - x0)) (some (ix.2 - x0))
      let osub := B.slice (some oy.1) (some oy.2) (some ox.1) (some ox.2)
      if sub.h = osub.h ∧ sub.w = osub.w then
        .ok (decide (0 < ((List.range sub.h).flatMap (fun r =>
          (List.range sub.w).map (fun c => sub.px r c * osub.px r c))).sum))
      else .error .assertion
    | _, _, _, _ => .error .attribute

end Verif.Patches
