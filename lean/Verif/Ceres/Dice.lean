import Verif.Patch.Model
import Mathlib.Algebra.Field.Basic

/-!
# Ceres: forced photometry

tractor/ceres_optimizer.py `_ceres_forced_photom` (the images are diced into blocks, unit-flux models are attached to
the blocks they touch), tractor/ceres-tractor.cc `ForcedPhotCostFunction::Evaluate` and tractor/ceres.i
`real_ceres_forced_phot` (the least-squares problem).  The conversions to `float32`/`float64` are left out; `imlist` is
taken to hold distinct images, which are known by their position; the solver is a parameter.
-/

namespace Verif.Ceres

open Verif Patches

variable {R : Type}

/-- Pixels of a block: position of the block in the image; image, fixed part of the model, inverse errors;
`data` in ceres_optimizer.py 284-288, `Patch<T>` in ceres-tractor.h. -/
structure Data (R : Type) where
  x0 : Int
  y0 : Int
  img : Arr R
  mod0 : Arr R
  ie : Arr R

/-- A unit-flux model attached to a block: `dd` in ceres_optimizer.py 332. -/
structure Src (R : Type) where
  slot : Nat
  x0 : Int
  y0 : Int
  px : Arr R

abbrev Block (R : Type) := Data R × List (Src R)

/-- What is used of an image: pixels and inverse errors. -/
structure Im (R : Type) where
  img : Arr R
  ie : Arr R

/-- An element of `Z`, ceres_optimizer.py 262-266: unit-flux models, image (position and image), scale, fixed part of
the model, parameter offset. -/
structure Entry (R : Type) where
  umods : List (Option (Patch R))
  key : Nat
  im : Im R
  scale : R
  mod0 : Arr R
  off : Nat

/-- `blocks`, `blockstart`, `usedParamMap`, `nextparam`. -/
structure St (R : Type) where
  blocks : List (Block R)
  start : List (Nat × Nat × Nat × Nat)
  used : List (Nat × Nat)
  next : Nat

/-- `int(np.ceil(n / float(B)))`. -/
def nblocks (B n : Nat) : Nat := (n + B - 1) / B

/-- One block of pixels, ceres_optimizer.py 280-288. -/
def blockData (B : Nat) (im : Im R) (mod0 : Arr R) (iy ix : Nat) : Data R :=
  let x0 := ix * B
  let y0 := iy * B
  let y1 : Int := min (y0 + B) im.img.h
  let x1 : Int := min (x0 + B) im.img.w
  ⟨x0, y0, im.img.slice (some (y0 : Int)) (some y1) (some (x0 : Int)) (some x1),
    mod0.slice (some (y0 : Int)) (some y1) (some (x0 : Int)) (some x1),
    im.ie.slice (some (y0 : Int)) (some y1) (some (x0 : Int)) (some x1)⟩

/-- The image diced up, ceres_optimizer.py 278-289. -/
def dice (B : Nat) (im : Im R) (mod0 : Arr R) : List (Block R) :=
  (List.range (nblocks B im.img.h)).flatMap (fun iy => (List.range (nblocks B im.img.w)).map (fun ix =>
    (blockData B im mod0 iy ix, [])))

/-- `blocks[i][1].append(dd)`: negative `i` counts from the end. -/
def appendAt (bs : List (Block R)) (i : Int) (d : Src R) : Except PyErr (List (Block R)) :=
  let k := if i < 0 then i + bs.length else i
  if 0 ≤ k ∧ k < bs.length then .ok (bs.modify k.toNat (fun b => (b.1, b.2 ++ [d])))
  else .error .index

/-- `range(a, b)`. -/
def pyRange (a b : Int) : List Int := (List.range (b - a).toNat).map (fun i : Nat => a + i)

/-- `np.clip(v, lo, hi)`. -/
def clip (v lo hi : Int) : Int := min (max v lo) hi

/-- `int(np.floor(a / float(B)))`. -/
def floorDiv (a : Int) (B : Nat) : Int := a / B

/-- `int(np.ceil(a / float(B)))`. -/
def ceilDiv (a : Int) (B : Nat) : Int := -((-a) / B)

/-- The slot of a parameter, ceres_optimizer.py 318-324. -/
def slotOf (used : List (Nat × Nat)) (next i : Nat) : Nat × List (Nat × Nat) × Nat :=
  match used.find? (fun u => u.1 = i) with
  | some u => (u.2, used, next)
  | none => (next, used ++ [(i, next)], next + 1)

/-- Attaching to all blocks in a list of (by, bx), ceres_optimizer.py 327-333. -/
def attachAll (b0 nbw : Nat) (d : Src R) : List (Int × Int) → List (Block R) → Except PyErr (List (Block R))
  | [], bs => .ok bs
  | c :: cs, bs =>
    match appendAt bs ((b0 : Int) + (c.1 * nbw + c.2)) d with
    | .error e => .error e
    | .ok bs' => attachAll b0 nbw d cs bs'

/-- The blocks a model of this position and size is attached to, ceres_optimizer.py 308-316, 327-328. -/
def blockRange (B nbw nbh : Nat) (x0 y0 : Int) (pw ph : Nat) : List (Int × Int) :=
  let bx0 := clip (floorDiv x0 B) 0 ((nbw : Int) - 1)
  let bx1 := clip (ceilDiv (x0 + pw) B) 0 ((nbw : Int) - 1)
  let by0 := clip (floorDiv y0 B) 0 ((nbh : Int) - 1)
  let by1 := clip (ceilDiv (y0 + ph) B) 0 ((nbh : Int) - 1)
  (pyRange by0 (by1 + 1)).flatMap (fun y => (pyRange bx0 (bx1 + 1)).map (fun x => (y, x)))

section
variable [Field R] [DecidableEq R]

/-- One round of the inner loop, ceres_optimizer.py 291-333.  (`clipTo` cannot fail, see C25.) -/
def addMod (B : Nat) (H W : Nat) (b0 nbw nbh : Nat) (scale : R) (i : Nat) (umod : Option (Patch R)) (st : St R) :
    Except PyErr (St R) :=
  match umod with
  | none => .ok st
  | some p =>
    let q := (p.clipTo W H).1.trimToNonZero
    match q.patch with
    | none => .ok st
    | some A =>
      let s := slotOf st.used st.next i
      match attachAll b0 nbw ⟨s.1, q.x0, q.y0, A.map (· * scale)⟩ (blockRange B nbw nbh q.x0 q.y0 A.w A.h) st.blocks with
      | .error e => .error e
      | .ok bs => .ok { st with blocks := bs, used := s.2.1, next := s.2.2 }

/-- The loop over the models of one entry; `i` is `paramoffset + modi`. -/
def addMods (B : Nat) (H W : Nat) (b0 nbw nbh : Nat) (scale : R) : Nat → List (Option (Patch R)) → St R →
    Except PyErr (St R)
  | _, [], st => .ok st
  | i, u :: us, st =>
    match addMod B H W b0 nbw nbh scale i u st with
    | .error e => .error e
    | .ok st' => addMods B H W b0 nbw nbh scale (i + 1) us st'

/-- Dicing the image unless it has been diced, ceres_optimizer.py 270-289: state, `b0`, `nbw`, `nbh`. -/
def diceOnce (B : Nat) (e : Entry R) (st : St R) : St R × Nat × Nat × Nat :=
  match st.start.find? (fun s => s.1 = e.key) with
  | some s => (st, s.2)
  | none =>
    let nbw := nblocks B e.im.img.w
    let nbh := nblocks B e.im.img.h
    let b0 := st.blocks.length
    ({ st with blocks := st.blocks ++ dice B e.im e.mod0, start := st.start ++ [(e.key, b0, nbw, nbh)] }, b0, nbw, nbh)

/-- One round of the outer loop, ceres_optimizer.py 268-333. -/
def addEntry (B : Nat) (e : Entry R) (st : St R) : Except PyErr (St R) :=
  let d := diceOnce B e st
  addMods B e.im.img.h e.im.img.w d.2.1 d.2.2.1 d.2.2.2 e.scale e.off e.umods d.1

/-- The outer loop. -/
def addEntries (B : Nat) : List (Entry R) → St R → Except PyErr (St R)
  | [], st => .ok st
  | e :: es, st =>
    match addEntry B e st with
    | .error err => .error err
    | .ok st' => addEntries B es st'

/-- `skyderivs` as made by `forced_photometry`, optimize.py 95-104: for each image (position) and each derivative of
its sky, one (derivative, image). -/
def skyDerivs (skys : List (List (Patch R))) : List (Patch R × Nat) :=
  skys.zipIdx.flatMap (fun s => s.1.map (fun d => (d, s.2)))

/-- The sky entries of `Z`, ceres_optimizer.py 249-260; the offset is a running count. -/
def skyEntries (ds : List (Patch R × Nat)) : Nat → Nat → List (Im R × Arr R) → List (Entry R)
  | _, _, [] => []
  | k, nsky, (im, mod0) :: rest =>
    let mods := (ds.filter (fun d => d.2 = k)).map (fun d => some d.1)
    ⟨mods, k, im, 1, mod0, nsky⟩ :: skyEntries ds (k + 1) (nsky + mods.length) rest

/-- `Z`, ceres_optimizer.py 246-263.  `skys` is none if the sky is not fit, otherwise the sky derivatives of each image;
each image comes with its fixed model and its scale (`zip`: as many as there are images). -/
def mkZ (skys : Option (List (List (Patch R)))) (ims : List (Im R × Arr R × R)) (umodels : List (List (Option (Patch R)))) :
    List (Entry R) :=
  let ds := skyDerivs (skys.getD [])
  let sky := if skys.isSome then skyEntries ds 0 0 (ims.map (fun i => (i.1, i.2.1))) else []
  let nsky := (sky.map (fun e => e.umods.length)).sum
  sky ++ (umodels.zip ims).zipIdx.map (fun u => ⟨u.1.1, u.2, u.1.2.1, u.1.2.2.2, u.1.2.2.1, nsky⟩)

end

section
variable [Field R]

/-- `ForcedPhotCostFunction::Evaluate` with `nonneg=0`, one source added to the model of the block,
ceres-tractor.cc 79-107. -/
def addSource (flux : List R) (b : Data R) (m : Arr R) (s : Src R) : Arr R :=
  let xlo := max s.x0 b.x0
  let xhi := min (s.x0 + s.px.w) (b.x0 + b.img.w)
  let ylo := max s.y0 b.y0
  let yhi := min (s.y0 + s.px.h) (b.y0 + b.img.h)
  ⟨m.h, m.w, fun r c =>
    if ylo ≤ b.y0 + r ∧ b.y0 + r < yhi ∧ xlo ≤ b.x0 + c ∧ b.x0 + c < xhi then
      m.px r c + s.px.px (b.y0 + r - s.y0).toNat (b.x0 + c - s.x0).toNat * flux.getD s.slot 0
    else m.px r c⟩

/-- The residuals of a block, ceres-tractor.cc 61-69, 141-148. -/
def residuals (flux : List R) (b : Block R) : Arr R :=
  let m := b.2.foldl (addSource flux b.1) b.1.mod0
  ⟨b.1.img.h, b.1.img.w, fun r c => (b.1.img.px r c - m.px r c) * b.1.ie.px r c⟩

/-- The Jacobian column of one source of a block, `nonneg=0`, ceres-tractor.cc 92-95, 114-117, 131-134. -/
def jacColumn (b : Data R) (s : Src R) : Arr R :=
  let xlo := max s.x0 b.x0
  let xhi := min (s.x0 + s.px.w) (b.x0 + b.img.w)
  let ylo := max s.y0 b.y0
  let yhi := min (s.y0 + s.px.h) (b.y0 + b.img.h)
  ⟨b.img.h, b.img.w, fun r c =>
    if ylo ≤ b.y0 + r ∧ b.y0 + r < yhi ∧ xlo ≤ b.x0 + c ∧ b.x0 + c < xhi then
      -1 * s.px.px (b.y0 + r - s.y0).toNat (b.x0 + c - s.x0).toNat * b.ie.px r c
    else 0⟩

/-- Sum of the squared residuals of all blocks (twice Ceres' cost). -/
def cost (bs : List (Block R)) (flux : List R) : R :=
  (bs.map (fun b => ((residuals flux b).ravel.map (· ^ 2)).sum)).sum

/-- `fluxes[k] = p0[i]` for all used parameters, ceres_optimizer.py 352-354. -/
def startFluxes (p0 : List R) : List (Nat × Nat) → List R → Except PyErr (List R)
  | [], f => .ok f
  | u :: us, f =>
    match p0[u.1]? with
    | none => .error .index
    | some v => startFluxes p0 us (f.set u.2 v)

/-- `params[i] = fluxes[k]`, ceres_optimizer.py 376-378. -/
def unmap (flux : List R) (used : List (Nat × Nat)) (n : Nat) : List R :=
  used.foldl (fun ps u => ps.set u.1 (flux.getD u.2 0)) (List.replicate n 0)

variable [DecidableEq R]

/-- `_ceres_forced_photom`, ceres_optimizer.py 229-387, up to the images in the result: the parameters of the tractor
afterwards.  `solve` gets the blocks and the fluxes to start from and returns the fluxes Ceres ends at.  With `nonneg`
the first call must return 0 to get past line 367, but it returns a dictionary. -/
def forcedPhot (B : Nat) (solve : List (Block R) → List R → List R) (Z : List (Entry R)) (p0 : List R) (nonneg : Bool) :
    Except PyErr (List R) :=
  match addEntries B Z ⟨[], [], [], 0⟩ with
  | .error e => .error e
  | .ok st =>
    if st.blocks.length = 0 ∨ st.used.length = 0 then .ok p0
    else
      match startFluxes p0 st.used (List.replicate st.used.length 0) with
      | .error e => .error e
      | .ok f0 =>
        if nonneg then .error .assertion
        else .ok (unmap (solve st.blocks f0) st.used p0.length)

end

end Verif.Ceres
