import Mathlib.Order.Defs.LinearOrder
import Mathlib.Data.Int.Notation
import Mathlib.Algebra.Notation.Defs
import Verif.Patch.Model

/-!
# Rendering a mixture down to a minimum value

tractor/approx3.c `c_gauss_2d_approx3` and mixture_profiles.py `evaluate_grid_approx3`.

The value of the mixture in a pixel is a parameter, here `val row column` (`eval_all_dxy`, which skips distant components)
and `val0` (`eval_all`).  The arrays of derivatives are filled exactly where the array of values is, and are left out.  C arrays of marks are
functions of the pixel coordinate (not of the offset from the edge of the box).
-/

namespace Verif.Approx

open Verif.Patches (Patch)

variable {R : Type} [Zero R] [LinearOrder R]

/-- `[x0, x1)`, `[y0, y1)`. -/
structure Box where
  x0 : Int
  x1 : Int
  y0 : Int
  y1 : Int

/-- The arrays doT, doB, doL, doR (or next...), approx3.c 79-93. -/
structure Marks where
  t : Int → Bool
  b : Int → Bool
  l : Int → Bool
  r : Int → Bool

def Marks.clear : Marks := ⟨fun _ => false, fun _ => false, fun _ => false, fun _ => false⟩

/-- `SET(arr, i, lo, hi)`, approx3.c 170-171. -/
def mark (a : Int → Bool) (i lo hi : Int) : Int → Bool :=
  if i ≥ lo ∧ i < hi then fun j => j == i || a j else a

/-- What does not change: the value of the mixture, minval, minradius, the box, the central pixel. -/
structure Job (R : Type) where
  val : Int → Int → R
  minval : R
  minradius : Int
  bx : Box
  xc : Int
  yc : Int

/-- The variables of one ring: result (row, column), next marks, any, anyrow. -/
structure St (R : Type) where
  res : Int → Int → R
  next : Marks
  any : Bool
  row : Bool

/-- sx0, sx1, sy0, sy1 (inclusive). -/
structure Ext where
  x0 : Int
  x1 : Int
  y0 : Int
  y1 : Int

/-- `any = 1; anyrow = 1; result[..] = r`. -/
def St.visit (s : St R) (yy xx : Int) (v : R) : St R :=
  { s with res := fun y x => if y = yy ∧ x = xx then v else s.res y x, any := true, row := true }

def St.markT (s : St R) (bx : Box) (i : Int) : St R := { s with next := { s.next with t := mark s.next.t i bx.x0 bx.x1 } }
def St.markB (s : St R) (bx : Box) (i : Int) : St R := { s with next := { s.next with b := mark s.next.b i bx.x0 bx.x1 } }
def St.markL (s : St R) (bx : Box) (i : Int) : St R := { s with next := { s.next with l := mark s.next.l i bx.y0 bx.y1 } }
def St.markR (s : St R) (bx : Box) (i : Int) : St R := { s with next := { s.next with r := mark s.next.r i bx.y0 bx.y1 } }

/-- One pixel of the top of the ring, approx3.c 285-320. -/
def topPixel (J : Job R) (rad yy : Int) (dt : Int → Bool) (s : St R) (xx : Int) : St R :=
  if !dt xx then s
  else
    let r := J.val yy xx
    let s := s.visit yy xx r
    if rad > J.minradius ∧ r < J.minval then s
    else
      let s := if xx = J.xc - rad ∧ xx > J.bx.x0 then (s.markL J.bx yy).markL J.bx (yy - 1) else s
      let s := if xx = J.xc + rad ∧ xx < J.bx.x1 - 1 then (s.markR J.bx yy).markR J.bx (yy - 1) else s
      if yy < J.bx.y1 - 1 then ((s.markT J.bx (xx - 1)).markT J.bx xx).markT J.bx (xx + 1) else s

/-- One pixel of the bottom, approx3.c 338-369. -/
def bottomPixel (J : Job R) (rad yy : Int) (db : Int → Bool) (s : St R) (xx : Int) : St R :=
  if !db xx then s
  else
    let r := J.val yy xx
    let s := s.visit yy xx r
    if rad > J.minradius ∧ r < J.minval then s
    else
      let s := if xx = J.xc - rad ∧ xx > J.bx.x0 then (s.markL J.bx yy).markL J.bx (yy + 1) else s
      let s := if xx = J.xc + rad ∧ xx < J.bx.x1 - 1 then (s.markR J.bx yy).markR J.bx (yy + 1) else s
      if yy > J.bx.y0 then ((s.markB J.bx (xx - 1)).markB J.bx xx).markB J.bx (xx + 1) else s

/-- One pixel of the left side, approx3.c 382-402. -/
def leftPixel (J : Job R) (rad xx : Int) (dl : Int → Bool) (s : St R) (yy : Int) : St R :=
  if !dl yy then s
  else
    let r := J.val yy xx
    let s := s.visit yy xx r
    if rad > J.minradius ∧ r < J.minval then s
    else if xx > J.bx.x0 then ((s.markL J.bx (yy - 1)).markL J.bx yy).markL J.bx (yy + 1) else s

/-- One pixel of the right side, approx3.c 414-434. -/
def rightPixel (J : Job R) (rad xx : Int) (dr : Int → Bool) (s : St R) (yy : Int) : St R :=
  if !dr yy then s
  else
    let r := J.val yy xx
    let s := s.visit yy xx r
    if rad > J.minradius ∧ r < J.minval then s
    else if xx < J.bx.x1 - 1 then ((s.markR J.bx (yy - 1)).markR J.bx yy).markR J.bx (yy + 1) else s

/-- `x0 <= i < x1` in order. -/
def span (lo hi : Int) : List Int := (List.range (hi - lo).toNat).map (fun i : Nat => lo + i)

/-- One ring, approx3.c 206-442: the state and the extent afterwards. -/
def ring (J : Job R) (rad : Int) (d : Marks) (res : Int → Int → R) (e : Ext) : St R × Ext :=
  let s : St R := ⟨res, Marks.clear, false, false⟩
  -- top
  let yy := J.yc + rad
  let (s, e) :=
    if yy < J.bx.y1 then
      let s := (span J.bx.x0 J.bx.x1).foldl (topPixel J rad yy d.t) { s with row := false }
      (s, if s.row then { e with y1 := yy - J.bx.y0 } else e)
    else (s, e)
  -- bottom
  let yy := J.yc - rad
  let (s, e) :=
    if yy ≥ J.bx.y0 then
      let s := (span J.bx.x0 J.bx.x1).foldl (bottomPixel J rad yy d.b) { s with row := false }
      (s, if s.row then { e with y0 := yy - J.bx.y0 } else e)
    else (s, e)
  -- left
  let xx := J.xc - rad
  let (s, e) :=
    if xx ≥ J.bx.x0 then
      let s := (span J.bx.y0 J.bx.y1).foldl (leftPixel J rad xx d.l) { s with row := false }
      (s, if s.row then { e with x0 := xx - J.bx.x0 } else e)
    else (s, e)
  -- right
  let xx := J.xc + rad
  if xx < J.bx.x1 then
    let s := (span J.bx.y0 J.bx.y1).foldl (rightPixel J rad xx d.r) { s with row := false }
    (s, if s.row then { e with x1 := xx - J.bx.x0 } else e)
  else (s, e)

/-- `for (R=1;; R++)`, approx3.c 206-442: at most `n` rings; None if the loop has not ended by then. -/
def rings (J : Job R) : Nat → Int → Marks → (Int → Int → R) → Ext → Option ((Int → Int → R) × Ext)
  | 0, _, _, _, _ => none
  | n + 1, rad, d, res, e =>
    let (s, e) := ring J rad d res e
    if s.any then rings J n (rad + 1) s.next s.res e else some (s.res, e)

/-- The eight neighbours of the central pixel, approx3.c 173-189. -/
def firstMarks (J : Job R) : Marks :=
  let s : St R := ⟨fun _ _ => 0, Marks.clear, false, false⟩
  let s := if J.yc > J.bx.y0 then ((s.markB J.bx (J.xc + 1)).markB J.bx J.xc).markB J.bx (J.xc - 1) else s
  let s := if J.yc < J.bx.y1 - 1 then ((s.markT J.bx J.xc).markT J.bx (J.xc + 1)).markT J.bx (J.xc - 1) else s
  let s := if J.xc > J.bx.x0 then s.markL J.bx J.yc else s
  let s := if J.xc < J.bx.x1 - 1 then s.markR J.bx J.yc else s
  s.next

/-- From the central pixel on, approx3.c 173-442.  The number of rings is limited only to make the function total
(`C98_grid` shows that the limit is not reached). -/
def expand (J : Job R) : Option ((Int → Int → R) × Ext) :=
  let e : Ext := ⟨J.xc - J.bx.x0, J.xc - J.bx.x0, J.yc - J.bx.y0, J.yc - J.bx.y0⟩
  rings J ((J.bx.x1 - J.bx.x0).toNat + (J.bx.y1 - J.bx.y0).toNat + 1) 1 (firstMarks J)
    (fun y x => if y = J.yc ∧ x = J.xc then J.val J.yc J.xc else 0) e

/-- Searching an edge for the largest value, approx3.c 142-149 and 157-164. -/
def scanEdge (val0 : Int → Int → R) (pix : Int → Int × Int) (l : List Int) (best : R × Int × Int) : R × Int × Int :=
  l.foldl (fun best i =>
    let (ix, iy) := pix i
    let v := val0 iy ix
    if v > best.1 then (v, ix, iy) else best) best

/-- The pixel from which to begin, approx3.c 127-168.  Division of integers is that of C. -/
def startPixel (val0 : Int → Int → R) (bx : Box) (xc yc : Int) : Int × Int :=
  if xc < bx.x0 ∨ yc < bx.y0 ∨ xc ≥ bx.x1 ∨ yc ≥ bx.y1 then
    let best : R × Int × Int := (0, (bx.x0 + bx.x1).tdiv 2, (bx.y0 + bx.y1).tdiv 2)
    let best :=
      if xc < bx.x0 ∨ xc ≥ bx.x1 then
        let ix := if xc < bx.x0 then bx.x0 else bx.x1 - 1
        scanEdge val0 (fun iy => (ix, iy)) (span bx.y0 bx.y1) best
      else best
    let best :=
      if yc < bx.y0 ∨ yc ≥ bx.y1 then
        let iy := if yc < bx.y0 then bx.y0 else bx.y1 - 1
        scanEdge val0 (fun ix => (ix, iy)) (span bx.x0 bx.x1) best
      else best
    (best.2.1, best.2.2)
  else (xc, yc)

/-- `evaluate_grid_approx3(x0, x1, y0, y1, 0, 0, minval, minradius=.., doslice=.., maxmargin=..)`, mixture_profiles.py
345-411; `(cx, cy)` is the mean of the first component truncated to integers.  A starting pixel outside the box, for which
the C code writes outside its array, is reported as IndexError. -/
def gridApprox3 (val0 val : Int → Int → R) (cx cy : Int) (bx : Box) (minval : R) (minradius : Int) (doslice : Bool)
    (maxmargin : Int) : Except PyErr (Option (Patch R)) :=
  if bx.x1 < bx.x0 ∨ bx.y1 < bx.y0 then .error .value
  else if cx < bx.x0 - maxmargin ∨ cx > bx.x1 + maxmargin ∨ cy < bx.y0 - maxmargin ∨ cy > bx.y1 + maxmargin then .ok none
  else
    let (xc, yc) := startPixel val0 bx cx cy
    if xc < bx.x0 ∨ xc ≥ bx.x1 ∨ yc < bx.y0 ∨ yc ≥ bx.y1 then .error .index
    else
      match expand ⟨val, minval, minradius, bx, xc, yc⟩ with
      | none => .error .runtime
      | some (res, e) =>
        let A : Arr R := ⟨(bx.y1 - bx.y0).toNat, (bx.x1 - bx.x0).toNat, fun r c => res (bx.y0 + r) (bx.x0 + c)⟩
        if doslice then
          .ok (some ⟨bx.x0 + e.x0, bx.y0 + e.y0, some (A.slice (some e.y0) (some (e.y1 + 1)) (some e.x0) (some (e.x1 + 1)))⟩)
        else .ok (some ⟨bx.x0, bx.y0, some A⟩)

end Verif.Approx
