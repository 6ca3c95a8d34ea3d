import Mathlib.Algebra.Order.Ring.Rat
import Mathlib.Tactic.Ring
import Verif.Py

/-!
# Model of the WISE catalog readers

wise/wisecat.py and wise/allwisecat.py.  The catalogs are cut into parts by declination; each part has a file of positions (`-radec`) and a file of rows.
-/

namespace Verif.Wcat

open Verif

/-- The files: the positions and the rows of part `i` (from 0; the names have `i + 1`); a missing file raises IOError (here `.runtime`). -/
structure Files (D Row : Type) where
  radec : Nat → Except PyErr (List (D × D))
  rows : Nat → Except PyErr (List Row)

variable {D Row : Type}

/-- `fits_table(fn, rows=I, columns=cols)`: the rows of these numbers. -/
def takeRows (t : List Row) (I : List Nat) : Except PyErr (List Row) :=
  I.mapM (fun i => match t[i]? with | none => .error .index | some r => .ok r)

/-- `np.flatnonzero(cond)`. -/
def flatnonzero (p : D × D → Bool) (t : List (D × D)) : List Nat := (t.zipIdx.filter (fun e => p e.1)).map (·.2)

/-- The loop over the parts, wisecat.py 17-36 and 49-63: `skip` is the test of a part by its range of declinations, `p` the test of a position; the tables
that have rows. -/
def scan (F : Files D Row) (skip : D × D → Bool) (p : D × D → Bool) : List ((D × D) × Nat) → Except PyErr (List (List Row))
  | [] => .ok []
  | (rng, i) :: l =>
    if skip rng then scan F skip p l
    else
      match F.radec i with
      | .error e => .error e
      | .ok t =>
        let I := flatnonzero p t
        if I.isEmpty then scan F skip p l
        else
          match F.rows i with
          | .error e => .error e
          | .ok rows =>
            match takeRows rows I with
            | .error e => .error e
            | .ok T => (scan F skip p l).map (T :: ·)

/-- wisecat.py 37-41, 64-68: None, the only table or `merge_tables`. -/
def merge : List (List Row) → Option (List Row)
  | [] => none
  | [t] => some t
  | l => some l.flatten

section
variable [LinearOrder D]

/-- `_read_wise_cats(r0, r1, d0, d1, ...)`, wisecat.py 44-68. -/
def readBox (F : Files D Row) (ranges : List (D × D)) (r0 r1 d0 d1 : D) : Except PyErr (Option (List Row)) :=
  (scan F (fun rng => d1 < rng.1 ∨ rng.2 < d0) (fun q => r0 ≤ q.1 ∧ q.1 ≤ r1 ∧ d0 ≤ q.2 ∧ q.2 ≤ d1) ranges.zipIdx).map merge

end

/-- What is used of a WCS: `radec_bounds()` (its declinations), `pixel_scale()`, the size, and `radec2pixelxy`. -/
structure Wcs (D : Type) where
  dlo : D
  dhi : D
  scale : D
  w : D
  h : D
  pix : D → D → Option (D × D)

section
variable [Field D] [LinearOrder D]

/-- `_read_wise_cats_wcs(wcs, ..., pixelmargin)`, wisecat.py 7-41; `root2` is `np.sqrt(2.)`. -/
def readWcs (F : Files D Row) (root2 : D) (ranges : List (D × D)) (W : Wcs D) (pm : D) : Except PyErr (Option (List Row)) :=
  let margin := root2 * pm * W.scale / 3600
  let d0 := W.dlo - margin
  let d1 := W.dhi + margin
  let inside : D × D → Bool := fun q =>
    (d0 ≤ q.2 ∧ q.2 ≤ d1) &&
    match W.pix q.1 q.2 with
    | none => false
    | some (x, y) => 1 / 2 - pm ≤ x ∧ 1 / 2 - pm ≤ y ∧ x ≤ W.w + 1 / 2 + pm ∧ y ≤ W.h + 1 / 2 + pm
  (scan F (fun rng => d1 < rng.1 ∨ rng.2 < d0) inside ranges.zipIdx).map merge

end

/-- The table `wise_catalog_dec_range`, wisecat.py 80-130, in units of 0.0001. -/
def allskyTable : List (Int × Int) :=
  [(-900000, -744136), (-744136, -685021), (-685021, -639184), (-639184, -599494), (-599494, -564176), (-564176, -532041),
   (-532041, -501737), (-501737, -472370), (-472370, -443990), (-443990, -416214), (-416214, -389014), (-389014, -362475),
   (-362475, -336239), (-336239, -310392), (-310392, -284833), (-284833, -259208), (-259208, -233635), (-233635, -208182),
   (-208182, -182736), (-182736, -157314), (-157314, -131899), (-131899, -106404), (-106404, -80910), (-80910, -55299), (-55299, -29446),
   (-29446, -3636), (-3636, 22252), (22252, 48384), (48384, 74580), (74580, 100901), (100901, 127325), (127325, 154077), (154077, 181078),
   (181078, 208353), (208353, 235923), (235923, 263853), (263853, 292147), (292147, 320866), (320866, 350062), (350062, 379866),
   (379866, 410452), (410452, 441864), (441864, 473853), (473853, 506780), (506780, 540887), (540887, 576976), (576976, 617911),
   (617911, 665832), (665832, 733078), (733078, 900000)]

/-- The table `allwise_catalog_dec_range`, allwisecat.py 28-77, in units of 0.0001. -/
def allwiseTable : List (Int × Int) :=
  [(-900000, -742400), (-742400, -679273), (-679273, -629444), (-629444, -586128), (-586128, -547759), (-547759, -512676),
   (-512676, -479581), (-479581, -448072), (-448072, -417844), (-417844, -388607), (-388607, -360298), (-360298, -332572),
   (-332572, -305514), (-305514, -278965), (-278965, -252503), (-252503, -226299), (-226299, -200431), (-200431, -174529),
   (-174529, -148629), (-148629, -122779), (-122779, -96845), (-96845, -70835), (-70835, -44765), (-44765, -18619), (-18619, 7462),
   (7462, 33570), (33570, 59876), (59876, 86199), (86199, 112752), (112752, 139438), (139438, 166417), (166417, 193621), (193621, 221116),
   (221116, 249064), (249064, 277332), (277332, 306057), (306057, 335461), (335461, 365487), (365487, 396453), (396453, 428419),
   (428419, 461530), (461530, 496061), (496061, 532608), (532608, 571806), (571806, 616195), (616195, 668237), (668237, 736202),
   (736202, 900000)]

/-- The ranges in degrees. -/
def degrees (t : List (Int × Int)) : List (ℚ × ℚ) := t.map (fun r => ((r.1 : ℚ) / 10000, (r.2 : ℚ) / 10000))

end Verif.Wcat
