import Verif.Forced.Model
import Mathlib.Algebra.Order.Group.Unbundled.Abs

/-!
# Variances and fit statistics of forced photometry

tractor/optimize.py `_get_umodels`, `_get_iv` and `_get_fitstats`.
-/

namespace Verif.Forced

open Verif Patches

variable {R : Type}

/-- In-place elementwise update of `A[r0:r1, c0:c1]`. -/
def mapSlice (A : Arr R) (r0 r1 c0 c1 : Int) (f : R → R) : Arr R :=
  let (i, n) := Arr.axis A.h (some r0) (some r1)
  let (j, m) := Arr.axis A.w (some c0) (some c1)
  ⟨A.h, A.w, fun r c => if i ≤ r ∧ r < i + n ∧ j ≤ c ∧ c < j + m then f (A.px r c) else A.px r c⟩

/-! ### `_get_umodels` -/

/-- `um.x0 -= x0; um.y0 -= y0` unless there is no patch or it has no image, optimize.py 188-194.  The check for infinite
and NaN pixels is not represented. -/
def shiftUm (x0 y0 : Int) (um : Option (Patch R)) : Option (Patch R) :=
  um.map (fun p => if p.patch.isNone then p else { p with x0 := p.x0 - x0, y0 := p.y0 - y0 })

/-- The unit-flux models of one image, optimize.py 161-212: `ums` are the lists `src.getUnitFluxModelPatches(img)`, `x0`, `y0`
the origin of the region of interest (0 without). -/
def imageUmods (x0 y0 : Int) (ums : List (List (Option (Patch R)))) : List (Option (Patch R)) :=
  (ums.map (fun l => l.map (shiftUm x0 y0))).flatten

/-- `umodsforsource`, optimize.py 206-210: for each source the positions of its unit-flux models in the list of the first
image. -/
def umodsFor : Nat → List (List (Option (Patch R))) → List (List Nat)
  | _, [] => []
  | k, l :: ls => ((List.range l.length).map (k + ·)) :: umodsFor (k + l.length) ls

/-! ### `_get_iv` -/

/-- What `_get_iv` needs of an image: its shape and `getInvError()`. -/
structure Tim (R : Type) where
  h : Nat
  w : Nat
  ie : Arr R

section
variable [Field R]

/-- The slice after the trimming of one axis, optimize.py 413-419: begin and end. -/
def trim (x0 : Int) (n : Nat) : Int × Int := if x0 < 0 then (0, 0 + (n + x0)) else (x0, x0 + n)

/-- `np.sum` of an array. -/
def total (A : Arr R) : R := A.ravel.sum

/-- One unit-flux model, optimize.py 406-422: the work array afterwards and `dchi2`. -/
def unitInfo (ie : Arr R) (scale : R) (um : Patch R) (mm : Arr R) : Except PyErr (Arr R × R) :=
  match um.addTo mm 1 with
  | .error e => .error e
  | .ok mm =>
    let (a, b) := trim um.y0 um.shape.1
    let (c, d) := trim um.x0 um.shape.2
    match bc (· * ·) ((mm.slice (some a) (some b) (some c) (some d)).map (· * scale))
        (ie.slice (some a) (some b) (some c) (some d)) with
    | .error e => .error e
    | .ok m => .ok (mapSlice mm a b c d (fun _ => 0), total (m.map (fun v => v ^ 2)))

/-- The loop over the unit-flux models of one image, optimize.py 402-422; `k` is `Nsky + ui`. -/
def ivImage (ie : Arr R) (scale : R) : List (Option (Patch R)) → Nat → Arr R → List R → Except PyErr (List R)
  | [], _, _, iv => .ok iv
  | none :: l, k, mm, iv => ivImage ie scale l (k + 1) mm iv
  | some um :: l, k, mm, iv =>
    match unitInfo ie scale um mm with
    | .error e => .error e
    | .ok (mm, d) =>
      if k < iv.length then ivImage ie scale l (k + 1) mm (iv.modify k (· + d)) else .error .index

/-- The loop over the images, optimize.py 399-422. -/
def ivImages (nsky : Nat) : List (Tim R × List (Option (Patch R)) × R) → List R → Except PyErr (List R)
  | [], iv => .ok iv
  | (t, umods, scale) :: l, iv =>
    match ivImage t.ie scale umods nsky (Arr.zeros t.h t.w) iv with
    | .error e => .error e
    | .ok iv => ivImages nsky l iv

/-- The head `for di, (dsky, tim) in enumerate(skyderivs)`, optimize.py 388 (the only line of that loop that is reached): every element of `skyderivs` is a list of
(patch, image) pairs, and it is the list that is unpacked into two values: ValueError unless there are two of them, and then
an AttributeError since the second is a pair, not an image. -/
def skyInfo : List (List (Patch R × Tim R)) → Except PyErr Unit
  | [] => .ok ()
  | [_, _] :: _ => .error .attribute
  | _ :: _ => .error .value

/-- `_get_iv`, optimize.py 378-423. -/
def getIv (sky skyvariance : Bool) (nsky : Nat) (skyderivs : List (List (Patch R × Tim R))) (nsrc : Nat)
    (imlist : List (Tim R)) (umodels : List (List (Option (Patch R)))) (scales : List R) : Except PyErr (List R) :=
  let both := sky && skyvariance
  let nsky := if both then nsky else 0
  let iv := List.replicate (nsky + nsrc) 0
  match (if both then skyInfo skyderivs else .ok ()) with
  | .error e => .error e
  | .ok () => ivImages nsky (imlist.zip (umodels.zip scales)) iv

end

/-! ### `_get_fitstats` -/

/-- One image with what `imsBest`, `umodels`, `scales` and `extras` say about it.  The arrays of one image have the same
shape; `level` is what the sky adds, `skyval` its attribute `val` if it has one. -/
structure Best (R : Type) where
  h : Nat
  w : Nat
  mod : Nat → Nat → R
  ie : Nat → Nat → R
  chi : Nat → Nat → R
  level : Nat → Nat → R
  skyval : Option R
  umods : List (Option (Patch R))
  scale : R
  extras : List (Nat → Nat → R)

/-- A source: whether it is frozen, and in each image the counts of each of its brightnesses. -/
structure Src (R : Type) where
  frozen : Bool
  counts : Nat → List R

/-- The sums of one source. -/
structure Acc (R : Type) where
  prochi2 : R
  pronpix : R
  promasked : R
  fracfluxNum : R
  fracfluxDen : R
  proflux : R
  npix : Nat
  fracinNum : R
  fracinDen : R
  extras : List R
  deriving DecidableEq, Repr

/-- What is reported about one source. -/
structure SrcStats (R : Type) where
  prochi2 : R
  pronpix : R
  promasked : R
  profracflux : R
  proflux : R
  npix : Nat
  fracin : R
  extras : List R
  deriving DecidableEq, Repr

/-- What is reported. -/
structure Stats (R : Type) where
  imchisq : List R
  imnpix : List Nat
  sky : List R
  srcs : List (SrcStats R)
  deriving DecidableEq, Repr

section
variable [Field R] [LinearOrder R]

/-- A box: xlo, xhi, ylo, yhi. -/
abbrev Ext := Int × Int × Int × Int

/-- `track total ROI`, optimize.py 320-330; the four numbers are None together. -/
def grow (b : Option Ext) (um : Patch R) : Ext :=
  let x1 := um.x0 + um.shape.2
  let y1 := um.y0 + um.shape.1
  match b with
  | none => (um.x0, x1, um.y0, y1)
  | some (xlo, xhi, ylo, yhi) =>
    (if um.x0 < xlo then um.x0 else xlo, if x1 > xhi then x1 else xhi,
      if um.y0 < ylo then um.y0 else ylo, if y1 > yhi then y1 else yhi)

/-- The loop over the components of a source, optimize.py 314-332: the box and `srcmod`. -/
def addComps (umods : List (Option (Patch R))) :
    List (Nat × R) → Option Ext → Arr R → Except PyErr (Option Ext × Arr R)
  | [], b, s => .ok (b, s)
  | (ui, counts) :: l, b, s =>
    if counts = 0 then addComps umods l b s
    else
      match umods[ui]? with
      | none => .error .index
      | some none => addComps umods l b s
      | some (some um) =>
        match (um.mul counts).addTo s 1 with
        | .error e => .error e
        | .ok s => addComps umods l (some (grow b um)) s

/-- The positions of the pixels of an array, row by row. -/
def positions (A : Arr R) : List (Nat × Nat) :=
  (List.range A.h).flatMap (fun r => (List.range A.w).map (fun c => (r, c)))

/-- `np.sum` over some pixels. -/
def sumOver (l : List (Nat × Nat)) (f : Nat → Nat → R) : R := (l.map (fun q => f q.1 q.2)).sum

/-- The statistics of one source in one image, optimize.py 345-365, from the sliced arrays `p` (`srcmod`), `ie`, `chi`, `mod`
and the sliced extra images; `nz` are the used pixels. -/
def addStats (p ie chi mod : Arr R) (ex : List (Arr R)) (sc scale : R) (nz : List (Nat × Nat)) (a : Acc R) : Acc R where
  prochi2 := a.prochi2 + sumOver nz (fun r c => |p.px r c| * chi.px r c ^ 2)
  pronpix := a.pronpix + sumOver nz (fun r c => |p.px r c|)
  promasked := a.promasked + sumOver ((positions p).filter (fun q => decide (ie.px q.1 q.2 = 0))) (fun r c => |p.px r c|)
  fracfluxNum := a.fracfluxNum + sumOver nz (fun r c => |mod.px r c / sc - p.px r c| * |p.px r c|) /
    sumOver nz (fun r c => p.px r c ^ 2)
  fracfluxDen := a.fracfluxDen + sumOver nz (fun r c => |p.px r c| / |sc|)
  proflux := a.proflux + sumOver nz (fun r c => |(mod.px r c - p.px r c * sc) / scale| * |p.px r c|)
  npix := a.npix + nz.length
  fracinNum := a.fracinNum + sumOver (positions p) (fun r c => |p.px r c|)
  fracinDen := a.fracinDen + 1
  extras := List.zipWith (fun x e => x + sumOver nz (fun r c => |p.px r c| * e.px r c)) a.extras ex

/-- The used pixels: `np.flatnonzero((srcmod[slc] != 0) * (ie[slc] > 0))`, optimize.py 340. -/
def usedPixels (p ie : Arr R) : List (Nat × Nat) :=
  (positions p).filter (fun q => decide (p.px q.1 q.2 ≠ 0 ∧ ie.px q.1 q.2 > 0))

/-- One source in one image, optimize.py 301-367: `srcmod` and the sums afterwards. -/
def statsImage (uis : List Nat) (cc : List R) (b : Best R) (s : Arr R) (a : Acc R) : Except PyErr (Arr R × Acc R) :=
  let sc := cc.sum
  if sc = 0 then .ok (s, a)
  else
    match addComps b.umods (uis.zip cc) none s with
    | .error e => .error e
    | .ok (none, s) => .ok (s, a)
    | .ok (some (xlo, xhi, ylo, yhi), s) =>
      let sl (f : Nat → Nat → R) : Arr R := (Arr.mk b.h b.w f).slice (some ylo) (some yhi) (some xlo) (some xhi)
      let s := mapSlice s ylo yhi xlo xhi (· / sc)
      let p := s.slice (some ylo) (some yhi) (some xlo) (some xhi)
      let nz := usedPixels p (sl b.ie)
      let s' := mapSlice s ylo yhi xlo xhi (fun _ => 0)
      if nz.isEmpty then .ok (s', a)
      else .ok (s', addStats p (sl b.ie) (sl b.chi) (sl b.mod) (b.extras.map sl) sc b.scale nz a)

/-- One source, optimize.py 296-367; `k` is the number of the image. -/
def statsSource (uis : List Nat) (src : Src R) :
    List (Best R) → Nat → List (Arr R) → Acc R → Except PyErr (List (Arr R) × Acc R)
  | b :: bs, k, s :: ss, a =>
    match statsImage uis (src.counts k) b s a with
    | .error e => .error e
    | .ok (s, a) =>
      match statsSource uis src bs (k + 1) ss a with
      | .error e => .error e
      | .ok (ss, a) => .ok (s :: ss, a)
  | _, _, ss, a => .ok (ss, a)

/-- The sums at the beginning, optimize.py 261-277. -/
def Acc.zero (nextra : Nat) : Acc R := ⟨0, 0, 0, 0, 0, 0, 0, 0, 0, List.replicate nextra 0⟩

/-- The loop over the sources, optimize.py 294-367: the sums of each source.  `catalog[si]` counts all sources, frozen ones
included. -/
def statsSources (catalog : List (Src R)) (nextra : Nat) (bs : List (Best R)) :
    List (List Nat) → Nat → List (Arr R) → Except PyErr (List (Acc R))
  | [], _, _ => .ok []
  | uis :: l, si, ss =>
    match catalog[si]? with
    | none => .error .index
    | some src =>
      match statsSource uis src bs 0 ss (Acc.zero nextra) with
      | .error e => .error e
      | .ok (ss, a) =>
        match statsSources catalog nextra bs l (si + 1) ss with
        | .error e => .error e
        | .ok as => .ok (a :: as)

/-- The last divisions, optimize.py 369-370. -/
def Acc.report (a : Acc R) : SrcStats R where
  prochi2 := a.prochi2
  pronpix := a.pronpix
  promasked := a.promasked
  profracflux := a.fracfluxNum / max 1 a.fracfluxDen
  proflux := a.proflux
  npix := a.npix
  fracin := a.fracinNum / max 1 a.fracinDen
  extras := a.extras

/-- `tim.getSky().addTo(mod, scale)`. -/
def addSky (scale : R) (b : Best R) : Best R := { b with mod := fun r c => b.mod r c + b.level r c * scale }

/-- Subtracting the skies, optimize.py 281-285: the images afterwards and the values; AttributeError for a sky without `val`. -/
def subSkies : List (Best R) → List (Best R) × Except PyErr (List R)
  | [] => ([], .ok [])
  | b :: bs =>
    match b.skyval with
    | none => (addSky (-1) b :: bs, .error .attribute)
    | some v =>
      match subSkies bs with
      | (bs, .error e) => (addSky (-1) b :: bs, .error e)
      | (bs, .ok vs) => (addSky (-1) b :: bs, .ok (v :: vs))

/-- `_get_fitstats`, optimize.py 233-376: the images afterwards and the statistics.  `uis` is `umodsforsource`. -/
def getFitstats (catalog : List (Src R)) (bs : List (Best R)) (uis : List (List Nat)) (nextra : Nat) :
    List (Best R) × Except PyErr (Stats R) :=
  let imchisq := bs.map (fun b => total ((Arr.mk b.h b.w b.chi).map (fun v => v ^ 2)))
  let imnpix := bs.map (fun b => ((positions (Arr.mk b.h b.w b.ie)).filter (fun q => decide (b.ie q.1 q.2 > 0))).length)
  match subSkies bs with
  | (bs, .error e) => (bs, .error e)
  | (bs, .ok skies) =>
    match statsSources catalog nextra bs uis 0 (bs.map (fun b => Arr.zeros b.h b.w)) with
    | .error e => (bs, .error e)
    | .ok as => (bs.map (addSky 1), .ok ⟨imchisq, imnpix, skies, as.map Acc.report⟩)

end

end Verif.Forced
