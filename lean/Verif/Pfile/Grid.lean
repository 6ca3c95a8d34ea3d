import Mathlib.Data.List.Dedup
import Verif.Psf.Varying
import Verif.Pfile.Model

/-!
# Model of the files of fitted PsfEx models

tractor/psfex.py `VaryingGaussianPsfEx.toFits`, `fromFits`; the parameter names of the PSF classes (tractor/utils.py, psf.py).
-/

namespace Verif.Pfile

open Verif

variable {R S : Type}

/-- The name of a parameter or of a column. -/
abbrev Name := List Char

/-- A column of the (one) row of the table: a list of numbers, an image (ny x nx) or several. -/
inductive Col (R : Type) where
  | vec (v : List R)
  | plane (a : List (List R))
  | cube (c : List (List (List R)))

/-- A file: the cards PSFEX_T, PSF_TYPE, PSF_W, PSF_H, PSF_K, PSF_NX, PSF_NY, PSF_A0, PSF_A1, ... (PSF_NA is their number), and the columns. -/
structure GridFile (R : Type) where
  psfexT : String
  psfType : String
  W : R
  H : R
  K : Nat
  nx : Nat
  ny : Nat
  args : List Name
  cols : List (Name × Col R)

/-- `T.get(name)`. -/
def column (cols : List (Name × Col R)) (nm : Name) : Option (Col R) := (cols.find? (fun c => c.1 = nm)).map (·.2)

/-- `T.set(name, values)`: replaces a column of that name. -/
def setCol (cols : List (Name × Col R)) (nm : Name) (c : Col R) : List (Name × Col R) := (nm, c) :: cols

/-- `pp[:, :, i]`; IndexError if there are not that many parameters. -/
def planeOf (pp : List (List (List R))) (i n : Nat) : Except PyErr (List (List R)) :=
  if i < n then .ok (pp.map (fun row => row.filterMap (·[i]?))) else .error .index

/-- The columns without `merge`, psfex.py 680-681. -/
def plainCols (pp : List (List (List R))) (n : Nat) : List (Name × Nat) → List (Name × Col R) → Except PyErr (List (Name × Col R))
  | [], cols => .ok cols
  | (nm, i) :: l, cols =>
    match planeOf pp i n with
    | .error e => .error e
    | .ok a => plainCols pp n l (setCol cols nm (.plane a))

/-- A digit. -/
def digit (k : Nat) : Char := Nat.digitChar k

/-- `'0123456789'[:K]`. -/
def digits (K : Nat) : List Char := (List.range (min K 10)).map digit

/-- `assert(nm[-1] in '0123456789'[:K])` for all names; IndexError for an empty one. -/
def checkNames (K : Nat) : List Name → Except PyErr Unit
  | [] => .ok ()
  | nm :: l =>
    match nm.getLast? with
    | none => .error .index
    | some c => if c ∈ digits K then checkNames K l else .error .assertion

/-- `pp[:, :, namemap['%s%i' % (nm, k)]]` for the components, psfex.py 671-673; `namemap` has the last place of a name. -/
def component (names : List Name) (pp : List (List (List R))) (n : Nat) (nm : Name) (k : Nat) : Except PyErr (List (List R)) :=
  match (names.zipIdx.reverse.find? (fun e => e.1 = nm ++ [digit k])).map (·.2) with
  | none => .error .key
  | some i => planeOf pp i n

/-- The columns with `merge`, psfex.py 669-674. -/
def mergedCols (names : List Name) (pp : List (List (List R))) (n K : Nat) : List Name → List (Name × Col R) → Except PyErr (List (Name × Col R))
  | [], cols => .ok cols
  | nm :: l, cols =>
    match (List.range K).mapM (component names pp n nm) with
    | .error e => .error e
    | .ok c => mergedCols names pp n K l (setCol cols nm (.cube c))

/-- `toFits(fn, merge=merge)`, psfex.py 613-682: `cls`, `psfcls` are the type strings of the object and of its PSF class, `names` are the parameter names
of `psfclass(*params)`.  The names without their last character are a sorted set; here in the order of their last occurrence (each gives a column of its
own). -/
def toFits (cls psfcls : String) (K : Nat) (names : List R → Except PyErr (List Name)) (s : Psf.Varying.State R S) (merge : Bool) :
    Except PyErr (GridFile R) :=
  match s.splinedata with
  | none => .error .attribute
  | some (pp, xx, yy) =>
    if ¬ pp.length = s.ny then .error .assertion
    else if ¬ pp.all (fun row => row.length = s.nx) then .error .assertion
    else
      match pp with
      | (q :: _) :: _ =>
        match names q with
        | .error e => .error e
        | .ok nms =>
          let cols : List (Name × Col R) := setCol (setCol [] "xx".toList (.vec xx)) "yy".toList (.vec yy)
          let r :=
            if merge then
              if ¬ K < 10 then .error .assertion
              else
                match checkNames K nms with
                | .error e => .error e
                | .ok () =>
                  let bases := (nms.map List.dropLast).dedup
                  if bases.length * K = q.length then mergedCols nms pp q.length K bases cols else .error .assertion
            else plainCols pp q.length nms.zipIdx cols
          r.map (fun cols => ⟨cls, psfcls, s.W, s.H, K, s.nx, s.ny, nms, cols⟩)
      | _ => .error .index

/-- `fromFits(fn)`, psfex.py 560-611: the class is called `VaryingGaussianPsfEx` now, but the type of the file must be `tractor.psfex.PsfEx` (572);
`GaussianMixtureEllipsePSF` (577) is not imported.  What comes after that line is not modelled. -/
def fromFits (f : GridFile R) : Except PyErr (Psf.Varying.State R S) :=
  if strip f.psfexT = "tractor.psfex.PsfEx" then .error .nameErr else .error .assertion

/-- The parameter names of a `GaussianMixturePSF` of `K` components, in the order of the parameters, utils.py 1348-1360. -/
def mogNames (K : Nat) : List Name :=
  (List.range K).map (fun k => "amp".toList ++ [digit k]) ++
  (List.range K).flatMap (fun k => ["meanx".toList ++ [digit k], "meany".toList ++ [digit k]]) ++
  (List.range K).flatMap (fun k => ["varxx".toList ++ [digit k], "varyy".toList ++ [digit k], "varxy".toList ++ [digit k]])

/-- The same for a `GaussianMixtureEllipsePSF`, psf.py 703-712. -/
def ellipseNames (K : Nat) : List Name :=
  (List.range K).map (fun k => "amp".toList ++ [digit k]) ++
  (List.range K).flatMap (fun k => ["meanx".toList ++ [digit k], "meany".toList ++ [digit k]]) ++
  (List.range K).flatMap (fun k => ["logr".toList ++ [digit k], "ee1-".toList ++ [digit k], "ee2-".toList ++ [digit k]])

end Verif.Pfile
