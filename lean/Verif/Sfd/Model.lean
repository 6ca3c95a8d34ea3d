import Verif.Py
import Mathlib.Algebra.Order.Field.Basic

/-!
# Galactic reddening: the maps of Schlegel, Finkbeiner and Davis

tractor/sfd.py `SFDMap.bilinear_interp_nonzero`, `ebv`, `extinction`.  Reading of the maps, the conversion to Galactic coordinates and the
WCS of the maps are parameters; float32 is left out.
-/

namespace Verif.Sfd

variable {R : Type}

/-- An image: its shape and its pixels `px y x`. -/
structure Map (R : Type) where
  H : Nat
  W : Nat
  px : Nat → Nat → R

/-- Which element of an axis of length `n` an index denotes: negative ones count from the end; IndexError outside. -/
def index (n : Nat) (i : Int) : Except PyErr Nat :=
  if 0 ≤ i then (if i < n then .ok i.toNat else .error .index)
  else (if 0 ≤ i + n then .ok (i + n).toNat else .error .index)

/-- `image[y, x]`. -/
def Map.get (m : Map R) (y x : Int) : Except PyErr R := do
  let j ← index m.H y
  let i ← index m.W x
  .ok (m.px j i)

/-- `np.clip(i, 0, n - 1)`. -/
def clip (n : Nat) (i : Int) : Int := min (max i 0) ((n : Int) - 1)

/-- `np.clip(f, 0., 1.)`. -/
def clip01 [Field R] [LinearOrder R] (f : R) : R := min (max f 0) 1

/-- Interpolation between two pixels, one of which may be zero, sfd.py 76-78: the formula, then the second where the first is zero, then the
first where the second is zero. -/
def mix [Field R] [LinearOrder R] (f a b : R) : R :=
  let v := (1 - f) * a + f * b
  let v := if a = 0 then b else v
  if b = 0 then a else v

/-- `bilinear_interp_nonzero(image, x, y)` for one position, sfd.py 67-89. -/
def interp [Field R] [LinearOrder R] (floor : R → Int) (m : Map R) (x y : R) : Except PyErr R := do
  let x0 := floor x
  let y0 := floor y
  let fx := clip01 (x - x0)
  let a ← m.get y0 x0
  let b ← m.get y0 (clip m.W (x0 + 1))
  let ebv1 := mix fx a b
  let a ← m.get (clip m.H (y0 + 1)) x0
  let b ← m.get (clip m.H (y0 + 1)) (clip m.W (x0 + 1))
  let ebv2 := mix fx a b
  let fy := clip01 (y - y0)
  .ok (mix fy ebv1 ebv2)

/-- For an array of positions: any exception is one for all. -/
def interpAll [Field R] [LinearOrder R] (floor : R → Int) (m : Map R) : List (R × R) → Except PyErr (List R)
  | [] => .ok []
  | p :: l => do
    let v ← interp floor m p.1 p.2
    let vs ← interpAll floor m l
    .ok (v :: vs)

/-- `a[cut] = vals`. -/
def scatter : List R → List Bool → List R → List R
  | a :: as, false :: cut, vs => a :: scatter as cut vs
  | _ :: as, true :: cut, v :: vs => v :: scatter as cut vs
  | as, _, _ => as

/-- `a[cut]`. -/
def select {α : Type} : List α → List Bool → List α
  | a :: as, c :: cut => if c then a :: select as cut else select as cut
  | _, _ => []

/-- One hemisphere, sfd.py 97-108: pixel positions (from 1) of the chosen sources, the assertions, interpolation. -/
def hemisphere [Field R] [LinearOrder R] (floor : R → Int) (wcs : R × R → R × R) (m : Map R) (lb : List (R × R)) (cut : List Bool)
    (ebv : List R) : Except PyErr (List R) :=
  if cut.all (fun c => !c) then .ok ebv
  else
    let xy := (select lb cut).map wcs
    if xy.all (fun p => decide (1 / 2 ≤ p.1) && decide (p.1 ≤ m.W + 1 / 2) && decide (1 / 2 ≤ p.2) && decide (p.2 ≤ m.H + 1 / 2)) then
      match interpAll floor m (xy.map (fun p => (p.1 - 1, p.2 - 1))) with
      | .error e => .error e
      | .ok vs => .ok (scatter ebv cut vs)
    else .error .assertion

/-- The object: the maps and their WCS. -/
structure SFD (R : Type) where
  north : Map R
  south : Map R
  northWcs : R × R → R × R
  southWcs : R × R → R × R

/-- `ebv(ra, dec)`, sfd.py 91-109. -/
def SFD.ebv [Field R] [LinearOrder R] (floor : R → Int) (toLB : R × R → R × R) (s : SFD R) (radec : List (R × R)) : Except PyErr (List R) :=
  let lb := radec.map toLB
  let N := lb.map (fun p => decide (0 ≤ p.2))
  match hemisphere floor s.northWcs s.north lb N (lb.map (fun _ => 0)) with
  | .error e => .error e
  | .ok ebv => hemisphere floor s.southWcs s.south lb (N.map (fun c => !c)) ebv

/-- The coefficients of known filters, or KeyError: `[SFDMap.extinctions[f] for f in filts]`, sfd.py 113. -/
def factors (table : String → Option R) : List String → Except PyErr (List R)
  | [] => .ok []
  | f :: l =>
    match table f with
    | none => .error .key
    | some c =>
      match factors table l with
      | .error e => .error e
      | .ok cs => .ok (c :: cs)

/-- `extinction(filts, ra, dec)`, sfd.py 111-117: one row for each position, one column for each filter. -/
def SFD.extinction [Field R] [LinearOrder R] (floor : R → Int) (toLB : R × R → R × R) (table : String → Option R) (s : SFD R)
    (filts : List String) (radec : List (R × R)) : Except PyErr (List (List R)) :=
  match s.ebv floor toLB radec with
  | .error e => .error e
  | .ok ebv =>
    match factors table filts with
    | .error e => .error e
    | .ok cs => .ok (ebv.map (fun v => cs.map (fun c => c * v)))

/-- `extinction(filts, ra, dec, get_ebv=True)`, sfd.py 111-116. -/
def SFD.extinctionEbv [Field R] [LinearOrder R] (floor : R → Int) (toLB : R × R → R × R) (table : String → Option R) (s : SFD R)
    (filts : List String) (radec : List (R × R)) : Except PyErr (List R × List (List R)) :=
  match s.ebv floor toLB radec with
  | .error e => .error e
  | .ok ebv =>
    match factors table filts with
    | .error e => .error e
    | .ok cs => .ok (ebv, ebv.map (fun v => cs.map (fun c => c * v)))

end Verif.Sfd
