import Verif.Py
import Mathlib.Algebra.Order.Field.Basic
import Mathlib.Algebra.Order.Group.Abs

/-!
# Forced photometry of a catalogue on overlapping tiles

wise/forcedphot.py `unwise_forcedphot`, lines 18-313, without models, plots and FITS output, the PSF options, the number of exposures, the
dates, and the magnitudes computed from the fluxes at the end.

Arrays over the catalogue are functions of the index of the source; entries beyond the length are never used.  float32 is left out.
Reading the images, the coordinate conversions and `Tractor.optimize_forced_photometry` are parameters.
-/

namespace Verif.Wise

variable {R S : Type}

/-- A tile as seen by one band: whether there is an image of it (`get_unwise_tractor_image` returns None if it does not overlap the region
asked for), the shape of the image, where the sources are in the image (from 0), where they are in the whole tile (from 1), and the
centre `crpix` of the tile. -/
structure Tile (R : Type) where
  id : Nat
  present : Bool
  W : R
  H : R
  xy : Nat → R × R
  full : Nat → R × R
  centre : R × R

/-- Within the image and a margin of 10 pixels, forcedphot.py 137-139. -/
def Tile.inMargin [Field R] [LinearOrder R] (t : Tile R) (i : Nat) : Bool :=
  decide (-10 ≤ (t.xy i).1) && decide ((t.xy i).1 < t.W + 10) && decide (-10 ≤ (t.xy i).2) && decide ((t.xy i).2 < t.H + 10)

/-- Within the image, forcedphot.py 142-143. -/
def Tile.inBox [Field R] [LinearOrder R] (t : Tile R) (i : Nat) : Bool :=
  decide (-(1 / 2) ≤ (t.xy i).1) && decide ((t.xy i).1 < t.W - 1 / 2) && decide (-(1 / 2) ≤ (t.xy i).2) &&
    decide ((t.xy i).2 < t.H - 1 / 2)

/-- The distance of a source to the centre of the tile, forcedphot.py 147-150. -/
def Tile.dist [Field R] [LinearOrder R] (t : Tile R) (i : Nat) : R :=
  max |(t.full i).1 - t.centre.1| |(t.full i).2 - t.centre.2|

/-- What `optimize_forced_photometry` leaves: the fluxes of each source, the inverse variances one per *parameter*, and statistics one per
source, which are None if no step of the fit improved anything. -/
structure Result (R S : Type) where
  flux : List (List R)
  iv : List R
  stats : Option (List S)

/-- A fit of sources (index and fluxes to start from) to a tile. -/
abbrev Fit (R S : Type) := Tile R → List (Nat × List R) → Except PyErr (Result R S)

/-- `a[is] = vs`: ValueError if the lengths differ, unless there is a single value. -/
def assign {α : Type} (a : Nat → α) (is : List Nat) (vs : List α) : Except PyErr (Nat → α) :=
  if vs.length = is.length then .ok ((is.zip vs).foldl (fun a p => Function.update a p.1 p.2) a)
  else
    match vs with
    | [v] => .ok (is.foldl (fun a i => Function.update a i v) a)
    | _ => .error .value

/-- The arrays of one band, the column `tile`, and the fluxes in the sources. -/
structure State (R S : Type) where
  dist : Nat → R
  flux : Nat → List R
  ivar : Nat → R
  stat : Nat → Option S
  tile : Nat → Option Nat

/-- The sources near a tile: `I`, forcedphot.py 138-139. -/
def near [Field R] [LinearOrder R] (N : Nat) (t : Tile R) : List Nat := (List.range N).filter t.inMargin

/-- The sources whose fit is kept: `I[inbox * closest]`, forcedphot.py 151-157. -/
def kept [Field R] [LinearOrder R] (N : Nat) (t : Tile R) (dist : Nat → R) : List Nat :=
  (near N t).filter (fun i => t.inBox i && decide (t.dist i < dist i))

/-- The others: `margi`, forcedphot.py 168. -/
def others [Field R] [LinearOrder R] (N : Nat) (t : Tile R) (dist : Nat → R) : List Nat :=
  (near N t).filter (fun i => !(t.inBox i && decide (t.dist i < dist i)))

/-- `tiledists[I[closest]] = td[closest]`, forcedphot.py 151-152. -/
def newDist [Field R] [LinearOrder R] (N : Nat) (t : Tile R) (dist : Nat → R) (i : Nat) : R :=
  if i < N ∧ t.inMargin i ∧ t.dist i < dist i then t.dist i else dist i

/-- What is saved of a fit, forcedphot.py 246-256: the kept sources come first in the catalogue that was fitted and are the objects of the
catalogue themselves (the others are copies); `IV[:len(srci)]`; the statistics if there are any. -/
def save (st : State R S) (srci : List Nat) (r : Result R S) : Except PyErr (State R S) := do
  let flux ← assign st.flux srci (r.flux.take srci.length)
  let ivar ← assign st.ivar srci (r.iv.take srci.length)
  match r.stats with
  | none => .ok { st with flux := flux, ivar := ivar }
  | some s => do
    let stat ← assign st.stat srci ((s.take srci.length).map some)
    .ok { st with flux := flux, ivar := ivar, stat := stat }

/-- The body of the loop over tiles, forcedphot.py 69-256. -/
def step [Field R] [LinearOrder R] (N : Nat) (fit : Fit R S) (st : State R S) (t : Tile R) : Except PyErr (State R S) :=
  if t.present = false then .ok st
  else
    let srci := kept N t st.dist
    let margi := others N t st.dist
    let st' := { st with dist := newDist N t st.dist }
    if srci = [] then .ok st'
    else
      let st'' := { st' with tile := fun i => if i ∈ srci then some t.id else st.tile i }
      match fit t ((srci ++ margi).map (fun i => (i, st.flux i))) with
      | .error e => .error e
      | .ok r => save st'' srci r

/-- The loop over tiles. -/
def tiles [Field R] [LinearOrder R] (N : Nat) (fit : Fit R S) : List (Tile R) → State R S → Except PyErr (State R S)
  | [], st => .ok st
  | t :: l, st =>
    match step N fit st t with
    | .error e => .error e
    | .ok st' => tiles N fit l st'

/-- The columns of one band: fluxes, inverse variances, statistics (zero, here `none`, if never set), and the column `tile` as it is after
this band. -/
structure Out (R S : Type) where
  nm : Nat → R
  ivar : Nat → R
  stat : Nat → Option S
  tile : Nat → Option Nat

/-- One band, forcedphot.py 52-268: the arrays start afresh, the sources keep the fluxes they have.  `getBrightness().getBand('w')` is the sum of
the fluxes of the components; fluxes without inverse variance are set to zero. -/
def band [Field R] [LinearOrder R] (N : Nat) (fit : Fit R S) (ts : List (Tile R)) (flux : Nat → List R) (tile : Nat → Option Nat) :
    Except PyErr (Out R S × (Nat → List R)) :=
  match tiles N fit ts ⟨fun _ => 10 ^ 100, flux, fun _ => 0, fun _ => none, tile⟩ with
  | .error e => .error e
  | .ok st => .ok (⟨fun i => if st.ivar i = 0 then 0 else (st.flux i).sum, st.ivar, st.stat, st.tile⟩, st.flux)

/-- The loop over bands, each with its images of the tiles and its fits. -/
def bands [Field R] [LinearOrder R] (N : Nat) : List (List (Tile R) × Fit R S) → (Nat → List R) → (Nat → Option Nat) →
    Except PyErr (List (Out R S))
  | [], _, _ => .ok []
  | b :: l, flux, tile =>
    match band N b.2 b.1 flux tile with
    | .error e => .error e
    | .ok r =>
      match bands N l r.2 r.1.tile with
      | .error e => .error e
      | .ok os => .ok (r.1 :: os)

end Verif.Wise
