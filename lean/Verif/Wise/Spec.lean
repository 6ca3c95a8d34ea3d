import Verif.Wise.Model

/-!
# Which fit should be reported
-/

namespace Verif.Wise

variable {R S : Type}

/-- Source `i` is inside the image of the tile: its position is that of one of the pixels. -/
def Inside [Field R] [LinearOrder R] (t : Tile R) (i : Nat) : Prop :=
  t.present = true ∧ -(1 / 2) ≤ (t.xy i).1 ∧ (t.xy i).1 < t.W - 1 / 2 ∧ -(1 / 2) ≤ (t.xy i).2 ∧ (t.xy i).2 < t.H - 1 / 2

/-- Source `i` is inside or within ten pixels of the image. -/
def Near [Field R] [LinearOrder R] (t : Tile R) (i : Nat) : Prop :=
  t.present = true ∧ -10 ≤ (t.xy i).1 ∧ (t.xy i).1 < t.W + 10 ∧ -10 ≤ (t.xy i).2 ∧ (t.xy i).2 < t.H + 10

/-- How far a source is from the centre of a tile. -/
def centreDist [Field R] [LinearOrder R] (t : Tile R) (i : Nat) : R :=
  max |(t.full i).1 - t.centre.1| |(t.full i).2 - t.centre.2|

/-- Tile `t` is the one among those that have the source whose centre is nearest, the first of them if there are several. -/
def Nearest [Field R] [LinearOrder R] (ts : List (Tile R)) (t : Tile R) (i : Nat) : Prop :=
  Inside t i ∧ ∃ a b, ts = a ++ t :: b ∧ (∀ u ∈ a, Inside u i → centreDist t i < centreDist u i) ∧
    ∀ u ∈ b, Inside u i → centreDist t i ≤ centreDist u i

/-- The tiles that have a source are nearer than those that have it only in the margin (and than 1e100 pixels). -/
def Orderly [Field R] [LinearOrder R] (ts : List (Tile R)) (i : Nat) : Prop :=
  ∀ t ∈ ts, Inside t i → centreDist t i < 10 ^ 100 ∧ ∀ u ∈ ts, Near u i → ¬ Inside u i → centreDist t i < centreDist u i

/-- Fits return one list of fluxes and one entry of the statistics for each source, and one inverse variance for each parameter; `par i` is the
number of flux parameters of source `i`. -/
def Proper (par : Nat → Nat) (fit : Fit R S) : Prop :=
  ∀ t l r, fit t l = .ok r → r.flux.length = l.length ∧ r.iv.length = (l.map (fun p => par p.1)).sum ∧
    ∀ s, r.stats = some s → s.length = l.length

/-- The result for the source `i` in a band is that of a fit of tile `t` to all sources near it: `i` was the `k`-th source, the flux is its
flux, the inverse variance is that of its parameter. -/
def Reports [Field R] [LinearOrder R] (N : Nat) (par : Nat → Nat) (fit : Fit R S) (t : Tile R) (i : Nat) (o : Out R S) : Prop :=
  ∃ l r k fl, fit t l = .ok r ∧ (∀ j, j ∈ l.map (·.1) ↔ j < N ∧ Near t j) ∧ (l.map (·.1)).Nodup ∧ (l.map (·.1))[k]? = some i ∧
    r.flux[k]? = some fl ∧ r.iv[((l.map (fun p => par p.1)).take k).sum]? = some (o.ivar i) ∧
    (o.nm i = if o.ivar i = 0 then 0 else fl.sum) ∧ (∀ s, r.stats = some s → s[k]? = o.stat i) ∧ o.tile i = some t.id

/-- Nothing is reported: flux and inverse variance are zero. -/
def Blank [Field R] (i : Nat) (o : Out R S) : Prop := o.nm i = 0 ∧ o.ivar i = 0 ∧ o.stat i = none

/-- Fits have one solution: fitting the same sources to a tile, in whatever order and from whatever fluxes, gives a source the same flux and
inverse variance. -/
def Determined (par : Nat → Nat) (fit : Fit R S) : Prop :=
  ∀ t l l' r r', fit t l = .ok r → fit t l' = .ok r' → (∀ j, j ∈ l.map (·.1) ↔ j ∈ l'.map (·.1)) →
    ∀ (k k' i : Nat), (l.map (·.1))[k]? = some i → (l'.map (·.1))[k']? = some i → r.flux[k]? = r'.flux[k']? ∧
      r.iv[((l.map (fun p => par p.1)).take k).sum]? = r'.iv[((l'.map (fun p => par p.1)).take k').sum]?

/-- The image is the whole square tile of `n` pixels, and source `i` is not exactly on its right or upper border. -/
def Whole [Field R] [LinearOrder R] (n : R) (t : Tile R) (i : Nat) : Prop :=
  t.W = n ∧ t.H = n ∧ t.centre = ((n + 1) / 2, (n + 1) / 2) ∧ t.full i = ((t.xy i).1 + 1, (t.xy i).2 + 1) ∧
    (t.xy i).1 ≠ n - 1 / 2 ∧ (t.xy i).2 ≠ n - 1 / 2

end Verif.Wise
