import Verif.Wcat.Model

/-!
# What a WISE catalog is

A sky catalog cut into parts, and files that hold it.
-/

namespace Verif.Wcat

open Verif

/-- An object of the catalog: position and row. -/
structure Entry (D Row : Type) where
  ra : D
  dec : D
  row : Row

/-- The files of part `i` hold these entries. -/
def Files.Hold {D Row : Type} (F : Files D Row) (i : Nat) (es : List (Entry D Row)) : Prop :=
  F.radec i = .ok (es.map (fun e => (e.ra, e.dec))) ∧ F.rows i = .ok (es.map (·.row))

/-- The parts are cut by declination. -/
def CutBy {D Row : Type} [LE D] (ranges : List (D × D)) (parts : List (List (Entry D Row))) : Prop :=
  parts.length = ranges.length ∧ ∀ (i : Nat) (es : List (Entry D Row)) (rng : D × D), parts[i]? = some es → ranges[i]? = some rng →
    ∀ e ∈ es, rng.1 ≤ e.dec ∧ e.dec ≤ rng.2

/-- The rows found, or None. -/
def orNone {Row : Type} (l : List Row) : Option (List Row) := if l.isEmpty then none else some l

end Verif.Wcat
