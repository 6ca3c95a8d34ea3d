import Verif.Py
import Mathlib.Data.Rat.Floor

/-!
# Model of the PSF models of WISE by place and their cache

wise/wise.py 349-397 `get_psf_model`.
-/

namespace Verif.Wgrid

/-- `np.clip(v, 50, 950)`. -/
def clip (v : ℚ) : ℚ := min (max v 50) 950

/-- `v % 100` of Python, for a positive divisor. -/
def mod100 (v : ℚ) : ℚ := v - 100 * ⌊v / 100⌋

/-- A coordinate of the grid, wise.py 354-357, from `int(x)`: `/` is the true division of Python 3.  Rational arithmetic in place of floats: the error of `n / 100 * 100` does not
bring a number that is not a multiple of 100 to one. -/
def grid (n : Int) : Except PyErr ℚ :=
  let g := clip ((n : ℚ) / 100 * 100 + 50)
  if mod100 g = 50 then .ok g else .error .assertion

/-- Both coordinates, wise.py 352-358. -/
def place : Option (Int × Int) → Except PyErr (Option (ℚ × ℚ))
  | none => .ok none
  | some (x, y) =>
    match grid x with
    | .error e => .error e
    | .ok gx =>
      match grid y with
      | .error e => .error e
      | .ok gy => .ok (some (gx, gy))

/-- The key of the cache, wise.py 360. -/
structure Key where
  band : Nat
  pixpsf : Bool
  xy : Option (ℚ × ℚ)
  positive : Bool
deriving DecidableEq

/-- The arguments of a call but for the cache; `xy` as `int(x), int(y)`. -/
structure Call where
  band : Nat
  pixpsf : Bool
  xy : Option (Int × Int)
  positive : Bool

/-- The cache, a dictionary: entries by key, the newest first. -/
abbrev Cache (P : Type) := List (Key × P)

/-- `cache[key]`. -/
def find {P : Type} (key : Key) : Cache P → Option P
  | [] => none
  | (k, p) :: l => if k = key then some p else find key l

/-- `get_psf_model`, wise.py 349-397.  `build` reads the file and makes the model (362-396, RuntimeError or an error of the file); the files do not change. -/
def getPsf {P : Type} (build : Key → Except PyErr P) (cache : Cache P) (c : Call) : Cache P × Except PyErr P :=
  match place c.xy with
  | .error e => (cache, .error e)
  | .ok xy =>
    let key : Key := ⟨c.band, c.pixpsf, xy, c.positive⟩
    match find key cache with
    | some p => (cache, .ok p)
    | none =>
      match build key with
      | .error e => (cache, .error e)
      | .ok p => ((key, p) :: cache, .ok p)

/-- Calls in turn with the same cache; the exceptions are caught by the caller. -/
def run {P : Type} (build : Key → Except PyErr P) : Cache P → List Call → Cache P × List (Except PyErr P)
  | cache, [] => (cache, [])
  | cache, c :: l =>
    let r := getPsf build cache c
    let s := run build r.1 l
    (s.1, r.2 :: s.2)

end Verif.Wgrid
