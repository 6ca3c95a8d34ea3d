import Verif.Num
import Mathlib.Algebra.Order.Field.Basic

/-!
# Model of the masking of WISE level-1b images

wise/wise.py 146-232 (`read_wise_level1b` once the pixels are read).
-/

namespace Verif.Wmask

variable {K : Type} [Field K] [LinearOrder K]

/-- A pixel of the three files: intensity, uncertainty, mask.  The mask is a natural number (bit 31, the sign, is not used). -/
structure Pix (K : Type) where
  data : Num K
  unc : Num K
  mask : Nat

/-- A pixel of the returned image, with the two kinds of inverse variances that it carries (`tim.cinvvar`, `tim.vinvvar`) and `tim.goodmask`. -/
structure Out (K : Type) where
  data : Num K
  invvar : Num K
  cinvvar : Num K
  vinvvar : Num K
  good : Bool

/-- The bits of the mask that make a pixel bad, wise.py 186-188. -/
def bits : List Nat := [0, 1, 2, 3, 4, 5, 6, 7, 9, 10, 11, 12, 13, 14, 15, 16, 17, 18, 21, 26, 27, 28]

/-- `sum([1 << bit for bit in ...])`. -/
def maskBits : Nat := (bits.map fun b => 1 <<< b).sum

/-- `goodmask`, wise.py 186-188. -/
def goodmask (p : Pix K) : Bool := decide (p.mask &&& maskBits = 0)

/-- `1. / x**2` of numpy: infinite for 0.  Overflow and underflow are left out. -/
def recipSq : Num K → Num K
  | .nan => .nan
  | .ninf => .fin 0
  | .pinf => .fin 0
  | .fin x => if x = 0 then .pinf else .fin (1 / (x * x))

/-- A pixel of wise.py 193-211, with `sky` and `sigma1`. -/
def treat (constantInvvar : Bool) (sky sigma1 : Num K) (p : Pix K) : Out K :=
  let good := goodmask p
  let c := if good then recipSq sigma1 else .fin 0
  let v := if good then recipSq p.unc else .fin 0
  let bad := !v.isFinite
  let v' := if bad then .fin 0 else v
  let c' := if bad then .fin 0 else c
  let d := if bad then sky else p.data
  ⟨if !good then sky else d, if constantInvvar then c' else v', c', v', good⟩

/-- What the function returns of it: the sky level, `sigma1` and the pixels.  `median` is `np.median`. -/
structure Tim (K : Type) where
  sky : Num K
  sigma1 : Num K
  pix : List (Out K)

/-- wise.py 146, 186-232. -/
def finish (median : List (Num K) → Num K) (constantInvvar : Bool) (l : List (Pix K)) : Tim K :=
  let sky := median (l.map (·.data))
  let sigma1 := median ((l.filter goodmask).map (·.unc))
  ⟨sky, sigma1, l.map (treat constantInvvar sky sigma1)⟩

end Verif.Wmask
