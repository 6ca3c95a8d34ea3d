import Verif.Arr
import Verif.Mog.Model

/-!
# Rebinned images

tractor/sdss.py `scale_sdss_image`; tractor/psf.py `GaussianMixturePSF.scaleBy`; tractor/shifted.py `ScaledPhotoCal`.  `ScaledWcs` is in
`Verif/Coords`.
-/

namespace Verif.Bin

open Verif.Mog (Comp Mix)

variable {R : Type}

/-- `data[:-(H % S), :]` if `H % S`, then `data[:, :-(W % S)]` if `W % S`, sdss.py 618-623 (`H`, `W` are those of the image given; both
arrays are cut by the same numbers). -/
def trim (H W S : Nat) (A : Arr R) : Arr R :=
  let A := if H % S ≠ 0 then A.slice none (some (-((H % S : Nat) : Int))) none none else A
  if W % S ≠ 0 then A.slice none none none (some (-((W % S : Nat) : Int))) else A

/-- Length of `[i::S]` on an axis of length `n`. -/
def strideLen (n i S : Nat) : Nat := (n - i + (S - 1)) / S

/-- `A[i::S, j::S]`. -/
def stride (A : Arr R) (i j S : Nat) : Arr R := ⟨strideLen A.h i S, strideLen A.w j S, fun r c => A.px (i + S * r) (j + S * c)⟩

/-- `A += B` in place: ValueError when the shapes differ (numpy would repeat a single row or column). -/
def addTo [Add R] (A B : Arr R) : Except PyErr (Arr R) :=
  if A.h = B.h ∧ A.w = B.w then .ok ⟨A.h, A.w, fun r c => A.px r c + B.px r c⟩ else .error .value

/-- The body of the loop, sdss.py 633-637. -/
def binStep [Add R] [Mul R] (data invvar : Arr R) (S : Nat) (acc : Arr R × Arr R) (ij : Nat × Nat) : Except PyErr (Arr R × Arr R) :=
  let iv := stride invvar ij.1 ij.2 S
  let d := stride data ij.1 ij.2 S
  match addTo acc.1 ⟨d.h, d.w, fun r c => d.px r c * iv.px r c⟩ with
  | .error e => .error e
  | .ok nd =>
    match addTo acc.2 iv with
    | .error e => .error e
    | .ok ni => .ok (nd, ni)

/-- `for i in range(S): for j in range(S)`. -/
def offsets (S : Nat) : List (Nat × Nat) := (List.range S).flatMap (fun i => (List.range S).map (fun j => (i, j)))

/-- The two arrays of the image returned by `scale_sdss_image(tim, S)`, sdss.py 604-640.  `py3`: is `/` of two integers a float, which
`np.zeros` does not accept as a size? -/
def scaleImage [Field R] [DecidableEq R] (py3 : Bool) (data invvar : Arr R) (S : Nat) : Except PyErr (Arr R × Arr R) :=
  if S = 0 then .error .zeroDiv
  else
    let d := trim data.h data.w S data
    let v := trim data.h data.w S invvar
    if d.h % S ≠ 0 ∨ d.w % S ≠ 0 then .error .assertion
    else if py3 then .error .typeErr
    else
      match (offsets S).foldlM (binStep d v S) (Arr.zeros (d.h / S) (d.w / S), Arr.zeros (d.h / S) (d.w / S)) with
      | .error e => .error e
      | .ok (nd, ni) =>
        .ok (⟨nd.h, nd.w, fun r c => if ni.px r c = 0 then 0 else nd.px r c / (ni.px r c + (if ni.px r c = 0 then 1 else 0))⟩, ni)

/-- `GaussianMixturePSF.scaleBy(factor)`, psf.py 432-437. -/
def scaleBy [Field R] (m : Mix R) (f : R) : Mix R :=
  m.map (fun c => ⟨c.amp, c.mx * f, c.my * f, c.vxx * f ^ 2, c.vxy * f ^ 2, c.vyx * f ^ 2, c.vyy * f ^ 2⟩)

/-- `ScaledPhotoCal.brightnessToCounts`, shifted.py 130-131, from the counts of the image given. -/
def scaledCounts [Field R] (factor counts : R) : R := factor * counts

end Verif.Bin
