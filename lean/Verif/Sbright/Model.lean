import Verif.Patch.Model
import Mathlib.Analysis.SpecialFunctions.Pow.Real
import Mathlib.Algebra.Order.Floor.Ring

/-!
# Bright point sources of the SDSS

tractor/sdss.py `SdssBrightPSF` and `SdssPointSource` (without `copy`, sdss.py 118-119, whose `pos` and `bright` are not defined).
-/

namespace Verif.Sbright

open Verif Patches

/-- `SdssBrightPSF.__init__`, sdss.py 34-42: two Gaussians and a power law, not normalised.  The wrapped PSF enters as a patch. -/
structure Bright where
  a1 : ℝ
  s1 : ℝ
  a2 : ℝ
  s2 : ℝ
  a3 : ℝ
  sigmap : ℝ
  beta : ℝ

/-- The power law, sdss.py 78. -/
noncomputable def Bright.power (B : Bright) (r2 : ℝ) : ℝ := B.a3 * (1 + r2 / (B.beta * B.sigmap ^ 2)) ^ (-B.beta / 2)

/-- `P` before normalisation, sdss.py 76-78. -/
noncomputable def Bright.profile (B : Bright) (r2 : ℝ) : ℝ :=
  B.a1 * Real.exp (-(1 / 2) * r2 / B.s1 ^ 2) + B.a2 * Real.exp (-(1 / 2) * r2 / B.s2 ^ 2) + B.power r2

/-- `R` before `np.clip`, sdss.py 51-55. -/
noncomputable def Bright.rawRadius (B : Bright) (dc : ℝ) : ℝ :=
  if dc > B.a3 then 25 else Real.sqrt (B.beta * B.sigmap ^ 2 * ((dc / B.a3) ^ (-2 / B.beta) - 1))

/-- `np.clip(R, 25., 200.)`, sdss.py 62. -/
noncomputable def Bright.radius (B : Bright) (dc : ℝ) : ℝ := min (max (B.rawRadius dc) 25) 200

/-- The grid of pixels `x0 … x1`, `y0 … y1` (both included) with the profile, sdss.py 64-78. -/
noncomputable def Bright.grid (B : Bright) (px py dc : ℝ) : Arr ℝ :=
  let R := B.radius dc
  ⟨(⌈py + R⌉ + 1 - ⌊py - R⌋).toNat, (⌈px + R⌉ + 1 - ⌊px - R⌋).toNat,
    fun j i => B.profile (((⌊px - R⌋ + i : ℝ) - px) ^ 2 + ((⌊py - R⌋ + j : ℝ) - py) ^ 2)⟩

/-- `getBrightPointSourcePatch`, sdss.py 50-81. -/
noncomputable def Bright.patch (B : Bright) (px py dc : ℝ) : Patch ℝ :=
  ⟨⌊px - B.radius dc⌋, ⌊py - B.radius dc⌋, some ((B.grid px py dc).map (· / (B.grid px py dc).ravel.sum))⟩

section
variable {R : Type} [Field R] [LinearOrder R]

/-- The thresholds of `SdssPointSource`. -/
structure Thresh (R : Type) where
  t1 : Option R
  t2 : Option R
  deriving Repr

/-- `SdssPointSource.__init__`, sdss.py 107-116. -/
def init : Option R → Option R → Except PyErr (Thresh R)
  | none, some _ => .error .typeErr
  | some t, some t2 => if t2 ≤ t then .ok ⟨some t, some t2⟩ else .error .assertion
  | some t, none => .ok ⟨some t, some (t / (5 / 2))⟩
  | none, none => .ok ⟨none, none⟩

/-- `(fb, fa)`, sdss.py 127-136.  The values set at 128-129 are always overwritten.  Counts are Python floats. -/
def weights (T : Thresh R) (c : R) : Except PyErr (R × R) :=
  match T.t2 with
  | none => .ok (0, 1)
  | some t2 =>
    if t2 ≤ c then
      match T.t1 with
      | none => .error .typeErr
      | some t1 =>
        if t1 - t2 = 0 then .error .zeroDiv
        else
          let fb := min (max ((c - t2) / (t1 - t2)) 0) 1
          .ok (fb, 1 - fb)
    else .ok (0, 1)

/-- `SdssPointSource.getModelPatch`, sdss.py 121-157: `noise` is `img.getMedianPixelNoise()`, `none` for images without this
method, as `tractor.Image` (no class in the repository has it); `bright dc` the patch of the bright PSF and
`faint` that of the wrapped PSF, both at the pixel position of the source. -/
def modelPatch (T : Thresh R) (masked : Bool) (c : R) (noise : Option R) (bright : R → Patch R) (faint : Patch R) : Except PyErr (Option (Patch R)) :=
  if masked then .error .assertion
  else if c = 0 then .ok none
  else
    match weights T c with
    | .error e => .error e
    | .ok (fb, fa) =>
      if fb ≠ 0 then
        match noise with
        | none => .error .attribute
        | some noise =>
          let b := (bright (1 / 1000 * noise / c)).mul fb
          if fa ≠ 0 then
            match b.add (faint.mul fa) with
            | .error e => .error e
            | .ok p => .ok (some (p.mul c))
          else .ok (some (b.mul c))
      else if fa ≠ 0 then .ok (some (faint.mul c))
      else .error .typeErr

/-- `getUnitFluxModelPatch`, inherited from `PointSource` (pointsource.py 100-125): the patch of the PSF of the image, which is that of the
wrapped one (sdss.py 84-85). -/
def unitPatch (faint : Patch R) : Patch R := faint

end

end Verif.Sbright
