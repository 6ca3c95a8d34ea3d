import Verif.Mog.Model
import Mathlib.Analysis.SpecialFunctions.Log.Basic
import Mathlib.Analysis.SpecialFunctions.Pow.Real
import Mathlib.Analysis.Real.Sqrt
import Mathlib.Analysis.SpecialFunctions.Trigonometric.Basic

/-!
# Evaluating mixtures of Gaussians

mixture_profiles.py `evaluate_1`, `evaluate_2`, `evaluate_3`, `evaluate_grid_dstn`, `evaluate_grid_masked`, `evaluate_grid_approx3`
with mix.i `c_gauss_2d`, `c_gauss_2d_grid`, `eval_g`, `eval_all`, `eval_all_dxy`, `eval_all_dxy_f`, and the preparations in
approx3.c and gauss_masked.c.

Floating-point numbers are real numbers; so all are finite.  `1 / 0 = 0` and `sqrt` of a negative number 0 in place of infinity and NaN:
the theorems are about positive definite covariances, where neither occurs.
-/

namespace Verif.Gauss

open Verif.Mog (Comp Mix)

noncomputable section

/-- `tpd = pow(2.*M_PI, D)`. -/
def tpd : ℝ := (2 * Real.pi) ^ 2

/-! ### One position: `c_gauss_2d`, `c_gauss_2d_grid` -/

/-- One component at one position, mix.i 404-414 and 418-428. -/
def gaussTerm (c : Comp ℝ) (x y : ℝ) (r : ℝ) : ℝ :=
  let det := c.vxx * c.vyy - c.vxy * c.vyx
  let scale := c.amp / Real.sqrt (tpd * det)
  let dx := x - c.mx
  let dy := y - c.my
  let dsq := c.vyy / det * dx * dx + -c.vxy / det * dx * dy + -c.vyx / det * dx * dy + c.vxx / det * dy * dy
  if dsq ≥ 100 then r else r + scale * Real.exp (-0.5 * dsq)

/-- `evaluate_2` (`evaluate`) at one position: `c_gauss_2d`, mix.i 319-447. -/
def evaluate (m : Mix ℝ) (x y : ℝ) : ℝ := m.foldl (fun r c => gaussTerm c x y r) 0

/-- One component in one pixel, mix.i 483-492 and 498-507. -/
def gridTerm (c : Comp ℝ) (fx fy : ℝ) (ix iy : Int) (r : ℝ) : ℝ :=
  let det := c.vxx * c.vyy - c.vxy * c.vyx
  let scale := c.amp / Real.sqrt (tpd * det)
  let dx := ix - fx - c.mx
  let dy := iy - fy - c.my
  let dsq := c.vyy / det * dx * dx + -(c.vxy + c.vyx) / det * dx * dy + c.vxx / det * dy * dy
  if dsq ≥ 100 then r else r + scale * Real.exp (-0.5 * dsq)

/-- One pixel of `evaluate_grid_dstn` (`evaluate_grid`): `c_gauss_2d_grid`, mix.i 452-524. -/
def evaluateGrid (m : Mix ℝ) (fx fy : ℝ) (ix iy : Int) : ℝ := m.foldl (fun r c => gridTerm c fx fy ix iy r) 0

/-- One component of `evaluate_3`, mixture_profiles.py 231-239 (`evaluate_1`, 250-255, is the same with
scipy's Mahalanobis distance): `inv` and `det` of the 2 x 2 matrix. -/
def numpyTerm (c : Comp ℝ) (x y : ℝ) (r : ℝ) : ℝ :=
  let det := c.vxx * c.vyy - c.vxy * c.vyx
  let dx := x - c.mx
  let dy := y - c.my
  let d0 := dx * (c.vyy / det) + dy * (-c.vyx / det)
  let d1 := dx * (-c.vxy / det) + dy * (c.vxx / det)
  let dsq := dx * d0 + dy * d1
  if dsq < 700 then r + c.amp / Real.sqrt ((2 * Real.pi) ^ 2 * det) * Real.exp (-0.5 * dsq) else r

/-- `evaluate_3` at one position, mixture_profiles.py 224-240. -/
def evaluate3 (m : Mix ℝ) (x y : ℝ) : ℝ := m.foldl (fun r c => numpyTerm c x y r) 0

/-! ### `eval_all`, `eval_all_dxy` -/

/-- `icov`, `scales[k]` and the determinant of a component. -/
structure Prep where
  i0 : ℝ
  i1 : ℝ
  i2 : ℝ
  scale : ℝ
  det : ℝ

/-- approx3.c 101-117, gauss_masked.c 71-87. -/
def prep (c : Comp ℝ) : Prep :=
  let v0 := c.vxx
  let v1 := (c.vxy + c.vyx) * 0.5
  let v2 := c.vyy
  let det := v0 * v2 - v1 * v1
  let isc := -0.5 / det
  ⟨v2 * isc, -v1 * isc * 2, v0 * isc, c.amp / Real.sqrt (tpd * det), det⟩

/-- `eval_g`, mix.i 19-28. -/
def evalG (p : Prep) (dx dy : ℝ) : ℝ :=
  let dsq := p.i0 * dx * dx + p.i1 * dx * dy + p.i2 * dy * dy
  if dsq < -100 then 0 else Real.exp dsq

/-- `eval_all`, mix.i 31-42. -/
def evalAll (m : Mix ℝ) (x y : ℝ) : ℝ :=
  m.foldl (fun r c => r + (prep c).scale * evalG (prep c) (x - c.mx) (y - c.my)) 0

/-- One component of `eval_all_dxy`, mix.i 54-80: value and derivatives. -/
def dxyTerm (maxD : Comp ℝ → ℝ) (c : Comp ℝ) (x y : ℝ) (r : ℝ × ℝ × ℝ) : ℝ × ℝ × ℝ :=
  let p := prep c
  let dx := x - c.mx
  let dy := y - c.my
  let dsq := p.i0 * dx * dx + p.i1 * dx * dy + p.i2 * dy * dy
  if ¬ dsq ≥ maxD c then r
  else
    let G := p.scale * Real.exp dsq
    (r.1 + G, r.2.1 + -G * (2 * p.i0 * dx + p.i1 * dy), r.2.2 + -G * (2 * p.i2 * dy + p.i1 * dx))

/-- `eval_all_dxy`, mix.i 44-82. -/
def evalDxy (maxD : Comp ℝ → ℝ) (m : Mix ℝ) (x y : ℝ) : ℝ × ℝ × ℝ :=
  m.foldl (fun r c => dxyTerm maxD c x y r) (0, 0, 0)

/-- `maxD[k]`, approx3.c 118-124. -/
def approxMaxD (minval : ℝ) (m : Mix ℝ) (c : Comp ℝ) : ℝ :=
  if minval > 0 then
    let d := Real.log (minval * Real.sqrt (tpd * (prep c).det) / (m.map (·.amp)).sum)
    if d < -100 then -100 else d
  else -100

/-- The value in a pixel evaluated by `c_gauss_2d_approx3`, approx3.c 196, 290, 343, 388, 420. -/
def approx3 (minval : ℝ) (m : Mix ℝ) (fx fy : ℝ) (x y : Int) : ℝ × ℝ × ℝ := evalDxy (approxMaxD minval m) m (x - fx) (y - fy)

/-- One component of `eval_all_dxy_f`, mix.i 95-140. -/
def dxyTermF (maxD : Comp ℝ → ℝ) (c : Comp ℝ) (x y : ℝ) (r : ℝ × ℝ × ℝ) : ℝ × ℝ × ℝ :=
  if (prep c).scale = 0 then r else dxyTerm maxD c x y r

/-- `evaluate_grid_masked(x0, y0, mask, fx, fy, derivs=True)` in one pixel: `c_gauss_2d_masked`, gauss_masked.c 58-143. -/
def masked (m : Mix ℝ) (mask : Int → Int → Bool) (fx fy : ℝ) (x y : Int) : ℝ × ℝ × ℝ :=
  if m.all (fun c => decide ((prep c).scale = 0)) then (0, 0, 0)
  else if !mask y x then (0, 0, 0)
  else m.foldl (fun r c => dxyTermF (fun _ => -30) c (x - fx) (y - fy) r) (0, 0, 0)

end

end Verif.Gauss
