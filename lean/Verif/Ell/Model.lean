import Verif.Py
import Mathlib.Analysis.SpecialFunctions.Log.Basic
import Mathlib.Analysis.SpecialFunctions.Complex.Arg

/-!
# Ellipses

tractor/ellipses.py `EllipseE`, `EllipseESoft` and tractor/galaxy.py `GalaxyShape`.

Numbers are reals; infinities, NaN and overflow are not represented.  Freezing and the other parameter-list methods are those
of `ParamList` (C01–C17).
-/

namespace Verif.Ell

open Verif

/-- `math.hypot`. -/
noncomputable def hypot (x y : ℝ) : ℝ := Real.sqrt (x ^ 2 + y ^ 2)

/-- `math.atan2(y, x)`. -/
noncomputable def atan2 (y x : ℝ) : ℝ := Complex.arg ⟨x, y⟩

/-- `math.radians`. -/
noncomputable def radians (x : ℝ) : ℝ := x * Real.pi / 180

/-- `math.degrees`. -/
noncomputable def degrees (x : ℝ) : ℝ := x * 180 / Real.pi

/-- `a / b` of Python floats. -/
noncomputable def pyDiv (a b : ℝ) : Except PyErr ℝ := if b = 0 then .error .zeroDiv else .ok (a / b)

/-- `math.log`. -/
noncomputable def pyLog (a : ℝ) : Except PyErr ℝ := if a ≤ 0 then .error .value else .ok (Real.log a)

/-- Parameters of an `EllipseE`, ellipses.py 35-40. -/
structure EllE where
  re : ℝ
  e1 : ℝ
  e2 : ℝ

/-- Parameters of an `EllipseESoft`, ellipses.py 185-190. -/
structure Soft where
  logre : ℝ
  ee1 : ℝ
  ee2 : ℝ

/-- A 2×2 matrix, by rows. -/
structure Mat where
  a : ℝ
  b : ℝ
  c : ℝ
  d : ℝ

/-- `np.dot(G, G.T)`. -/
def Mat.gram (G : Mat) : Mat := ⟨G.a * G.a + G.b * G.b, G.a * G.c + G.b * G.d, G.c * G.a + G.d * G.b, G.c * G.c + G.d * G.d⟩

/-- `G * k`. -/
def Mat.smul (k : ℝ) (G : Mat) : Mat := ⟨k * G.a, k * G.b, k * G.c, k * G.d⟩

/-- `EllipseE.e`, ellipses.py 76-78. -/
noncomputable def EllE.e (E : EllE) : ℝ := hypot E.e1 E.e2

/-- `EllipseE.theta`, ellipses.py 80-85. -/
noncomputable def EllE.theta (E : EllE) : ℝ := atan2 E.e2 E.e1 / 2

/-- `ab`, ellipses.py 87-93, for either class (`e` is the property of the class). -/
noncomputable def abOf (e : ℝ) : ℝ := (1 - e) / (1 + e)

/-- `EllipseE.ab`. -/
noncomputable def EllE.ab (E : EllE) : ℝ := abOf E.e

/-- `EllipseE.isLegal`, ellipses.py 109-110. -/
def EllE.isLegal (E : EllE) : Prop := E.e1 ^ 2 + E.e2 ^ 2 < 1 ∧ E.re ≥ 0

/-- `EllipseE.getAllStepSizes`, ellipses.py 101-107. -/
noncomputable def EllE.steps (E : EllE) : List ℝ :=
  [1 / 100, if E.e1 ≤ 0 then 1 / 100 else -(1 / 100), if E.e2 ≤ 0 then 1 / 100 else -(1 / 100)]

/-- `EllipseE.getStepSizes` with nothing frozen: the constructor sets the attribute `stepsizes` (ellipses.py 44), which
`ParamList.getStepSizes` (utils.py 428-432) prefers to `getAllStepSizes`. -/
noncomputable def EllE.stepSizes (_ : EllE) : List ℝ := List.replicate 3 (1 / 100)

/-- `EllipseE.fromRAbPhi(r, ba, phi)`, ellipses.py 59-66. -/
noncomputable def fromRAbPhi (r ba phi : ℝ) : Except PyErr EllE := do
  let ab ← pyDiv 1 ba
  let e ← pyDiv (ab - 1) (ab + 1)
  let angle := radians (2 * (-phi))
  .ok ⟨r, e * Real.cos angle, e * Real.sin angle⟩

/-- `getRaDecBasis`, ellipses.py 126-155, given `re`, `e`, `theta` of the class. -/
noncomputable def basis (re e theta : ℝ) : Mat :=
  let ct := Real.cos theta
  let st := Real.sin theta
  let ab := if e ≥ 1 then 1000 else min 1000 ((1 + e) / (1 - e))
  Mat.smul (re / 3600) ⟨ct / ab, st, -st / ab, ct⟩

/-- `getCovariance`, ellipses.py 115-124. -/
noncomputable def covOf (re e theta : ℝ) : Mat := (Mat.smul 3600 (basis re e theta)).gram

/-- `EllipseE.getRaDecBasis`. -/
noncomputable def EllE.basis (E : EllE) : Mat := Ell.basis E.re E.e E.theta

/-- `EllipseE.getCovariance`. -/
noncomputable def EllE.cov (E : EllE) : Mat := covOf E.re E.e E.theta

/-- `EllipseE.fromCovariance(cov)`, ellipses.py 68-74, given what `np.linalg.svd` returned: `u` and the singular values.
A zero singular value `s0` (NaN in Python) is not represented. -/
noncomputable def fromSvd (u : Mat) (s0 s1 : ℝ) : Except PyErr EllE :=
  let r := Real.sqrt s0
  let ab := Real.sqrt (s1 / s0)
  let theta := degrees (atan2 u.a u.b)
  fromRAbPhi r ab (-theta)

/-- `EllipseESoft.re`, ellipses.py 231-233. -/
noncomputable def Soft.re (S : Soft) : ℝ := Real.exp S.logre

/-- `EllipseESoft.softe`, ellipses.py 243-248. -/
noncomputable def Soft.softe (S : Soft) : ℝ := hypot S.ee1 S.ee2

/-- `EllipseESoft.e`, ellipses.py 235-241. -/
noncomputable def Soft.e (S : Soft) : ℝ := 1 - Real.exp (-(hypot S.ee1 S.ee2))

/-- `EllipseESoft.theta`, ellipses.py 250-255. -/
noncomputable def Soft.theta (S : Soft) : ℝ := atan2 S.ee2 S.ee1 / 2

/-- The attributes of an `EllipseESoft` `getAllStepSizes` (ellipses.py 101-107, inherited) asks for: there are properties
`logre`, `ee1`, `ee2` (the parameters), `re`, `e`, `softe`, `theta`, `ab`, and if an `EllipseE` has been created before
(`other`), class properties `e1`, `e2` of `EllipseE` which look for a parameter of that name (utils.py 470-499, 510-511). -/
noncomputable def Soft.attr (S : Soft) (other : Bool) (n : String) : Except PyErr ℝ :=
  if n = "logre" then .ok S.logre else if n = "ee1" then .ok S.ee1 else if n = "ee2" then .ok S.ee2
  else if n = "re" then .ok S.re else if n = "e" then .ok S.e else if n = "softe" then .ok S.softe
  else if n = "theta" then .ok S.theta
  else if other && (n == "e1" || n == "e2") then .error .key
  else .error .attribute

/-- `EllipseESoft.getAllStepSizes`, inherited from `EllipseE`, ellipses.py 101-107. -/
noncomputable def Soft.steps (S : Soft) (other : Bool) : Except PyErr (List ℝ) := do
  let e1 ← S.attr other "e1"
  let e2 ← S.attr other "e2"
  .ok [1 / 100, if e1 ≤ 0 then 1 / 100 else -(1 / 100), if e2 ≤ 0 then 1 / 100 else -(1 / 100)]

/-- `EllipseESoft.ab`, inherited. -/
noncomputable def Soft.ab (S : Soft) : ℝ := abOf S.e

/-- `EllipseESoft.getRaDecBasis`, inherited. -/
noncomputable def Soft.basis (S : Soft) : Mat := Ell.basis S.re S.e S.theta

/-- `EllipseESoft.getCovariance`, inherited. -/
noncomputable def Soft.cov (S : Soft) : Mat := covOf S.re S.e S.theta

/-- `EllipseE.fromEllipseESoft(esoft, maxe)`, ellipses.py 50-57; also `EllipseESoft.toEllipseE`, 262-263. -/
noncomputable def Soft.toE (S : Soft) (maxe : ℝ) : EllE :=
  let e := min maxe S.e
  ⟨S.re, e * Real.cos (2 * S.theta), e * Real.sin (2 * S.theta)⟩

/-- `EllipseESoft.fromEllipseE(ell, maxe)`, ellipses.py 199-204. -/
noncomputable def EllE.toSoft (E : EllE) (maxe : ℝ) : Except PyErr Soft := do
  let e := min E.e maxe
  let l ← pyLog (1 - e)
  let esoft := -l
  let logre ← pyLog E.re
  let c ← pyDiv E.e1 e
  let s ← pyDiv E.e2 e
  .ok ⟨logre, c * esoft, s * esoft⟩

/-- `EllipseESoft.rAbPhiToESoft` and `fromRAbPhi`, ellipses.py 210-223. -/
noncomputable def softFromRAbPhi (r ba phi : ℝ) : Except PyErr Soft := do
  let ab ← pyDiv 1 ba
  let e ← pyDiv (ab - 1) (ab + 1)
  let l ← pyLog (1 - e)
  let ee := -l
  let angle := radians (2 * (-phi))
  let logr ← pyLog r
  .ok ⟨logr, ee * Real.cos angle, ee * Real.sin angle⟩

/-- `GalaxyShape.getRaDecBasis`, galaxy.py 73-89. -/
noncomputable def shapeBasis (re ab phi : ℝ) : Mat :=
  let phi := radians (90 - phi)
  let reDeg := max (1 / 30) re / 3600
  let cp := Real.cos phi
  let sp := Real.sin phi
  Mat.smul reDeg ⟨cp, sp * ab, -sp, cp * ab⟩

end Verif.Ell
