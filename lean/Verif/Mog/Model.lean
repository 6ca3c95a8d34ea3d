import Verif.Py
import Verif.Params.Model
import Mathlib.Algebra.Field.Basic
import Mathlib.Algebra.Algebra.Defs

/-!
# Mixtures of Gaussians and their parameters

tractor/mixture_profiles.py `MixtureOfGaussians` (two dimensions), tractor/utils.py `MogParams`, tractor/psf.py
`GaussianMixturePSF`, `GaussianMixtureEllipsePSF`, `NCircularGaussianPSF`.

The arrays `amp` (K), `mean` (K, 2) and `var` (K, 2, 2) are represented by one list of `K` components.  (The
constructor does not compare their lengths; arrays of different lengths are not represented.)  Setting an entry of the
view `mean.ravel()` sets the entry of `mean`, because the constructor makes `mean` a contiguous array.
-/

namespace Verif.Mog

variable {R : Type}

/-- One Gaussian: `amp[k]`, `mean[k, :]`, `var[k, :, :]`. -/
structure Comp (R : Type) where
  amp : R
  mx : R
  my : R
  vxx : R
  vxy : R
  vyx : R
  vyy : R
  deriving DecidableEq, Repr

/-- A mixture. -/
abbrev Mix (R : Type) := List (Comp R)

/-! ### `MogParams` -/

/-- `symmetrize`, mixture_profiles.py 86-91, for `D = 2`. -/
def symmetrize [Field R] (m : Mix R) : Mix R :=
  m.map (fun c => { c with vxy := (1 / 2) * (c.vyx + c.vxy), vyx := (1 / 2) * (c.vyx + c.vxy) })

/-- `MogParams._getThings`, utils.py 1366-1370. -/
def getThings (m : Mix R) : List R :=
  m.map (·.amp) ++ m.flatMap (fun c => [c.mx, c.my]) ++ m.flatMap (fun c => [c.vxx, c.vyy, c.vxy])

/-- `MogParams._setThing(i, p)`, utils.py 1385-1406: the mixture left behind and the old value.  `mean.ravel()[i]` is
`mean[i // 2, i % 2]`. -/
def setThing (m : Mix R) (i : Nat) (p : R) : Mix R × Except PyErr R :=
  let K := m.length
  if i < K then
    match m[i]? with
    | none => (m, .error .index)
    | some c => (m.set i { c with amp := p }, .ok c.amp)
  else
    let i := i - K
    if i < K * 2 then
      match m[i / 2]? with
      | none => (m, .error .index)
      | some c =>
        if i % 2 = 0 then (m.set (i / 2) { c with mx := p }, .ok c.mx)
        else (m.set (i / 2) { c with my := p }, .ok c.my)
    else
      let i := i - K * 2
      let j := i / 3
      let k := i % 3
      match m[j]? with
      | none => (m, .error .index)
      | some c =>
        if k = 0 then (m.set j { c with vxx := p }, .ok c.vxx)
        else if k = 1 then (m.set j { c with vyy := p }, .ok c.vyy)
        else (m.set j { c with vxy := p, vyx := p }, .ok c.vxy)

/-- `l[0::3]`, `l[1::3]`, `l[2::3]` zipped: the triples of a list. -/
def triples : List R → List (R × R × R)
  | a :: b :: c :: l => (a, b, c) :: triples l
  | _ => []

/-- `reshape((K, 2))`: the pairs of a list. -/
def pairs : List R → List (R × R)
  | a :: b :: l => (a, b) :: pairs l
  | _ => []

/-- Components from amplitudes, means and (xx, yy, xy) variances. -/
def build : List R → List (R × R) → List (R × R × R) → Mix R
  | a :: as, m :: ms, v :: vs => ⟨a, m.1, m.2, v.1, v.2.2, v.2.2, v.2.1⟩ :: build as ms vs
  | _, _, _ => []

/-- `MogParams(*args)` with `6 K` numbers, utils.py 1316-1330, and the symmetrization in the mixture's constructor.
Three arguments (amplitudes, means and variances as arrays) are the other form of the call and are not represented. -/
def ofArgs [Field R] (args : List R) : Except PyErr (Mix R) :=
  if args.length % 6 = 0 then
    let K := args.length / 6
    .ok (symmetrize (build (args.take K) (pairs (pySlice args K (3 * K - K))) (triples (args.drop (3 * K)))))
  else .error .assertion

/-- The name dictionary, `_set_param_names`, utils.py 1346-1360, in the order of insertion. -/
def names (K : Nat) : List (String × Nat) :=
  (List.range K).flatMap (fun k =>
    [("amp" ++ k.repr, k), ("meanx" ++ k.repr, K + k * 2), ("meany" ++ k.repr, K + k * 2 + 1),
     ("varxx" ++ k.repr, K * 3 + k * 3), ("varyy" ++ k.repr, K * 3 + k * 3 + 1),
     ("varxy" ++ k.repr, K * 3 + k * 3 + 2)])

/-- `self.namedparams[name]`: the last value stored under the name. -/
def namedIndex (d : List (String × Nat)) (n : String) : Except PyErr Nat :=
  match d.reverse.find? (fun e => e.1 == n) with
  | none => .error .key
  | some e => .ok e.2

/-- Reading the attribute `name`, utils.py 505-508 with `_getThing`, 1372-1373. -/
def getNamed (m : Mix R) (n : String) : Except PyErr R :=
  match namedIndex (names m.length) n with
  | .error e => .error e
  | .ok i => match (getThings m)[i]? with
    | none => .error .index
    | some v => .ok v

/-- Assigning the attribute `name`, utils.py 510-511. -/
def setNamed (m : Mix R) (n : String) (v : R) : Mix R × Option PyErr :=
  match namedIndex (names m.length) n with
  | .error e => (m, some e)
  | .ok i => let r := setThing m i v; (r.1, match r.2 with | .error e => some e | .ok _ => none)

/-- A `MogParams` object (or `GaussianMixturePSF`): mixture and `liquid`. -/
structure MogParams (R : Type) where
  mog : Mix R
  liquid : List Bool
  deriving DecidableEq, Repr

/-- `MogParams(...)`, utils.py 1329-1336: everything thawed. -/
def fresh (m : Mix R) : MogParams R := ⟨m, List.replicate (m.length * (1 + 2 + 3)) true⟩

/-- `getParams`, utils.py 782-786. -/
def MogParams.getParams (m : MogParams R) : List R := Params.liquidArray m.liquid (getThings m.mog)

/-- `getAllParams`, utils.py 788-789. -/
def MogParams.getAllParams (m : MogParams R) : List R := getThings m.mog

/-- `setParam(i, v)`, utils.py 769-773. -/
def MogParams.setParam (m : MogParams R) (i : Int) (v : R) : MogParams R × Except PyErr R :=
  match Params.indexLiquid m.liquid i with
  | .error e => (m, .error e)
  | .ok ii =>
    match (getThings m.mog)[ii]? with
    | none => (m, .error .index)
    | some old =>
      let r := setThing m.mog ii v
      ({ m with mog := r.1 }, match r.2 with | .error e => .error e | .ok _ => .ok old)

/-- The loop of `setParams`, utils.py 775-777, over `_indexBoth` (701-707): `j` is the raw index, `fs` the flags from `j`
on, `p` the values not yet used. -/
def setLiquid (m : Mix R) : Nat → List Bool → List R → Mix R × Option PyErr
  | _, [], _ => (m, none)
  | j, false :: fs, p => setLiquid m (j + 1) fs p
  | _, true :: _, [] => (m, some .index)
  | j, true :: fs, v :: p =>
    match setThing m j v with
    | (m', .error e) => (m', some e)
    | (m', .ok _) => setLiquid m' (j + 1) fs p

/-- `setParams(p)`. -/
def MogParams.setParams (m : MogParams R) (p : List R) : MogParams R × Option PyErr :=
  let r := setLiquid m.mog 0 m.liquid p
  ({ m with mog := r.1 }, r.2)

/-- The loop of `setAllParams`, utils.py 795-797. -/
def setAll (m : Mix R) : Nat → List R → Mix R × Option PyErr
  | _, [] => (m, none)
  | j, v :: p =>
    match setThing m j v with
    | (m', .error e) => (m', some e)
    | (m', .ok _) => setAll m' (j + 1) p

/-- `setAllParams(p)`. -/
def MogParams.setAllParams (m : MogParams R) (p : List R) : MogParams R × Option PyErr :=
  let r := setAll m.mog 0 p
  ({ m with mog := r.1 }, r.2)

/-- `copy()`, utils.py 206-207, 722-725: the constructor is called with `getAllParams()`, then the flags are copied. -/
def MogParams.copy [Field R] (m : MogParams R) : Except PyErr (MogParams R) :=
  match ofArgs m.getAllParams with
  | .error e => .error e
  | .ok g => .ok ⟨g, m.liquid⟩

/-! ### `GaussianMixtureEllipsePSF` -/

/-- The object: mixture and the parameters (logr, ee1, ee2) of the ellipses, psf.py 683. -/
structure EllMix (R : Type) where
  mog : Mix R
  ells : List (R × R × R)
  deriving DecidableEq, Repr

/-- `_getThings`, psf.py 732-736. -/
def EllMix.getThings (m : EllMix R) : List R :=
  m.mog.map (·.amp) ++ m.mog.flatMap (fun c => [c.mx, c.my]) ++ m.ells.flatMap (fun e => [e.1, e.2.1, e.2.2])

/-- The mixture with amplitudes, means and the covariances (xx, xy, yx, yy) of the ellipses. -/
def buildEll (cov : R × R × R → R × R × R × R) : List R → List (R × R) → List (R × R × R) → Mix R
  | a :: as, m :: ms, e :: es =>
    ⟨a, m.1, m.2, (cov e).1, (cov e).2.1, (cov e).2.2.1, (cov e).2.2.2⟩ :: buildEll cov as ms es
  | _, _, _ => []

/-- `_setThings(p)` for a list of the right length, psf.py 738-747; `cov` is `ellipseToVariance`. -/
def EllMix.setThings (cov : R × R × R → R × R × R × R) (m : EllMix R) (p : List R) : EllMix R :=
  let K := m.mog.length
  let es := triples (p.drop (3 * K))
  ⟨buildEll cov (p.take K) (pairs (pySlice p K (K * 2))) es, es⟩

/-- `_setThing(i, p)`, psf.py 749-755. -/
def EllMix.setThing (cov : R × R × R → R × R × R × R) (m : EllMix R) (i : Nat) (p : R) : EllMix R × Except PyErr R :=
  let things := m.getThings
  match things[i]? with
  | none => (m, .error .index)
  | some old => (m.setThings cov (things.set i p), .ok old)

/-- The constructor, psf.py 675-684. -/
def mkEll [Field R] (cov : R × R × R → R × R × R × R) (amps : List R) (means : List (R × R)) (ells : List (R × R × R)) :
    EllMix R :=
  ⟨symmetrize (buildEll cov amps means ells), ells⟩

/-! ### Mixtures -/

/-- A 2 by 2 matrix `[[xx, xy], [yx, yy]]`. -/
structure Mat (R : Type) where
  xx : R
  xy : R
  yx : R
  yy : R
  deriving DecidableEq, Repr

/-- `np.sum(self.amp)`. -/
def total [CommRing R] (m : Mix R) : R := (m.map (·.amp)).sum

/-- `normalize()`, mixture_profiles.py 105-106. -/
def normalize [Field R] (m : Mix R) : Mix R := m.map (fun c => { c with amp := c.amp / total m })

/-- `extend(other)`, mixture_profiles.py 108-116. -/
def extend (a b : Mix R) : Mix R := a ++ b

/-- `a + b`, mixture_profiles.py 118-130. -/
def add [Field R] (a b : Mix R) : Mix R := normalize (a ++ b)

/-- `scale @ var @ scale.T` for one component. -/
def sandwich [CommRing R] (s : Mat R) (c : Comp R) : Comp R :=
  let a := s.xx * c.vxx + s.xy * c.vyx
  let b := s.xx * c.vxy + s.xy * c.vyy
  let d := s.yx * c.vxx + s.yy * c.vyx
  let e := s.yx * c.vxy + s.yy * c.vyy
  { c with vxx := a * s.xx + b * s.xy, vxy := a * s.yx + b * s.yy,
           vyx := d * s.xx + e * s.xy, vyy := d * s.yx + e * s.yy }

/-- `apply_affine(shift, scale)`, mixture_profiles.py 132-145. -/
def applyAffine [CommRing R] (m : Mix R) (shift : R × R) (s : Mat R) : Mix R :=
  m.map (fun c => { sandwich s c with mx := c.mx + shift.1, my := c.my + shift.2 })

/-- `apply_shear(scale)`, mixture_profiles.py 147-156. -/
def applyShear [CommRing R] (m : Mix R) (s : Mat R) : Mix R := m.map (sandwich s)

/-- One pass of the loop of `convolve`: `self` against one component of `other`. -/
def convolveOne [CommRing R] (m : Mix R) (b : Comp R) : Mix R :=
  m.map (fun a => ⟨a.amp * b.amp, a.mx + b.mx, a.my + b.my, a.vxx + b.vxx, a.vxy + b.vxy, a.vyx + b.vyx, a.vyy + b.vyy⟩)

/-- `convolve(other)`, mixture_profiles.py 159-172. -/
def convolve [CommRing R] (a b : Mix R) : Mix R := b.flatMap (convolveOne a)

/-- Complex numbers and the exponential, as used by `getFourierTransform`: `C` is an algebra over the numbers. -/
structure Exp (R C : Type) where
  exp : C → C
  I : C
  pi : R

section
variable {C : Type} [CommRing R] [CommRing C] [Algebra R C] [DecidableEq R]

/-- One term `F` at the frequency `(v, w)`, mixture_profiles.py 199-211. -/
def fourierTerm (E : Exp R C) (c : Comp R) (v w : R) : C :=
  let F := E.exp (algebraMap R C (-2 * E.pi ^ 2 * (c.vxx * v ^ 2 + c.vyy * w ^ 2 + 2 * c.vxy * v * w)))
  if c.mx ≠ 0 ∨ c.my ≠ 0 then
    F * E.exp (algebraMap R C (-2 * E.pi) * E.I * algebraMap R C (c.mx * v + c.my * w))
  else F

/-- The loop of `getFourierTransform` in Python, mixture_profiles.py 195-216, at one frequency; None if there is no component. -/
def fourierPy (E : Exp R C) (m : Mix R) (v w : R) : Option C :=
  m.foldl (fun s c => match s with
    | none => some (algebraMap R C c.amp * fourierTerm E c v w)
    | some s => some (s + algebraMap R C c.amp * fourierTerm E c v w)) none

/-- `gaussian_fourier_transform_zero_mean`, mp_fourier.i 431-478, at one frequency. -/
def fourierC (E : Exp R C) (m : Mix R) (v w : R) : C :=
  m.foldl (fun s c =>
    if c.vxx = 0 ∧ c.vxy = 0 ∧ c.vyy = 0 then s + algebraMap R C c.amp
    else s + algebraMap R C c.amp *
      E.exp (algebraMap R C (-2 * E.pi * E.pi * (c.vxx * (v * v) + 2 * c.vxy * v * w + c.vyy * (w * w))))) 0

/-- `getFourierTransform(v, w, use_mp_fourier, zero_mean)`, mixture_profiles.py 174-216, at one frequency; `have_mp`: the C
module could be imported. -/
def fourier (E : Exp R C) (have_mp use_mp zero_mean : Bool) (m : Mix R) (v w : R) : Option C :=
  if have_mp && use_mp && zero_mean then some (fourierC E m v w) else fourierPy E m v w

end

/-! ### `NCircularGaussianPSF` -/

/-- The object: two `ParamList`s as (value, thawed) pairs, psf.py 805-830. -/
structure NCirc (R : Type) where
  sigmas : List (R × Bool)
  weights : List (R × Bool)
  deriving DecidableEq, Repr

/-- The constructor, psf.py 820-826. -/
def mkNCirc (sigmas weights : List R) : Except PyErr (NCirc R) :=
  if sigmas.length = weights.length then .ok ⟨sigmas.map (·, true), weights.map (·, true)⟩ else .error .assertion

/-- Iterating over a `ParamList` gives the thawed values, utils.py 811-836. -/
def thawed (l : List (R × Bool)) : List R := (l.filter (·.2)).map (·.1)

/-- `scale(factor)`, psf.py 859-862. -/
def NCirc.scale [CommRing R] (p : NCirc R) (f : R) : Except PyErr (NCirc R) :=
  mkNCirc (p.sigmas.map (fun s => s.1 * f)) (p.weights.map (·.1))

/-- `copy()`, psf.py 873-875. -/
def NCirc.copy (p : NCirc R) : Except PyErr (NCirc R) := mkNCirc (thawed p.sigmas) (thawed p.weights)

/-- `getMixtureOfGaussians()`, psf.py 864-867 with `getCircularMog` 931-938.  (The zero-filled arrays are indexed by the
position of the weight; `sigmas[k]` beyond the end raises IndexError, which the constructor excludes.) -/
def NCirc.mog [CommRing R] (p : NCirc R) : Mix R :=
  List.zipWith (fun w s => ⟨w, 0, 0, s ^ 2, 0, 0, s ^ 2⟩) (p.weights.map (·.1)) (p.sigmas.map (·.1))

/-- `hashkey()`, psf.py 869-871: the values as iterated. -/
def NCirc.hashkey (p : NCirc R) : List R × List R := (thawed p.sigmas, thawed p.weights)

end Verif.Mog
