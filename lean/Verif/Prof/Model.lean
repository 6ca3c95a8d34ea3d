import Verif.Mog.Model
import Mathlib.Data.Rat.Cast.Defs
import Mathlib.Algebra.Field.Rat
import Mathlib.Analysis.SpecialFunctions.Pow.Real

/-!
# Profiles of galaxies

tractor/mixture_profiles.py 16-46 (the mixtures of Gaussians), tractor/galaxy.py 711-766 (the profiles of the classes), tractor/galaxy_profiles.py
(the profiles of photo that they approximate).  Numbers are those written in the source, not their nearest floats.
-/

namespace Verif.Prof

open Verif.Mog

/-! ### Mixtures -/

/-- `exp_amp`, mixture_profiles.py 19-20. -/
def expAmp : List ℚ := [234853813 / 100000000000, 15399763 / 500000000, 111682107 / 500000000, 58974551 / 50000000, 347099 / 80000, 59982077 / 10000000]

/-- `exp_var`, mixture_profiles.py 21-22. -/
def expVar : List ℚ := [24015793 / 20000000000, 884526493 / 100000000000, 97865771 / 2500000000, 139976817 / 1000000000, 36877 / 80000, 75079783 / 50000000]

/-- `dev_amp`, mixture_profiles.py 26-27. -/
def devAmp : List ℚ := [106586913 / 2500000000, 240127183 / 1000000000, 42869227 / 62500000, 3038747 / 2000000, 283627243 / 100000000, 446467501 / 100000000, 57244083 / 10000000, 560989349 / 100000000]

/-- `dev_var`, mixture_profiles.py 28-29. -/
def devVar : List ℚ := [13984951 / 62500000000, 100220099 / 100000000000, 209365563 / 50000000000, 169432589 / 10000000000, 684850479 / 10000000000, 7180177 / 25000000, 66660127 / 50000000, 840215071 / 100000000]

/-- `dev_core`, mixture_profiles.py 33. -/
def devCore : ℚ := 10233 / 1000000

/-- `MixtureOfGaussians(amp, np.zeros((amp.size, 2)), var)` for one variance per component, mixture_profiles.py 50-66, 76-91. -/
def circular (amp var : List ℚ) : Mix ℚ := symmetrize (List.zipWith (fun a v => ⟨a, 0, 0, v, 0, 0, v⟩) amp var)

/-- `get_exp_mixture()`, mixture_profiles.py 23, 41-42: `exp_amp /= np.sum(exp_amp)` at import. -/
def getExpMixture : Mix ℚ := circular (expAmp.map (· / expAmp.sum)) expVar

/-- `get_dev_mixture()`, mixture_profiles.py 34-37, 44-45: amplitudes scaled and the core put in front, at import. -/
def getDevMixture : Mix ℚ := circular (devCore :: devAmp.map (· * ((1 - devCore) / devAmp.sum))) (0 :: devVar)

/-- The classes of galaxies with a fixed profile. -/
inductive Kind
  | gauss
  | exp
  | dev
  deriving DecidableEq

/-- `getProfile()`: the class attribute `profile` after `profile.normalize()`, galaxy.py 711-766. -/
def profile : Kind → Mix ℚ
  | .gauss => normalize (symmetrize [⟨1, 0, 0, 1, 0, 0, 1⟩])
  | .exp => normalize getExpMixture
  | .dev => normalize getDevMixture

/-- `nre`: the radius up to which galaxies are rendered (`getRadius`, galaxy.py 645-646), in effective radii. -/
def nre : Kind → ℚ
  | .gauss => 6
  | .exp => 4
  | .dev => 8

/-! ### The profiles of photo -/

noncomputable section

/-- `dev_nc(r)`, galaxy_profiles.py 25-28. -/
def devNc (r : ℝ) : ℝ := 512 * Real.exp (-7.66925 * ((r * r + 0.0004) ^ (0.125 : ℝ) - 1))

/-- `exp_nc(r)`, galaxy_profiles.py 60-64. -/
def expNc (r : ℝ) : ℝ := 2048 * Real.exp (-1.67835 * (r - 1))

/-- `p[mask] = f(p, rr)` at the elements where the mask is set. -/
def assign (mask : ℝ → Prop) [DecidablePred mask] (f : ℝ → ℝ → ℝ) (rr p : List ℝ) : List ℝ :=
  List.zipWith (fun r v => if mask r then f v r else v) rr p

/-- The common body: the profile, the taper between `cut` and `out`, and zero beyond, galaxy_profiles.py 30-33 and 68-71. -/
def body (nc : ℝ → ℝ) (cut out : ℝ) (rr : List ℝ) : List ℝ :=
  let p := rr.map nc
  let p := assign (· > cut) (fun v r => v * (1 - ((r - cut) / (out - cut)) ^ 2) ^ 2) rr p
  assign (· > out) (fun _ _ => 0) rr p

/-- `profile_dev(r)` for an array, galaxy_profiles.py 8-36. -/
def profileDev (rr : List ℝ) : List ℝ := body devNc (7 * 8 / 8) 8 rr

/-- `profile_exp(r)` for an array, galaxy_profiles.py 42-74. -/
def profileExp (rr : List ℝ) : List ℝ := body expNc (3 * 4 / 4) 4 rr

/-- For a number: `p[0]`. -/
def scalar (f : List ℝ → List ℝ) (r : ℝ) : Option ℝ := (f [r])[0]?

end

end Verif.Prof
