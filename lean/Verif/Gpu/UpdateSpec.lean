import Verif.Gpu.Update
import Verif.Gpu.TrySpec
import Verif.Gpu.ProfSpec
import Verif.Lsq.SmarterSpec

/-!
# What the update direction of the GPU optimizer should be

In image coordinates and in terms of the parameters of the tractor: position, fluxes, shape, surface brightnesses.
-/

namespace Verif.Gpu

open Verif Verif.Psf Verif.Params Verif.Lsq Verif.Mog

variable {R : Type} [Field R] [LinearOrder R]

/-- The model of the source now; `U tim 0` is its unit-flux model. -/
def modelNow (job : UpJob R) (U : Tim R → Nat → Int → Int → R) (tim : Tim R) (x y : Int) : R :=
  match job.src with
  | some s => s.cnt tim * U tim 0 x y
  | none => 0

/-- The surface brightness now, in counts per pixel. -/
def glowNow (job : UpJob R) (tim : Tim R) : R :=
  match job.sb with
  | some g => g.cnt tim * g.scale tim ^ 2
  | none => 0

/-- Derivatives by the parameters of the source: coordinates of the position (central differences of the pixels, with the
matrix that converts the coordinates to pixels), fluxes in its bands, shape parameters (difference quotients between the
unit-flux models).  `cal tim` is the number of counts for a flux of 1. -/
def starSlopes (band : Tim R → String) (cal : Tim R → R) (U : Tim R → Nat → Int → Int → R) (s : Star R) :
    List (Tim R → Int → Int → R) :=
  (List.range s.npos).map (fun j tim x y => s.cnt tim *
    ((U tim 0 (x - 1) y - U tim 0 (x + 1) y) / 2 * s.cdi tim 0 j + (U tim 0 x (y - 1) - U tim 0 x (y + 1)) / 2 * s.cdi tim 1 j)) ++
  s.bands.map (fun b tim x y => if band tim = b then cal tim * U tim 0 x y else 0) ++
  (List.range s.nshapes).map (fun j tim x y => s.cnt tim * ((U tim (j + 1) x y - U tim 0 x y) / s.step tim j))

/-- Derivatives by the surface brightnesses. -/
def glowSlopes (band : Tim R → String) (cal : Tim R → R) (g : Glow R) : List (Tim R → Int → Int → R) :=
  g.bands.map (fun b tim _ _ => if band tim = b then cal tim * g.scale tim ^ 2 else 0)

/-- Derivatives of the model by all parameters of the tractor, in their order. -/
def slopes (job : UpJob R) (cal : Tim R → R) (U : Tim R → Nat → Int → Int → R) : List (Tim R → Int → Int → R) :=
  (match job.src with | some s => starSlopes job.band cal U s | none => []) ++
    (match job.sb with | some g => glowSlopes job.band cal g | none => [])

/-- Change of the model, to first order, for a change `Y` of the parameters. -/
def firstOrder (ds : List (Tim R → Int → Int → R)) (Y : List R) (tim : Tim R) (x y : Int) : R :=
  (List.zipWith (fun d v => d tim x y * v) ds Y).sum

/-- Chi-squared of the masked pixels, to first order, after a change `Y` of the parameters, plus the linear form of the
priors. -/
def gpuLinear (job : UpJob R) (cal : Tim R → R) (U : Tim R → Nat → Int → Int → R) (Y : List R) : R :=
  chiSq job.tims (fun tim x y => modelNow job U tim x y + firstOrder (slopes job cal U) Y tim x y) (glowNow job) +
    linearChi job.prior Y

/-- The parameters of the tractor are those the code expects: a source or a surface brightness; a position of two
coordinates or a frozen one; all fluxes and shape parameters thawed; different bands, among them those of all images. -/
structure Expected (job : UpJob R) : Prop where
  some : job.src.isSome ∨ job.sb.isSome
  npos : ∀ s, job.src = Option.some s → s.npos = 0 ∨ s.npos = 2
  nparams : ∀ s, job.src = Option.some s → s.nparams = s.npos + s.bands.length + s.nshapes
  bands : ∀ s, job.src = Option.some s → s.bands.Nodup ∧ ∀ tim ∈ job.tims, job.band tim ∈ s.bands
  sbBands : ∀ g, job.sb = Option.some g → g.bands.Nodup ∧ ∀ tim ∈ job.tims, job.band tim ∈ g.bands
  steps : ∀ s, job.src = Option.some s → ∀ tim ∈ job.tims, ∀ j < s.nshapes, s.step tim j ≠ 0

/-- Parameter `j` is the flux or surface brightness in a band for which there is no image. -/
def Unseen (job : UpJob R) (j : Nat) : Prop :=
  (∃ s i b, job.src = some s ∧ s.bands[i]? = some b ∧ j = s.npos + i ∧ ∀ tim ∈ job.tims, job.band tim ≠ b) ∨
  (∃ g i b, job.sb = some g ∧ g.bands[i]? = some b ∧ j = (match job.src with | some s => s.nparams | none => 0) + i ∧
    ∀ tim ∈ job.tims, job.band tim ≠ b)

/-- Parameter `j` changes the model in no pixel of non-zero weight. -/
def NoEffect (job : UpJob R) (cal : Tim R → R) (U : Tim R → Nat → Int → Int → R) (j : Nat) : Prop :=
  ∀ d, (slopes job cal U)[j]? = some d → ∀ tim ∈ job.tims, ∀ x y : Int, InMask tim x y →
    tim.ie.px y.toNat x.toNat ≠ 0 → d tim x y = 0

/-- The pixel or a neighbour lies in the mask. -/
def NearMask (tim : Tim R) (x y : Int) : Prop := ∃ x' y' : Int, InMask tim x' y' ∧ |x - x'| ≤ 1 ∧ |y - y'| ≤ 1

/-- Number of parameters of the tractor. -/
def paramCount (job : UpJob R) : Nat :=
  (match job.src with | some s => s.nparams | none => 0) + (match job.sb with | some g => g.bands.length | none => 0)

/-- What the update should be: a change of all parameters that minimises the linearised chi-squared, zero for parameters
without effect and without prior; `None` only if there is nothing but such parameters. -/
def RightUpdate (job : UpJob R) (cal : Tim R → R) (U : Tim R → Nat → Int → Int → R) (es : List (Entry R))
    (r : Except PyErr (Option (UpOut R))) : Prop :=
  (r = .ok none ∧ es = [] ∧ ∀ j < paramCount job, NoEffect job cal U j) ∨
  ∃ X, r = .ok (some (.direction X)) ∧ Minimises (paramCount job) (gpuLinear job cal U) X ∧
    ∀ j < paramCount job, NoEffect job cal U j → (∀ e ∈ es, e.col ≠ j) → X[j]? = some 0

/-- The model of unit flux for profile `k` of a galaxy in the pixel in column `x`, row `y`: the convolved profile on an
array of size `sz` whose centre is the pixel nearest to the galaxy, moved by the rest of its position; nothing outside the
array. -/
def unitGalaxy (rnd : R → Int) (lib : Nat → Lib R) (lz : R → R) (psf : Nat → Tim R → ImPsf R)
    (profs : Tim R → List (Mix R)) (pos : Tim R → R × R) (sz : Nat) (tim : Tim R) (k : Nat) (x y : Int) : R :=
  ext ⟨sz, sz, fun r c => shiftedImage (kernPy lz) (profileOf (lib sz) sz (psf sz tim) ((profs tim).getD k []))
      ((pos tim).1 - rnd (pos tim).1) ((pos tim).2 - rnd (pos tim).2) r c⟩
    (y - rnd (pos tim).2 + (sz / 2 : Nat)) (x - rnd (pos tim).1 + (sz / 2 : Nat))

/-- PSFs and profiles of a galaxy in the images: that of the galaxy and one for each shape parameter. -/
structure GoodProfiles (lib : Nat → Lib R) (psf : Nat → Tim R → ImPsf R) (profs : Tim R → List (Mix R)) (nshapes : Nat)
    (tims : List (Tim R)) : Prop where
  sqrt : ∀ sz x, 0 ≤ x → 0 ≤ (lib sz).sqrt x ∧ (lib sz).sqrt x ^ 2 = x
  count : ∀ tim ∈ tims, (profs tim).length = nshapes + 1
  semi : ∀ tim ∈ tims, ∀ m ∈ profs tim, ∀ c ∈ m, Semidefinite c
  light : ∀ tim ∈ tims, ∃ m ∈ profs tim, ∃ c ∈ m, c.amp ≠ 0
  definite : ∀ sz, ∀ tim ∈ tims, ∀ c ∈ (psf sz tim).mog, Definite c
  lin : ∀ sz, ∀ tim ∈ tims, Linear (psf sz tim).back

end Verif.Gpu
