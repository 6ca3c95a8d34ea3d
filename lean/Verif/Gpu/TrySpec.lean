import Verif.Gpu.Try
import Verif.Gpu.Spec
import Verif.Opt.Spec
import Mathlib.Algebra.BigOperators.Group.Finset.Basic
import Mathlib.Order.Interval.Finset.Basic
import Mathlib.Data.Int.Interval

/-!
# What the GPU line search is meant to compute
-/

namespace Verif.Gpu

open Verif Verif.Psf Verif.Params Verif.Opt

variable {R : Type} [Field R] [LinearOrder R]

/-- Chi-squared of one image in its mask: `M` is the model of the source, `sb` the surface brightness. -/
def chiSqOne (tim : Tim R) (M : Int → Int → R) (sb : R) : R :=
  ∑ y ∈ Finset.Ico tim.y0 tim.y1, ∑ x ∈ Finset.Ico tim.x0 tim.x1,
    ((tim.pix.px y.toNat x.toNat - (M x y + sb)) * tim.ie.px y.toNat x.toNat) ^ 2

/-- Chi-squared of all images. -/
def chiSq (tims : List (Tim R)) (M : Tim R → Int → Int → R) (sb : Tim R → R) : R :=
  (tims.map (fun tim => chiSqOne tim (M tim) (sb tim))).sum

/-- The surface brightness of an image in counts per pixel, zero if there is none. -/
def sbOf (job : Job R) (par : Par R) (tim : Tim R) : R :=
  match job.sb with
  | some f => f par tim
  | none => 0

/-- Log-probability: log-prior minus half of chi-squared. -/
def objective (job : Job R) (M : Par R → Tim R → Int → Int → R) (par : Par R) : Num R :=
  (job.prior par).sub (.fin (chiSq job.tims (M par) (sbOf job par) / 2))

/-- Positions within a million pixels. -/
def Near (tims : List (Tim R)) (pos : Par R → Tim R → R × R) (par : Par R) : Prop :=
  ∀ tim ∈ tims, |(pos par tim).1| ≤ 1000000 ∧ |(pos par tim).2| ≤ 1000000

/-- `t'`, with gain `d` for the fraction `a`, is the result of a line search from `t` for the objective `lp`: the start or
the best of the steps `pre` visited, which end where the next one is not `near`, not finite, or worse by more than 1. -/
def Found (lp : Par R → Num R) (near : Par R → Prop) (tiny : R) (t : Par R) (X alphas : List R) (t' : Par R) (d a : R) : Prop :=
  ∃ (b : Bool) (pre post : List (Cand R)) (v : R), getParameterSteps tiny t X alphas = (b, .ok (pre ++ post)) ∧
    lp t' = .fin v ∧ lp t = .fin (v - d) ∧
    ((t' = t ∧ d = 0 ∧ a = 0) ∨ (0 < d ∧ t' = moved t X a ∧ ∃ c ∈ pre, a = c.alpha ∧ getParams t' = c.p)) ∧
    (∀ c ∈ pre, near (moved t X c.alpha) ∧ ∃ w, lp (moved t X c.alpha) = .fin w ∧ w ≤ v) ∧
    (post = [] ∨ ∃ c post', post = c :: post' ∧ (¬ near (moved t X c.alpha) ∨ (lp (moved t X c.alpha)).isFinite = false ∨
      ∃ w, lp (moved t X c.alpha) = .fin w ∧ w < v - 1))

/-- A tractor with one point source. -/
def pointJob (lz : R → R) (junk junk' : Nat → Nat → R) (pos : Par R → Tim R → R × R) (cnt : Par R → Tim R → R)
    (sb : Option (Par R → Tim R → R)) (prior : Par R → Num R) (tims : List (Tim R)) : Job R :=
  ⟨tims, some (pointSource lz junk junk' pos cnt), sb, prior⟩

/-- For a change of the parameters from `par0` to `par` the source moves by at most three whole pixels in each image and
direction, or by at most six and the PSF stamp is not larger than the arrays of size `sz`. -/
def SmallMove (rnd : R → Int) (tims : List (Tim R)) (pos : Par R → Tim R → R × R) (sz : Nat) (par0 par : Par R) : Prop :=
  ∀ tim ∈ tims,
    (|rnd (pos par tim).1 - rnd (pos par0 tim).1| ≤ 3 ∧ |rnd (pos par tim).2 - rnd (pos par0 tim).2| ≤ 3) ∨
    (|rnd (pos par tim).1 - rnd (pos par0 tim).1| ≤ 6 ∧ |rnd (pos par tim).2 - rnd (pos par0 tim).2| ≤ 6 ∧
      tim.psf.h ≤ sz ∧ tim.psf.w ≤ sz)

end Verif.Gpu
