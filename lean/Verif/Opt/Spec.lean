import Verif.Num
import Verif.Params.Model
import Mathlib.Algebra.Order.Group.Abs
import Mathlib.Algebra.Ring.Defs

/-!
# Specification vocabulary for the optimizers
-/

namespace Verif.Opt

open Verif Verif.Params

variable {R : Type}

/-- The tractor with its thawed parameters moved by `a` times the direction `X`. -/
def moved [Add R] [Mul R] (t : Par R) (X : List R) (a : R) : Par R :=
  (setParams t (List.zipWith (fun p d => p + a * d) (getParams t) X)).1

/-- `x` respects the optional lower bound `l` and upper bound `u`. -/
def Within [LE R] (l u : Option R) (x : R) : Prop :=
  (∀ b, l = some b → b ≤ x) ∧ (∀ b, u = some b → x ≤ b)

/-- Start point inside the bounds. -/
def StartOK [LE R] (p0 : List R) (lo up : List (Option R)) : Prop :=
  ∀ (i : Nat) p l u, p0[i]? = some p → lo[i]? = some l → up[i]? = some u → Within l u p

/-- The fraction `a` of the direction respects all maximum steps and bounds. -/
def Feasible [Ring R] [LinearOrder R] (p0 : List R) (mx lo up : List (Option R)) (X : List R) (a : R) : Prop :=
  (∀ (i : Nat) m d, mx[i]? = some (some m) → X[i]? = some d → |a * d| ≤ m) ∧
  (∀ (i : Nat) p l u d, p0[i]? = some p → lo[i]? = some l → up[i]? = some u → X[i]? = some d →
    Within l u (p + a * d))

/-- A tractor ready for constrained optimization: one lower bound, upper bound and maximum step (or None)
per thawed parameter (C04), every parameter inside its bounds, no negative maximum step. -/
structure Legal [Zero R] [LE R] (t : Par R) : Prop where
  lowers : (getLowerBounds t).length = numberOfParams t
  uppers : (getUpperBounds t).length = numberOfParams t
  maxsteps : (getMaxStep t).length = numberOfParams t
  start : StartOK (getParams t) (getLowerBounds t) (getUpperBounds t)
  nonneg : ∀ m ∈ getMaxStep t, ∀ x, m = some x → 0 ≤ x

/-- Going from `t` to `t'` with reported gain `d`: either nothing happened, or the log-probability
rose to a finite value and `d` is the difference. -/
def Improves [LT R] [DecidableLT R] [Zero R] [Add R] [Neg R] (lp : Par R → Num R) (t t' : Par R)
    (d : Num R) : Prop :=
  (t' = t ∧ d = .fin 0) ∨
  ((lp t).lt (lp t') = true ∧ (lp t').isFinite = true ∧ d = (lp t').sub (lp t))

end Verif.Opt
