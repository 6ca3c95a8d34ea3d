import Mathlib.Analysis.SpecialFunctions.Log.Basic
import Mathlib.Analysis.SpecialFunctions.Exp
import Mathlib.Analysis.SpecialFunctions.Trigonometric.Basic

/-!
# Fitting a mixture of Gaussians to samples by expectation maximisation

Model of `em_fit_1d_samples_reg` and `em_fit_1d_samples`, /repo/tractor/emfit.i 30-262.  Floating point numbers are real numbers; what is
computed from a division by zero is "not a number".  Conversions of the arguments to arrays of doubles are taken to succeed.
-/

namespace Verif.Em1

noncomputable section

/-- `amp[k]`, `mean[k]`, `var[k]`. -/
@[ext] structure Comp where
  amp : ℝ
  mean : ℝ
  var : ℝ

/-- `Z[i*K + k]` of component `c` for a sample `x` is not a number, emfit.i 148-163: the square root of a negative variance, or `0 / 0` where a
variance is zero and the sample is at the mean.  (If the variance is zero and the sample elsewhere, `mahal` is infinite and the sample is
skipped.) -/
def Bad (c : Comp) (x : ℝ) : Prop := c.var < 0 ∨ (c.var = 0 ∧ x = c.mean)

/-- Not `mahal >= 100`, emfit.i 157-161. -/
def near (c : Comp) (x : ℝ) : Prop := 0 < c.var ∧ 1 / c.var * (x - c.mean) * (x - c.mean) < 100

open Classical in
/-- `zi`, or the zero `Z` is initialised with, emfit.i 145, 150, 157-164. -/
def zraw (c : Comp) (x : ℝ) : ℝ :=
  if near c x then c.amp / Real.sqrt (2 * Real.pi * c.var) * Real.exp (-(1 / 2) * (1 / c.var * (x - c.mean) * (x - c.mean))) else 0

/-- `zsum`, emfit.i 154, 166. -/
def zsum (m : List Comp) (x : ℝ) : ℝ := (m.map (fun c => zraw c x)).sum

open Classical in
/-- `Z[i*K + k]` after the E step, emfit.i 170-180. -/
def zfrac (m : List Comp) (c : Comp) (x : ℝ) : ℝ := if zsum m x = 0 then zraw c x else zraw c x / zsum m x

/-- The sum over the samples of `Z` times `f`. -/
def wsum (xs : List ℝ) (m : List Comp) (c : Comp) (f : ℝ → ℝ) : ℝ := (xs.map (fun x => zfrac m c x * f x)).sum

/-- The M step for one component where the divisors are not zero, emfit.i 184-217. -/
def updated (alpha : ℝ) (xs : List ℝ) (m : List Comp) (c : Comp) : Comp :=
  let w := wsum xs m c (fun _ => 1)
  let mean := wsum xs m c (fun x => x) / w
  { amp := w / xs.length, mean := mean
    var := (alpha + wsum xs m c (fun x => (x - mean) * (x - mean))) / (w + alpha) }

open Classical in
/-- The M step for one component; `none`: the mean or the variance is not a number (or infinite). -/
def update (alpha : ℝ) (xs : List ℝ) (m : List Comp) (c : Comp) : Option Comp :=
  if wsum xs m c (fun _ => 1) = 0 ∨ wsum xs m c (fun _ => 1) + alpha = 0 then none else some (updated alpha xs m c)

/-- The three arrays. -/
abbrev State := List (Option Comp)

/-- All components, if all are numbers. -/
def State.all : State → Option (List Comp)
  | [] => some []
  | none :: _ => none
  | some c :: s => (State.all s).map (c :: ·)

open Classical in
/-- One step, emfit.i 118-218.  If a `Z` of a sample is not a number then so is `zsum`, hence all `Z` of this sample, hence all results. -/
def step (alpha : ℝ) (xs : List ℝ) (s : State) : State :=
  match State.all s with
  | none => s.map (fun _ => none)
  | some m => if ∃ x ∈ xs, ∃ c ∈ m, Bad c x then m.map (fun _ => none) else m.map (update alpha xs m)

/-- `for (step=0; step<steps; step++)`. -/
def run (alpha : ℝ) (xs : List ℝ) : Nat → State → State
  | 0, s => s
  | n + 1, s => run alpha xs n (step alpha xs s)

/-- The entries of the arrays. -/
def entries (amp mean var : List ℝ) : State := List.zipWith (fun a mv => some ⟨a, mv.1, mv.2⟩) amp (List.zip mean var)

/-- `em_fit_1d_samples_reg(x, amp, mean, var, alpha, steps)`, emfit.i 32-251: what is returned and the arrays `amp`, `mean`, `var` afterwards
(`none`: as they were). -/
def fitReg (xs amp mean var : List ℝ) (alpha : ℝ) (steps : Nat) : Int × Option State :=
  if mean.length ≠ amp.length then (-1, none)
  else if var.length ≠ amp.length then (-1, none)
  else (0, some (run alpha xs steps (entries amp mean var)))

/-- `em_fit_1d_samples(x, amp, mean, var)`, emfit.i 255-261. -/
def fit (xs amp mean var : List ℝ) : Int × Option State := fitReg xs amp mean var 0 1000

end

end Verif.Em1
