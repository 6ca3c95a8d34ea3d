import Verif.Em1.Model

/-!
# What fitting a mixture to samples is to achieve
-/

namespace Verif.Em1

noncomputable section

/-- Positive variance, positive amplitude. -/
def Good (m : List Comp) : Prop := ∀ c ∈ m, 0 < c.var ∧ 0 < c.amp

/-- The normal distribution with the mean and variance of the component, times its amplitude. -/
def density (c : Comp) (x : ℝ) : ℝ :=
  c.amp * (Real.exp (-(x - c.mean) ^ 2 / (2 * c.var)) / Real.sqrt (2 * Real.pi * c.var))

/-- The density of the mixture. -/
def mix (m : List Comp) (x : ℝ) : ℝ := (m.map (fun c => density c x)).sum

/-- Within ten standard deviations. -/
def Within (c : Comp) (x : ℝ) : Prop := (x - c.mean) ^ 2 < 100 * c.var

open Classical in
/-- The density of the mixture without what is cut off. -/
def cutMix (m : List Comp) (x : ℝ) : ℝ := (m.map (fun c => if Within c x then density c x else 0)).sum

/-- The sample is within ten standard deviations of some component. -/
def Lit (m : List Comp) (x : ℝ) : Prop := ∃ c ∈ m, Within c x

/-- All samples are within ten standard deviations of all components. -/
def Near (xs : List ℝ) (m : List Comp) : Prop := ∀ x ∈ xs, ∀ c ∈ m, Within c x

/-- Minus twice the logarithm of the prior of strength one on a variance. -/
def penalty (c : Comp) : ℝ := Real.log c.var + 1 / c.var

/-- The logarithm of the posterior: the likelihood of the samples under the mixture, where the amplitudes need not add to one (a sample of a
Poisson process of mean `N` times the mixture), times the inverse Wishart prior of strength `alpha` on the variances. -/
def logPost (alpha : ℝ) (xs : List ℝ) (m : List Comp) : ℝ :=
  (xs.map (fun x => Real.log (mix m x))).sum - xs.length * (m.map (fun c => c.amp)).sum - alpha / 2 * (m.map penalty).sum

/-- `em_fit_1d_samples_reg` from a given mixture. -/
def fitFrom (xs : List ℝ) (m : List Comp) (alpha : ℝ) (steps : Nat) : Int × Option State :=
  fitReg xs (m.map (fun c => c.amp)) (m.map (fun c => c.mean)) (m.map (fun c => c.var)) alpha steps

/-- The mean of `f` over the samples. -/
def avg (xs : List ℝ) (f : ℝ → ℝ) : ℝ := (xs.map f).sum / xs.length

end

end Verif.Em1
