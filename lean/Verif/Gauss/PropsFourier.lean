import Verif.Gauss.FourierLemmas
import Verif.Mog.PropsFourier

/-!
# C100: the Fourier transform of a mixture is that of its density
-/

namespace Verif.Gauss

open Verif.Mog (Comp Mix Exp fourier transformMix transform)
open MeasureTheory

/-- numpy's `exp`, `1j` and `pi`. -/
noncomputable def numpyExp : Exp ℝ ℂ := ⟨Complex.exp, Complex.I, Real.pi⟩

theorem numpyExp_ok : numpyExp.OK := ⟨Complex.exp_add, Complex.exp_zero⟩

theorem mix_integrals (m : Mix ℝ) (hm : ∀ c ∈ m, Proper c) (v w : ℝ) :
    (∀ y : ℝ, Integrable (fun x : ℝ => (densityMix m x y : ℂ) * wave v w x y)) ∧
    Integrable (fun y : ℝ => ∫ x : ℝ, (densityMix m x y : ℂ) * wave v w x y) ∧
    ∫ y : ℝ, ∫ x : ℝ, (densityMix m x y : ℂ) * wave v w x y = transformMix numpyExp m v w := by
  induction m with
  | nil => simp [densityMix, transformMix]
  | cons c m ih =>
    obtain ⟨h1, h2, h3⟩ := ih (fun c' hc' => hm c' (by simp [hc']))
    have hc := hm c (by simp)
    have hs : ∀ x y : ℝ, (densityMix (c :: m) x y : ℂ) * wave v w x y =
        (density c x y : ℂ) * wave v w x y + (densityMix m x y : ℂ) * wave v w x y := by
      intro x y
      simp only [densityMix, List.map_cons, List.sum_cons, Complex.ofReal_add]
      ring
    have hin : ∀ y : ℝ, ∫ x : ℝ, (densityMix (c :: m) x y : ℂ) * wave v w x y =
        (∫ x : ℝ, (density c x y : ℂ) * wave v w x y) + ∫ x : ℝ, (densityMix m x y : ℂ) * wave v w x y := by
      intro y
      simp_rw [hs]
      exact integral_add (integrable_x hc v w y) (h1 y)
    refine ⟨fun y => ?_, ?_, ?_⟩
    · simp_rw [hs]; exact (integrable_x hc v w y).add (h1 y)
    · simp_rw [hin]; exact (integrable_y hc v w).add h2
    · simp_rw [hin]
      rw [integral_add (integrable_y hc v w) h2, h3, double_integral hc]
      unfold transformMix
      rw [List.map_cons, List.sum_cons]
      rfl

/-- `getFourierTransform` at any frequency is the integral of the density against the wave of that frequency; the integrals converge. -/
theorem C100_transform (m : Mix ℝ) (hm : ∀ c ∈ m, Proper c) (hne : m ≠ []) (v w : ℝ) (have_mp use_mp : Bool) :
    fourier numpyExp have_mp use_mp false m v w = some (∫ y : ℝ, ∫ x : ℝ, (densityMix m x y : ℂ) * wave v w x y) ∧
    (∀ y : ℝ, Integrable (fun x : ℝ => (densityMix m x y : ℂ) * wave v w x y)) ∧
    Integrable (fun y : ℝ => ∫ x : ℝ, (densityMix m x y : ℂ) * wave v w x y) := by
  refine ⟨?_, (mix_integrals m hm v w).1, (mix_integrals m hm v w).2.1⟩
  rw [(mix_integrals m hm v w).2.2, Verif.Mog.C52_transform numpyExp numpyExp_ok, if_neg hne]

/-- The density integrates to the sum of the amplitudes. -/
theorem C100_total (m : Mix ℝ) (hm : ∀ c ∈ m, Proper c) :
    ∫ y : ℝ, ∫ x : ℝ, densityMix m x y = (m.map (·.amp)).sum := by
  have h := (mix_integrals m hm 0 0).2.2
  have hw : ∀ x y : ℝ, wave 0 0 x y = 1 := fun x y => by simp [wave]
  simp only [hw, mul_one] at h
  have ht : transformMix numpyExp m 0 0 = (((m.map (·.amp)).sum : ℝ) : ℂ) := by
    unfold transformMix transform numpyExp
    clear h hm
    induction m with
    | nil => simp
    | cons c m ih =>
      rw [List.map_cons, List.sum_cons, ih]
      simp
  rw [ht] at h
  have e : ∀ y : ℝ, ∫ x : ℝ, (densityMix m x y : ℂ) = ((∫ x : ℝ, densityMix m x y : ℝ) : ℂ) := fun y => integral_ofReal
  simp_rw [e] at h
  have e2 : ∫ y : ℝ, ((∫ x : ℝ, densityMix m x y : ℝ) : ℂ) = ((∫ y : ℝ, ∫ x : ℝ, densityMix m x y : ℝ) : ℂ) := integral_ofReal
  rw [e2] at h
  exact_mod_cast h

/-- A round Gaussian of variance 1 and amplitude 3 about (1, 0): at frequency (1/2, 0) its transform is `-3 exp(-pi^2 / 2)`. -/
example : fourier numpyExp false false false [⟨3, 1, 0, 1, 0, 0, 1⟩] (1 / 2) 0 = some (-3 * Complex.exp (-(Real.pi : ℂ) ^ 2 / 2)) := by
  rw [Verif.Mog.C52_transform numpyExp numpyExp_ok, if_neg (by simp)]
  simp only [transformMix, transform, numpyExp, List.map_cons, List.map_nil, List.sum_cons, List.sum_nil, add_zero, Complex.coe_algebraMap]
  congr 1
  have : Complex.exp (((-2 * Real.pi * (1 / 2 * 1 + 0 * 0) : ℝ) : ℂ) * Complex.I) = -1 := by
    rw [show ((-2 * Real.pi * (1 / 2 * 1 + 0 * 0) : ℝ) : ℂ) * Complex.I = -(Real.pi * Complex.I) by push_cast; ring, Complex.exp_neg,
      Complex.exp_pi_mul_I]
    norm_num
  rw [this, show ((-2 * Real.pi ^ 2 * (1 / 2 * (1 * (1 / 2) + 0 * 0) + 0 * (0 * (1 / 2) + 1 * 0)) : ℝ) : ℂ) = -(Real.pi : ℂ) ^ 2 / 2 by
    push_cast; ring]
  push_cast
  ring

example : ∫ y : ℝ, ∫ x : ℝ, densityMix [⟨3, 1, 0, 1, 0, 0, 1⟩, ⟨2, 1, 0, 2, 1, 1, 3⟩] x y = 5 := by
  rw [C100_total]
  · norm_num
  · intro c hc
    simp only [List.mem_cons, List.not_mem_nil, or_false] at hc
    rcases hc with rfl | rfl <;> (unfold Proper; norm_num)

end Verif.Gauss
