import Verif.Gauss.ConvLemmas

/-!
# C101: `convolve` convolves
-/

namespace Verif.Gauss

open Verif.Mog (Comp Mix convolve)
open MeasureTheory

/-- At every position the density of `a.convolve(b)` is the convolution of the two densities; both integrals converge. -/
theorem C101_convolve (a b : Mix ℝ) (ha : ∀ c ∈ a, Proper c) (hb : ∀ c ∈ b, Proper c) (x y : ℝ) :
    densityMix (convolve a b) x y = (∫ t : ℝ, ∫ s : ℝ, densityMix a (x - s) (y - t) * densityMix b s t) ∧
    (∀ t : ℝ, Integrable (fun s : ℝ => densityMix a (x - s) (y - t) * densityMix b s t)) ∧
    Integrable (fun t : ℝ => ∫ s : ℝ, densityMix a (x - s) (y - t) * densityMix b s t) :=
  have h := conv_mix a b ha hb x y
  ⟨h.2.2.symm, h.1, h.2.1⟩

/-- The convolution of mixtures with positive definite covariances has such covariances, so it may be convolved again or evaluated. -/
theorem C101_proper (a b : Mix ℝ) (ha : ∀ c ∈ a, Proper c) (hb : ∀ c ∈ b, Proper c) : ∀ c ∈ convolve a b, Proper c := by
  intro c hc
  obtain ⟨q, hq, hc⟩ := List.mem_flatMap.mp hc
  obtain ⟨p, hp, rfl⟩ := List.mem_map.mp hc
  exact join_proper (ha p hp) (hb q hq)

/-- The order does not matter. -/
theorem C101_comm (a b : Mix ℝ) (ha : ∀ c ∈ a, Proper c) (hb : ∀ c ∈ b, Proper c) (x y : ℝ) :
    densityMix (convolve a b) x y = ∫ t : ℝ, ∫ s : ℝ, densityMix b (x - s) (y - t) * densityMix a s t := by
  rw [← (C101_convolve b a hb ha x y).1]
  have key : ∀ (a b : Mix ℝ), densityMix (convolve a b) x y = (b.map (fun q => (a.map (fun p => density (join p q) x y)).sum)).sum := by
    intro a b
    induction b with
    | nil => simp [convolve, densityMix]
    | cons q b ih =>
      unfold convolve at ih ⊢
      rw [List.flatMap_cons, densityMix_append, ih, List.map_cons, List.sum_cons]
      congr 1
      unfold densityMix Verif.Mog.convolveOne
      rw [List.map_map]
      rfl
  have hj : ∀ p q : Comp ℝ, density (join p q) x y = density (join q p) x y := by
    intro p q
    simp only [join, mul_comm, add_comm]
  rw [key, key]
  clear key ha hb
  induction b with
  | nil => simp
  | cons q b ih =>
    rw [List.map_cons, List.sum_cons, ih]
    clear ih
    induction a with
    | nil => simp
    | cons p a ih =>
      simp only [List.map_cons, List.sum_cons, hj p q] at ih ⊢
      linarith

/-- Two round Gaussians of variances 1 and 3: at the origin the convolution is `1 / (8 pi)`. -/
example : ∫ t : ℝ, ∫ s : ℝ, densityMix [⟨1, 0, 0, 1, 0, 0, 1⟩] (0 - s) (0 - t) * densityMix [⟨1, 0, 0, 3, 0, 0, 3⟩] s t = 1 / (8 * Real.pi) := by
  rw [← (C101_convolve _ _ ?_ ?_ 0 0).1]
  · have h4 : Real.sqrt 16 = 4 := by rw [show (16 : ℝ) = 4 ^ 2 by norm_num]; exact Real.sqrt_sq (by norm_num)
    simp only [convolve, Verif.Mog.convolveOne, densityMix, density, distSq, List.flatMap_cons, List.flatMap_nil, List.map_cons, List.map_nil,
      List.append_nil, List.sum_cons, List.sum_nil]
    norm_num
    rw [h4]
    ring
  · intro c hc
    simp only [List.mem_cons, List.not_mem_nil, or_false] at hc
    subst hc; unfold Proper; norm_num
  · intro c hc
    simp only [List.mem_cons, List.not_mem_nil, or_false] at hc
    subst hc; unfold Proper; norm_num

end Verif.Gauss
