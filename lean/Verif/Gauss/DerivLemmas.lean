import Verif.Gauss.Lemmas
import Mathlib.Analysis.SpecialFunctions.ExpDeriv
import Mathlib.Analysis.Calculus.Deriv.Add
import Mathlib.Analysis.Calculus.Deriv.Mul
import Mathlib.Analysis.Calculus.Deriv.Pow

/-!
# Lemmas: the slopes are the derivatives
-/

namespace Verif.Gauss

open Verif.Mog (Comp Mix)

theorem density_deriv_x (c : Comp ℝ) (x y fx : ℝ) :
    HasDerivAt (fun t => density c (x - t) y) (slopeX c (x - fx) y) fx := by
  have h1 : HasDerivAt (fun t : ℝ => x - t - c.mx) (-1) fx := by
    simpa using ((hasDerivAt_const fx x).sub (hasDerivAt_id fx)).sub_const c.mx
  have h2 : HasDerivAt (fun t : ℝ => -(distSq c (x - t) y) / 2)
      ((c.vyy * (x - fx - c.mx) - c.vxy * (y - c.my)) / (c.vxx * c.vyy - c.vxy ^ 2)) fx := by
    unfold distSq
    have := (((((h1.pow 2).const_mul c.vyy).sub ((h1.mul_const (y - c.my)).const_mul (2 * c.vxy))).add_const
      (c.vxx * (y - c.my) ^ 2)).div_const (c.vxx * c.vyy - c.vxy ^ 2)).neg.div_const 2
    refine this.congr_deriv ?_
    simp only [Nat.cast_ofNat]
    ring
  have h3 := (h2.exp).const_mul (c.amp / (2 * Real.pi * Real.sqrt (c.vxx * c.vyy - c.vxy ^ 2)))
  refine h3.congr_deriv ?_
  unfold slopeX density
  ring

theorem density_deriv_y (c : Comp ℝ) (x y fy : ℝ) :
    HasDerivAt (fun t => density c x (y - t)) (slopeY c x (y - fy)) fy := by
  have h1 : HasDerivAt (fun t : ℝ => y - t - c.my) (-1) fy := by
    simpa using ((hasDerivAt_const fy y).sub (hasDerivAt_id fy)).sub_const c.my
  have h2 : HasDerivAt (fun t : ℝ => -(distSq c x (y - t)) / 2)
      ((c.vxx * (y - fy - c.my) - c.vxy * (x - c.mx)) / (c.vxx * c.vyy - c.vxy ^ 2)) fy := by
    unfold distSq
    have := ((((h1.const_mul (x - c.mx)).const_mul (2 * c.vxy)).const_sub (c.vyy * (x - c.mx) ^ 2)).add
      ((h1.pow 2).const_mul c.vxx)).div_const (c.vxx * c.vyy - c.vxy ^ 2) |>.neg.div_const 2
    refine this.congr_deriv ?_
    simp only [Nat.cast_ofNat]
    ring
  have h3 := (h2.exp).const_mul (c.amp / (2 * Real.pi * Real.sqrt (c.vxx * c.vyy - c.vxy ^ 2)))
  refine h3.congr_deriv ?_
  unfold slopeY density
  ring

theorem densityMix_deriv_x (m : Mix ℝ) (x y fx : ℝ) :
    HasDerivAt (fun t => densityMix m (x - t) y) ((m.map (fun c => slopeX c (x - fx) y)).sum) fx := by
  induction m with
  | nil => simpa [densityMix] using hasDerivAt_const fx (0 : ℝ)
  | cons c m ih =>
    simp only [List.map_cons, List.sum_cons]
    exact (density_deriv_x c x y fx).add ih

theorem densityMix_deriv_y (m : Mix ℝ) (x y fy : ℝ) :
    HasDerivAt (fun t => densityMix m x (y - t)) ((m.map (fun c => slopeY c x (y - fy))).sum) fy := by
  induction m with
  | nil => simpa [densityMix] using hasDerivAt_const fy (0 : ℝ)
  | cons c m ih =>
    simp only [List.map_cons, List.sum_cons]
    exact (density_deriv_y c x y fy).add ih

theorem evalDxy_eq {m : Mix ℝ} (hm : ∀ c ∈ m, Proper c) (maxD : Comp ℝ → ℝ) (x y : ℝ) :
    evalDxy maxD m x y =
      (((m.filter (fun c => decide (maxD c ≤ -(distSq c x y) / 2))).map (fun c => density c x y)).sum,
       ((m.filter (fun c => decide (maxD c ≤ -(distSq c x y) / 2))).map (fun c => slopeX c x y)).sum,
       ((m.filter (fun c => decide (maxD c ≤ -(distSq c x y) / 2))).map (fun c => slopeY c x y)).sum) := by
  unfold evalDxy
  rw [fold_filter3 _ (fun c => density c x y) (fun c => slopeX c x y) (fun c => slopeY c x y)
    (fun c => maxD c ≤ -(distSq c x y) / 2) m _ (fun c hc r => dxyTerm_eq (hm c hc) maxD x y r)]
  simp only [zero_add]

/-- A component of scale zero has amplitude zero. -/
theorem scale_zero {c : Comp ℝ} (hc : Proper c) : (prep c).scale = 0 ↔ c.amp = 0 := by
  rw [(prep_eq hc 0 0).2.1]
  have : 0 < 2 * Real.pi * Real.sqrt (c.vxx * c.vyy - c.vxy ^ 2) := by
    have := Real.sqrt_pos.mpr hc.2.2
    have := Real.pi_pos
    positivity
  constructor
  · intro h; rcases div_eq_zero_iff.mp h with h | h
    · exact h
    · exact absurd h (ne_of_gt this)
  · intro h; rw [h, zero_div]

theorem density_zero {c : Comp ℝ} (h : c.amp = 0) (x y : ℝ) : density c x y = 0 ∧ slopeX c x y = 0 ∧ slopeY c x y = 0 := by
  have : density c x y = 0 := by unfold density; rw [h]; ring
  unfold slopeX slopeY
  rw [this]
  simp

theorem dxyTermF_eq {c : Comp ℝ} (hc : Proper c) (maxD : Comp ℝ → ℝ) (x y : ℝ) (r : ℝ × ℝ × ℝ) :
    dxyTermF maxD c x y r = dxyTerm maxD c x y r := by
  unfold dxyTermF
  split
  · rename_i h
    obtain ⟨h0, h1, h2⟩ := density_zero ((scale_zero hc).mp h) x y
    rw [dxyTerm_eq hc, h0, h1, h2]
    simp
  · rfl

theorem masked_eq {m : Mix ℝ} (hm : ∀ c ∈ m, Proper c) (mask : Int → Int → Bool) (fx fy : ℝ) (x y : Int) :
    masked m mask fx fy x y = if mask y x then evalDxy (fun _ => -30) m (x - fx) (y - fy) else (0, 0, 0) := by
  have hf : m.foldl (fun r c => dxyTermF (fun _ => -30) c (x - fx) (y - fy) r) (0, 0, 0) =
      evalDxy (fun _ => -30) m (x - fx) (y - fy) := by
    unfold evalDxy
    refine List.foldl_ext _ _ _ (fun r c hc => dxyTermF_eq (hm c hc) _ _ _ _)
  unfold masked
  rw [hf]
  by_cases h : m.all (fun c => decide ((prep c).scale = 0))
  · rw [if_pos h]
    have hz : ∀ c ∈ m, c.amp = 0 := fun c hc => (scale_zero (hm c hc)).mp (by simpa using List.all_eq_true.mp h c hc)
    have : evalDxy (fun _ => -30) m (x - fx) (y - fy) = (0, 0, 0) := by
      rw [evalDxy_eq hm]
      have key : ∀ g : Comp ℝ → ℝ, (∀ c ∈ m, g c = 0) →
          ((m.filter (fun c => decide ((-30 : ℝ) ≤ -(distSq c (x - fx) (y - fy)) / 2))).map g).sum = 0 := by
        intro g hg
        refine List.sum_eq_zero ?_
        intro z hz'
        obtain ⟨c, hc, rfl⟩ := List.mem_map.mp hz'
        exact hg c (List.mem_filter.mp hc).1
      rw [key _ (fun c hc => (density_zero (hz c hc) _ _).1), key _ (fun c hc => (density_zero (hz c hc) _ _).2.1),
        key _ (fun c hc => (density_zero (hz c hc) _ _).2.2)]
    rw [this, ite_self]
  · rw [if_neg h]
    cases mask y x <;> simp

end Verif.Gauss
