import Verif.Ell.Lemmas
import Mathlib.Tactic.NormNum
import Mathlib.Tactic.LinearCombination

/-!
# Properties of ellipses (C44, C85, C86)
-/

namespace Verif.Ell

open Verif

/-- Spec: the same position angle (a line has no direction). -/
def SameLine (a b : ℝ) : Prop := ∃ k : ℤ, a = b + k * Real.pi

theorem half_line {t a : ℝ} (h : ∃ k : ℤ, t = 2 * a + k * (2 * Real.pi)) : SameLine (t / 2) a := by
  obtain ⟨k, hk⟩ := h
  exact ⟨k, by rw [hk]; ring⟩

/-- **C44.** `EllipseE.fromRAbPhi` of an axis ratio in (0, 1]: radius, axis ratio and (unless round) angle read back are
those given, the angle with the opposite sign. -/
theorem C44_fromRAbPhi (r ba phi : ℝ) (h0 : 0 < ba) (h1 : ba ≤ 1) :
    ∃ E, fromRAbPhi r ba phi = .ok E ∧ E.re = r ∧ E.ab = ba ∧ (ba < 1 → SameLine E.theta (radians (-phi))) ∧
      (0 ≤ r → E.isLegal) := by
  obtain ⟨g1, g2, g3⟩ := ecc_range h0 h1
  refine ⟨_, fromRAbPhi_ok r phi h0, rfl, ?_, fun h => ?_, fun h => ⟨?_, h⟩⟩
  · unfold EllE.ab EllE.e
    rw [hypot_polar, abs_of_nonneg g1, abOf_inv h0]
  · apply half_line
    obtain ⟨k, hk⟩ := atan2_polar (a := radians (2 * (-phi))) (g3 h)
    refine ⟨k, ?_⟩
    simp only
    rw [hk]; unfold radians; ring
  · simp only
    generalize (1 / ba - 1) / (1 / ba + 1) = e at *
    rw [show (e * Real.cos (radians (2 * -phi))) ^ 2 + (e * Real.sin (radians (2 * -phi))) ^ 2 =
      e ^ 2 * (Real.cos (radians (2 * -phi)) ^ 2 + Real.sin (radians (2 * -phi)) ^ 2) from by ring, Real.cos_sq_add_sin_sq]
    nlinarith

example : fromRAbPhi 2 (1 / 2) 0 = .ok ⟨2, 1 / 3, 0⟩ := by
  rw [fromRAbPhi_ok _ _ (by norm_num)]
  norm_num [radians]

/-- **C44.** Axis ratio 0 is refused. -/
theorem C44_zero_axis (r phi : ℝ) : fromRAbPhi r 0 phi = .error .zeroDiv := by
  unfold fromRAbPhi pyDiv
  rw [if_pos rfl]
  rfl

/-- **C44.** Soft ellipticities give an ellipticity in [0, 1), an axis ratio in (0, 1] and a positive radius, whatever
the parameters are. -/
theorem C44_soft_range (S : Soft) : 0 ≤ S.e ∧ S.e < 1 ∧ 0 < S.ab ∧ S.ab ≤ 1 ∧ 0 < S.re := by
  obtain ⟨h1, h2⟩ := softe_range S.softe (hypot_nonneg _ _)
  exact ⟨h1, h2, (abOf_pos h1 h2).1, (abOf_pos h1 h2).2, Real.exp_pos _⟩

/-- **C44.** `EllipseESoft.fromRAbPhi` likewise. -/
theorem C44_soft_fromRAbPhi (r ba phi : ℝ) (hr : 0 < r) (h0 : 0 < ba) (h1 : ba ≤ 1) :
    ∃ S, softFromRAbPhi r ba phi = .ok S ∧ S.re = r ∧ S.ab = ba ∧ (ba < 1 → SameLine S.theta (radians (-phi))) := by
  obtain ⟨g1, g2, g3⟩ := ecc_range h0 h1
  have hS : softFromRAbPhi r ba phi = .ok ⟨Real.log r, -Real.log (1 - (1 / ba - 1) / (1 / ba + 1)) * Real.cos (radians (2 * (-phi))),
      -Real.log (1 - (1 / ba - 1) / (1 / ba + 1)) * Real.sin (radians (2 * (-phi)))⟩ := by
    unfold softFromRAbPhi
    rw [pyDiv_ok h0.ne']
    have : (1 : ℝ) / ba + 1 ≠ 0 := by positivity
    show (pyDiv (1 / ba - 1) (1 / ba + 1) >>= _) = _
    rw [pyDiv_ok this]
    show (pyLog (1 - (1 / ba - 1) / (1 / ba + 1)) >>= _) = _
    rw [pyLog_ok (by linarith)]
    show (pyLog r >>= _) = _
    rw [pyLog_ok hr]
    rfl
  have hab := abOf_inv h0
  generalize (1 / ba - 1) / (1 / ba + 1) = e at *
  have hl : 0 ≤ -Real.log (1 - e) := by
    have := Real.log_nonpos (x := 1 - e) (by linarith) (by linarith)
    linarith
  have hl' : 0 < e → 0 < -Real.log (1 - e) := by
    intro h
    have := Real.log_neg (x := 1 - e) (by linarith) (by linarith)
    linarith
  refine ⟨_, hS, Real.exp_log hr, ?_, fun h => ?_⟩
  · unfold Soft.ab Soft.e
    simp only
    rw [hypot_polar, abs_of_nonneg hl, neg_neg, Real.exp_log (by linarith), sub_sub_cancel, hab]
  · apply half_line
    obtain ⟨k, hk⟩ := atan2_polar (a := radians (2 * (-phi))) (hl' (g3 h))
    refine ⟨k, ?_⟩
    simp only
    rw [hk]; unfold radians; ring

/-- **C44 (in part).** From the plain to the soft form and back, for ellipses that are not round and whose ellipticity is at
most `maxe`.  Missing: round ellipses, for which it is false (`C44_round_false`). -/
theorem C44_plain_soft_partial (E : EllE) (maxe : ℝ) (hm : maxe < 1) (hr : 0 < E.re) (h0 : 0 < E.e) (h1 : E.e ≤ maxe) :
    ∃ S, E.toSoft maxe = .ok S ∧ S.re = E.re ∧ S.e = E.e ∧ S.theta = E.theta ∧ S.toE maxe = E := by
  have hlog : 0 < -Real.log (1 - E.e) := by
    have := Real.log_neg (x := 1 - E.e) (by linarith) (by linarith)
    linarith
  have hS : E.toSoft maxe = .ok ⟨Real.log E.re, E.e1 / E.e * -Real.log (1 - E.e), E.e2 / E.e * -Real.log (1 - E.e)⟩ := by
    unfold EllE.toSoft
    rw [min_eq_left h1]
    simp only
    rw [pyLog_ok (by linarith : 0 < 1 - E.e)]
    show (pyLog E.re >>= _) = _
    rw [pyLog_ok hr]
    show (pyDiv E.e1 E.e >>= _) = _
    rw [pyDiv_ok h0.ne']
    show (pyDiv E.e2 E.e >>= _) = _
    rw [pyDiv_ok h0.ne']
    rfl
  have hc : E.e1 / E.e = Real.cos (atan2 E.e2 E.e1) := by
    rw [div_eq_iff h0.ne', mul_comm]; exact (hypot_cos _ _).symm
  have hs : E.e2 / E.e = Real.sin (atan2 E.e2 E.e1) := by
    rw [div_eq_iff h0.ne', mul_comm]; exact (hypot_sin _ _).symm
  have he : Soft.e ⟨Real.log E.re, E.e1 / E.e * -Real.log (1 - E.e), E.e2 / E.e * -Real.log (1 - E.e)⟩ = E.e := by
    unfold Soft.e
    simp only
    rw [hc, hs, mul_comm (Real.cos _), mul_comm (Real.sin _), hypot_polar, abs_of_pos hlog, neg_neg, Real.exp_log (by linarith)]
    ring
  have ht : atan2 (E.e2 / E.e * -Real.log (1 - E.e)) (E.e1 / E.e * -Real.log (1 - E.e)) = atan2 E.e2 E.e1 := by
    unfold atan2
    have : (⟨E.e1 / E.e * -Real.log (1 - E.e), E.e2 / E.e * -Real.log (1 - E.e)⟩ : ℂ) =
        ((-Real.log (1 - E.e) / E.e : ℝ) : ℂ) * ⟨E.e1, E.e2⟩ := by
      apply Complex.ext <;> simp <;> ring
    rw [this, Complex.arg_real_mul _ (div_pos hlog h0)]
  refine ⟨_, hS, Real.exp_log hr, he, ?_, ?_⟩
  · unfold Soft.theta EllE.theta
    rw [ht]
  · unfold Soft.toE
    rw [he, min_eq_right h1]
    unfold Soft.theta Soft.re
    simp only
    rw [ht, Real.exp_log hr, show 2 * (atan2 E.e2 E.e1 / 2) = atan2 E.e2 E.e1 from by ring, ← hc, ← hs,
      mul_div_cancel₀ _ h0.ne', mul_div_cancel₀ _ h0.ne']

example : EllE.e ⟨1, 3 / 10, 4 / 10⟩ = 1 / 2 := by
  unfold EllE.e hypot
  rw [show ((3 / 10 : ℝ) ^ 2 + (4 / 10) ^ 2) = (1 / 2) ^ 2 from by norm_num, Real.sqrt_sq (by norm_num)]

/-- **C44 (negation).** A round `EllipseE` cannot be converted to the soft form: `fromEllipseE` divides by 0. -/
theorem C44_round_false (re maxe : ℝ) (hr : 0 < re) (hm : 0 ≤ maxe) : EllE.toSoft ⟨re, 0, 0⟩ maxe = .error .zeroDiv := by
  have he : EllE.e ⟨re, 0, 0⟩ = 0 := by simp [EllE.e, hypot]
  unfold EllE.toSoft
  rw [he, min_eq_left hm]
  simp only
  rw [pyLog_ok (by norm_num : (0 : ℝ) < 1 - 0)]
  show (pyLog re >>= _) = _
  rw [pyLog_ok hr]
  show (pyDiv 0 0 >>= _) = _
  rw [show pyDiv 0 0 = .error .zeroDiv from by unfold pyDiv; rw [if_pos rfl]]
  rfl

/-- **C44.** From the soft form to the plain one: radius, ellipticity and angle are kept up to `maxe`, the result is legal,
and (unless round) converting back gives the same parameters. -/
theorem C44_soft_plain (S : Soft) (maxe : ℝ) (hm : maxe < 1) (h1 : S.e ≤ maxe) :
    (S.toE maxe).re = S.re ∧ (S.toE maxe).e = S.e ∧ (0 < S.softe → SameLine (S.toE maxe).theta S.theta) ∧ (S.toE maxe).isLegal ∧
      (0 < S.softe → (S.toE maxe).toSoft maxe = .ok S) := by
  obtain ⟨r1, r2⟩ := softe_range S.softe (hypot_nonneg _ _)
  have hE : S.toE maxe = ⟨S.re, S.e * Real.cos (atan2 S.ee2 S.ee1), S.e * Real.sin (atan2 S.ee2 S.ee1)⟩ := by
    unfold Soft.toE
    rw [min_eq_right h1]
    unfold Soft.theta
    rw [show 2 * (atan2 S.ee2 S.ee1 / 2) = atan2 S.ee2 S.ee1 from by ring]
  have he : (S.toE maxe).e = S.e := by
    rw [hE]; unfold EllE.e; simp only; rw [hypot_polar]; exact abs_of_nonneg r1
  have hpos : 0 < S.softe → 0 < S.e := by
    intro h
    have : Real.exp (-S.softe) < 1 := by rw [Real.exp_lt_one_iff]; linarith
    show 0 < 1 - Real.exp (-S.softe)
    linarith
  refine ⟨by rw [hE], he, fun h => ?_, ⟨?_, by rw [hE]; exact (Real.exp_pos _).le⟩, fun h => ?_⟩
  · rw [hE]
    unfold EllE.theta Soft.theta
    apply half_line
    obtain ⟨k, hk⟩ := atan2_polar (a := atan2 S.ee2 S.ee1) (hpos h)
    exact ⟨k, by simp only; rw [hk]; ring⟩
  · rw [hE]
    simp only
    rw [show (S.e * Real.cos (atan2 S.ee2 S.ee1)) ^ 2 + (S.e * Real.sin (atan2 S.ee2 S.ee1)) ^ 2 =
      S.e ^ 2 * (Real.cos (atan2 S.ee2 S.ee1) ^ 2 + Real.sin (atan2 S.ee2 S.ee1) ^ 2) from by ring, Real.cos_sq_add_sin_sq]
    have : S.e < 1 := r2
    have : 0 ≤ S.e := r1
    nlinarith
  · unfold EllE.toSoft
    rw [he, min_eq_left h1]
    simp only
    have g : 1 - S.e = Real.exp (-S.softe) := by show 1 - (1 - Real.exp (-S.softe)) = _; ring
    rw [g, pyLog_ok (Real.exp_pos _), Real.log_exp]
    show (pyLog (S.toE maxe).re >>= _) = _
    rw [show (S.toE maxe).re = Real.exp S.logre from by rw [hE]; rfl, pyLog_ok (Real.exp_pos _), Real.log_exp]
    show (pyDiv (S.toE maxe).e1 S.e >>= _) = _
    rw [pyDiv_ok (hpos h).ne']
    show (pyDiv (S.toE maxe).e2 S.e >>= _) = _
    rw [pyDiv_ok (hpos h).ne', hE]
    simp only
    rw [mul_div_cancel_left₀ _ (hpos h).ne']
    show Except.ok (⟨S.logre, S.e * Real.cos (atan2 S.ee2 S.ee1) / S.e * - -S.softe, Real.sin (atan2 S.ee2 S.ee1) * - -S.softe⟩ : Soft) = _
    rw [mul_div_cancel_left₀ _ (hpos h).ne', neg_neg, mul_comm, mul_comm (Real.sin _)]
    unfold Soft.softe
    rw [hypot_cos, hypot_sin]

example : 0 < Soft.softe ⟨0, 1 / 10, 0⟩ ∧ Soft.e ⟨0, 1 / 10, 0⟩ ≤ 999999 / 1000000 := by
  have h : Soft.softe ⟨0, 1 / 10, 0⟩ = 1 / 10 := by
    unfold Soft.softe hypot
    rw [show ((1 / 10 : ℝ) ^ 2 + 0 ^ 2) = (1 / 10) ^ 2 from by norm_num, Real.sqrt_sq (by norm_num)]
  refine ⟨by rw [h]; norm_num, ?_⟩
  have h2 : Soft.e ⟨0, 1 / 10, 0⟩ = 1 - Real.exp (-(1 / 10)) := by
    show 1 - Real.exp (-(Soft.softe ⟨0, 1 / 10, 0⟩)) = _
    rw [h]
  have := Real.add_one_le_exp (-(1 / 10 : ℝ))
  rw [h2]; linarith

end Verif.Ell
