import Verif.Prof.Model
import Mathlib.Analysis.SpecialFunctions.Pow.Continuity
import Mathlib.Analysis.SpecialFunctions.Exp
import Mathlib.Topology.Order.OrderClosed
import Mathlib.Tactic.Linarith
import Mathlib.Tactic.FieldSimp

/-!
# C142: the profiles of photo

Spec: a function of the radius that is positive within the outer radius and zero from there on, decreases and is continuous; arrays are handled element
by element.
-/

namespace Verif.Prof

open Set

noncomputable section

/-- A surface brightness profile that ends at `out`. -/
structure Ends (p : ℝ → ℝ) (out : ℝ) : Prop where
  pos : ∀ r, 0 ≤ r → r < out → 0 < p r
  zero : ∀ r, out ≤ r → p r = 0
  down : ∀ r s, 0 ≤ r → r < s → r < out → p s < p r
  cont : ContinuousOn p (Ici 0)

/-- The value at one radius. -/
def at' (nc : ℝ → ℝ) (cut out r : ℝ) : ℝ :=
  if r > out then 0 else if r > cut then nc r * (1 - ((r - cut) / (out - cut)) ^ 2) ^ 2 else nc r

theorem assign_map (mask : ℝ → Prop) [DecidablePred mask] (f : ℝ → ℝ → ℝ) (g : ℝ → ℝ) (rr : List ℝ) :
    assign mask f rr (rr.map g) = rr.map (fun r => if mask r then f (g r) r else g r) := by
  unfold assign
  induction rr with
  | nil => rfl
  | cons r rr ih => simp only [List.map_cons, List.zipWith_cons_cons, ih]

theorem body_eq (nc : ℝ → ℝ) (cut out : ℝ) (rr : List ℝ) : body nc cut out rr = rr.map (at' nc cut out) := by
  unfold body
  dsimp only
  rw [assign_map, assign_map]
  rfl

/-- A positive, decreasing, continuous function with the taper. -/
theorem ends_of (nc : ℝ → ℝ) (cut out : ℝ) (h0 : 0 < cut) (h1 : cut < out) (hp : ∀ r, 0 < nc r) (hd : ∀ r s, 0 ≤ r → r < s → nc s < nc r)
    (hc : Continuous nc) : Ends (at' nc cut out) out := by
  have hw : 0 < out - cut := by linarith
  -- the taper
  have ht : ∀ r, cut < r → r < out → 0 < (1 - ((r - cut) / (out - cut)) ^ 2) ^ 2 ∧ (1 - ((r - cut) / (out - cut)) ^ 2) ^ 2 ≤ 1 := by
    intro r hr hr'
    have a : 0 < (r - cut) / (out - cut) := div_pos (by linarith) hw
    have b : (r - cut) / (out - cut) < 1 := (div_lt_one hw).2 (by linarith)
    have c : 0 < 1 - ((r - cut) / (out - cut)) ^ 2 := by nlinarith
    exact ⟨by positivity, by nlinarith⟩
  have htd : ∀ r s, cut < r → r < s → s < out → (1 - ((s - cut) / (out - cut)) ^ 2) ^ 2 ≤ (1 - ((r - cut) / (out - cut)) ^ 2) ^ 2 := by
    intro r s hr hrs hs
    have a : 0 < (r - cut) / (out - cut) := div_pos (by linarith) hw
    have a' : (r - cut) / (out - cut) < (s - cut) / (out - cut) := div_lt_div_of_pos_right (by linarith) hw
    have b : (s - cut) / (out - cut) < 1 := (div_lt_one hw).2 (by linarith)
    apply pow_le_pow_left₀ <;> nlinarith
  have hout : ∀ r, out ≤ r → at' nc cut out r = 0 := by
    intro r hr
    unfold at'
    by_cases h : r > out
    · rw [if_pos h]
    · have e : r = out := le_antisymm (not_lt.1 h) hr
      rw [if_neg h, e, if_pos h1, div_self hw.ne']
      norm_num
  have hin : ∀ r, r ≤ cut → at' nc cut out r = nc r := by
    intro r hr
    unfold at'
    rw [if_neg (by linarith), if_neg (by linarith)]
  have hmid : ∀ r, cut < r → r < out → at' nc cut out r = nc r * (1 - ((r - cut) / (out - cut)) ^ 2) ^ 2 := by
    intro r hr hr'
    unfold at'
    rw [if_neg (by linarith), if_pos hr]
  have hpos : ∀ r, r < out → 0 < at' nc cut out r := by
    intro r hr
    by_cases h : r ≤ cut
    · rw [hin r h]; exact hp r
    · rw [hmid r (not_le.1 h) hr]
      exact mul_pos (hp r) (ht r (not_le.1 h) hr).1
  refine ⟨fun r _ hr => hpos r hr, hout, fun r s h hrs hr => ?_, ?_⟩
  · by_cases hs : out ≤ s
    · rw [hout s hs]; exact hpos r hr
    · have hs := not_le.1 hs
      by_cases hs' : s ≤ cut
      · rw [hin s hs', hin r (by linarith)]; exact hd r s h hrs
      · have hs' := not_le.1 hs'
        rw [hmid s hs' hs]
        have hlt := hd r s h hrs
        have tp := ht s hs' hs
        by_cases hr' : r ≤ cut
        · rw [hin r hr']
          nlinarith [hp s, hp r, tp.1, tp.2]
        · rw [hmid r (not_le.1 hr') hr]
          have := htd r s (not_le.1 hr') hrs hs
          calc _ < nc r * (1 - ((s - cut) / (out - cut)) ^ 2) ^ 2 := mul_lt_mul_of_pos_right hlt tp.1
            _ ≤ _ := mul_le_mul_of_nonneg_left this (hp r).le
  · -- the same function with conditions that hold on both sides of each limit
    have e : at' nc cut out = fun r => if r ≤ out then (if r ≤ cut then nc r else nc r * (1 - ((r - cut) / (out - cut)) ^ 2) ^ 2) else 0 := by
      funext r
      unfold at'
      by_cases h : r ≤ out
      · rw [if_neg (not_lt.2 h), if_pos h]
        by_cases h' : r ≤ cut
        · rw [if_neg (not_lt.2 h'), if_pos h']
        · rw [if_pos (not_le.1 h'), if_neg h']
      · rw [if_pos (not_le.1 h), if_neg h]
    rw [e]
    apply Continuous.continuousOn
    refine Continuous.if_le ?_ continuous_const continuous_id continuous_const ?_
    · refine Continuous.if_le hc ?_ continuous_id continuous_const ?_
      · have : out - cut ≠ 0 := hw.ne'
        fun_prop
      · rintro r rfl
        simp
    · rintro r rfl
      rw [if_neg (by linarith), div_self hw.ne']
      norm_num

theorem expNc_ends : Ends (at' expNc (3 * 4 / 4) 4) 4 := by
  refine ends_of _ _ _ (by norm_num) (by norm_num) (fun r => by unfold expNc; positivity) (fun r s _ h => ?_) (by unfold expNc; fun_prop)
  unfold expNc
  have : Real.exp (-1.67835 * (s - 1)) < Real.exp (-1.67835 * (r - 1)) := Real.exp_lt_exp.2 (by linarith)
  linarith

theorem devNc_ends : Ends (at' devNc (7 * 8 / 8) 8) 8 := by
  refine ends_of _ _ _ (by norm_num) (by norm_num) (fun r => by unfold devNc; positivity) (fun r s h0 h => ?_) ?_
  · unfold devNc
    have h1 : (r * r + 0.0004) ^ (0.125 : ℝ) < (s * s + 0.0004) ^ (0.125 : ℝ) :=
      Real.rpow_lt_rpow (by positivity) (by nlinarith) (by norm_num)
    have : Real.exp (-7.66925 * ((s * s + 0.0004) ^ (0.125 : ℝ) - 1)) < Real.exp (-7.66925 * ((r * r + 0.0004) ^ (0.125 : ℝ) - 1)) :=
      Real.exp_lt_exp.2 (by linarith)
    linarith
  · unfold devNc
    have : Continuous (fun r : ℝ => (r * r + 0.0004) ^ (0.125 : ℝ)) :=
      Continuous.rpow_const (by fun_prop) (fun r => Or.inr (by norm_num))
    fun_prop

/-- **C142.** `profile_exp`: element by element a profile that ends at 4 effective radii and is the exponential, 2048 at 1, up to 3. -/
theorem C142_exp : ∃ p : ℝ → ℝ, Ends p 4 ∧ (∀ r, r ≤ 3 → p r = 2048 * Real.exp (-1.67835 * (r - 1))) ∧ (∀ r, 3 < r → r < 4 → p r < 2048 * Real.exp (-1.67835 * (r - 1))) ∧
    (∀ rr, profileExp rr = rr.map p) ∧ ∀ r, scalar profileExp r = some (p r) := by
  refine ⟨_, expNc_ends, fun r hr => ?_, fun r h3 h4 => ?_, fun rr => body_eq _ _ _ rr, fun r => ?_⟩
  · unfold at'
    rw [if_neg (by linarith), if_neg (by norm_num; linarith)]
    rfl
  · unfold at'
    rw [if_neg (by linarith), if_pos (by norm_num; linarith)]
    have : 0 < 2048 * Real.exp (-1.67835 * (r - 1)) := by positivity
    unfold expNc
    apply mul_lt_of_lt_one_right this
    norm_num
    have h1 : 0 < r - 3 := by linarith
    have h2 : r - 3 < 1 := by linarith
    have h3 : 0 < 1 - (r - 3) ^ 2 := by nlinarith
    have h4 : 1 - (r - 3) ^ 2 < 1 := by nlinarith
    rw [abs_of_pos h3]
    exact h4
  · unfold scalar profileExp
    rw [body_eq]
    rfl

/-- **C142.** `profile_dev`: element by element a profile that ends at 8 effective radii and is the softened r^(1/4) law up to 7. -/
theorem C142_dev : ∃ p : ℝ → ℝ, Ends p 8 ∧ (∀ r, r ≤ 7 → p r = 512 * Real.exp (-7.66925 * ((r ^ 2 + 0.02 ^ 2) ^ (1 / 8 : ℝ) - 1))) ∧
    (∀ rr, profileDev rr = rr.map p) ∧ ∀ r, scalar profileDev r = some (p r) := by
  refine ⟨_, devNc_ends, fun r hr => ?_, fun rr => body_eq _ _ _ rr, fun r => ?_⟩
  · unfold at'
    rw [if_neg (by linarith), if_neg (by norm_num; linarith)]
    unfold devNc
    norm_num
    ring_nf
  · unfold scalar profileDev
    rw [body_eq]
    rfl

/-- The doctests: 2048 at the effective radius, 0 at four of them. -/
example : scalar profileExp 1 = some 2048 ∧ scalar profileExp 4 = some 0 ∧ profileExp [1, 4, 5] = [2048, 0, 0] := by
  obtain ⟨p, h, h1, _, h2, h3⟩ := C142_exp
  have e1 : p 1 = 2048 := by rw [h1 1 (by norm_num)]; simp
  refine ⟨by rw [h3, e1], by rw [h3, h.zero 4 le_rfl], ?_⟩
  rw [h2]
  simp only [List.map_cons, List.map_nil, e1, h.zero 4 le_rfl, h.zero 5 (by norm_num)]

end

end Verif.Prof
