import Verif.Fit.Passes
import Mathlib.Algebra.Order.Archimedean.Basic

/-!
# C162: turns over and over again

Spec: for linear models passes of turns over groups that cover all objects come nearer to the best fit of the whole by a fixed factor per pass, from any
starting values; so they converge to it, also for overlapping objects.
-/

namespace Verif.Fit

open Verif Params Patches Engine Finset

variable {R M : Type} [Field R] [LinearOrder R] [IsStrictOrderedRing R]

/-- `n` passes over the groups. -/
def rounds (n : Nat) (gs : List Group) : List Group := (List.replicate n gs).flatten

/-- **C162, rate.** There is a factor below one, and it does not depend on the starting values: `n` passes of turns from any values end normally, and
what is missing to the largest log-probability afterwards is at most the `n`th power of the factor times what was missing before. -/
theorem C162_rate (S : Solver R) (hsq : Lsq.SqrtOK S.sqrt) (hS : Lsq.Solves S.lsqr) (W : World R M)
    (hooks : Tractor R M → Nat → Nat → Option (List (Deriv R))) (o : Opts) (T : Tractor R M) (base : Nat → Nat → Nat → R) (D : Nat → Nat → Nat → Nat → R)
    (hr : ∀ p : List R, p.length = numberOfParams T.par → Ready W hooks (setAll T p)) (hl : Linear W hooks T base D)
    (gs : List Group) (hc : Covers gs T) (hf : ∀ g ∈ gs, Fits S W hooks o T g) (A B : List R) (hA : ∀ a ∈ A, 0 ≤ a) (hs : (A ++ [1]).Pairwise (· ≤ ·)) :
    ∃ Lb ρ : R, Peak W T Lb ∧ 0 ≤ ρ ∧ ρ < 1 ∧ ∀ (n : Nat) (p : List R), p.length = numberOfParams T.par → ∃ p' L0 L1,
      turns S W hooks o (A ++ 1 :: B) (rounds n gs) (setAll T p) = (setAll T p', .ok ()) ∧ p'.length = numberOfParams T.par ∧
      logProb W (setAll T p) = .ok (.fin L0) ∧ logProb W (setAll T p') = .ok (.fin L1) ∧ L0 ≤ L1 ∧ L1 ≤ Lb ∧ Lb - L1 ≤ ρ ^ n * (Lb - L0) := by
  have hr0 := hr (getParams T.par) (getParams_length _)
  rw [setAll_self] at hr0
  obtain ⟨Lb, hb⟩ := peak_exists W hooks T base D hr0 hl
  obtain ⟨H, hH, hpass⟩ := pass_bound S hsq hS W hooks o T base D hr hl gs hc hf A B hA hs Lb hb
  have hH1 : (0 : R) < H + 1 := by linarith
  have hρ0 : 0 ≤ H / (H + 1) := div_nonneg hH hH1.le
  have hρ1 : H / (H + 1) < 1 := by rw [div_lt_one hH1]; linarith
  refine ⟨Lb, H / (H + 1), hb, hρ0, hρ1, fun n => ?_⟩
  induction n with
  | zero =>
    intro p hp
    obtain ⟨P, L, a1, a2⟩ := logProb_finite (hr p hp) p (by rw [setAll_length]; exact hp)
    rw [setAll_setAll _ _ _ hp] at a2
    exact ⟨p, L, L, rfl, hp, a2, a2, le_refl _, (hb.best p hp L a2).1, by rw [pow_zero, one_mul]⟩
  | succ n ih =>
    intro p hp
    obtain ⟨q, L0, L1, d1, d2, d3, d4, d5, d6⟩ := hpass p hp
    obtain ⟨p', L1', L2, e1, e2, e3, e4, e5, e6, e7⟩ := ih q d2
    rw [d4] at e3
    cases e3
    refine ⟨p', L0, L2, ?_, e2, d3, e4, d5.trans e5, e6, e7.trans ?_⟩
    · show turns S W hooks o (A ++ 1 :: B) (List.replicate (n + 1) gs).flatten (setAll T p) = _
      rw [List.replicate_succ, List.flatten_cons, turns_append S W hooks o _ gs _ _ _ d1]
      exact e1
    · rw [pow_succ, mul_assoc]
      refine mul_le_mul_of_nonneg_left ?_ (pow_nonneg hρ0 n)
      rw [div_mul_eq_mul_div, le_div_iff₀ hH1]
      nlinarith

/-- **C162, convergence.** From any values and for any positive `ε` there is a number of passes after which, and from then on, less than `ε` is missing
to the largest log-probability. -/
theorem C162_converges [Archimedean R] (S : Solver R) (hsq : Lsq.SqrtOK S.sqrt) (hS : Lsq.Solves S.lsqr) (W : World R M)
    (hooks : Tractor R M → Nat → Nat → Option (List (Deriv R))) (o : Opts) (T : Tractor R M) (base : Nat → Nat → Nat → R) (D : Nat → Nat → Nat → Nat → R)
    (hr : ∀ p : List R, p.length = numberOfParams T.par → Ready W hooks (setAll T p)) (hl : Linear W hooks T base D)
    (gs : List Group) (hc : Covers gs T) (hf : ∀ g ∈ gs, Fits S W hooks o T g) (A B : List R) (hA : ∀ a ∈ A, 0 ≤ a) (hs : (A ++ [1]).Pairwise (· ≤ ·)) :
    ∃ Lb, Peak W T Lb ∧ ∀ ε > 0, ∃ N, ∀ n ≥ N, ∃ p L,
      turns S W hooks o (A ++ 1 :: B) (rounds n gs) T = (setAll T p, .ok ()) ∧ p.length = numberOfParams T.par ∧
      logProb W (setAll T p) = .ok (.fin L) ∧ L ≤ Lb ∧ Lb - ε < L := by
  obtain ⟨Lb, ρ, hb, h0, h1, h⟩ := C162_rate S hsq hS W hooks o T base D hr hl gs hc hf A B hA hs
  refine ⟨Lb, hb, fun ε hε => ?_⟩
  obtain ⟨-, L0, -, -, -, a1, -⟩ := h 0 (getParams T.par) (getParams_length _)
  have hL0 := (hb.best _ (getParams_length _) L0 a1).1
  obtain ⟨N, hN⟩ := exists_pow_lt_of_lt_one (div_pos hε (by linarith : 0 < Lb - L0 + 1)) h1
  refine ⟨N, fun n hn => ?_⟩
  obtain ⟨p, L0', L, e1, e2, e3, e4, e5, e6, e7⟩ := h n (getParams T.par) (getParams_length _)
  rw [a1] at e3
  cases e3
  rw [setAll_self] at e1
  refine ⟨p, L, e1, e2, e4, e6, ?_⟩
  have h2 : ρ ^ n < ε / (Lb - L0 + 1) := lt_of_le_of_lt (pow_le_pow_of_le_one h0 h1.le hn) hN
  rw [lt_div_iff₀ (by linarith)] at h2
  have h3 : 0 ≤ ρ ^ n := pow_nonneg h0 n
  nlinarith

/-- **C162, parameters.** If the parameters can be told from the model, they converge to those of the only best fit, by the same kind of rate: the sum of
the squared distances is at most a constant times the `n`th power of the factor times what was missing in log-probability. -/
theorem C162_parameters (S : Solver R) (hsq : Lsq.SqrtOK S.sqrt) (hS : Lsq.Solves S.lsqr) (W : World R M)
    (hooks : Tractor R M → Nat → Nat → Option (List (Deriv R))) (o : Opts) (T : Tractor R M) (base : Nat → Nat → Nat → R) (D : Nat → Nat → Nat → Nat → R)
    (hr : ∀ p : List R, p.length = numberOfParams T.par → Ready W hooks (setAll T p)) (hl : Linear W hooks T base D) (hid : Identifiable W T)
    (gs : List Group) (hc : Covers gs T) (hf : ∀ g ∈ gs, Fits S W hooks o T g) (A B : List R) (hA : ∀ a ∈ A, 0 ≤ a) (hs : (A ++ [1]).Pairwise (· ≤ ·)) :
    ∃ (q : List R) (Lb ρ H : R), q.length = numberOfParams T.par ∧ Best W (setAll T q) ∧ logProb W (setAll T q) = .ok (.fin Lb) ∧ 0 ≤ ρ ∧ ρ < 1 ∧
      ∀ (n : Nat) (p : List R), p.length = numberOfParams T.par → ∃ p' L0,
        turns S W hooks o (A ++ 1 :: B) (rounds n gs) (setAll T p) = (setAll T p', .ok ()) ∧ p'.length = numberOfParams T.par ∧
        logProb W (setAll T p) = .ok (.fin L0) ∧ ∑ k ∈ range (numberOfParams T.par), (p'.getD k 0 - q.getD k 0) ^ 2 ≤ H * (ρ ^ n * (Lb - L0)) := by
  obtain ⟨Lb, ρ, ⟨q, hq, hbq, hLb⟩, h0, h1, h⟩ := C162_rate S hsq hS W hooks o T base D hr hl gs hc hf A B hA hs
  obtain ⟨H, hH, hp⟩ := params_bound W hooks T base D hr hl hid
  refine ⟨q, Lb, ρ, H, hq, hbq, hLb, h0, h1, fun n p hlen => ?_⟩
  obtain ⟨p', L0, L1, e1, e2, e3, e4, -, -, e7⟩ := h n p hlen
  exact ⟨p', L0, e1, e2, e3, (hp p' q e2 hq hbq L1 Lb e4 hLb).trans (mul_le_mul_of_nonneg_left e7 hH)⟩

/-! ### The two overlapping sources of C161 -/

theorem exTwIdent (a b : ℚ) : Identifiable (exTwWorld 1) (exTw true true a b) := by
  intro p p' hp hp' h _
  obtain ⟨a1, b1, rfl⟩ := exTwList p hp
  obtain ⟨a2, b2, rfl⟩ := exTwList p' hp'
  have hpix : ∀ a b : ℚ, ∀ x < 2, pixel (exTwWorld 1) (exTw true true a b) 0 0 x = a * exTwCol 1 0 x + b * exTwCol 1 1 x := by
    intro a b x hx
    obtain ⟨A, e1, e2⟩ := exTwModel 1 true true a b
    unfold pixel
    rw [show (exTw true true a b).images[0]? = some (false, exTwIm) from rfl]
    dsimp only
    rw [e1]
    exact e2 x hx
  have k0 := h 0 false exTwIm 0 0 rfl Nat.one_pos Nat.two_pos (by change (Arr.ofLists [[1, 1]] 2 : Arr ℚ).px 0 0 ≠ 0; decide +kernel)
  have k1 := h 0 false exTwIm 0 1 rfl Nat.one_pos Nat.one_lt_two (by change (Arr.ofLists [[1, 1]] 2 : Arr ℚ).px 0 1 ≠ 0; decide +kernel)
  rw [exTwSet, exTwSet, hpix _ _ 0 Nat.two_pos, hpix _ _ 0 Nat.two_pos] at k0
  rw [exTwSet, exTwSet, hpix _ _ 1 Nat.one_lt_two, hpix _ _ 1 Nat.one_lt_two] at k1
  simp [exTwCol] at k0 k1
  subst k1
  simp at k0
  rw [k0]

/-- A pass: the distance of the second source from its best value is halved. -/
theorem exTwPass (lsqr : Lsq.Problem ℚ → List ℚ) (hl : Lsq.Solves lsqr) (a b : ℚ) : ∃ b1, b1 * 2 = b + 2 ∧
    turns ⟨fun _ => 1, 0, lsqr⟩ (exTwWorld 1) exHooks ⟨false, false, true⟩ [1 / 2, 1] [exTwG 0, exTwG 1] (exTw true true a b) =
      (exTw true true (5 - b) b1, .ok ()) := by
  have hA : ∀ a ∈ [(1 / 2 : ℚ)], 0 ≤ a := by simp
  have hs : ([(1 / 2 : ℚ)] ++ [1]).Pairwise (· ≤ ·) := by simp; norm_num
  obtain ⟨p, r, L0, L1, e1, e2, e3, e4, -⟩ := C161_turn ⟨fun _ => 1, 0, lsqr⟩ (fun _ _ => one_pos) hl (exTwWorld 1) exHooks ⟨false, false, true⟩
    (exTw true true a b) (exTwG 0) (exTwFits _ 1 a b _) [1 / 2] [] hA hs
  obtain ⟨a', b', rfl⟩ := exTwList p e2
  have hb := e3 1 rfl
  rw [exTwSet] at e1 e4
  obtain rfl : b' = b := by simpa [show getParams (exTw true true a b).par = [a, b] from rfl] using hb
  rw [best_focus (exTwReady 1 _ _ _ _)] at e4
  have h5 := e4 [5 - b', b'] rfl (fun k hk => by
    match k, hk with
    | 0, hk => cases hk
    | 1, _ => rfl
    | k + 2, hk => cases hk) _ _ (exTwLogProb 1 a' b') (exTwLogProb 1 (5 - b') b')
  obtain rfl : a' = 5 - b' := by
    have : (5 - b' - a') ^ 2 = 0 := by nlinarith [sq_nonneg (5 - b' - a')]
    have := pow_eq_zero_iff (two_ne_zero) |>.1 this
    linarith
  obtain ⟨p, r', L0', L1', d1, d2, d3, d4, -⟩ := C161_turn ⟨fun _ => 1, 0, lsqr⟩ (fun _ _ => one_pos) hl (exTwWorld 1) exHooks ⟨false, false, true⟩
    (exTw true true (5 - b') b') (exTwG 1) (exTwFits _ 1 _ _ _) [1 / 2] [] hA hs
  obtain ⟨a1, b1, rfl⟩ := exTwList p d2
  have ha := d3 0 rfl
  rw [exTwSet] at d1 d4
  obtain rfl : a1 = 5 - b' := by simpa [show getParams (exTw true true (5 - b') b').par = [5 - b', b'] from rfl] using ha
  rw [best_focus (exTwReady 1 _ _ _ _)] at d4
  refine ⟨b1, ?_, ?_⟩
  · have h := d4 [5 - b', (b' + 2) / 2] rfl (fun k hk => by
      match k, hk with
      | 0, _ => rfl
      | 1, hk => cases hk
      | k + 2, hk => cases hk) _ _ (exTwLogProb 1 (5 - b') b1) (exTwLogProb 1 (5 - b') _)
    have : (2 * b1 - (b' + 2)) ^ 2 = 0 := by nlinarith [sq_nonneg (2 * b1 - (b' + 2))]
    have := pow_eq_zero_iff (two_ne_zero) |>.1 this
    linarith
  · unfold turns
    rw [show ([1 / 2, 1] : List ℚ) = [1 / 2] ++ 1 :: [] from rfl, e1]
    dsimp only
    unfold turns
    rw [d1]
    rfl

/-- Passes from (0, 0) get as near to the largest log-probability, zero, as one likes. -/
example (lsqr : Lsq.Problem ℚ → List ℚ) (hl : Lsq.Solves lsqr) : ∃ N p L,
    turns ⟨fun _ => 1, 0, lsqr⟩ (exTwWorld 1) exHooks ⟨false, false, true⟩ [1 / 2, 1] (rounds N [exTwG 0, exTwG 1]) (exTw true true 0 0) =
      (setAll (exTw true true 0 0) p, .ok ()) ∧ logProb (exTwWorld 1) (setAll (exTw true true 0 0) p) = .ok (.fin L) ∧ -(1 / 1000) < L := by
  obtain ⟨Lb, ⟨q, hq, hb, hLb⟩, h⟩ := C162_converges ⟨fun _ => 1, 0, lsqr⟩ (fun _ _ => one_pos) hl (exTwWorld 1) exHooks ⟨false, false, true⟩
    (exTw true true 0 0) _ _ (exTwAll 1 0 0) (exTwLinear 1 true true 0 0) _ (exTwCovers 0 0) (fun g _ => exTwFits _ 1 0 0 g) [1 / 2] [] (by simp)
    (by simp; norm_num)
  obtain ⟨a, b, rfl⟩ := exTwList q hq
  rw [exTwSet] at hb hLb
  obtain ⟨rfl, rfl⟩ := (exTwBest 1 a b).1 hb
  rw [exTwLogProb] at hLb
  injection hLb with hLb
  injection hLb with hLb
  obtain ⟨N, hN⟩ := h (1 / 1000) (by norm_num)
  obtain ⟨p, L, e1, -, e3, -, e5⟩ := hN N (le_refl _)
  refine ⟨N, p, L, e1, e3, ?_⟩
  norm_num at hLb
  linarith

/-- The factor is below one, and the best fit has log-probability zero. -/
example (lsqr : Lsq.Problem ℚ → List ℚ) (hl : Lsq.Solves lsqr) : ∃ ρ : ℚ, ρ < 1 ∧ ∀ n : Nat, ∃ p' L1,
    turns ⟨fun _ => 1, 0, lsqr⟩ (exTwWorld 1) exHooks ⟨false, false, true⟩ [1 / 2, 1] (rounds n [exTwG 0, exTwG 1]) (exTw true true 1 7) =
      (setAll (exTw true true 0 0) p', .ok ()) ∧ logProb (exTwWorld 1) (setAll (exTw true true 0 0) p') = .ok (.fin L1) ∧ -L1 ≤ ρ ^ n * 17 := by
  obtain ⟨Lb, ρ, ⟨q, hq, hb, hLb⟩, -, h1, h⟩ := C162_rate ⟨fun _ => 1, 0, lsqr⟩ (fun _ _ => one_pos) hl (exTwWorld 1) exHooks ⟨false, false, true⟩
    (exTw true true 0 0) _ _ (exTwAll 1 0 0) (exTwLinear 1 true true 0 0) _ (exTwCovers 0 0) (fun g _ => exTwFits _ 1 0 0 g) [1 / 2] [] (by simp)
    (by simp; norm_num)
  obtain ⟨a, b, rfl⟩ := exTwList q hq
  rw [exTwSet] at hb hLb
  obtain ⟨rfl, rfl⟩ := (exTwBest 1 a b).1 hb
  rw [exTwLogProb] at hLb
  injection hLb with hLb
  injection hLb with hLb
  refine ⟨ρ, h1, fun n => ?_⟩
  obtain ⟨p', L0, L1, e1, -, e3, e4, -, -, e7⟩ := h n [1, 7] rfl
  rw [exTwSet] at e1 e3
  rw [exTwLogProb] at e3
  injection e3 with e3
  injection e3 with e3
  refine ⟨p', L1, e1, e4, ?_⟩
  norm_num at hLb e3
  subst hLb e3
  linarith

/-- The sources converge to 3 and 2. -/
example (lsqr : Lsq.Problem ℚ → List ℚ) (hl : Lsq.Solves lsqr) : ∃ ρ H : ℚ, 0 ≤ ρ ∧ ρ < 1 ∧ ∀ n : Nat, ∃ a b,
    turns ⟨fun _ => 1, 0, lsqr⟩ (exTwWorld 1) exHooks ⟨false, false, true⟩ [1 / 2, 1] (rounds n [exTwG 0, exTwG 1]) (exTw true true 1 7) =
      (exTw true true a b, .ok ()) ∧ (a - 3) ^ 2 + (b - 2) ^ 2 ≤ H * ρ ^ n := by
  obtain ⟨q, Lb, ρ, H, hq, hb, hLb, h0, h1, h⟩ := C162_parameters ⟨fun _ => 1, 0, lsqr⟩ (fun _ _ => one_pos) hl (exTwWorld 1) exHooks ⟨false, false, true⟩
    (exTw true true 0 0) _ _ (exTwAll 1 0 0) (exTwLinear 1 true true 0 0) (exTwIdent 0 0) _ (exTwCovers 0 0) (fun g _ => exTwFits _ 1 0 0 g) [1 / 2] [] (by simp)
    (by simp; norm_num)
  obtain ⟨a, b, rfl⟩ := exTwList q hq
  rw [exTwSet] at hb hLb
  obtain ⟨rfl, rfl⟩ := (exTwBest 1 a b).1 hb
  rw [exTwLogProb] at hLb
  injection hLb with hLb
  injection hLb with hLb
  refine ⟨ρ, H * 17, h0, h1, fun n => ?_⟩
  obtain ⟨p', L0, e1, e2, e3, e4⟩ := h n [1, 7] rfl
  obtain ⟨a', b', rfl⟩ := exTwList p' e2
  rw [exTwSet] at e1 e3
  rw [exTwLogProb] at e3
  injection e3 with e3
  injection e3 with e3
  rw [exTwSet] at e1
  refine ⟨a', b', e1, ?_⟩
  norm_num at hLb e3
  subst hLb e3
  rw [show numberOfParams (exTw true true 0 0).par = 2 from rfl] at e4
  simp only [sum_range_succ, sum_range_zero, zero_add] at e4
  norm_num at e4
  linarith

/-- **C162, never there.** Overlapping sources: no number of passes reaches the best fit. -/
theorem C162_reached_false : ∃ (S : Solver ℚ) (W : World ℚ Unit) (T : Tractor ℚ Unit) (gs : List Group) (base : Nat → Nat → Nat → ℚ)
    (D : Nat → Nat → Nat → Nat → ℚ), Lsq.SqrtOK S.sqrt ∧ Lsq.Solves S.lsqr ∧ (∀ p : List ℚ, p.length = numberOfParams T.par → Ready W exHooks (setAll T p)) ∧
      Linear W exHooks T base D ∧ Covers gs T ∧ (∀ g ∈ gs, Fits S W exHooks ⟨false, false, true⟩ T g) ∧ Identifiable W T ∧
      ∀ n, ∃ T', turns S W exHooks ⟨false, false, true⟩ [1 / 2, 1] (rounds n gs) T = (T', .ok ()) ∧ ¬ Best W T' := by
  obtain ⟨lsqr, hl⟩ := Lsq.solver_exists (R := ℚ)
  refine ⟨⟨fun _ => 1, 0, lsqr⟩, exTwWorld 1, exTw true true 0 0, [exTwG 0, exTwG 1], _, _, fun _ _ => one_pos, hl, exTwAll 1 0 0, exTwLinear 1 true true 0 0, exTwCovers 0 0,
    fun g _ => exTwFits _ 1 0 0 g, exTwIdent 0 0, fun n => ?_⟩
  suffices h : ∀ n a b, b ≠ 2 → ∃ a' b', turns ⟨fun _ => 1, 0, lsqr⟩ (exTwWorld 1) exHooks ⟨false, false, true⟩ [1 / 2, 1] (rounds n [exTwG 0, exTwG 1]) (exTw true true a b) =
      (exTw true true a' b', .ok ()) ∧ b' ≠ 2 by
    obtain ⟨a', b', h1, h2⟩ := h n 0 0 (by norm_num)
    exact ⟨_, h1, fun h => h2 ((exTwBest 1 a' b').1 h).1⟩
  intro n
  induction n with
  | zero => exact fun a b hb => ⟨a, b, rfl, hb⟩
  | succ n ih =>
    intro a b hb
    obtain ⟨b1, h1, h2⟩ := exTwPass lsqr hl a b
    obtain ⟨a2, b2, h3, h4⟩ := ih (5 - b) b1 (fun h => hb (by linarith))
    refine ⟨a2, b2, ?_, h4⟩
    show turns _ _ _ _ _ (List.replicate (n + 1) [exTwG 0, exTwG 1]).flatten _ = _
    rw [List.replicate_succ, List.flatten_cons, turns_append _ _ _ _ _ _ _ _ _ h2]
    exact h3

end Verif.Fit
