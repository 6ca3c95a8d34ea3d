import Verif.Fit.Pool

/-!
# Units and linear changes of the parameters (C159): vocabulary and lemmas
-/

namespace Verif.Fit

open Verif Params Patches Engine Finset

variable {R M M' : Type} [Field R] [LinearOrder R]

/-- The matrix `B` times the list. -/
def times (n : Nat) (B : Nat → Nat → R) (X : List R) : List R := (List.range n).map (fun j => ∑ k ∈ range n, B j k * X.getD k 0)

/-- The matrix `B` times the list, plus `b`. -/
def affine (n : Nat) (B : Nat → Nat → R) (b : Nat → R) (p : List R) : List R := (List.range n).map (fun j => b j + ∑ k ∈ range n, B j k * p.getD k 0)

/-- `T'` is `T` in other units and other parameters: the data of image `i`, and its models, are multiplied by `c i`, the inverse errors divided by it; and
parameters `p` of `T'` mean the parameters `B p + b` of `T`.  The logarithms of the priors differ by a constant. -/
structure Recast (W : World R M) (T : Tractor R M) (W' : World R M') (T' : Tractor R M') (c : Nat → R) (B : Nat → Nat → R) (b : Nat → R) (C : R) : Prop where
  count : numberOfParams T'.par = numberOfParams T.par
  unit : ∀ i, c i ≠ 0
  pixels : pixelsOf T' = pixelsOf T
  values : ∀ q ∈ pixelsOf T, valueAt T' q = c q.1 * valueAt T q
  weights : ∀ q ∈ pixelsOf T, c q.1 * weightAt T' q = weightAt T q
  invertible : ∃ B' : Nat → Nat → R, ∀ j l, j < numberOfParams T.par → l < numberOfParams T.par →
    ∑ k ∈ range (numberOfParams T.par), B j k * B' k l = if j = l then 1 else 0
  prior : ∀ p : List R, p.length = numberOfParams T.par → ∀ P, getLogPrior (setParams T.par (affine (numberOfParams T.par) B b p)).1 = .ok P →
    getLogPrior (setParams T'.par p).1 = .ok (P + C)
  model : ∀ p : List R, p.length = numberOfParams T.par → ∀ q ∈ pixelsOf T, weightAt T q ≠ 0 →
    pixel W' (setAll T' p) q.1 q.2.1 q.2.2 = c q.1 * pixel W (setAll T (affine (numberOfParams T.par) B b p)) q.1 q.2.1 q.2.2

/-- The derivatives are related by the chain rule, in the pixels that matter. -/
def Chain (T : Tractor R M) (c : Nat → R) (B : Nat → Nat → R) (D D' : Nat → Nat → Nat → Nat → R) : Prop :=
  ∀ k, k < numberOfParams T.par → ∀ q ∈ pixelsOf T, weightAt T q ≠ 0 →
    D' k q.1 q.2.1 q.2.2 = c q.1 * ∑ j ∈ range (numberOfParams T.par), B j k * D j q.1 q.2.1 q.2.2

omit [LinearOrder R] in
theorem times_length (n : Nat) (B : Nat → Nat → R) (X : List R) : (times n B X).length = n := by simp [times]

omit [LinearOrder R] in
theorem affine_length (n : Nat) (B : Nat → Nat → R) (b : Nat → R) (X : List R) : (affine n B b X).length = n := by simp [affine]

omit [LinearOrder R] in
theorem times_getD (n : Nat) (B : Nat → Nat → R) (X : List R) (j : Nat) (hj : j < n) : (times n B X).getD j 0 = ∑ k ∈ range n, B j k * X.getD k 0 := by
  rw [List.getD_eq_getElem _ _ (by rw [times_length]; exact hj)]
  simp [times]

omit [LinearOrder R] in
/-- A step in one is a step in the other. -/
theorem affine_step (n : Nat) (B : Nat → Nat → R) (b : Nat → R) (p X : List R) (hp : p.length = n) (hX : X.length = n) (a : R) :
    affine n B b (Opt.stepTo p X a) = Opt.stepTo (affine n B b p) (times n B X) a := by
  apply List.ext_getElem
  · simp [affine, times, Opt.stepTo]
  · intro i h1 h2
    simp only [affine, times, Opt.stepTo, List.getElem_map, List.getElem_range, List.getElem_zipWith]
    have : ∀ k, (List.zipWith (fun p d => p + a * d) p X).getD k 0 = p.getD k 0 + a * X.getD k 0 :=
      getD_zip (fun p d => p + a * d) (by simp) p X (hp.trans hX.symm)
    simp only [this]
    rw [add_assoc, mul_sum, ← sum_add_distrib]
    congr 1
    exact sum_congr rfl (fun k _ => by ring)

omit [LinearOrder R] in
theorem affine_add (n : Nat) (B : Nat → Nat → R) (b : Nat → R) (p X : List R) (hp : p.length = n) (hX : X.length = n) :
    affine n B b (List.zipWith (· + ·) p X) = List.zipWith (· + ·) (affine n B b p) (times n B X) := by
  have := affine_step n B b p X hp hX 1
  simpa [Opt.stepTo] using this

section

omit [LinearOrder R] in
/-- Every list is reached. -/
theorem times_onto {n : Nat} {B : Nat → Nat → R} (h : ∃ B' : Nat → Nat → R, ∀ j l, j < n → l < n → ∑ k ∈ range n, B j k * B' k l = if j = l then 1 else 0)
    (Y : List R) (hY : Y.length = n) : ∃ X : List R, X.length = n ∧ times n B X = Y := by
  obtain ⟨B', hB⟩ := h
  refine ⟨times n B' Y, times_length n B' Y, ?_⟩
  apply List.ext_getElem
  · rw [times_length, hY]
  · intro j h1 h2
    rw [← List.getD_eq_getElem _ 0 h1, times_getD _ _ _ _ (by omega)]
    have e : ∀ k ∈ range n, B j k * (times n B' Y).getD k 0 = ∑ l ∈ range n, B j k * B' k l * Y.getD l 0 := by
      intro k hk
      rw [times_getD _ _ _ _ (mem_range.1 hk), mul_sum]
      exact sum_congr rfl (fun l _ => by ring)
    rw [sum_congr rfl e, sum_comm]
    have e2 : ∀ l ∈ range n, ∑ k ∈ range n, B j k * B' k l * Y.getD l 0 = if j = l then Y.getD l 0 else 0 := by
      intro l hl
      rw [← sum_mul, hB j l (by omega) (mem_range.1 hl)]
      split <;> simp
    rw [sum_congr rfl e2, sum_ite_eq, if_pos (mem_range.2 (by omega)), List.getD_eq_getElem _ _ h2]

end

/-! ### The line search -/

theorem tryLoop_related [IsStrictOrderedRing R] (lp lp' : Par R → Num R) (t t' : Par R) (X X' : List R) (hX : X.length = numberOfParams t)
    (hX' : X'.length = numberOfParams t') (f : R → R) (K : R) (h : ∀ a, lp (Opt.moved t X a) = .fin (f a))
    (h' : ∀ a, lp' (Opt.moved t' X' a) = .fin (f a + K)) (as : List R) : ∀ (b : R) (c : Option R) (w w' : List R),
    ∃ (e : R) (c' : Option R) (u u' : List R),
      Opt.tryLoop lp (getParams t) X as (.fin b) c (setParams t w).1 = ((setParams t u).1, .ok (.fin e, c')) ∧
      Opt.tryLoop lp' (getParams t') X' as (.fin (b + K)) c (setParams t' w').1 = ((setParams t' u').1, .ok (.fin (e + K), c')) := by
  induction as with
  | nil => intro b c w w'; exact ⟨b, c, w, w', rfl, rfl⟩
  | cons a as ih =>
    intro b c w w'
    have s1 : setParams (setParams t w).1 (Opt.stepTo (getParams t) X a) = (Opt.moved t X a, none) := by
      rw [Opt.setParams_set _ _ _ (step_length hX a)]
      exact Prod.ext rfl (setParams_get t _ (step_length hX a)).1
    have s2 : setParams (setParams t' w').1 (Opt.stepTo (getParams t') X' a) = (Opt.moved t' X' a, none) := by
      rw [Opt.setParams_set _ _ _ (step_length hX' a)]
      exact Prod.ext rfl (setParams_get t' _ (step_length hX' a)).1
    have m1 : Opt.moved t X a = (setParams t (Opt.stepTo (getParams t) X a)).1 := rfl
    have m2 : Opt.moved t' X' a = (setParams t' (Opt.stepTo (getParams t') X' a)).1 := rfl
    simp only [Opt.tryLoop, s1, s2, h, h', Num.isFinite, Num.sub, Num.add, Num.neg, Num.lt, decide_eq_true_eq, Bool.true_eq_false, if_false]
    have d1 : f a + K < b + K + -1 ↔ f a < b + -1 := ⟨fun _ => by linarith, fun _ => by linarith⟩
    have d2 : b + K < f a + K ↔ b < f a := ⟨fun _ => by linarith, fun _ => by linarith⟩
    simp only [d1, d2]
    by_cases c1 : f a < b + -1
    · simp only [if_pos c1]
      rw [m1, m2]
      exact ⟨b, c, _, _, rfl, rfl⟩
    · simp only [if_neg c1]
      by_cases c2 : b < f a
      · simp only [if_pos c2]
        rw [m1, m2]
        exact ih _ _ _ _
      · simp only [if_neg c2]
        rw [m1, m2]
        exact ih _ _ _ _

/-- Where a search ends: at the beginning, or after a fraction of the update. -/
def endAt (p X : List R) : Option R → List R
  | none => p
  | some a => Opt.stepTo p X a

/-- Log-probabilities that differ by a constant along the two updates: the same fractions. -/
theorem tryUpdates_related [IsStrictOrderedRing R] (lp lp' : Par R → Num R) (t t' : Par R) (X X' : List R) (hX : X.length = numberOfParams t)
    (hX' : X'.length = numberOfParams t') (f : R → R) (K f0 : R) (h : ∀ a, lp (Opt.moved t X a) = .fin (f a))
    (h' : ∀ a, lp' (Opt.moved t' X' a) = .fin (f a + K)) (h0 : lp t = .fin f0) (h0' : lp' t' = .fin (f0 + K)) (alphas : List R) :
    ∃ (c : Option R) (r : Num R × R), Opt.tryUpdates lp t X alphas = ((setParams t (endAt (getParams t) X c)).1, .ok r) ∧
      Opt.tryUpdates lp' t' X' alphas = ((setParams t' (endAt (getParams t') X' c)).1, .ok r) := by
  obtain ⟨b, c, w, w', e1, e2⟩ := tryLoop_related lp lp' t t' X X' hX hX' f K h h' alphas f0 none (getParams t) (getParams t')
  rw [setParams_id] at e1
  rw [setParams_id] at e2
  have set : ∀ (t : Par R) (w p : List R), p.length = numberOfParams t → setParams (setParams t w).1 p = ((setParams t p).1, none) := by
    intro t w p hp
    rw [Opt.setParams_set _ _ _ hp]
    exact Prod.ext rfl (setParams_get t p hp).1
  unfold Opt.tryUpdates
  dsimp only
  rw [h0, h0', e1, e2]
  cases c with
  | none =>
    refine ⟨none, (.fin 0, 0), ?_, ?_⟩
    · dsimp only [endAt]
      rw [set t w _ (getParams_length t)]
    · dsimp only [endAt]
      rw [set t' w' _ (getParams_length t')]
  | some a =>
    refine ⟨some a, (.fin (b - f0), a), ?_, ?_⟩
    · dsimp only [endAt]
      rw [set t w _ (step_length hX a)]
      simp [Num.sub, Num.add, Num.neg, sub_eq_add_neg]
    · dsimp only [endAt]
      rw [set t' w' _ (step_length hX' a)]
      simp [Num.sub, Num.add, Num.neg, sub_eq_add_neg]

section recast

variable [IsStrictOrderedRing R]
variable {W : World R M} {T : Tractor R M} {W' : World R M'} {T' : Tractor R M'} {c : Nat → R} {B : Nat → Nat → R} {b : Nat → R} {C : R}

omit [IsStrictOrderedRing R] in
/-- The sums of squares are the same. -/
theorem Recast.chi (h : Recast W T W' T' c B b C) (m m' : Pixel → R) (hm : ∀ q ∈ pixelsOf T, weightAt T q ≠ 0 → m' q = c q.1 * m q) :
    ∑ q ∈ pixelsOf T', ((valueAt T' q - m' q) * weightAt T' q) ^ 2 = ∑ q ∈ pixelsOf T, ((valueAt T q - m q) * weightAt T q) ^ 2 := by
  rw [h.pixels]
  refine sum_congr rfl (fun q hq => ?_)
  have hw := h.weights q hq
  by_cases h0 : weightAt T q = 0
  · rw [h0] at hw
    rcases mul_eq_zero.1 hw with hc | hz
    · exact absurd hc (h.unit _)
    · rw [h0, hz]; ring
  · rw [hm q hq h0, h.values q hq, ← hw]
    ring

theorem Recast.logProb (h : Recast W T W' T' c B b C) (hm : ∀ x ∈ T.images, MasksOK T x.2)
    (hs : ∀ x ∈ T.images, x.2.inverr.h = x.2.data.h ∧ x.2.inverr.w = x.2.data.w ∧ x.2.data.w * x.2.data.h < 2 ^ 31) (hp : PriorsOK T.par)
    (hm' : ∀ x ∈ T'.images, MasksOK T' x.2)
    (hs' : ∀ x ∈ T'.images, x.2.inverr.h = x.2.data.h ∧ x.2.inverr.w = x.2.data.w ∧ x.2.data.w * x.2.data.h < 2 ^ 31)
    (p : List R) (hl : p.length = numberOfParams T.par) :
    ∃ L, Fit.logProb W (setAll T (affine (numberOfParams T.par) B b p)) = .ok (.fin L) ∧ Fit.logProb W' (setAll T' p) = .ok (.fin (L + C)) := by
  obtain ⟨P, hP⟩ := logprior_ok T hp _ (affine_length (numberOfParams T.par) B b p)
  refine ⟨_, logProb_pixels W T hm hs _ P hP, ?_⟩
  rw [logProb_pixels W' T' hm' hs' p _ (h.prior p hl P hP), h.chi (fun q => pixel W (setAll T (affine (numberOfParams T.par) B b p)) q.1 q.2.1 q.2.2)
    (fun q => pixel W' (setAll T' p) q.1 q.2.1 q.2.2) (h.model p hl)]
  congr 2
  ring

omit [IsStrictOrderedRing R] in
/-- This does not depend on the present values. -/
theorem Recast.setAll (h : Recast W T W' T' c B b C) (p p' : List R) : Recast W (setAll T p) W' (setAll T' p') c B b C := by
  obtain ⟨a1, a2, a3⟩ := pool_setAll T p
  obtain ⟨b1, b2, b3⟩ := pool_setAll T' p'
  have hn := setAll_length T p
  have hn' := setAll_length T' p'
  refine ⟨by rw [hn, hn', h.count], h.unit, by rw [a1, b1, h.pixels], by rw [a1, a2, b2]; exact h.values, by rw [a1, a3, b3]; exact h.weights,
    by rw [hn]; exact h.invertible, fun q hq => ?_, fun r hr q hq hw => ?_⟩
  · rw [hn] at hq ⊢
    rw [(setAll_ok T p).2, (setAll_ok T' p').2, Opt.setParams_set _ _ _ (affine_length ..), Opt.setParams_set _ _ _ (hq.trans h.count.symm)]
    exact h.prior q hq
  · rw [hn] at hr ⊢
    rw [a1] at hq
    rw [a3] at hw
    rw [setAll_setAll _ _ _ (affine_length ..), setAll_setAll _ _ _ (hr.trans h.count.symm)]
    exact h.model r hr q hq hw

/-- The directions are the same, in the other parameters. -/
theorem direction_recast (h : Recast W T W' T' c B b C) (hg : getParams T.par = affine (numberOfParams T.par) B b (getParams T'.par))
    (S S' : Solver R) (hsq : Lsq.SqrtOK S.sqrt) (hS : Lsq.Solves S.lsqr) (hsq' : Lsq.SqrtOK S'.sqrt) (hS' : Lsq.Solves S'.lsqr)
    (hooks : Tractor R M → Nat → Nat → Option (List (Deriv R))) (hooks' : Tractor R M' → Nat → Nat → Option (List (Deriv R))) (o o' : Opts)
    (D D' : Nat → Nat → Nat → Nat → R) (hr : Ready W hooks T) (hr' : Ready W' hooks' T') (hl : Reported W hooks T D) (hl' : Reported W' hooks' T' D')
    (ho : Options S o T D) (ho' : Options S' o' T' D') (hD : Chain T c B D D') (hi : Separate T D) :
    ∃ X X', X'.length = numberOfParams T.par ∧ X = times (numberOfParams T.par) B X' ∧ Moves S W hooks o T X ∧ Moves S' W' hooks' o' T' X' := by
  obtain ⟨F, es, C1, K, f1, f2, f3⟩ := direction_pixels S hsq hS W hooks o T D hr hl ho
  obtain ⟨F', es', C1', K', g1, g2, g3⟩ := direction_pixels S' hsq' hS' W' hooks' o' T' D' hr' hl' ho'
  have hlen' : (getParams T'.par).length = numberOfParams T.par := (getParams_length _).trans h.count
  have hself : pixel W T = pixel W (Fit.setAll T (affine (numberOfParams T.par) B b (getParams T'.par))) := by rw [← hg, setAll_self]
  have hself' : pixel W' T' = pixel W' (Fit.setAll T' (getParams T'.par)) := by rw [setAll_self]
  have hu := minimiser_unique (pixelsOf T) (valueAt T) (weightAt T) (fun q => pixel W T q.1 q.2.1 q.2.2) (fun k q => D k q.1 q.2.1 q.2.2) es
    (numberOfParams T.par) F K f1 hi
  -- the two problems differ by a constant
  have hFF : ∀ X : List R, X.length = numberOfParams T.par → F' X = F (times (numberOfParams T.par) B X) + (K - K' + 2 * C1' - 2 * C1 - 2 * C) := by
    intro X hX
    have a := f1 _ (times_length (numberOfParams T.par) B X)
    have b' := g1 X (hX.trans h.count.symm)
    have c' := f2 _ (times_length (numberOfParams T.par) B X)
    have d := g2 X (hX.trans h.count.symm)
    rw [hg, ← affine_add _ _ _ _ _ hlen' hX] at c'
    rw [h.prior _ (by simp [hlen', hX]) _ c'] at d
    injection d with d
    have e := h.chi (fun q => pixel W T q.1 q.2.1 q.2.2 + ∑ k ∈ range (numberOfParams T.par), (times (numberOfParams T.par) B X).getD k 0 * D k q.1 q.2.1 q.2.2)
      (fun q => pixel W' T' q.1 q.2.1 q.2.2 + ∑ k ∈ range (numberOfParams T.par), X.getD k 0 * D' k q.1 q.2.1 q.2.2) (fun q hq hw => by
        rw [hself, hself', h.model _ hlen' q hq hw, mul_add]
        congr 1
        have e1 : ∀ k ∈ range (numberOfParams T.par), X.getD k 0 * D' k q.1 q.2.1 q.2.2 =
            ∑ j ∈ range (numberOfParams T.par), c q.1 * (B j k * X.getD k 0 * D j q.1 q.2.1 q.2.2) := by
          intro k hk
          rw [hD k (mem_range.1 hk) q hq hw, mul_sum, mul_sum]
          exact sum_congr rfl (fun j _ => by ring)
        have e2 : ∀ j ∈ range (numberOfParams T.par), (times (numberOfParams T.par) B X).getD j 0 * D j q.1 q.2.1 q.2.2 =
            ∑ k ∈ range (numberOfParams T.par), B j k * X.getD k 0 * D j q.1 q.2.1 q.2.2 := by
          intro j hj
          rw [times_getD _ _ _ _ (mem_range.1 hj), sum_mul]
        rw [sum_congr rfl e1, sum_congr rfl e2, sum_comm, mul_sum]
        exact sum_congr rfl (fun j _ => by rw [mul_sum]))
    rw [h.count] at b'
    linarith
  have hmm : ∀ X, Lsq.Minimises (numberOfParams T'.par) F' X → Lsq.Minimises (numberOfParams T.par) F (times (numberOfParams T.par) B X) := by
    rw [h.count]
    rintro X ⟨x1, x2⟩
    refine ⟨times_length .., fun Y hY => ?_⟩
    obtain ⟨Z, hZ, rfl⟩ := times_onto h.invertible Y hY
    have := x2 Z hZ
    rw [hFF X x1, hFF Z hZ] at this
    linarith
  have hconst : (∀ X Y : List R, X.length = numberOfParams T'.par → Y.length = numberOfParams T'.par → F' X = F' Y) → numberOfParams T.par = 0 := by
    intro hc
    refine none_trivial (F := F) (fun X Y hX hY => ?_) hu
    obtain ⟨X', hX', rfl⟩ := times_onto h.invertible X hX
    obtain ⟨Y', hY', rfl⟩ := times_onto h.invertible Y hY
    have := hc X' Y' (hX'.trans h.count.symm) (hY'.trans h.count.symm)
    rw [hFF X' hX', hFF Y' hY'] at this
    linarith
  have htriv : numberOfParams T.par = 0 → [] = times (numberOfParams T.par) B [] := by
    intro h0
    rw [h0]
    rfl
  rcases f3 with ⟨a1, a2⟩ | ⟨X, a1, a2⟩ <;> rcases g3 with ⟨b1, b2⟩ | ⟨Y, b1, b2⟩
  · have h0 := none_trivial a2 hu
    exact ⟨[], [], by simp [h0], htriv h0, .inr ⟨rfl, a1⟩, .inr ⟨rfl, b1⟩⟩
  · have h0 := none_trivial a2 hu
    have hY : Y = [] := by
      have := b2.1
      rw [h.count, h0] at this
      exact List.length_eq_zero_iff.1 this
    subst hY
    exact ⟨[], [], by simp [h0], htriv h0, .inr ⟨rfl, a1⟩, .inl b1⟩
  · have h0 := hconst b2
    have hX : X = [] := by
      have := a2.1
      rw [h0] at this
      exact List.length_eq_zero_iff.1 this
    subst hX
    exact ⟨[], [], by simp [h0], htriv h0, .inl a1, .inr ⟨rfl, b1⟩⟩
  · have := hu X _ a2 (hmm Y b2)
    exact ⟨X, Y, b2.1.trans h.count, this, .inl a1, .inl b1⟩

/-- One call of `optimize`. -/
theorem optimize_recast (h : Recast W T W' T' c B b C) (hg : getParams T.par = affine (numberOfParams T.par) B b (getParams T'.par))
    (S S' : Solver R) (hsq : Lsq.SqrtOK S.sqrt) (hS : Lsq.Solves S.lsqr) (hsq' : Lsq.SqrtOK S'.sqrt) (hS' : Lsq.Solves S'.lsqr)
    (hooks : Tractor R M → Nat → Nat → Option (List (Deriv R))) (hooks' : Tractor R M' → Nat → Nat → Option (List (Deriv R))) (o o' : Opts)
    (D D' : Nat → Nat → Nat → Nat → R) (hr : Ready W hooks T) (hr' : Ready W' hooks' T') (hl : Reported W hooks T D) (hl' : Reported W' hooks' T' D')
    (ho : Options S o T D) (ho' : Options S' o' T' D') (hD : Chain T c B D D') (hi : Separate T D) (alphas : List R) :
    ∃ (v : List R) (r : Num R × R), v.length = numberOfParams T.par ∧
      optimize S W hooks o alphas T = (Fit.setAll T (affine (numberOfParams T.par) B b v), .ok r) ∧
      optimize S' W' hooks' o' alphas T' = (Fit.setAll T' v, .ok r) := by
  obtain ⟨X, X', hX', hXX', m1, m2⟩ := direction_recast h hg S S' hsq hS hsq' hS' hooks hooks' o o' D D' hr hr' hl hl' ho ho' hD hi
  have hlen' : (getParams T'.par).length = numberOfParams T.par := (getParams_length _).trans h.count
  have hX : X.length = numberOfParams T.par := by rw [hXX', times_length]
  cases X' with
  | nil =>
    have h0 : numberOfParams T.par = 0 := by simpa using hX'.symm
    have hX0 : X = [] := by rw [h0] at hX; exact List.length_eq_zero_iff.1 hX
    refine ⟨getParams T'.par, (.fin 0, 0), hlen', ?_, ?_⟩
    · rw [← hg, setAll_self]
      unfold optimize
      rw [hX0] at m1
      rcases m1 with m | ⟨-, m⟩ <;> rw [m]
    · rw [setAll_self]
      unfold optimize
      rcases m2 with m | ⟨-, m⟩ <;> rw [m]
  | cons x0 X0 =>
    generalize hXX : x0 :: X0 = X' at *
    have hne' : X' ≠ [] := by rw [← hXX]; simp
    have hne : X ≠ [] := by
      intro h0
      rw [h0] at hX
      rw [← hX] at hX'
      exact hne' (List.length_eq_zero_iff.1 hX')
    replace m1 : direction S W hooks o T = (T, .ok (some X)) := by
      rcases m1 with m | ⟨m, -⟩
      · exact m
      · exact absurd m hne
    replace m2 : direction S' W' hooks' o' T' = (T', .ok (some X')) := by
      rcases m2 with m | ⟨m, -⟩
      · exact m
      · exact absurd m hne'
    have hlp := fun p hp => h.logProb hr.mask hr.shape hr.prior hr'.mask hr'.shape p hp
    have hstep : ∀ a : R, (Opt.stepTo (getParams T'.par) X' a).length = numberOfParams T.par := by
      intro a
      simp [Opt.stepTo, hlen', hX']
    choose f hf1 hf2 using fun a : R => hlp _ (hstep a)
    obtain ⟨f0, k1, k2⟩ := hlp _ hlen'
    rw [← hg, setAll_self] at k1
    rw [setAll_self] at k2
    obtain ⟨cc, r, v2, v3⟩ := tryUpdates_related (lnp W T) (lnp W' T') T.par T'.par X X' hX (hX'.trans h.count.symm) f C f0
      (fun a => by
        have := hf1 a
        rw [affine_step _ _ _ _ _ hlen' hX', ← hg, ← hXX'] at this
        unfold lnp Opt.moved
        unfold Fit.setAll Opt.stepTo at this
        rw [this])
      (fun a => by
        have := hf2 a
        unfold lnp Opt.moved
        unfold Fit.setAll Opt.stepTo at this
        rw [this])
      (by unfold lnp; rw [withPar_self, k1]) (by unfold lnp; rw [withPar_self, k2]) alphas
    refine ⟨endAt (getParams T'.par) X' cc, r, ?_, ?_, ?_⟩
    · cases cc with
      | none => exact hlen'
      | some a => exact hstep a
    · have he : affine (numberOfParams T.par) B b (endAt (getParams T'.par) X' cc) = endAt (getParams T.par) X cc := by
        cases cc with
        | none => exact hg.symm
        | some a =>
          dsimp only [endAt]
          rw [affine_step _ _ _ _ _ hlen' hX', ← hg, ← hXX']
      rw [he]
      unfold optimize
      rw [m1]
      cases X with
      | nil => exact absurd rfl hne
      | cons y0 Y0 =>
        dsimp only
        rw [v2]
        rfl
    · unfold optimize
      rw [m2, ← hXX]
      dsimp only
      rw [hXX, v3]
      rfl

/-- The loop. -/
theorem loop_recast (S S' : Solver R) (hsq : Lsq.SqrtOK S.sqrt) (hS : Lsq.Solves S.lsqr)
    (hsq' : Lsq.SqrtOK S'.sqrt) (hS' : Lsq.Solves S'.lsqr) (hooks : Tractor R M → Nat → Nat → Option (List (Deriv R)))
    (hooks' : Tractor R M' → Nat → Nat → Option (List (Deriv R))) (o o' : Opts) (alphas : List R) (dchisq : R) (n : Nat) :
    ∀ (step : Nat) (T : Tractor R M) (T' : Tractor R M'), Recast W T W' T' c B b C →
    getParams T.par = affine (numberOfParams T.par) B b (getParams T'.par) →
    (∀ p : List R, p.length = numberOfParams T.par → ∃ D D' : Nat → Nat → Nat → Nat → R,
      Ready W hooks (Fit.setAll T (affine (numberOfParams T.par) B b p)) ∧ Ready W' hooks' (Fit.setAll T' p) ∧
      Reported W hooks (Fit.setAll T (affine (numberOfParams T.par) B b p)) D ∧ Reported W' hooks' (Fit.setAll T' p) D' ∧
      Options S o (Fit.setAll T (affine (numberOfParams T.par) B b p)) D ∧ Options S' o' (Fit.setAll T' p) D' ∧ Chain T c B D D' ∧ Separate T D) →
    ∃ (v : List R) (s : Nat), v.length = numberOfParams T.par ∧
      loopFrom S W hooks o alphas dchisq n step T = (Fit.setAll T (affine (numberOfParams T.par) B b v), .ok s) ∧
      loopFrom S' W' hooks' o' alphas dchisq n step T' = (Fit.setAll T' v, .ok s) := by
  induction n with
  | zero =>
    intro step T T' h hg hall
    obtain ⟨D, D', r1, r2, r3, r4, r5, r6, r7, r8⟩ := hall (getParams T'.par) ((getParams_length _).trans h.count)
    rw [← hg, setAll_self] at r1 r3 r5
    rw [setAll_self] at r2 r4 r6
    obtain ⟨v, r, v1, v2, v3⟩ := optimize_recast h hg S S' hsq hS hsq' hS' hooks hooks' o o' D D' r1 r2 r3 r4 r5 r6 r7 r8 alphas
    refine ⟨v, step, v1, ?_, ?_⟩
    · unfold loopFrom
      rw [v2]
      simp
    · unfold loopFrom
      rw [v3]
      simp
  | succ n ih =>
    intro step T T' h hg hall
    obtain ⟨D, D', r1, r2, r3, r4, r5, r6, r7, r8⟩ := hall (getParams T'.par) ((getParams_length _).trans h.count)
    rw [← hg, setAll_self] at r1 r3 r5
    rw [setAll_self] at r2 r4 r6
    obtain ⟨v, r, v1, v2, v3⟩ := optimize_recast h hg S S' hsq hS hsq' hS' hooks hooks' o o' D D' r1 r2 r3 r4 r5 r6 r7 r8 alphas
    obtain ⟨d, a⟩ := r
    by_cases hd : d.le (.fin dchisq) = true
    · refine ⟨v, step, v1, ?_, ?_⟩
      · unfold loopFrom
        rw [v2]
        simp [hd]
      · unfold loopFrom
        rw [v3]
        simp [hd]
    · have hv' : v.length = numberOfParams T'.par := v1.trans h.count.symm
      have ha : ∀ p : List R, (affine (numberOfParams T.par) B b p).length = numberOfParams T.par := fun p => affine_length ..
      obtain ⟨c1, c2, c3⟩ := pool_setAll T (affine (numberOfParams T.par) B b v)
      obtain ⟨w, s, w1, w2, w3⟩ := ih (step + 1) (Fit.setAll T (affine (numberOfParams T.par) B b v)) (Fit.setAll T' v) (h.setAll _ v)
        (by rw [setAll_length, (setAll_ok T _).2, (setAll_ok T' v).2, (setParams_get _ _ (ha v)).2, (setParams_get _ _ hv').2])
        (by
          intro p hp
          rw [setAll_length] at hp ⊢
          rw [setAll_setAll _ _ _ (ha p), setAll_setAll _ _ _ (hp.trans h.count.symm)]
          obtain ⟨D, D', q1, q2, q3, q4, q5, q6, q7, q8⟩ := hall p hp
          refine ⟨D, D', q1, q2, q3, q4, q5, q6, ?_, ?_⟩
          · unfold Chain
            rw [c1, c3, setAll_length]
            exact q7
          · unfold Separate
            rw [c1, c3, setAll_length]
            exact q8)
      rw [setAll_length] at w1 w2
      rw [setAll_setAll _ _ _ (ha w)] at w2
      rw [setAll_setAll _ _ _ (w1.trans h.count.symm)] at w3
      refine ⟨w, s, w1, ?_, ?_⟩
      · unfold loopFrom
        rw [v2]
        simp only [if_neg hd]
        exact w2
      · unfold loopFrom
        rw [v3]
        simp only [if_neg hd]
        exact w3

end recast

end Verif.Fit
