import Verif.Fit.Lemmas4
import Verif.Fit.Var
import Verif.Opt.Props
import Mathlib.Data.List.GetD
import Mathlib.Algebra.BigOperators.Field

/-!
# Pooling pixelsOf (C158): vocabulary and lemmas

Cutting images into pieces, putting them in another order, leaving out pixels without weight, and adding up exposures in which the models are the same
(coadds) are all the same thing: a map from the pixels of one set of images to the pixels of another one.
-/

namespace Verif.Fit

open Verif Params Patches Engine Finset

variable {R M M' : Type} [Field R] [LinearOrder R]

/-- A pixel: the number of the image, and row and column. -/
abbrev Pixel := Σ _ : Nat, Nat × Nat

/-- All pixels of the images of a tractor. -/
def pixelsOf (T : Tractor R M) : Finset Pixel :=
  (range T.images.length).sigma (fun i => range (((T.images[i]?).map (·.2.data.h)).getD 0) ×ˢ range (((T.images[i]?).map (·.2.data.w)).getD 0))

/-- What the data have there. -/
def valueAt (T : Tractor R M) (q : Pixel) : R := ((T.images[q.1]?).map (fun z => z.2.data.px q.2.1 q.2.2)).getD 0

/-- The inverse error there. -/
def weightAt (T : Tractor R M) (q : Pixel) : R := ((T.images[q.1]?).map (fun z => z.2.inverr.px q.2.1 q.2.2)).getD 0

/-- The pixels of `T` that matter are sent to pixels of `T'` by `g`, where the model images have the same values, for all values of the thawed
parameters; the inverse variance of a pixel of `T'` is the sum of those of the pixels sent there.  The prior is the same. -/
structure Aligned (W : World R M) (T : Tractor R M) (W' : World R M') (T' : Tractor R M') (g : Pixel → Pixel) : Prop where
  count : numberOfParams T'.par = numberOfParams T.par
  prior : ∀ p : List R, p.length = numberOfParams T.par → getLogPrior (setParams T'.par p).1 = getLogPrior (setParams T.par p).1
  maps : ∀ q ∈ pixelsOf T, weightAt T q ≠ 0 → g q ∈ pixelsOf T'
  model : ∀ p : List R, p.length = numberOfParams T.par → ∀ q ∈ pixelsOf T, weightAt T q ≠ 0 →
    pixel W' (setAll T' p) (g q).1 (g q).2.1 (g q).2.2 = pixel W (setAll T p) q.1 q.2.1 q.2.2
  weights : ∀ q' ∈ pixelsOf T', weightAt T' q' ^ 2 = ∑ q ∈ pixelsOf T with g q = q', weightAt T q ^ 2

/-- The value of a pixel of `T'` is the weighted mean of the values of the pixels sent there. -/
structure Pools (W : World R M) (T : Tractor R M) (W' : World R M') (T' : Tractor R M') (g : Pixel → Pixel) : Prop extends Aligned W T W' T' g where
  values : ∀ q' ∈ pixelsOf T', weightAt T' q' ^ 2 * valueAt T' q' = ∑ q ∈ pixelsOf T with g q = q', weightAt T q ^ 2 * valueAt T q

/-- The derivatives agree in the pixels that matter. -/
def SameDerivs (T : Tractor R M) (g : Pixel → Pixel) (D D' : Nat → Nat → Nat → Nat → R) : Prop :=
  ∀ k, k < numberOfParams T.par → ∀ q ∈ pixelsOf T, weightAt T q ≠ 0 → D' k (g q).1 (g q).2.1 (g q).2.2 = D k q.1 q.2.1 q.2.2

/-- No change of the thawed parameters but none leaves the linearised model images as they are (in pixels with non-zero inverse error). -/
def Separate (T : Tractor R M) (D : Nat → Nat → Nat → Nat → R) : Prop :=
  ∀ X : List R, X.length = numberOfParams T.par →
    (∀ q ∈ pixelsOf T, weightAt T q ≠ 0 → ∑ k ∈ range (numberOfParams T.par), X.getD k 0 * D k q.1 q.2.1 q.2.2 = 0) → ∀ k, X.getD k 0 = 0

omit [LinearOrder R] in
/-- Sums over the pixels of the images. -/
theorem sum_pixels (T : Tractor R M) (f : Pixel → R) : ∑ q ∈ pixelsOf T, f q = ∑ i ∈ range T.images.length,
    ∑ y ∈ range (((T.images[i]?).map (·.2.data.h)).getD 0), ∑ x ∈ range (((T.images[i]?).map (·.2.data.w)).getD 0), f ⟨i, y, x⟩ := by
  unfold pixelsOf
  rw [sum_sigma]
  exact sum_congr rfl (fun i _ => sum_product ..)

omit [LinearOrder R] in
theorem residual_pixels (T : Tractor R M) (f : Nat → Nat → Nat → R) :
    ∑ i ∈ range T.images.length, residual T f i = ∑ q ∈ pixelsOf T, ((valueAt T q - f q.1 q.2.1 q.2.2) * weightAt T q) ^ 2 := by
  rw [sum_pixels]
  refine sum_congr rfl (fun i hi => ?_)
  have hT := List.getElem?_eq_getElem (mem_range.1 hi)
  unfold residual valueAt weightAt
  simp only [hT, Option.map_some, Option.getD_some]

omit [LinearOrder R] in
/-- A sum over pixels is collected where they are sent. -/
theorem sum_fibres (P P' : Finset Pixel) (g : Pixel → Pixel) (m F : Pixel → R) (h : ∀ q ∈ P, F q ≠ 0 → g q ∈ P') :
    ∑ q ∈ P, m (g q) * F q = ∑ q' ∈ P', m q' * ∑ q ∈ P with g q = q', F q := by
  have : ∀ q' ∈ P', m q' * ∑ q ∈ P with g q = q', F q = ∑ q ∈ P, if g q = q' then m q' * F q else 0 := by
    intro q' _
    rw [sum_filter, mul_sum]
    exact sum_congr rfl (fun q _ => by split <;> simp)
  rw [sum_congr rfl this, sum_comm]
  refine sum_congr rfl (fun q hq => ?_)
  rw [sum_ite_eq]
  by_cases hF : F q = 0
  · simp [hF]
  · rw [if_pos (h q hq hF)]

theorem pools_sum {W : World R M} {T : Tractor R M} {W' : World R M'} {T' : Tractor R M'} {g : Pixel → Pixel} (h : Pools W T W' T' g) (m m' : Pixel → R)
    (hm : ∀ q ∈ pixelsOf T, weightAt T q ≠ 0 → m' (g q) = m q) :
    ∑ q ∈ pixelsOf T, ((valueAt T q - m q) * weightAt T q) ^ 2 = ∑ q ∈ pixelsOf T', ((valueAt T' q - m' q) * weightAt T' q) ^ 2 +
      (∑ q ∈ pixelsOf T, (valueAt T q * weightAt T q) ^ 2 - ∑ q ∈ pixelsOf T', (valueAt T' q * weightAt T' q) ^ 2) := by
  have e1 : ∑ q ∈ pixelsOf T, ((valueAt T q - m q) * weightAt T q) ^ 2 = ∑ q ∈ pixelsOf T, (valueAt T q * weightAt T q) ^ 2 +
      (∑ q ∈ pixelsOf T, m' (g q) ^ 2 * weightAt T q ^ 2 - 2 * ∑ q ∈ pixelsOf T, m' (g q) * (weightAt T q ^ 2 * valueAt T q)) := by
    rw [mul_sum, ← sum_sub_distrib, ← sum_add_distrib]
    refine sum_congr rfl (fun q hq => ?_)
    by_cases hw : weightAt T q = 0
    · simp [hw]
    · rw [hm q hq hw]; ring
  have e2 : ∑ q ∈ pixelsOf T', ((valueAt T' q - m' q) * weightAt T' q) ^ 2 = ∑ q ∈ pixelsOf T', (valueAt T' q * weightAt T' q) ^ 2 +
      (∑ q ∈ pixelsOf T', m' q ^ 2 * weightAt T' q ^ 2 - 2 * ∑ q ∈ pixelsOf T', m' q * (weightAt T' q ^ 2 * valueAt T' q)) := by
    rw [mul_sum, ← sum_sub_distrib, ← sum_add_distrib]
    exact sum_congr rfl (fun q hq => by ring)
  rw [e1, e2, sum_fibres (pixelsOf T) (pixelsOf T') g (fun q => m' q ^ 2) (fun q => weightAt T q ^ 2) (fun q hq hF => h.maps q hq (fun h0 => hF (by simp [h0]))),
    sum_fibres (pixelsOf T) (pixelsOf T') g m' (fun q => weightAt T q ^ 2 * valueAt T q) (fun q hq hF => h.maps q hq (fun h0 => hF (by simp [h0]))),
    sum_congr rfl (fun q' hq' => by rw [← h.weights q' hq'] : ∀ q' ∈ pixelsOf T', m' q' ^ 2 * ∑ q ∈ pixelsOf T with g q = q', weightAt T q ^ 2 = m' q' ^ 2 * weightAt T' q' ^ 2),
    sum_congr rfl (fun q' hq' => by rw [← h.values q' hq'] : ∀ q' ∈ pixelsOf T', m' q' * ∑ q ∈ pixelsOf T with g q = q', weightAt T q ^ 2 * valueAt T q =
      m' q' * (weightAt T' q' ^ 2 * valueAt T' q'))]
  ring

/-- The chi-squared of the pixels about the values they are pooled to. -/
def scatter (T : Tractor R M) (T' : Tractor R M') (g : Pixel → Pixel) : R := ∑ q ∈ pixelsOf T, ((valueAt T q - valueAt T' (g q)) * weightAt T q) ^ 2

theorem pools_chi {W : World R M} {T : Tractor R M} {W' : World R M'} {T' : Tractor R M'} {g : Pixel → Pixel} (h : Pools W T W' T' g) (m m' : Pixel → R)
    (hm : ∀ q ∈ pixelsOf T, weightAt T q ≠ 0 → m' (g q) = m q) :
    ∑ q ∈ pixelsOf T, ((valueAt T q - m q) * weightAt T q) ^ 2 = ∑ q ∈ pixelsOf T', ((valueAt T' q - m' q) * weightAt T' q) ^ 2 + scatter T T' g := by
  have a := pools_sum h m m' hm
  have b := pools_sum h (fun q => valueAt T' (g q)) (valueAt T') (fun _ _ _ => rfl)
  rw [a]
  unfold scatter
  rw [b]
  simp

omit [LinearOrder R] in
/-- Setting parameters changes neither data nor errors. -/
theorem pool_setAll (T : Tractor R M) (p : List R) : pixelsOf (setAll T p) = pixelsOf T ∧ valueAt (setAll T p) = valueAt T ∧ weightAt (setAll T p) = weightAt T := by
  have hsh := (setAll_ok T p).1
  have hlen := hsh.images.length_eq
  have hget : ∀ i : Nat, ((setAll T p).images[i]?).map (fun z : Bool × Image R => (z.2.data, z.2.inverr)) = (T.images[i]?).map (fun z : Bool × Image R => (z.2.data, z.2.inverr)) := by
    intro i
    by_cases hi : i < T.images.length
    · obtain ⟨x', a1, a2⟩ := hsh.image i _ (List.getElem?_eq_getElem hi)
      rw [a1, List.getElem?_eq_getElem hi]
      simp only [Option.map_some, a2.2.2.1, a2.2.2.2]
    · rw [List.getElem?_eq_none (by omega), List.getElem?_eq_none (by omega)]
  refine ⟨?_, ?_, ?_⟩
  · unfold pixelsOf
    rw [← hlen]
    congr 1
    funext i
    have := hget i
    revert this
    cases (setAll T p).images[i]? <;> cases T.images[i]? <;> simp
    intro h1 h2
    rw [h1]
  · funext q
    unfold valueAt
    have := hget q.1
    revert this
    cases (setAll T p).images[q.1]? <;> cases T.images[q.1]? <;> simp
    intro h1 h2
    rw [h1]
  · funext q
    unfold weightAt
    have := hget q.1
    revert this
    cases (setAll T p).images[q.1]? <;> cases T.images[q.1]? <;> simp
    intro h1 h2
    rw [h2]

/-- Pooling does not depend on the present values of the parameters. -/
theorem Pools.setAll {W : World R M} {T : Tractor R M} {W' : World R M'} {T' : Tractor R M'} {g : Pixel → Pixel} (h : Pools W T W' T' g)
    (p : List R) : Pools W (setAll T p) W' (setAll T' p) g := by
  obtain ⟨a1, a2, a3⟩ := pool_setAll T p
  obtain ⟨b1, b2, b3⟩ := pool_setAll T' p
  have hn := setAll_length T p
  have hn' := setAll_length T' p
  refine ⟨⟨by rw [hn, hn', h.count], fun q hq => ?_, by rw [a1, a3, b1]; exact h.maps, fun r hr q hq hw => ?_, by rw [a1, a3, b1, b3]; exact h.weights⟩,
    by rw [a1, a2, a3, b1, b2, b3]; exact h.values⟩
  · rw [hn] at hq
    rw [(setAll_ok T p).2, (setAll_ok T' p).2, Opt.setParams_set _ _ _ hq, Opt.setParams_set _ _ _ (hq.trans h.count.symm)]
    exact h.prior q hq
  · rw [hn] at hr
    rw [a1] at hq
    rw [a3] at hw
    rw [setAll_setAll _ _ _ hr, setAll_setAll _ _ _ (hr.trans h.count.symm)]
    exact h.model r hr q hq hw

/-- The effects of the parameters are the same. -/
theorem pools_effect {W : World R M} {T : Tractor R M} {W' : World R M'} {T' : Tractor R M'} {g : Pixel → Pixel} (h : Pools W T W' T' g)
    (o : Opts) (D D' : Nat → Nat → Nat → Nat → R) (hD : SameDerivs T g D D') (k : Nat) (hk : k < numberOfParams T.par) (hw : widths o T' k = widths o T k) :
    effect o T' D' k = effect o T D k := by
  have e : ∀ {N : Type} (U : Tractor R N) (E : Nat → Nat → Nat → Nat → R), (U.images.zipIdx.map (fun x => ∑ r ∈ range x.1.2.data.h, ∑ c ∈ range x.1.2.data.w,
      (E k x.2 r c * x.1.2.inverr.px r c) ^ 2)).sum = ∑ q ∈ pixelsOf U, E k q.1 q.2.1 q.2.2 ^ 2 * weightAt U q ^ 2 := by
    intro N U E
    rw [sum_getElem, List.length_zipIdx, sum_pixels]
    refine sum_congr rfl (fun i hi => ?_)
    have hT := List.getElem?_eq_getElem (mem_range.1 hi)
    have hz : U.images.zipIdx[i]? = some (U.images[i]'(mem_range.1 hi), i) := by rw [List.getElem?_zipIdx, hT]; simp
    unfold weightAt
    simp only [hT, hz, Option.map_some, Option.getD_some, mul_pow]
  unfold effect
  rw [hw, e, e]
  congr 1
  have : ∑ q ∈ pixelsOf T, D k q.1 q.2.1 q.2.2 ^ 2 * weightAt T q ^ 2 = ∑ q ∈ pixelsOf T, (fun q' : Pixel => D' k q'.1 q'.2.1 q'.2.2 ^ 2) (g q) * weightAt T q ^ 2 := by
    refine sum_congr rfl (fun q hq => ?_)
    by_cases h0 : weightAt T q = 0
    · simp [h0]
    · dsimp only
      rw [hD k hk q hq h0]
  rw [this, sum_fibres (pixelsOf T) (pixelsOf T') g (fun q' : Pixel => D' k q'.1 q'.2.1 q'.2.2 ^ 2) (fun q => weightAt T q ^ 2)
    (fun q hq hF => h.maps q hq (fun h0 => hF (by simp [h0])))]
  exact sum_congr rfl (fun q' hq' => by rw [h.weights q' hq'])

/-! ### The line search -/

omit [LinearOrder R] in
theorem step_length {t : Par R} {X : List R} (hX : X.length = numberOfParams t) (a : R) : (Opt.stepTo (getParams t) X a).length = numberOfParams t := by
  simp [Opt.stepTo, getParams_length, hX]

theorem tryLoop_shift [IsStrictOrderedRing R] (lp lp' : Par R → Num R) (t t' : Par R) (X : List R) (hX : X.length = numberOfParams t)
    (hn : numberOfParams t' = numberOfParams t) (hg : getParams t' = getParams t) (f : R → R) (K : R) (h : ∀ a, lp (Opt.moved t X a) = .fin (f a))
    (h' : ∀ a, lp' (Opt.moved t' X a) = .fin (f a + K)) (as : List R) : ∀ (b : R) (c : Option R) (w : List R),
    ∃ (b' : R) (c' : Option R) (w' : List R),
      Opt.tryLoop lp (getParams t) X as (.fin b) c (setParams t w).1 = ((setParams t w').1, .ok (.fin b', c')) ∧
      Opt.tryLoop lp' (getParams t') X as (.fin (b + K)) c (setParams t' w).1 = ((setParams t' w').1, .ok (.fin (b' + K), c')) := by
  have hX' : X.length = numberOfParams t' := hX.trans hn.symm
  induction as with
  | nil => intro b c w; exact ⟨b, c, w, rfl, rfl⟩
  | cons a as ih =>
    intro b c w
    have s1 : setParams (setParams t w).1 (Opt.stepTo (getParams t) X a) = (Opt.moved t X a, none) := by
      rw [Opt.setParams_set _ _ _ (step_length hX a)]
      exact Prod.ext rfl (setParams_get t _ (step_length hX a)).1
    have s2 : setParams (setParams t' w).1 (Opt.stepTo (getParams t') X a) = (Opt.moved t' X a, none) := by
      rw [Opt.setParams_set _ _ _ (step_length hX' a)]
      exact Prod.ext rfl (setParams_get t' _ (step_length hX' a)).1
    have m1 : Opt.moved t X a = (setParams t (Opt.stepTo (getParams t) X a)).1 := rfl
    have m2 : Opt.moved t' X a = (setParams t' (Opt.stepTo (getParams t) X a)).1 := by rw [← hg]; rfl
    simp only [Opt.tryLoop, s1, s2, h, h', Num.isFinite, Num.sub, Num.add, Num.neg, Num.lt, decide_eq_true_eq, Bool.true_eq_false, if_false]
    have d1 : f a + K < b + K + -1 ↔ f a < b + -1 := ⟨fun _ => by linarith, fun _ => by linarith⟩
    have d2 : b + K < f a + K ↔ b < f a := ⟨fun _ => by linarith, fun _ => by linarith⟩
    simp only [d1, d2]
    by_cases c1 : f a < b + -1
    · simp only [if_pos c1]
      rw [m1, m2]
      exact ⟨b, c, _, rfl, rfl⟩
    · simp only [if_neg c1]
      by_cases c2 : b < f a
      · simp only [if_pos c2]
        rw [m1, m2]
        exact ih _ _ _
      · simp only [if_neg c2]
        rw [m1, m2]
        exact ih _ _ _

/-- Log-probabilities that differ by a constant: the same steps. -/
theorem tryUpdates_shift [IsStrictOrderedRing R] (lp lp' : Par R → Num R) (t t' : Par R) (X : List R) (hX : X.length = numberOfParams t)
    (hn : numberOfParams t' = numberOfParams t) (hg : getParams t' = getParams t) (f : R → R) (K f0 : R) (h : ∀ a, lp (Opt.moved t X a) = .fin (f a))
    (h' : ∀ a, lp' (Opt.moved t' X a) = .fin (f a + K)) (h0 : lp t = .fin f0) (h0' : lp' t' = .fin (f0 + K)) (alphas : List R) :
    ∃ (v : List R) (r : Num R × R), v.length = numberOfParams t ∧ Opt.tryUpdates lp t X alphas = ((setParams t v).1, .ok r) ∧
      Opt.tryUpdates lp' t' X alphas = ((setParams t' v).1, .ok r) := by
  have hX' : X.length = numberOfParams t' := hX.trans hn.symm
  have hl := getParams_length t
  have hl' := getParams_length t'
  obtain ⟨b, c, w, e1, e2⟩ := tryLoop_shift lp lp' t t' X hX hn hg f K h h' alphas f0 none (getParams t)
  rw [setParams_id] at e1
  rw [← hg, setParams_id] at e2
  unfold Opt.tryUpdates
  dsimp only
  rw [h0, h0', hg] at *
  rw [e1, e2]
  cases c with
  | none =>
    dsimp only
    refine ⟨getParams t, (.fin 0, 0), hl, ?_, ?_⟩
    · rw [Opt.setParams_restore, setParams_id]
    · rw [Opt.setParams_set _ _ _ (hl.trans hn.symm)]
      generalize hh : setParams t' (getParams t) = z
      have := (setParams_get t' _ (hl.trans hn.symm)).1
      rw [hh] at this
      obtain ⟨z1, z2⟩ := z
      dsimp only at this
      subst this
      rfl
  | some a =>
    dsimp only
    have hst := step_length hX a
    refine ⟨Opt.stepTo (getParams t) X a, (.fin (b - f0), a), hst, ?_, ?_⟩
    · rw [Opt.setParams_set _ _ _ hst]
      generalize hh : setParams t (Opt.stepTo (getParams t) X a) = z
      have := (setParams_get t _ hst).1
      rw [hh] at this
      obtain ⟨z1, z2⟩ := z
      dsimp only at this
      subst this
      simp [Num.sub, Num.add, Num.neg, sub_eq_add_neg]
    · rw [Opt.setParams_set _ _ _ (hst.trans hn.symm)]
      generalize hh : setParams t' (Opt.stepTo (getParams t) X a) = z
      have := (setParams_get t' _ (hst.trans hn.symm)).1
      rw [hh] at this
      obtain ⟨z1, z2⟩ := z
      dsimp only at this
      subst this
      simp [Num.sub, Num.add, Num.neg, sub_eq_add_neg]

/-! ### The log-probability -/

theorem logprior_ok [IsStrictOrderedRing R] (T : Tractor R M) (h : PriorsOK T.par) (p : List R) (hp : p.length = numberOfParams T.par) :
    ∃ P, getLogPrior (setParams T.par p).1 = .ok P := by
  obtain ⟨pr, es, C, -, -, -, h4⟩ := prior_part ⟨false, false, true⟩ T h (.inl rfl)
  have e : List.zipWith (· + ·) (getParams T.par) (List.zipWith (fun a b => a - b) p (getParams T.par)) = p := by
    apply List.ext_getElem
    · simp [hp, getParams_length]
    · intro i i1 i2
      simp
  have := h4 (List.zipWith (fun a b => a - b) p (getParams T.par)) (by simp [hp, getParams_length])
  rw [e] at this
  exact ⟨_, this⟩

theorem logProb_pixels [IsStrictOrderedRing R] (W : World R M) (T : Tractor R M) (hm : ∀ x ∈ T.images, MasksOK T x.2)
    (hs : ∀ x ∈ T.images, x.2.inverr.h = x.2.data.h ∧ x.2.inverr.w = x.2.data.w ∧ x.2.data.w * x.2.data.h < 2 ^ 31) (p : List R) (P : R)
    (hP : getLogPrior (setParams T.par p).1 = .ok P) : logProb W (setAll T p) = .ok (.fin (P + -(1 / 2) *
      ∑ q ∈ pixelsOf T, ((valueAt T q - pixel W (setAll T p) q.1 q.2.1 q.2.2) * weightAt T q) ^ 2)) := by
  unfold logProb
  rw [(setAll_ok T _).2, hP, likelihood_pixel W T hm hs, residual_pixels]
  simp only [getLogProb, Except.map, Num.add, Num.isNan, Bool.false_eq_true, if_false]

theorem pools_logProb [IsStrictOrderedRing R] {W : World R M} {T : Tractor R M} {W' : World R M'} {T' : Tractor R M'} {g : Pixel → Pixel}
    (h : Pools W T W' T' g) (hm : ∀ x ∈ T.images, MasksOK T x.2)
    (hs : ∀ x ∈ T.images, x.2.inverr.h = x.2.data.h ∧ x.2.inverr.w = x.2.data.w ∧ x.2.data.w * x.2.data.h < 2 ^ 31) (hp : PriorsOK T.par)
    (hm' : ∀ x ∈ T'.images, MasksOK T' x.2)
    (hs' : ∀ x ∈ T'.images, x.2.inverr.h = x.2.data.h ∧ x.2.inverr.w = x.2.data.w ∧ x.2.data.w * x.2.data.h < 2 ^ 31)
    (p : List R) (hl : p.length = numberOfParams T.par) :
    ∃ L, logProb W (setAll T p) = .ok (.fin L) ∧ logProb W' (setAll T' p) = .ok (.fin (L + 1 / 2 * scatter T T' g)) := by
  obtain ⟨P, hP⟩ := logprior_ok T hp p hl
  refine ⟨_, logProb_pixels W T hm hs p P hP, ?_⟩
  rw [logProb_pixels W' T' hm' hs' p P (by rw [h.prior p hl, hP]), pools_chi h (fun q => pixel W (setAll T p) q.1 q.2.1 q.2.2)
    (fun q => pixel W' (setAll T' p) q.1 q.2.1 q.2.2) (h.model p hl)]
  congr 2
  ring

/-! ### The linearised problem -/

section direction

variable [IsStrictOrderedRing R]

omit [LinearOrder R] [IsStrictOrderedRing R] in
theorem getD_zip (f : R → R → R) (hf : f 0 0 = 0) (X Y : List R) (h : X.length = Y.length) (k : Nat) :
    (List.zipWith f X Y).getD k 0 = f (X.getD k 0) (Y.getD k 0) := by
  by_cases hk : k < X.length
  · rw [List.getD_eq_getElem _ _ (by simp; omega), List.getD_eq_getElem _ _ hk, List.getD_eq_getElem _ _ (by omega), List.getElem_zipWith]
  · rw [List.getD_eq_default _ _ (by simp; omega), List.getD_eq_default _ _ (by omega), List.getD_eq_default _ _ (by omega), hf]

/-- Only one update is best. -/
theorem minimiser_unique (P : Finset Pixel) (v w m : Pixel → R) (D : Nat → Pixel → R) (es : List (Entry R)) (n : Nat) (F : List R → R) (K : R)
    (hF : ∀ X : List R, X.length = n → ∑ q ∈ P, ((v q - (m q + ∑ k ∈ range n, X.getD k 0 * D k q)) * w q) ^ 2 + entryChi es X = F X + K)
    (hD : ∀ X : List R, X.length = n → (∀ q ∈ P, w q ≠ 0 → ∑ k ∈ range n, X.getD k 0 * D k q = 0) → ∀ k, X.getD k 0 = 0) (X Y : List R)
    (hX : Lsq.Minimises n F X) (hY : Lsq.Minimises n F Y) : X = Y := by
  have hxy : X.length = Y.length := hX.1.trans hY.1.symm
  have hmid := getD_zip (fun a b : R => (a + b) / 2) (by simp) X Y hxy
  have hdif := getD_zip (fun a b : R => a - b) (by simp) X Y hxy
  have h1 := hF X hX.1
  have h2 := hF Y hY.1
  have h3 := hF (List.zipWith (fun a b => (a + b) / 2) X Y) (by simp [hX.1, hY.1])
  have c1 : ∑ q ∈ P, ((v q - (m q + ∑ k ∈ range n, (List.zipWith (fun a b => (a + b) / 2) X Y).getD k 0 * D k q)) * w q) ^ 2 =
      (∑ q ∈ P, ((v q - (m q + ∑ k ∈ range n, X.getD k 0 * D k q)) * w q) ^ 2 + ∑ q ∈ P, ((v q - (m q + ∑ k ∈ range n, Y.getD k 0 * D k q)) * w q) ^ 2) / 2 -
      (∑ q ∈ P, ((∑ k ∈ range n, (List.zipWith (fun a b => a - b) X Y).getD k 0 * D k q) * w q) ^ 2) / 4 := by
    rw [← sum_add_distrib, sum_div, sum_div, ← sum_sub_distrib]
    refine sum_congr rfl (fun q _ => ?_)
    have a1 : ∑ k ∈ range n, (List.zipWith (fun a b => (a + b) / 2) X Y).getD k 0 * D k q =
        (∑ k ∈ range n, X.getD k 0 * D k q + ∑ k ∈ range n, Y.getD k 0 * D k q) / 2 := by
      rw [← sum_add_distrib, sum_div]
      exact sum_congr rfl (fun k _ => by rw [hmid]; ring)
    have a2 : ∑ k ∈ range n, (List.zipWith (fun a b => a - b) X Y).getD k 0 * D k q =
        ∑ k ∈ range n, X.getD k 0 * D k q - ∑ k ∈ range n, Y.getD k 0 * D k q := by
      rw [← sum_sub_distrib]
      exact sum_congr rfl (fun k _ => by rw [hdif]; ring)
    rw [a1, a2]
    ring
  have c2 : entryChi es (List.zipWith (fun a b => (a + b) / 2) X Y) ≤ (entryChi es X + entryChi es Y) / 2 := by
    unfold entryChi
    simp only [← List.getD_eq_getElem?_getD, hmid]
    clear h1 h2 h3 c1 hF
    induction es with
    | nil => simp
    | cons e es ih =>
      simp only [List.map_cons, List.sum_cons]
      nlinarith [sq_nonneg (e.val * (X.getD e.col 0 - Y.getD e.col 0))]
  have l1 := hX.2 (List.zipWith (fun a b => (a + b) / 2) X Y) (by simp [hX.1, hY.1])
  have l2 := hY.2 (List.zipWith (fun a b => (a + b) / 2) X Y) (by simp [hX.1, hY.1])
  have z : ∑ q ∈ P, ((∑ k ∈ range n, (List.zipWith (fun a b => a - b) X Y).getD k 0 * D k q) * w q) ^ 2 = 0 :=
    le_antisymm (by linarith) (sum_nonneg (fun _ _ => sq_nonneg _))
  rw [sum_eq_zero_iff_of_nonneg (fun _ _ => sq_nonneg _)] at z
  have hz := hD (List.zipWith (fun a b => a - b) X Y) (by simp [hX.1, hY.1]) (fun q hq hw => by
    have := z q hq
    rcases mul_eq_zero.1 (pow_eq_zero_iff two_ne_zero |>.1 this) with h | h
    · exact h
    · exact absurd h hw)
  apply List.ext_getElem hxy
  intro k k1 k2
  have := hz k
  rw [hdif, List.getD_eq_getElem _ _ k1, List.getD_eq_getElem _ _ k2] at this
  exact sub_eq_zero.1 this

/-- What the direction is: the minimum of the linearised problem. -/
theorem direction_pixels (S : Solver R) (hsq : Lsq.SqrtOK S.sqrt) (hS : Lsq.Solves S.lsqr) (W : World R M)
    (hooks : Tractor R M → Nat → Nat → Option (List (Deriv R))) (o : Opts) (T : Tractor R M) (D : Nat → Nat → Nat → Nat → R) (hr : Ready W hooks T)
    (hl : Reported W hooks T D) (ho : Options S o T D) :
    ∃ (F : List R → R) (es : List (Entry R)) (C K : R),
      (∀ X : List R, X.length = numberOfParams T.par → ∑ q ∈ pixelsOf T, ((valueAt T q - (pixel W T q.1 q.2.1 q.2.2 +
        ∑ k ∈ range (numberOfParams T.par), X.getD k 0 * D k q.1 q.2.1 q.2.2)) * weightAt T q) ^ 2 + entryChi es X = F X + K) ∧
      (∀ d : List R, d.length = numberOfParams T.par →
        getLogPrior (setParams T.par (List.zipWith (· + ·) (getParams T.par) d)).1 = .ok (C - (1 / 2) * entryChi es d)) ∧
      ((direction S W hooks o T = (T, .ok none) ∧ ∀ X Y : List R, X.length = numberOfParams T.par → Y.length = numberOfParams T.par → F X = F Y) ∨
        ∃ X, direction S W hooks o T = (T, .ok (some X)) ∧ Lsq.Minimises (numberOfParams T.par) F X) := by
  have hmod : ∀ i b im A, T.images[i]? = some (b, im) → getModelImage W T im none true = .ok A →
      ∀ y x, y < im.data.h → x < im.data.w → A.px y x = pixel W T i y x := by
    intro i b im A hi hA y x _ _
    unfold pixel
    rw [hi]
    dsimp only
    rw [hA]
  obtain ⟨out, l, ds, pr, es, C, K, h1, h2, h3, h4, h5, h6, h7, h8, h9, -⟩ := problem_reported hl hr o ho.prior hmod
  have hchi := linearChi_rep pr es h4.1 h4.2.1
  have hnt : o.scale = true → Lsq.NoTiny S.sqrt S.tiny (lsqImgs l) ds es := by
    intro hsc k v hv
    obtain ⟨k1, k2, k3⟩ := h7 k v hv
    rw [h6 k k1]
    exact ho.scale hsc k v k2 k3
  have hlast : o.shared = true → 0 < ds.length → Lsq.columnNorm (lsqImgs l) ds es (ds.length - 1) ≠ 0 := by
    intro hsh hpos
    rw [h6 _ (by omega), h3]
    exact ho.shared hsh (by omega)
  have hdir : ∀ r, Lsq.getUpdateDirection S.sqrt S.tiny S.lsqr (lsqImgs l) ds pr o.scale (if o.shared then some (indexMap T.par) else none) = r →
      direction S W hooks o T = (T, r) := by
    intro r hrr
    unfold direction
    rw [h1]
    simp only [h2, hrr]
  refine ⟨Lsq.linearised (lsqImgs l) ds pr, es, C, K, fun X hX => ?_, fun d hd => ?_, ?_⟩
  · rw [← h9 X (by rw [hX, h3]), residual_pixels, hchi]
  · rw [h8 d hd, hchi]
  · rcases direction_best S hsq hS (lsqImgs l) ds h5 pr es h4 o.scale o.shared hnt T.par h3 hlast with ⟨e1, e2⟩ | ⟨X, e1, e2⟩
    · rw [h3] at e2
      exact .inl ⟨hdir _ e1, e2⟩
    · rw [h3] at e2
      exact .inr ⟨X, hdir _ e1, e2⟩

/-- The direction is the update `X` or, without parameters, may be None. -/
def Moves (S : Solver R) (W : World R M) (hooks : Tractor R M → Nat → Nat → Option (List (Deriv R))) (o : Opts) (T : Tractor R M) (X : List R) : Prop :=
  direction S W hooks o T = (T, .ok (some X)) ∨ (X = [] ∧ direction S W hooks o T = (T, .ok none))

omit [IsStrictOrderedRing R] in
theorem none_trivial {n : Nat} {F : List R → R} (h : ∀ X Y : List R, X.length = n → Y.length = n → F X = F Y)
    (hu : ∀ X Y : List R, Lsq.Minimises n F X → Lsq.Minimises n F Y → X = Y) : n = 0 := by
  by_contra hn
  have hm : ∀ v : R, Lsq.Minimises n F (List.replicate n v) := fun v => ⟨by simp, fun Y hY => le_of_eq (h _ _ (by simp) hY)⟩
  have := hu _ _ (hm 0) (hm 1)
  obtain ⟨n', rfl⟩ := Nat.exists_eq_succ_of_ne_zero hn
  simp [List.replicate_succ] at this

/-- Both directions are the same. -/
theorem direction_pooled {W : World R M} {T : Tractor R M} {W' : World R M'} {T' : Tractor R M'} {g : Pixel → Pixel} (h : Pools W T W' T' g)
    (hg : getParams T'.par = getParams T.par)
    (S S' : Solver R) (hsq : Lsq.SqrtOK S.sqrt) (hS : Lsq.Solves S.lsqr) (hsq' : Lsq.SqrtOK S'.sqrt) (hS' : Lsq.Solves S'.lsqr)
    (hooks : Tractor R M → Nat → Nat → Option (List (Deriv R))) (hooks' : Tractor R M' → Nat → Nat → Option (List (Deriv R))) (o o' : Opts)
    (D D' : Nat → Nat → Nat → Nat → R) (hr : Ready W hooks T) (hr' : Ready W' hooks' T') (hl : Reported W hooks T D) (hl' : Reported W' hooks' T' D')
    (ho : Options S o T D) (ho' : Options S' o' T' D') (hD : SameDerivs T g D D') (hi : Separate T D) :
    ∃ X, X.length = numberOfParams T.par ∧ Moves S W hooks o T X ∧ Moves S' W' hooks' o' T' X := by
  obtain ⟨F, es, C, K, f1, f2, f3⟩ := direction_pixels S hsq hS W hooks o T D hr hl ho
  obtain ⟨F', es', C', K', g1, g2, g3⟩ := direction_pixels S' hsq' hS' W' hooks' o' T' D' hr' hl' ho'
  have hself : pixel W T = pixel W (setAll T (getParams T.par)) := by rw [setAll_self]
  have hself' : pixel W' T' = pixel W' (setAll T' (getParams T.par)) := by rw [← hg, setAll_self]
  have hu := minimiser_unique (pixelsOf T) (valueAt T) (weightAt T) (fun q => pixel W T q.1 q.2.1 q.2.2) (fun k q => D k q.1 q.2.1 q.2.2) es
    (numberOfParams T.par) F K f1 hi
  -- the two problems differ by a constant
  have hFF : ∀ X : List R, X.length = numberOfParams T.par → F' X = F X + (K - K' - scatter T T' g + 2 * C' - 2 * C) := by
    intro X hX
    have a := f1 X hX
    have b := g1 X (hX.trans h.count.symm)
    have c := f2 X hX
    have d := g2 X (hX.trans h.count.symm)
    rw [hg, h.prior _ (by simp [getParams_length, hX]), c] at d
    injection d with d
    have e := pools_chi h (fun q => pixel W T q.1 q.2.1 q.2.2 + ∑ k ∈ range (numberOfParams T.par), X.getD k 0 * D k q.1 q.2.1 q.2.2)
      (fun q => pixel W' T' q.1 q.2.1 q.2.2 + ∑ k ∈ range (numberOfParams T.par), X.getD k 0 * D' k q.1 q.2.1 q.2.2) (fun q hq hw => by
        rw [hself, hself', h.model _ (getParams_length _) q hq hw]
        congr 1
        exact sum_congr rfl (fun k hk => by rw [hD k (mem_range.1 hk) q hq hw]))
    rw [h.count] at b
    linarith
  have hmm : ∀ X, Lsq.Minimises (numberOfParams T'.par) F' X → Lsq.Minimises (numberOfParams T.par) F X := by
    rw [h.count]
    rintro X ⟨x1, x2⟩
    refine ⟨x1, fun Y hY => ?_⟩
    have := x2 Y hY
    rw [hFF X x1, hFF Y hY] at this
    linarith
  have hu' : ∀ X Y : List R, Lsq.Minimises (numberOfParams T'.par) F' X → Lsq.Minimises (numberOfParams T'.par) F' Y → X = Y :=
    fun X Y hX hY => hu X Y (hmm X hX) (hmm Y hY)
  rcases f3 with ⟨a1, a2⟩ | ⟨X, a1, a2⟩ <;> rcases g3 with ⟨b1, b2⟩ | ⟨Y, b1, b2⟩
  · have := none_trivial a2 hu
    exact ⟨[], by simp [this], .inr ⟨rfl, a1⟩, .inr ⟨rfl, b1⟩⟩
  · have h0 := none_trivial a2 hu
    have hY : Y = [] := by
      have := b2.1
      rw [h.count, h0] at this
      exact List.length_eq_zero_iff.1 this
    subst hY
    exact ⟨[], by simp [h0], .inr ⟨rfl, a1⟩, .inl b1⟩
  · have h0 := none_trivial b2 hu'
    have hX : X = [] := by
      have := a2.1
      rw [← h.count, h0] at this
      exact List.length_eq_zero_iff.1 this
    subst hX
    exact ⟨[], by simp [← h.count, h0], .inl a1, .inr ⟨rfl, b1⟩⟩
  · have := hu X Y a2 (hmm Y b2)
    subst this
    exact ⟨X, a2.1, .inl a1, .inl b1⟩

/-- One call of `optimize`. -/
theorem optimize_pooled {W : World R M} {T : Tractor R M} {W' : World R M'} {T' : Tractor R M'} {g : Pixel → Pixel} (h : Pools W T W' T' g)
    (hg : getParams T'.par = getParams T.par)
    (S S' : Solver R) (hsq : Lsq.SqrtOK S.sqrt) (hS : Lsq.Solves S.lsqr) (hsq' : Lsq.SqrtOK S'.sqrt) (hS' : Lsq.Solves S'.lsqr)
    (hooks : Tractor R M → Nat → Nat → Option (List (Deriv R))) (hooks' : Tractor R M' → Nat → Nat → Option (List (Deriv R))) (o o' : Opts)
    (D D' : Nat → Nat → Nat → Nat → R) (hr : Ready W hooks T) (hr' : Ready W' hooks' T') (hl : Reported W hooks T D) (hl' : Reported W' hooks' T' D')
    (ho : Options S o T D) (ho' : Options S' o' T' D') (hD : SameDerivs T g D D') (hi : Separate T D) (alphas : List R) :
    ∃ (v : List R) (r : Num R × R), v.length = numberOfParams T.par ∧ optimize S W hooks o alphas T = (setAll T v, .ok r) ∧
      optimize S' W' hooks' o' alphas T' = (setAll T' v, .ok r) := by
  obtain ⟨X, hX, m1, m2⟩ := direction_pooled h hg S S' hsq hS hsq' hS' hooks hooks' o o' D D' hr hr' hl hl' ho ho' hD hi
  have hs' : setAll T' (getParams T.par) = T' := by rw [← hg, setAll_self]
  cases X with
  | nil =>
    refine ⟨getParams T.par, (.fin 0, 0), getParams_length _, ?_, ?_⟩
    · rw [setAll_self]
      unfold optimize
      rcases m1 with m | ⟨-, m⟩ <;> rw [m]
    · rw [hs']
      unfold optimize
      rcases m2 with m | ⟨-, m⟩ <;> rw [m]
  | cons x0 X0 =>
    generalize hXX : x0 :: X0 = X at hX m1 m2
    have hne : X ≠ [] := by rw [← hXX]; simp
    replace m1 : direction S W hooks o T = (T, .ok (some X)) := by
      rcases m1 with m | ⟨m, -⟩
      · exact m
      · exact absurd m hne
    replace m2 : direction S' W' hooks' o' T' = (T', .ok (some X)) := by
      rcases m2 with m | ⟨m, -⟩
      · exact m
      · exact absurd m hne
    have hlp := fun p hp => pools_logProb h hr.mask hr.shape hr.prior hr'.mask hr'.shape p hp
    have hstep : ∀ a : R, (List.zipWith (fun p d => p + a * d) (getParams T.par) X).length = numberOfParams T.par := by
      intro a
      simp [getParams_length, hX]
    choose f hf1 hf2 using fun a : R => hlp _ (hstep a)
    obtain ⟨f0, k1, k2⟩ := hlp _ (getParams_length T.par)
    rw [setAll_self] at k1
    rw [hs'] at k2
    obtain ⟨v, r, v1, v2, v3⟩ := tryUpdates_shift (lnp W T) (lnp W' T') T.par T'.par X hX h.count hg f (1 / 2 * scatter T T' g) f0
      (fun a => by
        have := hf1 a
        unfold lnp Opt.moved
        unfold setAll at this
        rw [this])
      (fun a => by
        have := hf2 a
        unfold lnp Opt.moved
        unfold setAll at this
        rw [hg, this])
      (by unfold lnp; rw [withPar_self, k1]) (by unfold lnp; rw [withPar_self, k2]) alphas
    refine ⟨v, r, v1, ?_, ?_⟩
    · unfold optimize
      rw [m1, ← hXX]
      dsimp only
      rw [hXX, v2]
      rfl
    · unfold optimize
      rw [m2, ← hXX]
      dsimp only
      rw [hXX, v3]
      rfl

/-- The loop. -/
theorem loop_pooled {W : World R M} {W' : World R M'} {g : Pixel → Pixel} (S S' : Solver R) (hsq : Lsq.SqrtOK S.sqrt) (hS : Lsq.Solves S.lsqr)
    (hsq' : Lsq.SqrtOK S'.sqrt) (hS' : Lsq.Solves S'.lsqr) (hooks : Tractor R M → Nat → Nat → Option (List (Deriv R)))
    (hooks' : Tractor R M' → Nat → Nat → Option (List (Deriv R))) (o o' : Opts) (alphas : List R) (dchisq : R) (n : Nat) :
    ∀ (step : Nat) (T : Tractor R M) (T' : Tractor R M'), Pools W T W' T' g → getParams T'.par = getParams T.par →
    (∀ p : List R, p.length = numberOfParams T.par → ∃ D D' : Nat → Nat → Nat → Nat → R, Ready W hooks (setAll T p) ∧ Ready W' hooks' (setAll T' p) ∧
      Reported W hooks (setAll T p) D ∧ Reported W' hooks' (setAll T' p) D' ∧ Options S o (setAll T p) D ∧ Options S' o' (setAll T' p) D' ∧
      SameDerivs T g D D' ∧ Separate T D) →
    ∃ (v : List R) (s : Nat), v.length = numberOfParams T.par ∧ loopFrom S W hooks o alphas dchisq n step T = (setAll T v, .ok s) ∧
      loopFrom S' W' hooks' o' alphas dchisq n step T' = (setAll T' v, .ok s) := by
  induction n with
  | zero =>
    intro step T T' h hg hall
    obtain ⟨D, D', r1, r2, r3, r4, r5, r6, r7, r8⟩ := hall (getParams T.par) (getParams_length _)
    rw [setAll_self] at r1 r3 r5
    rw [← hg, setAll_self] at r2 r4 r6
    obtain ⟨v, r, v1, v2, v3⟩ := optimize_pooled h hg S S' hsq hS hsq' hS' hooks hooks' o o' D D' r1 r2 r3 r4 r5 r6 r7 r8 alphas
    refine ⟨v, step, v1, ?_, ?_⟩
    · unfold loopFrom
      rw [v2]
      simp
    · unfold loopFrom
      rw [v3]
      simp
  | succ n ih =>
    intro step T T' h hg hall
    obtain ⟨D, D', r1, r2, r3, r4, r5, r6, r7, r8⟩ := hall (getParams T.par) (getParams_length _)
    rw [setAll_self] at r1 r3 r5
    rw [← hg, setAll_self] at r2 r4 r6
    obtain ⟨v, r, v1, v2, v3⟩ := optimize_pooled h hg S S' hsq hS hsq' hS' hooks hooks' o o' D D' r1 r2 r3 r4 r5 r6 r7 r8 alphas
    obtain ⟨d, a⟩ := r
    by_cases hd : d.le (.fin dchisq) = true
    · refine ⟨v, step, v1, ?_, ?_⟩
      · unfold loopFrom
        rw [v2]
        simp [hd]
      · unfold loopFrom
        rw [v3]
        simp [hd]
    · have hv' : v.length = numberOfParams T'.par := v1.trans h.count.symm
      obtain ⟨c1, c2, c3⟩ := pool_setAll T v
      obtain ⟨w, s, w1, w2, w3⟩ := ih (step + 1) (setAll T v) (setAll T' v) (h.setAll v)
        (by rw [(setAll_ok T v).2, (setAll_ok T' v).2, (setParams_get _ _ v1).2, (setParams_get _ _ hv').2])
        (by
          intro p hp
          rw [setAll_length] at hp
          rw [setAll_setAll _ _ _ hp, setAll_setAll _ _ _ (hp.trans h.count.symm)]
          obtain ⟨D, D', q1, q2, q3, q4, q5, q6, q7, q8⟩ := hall p hp
          refine ⟨D, D', q1, q2, q3, q4, q5, q6, ?_, ?_⟩
          · unfold SameDerivs
            rw [c1, c3, setAll_length]
            exact q7
          · unfold Separate
            rw [c1, c3, setAll_length]
            exact q8)
      rw [setAll_length] at w1
      rw [setAll_setAll _ _ _ w1] at w2
      rw [setAll_setAll _ _ _ (w1.trans h.count.symm)] at w3
      refine ⟨w, s, w1, ?_, ?_⟩
      · unfold loopFrom
        rw [v2]
        simp only [if_neg hd]
        exact w2
      · unfold loopFrom
        rw [v3]
        simp only [if_neg hd]
        exact w3

end direction

end Verif.Fit
