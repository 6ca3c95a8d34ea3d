import Verif.Fit.Lemmas4
import Mathlib.Analysis.Calculus.Deriv.Add
import Mathlib.Analysis.Calculus.Deriv.Mul
import Mathlib.Analysis.Calculus.Deriv.Pow

/-!
# Optimization of models that are not linear (C154): vocabulary and lemmas
-/

namespace Verif.Fit

open Verif Params Patches Engine Finset

variable {M : Type}

/-- The tractor with the changes `t X` added to its thawed parameters. -/
noncomputable def along (T : Tractor ℝ M) (X : List ℝ) (t : ℝ) : Tractor ℝ M := setAll T (List.zipWith (· + ·) (getParams T.par) (X.map (t * ·)))

/-- The pixels of the model images are differentiable in the thawed parameters at the present values, in every direction, and the derivatives that
`getDerivs` gets are the true ones. -/
structure Smooth (W : World ℝ M) (hooks : Tractor ℝ M → Nat → Nat → Option (List (Deriv ℝ))) (T : Tractor ℝ M) (D : Nat → Nat → Nat → Nat → ℝ) : Prop where
  model : ∀ X : List ℝ, X.length = numberOfParams T.par → ∀ i b im y x, T.images[i]? = some (b, im) → y < im.data.h → x < im.data.w →
    HasDerivAt (fun t => pixel W (along T X t) i y x) (∑ k ∈ range (numberOfParams T.par), X.getD k 0 * D k i y x) 0
  reported : Reported W hooks T D

/-- The log-probability is defined along the direction `X` and its slope at the present values is `g`. -/
def Slope (W : World ℝ M) (T : Tractor ℝ M) (X : List ℝ) (g : ℝ) : Prop :=
  ∃ f : ℝ → ℝ, (∀ t, logProb W (along T X t) = .ok (.fin (f t))) ∧ HasDerivAt f g 0

/-- The slope of the log-probability is zero in all directions. -/
def Stationary (W : World ℝ M) (T : Tractor ℝ M) : Prop := ∀ Y : List ℝ, Y.length = numberOfParams T.par → Slope W T Y 0

theorem along_zero (T : Tractor ℝ M) (X : List ℝ) (hX : X.length = numberOfParams T.par) : along T X 0 = T := by
  unfold along
  have : List.zipWith (· + ·) (getParams T.par) (X.map ((0 : ℝ) * ·)) = getParams T.par := by
    apply List.ext_getElem
    · simp [hX, getParams_length]
    · intro i i1 i2
      simp
  rw [this, setAll_self]

/-- Square sums of residuals of models with the same values and slopes have the same slope. -/
theorem residual_slope (T : Tractor ℝ M) (m m' : ℝ → Nat → Nat → Nat → ℝ) (d : Nat → Nat → Nat → ℝ)
    (h0 : ∀ i b im y x, T.images[i]? = some (b, im) → y < im.data.h → x < im.data.w → m 0 i y x = m' 0 i y x ∧
      HasDerivAt (fun t => m t i y x) (d i y x) 0 ∧ HasDerivAt (fun t => m' t i y x) (d i y x) 0) :
    HasDerivAt (fun t => ∑ i ∈ range T.images.length, residual T (m t) i - ∑ i ∈ range T.images.length, residual T (m' t) i) 0 0 := by
  have key : ∀ i ∈ range T.images.length, HasDerivAt (fun t => residual T (m t) i - residual T (m' t) i) 0 0 := by
    intro i hi
    replace hi := mem_range.1 hi
    have hT : T.images[i]? = some (T.images[i].1, T.images[i].2) := List.getElem?_eq_getElem hi
    have : ∀ t, residual T (m t) i - residual T (m' t) i = ∑ r ∈ range T.images[i].2.data.h, ∑ c ∈ range T.images[i].2.data.w,
        (((T.images[i].2.data.px r c - m t i r c) * T.images[i].2.inverr.px r c) ^ 2 -
        ((T.images[i].2.data.px r c - m' t i r c) * T.images[i].2.inverr.px r c) ^ 2) := by
      intro t
      unfold residual
      rw [hT]
      dsimp only
      rw [← sum_sub_distrib]
      refine sum_congr rfl (fun r _ => ?_)
      rw [← sum_sub_distrib]
    rw [funext this]
    have z : (0 : ℝ) = ∑ r ∈ range T.images[i].2.data.h, ∑ c ∈ range T.images[i].2.data.w, (0 : ℝ) := by simp
    rw [z]
    refine HasDerivAt.fun_sum (fun r hr => HasDerivAt.fun_sum (fun c hc => ?_))
    obtain ⟨a1, a2, a3⟩ := h0 i _ _ r c hT (mem_range.1 hr) (mem_range.1 hc)
    simp only [sum_const_zero] at *
    have b1 := ((a2.const_sub (T.images[i].2.data.px r c)).mul_const (T.images[i].2.inverr.px r c)).pow 2
    have b2 := ((a3.const_sub (T.images[i].2.data.px r c)).mul_const (T.images[i].2.inverr.px r c)).pow 2
    have b := b1.sub b2
    rw [a1, sub_self] at b
    exact b
  have e : ∀ t, ∑ i ∈ range T.images.length, residual T (m t) i - ∑ i ∈ range T.images.length, residual T (m' t) i =
      ∑ i ∈ range T.images.length, (residual T (m t) i - residual T (m' t) i) := fun t => (sum_sub_distrib ..).symm
  rw [funext e]
  have z : (0 : ℝ) = ∑ i ∈ range T.images.length, (0 : ℝ) := by simp
  rw [z]
  refine HasDerivAt.fun_sum (fun i hi => ?_)
  rw [← z]
  exact key i hi

/-- No change of the thawed parameters but none leaves the linearised model images as they are (in pixels with non-zero inverse error). -/
def Independent (T : Tractor ℝ M) (D : Nat → Nat → Nat → Nat → ℝ) : Prop :=
  ∀ X : List ℝ, X.length = numberOfParams T.par →
    (∀ i b im y x, T.images[i]? = some (b, im) → y < im.data.h → x < im.data.w → im.inverr.px y x ≠ 0 →
      ∑ k ∈ range (numberOfParams T.par), X.getD k 0 * D k i y x = 0) → ∀ k, X.getD k 0 = 0

/-- What `getUpdateDirection` is given, and the slopes of the log-probability. -/
theorem problem_smooth {W : World ℝ M} {hooks : Tractor ℝ M → Nat → Nat → Option (List (Deriv ℝ))} {T : Tractor ℝ M}
    {D : Nat → Nat → Nat → Nat → ℝ} (hl : Smooth W hooks T D) (hr : Ready W hooks T) (o : Opts)
    (ho : o.priors = true ∨ ∀ x ∈ thawedPriors T.par, x.2 = []) :
    ∃ out l ds pr es, getDerivs W (fun T img => getModelImage W T img none true) (hooks T) T = (T, .ok out) ∧
      inputs W o T out = .ok (l, ds, pr) ∧ ds.length = numberOfParams T.par ∧ Lsq.PriorOK ds.length pr es ∧ Lsq.ImagesOK (lsqImgs l) ds ∧
      (∀ k, k < ds.length → Lsq.columnNorm (lsqImgs l) ds es k = effect o T D k) ∧
      (∀ k v, Lsq.IsElement (lsqImgs l) ds es k v → k < ds.length ∧ v ≠ 0 ∧
        ((∃ i b im r c, T.images[i]? = some (b, im) ∧ r < im.data.h ∧ c < im.data.w ∧ v = D k i r c * im.inverr.px r c) ∨
          ∃ s ∈ widths o T k, v = 1 / s)) ∧
      ∀ X : List ℝ, X.length = ds.length → ∃ α β γ, 0 ≤ γ ∧
        (∀ a, Lsq.linearised (lsqImgs l) ds pr (X.map (a * ·)) = α - 2 * a * β + a ^ 2 * γ) ∧ Slope W T X β ∧
        (β = 0 → γ = 0 → ∀ i b im y x, T.images[i]? = some (b, im) → y < im.data.h → x < im.data.w → im.inverr.px y x ≠ 0 →
          ∑ k ∈ range (numberOfParams T.par), X.getD k 0 * D k i y x = 0) := by
  have hmod : ∀ i b im A, T.images[i]? = some (b, im) → getModelImage W T im none true = .ok A →
      ∀ y x, y < im.data.h → x < im.data.w → A.px y x = pixel W T i y x := by
    intro i b im A hi hA y x _ _
    unfold pixel
    rw [hi]
    dsimp only
    rw [hA]
  obtain ⟨out, l, ds, pr, es, C, K, h1, h2, h3, h4, h5, h6, h7, h8, h9, -⟩ := problem_reported hl.reported hr o ho hmod
  refine ⟨out, l, ds, pr, es, h1, h2, h3, h4, h5, h6, h7, fun X hX => ?_⟩
  obtain ⟨α, β, γ, hγ, hq⟩ := quadratic (lsqImgs l) ds pr es ds.length h4 X
  have hz : ∀ (t : ℝ) (k : Nat), (X.map (t * ·)).getD k 0 = t * X.getD k 0 := by
    intro t k
    simp only [List.getD_eq_getElem?_getD, List.getElem?_map]
    cases X[k]? <;> simp
  refine ⟨α, β, γ, hγ, hq, ?_, fun hβ0 hγ0 i b im y x hi hy hx hne => ?_⟩
  rotate_left
  · -- the square of one residual is bounded
    have hb : ∀ a : ℝ, ((im.data.px y x - (pixel W T i y x + a * ∑ k ∈ range (numberOfParams T.par), X.getD k 0 * D k i y x)) * im.inverr.px y x) ^ 2 ≤ α + K := by
      intro a
      have h := h9 (X.map (a * ·)) (by rw [List.length_map, hX])
      rw [hq a, hβ0, hγ0] at h
      have hlin : 0 ≤ linearChi pr (X.map (a * ·)) := by
        rw [linearChi_rep pr es h4.1 h4.2.1]
        unfold entryChi
        refine List.sum_nonneg ?_
        intro v hv
        obtain ⟨e, -, rfl⟩ := List.mem_map.1 hv
        exact sq_nonneg _
      have hle : residual T (fun i y x => pixel W T i y x + ∑ k ∈ range (numberOfParams T.par), (X.map (a * ·)).getD k 0 * D k i y x) i ≤
          ∑ i ∈ range T.images.length, residual T (fun i y x => pixel W T i y x + ∑ k ∈ range (numberOfParams T.par), (X.map (a * ·)).getD k 0 * D k i y x) i := by
        refine single_le_sum (f := fun i => residual T (fun i y x => pixel W T i y x + ∑ k ∈ range (numberOfParams T.par), (X.map (a * ·)).getD k 0 * D k i y x) i)
          (fun i _ => ?_) (mem_range.2 (List.getElem?_eq_some_iff.1 hi).1)
        unfold residual
        split
        · exact le_refl _
        · exact sum_nonneg (fun _ _ => sum_nonneg (fun _ _ => sq_nonneg _))
      have hle2 : ((im.data.px y x - (pixel W T i y x + a * ∑ k ∈ range (numberOfParams T.par), X.getD k 0 * D k i y x)) * im.inverr.px y x) ^ 2 ≤
          residual T (fun i y x => pixel W T i y x + ∑ k ∈ range (numberOfParams T.par), (X.map (a * ·)).getD k 0 * D k i y x) i := by
        unfold residual
        rw [hi]
        dsimp only
        refine le_trans ?_ (single_le_sum (f := fun r => ∑ c ∈ range im.data.w, ((im.data.px r c - (pixel W T i r c +
          ∑ k ∈ range (numberOfParams T.par), (X.map (a * ·)).getD k 0 * D k i r c)) * im.inverr.px r c) ^ 2) (fun r _ => sum_nonneg (fun c _ => sq_nonneg _))
          (mem_range.2 hy))
        refine le_trans (le_of_eq ?_) (single_le_sum (f := fun c => ((im.data.px y c - (pixel W T i y c +
          ∑ k ∈ range (numberOfParams T.par), (X.map (a * ·)).getD k 0 * D k i y c)) * im.inverr.px y c) ^ 2) (fun c _ => sq_nonneg _) (mem_range.2 hx))
        rw [mul_sum]
        congr 5
        funext k
        rw [hz]; ring
      linarith
    by_contra hc
    set c := ∑ k ∈ range (numberOfParams T.par), X.getD k 0 * D k i y x
    have hcw : c * im.inverr.px y x ≠ 0 := mul_ne_zero hc hne
    have hK : 0 ≤ α + K := le_trans (sq_nonneg _) (hb 0)
    have := hb ((im.data.px y x - pixel W T i y x) / c - (α + K + 1) / (c * im.inverr.px y x))
    have e : (im.data.px y x - (pixel W T i y x + ((im.data.px y x - pixel W T i y x) / c - (α + K + 1) / (c * im.inverr.px y x)) * c)) * im.inverr.px y x =
        α + K + 1 := by
      field_simp
      ring
    rw [e] at this
    nlinarith
  have hX' : X.length = numberOfParams T.par := by rw [hX, h3]
  have hXm : ∀ a : ℝ, (X.map (a * ·)).length = numberOfParams T.par := fun a => by rw [List.length_map, hX']
  refine ⟨fun t => C - (1 / 2) * linearChi pr (X.map (t * ·)) + -(1 / 2) * ∑ i ∈ range T.images.length, residual T (pixel W (along T X t)) i, fun t => ?_, ?_⟩
  · unfold along logProb
    rw [(setAll_ok T _).2, h8 _ (hXm t), likelihood_pixel W T hr.mask hr.shape]
    simp only [getLogProb, Except.map, Num.add, Num.isNan, Bool.false_eq_true, if_false]
  · -- the same slope as the linearised problem
    have d1 := residual_slope T (fun t => pixel W (along T X t))
      (fun t i y x => pixel W T i y x + ∑ k ∈ range (numberOfParams T.par), (X.map (t * ·)).getD k 0 * D k i y x)
      (fun i y x => ∑ k ∈ range (numberOfParams T.par), X.getD k 0 * D k i y x) (fun i b im y x hi hy hx => by
        refine ⟨?_, hl.model X hX' i b im y x hi hy hx, ?_⟩
        · rw [along_zero T X hX', sum_eq_zero (fun k _ => by rw [hz, zero_mul, zero_mul]), add_zero]
        · have e : (fun t : ℝ => pixel W T i y x + ∑ k ∈ range (numberOfParams T.par), (X.map (t * ·)).getD k 0 * D k i y x) =
              fun t : ℝ => pixel W T i y x + t * ∑ k ∈ range (numberOfParams T.par), X.getD k 0 * D k i y x := by
            funext t
            rw [mul_sum]
            congr 1
            exact sum_congr rfl (fun k _ => by rw [hz]; ring)
          rw [e]
          have := ((hasDerivAt_id (0 : ℝ)).mul_const (∑ k ∈ range (numberOfParams T.par), X.getD k 0 * D k i y x)).const_add (pixel W T i y x)
          simpa using this)
    have d2 : HasDerivAt (fun t : ℝ => C - (1 / 2) * (α - 2 * t * β + t ^ 2 * γ + K)) β 0 := by
      have a1 := (((hasDerivAt_id (0 : ℝ)).const_mul 2).mul_const β).const_sub α
      have a2 := ((hasDerivAt_id (0 : ℝ)).pow 2).mul_const γ
      have a3 := (((a1.add a2).add_const K).const_mul (1 / 2)).const_sub C
      refine (a3.congr_deriv ?_).congr_of_eventuallyEq (Filter.Eventually.of_forall (fun t => ?_))
      · simp
      · simp
    have d3 := d2.add (d1.const_mul (-(1 / 2)))
    refine (d3.congr_deriv (by ring)).congr_of_eventuallyEq (Filter.Eventually.of_forall (fun t => ?_))
    have := h9 (X.map (t * ·)) (by rw [hXm, h3])
    simp only [Pi.add_apply]
    rw [← hq t]
    linear_combination (-1 / 2) * this

/-- A quadratic that is nowhere smaller than at 0. -/
theorem quadratic_flat (α β γ : ℝ) (hγ : 0 ≤ γ) (h : ∀ a : ℝ, α - 2 * 0 * β + 0 ^ 2 * γ ≤ α - 2 * a * β + a ^ 2 * γ) : β = 0 := by
  rcases hγ.eq_or_lt with h0 | h0
  · have := h β
    rw [← h0] at this
    have h2 : β * β ≤ 0 := by nlinarith
    exact mul_self_eq_zero.1 (le_antisymm h2 (mul_self_nonneg _))
  · have := h (β / γ)
    have e : α - 2 * (β / γ) * β + (β / γ) ^ 2 * γ = α - β ^ 2 / γ := by
      field_simp
      ring
    rw [e] at this
    have h2 : β ^ 2 / γ ≤ 0 := by linarith
    rw [div_le_iff₀ h0] at h2
    exact pow_eq_zero_iff (two_ne_zero) |>.1 (le_antisymm (by linarith) (sq_nonneg _))

/-- A quadratic that is smallest at 1. -/
theorem quadratic_best (α β γ : ℝ) (hγ : 0 ≤ γ) (h : ∀ a : ℝ, α - 2 * 1 * β + 1 ^ 2 * γ ≤ α - 2 * a * β + a ^ 2 * γ) : β = γ := by
  have := quadratic_flat (α - 2 * β + γ) (β - γ) γ hγ (fun a => by
    have := h (1 + a)
    nlinarith)
  linarith

theorem Slope.unique {W : World ℝ M} {T : Tractor ℝ M} {X : List ℝ} {g g' : ℝ} (h : Slope W T X g) (h' : Slope W T X g') : g = g' := by
  obtain ⟨f, a1, a2⟩ := h
  obtain ⟨f', b1, b2⟩ := h'
  have : f = f' := by
    funext t
    have := (a1 t).symm.trans (b1 t)
    injection this with this
    injection this
  subst this
  exact a2.unique b2

/-- A function with positive slope is larger at all small positive arguments. -/
theorem slope_increases (f : ℝ → ℝ) (g : ℝ) (hg : 0 < g) (h : HasDerivAt f g 0) : ∃ δ > 0, ∀ a, 0 < a → a < δ → f 0 < f a := by
  have h1 := (hasDerivAt_iff_isLittleO.1 h).def (half_pos hg)
  obtain ⟨δ, hδ, hb⟩ := Metric.eventually_nhds_iff.1 h1
  refine ⟨δ, hδ, fun a ha had => ?_⟩
  have := hb (y := a) (by rw [Real.dist_eq, sub_zero, abs_of_pos ha]; exact had)
  simp only [sub_zero, smul_eq_mul, Real.norm_eq_abs, abs_of_pos ha] at this
  have := (abs_le.1 this).1
  nlinarith

/-- The direction of `optimize`. -/
theorem direction_smooth (S : Solver ℝ) (hsq : Lsq.SqrtOK S.sqrt) (hS : Lsq.Solves S.lsqr) (W : World ℝ M)
    (hooks : Tractor ℝ M → Nat → Nat → Option (List (Deriv ℝ))) (o : Opts) (T : Tractor ℝ M) (D : Nat → Nat → Nat → Nat → ℝ) (hr : Ready W hooks T)
    (hl : Smooth W hooks T D) (ho : Options S o T D) :
    (direction S W hooks o T = (T, .ok none) ∧ Stationary W T) ∨
    ∃ X g, direction S W hooks o T = (T, .ok (some X)) ∧ X.length = numberOfParams T.par ∧ 0 ≤ g ∧ Slope W T X g ∧ (g = 0 → Stationary W T) ∧
      (g = 0 → Independent T D → ∀ k, X.getD k 0 = 0) := by
  obtain ⟨out, l, ds, pr, es, h1, h2, h3, h4, h5, h6, h7, h8⟩ := problem_smooth hl hr o ho.prior
  have hnt : o.scale = true → Lsq.NoTiny S.sqrt S.tiny (lsqImgs l) ds es := by
    intro hsc k v hv
    obtain ⟨k1, k2, k3⟩ := h7 k v hv
    rw [h6 k k1]
    exact ho.scale hsc k v k2 k3
  have hlast : o.shared = true → 0 < ds.length → Lsq.columnNorm (lsqImgs l) ds es (ds.length - 1) ≠ 0 := by
    intro hsh hpos
    rw [h6 _ (by omega), h3]
    exact ho.shared hsh (by omega)
  have hdir : ∀ r, Lsq.getUpdateDirection S.sqrt S.tiny S.lsqr (lsqImgs l) ds pr o.scale (if o.shared then some (indexMap T.par) else none) = r →
      direction S W hooks o T = (T, r) := by
    intro r hrr
    unfold direction
    rw [h1]
    simp only [h2, hrr]
  have hmz : ∀ X Y : List ℝ, X.length = Y.length → X.map ((0 : ℝ) * ·) = Y.map ((0 : ℝ) * ·) := by
    intro X Y hXY
    apply List.ext_getElem
    · simp [hXY]
    · intro i i1 i2
      simp
  -- stationary if no change is best
  have hst : ∀ Z : List ℝ, Z.length = ds.length → (∀ Y : List ℝ, Y.length = ds.length →
      Lsq.linearised (lsqImgs l) ds pr (Z.map ((0 : ℝ) * ·)) ≤ Lsq.linearised (lsqImgs l) ds pr Y) → Stationary W T := by
    intro Z hZ hmin Y hY
    obtain ⟨α, β, γ, hγ, hq, hs, -⟩ := h8 Y (by rw [hY, h3])
    rw [quadratic_flat α β γ hγ (fun a => by
      rw [← hq 0, ← hq a, hmz Y Z (by rw [hY, hZ, h3])]
      exact hmin _ (by rw [List.length_map, hY, h3]))] at hs
    exact hs
  rcases direction_best S hsq hS (lsqImgs l) ds h5 pr es h4 o.scale o.shared hnt T.par h3 hlast with ⟨e1, e2⟩ | ⟨X, e1, e2⟩
  · refine .inl ⟨hdir _ e1, hst (getParams T.par) (by rw [getParams_length, h3]) (fun Y hY => le_of_eq (e2 _ _ ?_ hY))⟩
    rw [List.length_map, getParams_length, h3]
  · obtain ⟨hX, hmin⟩ := e2
    obtain ⟨α, β, γ, hγ, hq, hs, hi⟩ := h8 X hX
    have hone : X.map ((1 : ℝ) * ·) = X := by simp
    have hβ : β = γ := quadratic_best α β γ hγ (fun a => by
      rw [← hq 1, ← hq a, hone]
      exact hmin _ (by rw [List.length_map, hX]))
    refine .inr ⟨X, β, hdir _ e1, by rw [hX, h3], by rw [hβ]; exact hγ, hs, fun h0 => ?_, fun h0 hind => ?_⟩
    · refine hst X hX (fun Y hY => ?_)
      refine le_trans (le_of_eq ?_) (hmin Y hY)
      rw [hq 0, ← hone, hq 1, ← hβ, h0]
      ring
    · exact hind X (by rw [hX, h3]) (hi h0 (by rw [← hβ, h0]))

end Verif.Fit
