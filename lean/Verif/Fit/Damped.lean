import Verif.Fit.Smooth
import Verif.Fit.Var
import Verif.Lsq.Damped

/-!
# `optimize(damp=d)` (C157): vocabulary and lemmas
-/

namespace Verif.Fit

open Verif Params Patches Engine Finset

section
variable {R M : Type} [Field R] [LinearOrder R]

/-- The unit of parameter `k`: with `scale_columns` the (approximate) square root of its effect, otherwise 1. -/
def unit (S : Solver R) (o : Opts) (T : Tractor R M) (D : Nat → Nat → Nat → Nat → R) (k : Nat) : R :=
  if o.scale = true ∧ 0 < S.sqrt (effect o T D k) then S.sqrt (effect o T D k) else 1

/-- The squared length of a change of the parameters, in these units. -/
def squaredLength (u : Nat → R) (X : List R) : R := ∑ k ∈ range X.length, (u k * X.getD k 0) ^ 2

/-- The log-probability `Lb` at the values `b` is the largest, and away from `b` it falls at least like the square of the distance over `2 C`. -/
structure Firm (W : World R M) (T : Tractor R M) (u : Nat → R) (C : R) (b : List R) (Lb : R) : Prop where
  length : b.length = numberOfParams T.par
  best : logProb W (setAll T b) = .ok (.fin Lb)
  falls : ∀ p : List R, p.length = numberOfParams T.par → ∃ L, logProb W (setAll T p) = .ok (.fin L) ∧
    squaredLength u (List.zipWith (· - ·) b p) ≤ C * (2 * (Lb - L))

variable [IsStrictOrderedRing R]

omit [LinearOrder R] [IsStrictOrderedRing R] in
theorem squaredLength_smul (u : Nat → R) (X : List R) (a : R) : squaredLength u (X.map (a * ·)) = a ^ 2 * squaredLength u X := by
  unfold squaredLength
  rw [List.length_map, mul_sum]
  refine sum_congr rfl (fun k hk => ?_)
  rw [List.getD_eq_getElem?_getD, List.getElem?_map, List.getD_eq_getElem?_getD]
  cases X[k]? <;> simp
  ring

theorem squaredLength_nonneg (u : Nat → R) (X : List R) : 0 ≤ squaredLength u X := sum_nonneg (fun _ _ => sq_nonneg _)

theorem unit_ne (S : Solver R) (o : Opts) (T : Tractor R M) (D : Nat → Nat → Nat → Nat → R) (k : Nat) : unit S o T D k ≠ 0 := Lsq.unitOf_ne S.sqrt o.scale _

theorem squaredLength_zero (u : Nat → R) (hu : ∀ k, u k ≠ 0) (X : List R) (h : squaredLength u X = 0) (k : Nat) : X.getD k 0 = 0 := by
  by_cases hk : k < X.length
  · have := (sum_eq_zero_iff_of_nonneg (fun i _ => sq_nonneg _)).1 h k (mem_range.2 hk)
    have := pow_eq_zero_iff (two_ne_zero) |>.1 this
    exact (mul_eq_zero.1 this).resolve_left (hu k)
  · rw [List.getD_eq_getElem?_getD, List.getElem?_eq_none (by omega), Option.getD_none]

/-- The direction with damping. -/
theorem direction_penalised (S : Solver R) (hsq : Lsq.SqrtOK S.sqrt) (d : R) (hS : Lsq.DampSolves d S.lsqr) (o : Opts) (T : Tractor R M)
    (D : Nat → Nat → Nat → Nat → R) (ho : Options S o T D) (imgs : Nat → Lsq.Img R) (ds : Lsq.Derivs R) (hI : Lsq.ImagesOK imgs ds)
    (pr : Option (PriorDerivs R)) (es : List (Entry R)) (hes : Lsq.PriorOK ds.length pr es) (hn : ds.length = numberOfParams T.par)
    (h6 : ∀ k, k < ds.length → Lsq.columnNorm imgs ds es k = effect o T D k)
    (h7 : ∀ k v, Lsq.IsElement imgs ds es k v → k < ds.length ∧ v ≠ 0 ∧
        ((∃ i b im r c, T.images[i]? = some (b, im) ∧ r < im.data.h ∧ c < im.data.w ∧ v = D k i r c * im.inverr.px r c) ∨
          ∃ s ∈ widths o T k, v = 1 / s)) :
    (Lsq.getUpdateDirection S.sqrt S.tiny S.lsqr imgs ds pr o.scale (if o.shared then some (indexMap T.par) else none) = .ok none ∧
      ∀ X Y : List R, X.length = ds.length → Y.length = ds.length → Lsq.linearised imgs ds pr X = Lsq.linearised imgs ds pr Y) ∨
    ∃ X, Lsq.getUpdateDirection S.sqrt S.tiny S.lsqr imgs ds pr o.scale (if o.shared then some (indexMap T.par) else none) = .ok (some X) ∧
      Lsq.Minimises ds.length (fun X => Lsq.linearised imgs ds pr X + d ^ 2 * squaredLength (unit S o T D) X) X := by
  have hnt : o.scale = true → Lsq.NoTiny S.sqrt S.tiny imgs ds es := by
    intro hsc k v hv
    obtain ⟨k1, k2, k3⟩ := h7 k v hv
    rw [h6 k k1]
    exact ho.scale hsc k v k2 k3
  have hlast : o.shared = true → 0 < ds.length → Lsq.columnNorm imgs ds es (ds.length - 1) ≠ 0 := by
    intro hsh hpos
    rw [h6 _ (by omega), hn]
    exact ho.shared hsh (by omega)
  rcases Lsq.direction_damped S.sqrt hsq S.tiny d S.lsqr hS imgs ds hI pr es hes o.scale hnt (if o.shared then some (indexMap T.par) else none) (by
    cases h : o.shared with
    | false => exact .inl rfl
    | true => exact .inr ⟨by rw [if_pos rfl, indexMap_range, hn], hlast h⟩) with h | ⟨X, h1, h2, h3⟩
  · exact .inl h
  · have e : ∀ Y : List R, Y.length = ds.length → Lsq.size (fun c => Lsq.unitOf S.sqrt o.scale (Lsq.columnNorm imgs ds es c)) ds.length Y =
        squaredLength (unit S o T D) Y := by
      intro Y hY
      unfold Lsq.size squaredLength
      rw [hY]
      refine sum_congr rfl (fun k hk => ?_)
      dsimp only
      rw [h6 k (mem_range.1 hk)]
      rfl
    refine .inr ⟨X, h1, h2, fun Y hY => ?_⟩
    have := h3 Y hY
    dsimp only at this ⊢
    rw [e X h2, e Y hY] at this
    exact this

/-- One call of `optimize` with damping, models that are linear. -/
theorem optimize_damped (S : Solver R) (hsq : Lsq.SqrtOK S.sqrt) (d : R) (hS : Lsq.DampSolves d S.lsqr) (W : World R M)
    (hooks : Tractor R M → Nat → Nat → Option (List (Deriv R))) (o : Opts) (T : Tractor R M) (base : Nat → Nat → Nat → R)
    (D : Nat → Nat → Nat → Nat → R) (hr : Ready W hooks T) (hl : Linear W hooks T base D) (ho : Options S o T D) (A B : List R)
    (hA : ∀ a ∈ A, 0 ≤ a) (hs : (A ++ [1]).Pairwise (· ≤ ·)) :
    ∃ T' r p L0 L1, optimize S W hooks o (A ++ 1 :: B) T = (T', .ok r) ∧ p.length = numberOfParams T.par ∧ T' = setAll T p ∧
      logProb W T = .ok (.fin L0) ∧ logProb W T' = .ok (.fin L1) ∧ r.1 = .fin (L1 - L0) ∧ L0 ≤ L1 ∧ (Best W T → T' = T) ∧
      (d ≠ 0 → (∀ a ∈ B, a ≤ 1) → Best W T' → T' = T) ∧
      ∀ C b Lb, 0 < C → Firm W T (unit S o T D) C b Lb → Lb - L1 ≤ d ^ 2 * C / (1 + d ^ 2 * C) * (Lb - L0) := by
  obtain ⟨out, l, ds, pr, es, K, h1, h2, h3, h4, h5, h6, h7, h8, h9⟩ := problem_ok hl hr o ho.prior
  have hp0 : (getParams T.par).length = numberOfParams T.par := getParams_length _
  have hdiff : ∀ q : List R, q.length = numberOfParams T.par →
      (List.zipWith (· - ·) q (getParams T.par)).length = ds.length ∧
      List.zipWith (· + ·) (getParams T.par) (List.zipWith (· - ·) q (getParams T.par)) = q := by
    intro q hq
    refine ⟨by rw [List.length_zipWith, hq, hp0, Nat.min_self, h3], ?_⟩
    apply List.ext_getElem
    · simp [hq, hp0]
    · intro i i1 i2
      simp
  have hzero : ∀ X : List R, X.length = ds.length → List.zipWith (· + ·) (getParams T.par) (X.map ((0 : R) * ·)) = getParams T.par := by
    intro X hX
    apply List.ext_getElem
    · simp [hX, hp0, h3]
    · intro i i1 i2
      simp
  have hT0 : ∀ X : List R, X.length = ds.length →
      logProb W T = .ok (.fin (K - (1 / 2) * Lsq.linearised (lsqImgs l) ds pr (X.map ((0 : R) * ·)))) := by
    intro X hX
    rw [← h8 _ (by rw [List.length_map, hX]), hzero X hX, setAll_self]
  have hdir : ∀ r, Lsq.getUpdateDirection S.sqrt S.tiny S.lsqr (lsqImgs l) ds pr o.scale (if o.shared then some (indexMap T.par) else none) = r →
      direction S W hooks o T = (T, r) := by
    intro r hrr
    unfold direction
    rw [h1]
    simp only [h2, hrr]
  -- how far from the maximum
  have rate : ∀ L0 L1 v, logProb W T = .ok (.fin L0) → L1 = K - (1 / 2) * v →
      (∀ Y : List R, Y.length = ds.length → v ≤ Lsq.linearised (lsqImgs l) ds pr Y + d ^ 2 * squaredLength (unit S o T D) Y) →
      ∀ C b Lb, 0 < C → Firm W T (unit S o T D) C b Lb → Lb - L1 ≤ d ^ 2 * C / (1 + d ^ 2 * C) * (Lb - L0) := by
    intro L0 L1 v hL0 hL1 hv C b Lb hC hF
    obtain ⟨x1, x2⟩ := hdiff b hF.length
    obtain ⟨L, f1, f2⟩ := hF.falls (getParams T.par) hp0
    rw [setAll_self, hL0] at f1
    injection f1 with f1
    injection f1 with f1
    subst f1
    set Z := List.zipWith (· - ·) b (getParams T.par) with hZ
    obtain ⟨α, β, γ, hγ, hq⟩ := quadratic (lsqImgs l) ds pr es ds.length h4 Z
    have hb := hF.best
    have hone : Z.map ((1 : R) * ·) = Z := by simp
    rw [← x2, h8 Z x1, ← hone, hq 1] at hb
    injection hb with hb
    injection hb with hb
    have h0 := hT0 Z x1
    rw [hL0, hq 0] at h0
    injection h0 with h0
    injection h0 with h0
    have hβ : β = γ := quadratic_min α β γ hγ (fun a => by
      obtain ⟨L', g1, g2⟩ := hF.falls (List.zipWith (· + ·) (getParams T.par) (Z.map (a * ·))) (by
        rw [List.length_zipWith, hp0, List.length_map, x1, h3, Nat.min_self])
      rw [h8 _ (by rw [List.length_map, x1]), hq a] at g1
      injection g1 with g1
      injection g1 with g1
      have := le_trans (squaredLength_nonneg _ _) g2
      have := (mul_nonneg_iff_of_pos_left hC).1 this
      linarith)
    subst hβ
    have hd : 0 ≤ d ^ 2 * C := mul_nonneg (sq_nonneg _) hC.le
    have hpos : 0 < 1 + d ^ 2 * C := by linarith
    have hv1 := hv (Z.map ((1 / (1 + d ^ 2 * C)) * ·)) (by rw [List.length_map, x1])
    rw [hq, squaredLength_smul] at hv1
    have hgap : Lb - L0 = (1 / 2) * β := by rw [← hb, h0]; ring
    rw [hgap] at f2 ⊢
    have f3 : d ^ 2 * ((1 / (1 + d ^ 2 * C)) ^ 2 * squaredLength (unit S o T D) Z) ≤ d ^ 2 * ((1 / (1 + d ^ 2 * C)) ^ 2 * (C * β)) := by
      refine mul_le_mul_of_nonneg_left (mul_le_mul_of_nonneg_left ?_ (sq_nonneg _)) (sq_nonneg _)
      linarith
    have e : α - 2 * (1 / (1 + d ^ 2 * C)) * β + (1 / (1 + d ^ 2 * C)) ^ 2 * β + d ^ 2 * ((1 / (1 + d ^ 2 * C)) ^ 2 * (C * β)) =
        α - 2 * 1 * β + 1 ^ 2 * β + d ^ 2 * C / (1 + d ^ 2 * C) * β := by
      field_simp
      ring
    have f4 : v ≤ α - 2 * 1 * β + 1 ^ 2 * β + d ^ 2 * C / (1 + d ^ 2 * C) * β := by linarith
    rw [hL1, ← hb]
    linarith
  rcases direction_penalised S hsq d hS o T D ho (lsqImgs l) ds h5 pr es h4 h3 h6 h7 with ⟨e1, e2⟩ | ⟨X, e1, e2⟩
  · -- nothing has an effect
    have hz := hT0 (getParams T.par) (by rw [hp0, h3])
    refine ⟨T, (.fin 0, 0), getParams T.par, _, _, by unfold optimize; rw [hdir _ e1], hp0, (setAll_self T).symm, hz, hz, by rw [sub_self], le_refl _,
      fun _ => rfl, fun _ _ _ => rfl, rate _ _ _ hz rfl (fun Y hY => ?_)⟩
    rw [e2 _ Y (by rw [List.length_map, hp0, h3]) hY]
    have := mul_nonneg (sq_nonneg d) (squaredLength_nonneg (unit S o T D) Y)
    linarith
  · obtain ⟨hX, hmin⟩ := e2
    dsimp only at hmin
    cases X with
    | nil =>
      have hd0 : (0 : Nat) = ds.length := hX
      have hz := hT0 [] hd0
      refine ⟨T, (.fin 0, 0), getParams T.par, _, _, by unfold optimize; rw [hdir _ e1], hp0, (setAll_self T).symm, hz, hz, by rw [sub_self], le_refl _,
        fun _ => rfl, fun _ _ _ => rfl, rate _ _ _ hz rfl (fun Y hY => ?_)⟩
      have := hmin Y hY
      have h0 := mul_nonneg (sq_nonneg d) (squaredLength_nonneg (unit S o T D) ([] : List R))
      rw [List.map_nil]
      linarith
    | cons x0 X0 =>
      generalize hXX : x0 :: X0 = X at e1 hX hmin
      obtain ⟨α, β, γ, hγ, hq⟩ := quadratic (lsqImgs l) ds pr es ds.length h4 X
      have hone : X.map ((1 : R) * ·) = X := by simp
      have hpen := mul_nonneg (sq_nonneg d) (squaredLength_nonneg (unit S o T D) X)
      set π := d ^ 2 * squaredLength (unit S o T D) X with hπ
      have hβ : β = γ + π := quadratic_min α β (γ + π) (by linarith) (fun a => by
        have := hmin (X.map (a * ·)) (by rw [List.length_map, hX])
        rw [← hone, hq 1, hone, hq a, squaredLength_smul] at this
        have e : d ^ 2 * (a ^ 2 * squaredLength (unit S o T D) X) = a ^ 2 * π := by rw [hπ]; ring
        rw [e] at this
        linarith)
      have hmoved : ∀ a : R, withPar T (Opt.moved T.par X a) = setAll T (List.zipWith (· + ·) (getParams T.par) (X.map (a * ·))) := by
        intro a
        unfold setAll Opt.moved
        rw [List.zipWith_map_right]
      have hlm : ∀ a : R, lnp W T (Opt.moved T.par X a) = .fin (K - (1 / 2) * (α - 2 * a * β + a ^ 2 * γ)) := by
        intro a
        unfold lnp
        rw [hmoved, h8 _ (by rw [List.length_map, hX]), hq]
      have hz := hT0 X hX
      rw [hq 0] at hz
      have hl0 : lnp W T T.par = .fin (K - (1 / 2) * (α - 2 * 0 * β + 0 ^ 2 * γ)) := by
        unfold lnp
        rw [withPar_self, hz]
      have hinc : ∀ a b : R, a ≤ b → b ≤ 1 → K - (1 / 2) * (α - 2 * a * β + a ^ 2 * γ) ≤ K - (1 / 2) * (α - 2 * b * β + b ^ 2 * γ) := by
        intro a b hab hb
        have e : (α - 2 * a * β + a ^ 2 * γ) - (α - 2 * b * β + b ^ 2 * γ) = (b - a) * ((2 - a - b) * γ + 2 * π) := by rw [hβ]; ring
        have : 0 ≤ (b - a) * ((2 - a - b) * γ + 2 * π) := mul_nonneg (by linarith) (add_nonneg (mul_nonneg (by linarith) hγ) (by linarith))
        linarith
      obtain ⟨t', dd, a, c, f1, f2, f3, f4, f5, f6⟩ := search_climb (lnp W T) T.par X A B (by rw [hX, h3])
        (fun a => K - (1 / 2) * (α - 2 * a * β + a ^ 2 * γ)) hl0 hlm hinc hA hs
      obtain ⟨p, hpl, hp⟩ : ∃ p : List R, p.length = numberOfParams T.par ∧ withPar T t' = setAll T p := by
        rcases f4 with rfl | ⟨rfl, -⟩
        · exact ⟨getParams T.par, hp0, by rw [withPar_self, setAll_self]⟩
        · exact ⟨_, by rw [List.length_zipWith, hp0, List.length_map, hX, h3, Nat.min_self], hmoved a⟩
      have hf2 : logProb W (withPar T t') = .ok (.fin (K - (1 / 2) * (α - 2 * c * β + c ^ 2 * γ))) := by
        unfold lnp at f2
        cases hL : logProb W (withPar T t') with
        | error e => rw [hL] at f2; cases f2
        | ok v => rw [hL] at f2; dsimp only at f2; rw [f2]
      have h01 := hinc 0 1 zero_le_one (le_refl _)
      refine ⟨withPar T t', (dd, a), p, _, _, ?_, hpl, hp, hz, hf2, f5, le_trans h01 f3, ?_, ?_, ?_⟩
      · unfold optimize
        rw [hdir _ e1, ← hXX]
        dsimp only
        rw [hXX, f1]
      · rintro ⟨L, hL, hb⟩
        rw [hz] at hL
        injection hL with hL
        injection hL with hL
        rcases f4 with rfl | ⟨rfl, -⟩
        · rw [withPar_self]
        obtain ⟨L', b1, b2⟩ := hb _ (by rw [List.length_zipWith, hp0, List.length_map, hX, h3, Nat.min_self] :
          (List.zipWith (· + ·) (getParams T.par) (X.map (a * ·))).length = numberOfParams T.par)
        rw [← hmoved a, hf2] at b1
        injection b1 with b1
        injection b1 with b1
        rw [f6 (by rw [b1, hL]; exact b2), withPar_self]
      · rintro hd hB ⟨L, hL, hb⟩
        rcases f4 with rfl | ⟨rfl, ha⟩
        · rw [withPar_self]
        have ha1 : a ≤ 1 := by
          rcases List.mem_append.1 ha with ha | ha
          · exact (List.pairwise_append.1 hs).2.2 a ha 1 (by simp)
          · rcases List.mem_cons.1 ha with rfl | ha
            · exact le_refl _
            · exact hB a ha
        have hq' : β - (a - 1) * γ = γ := quadratic_min (α - 2 * (a - 1) * β + (a - 1) ^ 2 * γ) (β - (a - 1) * γ) γ hγ (fun s => by
          have hlen : (List.zipWith (· + ·) (getParams T.par) (X.map ((a - 1 + s) * ·))).length = numberOfParams T.par := by
            rw [List.length_zipWith, hp0, List.length_map, hX, h3, Nat.min_self]
          rw [hmoved a, h8 _ (by rw [List.length_map, hX]), hq a] at hL
          injection hL with hL
          injection hL with hL
          obtain ⟨L', b1, b2⟩ := hb _ (by rw [hmoved a, setAll_length]; exact hlen)
          rw [hmoved a, setAll_setAll _ _ _ hlen, h8 _ (by rw [List.length_map, hX]), hq] at b1
          injection b1 with b1
          injection b1 with b1
          rw [← hL, ← b1] at b2
          linarith)
        have hπ0 : d ^ 2 * squaredLength (unit S o T D) X = 0 := by
          have := mul_nonneg (sub_nonneg.2 ha1) hγ
          rw [← hπ]
          linarith
        have h0 := squaredLength_zero _ (unit_ne S o T D) X ((mul_eq_zero.1 hπ0).resolve_left (pow_ne_zero 2 hd))
        have e : X.map (a * ·) = X.map ((0 : R) * ·) := by
          apply List.ext_getElem
          · simp
          · intro i i1 i2
            have := h0 i
            rw [List.length_map] at i1
            rw [List.getD_eq_getElem?_getD, List.getElem?_eq_getElem i1, Option.getD_some] at this
            simp [this]
        rw [hmoved a, e, hzero X hX, setAll_self]
      · refine rate _ _ _ hz rfl (fun Y hY => ?_)
        have := hmin Y hY
        rw [← hone, hq 1] at this
        linarith

end

section
variable {M : Type}

/-- The direction of `optimize` with damping, models that are not linear. -/
theorem direction_smooth_damped (S : Solver ℝ) (hsq : Lsq.SqrtOK S.sqrt) (d : ℝ) (hS : Lsq.DampSolves d S.lsqr) (W : World ℝ M)
    (hooks : Tractor ℝ M → Nat → Nat → Option (List (Deriv ℝ))) (o : Opts) (T : Tractor ℝ M) (D : Nat → Nat → Nat → Nat → ℝ) (hr : Ready W hooks T)
    (hl : Smooth W hooks T D) (ho : Options S o T D) :
    (direction S W hooks o T = (T, .ok none) ∧ Stationary W T) ∨
    ∃ X g, direction S W hooks o T = (T, .ok (some X)) ∧ X.length = numberOfParams T.par ∧ Slope W T X g ∧
      d ^ 2 * squaredLength (unit S o T D) X ≤ g ∧ (g = 0 → Stationary W T) := by
  obtain ⟨out, l, ds, pr, es, h1, h2, h3, h4, h5, h6, h7, h8⟩ := problem_smooth hl hr o ho.prior
  have hdir : ∀ r, Lsq.getUpdateDirection S.sqrt S.tiny S.lsqr (lsqImgs l) ds pr o.scale (if o.shared then some (indexMap T.par) else none) = r →
      direction S W hooks o T = (T, r) := by
    intro r hrr
    unfold direction
    rw [h1]
    simp only [h2, hrr]
  have hmz : ∀ X Y : List ℝ, X.length = Y.length → X.map ((0 : ℝ) * ·) = Y.map ((0 : ℝ) * ·) := by
    intro X Y hXY
    apply List.ext_getElem
    · simp [hXY]
    · intro i i1 i2
      simp
  -- stationary if no change is best
  have hst : ∀ Z : List ℝ, Z.length = ds.length → (∀ Y : List ℝ, Y.length = ds.length →
      Lsq.linearised (lsqImgs l) ds pr (Z.map ((0 : ℝ) * ·)) ≤ Lsq.linearised (lsqImgs l) ds pr Y + d ^ 2 * squaredLength (unit S o T D) Y) →
      Stationary W T := by
    intro Z hZ hmin Y hY
    obtain ⟨α, β, γ, hγ, hq, hs, -⟩ := h8 Y (by rw [hY, h3])
    have hpen := mul_nonneg (sq_nonneg d) (squaredLength_nonneg (unit S o T D) Y)
    rw [quadratic_flat α β (γ + d ^ 2 * squaredLength (unit S o T D) Y) (by linarith) (fun a => by
      have := hmin (Y.map (a * ·)) (by rw [List.length_map, hY, h3])
      rw [hmz Z Y (by rw [hY, hZ, h3]), hq 0, hq a, squaredLength_smul] at this
      linarith)] at hs
    exact hs
  rcases direction_penalised S hsq d hS o T D ho (lsqImgs l) ds h5 pr es h4 h3 h6 h7 with ⟨e1, e2⟩ | ⟨X, e1, e2⟩
  · refine .inl ⟨hdir _ e1, hst (getParams T.par) (by rw [getParams_length, h3]) (fun Y hY => ?_)⟩
    rw [e2 _ Y (by rw [List.length_map, getParams_length, h3]) hY]
    have := mul_nonneg (sq_nonneg d) (squaredLength_nonneg (unit S o T D) Y)
    linarith
  · obtain ⟨hX, hmin⟩ := e2
    dsimp only at hmin
    obtain ⟨α, β, γ, hγ, hq, hs, -⟩ := h8 X hX
    have hone : X.map ((1 : ℝ) * ·) = X := by simp
    have hpen := mul_nonneg (sq_nonneg d) (squaredLength_nonneg (unit S o T D) X)
    set π := d ^ 2 * squaredLength (unit S o T D) X with hπ
    have hβ : β = γ + π := quadratic_min α β (γ + π) (by linarith) (fun a => by
      have := hmin (X.map (a * ·)) (by rw [List.length_map, hX])
      rw [← hone, hq 1, hone, hq a, squaredLength_smul] at this
      have e : d ^ 2 * (a ^ 2 * squaredLength (unit S o T D) X) = a ^ 2 * π := by rw [hπ]; ring
      rw [e] at this
      linarith)
    refine .inr ⟨X, β, hdir _ e1, by rw [hX, h3], hs, by linarith, fun h0 => ?_⟩
    refine hst X hX (fun Y hY => ?_)
    refine le_trans (le_of_eq ?_) (hmin Y hY)
    have g0 : γ = 0 := by linarith
    have p0 : π = 0 := by linarith
    rw [p0, add_zero, hq 0, ← hone, hq 1, h0, g0]
    ring

end

end Verif.Fit
