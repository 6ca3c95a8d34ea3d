import Verif.Fit.Damped
import Verif.Fit.Props
import Verif.Fit.PropsSmooth

/-!
# C157: `optimize` with damping

Spec: damping only makes the steps shorter.  It never makes a fit worse and leaves the maximum where it is; for linear models each call comes closer
to the maximum by a fixed factor, and a loop that stops of itself stops near it; for other models the direction is still upwards.
-/

namespace Verif.Fit

open Verif Params Patches Engine Finset

section
variable {R M : Type} [Field R] [LinearOrder R] [IsStrictOrderedRing R]

/-- **C157, one call.** A tractor as in C143 (linear models, any masks, frozen objects, Gaussian priors) and an exact solver with any damping: `optimize`
ends normally, changes only the values of thawed parameters, does not lower the log-probability, returns its change, and leaves a tractor that is at the
maximum as it is. -/
theorem C157_step (S : Solver R) (hsq : Lsq.SqrtOK S.sqrt) (d : R) (hS : Lsq.DampSolves d S.lsqr) (W : World R M)
    (hooks : Tractor R M → Nat → Nat → Option (List (Deriv R))) (o : Opts) (T : Tractor R M) (base : Nat → Nat → Nat → R)
    (D : Nat → Nat → Nat → Nat → R) (hr : Ready W hooks T) (hl : Linear W hooks T base D) (ho : Options S o T D) (A B : List R)
    (hA : ∀ a ∈ A, 0 ≤ a) (hs : (A ++ [1]).Pairwise (· ≤ ·)) :
    ∃ T' r p L0 L1, optimize S W hooks o (A ++ 1 :: B) T = (T', .ok r) ∧ p.length = numberOfParams T.par ∧ T' = setAll T p ∧
      logProb W T = .ok (.fin L0) ∧ logProb W T' = .ok (.fin L1) ∧ r.1 = .fin (L1 - L0) ∧ L0 ≤ L1 ∧ (Best W T → T' = T) := by
  obtain ⟨T', r, p, L0, L1, h1, h2, h3, h4, h5, h6, h7, h8, -⟩ := optimize_damped S hsq d hS W hooks o T base D hr hl ho A B hA hs
  exact ⟨T', r, p, L0, L1, h1, h2, h3, h4, h5, h6, h7, h8⟩

/-- **C157, rate.** If the log-probability falls away from its maximum `Lb` at least like the square of the distance over `2 C` (distances in units of
the inverse norms of the columns with `scale_columns`), one call with damping `d` leaves at most the fraction `d² C / (1 + d² C)` of what is missing to
the maximum. -/
theorem C157_rate (S : Solver R) (hsq : Lsq.SqrtOK S.sqrt) (d : R) (hS : Lsq.DampSolves d S.lsqr) (W : World R M)
    (hooks : Tractor R M → Nat → Nat → Option (List (Deriv R))) (o : Opts) (T : Tractor R M) (base : Nat → Nat → Nat → R)
    (D : Nat → Nat → Nat → Nat → R) (hr : Ready W hooks T) (hl : Linear W hooks T base D) (ho : Options S o T D) (A B : List R)
    (hA : ∀ a ∈ A, 0 ≤ a) (hs : (A ++ [1]).Pairwise (· ≤ ·)) (C : R) (hC : 0 < C) (b : List R) (Lb : R) (hF : Firm W T (unit S o T D) C b Lb) :
    ∃ T' r L0 L1, optimize S W hooks o (A ++ 1 :: B) T = (T', .ok r) ∧ logProb W T = .ok (.fin L0) ∧ logProb W T' = .ok (.fin L1) ∧
      Lb - L1 ≤ d ^ 2 * C / (1 + d ^ 2 * C) * (Lb - L0) := by
  obtain ⟨T', r, p, L0, L1, h1, -, -, h4, h5, -, -, -, -, h8⟩ := optimize_damped S hsq d hS W hooks o T base D hr hl ho A B hA hs
  exact ⟨T', r, L0, L1, h1, h4, h5, h8 C b Lb hC hF⟩

/-- **C157: the maximum is not reached.** With damping that is not zero, and step fractions up to 1 only, one call ends at the maximum only if it
starts there.  (Without damping one call ends there, C143.) -/
theorem C157_not_reached (S : Solver R) (hsq : Lsq.SqrtOK S.sqrt) (d : R) (hd : d ≠ 0) (hS : Lsq.DampSolves d S.lsqr) (W : World R M)
    (hooks : Tractor R M → Nat → Nat → Option (List (Deriv R))) (o : Opts) (T : Tractor R M) (base : Nat → Nat → Nat → R)
    (D : Nat → Nat → Nat → Nat → R) (hr : Ready W hooks T) (hl : Linear W hooks T base D) (ho : Options S o T D) (A B : List R)
    (hA : ∀ a ∈ A, 0 ≤ a) (hs : (A ++ [1]).Pairwise (· ≤ ·)) (hB : ∀ a ∈ B, a ≤ 1) :
    Best W (optimize S W hooks o (A ++ 1 :: B) T).1 ↔ Best W T := by
  obtain ⟨T', r, p, L0, L1, h1, -, -, -, -, -, -, h8, h9, -⟩ := optimize_damped S hsq d hS W hooks o T base D hr hl ho A B hA hs
  rw [h1]
  exact ⟨fun h => h9 hd hB h ▸ h, fun h => (h8 h).symm ▸ h⟩

/-- **C157, loop.** `optimize_loop` with damping, any number of rounds but 0, from any values: it ends normally and the log-probability does not fall; the
distance to the maximum falls by the factor `d² C / (1 + d² C)` in each round; and if it stops before the last round, what is missing to the maximum is
at most `d² C dchisq` (with `dchisq=0`: nothing). -/
theorem C157_loop (S : Solver R) (hsq : Lsq.SqrtOK S.sqrt) (d : R) (hS : Lsq.DampSolves d S.lsqr) (W : World R M)
    (hooks : Tractor R M → Nat → Nat → Option (List (Deriv R))) (o : Opts) (T : Tractor R M) (C : R) (hC : 0 < C) (b : List R) (Lb : R)
    (h : ∀ p : List R, p.length = numberOfParams T.par → ∃ base D, Ready W hooks (setAll T p) ∧ Linear W hooks (setAll T p) base D ∧
      Options S o (setAll T p) D ∧ Firm W T (unit S o (setAll T p) D) C b Lb) (A B : List R)
    (hA : ∀ a ∈ A, 0 ≤ a) (hs : (A ++ [1]).Pairwise (· ≤ ·)) (dchisq : R) (steps : Nat) (hst : 0 < steps) :
    ∃ T' m p L0 L1, optimizeLoop S W hooks o (A ++ 1 :: B) dchisq steps T = (T', .ok m) ∧ p.length = numberOfParams T.par ∧ T' = setAll T p ∧
      logProb W T = .ok (.fin L0) ∧ logProb W T' = .ok (.fin L1) ∧ L0 ≤ L1 ∧ m < steps ∧
      Lb - L1 ≤ (d ^ 2 * C / (1 + d ^ 2 * C)) ^ (m + 1) * (Lb - L0) ∧ (m + 1 < steps → Lb - L1 ≤ d ^ 2 * C * dchisq) := by
  have hdC : 0 ≤ d ^ 2 * C := mul_nonneg (sq_nonneg _) hC.le
  have hpos : 0 < 1 + d ^ 2 * C := by linarith
  set κ := d ^ 2 * C / (1 + d ^ 2 * C) with hκ
  have hκ0 : 0 ≤ κ := div_nonneg hdC hpos.le
  have key : ∀ n step p, p.length = numberOfParams T.par →
      ∃ T' m p' L0 L1, loopFrom S W hooks o (A ++ 1 :: B) dchisq n step (setAll T p) = (T', .ok (step + m)) ∧ p'.length = numberOfParams T.par ∧
        T' = setAll T p' ∧ logProb W (setAll T p) = .ok (.fin L0) ∧ logProb W T' = .ok (.fin L1) ∧ L0 ≤ L1 ∧ m ≤ n ∧
        Lb - L1 ≤ κ ^ (m + 1) * (Lb - L0) ∧ (m < n → Lb - L1 ≤ d ^ 2 * C * dchisq) := by
    intro n
    induction n with
    | zero =>
      intro step p hp
      obtain ⟨base, D, a1, a2, a3, a4⟩ := h p hp
      obtain ⟨T', r, q, L0, L1, b1, b2, b3, b4, b5, b6, b7, -, -, b8⟩ := optimize_damped S hsq d hS W hooks o _ base D a1 a2 a3 A B hA hs
      rw [setAll_length] at b2
      rw [setAll_setAll T p q b2] at b3
      have b9 := b8 C b Lb hC ⟨by rw [setAll_length]; exact a4.length, by rw [setAll_setAll T p b a4.length]; exact a4.best, fun p' hp' => by
        rw [setAll_length] at hp'
        rw [setAll_setAll T p p' hp']
        exact a4.falls p' hp'⟩
      refine ⟨T', 0, q, L0, L1, ?_, b2, b3, b4, b5, b7, le_refl _, by rw [zero_add, pow_one]; exact b9, fun h => absurd h (lt_irrefl _)⟩
      unfold loopFrom
      rw [b1]
      dsimp only
      split <;> rfl
    | succ n ih =>
      intro step p hp
      obtain ⟨base, D, a1, a2, a3, a4⟩ := h p hp
      obtain ⟨T', r, q, L0, L1, b1, b2, b3, b4, b5, b6, b7, -, -, b8⟩ := optimize_damped S hsq d hS W hooks o _ base D a1 a2 a3 A B hA hs
      rw [setAll_length] at b2
      rw [setAll_setAll T p q b2] at b3
      have b9 := b8 C b Lb hC ⟨by rw [setAll_length]; exact a4.length, by rw [setAll_setAll T p b a4.length]; exact a4.best, fun p' hp' => by
        rw [setAll_length] at hp'
        rw [setAll_setAll T p p' hp']
        exact a4.falls p' hp'⟩
      by_cases hd : r.1.le (.fin dchisq) = true
      · refine ⟨T', 0, q, L0, L1, ?_, b2, b3, b4, b5, b7, Nat.zero_le _, by rw [zero_add, pow_one]; exact b9, fun _ => ?_⟩
        · unfold loopFrom
          rw [b1]
          dsimp only
          rw [if_pos hd]
          rfl
        · rw [b6] at hd
          simp only [Num.le, decide_eq_true_eq] at hd
          rw [← hκ] at b9
          have e1 : (1 + d ^ 2 * C) * (Lb - L1) ≤ d ^ 2 * C * (Lb - L0) := by
            have := mul_le_mul_of_nonneg_left b9 hpos.le
            have e : (1 + d ^ 2 * C) * (κ * (Lb - L0)) = d ^ 2 * C * (Lb - L0) := by
              rw [hκ]; field_simp
            linarith
          have e2 := mul_le_mul_of_nonneg_left hd hdC
          nlinarith
      · obtain ⟨T'', m, q', L0', L1', d1, d2, d3, d4, d5, d6, d7, d8, d9⟩ := ih (step + 1) q b2
        rw [← b3, b5] at d4
        injection d4 with d4
        injection d4 with d4
        subst d4
        refine ⟨T'', m + 1, q', L0, L1', ?_, d2, d3, b4, d5, le_trans b7 d6, by omega, ?_, fun hm => d9 (by omega)⟩
        · unfold loopFrom
          rw [b1]
          dsimp only
          rw [if_neg hd, b3, d1]
          congr 2
          omega
        · refine le_trans d8 ?_
          rw [pow_succ κ (m + 1), mul_assoc]
          exact mul_le_mul_of_nonneg_left b9 (pow_nonneg hκ0 _)
  obtain ⟨n, rfl⟩ : ∃ n, steps = n + 1 := ⟨steps - 1, by omega⟩
  obtain ⟨T', m, p', L0, L1, e1, e2, e3, e4, e5, e6, e7, e8, e9⟩ := key n 0 (getParams T.par) (getParams_length _)
  rw [setAll_self] at e1 e4
  exact ⟨T', m, p', L0, L1, by rw [zero_add] at e1; exact e1, e2, e3, e4, e5, e6, by omega, e8, fun hm => e9 (by omega)⟩

end

section
variable {M : Type}

/-- **C157, shorter steps.** Any models that are differentiable, with the right derivatives: the larger the damping, the shorter the change of the
parameters that is tried (lengths in the same units). -/
theorem C157_shorter (sqrt : ℝ → ℝ) (tiny : ℝ) (lsqr lsqr' : Lsq.Problem ℝ → List ℝ) (hsq : Lsq.SqrtOK sqrt) (d d' : ℝ) (hd : 0 ≤ d) (hdd : d < d')
    (hS : Lsq.DampSolves d lsqr) (hS' : Lsq.DampSolves d' lsqr') (W : World ℝ M)
    (hooks : Tractor ℝ M → Nat → Nat → Option (List (Deriv ℝ))) (o : Opts) (T : Tractor ℝ M) (D : Nat → Nat → Nat → Nat → ℝ) (hr : Ready W hooks T)
    (hl : Smooth W hooks T D) (ho : Options ⟨sqrt, tiny, lsqr⟩ o T D) (X X' : List ℝ)
    (h : direction ⟨sqrt, tiny, lsqr⟩ W hooks o T = (T, .ok (some X))) (h' : direction ⟨sqrt, tiny, lsqr'⟩ W hooks o T = (T, .ok (some X'))) :
    squaredLength (unit ⟨sqrt, tiny, lsqr⟩ o T D) X' ≤ squaredLength (unit ⟨sqrt, tiny, lsqr⟩ o T D) X := by
  obtain ⟨out, l, ds, pr, es, h1, h2, h3, h4, h5, h6, h7, -⟩ := problem_smooth hl hr o ho.prior
  have hdir : ∀ lsqr, direction ⟨sqrt, tiny, lsqr⟩ W hooks o T =
      (T, Lsq.getUpdateDirection sqrt tiny lsqr (lsqImgs l) ds pr o.scale (if o.shared then some (indexMap T.par) else none)) := by
    intro lsqr
    unfold direction
    rw [h1]
    simp only [h2]
  have ho' : Options ⟨sqrt, tiny, lsqr'⟩ o T D := ⟨ho.prior, ho.scale, ho.shared⟩
  have p1 := direction_penalised ⟨sqrt, tiny, lsqr⟩ hsq d hS o T D ho (lsqImgs l) ds h5 pr es h4 h3 h6 h7
  have p2 := direction_penalised ⟨sqrt, tiny, lsqr'⟩ hsq d' hS' o T D ho' (lsqImgs l) ds h5 pr es h4 h3 h6 h7
  rw [hdir] at h h'
  dsimp only at p1 p2
  have q1 := congrArg Prod.snd h
  have q2 := congrArg Prod.snd h'
  dsimp only at q1 q2
  rw [q1] at p1
  rw [q2] at p2
  obtain ⟨Y, y1, y2, y3⟩ := p1.resolve_left (by simp)
  obtain ⟨Y', y1', y2', y3'⟩ := p2.resolve_left (by simp)
  simp only [Except.ok.injEq, Option.some.injEq] at y1 y1'
  subst y1 y1'
  have i1 := y3 X' y2'
  have i2 := y3' X y2
  have hu : unit (⟨sqrt, tiny, lsqr'⟩ : Solver ℝ) o T D = unit ⟨sqrt, tiny, lsqr⟩ o T D := rfl
  rw [hu] at i2
  have hlt : 0 < d' ^ 2 - d ^ 2 := by nlinarith
  by_contra hlt'
  push Not at hlt'
  nlinarith

/-- **C157, direction.** Such a tractor, with damping that is not zero: the slope of the log-probability along the update direction is at least the
squared damping times the squared length of the update; it is zero only where the slope is zero in all directions. -/
theorem C157_ascent (S : Solver ℝ) (hsq : Lsq.SqrtOK S.sqrt) (d : ℝ) (hS : Lsq.DampSolves d S.lsqr) (W : World ℝ M)
    (hooks : Tractor ℝ M → Nat → Nat → Option (List (Deriv ℝ))) (o : Opts) (T : Tractor ℝ M) (D : Nat → Nat → Nat → Nat → ℝ) (hr : Ready W hooks T)
    (hl : Smooth W hooks T D) (ho : Options S o T D) :
    (direction S W hooks o T = (T, .ok none) ∧ Stationary W T) ∨
    ∃ X g, direction S W hooks o T = (T, .ok (some X)) ∧ X.length = numberOfParams T.par ∧ Slope W T X g ∧
      d ^ 2 * squaredLength (unit S o T D) X ≤ g ∧ (g = 0 → Stationary W T) :=
  direction_smooth_damped S hsq d hS W hooks o T D hr hl ho

/-- **C157, at a stationary point.** If the slope is zero in all directions, `optimize` with damping leaves the tractor as it is and returns 0 — also if
parameters are degenerate (compare C154). -/
theorem C157_fixed (S : Solver ℝ) (hsq : Lsq.SqrtOK S.sqrt) (d : ℝ) (hd : d ≠ 0) (hS : Lsq.DampSolves d S.lsqr) (W : World ℝ M)
    (hooks : Tractor ℝ M → Nat → Nat → Option (List (Deriv ℝ))) (o : Opts) (T : Tractor ℝ M) (D : Nat → Nat → Nat → Nat → ℝ) (hr : Ready W hooks T)
    (hl : Smooth W hooks T D) (ho : Options S o T D) (hst : Stationary W T) (alphas : List ℝ) :
    ∃ r, optimize S W hooks o alphas T = (T, .ok r) ∧ r.1 = .fin 0 := by
  rcases direction_smooth_damped S hsq d hS W hooks o T D hr hl ho with ⟨h1, h2⟩ | ⟨X, g, h1, h2, h4, h5, -⟩
  · refine ⟨(.fin 0, 0), ?_, rfl⟩
    unfold optimize
    rw [h1]
  · have hg := h4.unique (hst X h2)
    have hz : squaredLength (unit S o T D) X = 0 := by
      have h0 := squaredLength_nonneg (unit S o T D) X
      have hp : 0 < d ^ 2 := by positivity
      rw [hg] at h5
      nlinarith
    have h0 := squaredLength_zero _ (unit_ne S o T D) X hz
    obtain ⟨f, f1, f2⟩ := h4
    have hX : ∀ a, along T X a = T := by
      intro a
      have e : X.map (a * ·) = X.map ((0 : ℝ) * ·) := by
        apply List.ext_getElem
        · simp
        · intro i i1 i2
          have := h0 i
          rw [List.length_map] at i1
          rw [List.getD_eq_getElem?_getD, List.getElem?_eq_getElem i1, Option.getD_some] at this
          simp [this]
      unfold along
      rw [e]
      exact along_zero T X h2
    have hff : ∀ a, f a = f 0 := by
      intro a
      have a1 := f1 a
      have a2 := f1 0
      rw [hX] at a1 a2
      rw [a1] at a2
      injection a2 with a2
      injection a2
    obtain ⟨r, a, g1, g2, -⟩ := optimize_search S W hooks o T X h2 h1 f f1 alphas
    exact ⟨r, by rw [g1, hX], by rw [g2, hff, sub_self]⟩

end

/-! Example: an image with one pixel, 9, inverse error 1; a source that is rendered as its parameter. -/

def exDampIm : Image ℚ := ⟨0, .cons ["sky"] true (.scalar (exS 0)) .nil, ⟨1, 1, fun _ _ => 9⟩, ⟨1, 1, fun _ _ => 1⟩⟩

def exDampPar (a : ℚ) : Par ℚ := .plist ⟨[⟨["a"], true, a⟩], [none], [none], [none], none, []⟩

def exDampWorld : World ℚ Unit where
  render s _ _ := some ⟨0, 0, some ⟨1, 1, fun _ _ => (getParams s.par).getD 0 0⟩⟩
  sky im := .constant (exSky im)
  srcDerivs _ _ _ := [some ⟨0, 0, some ⟨1, 1, fun _ _ => 1⟩⟩]

def exDampT (a : ℚ) : Tractor ℚ Unit := ⟨true, [(false, exDampIm)], true, [(true, some ⟨10, exDampPar a⟩)], none, false⟩

def exDampD (_k _i _y _x : Nat) : ℚ := 1

def exDampBase (_i _y _x : Nat) : ℚ := 0

theorem exDampSet (a a' : ℚ) : setAll (exDampT a) [a'] = exDampT a' := rfl

theorem exDampN (a : ℚ) : numberOfParams (exDampT a).par = 1 := rfl

theorem exDampList (p : List ℚ) (hp : p.length = 1) : ∃ a, p = [a] := by
  match p, hp with
  | [a], _ => exact ⟨a, rfl⟩

theorem exDampImage (a : ℚ) (i : Nat) (b : Bool) (im : Image ℚ) (h : (exDampT a).images[i]? = some (b, im)) : i = 0 ∧ b = false ∧ im = exDampIm := by
  match i, h with
  | 0, h => simp [exDampT] at h; exact ⟨rfl, h.1, h.2.symm⟩
  | n + 1, h => simp [exDampT] at h

theorem exDampModel (a : ℚ) (A : Arr ℚ) (hA : getModelImage exDampWorld (exDampT a) exDampIm none true = .ok A) : A.px 0 0 = a := by
  obtain ⟨-, h⟩ := C29_model_image exDampWorld (exDampT a) exDampIm (by intro masks h; cases h) none
  obtain ⟨r, g1, -, -, g2⟩ := h [some ⟨0, 0, some ⟨1, 1, fun _ _ => a⟩⟩] (.cons ⟨none, .nomasks rfl, rfl⟩ .nil) true
  rw [hA] at g1
  injection g1 with g1
  subst g1
  rw [g2 0 0 Nat.one_pos Nat.one_pos]
  simp [exDampWorld, exDampIm, exSky, exS, Sky.at, patchAt, Patch.at]

theorem exDampReady (a : ℚ) : Ready exDampWorld exHooks (exDampT a) := by
  refine ⟨fun x _ masks h => (by cases h), ?_, ?_, ?_, ?_, ?_⟩
  · intro x hx
    simp only [exDampT, List.mem_cons, List.not_mem_nil, or_false] at hx
    subst hx
    exact ⟨rfl, rfl, by show 1 * 1 < 2 ^ 31; norm_num⟩
  · simp [exDampT, Tractor.par, PriorsOK, PriorsOKSubs, imagesSubs, catalogSubs, exDampIm, exDampPar]
  · intro i x _ _ y _ _ l hl
    cases hl
  · intro x hx h
    simp only [exDampT, List.mem_cons, List.not_mem_nil, or_false] at hx
    subst hx
    cases h
  · intro src hs x _ ds hds
    have : src = ⟨10, exDampPar a⟩ := by simpa [exDampT] using hs
    subst this
    obtain ⟨mask, -, rfl⟩ := hds
    split
    · simp
    · exact Nat.le_refl 1

theorem exDampLoc (a : ℚ) (k o j : Nat) (h : Located (exDampT a) k o j) : o = 1 ∧ k = 0 ∧ j = 0 := by
  obtain ⟨n, h1, h2, h3⟩ := h
  have hb : blocks (exDampT a) = [0, 1] := rfl
  rw [hb] at h1 h3
  match o with
  | 0 => simp at h1; omega
  | 1 => simp at h1 h3; omega
  | o + 2 => simp at h1

theorem exDampLinear (a : ℚ) : Linear exDampWorld exHooks (exDampT a) exDampBase exDampD := by
  refine ⟨?_, ?_, ?_⟩
  · intro p hp i b im hi A hA y x hy hx
    obtain ⟨a', rfl⟩ := exDampList p hp
    rw [exDampSet] at hi hA
    obtain ⟨rfl, rfl, rfl⟩ := exDampImage a' i b im hi
    have hy : y < 1 := hy
    have hx : x < 1 := hx
    obtain rfl : y = 0 := by omega
    obtain rfl : x = 0 := by omega
    rw [exDampModel a' A hA, exDampN]
    simp [exDampBase, exDampD]
  · intro k o' j b s hloc hs i c im hi ds hds y x hy hx
    obtain ⟨h1, rfl, rfl⟩ := exDampLoc a _ _ _ hloc
    obtain ⟨rfl, rfl, rfl⟩ := exDampImage a i c im hi
    have hy : y < 1 := hy
    have hx : x < 1 := hx
    obtain rfl : y = 0 := by omega
    obtain rfl : x = 0 := by omega
    obtain ⟨mask, -, rfl⟩ := hds
    rw [if_neg (by simp [exDampT])]
    simp [exDampWorld, patchAt, Patch.at, exDampD]
  · intro k o j b im hloc ho
    obtain ⟨rfl, -, -⟩ := exDampLoc a _ _ _ hloc
    simp [exDampT] at ho

theorem exDampEffect (a : ℚ) : effect ⟨true, true, true⟩ (exDampT a) exDampD 0 = 1 := by
  have hw : widths ⟨true, true, true⟩ (exDampT a) 0 = [] := rfl
  rw [effect, hw]
  simp [exDampT, exDampIm, List.zipIdx, exDampD]

/-- With scaled columns. -/
theorem exDampOptions (lsqr : Lsq.Problem ℚ → List ℚ) (a : ℚ) : Options ⟨id, 0, lsqr⟩ ⟨true, true, true⟩ (exDampT a) exDampD := by
  refine ⟨.inl rfl, fun _ k v hv _ => ?_, fun _ _ => ?_⟩
  · have hpos : 0 < effect ⟨true, true, true⟩ (exDampT a) exDampD k := by
      have hw : (((widths ⟨true, true, true⟩ (exDampT a) k)).map (fun s => (1 / s) ^ 2)).sum ≥ 0 := by
        refine List.sum_nonneg ?_
        intro x hx
        obtain ⟨s, -, rfl⟩ := List.mem_map.1 hx
        exact sq_nonneg _
      have : effect ⟨true, true, true⟩ (exDampT a) exDampD k = 1 + (((widths ⟨true, true, true⟩ (exDampT a) k)).map (fun s => (1 / s) ^ 2)).sum := by
        rw [effect]
        simp [exDampT, exDampIm, List.zipIdx, exDampD]
      rw [this]
      linarith
    have : v / id (effect ⟨true, true, true⟩ (exDampT a) exDampD k) ≠ 0 := div_ne_zero hv (ne_of_gt hpos)
    exact abs_pos.2 this
  · rw [exDampN, exDampEffect]
    exact one_ne_zero

theorem exDampLogProb (a : ℚ) : logProb exDampWorld (exDampT a) = .ok (.fin (-(1 / 2) * (9 - a) ^ 2)) := by
  have h := likelihood_pixel exDampWorld _ (exDampReady a).mask (exDampReady a).shape [a]
  rw [exDampSet] at h
  have hp : getLogPrior (exDampT a).par = .ok 0 := by
    simp [exDampT, Tractor.par, getLogPrior, getLogPriorSubs, imagesSubs, catalogSubs, exDampIm, exDampPar, gaussianLogPrior, gaussianChisq, Except.map]
  unfold logProb
  rw [hp, h]
  have hpix : pixel exDampWorld (exDampT a) 0 0 0 = a := by
    obtain ⟨-, h⟩ := C29_model_image exDampWorld (exDampT a) exDampIm (by intro masks h; cases h) none
    obtain ⟨r, g1, -⟩ := h [some ⟨0, 0, some ⟨1, 1, fun _ _ => a⟩⟩] (.cons ⟨none, .nomasks rfl, rfl⟩ .nil) true
    unfold pixel
    rw [show (exDampT a).images[0]? = some (false, exDampIm) from rfl]
    simp only [g1]
    exact exDampModel a r g1
  have : ∑ i ∈ range (exDampT a).images.length, residual (exDampT a) (pixel exDampWorld (exDampT a)) i = (9 - a) ^ 2 := by
    have h1 : (exDampT a).images.length = 1 := rfl
    rw [h1, sum_range_one, residual]
    have h2 : (exDampT a).images[0]? = some (false, exDampIm) := rfl
    rw [h2]
    dsimp only
    have h3 : exDampIm.data.h = 1 := rfl
    have h4 : exDampIm.data.w = 1 := rfl
    rw [h3, h4, sum_range_one, sum_range_one, hpix]
    simp [exDampIm]
  rw [this]
  simp [getLogProb, Except.map, Num.add, Num.isNan]

theorem exDampFirm (lsqr : Lsq.Problem ℚ → List ℚ) (a a' : ℚ) :
    Firm exDampWorld (exDampT a) (unit ⟨id, 0, lsqr⟩ ⟨true, true, true⟩ (exDampT a') exDampD) 1 [9] 0 := by
  refine ⟨rfl, by rw [exDampSet, exDampLogProb]; norm_num, fun p hp => ?_⟩
  obtain ⟨c, rfl⟩ := exDampList p hp
  refine ⟨_, by rw [exDampSet, exDampLogProb], ?_⟩
  have : unit ⟨id, 0, lsqr⟩ ⟨true, true, true⟩ (exDampT a') exDampD 0 = 1 := by
    unfold unit
    rw [exDampEffect]
    simp
  simp [squaredLength, this]

/-- From 1, damping 1/2: the fit gets better, does not get to the maximum, and has at most a fifth of the distance left. -/
example : ∃ (lsqr : Lsq.Problem ℚ → List ℚ) (T' : Tractor ℚ Unit) (r : Num ℚ × ℚ) (L1 : ℚ),
    optimize ⟨id, 0, lsqr⟩ exDampWorld exHooks ⟨true, true, true⟩ [1 / 4, 1 / 2, 1] (exDampT 1) = (T', .ok r) ∧ logProb exDampWorld T' = .ok (.fin L1) ∧
    -(32 / 5) ≤ L1 ∧ ¬ Best exDampWorld T' := by
  obtain ⟨lsqr, hl⟩ := Lsq.damped_exists (1 / 2 : ℚ)
  have hA : ∀ a ∈ [(1 / 4 : ℚ), 1 / 2], 0 ≤ a := by intro a ha; simp at ha; rcases ha with rfl | rfl <;> norm_num
  have hs : ([(1 / 4 : ℚ), 1 / 2] ++ [1]).Pairwise (· ≤ ·) := by simp [List.pairwise_cons]; norm_num
  obtain ⟨T', r, L0, L1, h1, h2, h3, h4⟩ := C157_rate ⟨id, 0, lsqr⟩ (fun x hx => hx) (1 / 2) hl exDampWorld exHooks ⟨true, true, true⟩ (exDampT 1) exDampBase exDampD
    (exDampReady 1) (exDampLinear 1) (exDampOptions lsqr 1) [1 / 4, 1 / 2] [] hA hs 1 one_pos [9] 0 (exDampFirm lsqr 1 1)
  have hn := C157_not_reached ⟨id, 0, lsqr⟩ (fun x hx => hx) (1 / 2) (by norm_num) hl exDampWorld exHooks ⟨true, true, true⟩ (exDampT 1) exDampBase exDampD
    (exDampReady 1) (exDampLinear 1) (exDampOptions lsqr 1) [1 / 4, 1 / 2] [] hA hs (by simp)
  rw [h1] at hn
  rw [exDampLogProb] at h2
  simp only [Except.ok.injEq, Num.fin.injEq] at h2
  refine ⟨lsqr, T', r, L1, h1, h3, by rw [← h2] at h4; norm_num at h4; linarith, fun hb => ?_⟩
  obtain ⟨L, g1, g2⟩ := hn.1 hb
  obtain ⟨L', g3, g4⟩ := g2 [9] rfl
  rw [exDampLogProb] at g1
  rw [exDampSet, exDampLogProb] at g3
  simp only [Except.ok.injEq, Num.fin.injEq] at g1 g3
  rw [← g1, ← g3] at g4
  norm_num at g4

/-- A loop of up to 50 rounds that stops once the improvement is at most 1/1000. -/
example : ∃ (lsqr : Lsq.Problem ℚ → List ℚ) (T' : Tractor ℚ Unit) (m : Nat) (L1 : ℚ),
    optimizeLoop ⟨id, 0, lsqr⟩ exDampWorld exHooks ⟨true, true, true⟩ [1 / 4, 1 / 2, 1] (1 / 1000) 50 (exDampT 1) = (T', .ok m) ∧
    logProb exDampWorld T' = .ok (.fin L1) ∧ -(1 / 4000) ≤ L1 := by
  obtain ⟨lsqr, hl⟩ := Lsq.damped_exists (1 / 2 : ℚ)
  have hA : ∀ a ∈ [(1 / 4 : ℚ), 1 / 2], 0 ≤ a := by intro a ha; simp at ha; rcases ha with rfl | rfl <;> norm_num
  have hs : ([(1 / 4 : ℚ), 1 / 2] ++ [1]).Pairwise (· ≤ ·) := by simp [List.pairwise_cons]; norm_num
  obtain ⟨T', m, p, L0, L1, h1, -, -, h4, h5, -, h7, h8, h9⟩ := C157_loop ⟨id, 0, lsqr⟩ (fun x hx => hx) (1 / 2) hl exDampWorld exHooks ⟨true, true, true⟩
    (exDampT 1) 1 one_pos [9] 0 (fun p hp => by
      obtain ⟨c, rfl⟩ := exDampList p hp
      rw [exDampSet]
      exact ⟨exDampBase, exDampD, exDampReady c, exDampLinear c, exDampOptions lsqr c, exDampFirm lsqr 1 c⟩) [1 / 4, 1 / 2] [] hA hs (1 / 1000) 50 (by norm_num)
  refine ⟨lsqr, T', m, L1, h1, h5, ?_⟩
  rw [exDampLogProb] at h4
  simp only [Except.ok.injEq, Num.fin.injEq] at h4
  by_cases hm : m + 1 < 50
  · have := h9 hm
    norm_num at this
    linarith
  · obtain rfl : m = 49 := by omega
    rw [← h4] at h8
    norm_num at h8
    linarith

/-- At the maximum nothing changes. -/
example : ∃ (lsqr : Lsq.Problem ℚ → List ℚ) (r : Num ℚ × ℚ),
    optimize ⟨id, 0, lsqr⟩ exDampWorld exHooks ⟨true, true, true⟩ [1] (exDampT 9) = (exDampT 9, .ok r) := by
  obtain ⟨lsqr, hl⟩ := Lsq.damped_exists (1 / 2 : ℚ)
  obtain ⟨T', r, p, L0, L1, h1, -, -, -, -, -, -, h8⟩ := C157_step ⟨id, 0, lsqr⟩ (fun x hx => hx) (1 / 2) hl exDampWorld exHooks ⟨true, true, true⟩ (exDampT 9)
    exDampBase exDampD (exDampReady 9) (exDampLinear 9) (exDampOptions lsqr 9) [] [] (by simp) (by simp)
  have : T' = exDampT 9 := h8 ⟨_, exDampLogProb 9, fun q hq => by
    obtain ⟨c, rfl⟩ := exDampList q hq
    refine ⟨_, by rw [exDampSet, exDampLogProb], ?_⟩
    have := sq_nonneg (9 - c)
    norm_num
    linarith⟩
  rw [this] at h1
  exact ⟨lsqr, r, h1⟩

/-- The model that is the square of its parameter, at 1, damping 1: upwards. -/
example : ∃ (lsqr : Lsq.Problem ℝ → List ℝ) (X : List ℝ) (g : ℝ), direction ⟨id, 0, lsqr⟩ exWorldR exHooksR ⟨false, true, true⟩ (exQ 1) =
    (exQ 1, .ok (some X)) ∧ Slope exWorldR (exQ 1) X g ∧ 0 < g := by
  obtain ⟨lsqr, hl⟩ := Lsq.damped_exists (1 : ℝ)
  have hns : ¬ Stationary exWorldR (exQ 1) := fun hs => by
    have := (exSlopeQ 1 1).unique (hs [1] rfl)
    norm_num at this
  rcases C157_ascent ⟨id, 0, lsqr⟩ (fun x hx => hx) 1 hl exWorldR exHooksR ⟨false, true, true⟩ (exQ 1) (exDQ 1) (exReadyQ 1) (exSmoothQ 1)
    (exOptionsQ _ 1 one_ne_zero) with ⟨-, hs⟩ | ⟨X, g, h1, -, h3, h4, h5⟩
  · exact absurd hs hns
  · have := mul_nonneg (sq_nonneg (1 : ℝ)) (squaredLength_nonneg (unit ⟨id, 0, lsqr⟩ ⟨false, true, true⟩ (exQ 1) (exDQ 1)) X)
    exact ⟨lsqr, X, g, h1, h3, lt_of_le_of_ne (le_trans this h4) (fun h => hns (h5 h.symm))⟩

/-- With damping 2 the change that is tried is not longer than with damping 1. -/
example : ∃ (lsqr lsqr' : Lsq.Problem ℝ → List ℝ) (X X' : List ℝ),
    direction ⟨id, 0, lsqr⟩ exWorldR exHooksR ⟨false, true, true⟩ (exQ 1) = (exQ 1, .ok (some X)) ∧
    direction ⟨id, 0, lsqr'⟩ exWorldR exHooksR ⟨false, true, true⟩ (exQ 1) = (exQ 1, .ok (some X')) ∧
    squaredLength (unit ⟨id, 0, lsqr⟩ ⟨false, true, true⟩ (exQ 1) (exDQ 1)) X' ≤ squaredLength (unit ⟨id, 0, lsqr⟩ ⟨false, true, true⟩ (exQ 1) (exDQ 1)) X := by
  obtain ⟨lsqr, hl⟩ := Lsq.damped_exists (1 : ℝ)
  obtain ⟨lsqr', hl'⟩ := Lsq.damped_exists (2 : ℝ)
  have hns : ¬ Stationary exWorldR (exQ 1) := fun hs => by
    have := (exSlopeQ 1 1).unique (hs [1] rfl)
    norm_num at this
  rcases C157_ascent ⟨id, 0, lsqr⟩ (fun x hx => hx) 1 hl exWorldR exHooksR ⟨false, true, true⟩ (exQ 1) (exDQ 1) (exReadyQ 1) (exSmoothQ 1)
    (exOptionsQ _ 1 one_ne_zero) with ⟨-, hs⟩ | ⟨X, g, h1, -⟩
  · exact absurd hs hns
  rcases C157_ascent ⟨id, 0, lsqr'⟩ (fun x hx => hx) 2 hl' exWorldR exHooksR ⟨false, true, true⟩ (exQ 1) (exDQ 1) (exReadyQ 1) (exSmoothQ 1)
    (exOptionsQ _ 1 one_ne_zero) with ⟨-, hs⟩ | ⟨X', g', h1', -⟩
  · exact absurd hs hns
  exact ⟨lsqr, lsqr', X, X', h1, h1', C157_shorter id 0 lsqr lsqr' (fun x hx => hx) 1 2 (by norm_num) (by norm_num) hl hl' exWorldR exHooksR
    ⟨false, true, true⟩ (exQ 1) (exDQ 1) (exReadyQ 1) (exSmoothQ 1) (exOptionsQ _ 1 one_ne_zero) X X' h1 h1'⟩

/-- At 3 it stays. -/
example : ∃ (lsqr : Lsq.Problem ℝ → List ℝ) (r : Num ℝ × ℝ), optimize ⟨id, 0, lsqr⟩ exWorldR exHooksR ⟨false, true, true⟩ [1 / 4, 1] (exQ 3) =
    (exQ 3, .ok r) ∧ r.1 = .fin 0 := by
  obtain ⟨lsqr, hl⟩ := Lsq.damped_exists (1 : ℝ)
  obtain ⟨r, h⟩ := C157_fixed ⟨id, 0, lsqr⟩ (fun x hx => hx) 1 one_ne_zero hl exWorldR exHooksR ⟨false, true, true⟩ (exQ 3) (exDQ 3) (exReadyQ 3)
    (exSmoothQ 3) (exOptionsQ _ 3 three_ne_zero) (fun Y hY => by
      obtain ⟨v, rfl⟩ := exListQ Y hY
      have := exSlopeQ 3 v
      norm_num at this
      exact this) [1 / 4, 1]
  exact ⟨lsqr, r, h⟩

end Verif.Fit
