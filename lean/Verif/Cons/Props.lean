import Verif.Cons.Lemmas2
import Verif.Fit.Props

/-!
# Properties of optimizations with limits (C144)
-/

namespace Verif.Cons

open Verif Params Patches Engine Fit

variable {R M : Type} [Field R] [LinearOrder R] [IsStrictOrderedRing R]

/-- **C144.** A tractor as for C143 with bounds and maximum steps of its parameters, all of them within their bounds; `ConstrainedOptimizer` or
`ConstrainedDenseOptimizer` with an exact solver: one call of `optimize` ends normally, changes only the values of thawed parameters, leaves them within
their bounds and not farther than the maximum steps from where they were, and does not lower the log-probability.  It ends at least as high as any
allowed point on the straight line to a maximum without limits (except for the first `tiny_alpha` of the way).  The returned change of the
log-probability is the change; a tractor that is at the maximum stays as it is. -/
theorem C144_segment (m : Method R) (tiny : R) (htiny : 0 < tiny) (ht1 : tiny ≤ 1) (W : World R M)
    (hooks : Tractor R M → Nat → Nat → Option (List (Deriv R))) (o : Opts) (T : Tractor R M) (base : Nat → Nat → Nat → R)
    (D : Nat → Nat → Nat → Nat → R) (hr : Ready W hooks T) (hl : Linear W hooks T base D) (hm : MethodOK m W hooks o T D) (hL : Opt.Legal T.par)
    (A B : List R) (hA : ∀ a ∈ A, tiny ≤ a) (hs : (A ++ 1 :: B).Pairwise (· < ·)) (fl : Opt.OptFlags) :
    ∃ T' fl' r p, optimize m tiny W hooks o (A ++ 1 :: B) fl T = (T', fl', .ok r) ∧ p.length = numberOfParams T.par ∧ T' = setAll T p ∧
      Opt.Legal T'.par ∧ Allowed T p ∧
      ∃ q L0 L1, q.length = numberOfParams T.par ∧ Best W (setAll T q) ∧ logProb W T = .ok (.fin L0) ∧ logProb W T' = .ok (.fin L1) ∧
        r.1 = .fin (L1 - L0) ∧ L0 ≤ L1 ∧ (Best W T → T' = T) ∧
        ∀ b, tiny ≤ b → b ≤ 1 → Allowed T (between T q b) → ∃ L', logProb W (setAll T (between T q b)) = .ok (.fin L') ∧ L' ≤ L1 :=
  optimize_ok m tiny htiny ht1 W hooks o T hL (found m W hooks o T base D hr hl hm) A B hA hs fl

omit [IsStrictOrderedRing R] in
theorem between_one (T : Tractor R M) (q : List R) (hq : q.length = numberOfParams T.par) : between T q 1 = q := by
  have hp0 : (getParams T.par).length = numberOfParams T.par := getParams_length _
  apply List.ext_getElem
  · simp [between, hp0, hq]
  · intro i i1 i2
    simp [between]

/-- **C144, maximum.** If the limits allow all maxima, one call of `optimize` ends at a maximum. -/
theorem C144_best (m : Method R) (tiny : R) (htiny : 0 < tiny) (ht1 : tiny ≤ 1) (W : World R M)
    (hooks : Tractor R M → Nat → Nat → Option (List (Deriv R))) (o : Opts) (T : Tractor R M) (base : Nat → Nat → Nat → R)
    (D : Nat → Nat → Nat → Nat → R) (hr : Ready W hooks T) (hl : Linear W hooks T base D) (hm : MethodOK m W hooks o T D) (hL : Opt.Legal T.par)
    (hall : ∀ q : List R, q.length = numberOfParams T.par → Best W (setAll T q) → Allowed T q)
    (A B : List R) (hA : ∀ a ∈ A, tiny ≤ a) (hs : (A ++ 1 :: B).Pairwise (· < ·)) (fl : Opt.OptFlags) :
    ∃ T' fl' r p, optimize m tiny W hooks o (A ++ 1 :: B) fl T = (T', fl', .ok r) ∧ p.length = numberOfParams T.par ∧ T' = setAll T p ∧
      Opt.Legal T'.par ∧ Best W T' ∧ (Best W T → T' = T ∧ r.1 = .fin 0) := by
  obtain ⟨T', fl', r, p, h1, h2, h3, h4, -, q, L0, L1, h5, h6, h7, h8, h9, -, h11, h12⟩ :=
    C144_segment m tiny htiny ht1 W hooks o T base D hr hl hm hL A B hA hs fl
  obtain ⟨L', g1, g2⟩ := h12 1 ht1 (le_refl _) (by rw [between_one T q h5]; exact hall q h5 h6)
  rw [between_one T q h5] at g1
  refine ⟨T', fl', r, p, h1, h2, h3, h4, ⟨L1, h8, fun x hx => ?_⟩, fun hb => ⟨h11 hb, ?_⟩⟩
  · obtain ⟨L, b1, b2⟩ := h6
    rw [b1] at g1
    injection g1 with g1
    injection g1 with g1
    subst g1
    rw [h3, setAll_length] at hx
    obtain ⟨l, c1, c2⟩ := b2 x (by rw [setAll_length]; exact hx)
    rw [setAll_setAll T q x hx] at c1
    exact ⟨l, by rw [h3, setAll_setAll T p x hx]; exact c1, le_trans c2 g2⟩
  · rw [h11 hb, h7] at h8
    injection h8 with h8
    injection h8 with h8
    rw [h9, h8, sub_self]

/-- **C144, loop.** `optimize_loop` of such a tractor (in order at all values of the parameters), any number of steps but 0, when the limits allow going
from the start to any maximum and from any maximum to any other: it ends at a maximum within the bounds; if `dchisq` and `dchisq_limited` are not
negative, in the second round at the latest. -/
theorem C144_loop (m : Method R) (tiny : R) (htiny : 0 < tiny) (ht1 : tiny ≤ 1) (W : World R M)
    (hooks : Tractor R M → Nat → Nat → Option (List (Deriv R))) (o : Opts) (T : Tractor R M)
    (h : ∀ p : List R, p.length = numberOfParams T.par → ∃ base D, Ready W hooks (setAll T p) ∧ Linear W hooks (setAll T p) base D ∧
      MethodOK m W hooks o (setAll T p) D) (hL : Opt.Legal T.par)
    (hall : ∀ p q : List R, p.length = numberOfParams T.par → q.length = numberOfParams T.par → p = getParams T.par ∨ Best W (setAll T p) →
      Best W (setAll T q) → Allowed (setAll T p) q)
    (A B : List R) (hA : ∀ a ∈ A, tiny ≤ a) (hs : (A ++ 1 :: B).Pairwise (· < ·)) (dchisq lim : R) (steps : Nat) (hst : 0 < steps)
    (fl : Opt.OptFlags) :
    ∃ T' r p, optimizeLoop m tiny W hooks o (A ++ 1 :: B) dchisq lim steps fl T = (T', .ok r) ∧ p.length = numberOfParams T.par ∧
      T' = setAll T p ∧ Opt.Legal T'.par ∧ Best W T' ∧ r.steps < steps ∧ (0 ≤ dchisq → 0 ≤ lim → r.steps ≤ 1) := by
  have one : ∀ (p : List R) (fl : Opt.OptFlags), p.length = numberOfParams T.par → p = getParams T.par ∨ Best W (setAll T p) →
      Opt.Legal (setAll T p).par → ∃ T' fl' r p', optimize m tiny W hooks o (A ++ 1 :: B) fl (setAll T p) = (T', fl', .ok r) ∧
        p'.length = numberOfParams T.par ∧ T' = setAll T p' ∧ Opt.Legal T'.par ∧ Best W T' ∧ (Best W (setAll T p) → T' = setAll T p ∧ r.1 = .fin 0) := by
    intro p fl hp hc hlg
    obtain ⟨base, D, a1, a2, a3⟩ := h p hp
    obtain ⟨T', fl', r, p', b1, b2, b3, b4, b5, b6⟩ := C144_best m tiny htiny ht1 W hooks o (setAll T p) base D a1 a2 a3 hlg
      (fun q hq hb => by
        rw [setAll_length] at hq
        rw [setAll_setAll T p q hq] at hb
        exact hall p q hp hq hc hb) A B hA hs fl
    rw [setAll_length] at b2
    rw [setAll_setAll T p p' b2] at b3
    exact ⟨T', fl', r, p', b1, b2, b3, b4, b5, b6⟩
  have key : ∀ n step p fl, p.length = numberOfParams T.par → p = getParams T.par ∨ Best W (setAll T p) → Opt.Legal (setAll T p).par →
      ∃ T' fl' k p', loopFrom m tiny W hooks o (A ++ 1 :: B) dchisq lim n step fl (setAll T p) = (T', fl', .ok k) ∧
        p'.length = numberOfParams T.par ∧ T' = setAll T p' ∧ Opt.Legal T'.par ∧ Best W T' ∧ k ≤ step + n ∧
        (0 ≤ dchisq → 0 ≤ lim → k ≤ step + 1 ∧ (Best W (setAll T p) → k ≤ step)) := by
    intro n
    induction n with
    | zero =>
      intro step p fl hp hc hlg
      obtain ⟨T', fl', r, p', b1, b2, b3, b4, b5, -⟩ := one p { fl with stepLimited := false } hp hc hlg
      refine ⟨T', fl', step, p', ?_, b2, b3, b4, b5, by omega, fun _ _ => ⟨by omega, fun _ => by omega⟩⟩
      unfold loopFrom
      rw [b1]
      dsimp only
      split
      · rfl
      · split <;> rfl
    | succ n ih =>
      intro step p fl hp hc hlg
      obtain ⟨T', fl', r, p', b1, b2, b3, b4, b5, b6⟩ := one p { fl with stepLimited := false } hp hc hlg
      have hstop : ∀ r' : Tractor R M × Opt.OptFlags × Except PyErr Nat,
          loopFrom m tiny W hooks o (A ++ 1 :: B) dchisq lim (n + 1) step fl (setAll T p) = r' →
          r' = (T', fl', .ok step) ∨
          (((fl'.stepLimited = false → r.1.le (.fin dchisq) = false) ∧ (fl'.stepLimited = true → r.1.le (.fin lim) = false)) ∧
            r' = loopFrom m tiny W hooks o (A ++ 1 :: B) dchisq lim n (step + 1) fl' T') := by
        intro r' hr'
        unfold loopFrom at hr'
        rw [b1] at hr'
        dsimp only at hr'
        subst hr'
        cases hf : fl'.stepLimited <;> cases h1 : r.1.le (.fin dchisq) <;> cases h2 : r.1.le (.fin lim) <;> simp
      rcases hstop _ rfl with e | ⟨⟨e1, e2⟩, e⟩
      · exact ⟨T', fl', step, p', e, b2, b3, b4, b5, by omega, fun _ _ => ⟨by omega, fun _ => by omega⟩⟩
      · obtain ⟨T2, fl2, k, p2, c1, c2, c3, c4, c5, c6, c7⟩ := ih (step + 1) p' fl' b2 (.inr (b3 ▸ b5)) (b3 ▸ b4)
        refine ⟨T2, fl2, k, p2, by rw [e, b3]; exact c1, c2, c3, c4, c5, by omega, fun d0 l0 => ⟨(c7 d0 l0).2 (b3 ▸ b5), fun hb => ?_⟩⟩
        exfalso
        have h0 := (b6 hb).2
        rw [h0] at e1 e2
        cases hf : fl'.stepLimited with
        | false => have := e1 hf; simp [Num.le] at this; exact absurd d0 (not_le.2 this)
        | true => have := e2 hf; simp [Num.le] at this; exact absurd l0 (not_le.2 this)
  obtain ⟨n, rfl⟩ : ∃ n, steps = n + 1 := ⟨steps - 1, by omega⟩
  obtain ⟨T', fl', k, p', c1, c2, c3, c4, c5, c6, c7⟩ := key n 0 (getParams T.par) { fl with hitLimit := false, lastStepHitLimit := false }
    (getParams_length _) (.inl rfl) (by rw [setAll_self]; exact hL)
  rw [setAll_self] at c1
  refine ⟨T', ⟨k, fl'.lastStepHitLimit, fl'.hitLimit⟩, p', ?_, c2, c3, c4, c5, by dsimp only; omega, fun d0 l0 => by
    have := (c7 d0 l0).1
    dsimp only
    omega⟩
  unfold optimizeLoop
  dsimp only
  rw [c1]

/-- **C144, defaults.** `ConstrainedDenseOptimizer` and `SmarterDenseOptimizer` refuse `shared_params=True`, which is the default of `optimize` and
`optimize_loop`: RuntimeError. -/
theorem C144_default_false (m : Method R) (hm : ∀ S, m ≠ .sparse S) (tiny : R) (W : World R M)
    (hooks : Tractor R M → Nat → Nat → Option (List (Deriv R))) (o : Opts) (T : Tractor R M) (base : Nat → Nat → Nat → R)
    (D : Nat → Nat → Nat → Nat → R) (hr : Ready W hooks T) (hl : Linear W hooks T base D)
    (hp : o.priors = true ∨ ∀ x ∈ thawedPriors T.par, x.2 = []) (hsh : o.shared = true) (alphas : List R) (fl : Opt.OptFlags) :
    optimize m tiny W hooks o alphas fl T = (T, fl, .error .runtime) := by
  obtain ⟨out, l, ds, pr, es, C, h1, -⟩ := problem_ok hl hr o hp
  cases m with
  | sparse S => exact absurd rfl (hm S)
  | dense sqrt lstsq =>
    unfold optimize directionM denseDirection
    dsimp only
    rw [h1]
    simp only [hsh, if_true]
  | smarter sqrt lstsq =>
    unfold optimize directionM smarterDirection
    dsimp only
    rw [h1]
    simp only [hsh, if_true]

/-- **C144, at a bound.** If a parameter is at its lower bound and the direction points below it (or at its upper bound and above), `optimize` leaves the
tractor as it is, whatever could be gained by the other parameters. -/
theorem C144_at_bound (m : Method R) (tiny : R) (htiny : 0 < tiny) (W : World R M)
    (hooks : Tractor R M → Nat → Nat → Option (List (Deriv R))) (o : Opts) (T : Tractor R M) (hL : Opt.Legal T.par) (X : List R)
    (hd : directionM m W hooks o T = (T, .ok (some X))) (hX : X.length = numberOfParams T.par) (i : Nat) (p d : R) (l u : Option R)
    (h1 : (getParams T.par)[i]? = some p) (h2 : (getLowerBounds T.par)[i]? = some l) (h3 : (getUpperBounds T.par)[i]? = some u)
    (h4 : X[i]? = some d) (hb : (l = some p ∧ d < 0) ∨ (u = some p ∧ 0 < d)) (alphas : List R) (hs : alphas.Pairwise (· < ·))
    (fl : Opt.OptFlags) :
    optimize m tiny W hooks o alphas fl T = (T, ⟨true, true, true⟩, .ok (.fin 0, 0)) := by
  have hnf : ∀ a, tiny ≤ a →
      ¬ Opt.Feasible (getParams T.par) (getMaxStep T.par) (getLowerBounds T.par) (getUpperBounds T.par) X a := by
    intro a ha hf
    have hw := hf.2 i p l u d h1 h2 h3 h4
    have ha0 : 0 < a := lt_of_lt_of_le htiny ha
    rcases hb with ⟨rfl, hd⟩ | ⟨rfl, hd⟩
    · have := hw.1 p rfl
      have := mul_neg_of_pos_of_neg ha0 hd
      linarith
    · have := hw.2 p rfl
      have := mul_pos ha0 hd
      linarith
  obtain ⟨b, cs, g1, -, g3, -⟩ := Opt.getParameterSteps_ok tiny htiny T.par hL X alphas hX (increasing_of_pairwise _ hs)
  have hcs : cs = [] := by
    cases cs with
    | nil => rfl
    | cons c cs =>
      obtain ⟨a0, -, s2, -, -, s5, -⟩ := g3 0 c rfl
      exact absurd s5 (hnf _ s2)
  subst hcs
  have hne : X ≠ [] := by rintro rfl; simp at h4
  have hset : setParams T.par (getParams T.par) = (T.par, none) := by
    have e1 := par_setAll T (getParams T.par)
    rw [setAll_self] at e1
    have e2 := (setParams_get T.par (getParams T.par) (getParams_length _)).1
    exact Prod.ext e1.symm e2
  unfold optimize
  rw [hd]
  cases X with
  | nil => exact absurd rfl hne
  | cons x X =>
    dsimp only
    unfold Opt.tryUpdatesC
    rw [g1]
    simp only [List.length_nil, if_true, Opt.candLoop, hset, withPar_self]

/-! Example: one image of two pixels, -1 and 5, and a source with two pixel values, the first of which must not be negative. -/

def bPar (a b : ℚ) : Par ℚ := .plist ⟨[⟨["a"], true, a⟩, ⟨["b"], true, b⟩], [some 0, none], [none, none], [none, none], none, []⟩

def bI : Image ℚ := ⟨0, .cons ["sky"] true (.scalar (exS 0)) .nil, Arr.ofLists [[-1, 5]] 2, Arr.ofLists [[1, 1]] 2⟩

def bTr (a b : ℚ) : Tractor ℚ Unit := ⟨true, [(false, bI)], true, [(true, some ⟨10, bPar a b⟩)], none, false⟩

def bD (k _i y x : Nat) : ℚ := if y = 0 ∧ x = k then 1 else 0

theorem bSet (a b a' b' : ℚ) : setAll (bTr a b) [a', b'] = bTr a' b' := rfl

theorem bN (a b : ℚ) : numberOfParams (bTr a b).par = 2 := rfl

theorem bList (p : List ℚ) (hp : p.length = 2) : ∃ a b, p = [a, b] := by
  match p, hp with
  | [a, b], _ => exact ⟨a, b, rfl⟩

theorem bMask (a b : ℚ) (im : Image ℚ) : MasksOK (bTr a b) im := by
  intro masks h
  cases h

theorem bReady (a b : ℚ) : Ready exWorld exHooks (bTr a b) := by
  refine ⟨fun x _ => bMask a b x.2, ?_, ?_, ?_, ?_, ?_⟩
  · intro x hx
    simp only [bTr, List.mem_cons, List.not_mem_nil, or_false] at hx
    subst hx
    exact ⟨rfl, rfl, by show 2 * 1 < 2 ^ 31; norm_num⟩
  · simp [bTr, Tractor.par, PriorsOK, PriorsOKSubs, imagesSubs, catalogSubs, bI, bPar]
  · intro i x _ _ y _ _ l hl
    cases hl
  · intro x hx h
    simp only [bTr, List.mem_cons, List.not_mem_nil, or_false] at hx
    subst hx
    cases h
  · intro src hs x _ ds hds
    have : src = ⟨10, bPar a b⟩ := by simpa [bTr] using hs
    subst this
    obtain ⟨mask, -, rfl⟩ := hds
    split
    · simp
    · exact Nat.le_refl 2

theorem bLoc (a b : ℚ) (k o j : Nat) (h : Located (bTr a b) k o j) : o = 1 ∧ k = j ∧ j < 2 := by
  obtain ⟨n, h1, h2, h3⟩ := h
  have hb : blocks (bTr a b) = [0, 2] := rfl
  rw [hb] at h1 h3
  match o with
  | 0 => simp at h1; omega
  | 1 => simp at h1 h3; omega
  | o + 2 => simp at h1

theorem bLinear (a b : ℚ) : Linear exWorld exHooks (bTr a b) (fun _ _ _ => 0) bD := by
  refine ⟨?_, ?_, ?_⟩
  · intro p hp i c im hi A hA y x hy hx
    rw [bN] at hp ⊢
    obtain ⟨a', b', rfl⟩ := bList p hp
    rw [bSet] at hi hA
    obtain ⟨-, h⟩ := C29_model_image exWorld (bTr a' b') im (bMask a' b' im) none
    obtain ⟨r, g1, -, -, g2⟩ := h [some ⟨0, 0, some ⟨1, 2, fun _ c => (([a', b'] : List ℚ)[c]?).getD 0⟩⟩]
      (.cons ⟨none, .nomasks rfl, rfl⟩ .nil) true
    rw [hA] at g1
    injection g1 with g1
    subst g1
    rw [g2 y x hy hx]
    have him : im = bI := by
      match i, hi with
      | 0, hi => simp [bTr] at hi; exact hi.2.symm
      | n + 1, hi => simp [bTr] at hi
    subst him
    have hy : y < 1 := hy
    have hx : x < 2 := hx
    interval_cases y; interval_cases x <;> simp [exWorld, bI, exSky, exS, Sky.at, patchAt, Patch.at, bD, Finset.sum_range_succ]
  · intro k o' j c src hloc hc i c' im hi ds hds y x hy hx
    obtain ⟨h, rfl, hj⟩ := bLoc a b _ _ _ hloc
    obtain ⟨mask, -, rfl⟩ := hds
    rw [if_neg (by simp [bTr])]
    have hyx : y < 1 ∧ x < 2 := by
      match i, hi with
      | 0, hi => simp [bTr] at hi; obtain ⟨-, rfl⟩ := hi; exact ⟨hy, hx⟩
      | n + 1, hi => simp [bTr] at hi
    obtain ⟨hy2, hx2⟩ := hyx
    interval_cases k <;> interval_cases y <;> interval_cases x <;> simp [exWorld, patchAt, Patch.at, bD]
  · intro k o j c im hloc ho d hd
    obtain ⟨rfl, -, -⟩ := bLoc a b _ _ _ hloc
    simp [bTr] at ho

theorem bProb (a b : ℚ) : logProb exWorld (bTr a b) = .ok (.fin (-(1 / 2) * ((-1 - a) ^ 2 + (5 - b) ^ 2))) := by
  have h := likelihood_at (bLinear a b) (bReady a b) [a, b] rfl
  rw [bSet, bN] at h
  have h' : getLogLikelihood exWorld (bTr a b) = .ok (-(1 / 2) * ((-1 - a) ^ 2 + (5 - b) ^ 2)) := by
    rw [h]
    simp [Fit.residual, bTr, bI, bD, Finset.sum_range_succ, Arr.ofLists]
  have hp : getLogPrior (bTr a b).par = .ok 0 := by
    simp [bTr, Tractor.par, getLogPrior, getLogPriorSubs, imagesSubs, catalogSubs, bI, bPar, gaussianLogPrior, gaussianChisq, Except.map]
  unfold logProb
  rw [hp]
  simp [h', getLogProb, Except.map, Num.add, Num.isNan]

theorem bLegalAt (a b : ℚ) (h : 0 ≤ a) : Opt.Legal (bTr a b).par := by
  have e1 : getParams (bTr a b).par = [a, b] := rfl
  have e2 : getLowerBounds (bTr a b).par = [some 0, none] := rfl
  have e3 : getUpperBounds (bTr a b).par = [none, none] := rfl
  have e4 : getMaxStep (bTr a b).par = [none, none] := rfl
  refine ⟨rfl, rfl, rfl, ?_, ?_⟩
  · rw [e1, e2, e3]
    intro i p l u h1 h2 h3
    match i with
    | 0 =>
      simp only [List.getElem?_cons_zero, Option.some.injEq] at h1 h2 h3
      subst h1 h2 h3
      exact ⟨by simpa using h, by simp⟩
    | 1 =>
      simp only [List.getElem?_cons_zero, List.getElem?_cons_succ, Option.some.injEq] at h1 h2 h3
      subst h1 h2 h3
      exact ⟨by simp, by simp⟩
    | i + 2 => simp at h1
  · rw [e4]
    intro m hm x hx
    simp at hm
    subst hm
    cases hx

theorem bLegal : Opt.Legal (bTr 0 0).par := bLegalAt 0 0 (le_refl _)

theorem bAllowed (a b a' b' : ℚ) (h : 0 ≤ a') : Allowed (bTr a b) [a', b'] := by
  have e2 : getLowerBounds (bTr a b).par = [some 0, none] := rfl
  have e3 : getUpperBounds (bTr a b).par = [none, none] := rfl
  have e4 : getMaxStep (bTr a b).par = [none, none] := rfl
  refine ⟨?_, ?_⟩
  · rw [e2, e3]
    intro i x l u h1 h2 h3
    match i with
    | 0 =>
      simp only [List.getElem?_cons_zero, Option.some.injEq] at h1 h2 h3
      subst h1 h2 h3
      exact ⟨by simpa using h, by simp⟩
    | 1 =>
      simp only [List.getElem?_cons_zero, List.getElem?_cons_succ, Option.some.injEq] at h1 h2 h3
      subst h1 h2 h3
      exact ⟨by simp, by simp⟩
    | i + 2 => simp at h1
  · rw [e4]
    intro i x p m h1 h2 h3
    match i with
    | 0 | 1 => simp at h3
    | i + 2 => simp at h3

theorem bOptions (S : Solver ℚ) : Options S ⟨false, true, true⟩ (bTr 0 0) bD := by
  refine ⟨.inl rfl, by simp, fun _ _ => ?_⟩
  rw [bN]
  have : effect ⟨false, true, true⟩ (bTr 0 0) bD 1 = 1 := by
    have hw : widths ⟨false, true, true⟩ (bTr 0 0) 1 = [] := rfl
    rw [effect, hw]
    simp [bTr, bI, List.zipIdx, Finset.sum_range_succ, bD, Arr.ofLists]
  rw [this]
  norm_num

/-- **C144, the maximum within the bounds is not reached**: both pixel values are 0; the first cannot go down to -1, so the second is not raised to 5
either, although that is allowed and better; `optimize` leaves the tractor as it is, with any exact solver. -/
theorem C144_allowed_maximum_false (m : Method ℚ) (o : Opts) (hm : MethodOK m exWorld exHooks o (bTr 0 0) bD)
    (alphas : List ℚ) (hs : alphas.Pairwise (· < ·)) (fl : Opt.OptFlags) :
    optimize m (1 / 100000000) exWorld exHooks o alphas fl (bTr 0 0) =
      (bTr 0 0, ⟨true, true, true⟩, .ok (.fin 0, 0)) ∧
    Allowed (bTr 0 0) [0, 5] ∧ logProb exWorld (bTr 0 0) = .ok (.fin (-13)) ∧
      logProb exWorld (setAll (bTr 0 0) [0, 5]) = .ok (.fin (-(1 / 2))) := by
  have p0 : logProb exWorld (bTr 0 0) = .ok (.fin (-13)) := by rw [bProb]; norm_num
  refine ⟨?_, ?_, p0, by rw [bSet, bProb]; norm_num⟩
  · obtain ⟨r, hd, hf⟩ := found m exWorld exHooks o (bTr 0 0) _ bD (bReady 0 0) (bLinear 0 0) hm
    rcases hf with ⟨-, L, l1, l2⟩ | ⟨X, rfl, -, hX, ⟨L, l1, l2⟩, -⟩
    · exfalso
      rw [p0] at l1
      injection l1 with l1
      injection l1 with l1
      obtain ⟨L', g1, g2⟩ := l2 [0, 5] rfl
      rw [bSet, bProb] at g1
      injection g1 with g1
      injection g1 with g1
      rw [← g1, ← l1] at g2
      norm_num at g2
    · rw [bN] at hX
      obtain ⟨x, y, rfl⟩ := bList X hX
      have hxy : List.zipWith (· + ·) (getParams (bTr 0 0).par) [x, y] = [0 + x, 0 + y] := rfl
      rw [hxy, bSet, zero_add, zero_add, bProb] at l1
      injection l1 with l1
      injection l1 with l1
      obtain ⟨L', g1, g2⟩ := l2 [-1, 5] rfl
      rw [hxy, bSet, bSet, bProb] at g1
      injection g1 with g1
      injection g1 with g1
      rw [← g1, ← l1] at g2
      have hx : x = -1 := by
        have : (-1 - x) ^ 2 ≤ 0 := by nlinarith [sq_nonneg (5 - y)]
        have := pow_eq_zero_iff (two_ne_zero) |>.1 (le_antisymm this (sq_nonneg _))
        linarith
      exact C144_at_bound _ _ (by norm_num) _ _ _ _ bLegal _ hd (by rw [bN]; rfl) 0 0 x (some 0) none rfl rfl rfl rfl
        (.inl ⟨rfl, by rw [hx]; norm_num⟩) alphas hs fl
  · exact bAllowed 0 0 0 5 (le_refl _)

/-- The tractor of the examples of C143, which has no limits: the maximum is reached with the dense solver, in the loop with at most one further round. -/
example : ∃ (lstsq : Nat → Nat → Lsq.Dense ℚ → (Nat → ℚ) → List ℚ) (T' : Tractor ℚ Unit) (r : Opt.LoopResult),
    optimizeLoop (.dense id lstsq) (1 / 100000000) exWorld exHooks ⟨true, false, true⟩ [1 / 2, 1] (1 / 100) (1 / 10) 20 ⟨false, false, false⟩
      (exTr 3 1 2) = (T', .ok r) ∧ Best exWorld T' ∧ r.steps ≤ 1 := by
  obtain ⟨lstsq, hl⟩ := Lsq.dense_solver_exists (R := ℚ)
  have hset : ∀ s a b : ℚ, setAll (exTr 3 1 2) [s, a, b] = exTr s a b := fun _ _ _ => rfl
  have hlim : ∀ s a b : ℚ, getLowerBounds (exTr s a b).par = [none, none, none] ∧ getUpperBounds (exTr s a b).par = [none, none, none] ∧
      getMaxStep (exTr s a b).par = [none, none, none] := fun _ _ _ => ⟨rfl, rfl, rfl⟩
  have hall : ∀ (s a b : ℚ) (q : List ℚ), Allowed (exTr s a b) q := by
    intro s a b q
    obtain ⟨e1, e2, e3⟩ := hlim s a b
    refine ⟨?_, ?_⟩
    · rw [e1, e2]
      intro i x l u _ h2 h3
      match i with
      | 0 | 1 | 2 => simp at h2 h3; subst h2 h3; exact ⟨by simp, by simp⟩
      | i + 3 => simp at h2
    · rw [e3]
      intro i x p m _ _ h3
      match i with
      | 0 | 1 | 2 => simp at h3
      | i + 3 => simp at h3
  have hleg : Opt.Legal (exTr 3 1 2).par := by
    obtain ⟨e1, e2, e3⟩ := hlim 3 1 2
    have hw := (hall 3 1 2 (getParams (exTr 3 1 2).par)).1
    refine ⟨rfl, rfl, rfl, hw, ?_⟩
    rw [e3]
    intro m hm x hx
    simp at hm
    subst hm
    cases hx
  obtain ⟨T', r, p, h1, -, -, -, h5, -, h7⟩ := C144_loop (.dense id lstsq) (1 / 100000000) (by norm_num) (by norm_num) exWorld exHooks
    ⟨true, false, true⟩ (exTr 3 1 2)
    (fun p hp => by
      obtain ⟨s, a, b, rfl⟩ := exList p hp
      rw [hset]
      exact ⟨exBase, exD, exReady s a b, exLinear s a b, fun x hx => hx, rfl, hl, rfl, .inl rfl⟩) hleg
    (fun p q hp _ _ _ => by
      obtain ⟨s, a, b, rfl⟩ := exList p hp
      rw [hset]
      exact hall s a b q) [1 / 2] [] (by intro a ha; simp at ha; subst ha; norm_num) (by simp; norm_num) (1 / 100) (1 / 10) 20 (by norm_num)
    ⟨false, false, false⟩
  exact ⟨lstsq, T', r, h1, h5, h7 (by norm_num) (by norm_num)⟩

/-- Solvers as `C144_allowed_maximum_false` wants them, dense and sparse. -/
example : ∃ lstsq lsqr, MethodOK (.dense id lstsq) exWorld exHooks ⟨true, false, true⟩ (bTr 0 0) bD ∧ MethodOK (.sparse ⟨id, 0, lsqr⟩) exWorld exHooks ⟨false, true, true⟩ (bTr 0 0) bD := by
  obtain ⟨lstsq, hl⟩ := Lsq.dense_solver_exists (R := ℚ)
  obtain ⟨lsqr, hl2⟩ := Lsq.solver_exists (R := ℚ)
  exact ⟨lstsq, lsqr, ⟨fun x hx => hx, rfl, hl, rfl, .inl rfl⟩, ⟨fun x hx => hx, hl2, bOptions _⟩⟩

/-- The same tractor with derivatives that cover all of the image, as `SmarterDenseOptimizer` wants them. -/
def sWorld : World ℚ Unit :=
  { exWorld with srcDerivs := fun _ _ _ => [some ⟨0, 0, some ⟨1, 2, fun _ c => if c = 0 then 1 else 0⟩⟩,
      some ⟨0, 0, some ⟨1, 2, fun _ c => if c = 1 then 1 else 0⟩⟩] }

theorem sMethod (lstsq : Nat → Nat → Lsq.Dense ℚ → (Nat → ℚ) → List ℚ) (hl : Lsq.DenseSolves lstsq) (a b : ℚ) :
    MethodOK (.smarter id lstsq) sWorld exHooks ⟨true, false, true⟩ (bTr a b) bD := by
  refine ⟨fun _ => Iff.rfl, rfl, hl, rfl, .inl rfl, ?_⟩
  intro out l ds pr h1 h2
  have e1 : getDerivs sWorld (fun T img => getModelImage sWorld T img none true) (exHooks (bTr a b)) (bTr a b) =
      (bTr a b, .ok [[(some ⟨0, 0, some ⟨1, 2, fun _ c => if c = 0 then 1 else 0⟩⟩, 0)],
        [(some ⟨0, 0, some ⟨1, 2, fun _ c => if c = 1 then 1 else 0⟩⟩, 0)]]) := rfl
  rw [e1] at h1
  injection h1 with _ h1
  injection h1 with h1
  subst h1
  obtain ⟨im, e2, e3, e4⟩ : ∃ im : Lsq.Img ℚ, inputs sWorld ⟨true, false, true⟩ (bTr a b)
      [[(some ⟨0, 0, some ⟨1, 2, fun _ c => if c = 0 then 1 else 0⟩⟩, 0)], [(some ⟨0, 0, some ⟨1, 2, fun _ c => if c = 1 then 1 else 0⟩⟩, 0)]] =
      .ok ([im], [[(⟨0, 0, some ⟨1, 2, fun _ c => if c = 0 then 1 else 0⟩⟩, 0)], [(⟨0, 0, some ⟨1, 2, fun _ c => if c = 1 then 1 else 0⟩⟩, 0)]], none) ∧
      im.h = 1 ∧ im.w = 2 := ⟨_, rfl, rfl, rfl⟩
  rw [e2] at h2
  simp only [Except.ok.injEq, Prod.mk.injEq] at h2
  obtain ⟨rfl, rfl, rfl⟩ := h2
  have hi : lsqImgs [im] 0 = im := rfl
  have hf : ∀ px : Nat → Nat → ℚ, Lsq.Fills im ⟨0, 0, some ⟨1, 2, px⟩⟩ (0, 2, 0, 1) := by
    intro px x y
    simp only [Patch.covers, inBox, e3, e4]
    omega
  refine ⟨fun _ => (0, 2, 0, 1), ?_, ?_, ?_⟩
  · intro i hi'
    have : i = 0 := by simpa [Lsq.usedImages] using hi'
    subst this
    simp [Lsq.FullBox, hi, e3, e4]
  · intro param hp e he
    simp only [List.mem_cons, List.not_mem_nil, or_false] at hp
    rcases hp with rfl | rfl <;> simp only [List.mem_singleton] at he <;> subst he <;> exact .inr (hf _)
  · intro i hi'
    have : i = 0 := by simpa [Lsq.usedImages] using hi'
    subst this
    exact ⟨_, List.mem_cons_self, _, List.mem_singleton.2 rfl, rfl, hf _⟩

theorem sReady (a b : ℚ) : Ready sWorld exHooks (bTr a b) := by
  refine ⟨fun x _ => bMask a b x.2, ?_, ?_, ?_, ?_, ?_⟩
  · intro x hx
    simp only [bTr, List.mem_cons, List.not_mem_nil, or_false] at hx
    subst hx
    exact ⟨rfl, rfl, by show 2 * 1 < 2 ^ 31; norm_num⟩
  · simp [bTr, Tractor.par, PriorsOK, PriorsOKSubs, imagesSubs, catalogSubs, bI, bPar]
  · intro i x _ _ y _ _ l hl
    cases hl
  · intro x hx h
    simp only [bTr, List.mem_cons, List.not_mem_nil, or_false] at hx
    subst hx
    cases h
  · intro src hs x _ ds hds
    have : src = ⟨10, bPar a b⟩ := by simpa [bTr] using hs
    subst this
    obtain ⟨mask, -, rfl⟩ := hds
    split
    · simp
    · exact Nat.le_refl 2

theorem sLinear (a b : ℚ) : Linear sWorld exHooks (bTr a b) (fun _ _ _ => 0) bD := by
  refine ⟨?_, ?_, ?_⟩
  · intro p hp i c im hi A hA y x hy hx
    rw [bN] at hp ⊢
    obtain ⟨a', b', rfl⟩ := bList p hp
    rw [bSet] at hi hA
    obtain ⟨-, h⟩ := C29_model_image sWorld (bTr a' b') im (bMask a' b' im) none
    obtain ⟨r, g1, -, -, g2⟩ := h [some ⟨0, 0, some ⟨1, 2, fun _ c => (([a', b'] : List ℚ)[c]?).getD 0⟩⟩]
      (.cons ⟨none, .nomasks rfl, rfl⟩ .nil) true
    rw [hA] at g1
    injection g1 with g1
    subst g1
    rw [g2 y x hy hx]
    have him : im = bI := by
      match i, hi with
      | 0, hi => simp [bTr] at hi; exact hi.2.symm
      | n + 1, hi => simp [bTr] at hi
    subst him
    have hy : y < 1 := hy
    have hx : x < 2 := hx
    interval_cases y; interval_cases x <;> simp [sWorld, exWorld, bI, exSky, exS, Sky.at, patchAt, Patch.at, bD, Finset.sum_range_succ]
  · intro k o' j c src hloc hc i c' im hi ds hds y x hy hx
    obtain ⟨h, rfl, hj⟩ := bLoc a b _ _ _ hloc
    obtain ⟨mask, -, rfl⟩ := hds
    rw [if_neg (by simp [bTr])]
    have hyx : y < 1 ∧ x < 2 := by
      match i, hi with
      | 0, hi => simp [bTr] at hi; obtain ⟨-, rfl⟩ := hi; exact ⟨hy, hx⟩
      | n + 1, hi => simp [bTr] at hi
    obtain ⟨hy2, hx2⟩ := hyx
    interval_cases k <;> interval_cases y <;> interval_cases x <;> simp [sWorld, exWorld, patchAt, Patch.at, bD]
  · intro k o j c im hloc ho d hd
    obtain ⟨rfl, -, -⟩ := bLoc a b _ _ _ hloc
    simp [bTr] at ho

/-- `SmarterDenseOptimizer` from pixel values 1 and 1: the log-probability does not go down, the first value stays non-negative. -/
example : ∃ (lstsq : Nat → Nat → Lsq.Dense ℚ → (Nat → ℚ) → List ℚ) (T' : Tractor ℚ Unit) (fl : Opt.OptFlags) (r : Num ℚ × ℚ),
    optimize (.smarter id lstsq) (1 / 100000000) sWorld exHooks ⟨true, false, true⟩ [1 / 2, 1] ⟨false, false, false⟩ (bTr 1 1) = (T', fl, .ok r) ∧
      Opt.Legal T'.par := by
  obtain ⟨lstsq, hl⟩ := Lsq.dense_solver_exists (R := ℚ)
  obtain ⟨T', fl', r, p, h1, -, -, h4, -⟩ := C144_segment (.smarter id lstsq) (1 / 100000000) (by norm_num) (by norm_num) sWorld exHooks
    ⟨true, false, true⟩ (bTr 1 1) _ bD (sReady 1 1) (sLinear 1 1) (sMethod lstsq hl 1 1) (bLegalAt 1 1 (by norm_num)) [1 / 2] []
    (by intro a ha; simp at ha; subst ha; norm_num) (by simp; norm_num) ⟨false, false, false⟩
  exact ⟨lstsq, T', fl', r, h1, h4⟩

/-- The tractor of the example from values at which the bound allows going half of the way: the first value ends at the bound or above. -/
example : ∃ (lstsq : Nat → Nat → Lsq.Dense ℚ → (Nat → ℚ) → List ℚ) (T' : Tractor ℚ Unit) (fl : Opt.OptFlags) (r : Num ℚ × ℚ) (L : ℚ),
    optimize (.dense id lstsq) (1 / 100000000) exWorld exHooks ⟨true, false, true⟩ [1 / 2, 1] ⟨false, false, false⟩ (bTr 1 1) = (T', fl, .ok r) ∧
      logProb exWorld T' = .ok (.fin L) ∧ -(5 / 2) ≤ L := by
  obtain ⟨lstsq, hl⟩ := Lsq.dense_solver_exists (R := ℚ)
  have hleg : Opt.Legal (bTr 1 1).par := bLegalAt 1 1 (by norm_num)
  obtain ⟨T', fl', r, p, h1, -, -, -, -, q, L0, L1, q1, ⟨L, q2, q3⟩, -, h8, -, -, -, h12⟩ := C144_segment (.dense id lstsq) (1 / 100000000)
    (by norm_num) (by norm_num) exWorld exHooks ⟨true, false, true⟩ (bTr 1 1) _ bD (bReady 1 1) (bLinear 1 1)
    ⟨fun x hx => hx, rfl, hl, rfl, .inl rfl⟩ hleg [1 / 2] [] (by intro a ha; simp at ha; subst ha; norm_num) (by simp; norm_num)
    ⟨false, false, false⟩
  refine ⟨lstsq, T', fl', r, L1, h1, h8, ?_⟩
  rw [bN] at q1
  obtain ⟨x, y, rfl⟩ := bList q q1
  rw [bSet, bProb] at q2
  injection q2 with q2
  injection q2 with q2
  obtain ⟨L', g1, g2⟩ := q3 [-1, 5] rfl
  rw [bSet, bSet, bProb] at g1
  injection g1 with g1
  injection g1 with g1
  rw [← g1, ← q2] at g2
  have hx : x = -1 := by
    have : (-1 - x) ^ 2 ≤ 0 := by nlinarith [sq_nonneg (5 - y)]
    have := pow_eq_zero_iff (two_ne_zero) |>.1 (le_antisymm this (sq_nonneg _))
    linarith
  have hy : y = 5 := by
    have : (5 - y) ^ 2 ≤ 0 := by nlinarith [sq_nonneg (-1 - x)]
    have := pow_eq_zero_iff (two_ne_zero) |>.1 (le_antisymm this (sq_nonneg _))
    linarith
  subst hx hy
  have hb : between (bTr 1 1) [-1, 5] (1 / 2) = [0, 3] := by
    show [1 + 1 / 2 * (-1 - 1), 1 + 1 / 2 * (5 - 1)] = ([0, 3] : List ℚ)
    norm_num
  obtain ⟨L2, k1, k2⟩ := h12 (1 / 2) (by norm_num) (by norm_num) (by rw [hb]; exact bAllowed 1 1 0 3 (by norm_num))
  rw [hb, bSet, bProb] at k1
  injection k1 with k1
  injection k1 with k1
  rw [← k1] at k2
  norm_num at k2
  linarith

omit [IsStrictOrderedRing R] in
/-- **C144, no rounds.** `optimize_loop(steps=0)` does not end well: `step` is not defined. -/
theorem C144_no_rounds_false (m : Method R) (tiny : R) (W : World R M) (hooks : Tractor R M → Nat → Nat → Option (List (Deriv R))) (o : Opts)
    (alphas : List R) (dchisq lim : R) (fl : Opt.OptFlags) (T : Tractor R M) :
    optimizeLoop m tiny W hooks o alphas dchisq lim 0 fl T = (T, .error .nameErr) := rfl

end Verif.Cons
