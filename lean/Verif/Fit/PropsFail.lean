import Verif.Fit.Fail
import Verif.Fit.Pool
import Verif.Fit.Props

/-!
# C160: when the solver fails

Spec: what `optimize` and `optimize_loop` do to the tractor and what they return, if `lsqr` raises a ZeroDivisionError.
-/

namespace Verif.Fit

open Verif Params Patches Engine Finset

variable {R M : Type} [Field R] [LinearOrder R]

/-- **C160, no failure.** With a solver that does not fail `optimize`, `optimize(variance=True)` and `optimize_loop` are as without the handling of failures, whatever
the tractor. -/
theorem C160_agree (S : Solver R) (W : World R M) (hooks : Tractor R M → Nat → Nat → Option (List (Deriv R))) (alphas : List R) (T : Tractor R M) :
    (∀ o, tryOptimize ⟨S.sqrt, S.tiny, fun P => some (S.lsqr P)⟩ W hooks o alphas T = optimize S W hooks o alphas T) ∧
    (∀ shared priors just, tryOptimizeVar ⟨S.sqrt, S.tiny, fun P => some (S.lsqr P)⟩ W hooks shared priors just alphas T =
      ((optimizeVar S W hooks shared priors just alphas T).1, (optimizeVar S W hooks shared priors just alphas T).2.map (fun v => (v.1, v.2.map .list)))) ∧
    (∀ o dchisq steps, tryOptimizeLoop ⟨S.sqrt, S.tiny, fun P => some (S.lsqr P)⟩ W hooks o alphas dchisq steps T =
      optimizeLoop S W hooks o alphas dchisq steps T) := by
  have hopt : ∀ (o : Opts) (T : Tractor R M), tryOptimize ⟨S.sqrt, S.tiny, fun P => some (S.lsqr P)⟩ W hooks o alphas T = optimize S W hooks o alphas T := by
    intro o T
    unfold tryOptimize tryLinear optimize direction
    generalize getDerivs W (fun T img => getModelImage W T img none true) (hooks T) T = g
    obtain ⟨T', g⟩ := g
    cases g with
    | error e => rfl
    | ok out =>
      dsimp only
      cases inputs W o T' out with
      | error e => rfl
      | ok z =>
        obtain ⟨l, ds, pr⟩ := z
        dsimp only
        rw [tryDirection_total]
        generalize Lsq.getUpdateDirection S.sqrt S.tiny S.lsqr (lsqImgs l) ds pr o.scale (if o.shared = true then some (indexMap T'.par) else none) = u
        cases u with
        | error e => rfl
        | ok u =>
          cases u with
          | none => rfl
          | some X =>
            cases X with
            | nil => rfl
            | cons x X => rfl
  refine ⟨fun o => hopt o T, ?_, ?_⟩
  · intro shared priors just
    unfold tryOptimizeVar tryLinear optimizeVar
    generalize getDerivs W (fun T img => getModelImage W T img none true) (hooks T) T = g
    obtain ⟨T', g⟩ := g
    cases g with
    | error e => rfl
    | ok out =>
      dsimp only
      cases inputs W ⟨true, shared, priors⟩ T' out with
      | error e => rfl
      | ok z =>
        obtain ⟨l, ds, pr⟩ := z
        dsimp only
        rw [tryDirection_total]
        generalize Lsq.getUpdateDirection S.sqrt S.tiny S.lsqr (lsqImgs l) ds pr true (if shared = true then some (indexMap T'.par) else none) = u
        cases u with
        | error e => rfl
        | ok u =>
          cases u with
          | none => rfl
          | some X =>
            dsimp only [Except.map, plain]
            generalize Lsq.updateVariance (lsqImgs l) ds pr (if shared = true then some (indexMap T'.par) else none) = v
            cases v with
            | error e => rfl
            | ok v =>
              cases v with
              | none => rfl
              | some var =>
                dsimp only
                cases just with
                | true => rfl
                | false =>
                  cases X with
                  | nil => rfl
                  | cons x X =>
                    simp only [searchFrom, List.isEmpty_cons, Bool.false_eq_true, if_false]
                    generalize Opt.tryUpdates (lnp W T') T'.par (x :: X) alphas = r
                    obtain ⟨r1, r2⟩ := r
                    cases r2 <;> rfl
  · intro o dchisq steps
    have hloop : ∀ (n step : Nat) (T : Tractor R M), tryLoopFrom ⟨S.sqrt, S.tiny, fun P => some (S.lsqr P)⟩ W hooks o alphas dchisq n step T =
        loopFrom S W hooks o alphas dchisq n step T := by
      intro n
      induction n with
      | zero =>
        intro step T
        unfold tryLoopFrom loopFrom
        rw [hopt]
        obtain ⟨T', r⟩ := optimize S W hooks o alphas T
        cases r <;> rfl
      | succ n ih =>
        intro step T
        unfold tryLoopFrom loopFrom
        rw [hopt]
        obtain ⟨T', r⟩ := optimize S W hooks o alphas T
        cases r with
        | error e => rfl
        | ok z => simp only [ih]
    cases steps with
    | zero => rfl
    | succ n => exact hloop n 0 T

variable [IsStrictOrderedRing R]

/-- The direction for a tractor in order. -/
theorem fails_linear (S : TrySolver R) (hsq : Lsq.SqrtOK S.sqrt) (W : World R M) (hooks : Tractor R M → Nat → Nat → Option (List (Deriv R))) (o : Opts)
    (T : Tractor R M) (D : Nat → Nat → Nat → Nat → R) (hr : Ready W hooks T) (hl : Reported W hooks T D)
    (ho : ∀ lsqr, Options ⟨S.sqrt, S.tiny, lsqr⟩ o T D) (lsqr : Lsq.Problem R → List R) (hS : Lsq.Solves (fun P => (S.lsqr P).getD (lsqr P))) :
    ∃ (l : List (Lsq.Img R)) (ds : Lsq.Derivs R) (pr : Option (PriorDerivs R)) (r : Option (List R)) (v : Except PyErr (Option (List R))),
      (∀ S' : TrySolver R, tryLinear S' W hooks o T = (T, (tryDirection S' (lsqImgs l) ds pr o.scale (if o.shared then some (indexMap T.par) else none)).map (fun u => (u, v)))) ∧
      Lsq.getUpdateDirection S.sqrt S.tiny (fun P => (S.lsqr P).getD (lsqr P)) (lsqImgs l) ds pr o.scale (if o.shared then some (indexMap T.par) else none) = .ok r ∧
      (match (if o.shared then some (indexMap T.par) else none) with | some m => m.length | none => ds.length) = numberOfParams T.par ∧
      (∀ X, r = some X → X.length = numberOfParams T.par) ∧ (r = none → ∀ k, k < numberOfParams T.par → effect o T D k = 0) ∧
      direction ⟨S.sqrt, S.tiny, fun P => (S.lsqr P).getD (lsqr P)⟩ W hooks o T = (T, .ok r) := by
  have hmod : ∀ i b im A, T.images[i]? = some (b, im) → getModelImage W T im none true = .ok A →
      ∀ y x, y < im.data.h → x < im.data.w → A.px y x = pixel W T i y x := by
    intro i b im A hi hA y x _ _
    unfold pixel
    rw [hi]
    dsimp only
    rw [hA]
  obtain ⟨out, l, ds, pr, es, C, K, h1, h2, h3, h4, h5, h6, h7, h8, h9, -⟩ := problem_reported hl hr o (ho lsqr).prior hmod
  have hnt : o.scale = true → Lsq.NoTiny S.sqrt S.tiny (lsqImgs l) ds es := by
    intro hsc k v hv
    obtain ⟨k1, k2, k3⟩ := h7 k v hv
    rw [h6 k k1]
    exact (ho lsqr).scale hsc k v k2 k3
  have hlast : o.shared = true → 0 < ds.length → Lsq.columnNorm (lsqImgs l) ds es (ds.length - 1) ≠ 0 := by
    intro hsh hpos
    rw [h6 _ (by omega), h3]
    exact (ho lsqr).shared hsh (by omega)
  have hb := direction_best ⟨S.sqrt, S.tiny, fun P => (S.lsqr P).getD (lsqr P)⟩ hsq hS (lsqImgs l) ds h5 pr es h4 o.scale o.shared hnt T.par h3 hlast
  have hdir : ∀ r, Lsq.getUpdateDirection S.sqrt S.tiny (fun P => (S.lsqr P).getD (lsqr P)) (lsqImgs l) ds pr o.scale
      (if o.shared then some (indexMap T.par) else none) = r → direction ⟨S.sqrt, S.tiny, fun P => (S.lsqr P).getD (lsqr P)⟩ W hooks o T = (T, r) := by
    intro r hrr
    unfold direction
    rw [h1]
    simp only [h2, hrr]
  refine ⟨l, ds, pr, ?_⟩
  have hm : (match (if o.shared then some (indexMap T.par) else none) with | some m => m.length | none => ds.length) = numberOfParams T.par := by
    cases o.shared with
    | true => simp [indexMap_range]
    | false => simpa using h3
  have hlin : ∀ S' : TrySolver R, tryLinear S' W hooks o T = (T, (tryDirection S' (lsqImgs l) ds pr o.scale (if o.shared then some (indexMap T.par) else none)).map
      (fun u => (u, Lsq.updateVariance (lsqImgs l) ds pr (if o.shared then some (indexMap T.par) else none)))) := by
    intro S'
    unfold tryLinear
    rw [h1]
    simp only [h2]
  rcases hb with ⟨e1, e2⟩ | ⟨X, e1, e2⟩
  · refine ⟨none, _, hlin, e1, hm, by simp, fun _ k hk => ?_, hdir _ e1⟩
    -- a function that does not change has no effects
    by_contra hne
    rw [← h6 k (by omega)] at hne
    obtain ⟨vs, v1, -⟩ := Lsq.C65_variance_partial (lsqImgs l) ds h5 pr es h4 ⟨k, by omega, hne⟩
    exact direction_some _ _ _ _ _ _ _ _ _ _ v1 e1
  · exact ⟨some X, _, hlin, e1, hm, fun Y hY => by cases hY; rw [e2.1, h3], by simp, hdir _ e1⟩

/-- A solver that fails at some problems and solves the others. -/
def SolvesOrFails (lsqr : Lsq.Problem R → Option (List R)) : Prop := ∀ P X, lsqr P = some X → Lsq.Minimises P.ncols P.chisq X

omit [IsStrictOrderedRing R] in
theorem completed {lsqr : Lsq.Problem R → Option (List R)} (h : SolvesOrFails lsqr) {lsqr0 : Lsq.Problem R → List R} (h0 : Lsq.Solves lsqr0) :
    Lsq.Solves (fun P => (lsqr P).getD (lsqr0 P)) := by
  intro P
  cases hP : lsqr P with
  | none => simp only [hP, Option.getD_none]; exact h0 P
  | some X => simp only [hP, Option.getD_some]; exact h P X hP

/-- **C160, failure now and then.** If the solver fails at some problems and solves the others, `optimize` does what it does with a solver that always solves, or
leaves the tractor as it is and returns zeros. -/
theorem C160_either (S : TrySolver R) (hsq : Lsq.SqrtOK S.sqrt) (hS : SolvesOrFails S.lsqr) (W : World R M)
    (hooks : Tractor R M → Nat → Nat → Option (List (Deriv R))) (o : Opts) (T : Tractor R M) (D : Nat → Nat → Nat → Nat → R) (hr : Ready W hooks T)
    (hl : Reported W hooks T D) (ho : ∀ lsqr, Options ⟨S.sqrt, S.tiny, lsqr⟩ o T D) (alphas : List R) :
    ∃ lsqr, Lsq.Solves lsqr ∧ (tryOptimize S W hooks o alphas T = optimize ⟨S.sqrt, S.tiny, lsqr⟩ W hooks o alphas T ∨
      tryOptimize S W hooks o alphas T = (T, .ok (.fin 0, 0))) := by
  obtain ⟨lsqr0, h0⟩ := Lsq.solver_exists (R := R)
  refine ⟨fun P => (S.lsqr P).getD (lsqr0 P), completed hS h0, ?_⟩
  obtain ⟨l, ds, pr, r, v, h1, h2, h3, h4, -, h5⟩ := fails_linear S hsq W hooks o T D hr hl ho lsqr0 (completed hS h0)
  rcases tryDirection_either S lsqr0 (lsqImgs l) ds pr o.scale _ _ h3 r h2 with h | h
  · left
    unfold tryOptimize optimize
    rw [h1, h, h5]
    cases r with
    | none => rfl
    | some X =>
      cases X with
      | nil => rfl
      | cons x X => rfl
  · right
    unfold tryOptimize
    rw [h1, h]
    exact search_zero W T _ rfl alphas

/-- **C160, failure.** If the solver fails, `optimize` leaves the tractor as it is, raises nothing and returns zeros — also where the log-probability is NaN or infinite;
and `optimize_loop` ends after one round if the threshold is not negative (otherwise it goes on doing nothing until the last). -/
theorem C160_fails (sqrt : R → R) (hsq : Lsq.SqrtOK sqrt) (tiny : R) (W : World R M) (hooks : Tractor R M → Nat → Nat → Option (List (Deriv R))) (o : Opts)
    (T : Tractor R M) (D : Nat → Nat → Nat → Nat → R) (hr : Ready W hooks T) (hl : Reported W hooks T D)
    (ho : ∀ lsqr, Options ⟨sqrt, tiny, lsqr⟩ o T D) (alphas : List R) :
    tryOptimize ⟨sqrt, tiny, fun _ => none⟩ W hooks o alphas T = (T, .ok (.fin 0, 0)) ∧
    ∀ dchisq steps, 0 < steps → tryOptimizeLoop ⟨sqrt, tiny, fun _ => none⟩ W hooks o alphas dchisq steps T = (T, .ok (if 0 ≤ dchisq then 0 else steps - 1)) := by
  have hopt : tryOptimize ⟨sqrt, tiny, fun _ => none⟩ W hooks o alphas T = (T, .ok (.fin 0, 0)) := by
    obtain ⟨lsqr0, h0⟩ := Lsq.solver_exists (R := R)
    obtain ⟨l, ds, pr, r, v, h1, h2, h3, h4, -, -⟩ := fails_linear ⟨sqrt, tiny, fun _ => none⟩ hsq W hooks o T D hr hl ho lsqr0 h0
    have h := tryDirection_fails sqrt tiny lsqr0 (lsqImgs l) ds pr o.scale _ _ h3 r h2
    unfold tryOptimize
    rw [h1, h]
    cases r with
    | none => rfl
    | some X => exact search_zero W T _ rfl alphas
  refine ⟨hopt, ?_⟩
  intro dchisq steps hs
  obtain ⟨n, rfl⟩ : ∃ n, steps = n + 1 := ⟨steps - 1, by omega⟩
  have hloop : ∀ n step : Nat, tryLoopFrom ⟨sqrt, tiny, fun _ => none⟩ W hooks o alphas dchisq n step T = (T, .ok (if 0 ≤ dchisq then step else step + n)) := by
    intro n
    induction n with
    | zero =>
      intro step
      unfold tryLoopFrom
      rw [hopt]
      simp
    | succ n ih =>
      intro step
      unfold tryLoopFrom
      rw [hopt]
      simp only [Num.le, decide_eq_true_eq]
      by_cases hd : 0 ≤ dchisq
      · simp only [if_pos hd]
      · simp only [if_neg hd]
        rw [ih]
        simp only [if_neg hd]
        congr 2
        omega
  show tryLoopFrom _ W hooks o alphas dchisq n 0 T = _
  rw [hloop]
  simp

/-- **C160, failure with variances.** With `variance=True`, if some parameter has an effect and the solver fails, `optimize` raises a ValueError — except with exactly two
thawed parameters: then it raises a TypeError, or with `just_variance=True` returns the number 0 for the variances.  The tractor is left as it is. -/
theorem C160_variance (sqrt : R → R) (hsq : Lsq.SqrtOK sqrt) (tiny : R) (W : World R M) (hooks : Tractor R M → Nat → Nat → Option (List (Deriv R)))
    (shared priors just : Bool) (T : Tractor R M) (D : Nat → Nat → Nat → Nat → R) (hr : Ready W hooks T) (hl : Reported W hooks T D)
    (ho : ∀ lsqr, Options ⟨sqrt, tiny, lsqr⟩ ⟨true, shared, priors⟩ T D) (hne : ∃ k, k < numberOfParams T.par ∧ effect ⟨true, shared, priors⟩ T D k ≠ 0)
    (alphas : List R) :
    tryOptimizeVar ⟨sqrt, tiny, fun _ => none⟩ W hooks shared priors just alphas T =
      (T, if numberOfParams T.par ≠ 2 then .error .value else if just then .ok (none, some (.number 0)) else .error .typeErr) := by
  obtain ⟨lsqr0, h0⟩ := Lsq.solver_exists (R := R)
  obtain ⟨l, ds, pr, r, v, h1, h2, h3, h4, h5, -⟩ := fails_linear ⟨sqrt, tiny, fun _ => none⟩ hsq W hooks ⟨true, shared, priors⟩ T D hr hl ho lsqr0 h0
  have h := tryDirection_fails sqrt tiny lsqr0 (lsqImgs l) ds pr true _ _ h3 r h2
  obtain ⟨k, hk, hek⟩ := hne
  cases r with
  | none => exact absurd (h5 rfl k hk) hek
  | some X =>
    unfold tryOptimizeVar
    rw [h1, h]
    dsimp only [Except.map]
    rw [if_neg (by omega)]
    by_cases hn : numberOfParams T.par ≠ 2
    · rw [if_pos hn, if_pos hn]
    · rw [if_neg hn, if_neg hn]
      cases just <;> rfl

/-! ### Examples -/

/-- The tractor of C143 with a solver that always fails. -/
example : tryOptimize ⟨id, 0, fun _ => none⟩ exWorld exHooks ⟨false, true, true⟩ [1 / 4, 1] (exTr 3 1 2) = (exTr 3 1 2, .ok (.fin 0, 0)) ∧
    tryOptimizeLoop ⟨id, 0, fun _ => none⟩ exWorld exHooks ⟨false, true, true⟩ [1 / 4, 1] 0 50 (exTr 3 1 2) = (exTr 3 1 2, .ok 0) ∧
    tryOptimizeLoop ⟨id, 0, fun _ => none⟩ exWorld exHooks ⟨false, true, true⟩ [1 / 4, 1] (-1) 50 (exTr 3 1 2) = (exTr 3 1 2, .ok 49) := by
  have h := C160_fails id (fun x hx => hx) 0 exWorld exHooks ⟨false, true, true⟩ (exTr 3 1 2) exD (exReady 3 1 2) (reported_linear (exLinear 3 1 2) (exReady 3 1 2))
    (fun lsqr => exOptions _ 3 1 2) [1 / 4, 1]
  exact ⟨h.1, by rw [h.2 0 50 (by norm_num)]; simp, by rw [h.2 (-1) 50 (by norm_num)]; norm_num⟩

/-- A solver that fails at problems with an odd number of rows. -/
example : ∃ (lsqr : Lsq.Problem ℚ → Option (List ℚ)) (lsqr' : Lsq.Problem ℚ → List ℚ), Lsq.Solves lsqr' ∧
    (tryOptimize ⟨id, 0, lsqr⟩ exWorld exHooks ⟨false, true, true⟩ [1 / 4, 1] (exTr 3 1 2) = optimize ⟨id, 0, lsqr'⟩ exWorld exHooks ⟨false, true, true⟩ [1 / 4, 1] (exTr 3 1 2) ∨
      tryOptimize ⟨id, 0, lsqr⟩ exWorld exHooks ⟨false, true, true⟩ [1 / 4, 1] (exTr 3 1 2) = (exTr 3 1 2, .ok (.fin 0, 0))) := by
  obtain ⟨lsqr0, h0⟩ := Lsq.solver_exists (R := ℚ)
  obtain ⟨lsqr', h1, h2⟩ := C160_either ⟨id, 0, fun P => if P.nrows % 2 = 1 then none else some (lsqr0 P)⟩ (fun x hx => hx) (by
      intro P X h
      dsimp only at h
      split at h
      · cases h
      · cases h; exact h0 P) exWorld exHooks ⟨false, true, true⟩ (exTr 3 1 2) exD (exReady 3 1 2) (reported_linear (exLinear 3 1 2) (exReady 3 1 2))
    (fun lsqr => exOptions _ 3 1 2) [1 / 4, 1]
  exact ⟨_, lsqr', h1, h2⟩

/-- Variances: three parameters. -/
example : tryOptimizeVar ⟨fun _ => 1, 0, fun _ => none⟩ exWorld exHooks false true false [1] (exTr 3 1 2) = (exTr 3 1 2, .error .value) := by
  rw [C160_variance (fun _ => 1) (fun _ _ => one_pos) 0 exWorld exHooks false true false (exTr 3 1 2) exD (exReady 3 1 2) (reported_linear (exLinear 3 1 2) (exReady 3 1 2))
    (fun lsqr => ⟨.inl rfl, fun _ k v hv _ => by simpa using hv, by simp⟩) ⟨2, by rw [exN]; norm_num, by
      have hw : widths ⟨true, false, true⟩ (exTr 3 1 2) 2 = [] := rfl
      rw [effect, hw]
      simp [exTr, exI, List.zipIdx, Finset.sum_range_succ, exD, Arr.ofLists]
      norm_num⟩ [1], exN]
  rfl

end Verif.Fit
