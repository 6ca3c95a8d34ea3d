import Verif.Fit.Var

/-!
# When the solver fails (C160): model and lemmas

lsqr_optimizer.py 584-606: a ZeroDivisionError of `lsqr` is caught; `getUpdateDirection` then returns zeros — and only these, also with `variance=True`.
-/

namespace Verif.Fit

open Verif Params Patches Engine Finset

variable {R M : Type} [Field R] [LinearOrder R]

/-- What is not tractor code, as `Solver`; the solver may raise a ZeroDivisionError (None). -/
structure TrySolver (R : Type) where
  sqrt : R → R
  tiny : R
  lsqr : Lsq.Problem R → Option (List R)

/-- What `getUpdateDirection` returns: the empty list (459), the zeros after a failure (603-606), or an update (and variances). -/
inductive Update (R : Type) where
  | empty
  | zeros (n : Nat)
  | update (X : List R)

/-- `LsqrOptimizer.getUpdateDirection`, lsqr_optimizer.py 328-636, as `Lsq.getUpdateDirection`, with a solver that may fail, 586-606. -/
def tryDirection (S : TrySolver R) (imgs : Nat → Lsq.Img R) (ds : Lsq.Derivs R) (prior : Option (PriorDerivs R)) (scaleColumns : Bool)
    (shared : Option (List Nat)) : Except PyErr (Update R) :=
  match Lsq.assemble imgs ds prior with
  | .error e => .error e
  | .ok (bs, offs, nrows, npriors, pb) =>
    if scaleColumns ∧ bs.any (fun b => ds.length ≤ b.col) then .error .index
    else if bs.isEmpty then .ok .empty
    else
      let scales := (Lsq.colNorms ds.length bs).map S.sqrt
      let bs1 := if scaleColumns then Lsq.scaleBlocks S.tiny scales bs else bs
      match Lsq.applyMap shared ds.length bs1 with
      | .error e => .error e
      | .ok (bs2, ncols) =>
        match Lsq.rhsVector imgs offs nrows npriors pb with
        | .error e => .error e
        | .ok b =>
          if bs2.isEmpty then .error .value else
          match Lsq.mkProblem (nrows + npriors) ncols bs2 b with
          | .error e => .error e
          | .ok P =>
            match S.lsqr P with
            | none => .ok (.zeros (match shared with | some m => m.length | none => ds.length))
            | some X =>
              match Lsq.unshareOpt X shared with
              | .error e => .error e
              | .ok X' => .ok (.update (if scaleColumns then Lsq.unscale scales X' else X'))

/-- `LsqrOptimizer.getLinearUpdateDirection`, lsqr_optimizer.py 253-278, and what the variances are made of. -/
def tryLinear (S : TrySolver R) (W : World R M) (hooks : Tractor R M → Nat → Nat → Option (List (Deriv R))) (o : Opts) (T : Tractor R M) :
    Tractor R M × Except PyErr (Update R × Except PyErr (Option (List R))) :=
  match getDerivs W (fun T img => getModelImage W T img none true) (hooks T) T with
  | (T', .error e) => (T', .error e)
  | (T', .ok out) =>
    match inputs W o T' out with
    | .error e => (T', .error e)
    | .ok (l, ds, pr) =>
      let map := if o.shared then some (indexMap T'.par) else none
      (T', (tryDirection S (lsqImgs l) ds pr o.scale map).map (fun u => (u, Lsq.updateVariance (lsqImgs l) ds pr map)))

/-- The step of `optimize` after the direction is known, lsqr_optimizer.py 298-315. -/
def searchFrom (W : World R M) (T : Tractor R M) (X alphas : List R) : Tractor R M × Except PyErr (Num R × R) :=
  if X.isEmpty then (T, .ok (.fin 0, 0))
  else
    let r := Opt.tryUpdates (lnp W T) T.par X alphas
    (withPar T r.1, r.2)

/-- `LsqrOptimizer.optimize`, lsqr_optimizer.py 280-315, without `variance`. -/
def tryOptimize (S : TrySolver R) (W : World R M) (hooks : Tractor R M → Nat → Nat → Option (List (Deriv R))) (o : Opts) (alphas : List R)
    (T : Tractor R M) : Tractor R M × Except PyErr (Num R × R) :=
  match tryLinear S W hooks o T with
  | (T', .error e) => (T', .error e)
  | (T', .ok (.empty, _)) => (T', .ok (.fin 0, 0))
  | (T', .ok (.zeros n, _)) => searchFrom W T' (List.replicate n 0) alphas
  | (T', .ok (.update X, _)) => searchFrom W T' X alphas

/-- The variances `optimize` returns: a list, or a number. -/
inductive Variances (R : Type) where
  | list (l : List R)
  | number (x : R)

/-- `LsqrOptimizer.optimize(variance=True)`, lsqr_optimizer.py 280-315, as `optimizeVar`.  After a failure `X, var = X` (294) takes apart an array of `n`
zeros: a ValueError unless there are two, and then `X` and `var` are numbers (`len(X)`, 300, is a TypeError). -/
def tryOptimizeVar (S : TrySolver R) (W : World R M) (hooks : Tractor R M → Nat → Nat → Option (List (Deriv R))) (shared priors just : Bool)
    (alphas : List R) (T : Tractor R M) : Tractor R M × Except PyErr (Option (Num R × R) × Option (Variances R)) :=
  match tryLinear S W hooks ⟨true, shared, priors⟩ T with
  | (T', .error e) => (T', .error e)
  | (T', .ok (.empty, _)) => (T', .ok (some (.fin 0, 0), none))
  | (T', .ok (.zeros n, _)) =>
    if n = 0 then (T', .ok (some (.fin 0, 0), none))
    else if n ≠ 2 then (T', .error .value)
    else if just then (T', .ok (none, some (.number 0)))
    else (T', .error .typeErr)
  | (T', .ok (.update X, v)) =>
    match v with
    | .error e => (T', .error e)
    | .ok none => (T', .ok (some (.fin 0, 0), none))
    | .ok (some var) =>
      if just then (T', .ok (none, some (.list var)))
      else if X.isEmpty then (T', .ok (some (.fin 0, 0), none))
      else
        let r := searchFrom W T' X alphas
        (r.1, r.2.map (fun v => (some v, some (.list var))))

/-- The loop of `LsqrOptimizer.optimize_loop`, lsqr_optimizer.py 319-324, as `loopFrom`. -/
def tryLoopFrom (S : TrySolver R) (W : World R M) (hooks : Tractor R M → Nat → Nat → Option (List (Deriv R))) (o : Opts) (alphas : List R)
    (dchisq : R) : Nat → Nat → Tractor R M → Tractor R M × Except PyErr Nat
  | n, step, T =>
    match tryOptimize S W hooks o alphas T with
    | (T', .error e) => (T', .error e)
    | (T', .ok (d, _)) =>
      if d.le (.fin dchisq) then (T', .ok step)
      else match n with
        | 0 => (T', .ok step)
        | n + 1 => tryLoopFrom S W hooks o alphas dchisq n (step + 1) T'

/-- `LsqrOptimizer.optimize_loop(tractor, dchisq, steps)`, lsqr_optimizer.py 317-326. -/
def tryOptimizeLoop (S : TrySolver R) (W : World R M) (hooks : Tractor R M → Nat → Nat → Option (List (Deriv R))) (o : Opts) (alphas : List R)
    (dchisq : R) (steps : Nat) (T : Tractor R M) : Tractor R M × Except PyErr Nat :=
  match steps with
  | 0 => (T, .error .nameErr)
  | n + 1 => tryLoopFrom S W hooks o alphas dchisq n 0 T

/-! ### Lemmas -/

/-- The direction as returned if nothing fails. -/
def plain : Option (List R) → Update R
  | none => .empty
  | some X => .update X

/-- A solver that does not fail at this problem: as before. -/
theorem tryDirection_total (sqrt : R → R) (tiny : R) (lsqr : Lsq.Problem R → List R) (imgs : Nat → Lsq.Img R) (ds : Lsq.Derivs R)
    (pr : Option (PriorDerivs R)) (scale : Bool) (map : Option (List Nat)) :
    tryDirection ⟨sqrt, tiny, fun P => some (lsqr P)⟩ imgs ds pr scale map = (Lsq.getUpdateDirection sqrt tiny lsqr imgs ds pr scale map).map plain := by
  unfold tryDirection Lsq.getUpdateDirection
  cases Lsq.assemble imgs ds pr with
  | error e => rfl
  | ok z =>
    obtain ⟨bs, offs, nrows, npriors, pb⟩ := z
    dsimp only
    by_cases h1 : scale = true ∧ (bs.any fun b => decide (ds.length ≤ b.col)) = true
    · rw [if_pos h1, if_pos h1]; rfl
    rw [if_neg h1, if_neg h1]
    by_cases h2 : bs.isEmpty = true
    · rw [if_pos h2, if_pos h2]; rfl
    rw [if_neg h2, if_neg h2]
    generalize Lsq.applyMap map ds.length (if scale = true then Lsq.scaleBlocks tiny (List.map sqrt (Lsq.colNorms ds.length bs)) bs else bs) = am
    cases am with
    | error e => rfl
    | ok z =>
      obtain ⟨bs2, ncols⟩ := z
      dsimp only
      generalize Lsq.rhsVector imgs offs nrows npriors pb = rv
      cases rv with
      | error e => rfl
      | ok b =>
        dsimp only
        by_cases h3 : bs2.isEmpty = true
        · rw [if_pos h3, if_pos h3]; rfl
        rw [if_neg h3, if_neg h3]
        generalize Lsq.mkProblem (nrows + npriors) ncols bs2 b = mp
        cases mp with
        | error e => rfl
        | ok P =>
          dsimp only
          cases Lsq.unshareOpt (lsqr P) map with
          | error e => rfl
          | ok X' => rfl

/-- A solver that fails: where another one gives an update, there are zeros; everything else is the same. -/
theorem tryDirection_fails (sqrt : R → R) (tiny : R) (lsqr : Lsq.Problem R → List R) (imgs : Nat → Lsq.Img R) (ds : Lsq.Derivs R)
    (pr : Option (PriorDerivs R)) (scale : Bool) (map : Option (List Nat)) (n : Nat) (hn : (match map with | some m => m.length | none => ds.length) = n)
    (r : Option (List R)) (h : Lsq.getUpdateDirection sqrt tiny lsqr imgs ds pr scale map = .ok r) :
    tryDirection ⟨sqrt, tiny, fun _ => none⟩ imgs ds pr scale map = .ok (match r with | none => .empty | some _ => .zeros n) := by
  unfold Lsq.getUpdateDirection at h
  unfold tryDirection
  cases ha : Lsq.assemble imgs ds pr with
  | error e => rw [ha] at h; cases h
  | ok z =>
    obtain ⟨bs, offs, nrows, npriors, pb⟩ := z
    rw [ha] at h
    dsimp only at h ⊢
    by_cases h1 : scale = true ∧ (bs.any fun b => decide (ds.length ≤ b.col)) = true
    · rw [if_pos h1] at h; cases h
    rw [if_neg h1] at h ⊢
    by_cases h2 : bs.isEmpty = true
    · rw [if_pos h2] at h ⊢; cases h; rfl
    rw [if_neg h2] at h ⊢
    generalize Lsq.applyMap map ds.length (if scale = true then Lsq.scaleBlocks tiny (List.map sqrt (Lsq.colNorms ds.length bs)) bs else bs) = am at h ⊢
    cases am with
    | error e => cases h
    | ok z =>
      obtain ⟨bs2, ncols⟩ := z
      dsimp only at h ⊢
      generalize Lsq.rhsVector imgs offs nrows npriors pb = rv at h ⊢
      cases rv with
      | error e => cases h
      | ok b =>
        dsimp only at h ⊢
        by_cases h3 : bs2.isEmpty = true
        · rw [if_pos h3] at h; cases h
        rw [if_neg h3] at h ⊢
        generalize Lsq.mkProblem (nrows + npriors) ncols bs2 b = mp at h ⊢
        cases mp with
        | error e => cases h
        | ok P =>
          dsimp only at h ⊢
          cases hu : Lsq.unshareOpt (lsqr P) map with
          | error e => rw [hu] at h; cases h
          | ok X' =>
            rw [hu] at h
            cases h
            rw [hn]

/-- A solver that may fail: as with a solver that does not, or zeros. -/
theorem tryDirection_either (S : TrySolver R) (lsqr : Lsq.Problem R → List R) (imgs : Nat → Lsq.Img R) (ds : Lsq.Derivs R)
    (pr : Option (PriorDerivs R)) (scale : Bool) (map : Option (List Nat)) (n : Nat) (hn : (match map with | some m => m.length | none => ds.length) = n)
    (r : Option (List R)) (h : Lsq.getUpdateDirection S.sqrt S.tiny (fun P => (S.lsqr P).getD (lsqr P)) imgs ds pr scale map = .ok r) :
    tryDirection S imgs ds pr scale map = .ok (plain r) ∨ tryDirection S imgs ds pr scale map = .ok (.zeros n) := by
  unfold Lsq.getUpdateDirection at h
  unfold tryDirection
  cases ha : Lsq.assemble imgs ds pr with
  | error e => rw [ha] at h; cases h
  | ok z =>
    obtain ⟨bs, offs, nrows, npriors, pb⟩ := z
    rw [ha] at h
    dsimp only at h ⊢
    by_cases h1 : scale = true ∧ (bs.any fun b => decide (ds.length ≤ b.col)) = true
    · rw [if_pos h1] at h; cases h
    rw [if_neg h1] at h ⊢
    by_cases h2 : bs.isEmpty = true
    · rw [if_pos h2] at h ⊢; cases h; exact .inl rfl
    rw [if_neg h2] at h ⊢
    generalize Lsq.applyMap map ds.length (if scale = true then Lsq.scaleBlocks S.tiny (List.map S.sqrt (Lsq.colNorms ds.length bs)) bs else bs) = am at h ⊢
    cases am with
    | error e => cases h
    | ok z =>
      obtain ⟨bs2, ncols⟩ := z
      dsimp only at h ⊢
      generalize Lsq.rhsVector imgs offs nrows npriors pb = rv at h ⊢
      cases rv with
      | error e => cases h
      | ok b =>
        dsimp only at h ⊢
        by_cases h3 : bs2.isEmpty = true
        · rw [if_pos h3] at h; cases h
        rw [if_neg h3] at h ⊢
        generalize Lsq.mkProblem (nrows + npriors) ncols bs2 b = mp at h ⊢
        cases mp with
        | error e => cases h
        | ok P =>
          dsimp only at h ⊢
          cases hs : S.lsqr P with
          | none => right; dsimp only; rw [hn]
          | some X =>
            left
            rw [hs] at h
            dsimp only [Option.getD_some] at h ⊢
            cases hu : Lsq.unshareOpt X map with
            | error e => rw [hu] at h; cases h
            | ok X' =>
              rw [hu] at h
              cases h
              rfl

/-- A step of no length: the search ends where it began. -/
theorem tryLoop_zero (lp : Par R → Num R) (t : Par R) (X : List R) (hX : X.length = numberOfParams t) (h0 : ∀ x ∈ X, x = 0) (as : List R)
    (hirr : ∀ x : Num R, x.lt x = false) :
    ∃ q, Opt.tryLoop lp (getParams t) X as (lp t) none t = (t, .ok (q, none)) := by
  have hst : ∀ a, Opt.stepTo (getParams t) X a = getParams t := by
    intro a
    unfold Opt.stepTo
    apply List.ext_getElem
    · simp [getParams_length, hX]
    · intro i h1 h2
      simp only [List.getElem_zipWith]
      rw [h0 _ (List.getElem_mem _)]
      ring
  have hset := setParams_id t
  induction as with
  | nil => exact ⟨_, rfl⟩
  | cons a as ih =>
    unfold Opt.tryLoop
    rw [hst, hset]
    dsimp only
    by_cases h1 : (lp t).isFinite = false
    · rw [if_pos h1]; exact ⟨_, rfl⟩
    rw [if_neg h1]
    by_cases h2 : (lp t).lt ((lp t).sub (.fin 1)) = true
    · rw [if_pos h2]; exact ⟨_, rfl⟩
    rw [if_neg h2, if_neg (by rw [hirr]; simp)]
    exact ih

omit [Field R] in
theorem num_lt_irrefl (x : Num R) : x.lt x = false := by
  cases x <;> simp [Num.lt]

theorem search_zero (W : World R M) (T : Tractor R M) (n : Nat) (hn : n = numberOfParams T.par) (alphas : List R) :
    searchFrom W T (List.replicate n 0) alphas = (T, .ok (.fin 0, 0)) := by
  unfold searchFrom
  by_cases h : (List.replicate n (0 : R)).isEmpty = true
  · rw [if_pos h]
  rw [if_neg h]
  obtain ⟨q, hq⟩ := tryLoop_zero (lnp W T) T.par (List.replicate n 0) (by simp [hn]) (by simp) alphas num_lt_irrefl
  have hset := setParams_id T.par
  have : Opt.tryUpdates (lnp W T) T.par (List.replicate n 0) alphas = (T.par, .ok (.fin 0, 0)) := by
    unfold Opt.tryUpdates
    dsimp only
    rw [hq]
    dsimp only
    rw [hset]
  dsimp only
  rw [this]
  dsimp only
  rw [withPar_self]

end Verif.Fit
