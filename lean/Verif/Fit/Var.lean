import Verif.Fit.Truth
import Verif.Fpfit.Scatter

/-!
# `optimize(variance=True)` (C153): model and lemmas
-/

namespace Verif.Fit

open Verif Params Patches Engine Finset

variable {R M : Type} [Field R] [LinearOrder R]

/-- `LsqrOptimizer.optimize(variance=True)`, lsqr_optimizer.py 280-315, with `scale_columns=True` (otherwise the sums the variances are made of, 380
and 419-420, stay 0): the tractor afterwards; the change of the log-probability and alpha (not with `just_variance=True`); the variances.  For an empty
matrix `getUpdateDirection` returns the empty list, 459, and there are no variances, 292-293. -/
def optimizeVar (S : Solver R) (W : World R M) (hooks : Tractor R M → Nat → Nat → Option (List (Deriv R))) (shared priors just : Bool) (alphas : List R)
    (T : Tractor R M) : Tractor R M × Except PyErr (Option (Num R × R) × Option (List R)) :=
  match getDerivs W (fun T img => getModelImage W T img none true) (hooks T) T with
  | (T', .error e) => (T', .error e)
  | (T', .ok out) =>
    match inputs W ⟨true, shared, priors⟩ T' out with
    | .error e => (T', .error e)
    | .ok (l, ds, pr) =>
      let map := if shared then some (indexMap T'.par) else none
      match Lsq.getUpdateDirection S.sqrt S.tiny S.lsqr (lsqImgs l) ds pr true map with
      | .error e => (T', .error e)
      | .ok none => (T', .ok (some (.fin 0, 0), none))
      | .ok (some X) =>
        match Lsq.updateVariance (lsqImgs l) ds pr map with
        | .error e => (T', .error e)
        | .ok none => (T', .ok (some (.fin 0, 0), none))
        | .ok (some var) =>
          if just then (T', .ok (none, some var))
          else if X.isEmpty then (T', .ok (some (.fin 0, 0), none))
          else
            let r := Opt.tryUpdates (lnp W T') T'.par X alphas
            (withPar T' r.1, r.2.map (fun v => (some v, some var)))

/-- `LsqrOptimizer.optimize_loop(variance=True)`, lsqr_optimizer.py 316-325: the keyword is passed on to `optimize`, which then returns four values (293 and
313) where 319 takes three. -/
def optimizeLoopVar (S : Solver R) (W : World R M) (hooks : Tractor R M → Nat → Nat → Option (List (Deriv R))) (shared priors : Bool) (alphas : List R)
    (steps : Nat) (T : Tractor R M) : Tractor R M × Except PyErr Nat :=
  match steps with
  | 0 => (T, .error .nameErr)
  | _ + 1 =>
    let r := optimizeVar S W hooks shared priors false alphas T
    (r.1, match r.2 with
      | .error e => .error e
      | .ok _ => .error .value)

theorem direction_some (sqrt : R → R) (tiny : R) (lsqr : Lsq.Problem R → List R) (imgs : Nat → Lsq.Img R) (ds : Lsq.Derivs R)
    (pr : Option (PriorDerivs R)) (scale : Bool) (shared map : Option (List Nat)) (vs : List R) (h : Lsq.updateVariance imgs ds pr map = .ok (some vs)) :
    Lsq.getUpdateDirection sqrt tiny lsqr imgs ds pr scale shared ≠ .ok none := by
  intro hc
  unfold Lsq.updateVariance at h
  unfold Lsq.getUpdateDirection at hc
  cases ha : Lsq.assemble imgs ds pr with
  | error e => rw [ha] at h; cases h
  | ok z =>
    obtain ⟨bs, offs, nrows, npriors, pb⟩ := z
    rw [ha] at h hc
    dsimp only at h hc
    by_cases hE : bs.isEmpty = true
    · rw [if_pos hE] at h; cases h
    · rw [if_neg hE] at hc
      split at hc
      · cases hc
      · split at hc
        · cases hc
        · split at hc
          · cases hc
          · split at hc
            · cases hc
            · split at hc
              · cases hc
              · split at hc
                · cases hc
                · cases hc

theorem updateVariance_range (imgs : Nat → Lsq.Img R) (ds : Lsq.Derivs R) (pr : Option (PriorDerivs R)) :
    Lsq.updateVariance imgs ds pr (some (List.range ds.length)) = Lsq.updateVariance imgs ds pr none := by
  unfold Lsq.updateVariance
  cases Lsq.assemble imgs ds pr with
  | error e => rfl
  | ok z =>
    dsimp only
    split
    · rfl
    · congr 2
      unfold Lsq.variances
      dsimp only
      apply List.ext_getElem
      · simp [Lsq.colNorms]
      · intro i h1 h2
        have hi : i < (Lsq.colNorms ds.length z.1).length := by simpa using h2
        rw [List.getElem_map, List.getElem_map, List.getElem_range, List.getElem?_eq_getElem hi]
        rfl

/-! ### Priors stay when values change -/

theorem zip_flags {Q : Type} (F : Bool → Nat → Bool × List (Q × Q)) (ss : List (Slot Q)) :
    ss.zipIdx.map (fun x => F x.1.liquid x.2) = (ss.map (·.liquid)).zipIdx.map (fun x => F x.1 x.2) := by
  rw [List.zipIdx_map, List.map_map]
  rfl

mutual
theorem leaves_set {Q : Type} (up : Bool) (t : Par Q) (p : List Q) :
    (priorLeavesFrom up (setParams t p).1).map (fun x => (x.1, x.2.2)) = (priorLeavesFrom up t).map (fun x => (x.1, x.2.2)) := by
  match t with
  | .scalar s =>
    unfold setParams
    split <;> rfl
  | .plist l =>
    simp only [setParams, priorLeavesFrom, List.map_map]
    have e := zip_flags (fun b i => (up && b, (l.priors.filter (fun t => t.1 = i)).map (·.2))) (setSlots l.slots p).1
    rw [setSlots_flags, ← zip_flags (fun b i => (up && b, (l.priors.filter (fun t => t.1 = i)).map (·.2))) l.slots] at e
    exact e
  | .multi subs =>
    simp only [setParams, priorLeavesFrom]
    exact leavesSubs_set up subs p
theorem leavesSubs_set {Q : Type} (up : Bool) (t : Subs Q) (p : List Q) :
    (priorLeavesFromSubs up (setParamsSubs t p).1).map (fun x => (x.1, x.2.2)) = (priorLeavesFromSubs up t).map (fun x => (x.1, x.2.2)) := by
  match t with
  | .nil => simp only [setParamsSubs]
  | .cons nm liquid s rest =>
    simp only [setParamsSubs]
    by_cases hl : liquid = true
    · rw [if_pos hl]
      cases h : (setParams s (p.take (numberOfParams s))).2 with
      | some e =>
        simp only [priorLeavesFromSubs, List.map_append]
        rw [leaves_set]
      | none =>
        simp only [priorLeavesFromSubs, List.map_append]
        rw [leaves_set, leavesSubs_set]
    · rw [if_neg hl]
      simp only [priorLeavesFromSubs, List.map_append]
      rw [leavesSubs_set]
  | .missing nm liquid rest =>
    simp only [setParamsSubs, priorLeavesFromSubs]
    exact leavesSubs_set up rest p
end

theorem thawedPriors_set {Q : Type} (t : Par Q) (p : List Q) : (thawedPriors (setParams t p).1).map (·.2) = (thawedPriors t).map (·.2) := by
  have key : ∀ l : List (Bool × Q × List (Q × Q)),
      ((l.filter (·.1)).map (·.2)).map (·.2) = ((l.map (fun x => (x.1, x.2.2))).filter (·.1)).map (·.2) := by
    intro l
    rw [List.filter_map, List.map_map, List.map_map]
    rfl
  unfold thawedPriors
  rw [key, key, leaves_set]

omit [Field R] [LinearOrder R] in
/-- No priors, also after setting values. -/
theorem noPriors_set (T : Tractor R M) (s : List R) (h : ∀ x ∈ thawedPriors T.par, x.2 = []) : ∀ x ∈ thawedPriors (setAll T s).par, x.2 = [] := by
  intro x hx
  rw [(setAll_ok T s).2] at hx
  have : x.2 ∈ (thawedPriors (setParams T.par s).1).map (·.2) := List.mem_map_of_mem hx
  rw [thawedPriors_set] at this
  obtain ⟨y, hy, e⟩ := List.mem_map.1 this
  rw [← e, h y hy]

/-- No parameter of the trees of C143 is shared with another: `paramindexmap` is 0, 1, 2, …. -/
theorem indexMap_range [IsStrictOrderedRing R] (t : Par R) : indexMap t = List.range (numberOfParams t) := by
  unfold indexMap
  rw [(setParams_get t _ (by simp)).2]
  unfold Lsq.uniqueInverse
  have hn : ((List.range (numberOfParams t)).map (fun i : Nat => (i : R))).Nodup :=
    List.nodup_range.map (fun a b h => by exact_mod_cast h)
  have hs : ((List.range (numberOfParams t)).map (fun i : Nat => (i : R))).Pairwise (· ≤ ·) := by
    rw [List.pairwise_map]
    exact List.pairwise_le_range.imp (fun h => by exact_mod_cast h)
  rw [hn.dedup, hs.insertionSort_eq]
  apply List.ext_getElem
  · simp
  · intro i h1 h2
    rw [List.getElem_map, hn.idxOf_getElem, List.getElem_range]

/-- What it returns. -/
theorem optimizeVar_ok [IsStrictOrderedRing R] (S : Solver R) (hsq : Lsq.SqrtOK S.sqrt) (hS : Lsq.Solves S.lsqr) (W : World R M)
    (hooks : Tractor R M → Nat → Nat → Option (List (Deriv R))) (shared priors : Bool) (T : Tractor R M) (base : Nat → Nat → Nat → R)
    (D : Nat → Nat → Nat → Nat → R) (hr : Ready W hooks T) (hl : Linear W hooks T base D) (ho : Options S ⟨true, shared, priors⟩ T D)
    (hne : ∃ k, k < numberOfParams T.par ∧ effect ⟨true, shared, priors⟩ T D k ≠ 0) (alphas : List R) :
    ∃ var : List R, var = (List.range (numberOfParams T.par)).map (fun k => 1 / effect ⟨true, shared, priors⟩ T D k) ∧
      optimizeVar S W hooks shared priors true alphas T = (T, .ok (none, some var)) ∧
      optimizeVar S W hooks shared priors false alphas T = ((optimize S W hooks ⟨true, shared, priors⟩ alphas T).1,
        (optimize S W hooks ⟨true, shared, priors⟩ alphas T).2.map (fun v => (some v, some var))) := by
  obtain ⟨out, l, ds, pr, es, C, h1, h2, h3, h4, h5, h6, h7, h8, h9⟩ := problem_ok hl hr ⟨true, shared, priors⟩ ho.prior
  obtain ⟨k0, hk0, hek⟩ := hne
  obtain ⟨vs, v1, v2, v3⟩ := Lsq.C65_variance_partial (lsqImgs l) ds h5 pr es h4 ⟨k0, by omega, by rw [h6 k0 (by omega)]; exact hek⟩
  have hmap : ∀ b : Bool, Lsq.updateVariance (lsqImgs l) ds pr (if b then some (indexMap T.par) else none) = .ok (some vs) := by
    intro b
    cases b
    · exact v1
    · rw [if_pos rfl, indexMap_range, ← h3, updateVariance_range, v1]
  have hvar : vs = (List.range (numberOfParams T.par)).map (fun k => 1 / effect ⟨true, shared, priors⟩ T D k) := by
    apply List.ext_getElem
    · simp [v2, h3]
    · intro k k1 k2
      have hk : k < ds.length := by omega
      have := v3 k hk
      rw [List.getElem?_eq_getElem k1] at this
      injection this with this
      rw [this, h6 k hk, List.getElem_map, List.getElem_range]
  have hnt : true = true → Lsq.NoTiny S.sqrt S.tiny (lsqImgs l) ds es := by
    intro _ k v hv
    obtain ⟨k1, k2, k3⟩ := h7 k v hv
    rw [h6 k k1]
    exact ho.scale rfl k v k2 k3
  have hlast : shared = true → 0 < ds.length → Lsq.columnNorm (lsqImgs l) ds es (ds.length - 1) ≠ 0 := by
    intro hsh hpos
    rw [h6 _ (by omega), h3]
    exact ho.shared hsh (by omega)
  rcases direction_best S hsq hS (lsqImgs l) ds h5 pr es h4 true shared hnt T.par h3 hlast with ⟨e1, -⟩ | ⟨X, e1, e2⟩
  · exact absurd e1 (direction_some _ _ _ _ _ _ _ _ none vs v1)
  · have hX : X.length = ds.length := e2.1
    refine ⟨vs, hvar, ?_, ?_⟩
    · unfold optimizeVar
      rw [h1]
      simp only [h2, e1, hmap, if_true]
    · have hdir : direction S W hooks ⟨true, shared, priors⟩ T = (T, .ok (some X)) := by
        unfold direction
        rw [h1]
        simp only [h2]
        rw [e1]
      cases X with
      | nil => simp at hX; omega
      | cons a X =>
        unfold optimizeVar optimize
        rw [h1, hdir]
        simp only [h2, e1, hmap, Bool.false_eq_true, if_false, List.isEmpty_cons]

end Verif.Fit
