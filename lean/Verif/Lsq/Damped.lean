import Verif.Lsq.Lemmas6

/-!
# The update direction with damping

`LsqrOptimizer.getUpdateDirection(damp=d)`, lsqr_optimizer.py 328-636: `damp` is passed on to scipy's `lsqr` (584, 601) and used nowhere else, so the model is that of
`Verif.Lsq.Model` with a solver that minimises `‖A x - b‖² + d² ‖x‖²`.
-/

namespace Verif.Lsq

open Verif Verif.Params Verif.Patches

variable {R : Type} [Field R] [LinearOrder R]

/-- `‖A x - b‖² + d² ‖x‖²`, what `scipy.sparse.linalg.lsqr(A, b, damp=d)` minimises. -/
def Problem.damped (d : R) (P : Problem R) (X : List R) : R := P.chisq X + d ^ 2 * ∑ c ∈ Finset.range P.ncols, (X.getD c 0) ^ 2

/-- A solver for problems with damping. -/
def DampSolves (d : R) (lsqr : Problem R → List R) : Prop := ∀ P, Minimises P.ncols (P.damped d) (lsqr P)

/-- The unit in which the change of parameter `k` is measured: with scaled columns the inverse of the norm of its column. -/
def unitOf (sqrt : R → R) (scale : Bool) (norm : R) : R := if scale = true ∧ 0 < sqrt norm then sqrt norm else 1

/-- The squared length of a change of the parameters in these units. -/
def size (u : Nat → R) (n : Nat) (X : List R) : R := ∑ c ∈ Finset.range n, (u c * X.getD c 0) ^ 2

theorem unitOf_ne (sqrt : R → R) (scale : Bool) (norm : R) [IsStrictOrderedRing R] : unitOf sqrt scale norm ≠ 0 := by
  unfold unitOf
  split
  · rename_i h; exact ne_of_gt h.2
  · exact one_ne_zero

variable [IsStrictOrderedRing R]

/-- What is returned with damping, without shared values: a change that minimises the linearised chi-squared plus the damping times the squared length of the change. -/
theorem direction_damped (sqrt : R → R) (hsq : SqrtOK sqrt) (tiny d : R) (lsqr : Problem R → List R)
    (hlsqr : DampSolves d lsqr) (imgs : Nat → Img R) (ds : Derivs R) (hI : ImagesOK imgs ds)
    (prior : Option (PriorDerivs R)) (es : List (Entry R)) (hes : PriorOK ds.length prior es)
    (scale : Bool) (ht : scale = true → NoTiny sqrt tiny imgs ds es) (shared : Option (List Nat))
    (hsh : shared = none ∨ (shared = some (List.range ds.length) ∧ (0 < ds.length → columnNorm imgs ds es (ds.length - 1) ≠ 0))) :
    (getUpdateDirection sqrt tiny lsqr imgs ds prior scale shared = .ok none ∧
      (∀ X Y : List R, X.length = ds.length → Y.length = ds.length →
        linearised imgs ds prior X = linearised imgs ds prior Y)) ∨
    ∃ X, getUpdateDirection sqrt tiny lsqr imgs ds prior scale shared = .ok (some X) ∧
      Minimises ds.length (fun X => linearised imgs ds prior X +
        d ^ 2 * size (fun c => unitOf sqrt scale (columnNorm imgs ds es c)) ds.length X) X := by
  obtain ⟨hrep, hrows, hcols⟩ := hes
  obtain ⟨bs, offs, n, pb, b, hasm, hrhs, hgood, hobj, hcn⟩ :=
    assemble_ok imgs ds prior hI es hrep hrows hcols
  have hgb : ∀ blk ∈ bs, GoodBlock (n + es.length) blk := fun blk h => (hgood blk h).2.1
  have hbc : ∀ blk ∈ bs, blk.col < ds.length := fun blk h => (hgood blk h).1
  have hany : ¬ (scale = true ∧ bs.any (fun b => ds.length ≤ b.col) = true) := by
    rintro ⟨-, h⟩
    obtain ⟨blk, hb, h⟩ := List.any_eq_true.1 h
    have := hbc blk hb
    simp only [decide_eq_true_eq] at h
    omega
  simp only [getUpdateDirection, hasm, if_neg hany, hrhs]
  by_cases hE : bs = []
  · left
    refine ⟨by simp [hE], ?_⟩
    intro X Y hX hY
    rw [← hobj X hX (fun k => (X[k]?).getD 0) (fun _ _ => rfl),
      ← hobj Y hY (fun k => (Y[k]?).getD 0) (fun _ _ => rfl)]
    exact chisqOf_congr _ _ _ _ _ (by simp [hE])
  right
  have hEb : ¬ bs.isEmpty = true := by simpa using hE
  rw [if_neg hEb]
  set scales := (colNorms ds.length bs).map sqrt with hscales
  have hsl : ∀ c, c < ds.length → scales[c]? = some (sqrt (columnNorm imgs ds es c)) := by
    intro c hc
    rw [hscales, colNorms, List.map_map, List.getElem?_map, List.getElem?_range hc]
    simp only [Option.map_some, Function.comp, hcn c hc]
  have hpos : ∀ blk ∈ bs, 0 < columnNorm imgs ds es blk.col := by
    intro blk hb
    rw [← hcn _ (hbc blk hb)]
    exact norm_pos _ bs hgb blk hb
  let sc : Nat → R := fun c => unitOf sqrt scale (columnNorm imgs ds es c)
  have hsc0 : ∀ c, sc c ≠ 0 := fun c => unitOf_ne _ _ _
  let bs1 : List (Block R) := if scale = true then scaleBlocks tiny scales bs else bs
  have hb1 : (if scale = true then scaleBlocks tiny scales bs else bs) = bs1 := rfl
  rw [hb1]
  have hbs1 : bs1 = bs.map (fun b => ⟨b.rows, b.col, b.vals.map (fun v => v / sc b.col)⟩) := by
    cases scale with
    | false =>
      simp only [bs1, sc, unitOf, Bool.false_eq_true, if_false, false_and, div_one, List.map_id']
    | true =>
      simp only [bs1, if_true]
      have e : ∀ blk ∈ bs, (scales[blk.col]?).getD 0 = sc blk.col := by
        intro blk hb
        rw [hsl _ (hbc blk hb), Option.getD_some]
        simp only [sc, unitOf, true_and]
        rw [if_pos (hsq _ (hpos blk hb))]
      rw [scaleBlocks_ok tiny scales (n + es.length) bs hgb]
      · apply List.map_congr_left
        intro blk hb
        rw [e blk hb]
      · intro blk hb; rw [e blk hb]; exact hsc0 _
      · intro blk hb v hv
        have := ht rfl blk.col v ((hgood blk hb).2.2 v hv)
        rw [hsl _ (hbc blk hb), Option.getD_some]
        exact this
  have hrow1 : ∀ (r : Int) (f : Nat → R), rowVal bs1 r f = rowVal bs r (fun c => f c / sc c) := by
    intro r f; rw [hbs1, scaled_rowVal]
  have hgood1 : ∀ blk ∈ bs1, blk.col < ds.length ∧ GoodBlock (n + es.length) blk := by
    intro blk hb
    rw [hbs1] at hb
    obtain ⟨blk', hb', rfl⟩ := List.mem_map.1 hb
    have hg := hgb blk' hb'
    refine ⟨hbc blk' hb', by simpa using hg.len, by simpa using hg.ne, ?_, hg.rng⟩
    intro v hv
    obtain ⟨v', hv', rfl⟩ := List.mem_map.1 hv
    exact div_ne_zero (hg.nz v' hv') (hsc0 _)
  have hne1 : bs1 ≠ [] := by rw [hbs1]; simpa using hE
  have hE1 : ¬ bs1.isEmpty = true := by simpa using hne1
  have hmk := mkProblem_ok (n + es.length) ds.length bs1 b hgood1
  have hmin := hlsqr ⟨n + es.length, ds.length, cellsOf bs1, b⟩
  set u := lsqr ⟨n + es.length, ds.length, cellsOf bs1, b⟩ with hu
  have hl : u.length = ds.length := hmin.1
  -- the same with or without an index map
  have hrun : (match applyMap shared ds.length bs1 with
      | .error e => .error e
      | .ok (bs2, ncols) =>
        if bs2.isEmpty then .error .value else
        match mkProblem (n + es.length) ncols bs2 b with
        | .error e => .error e
        | .ok P =>
          match unshareOpt (lsqr P) shared with
          | .error e => .error e
          | .ok X' => .ok (some (if scale then unscale scales X' else X')) : Except PyErr (Option (List R))) =
      .ok (some (if scale then unscale scales u else u)) := by
    rcases hsh with rfl | ⟨rfl, hlast⟩
    · simp only [applyMap, if_neg hE1, hmk, unshareOpt, ← hu]
    · have hmc := mapCols_ok (List.range ds.length) bs1 (fun blk hb => by rw [List.length_range]; exact (hgood1 blk hb).1)
      have hid : bs1.map (fun b => { b with col := ((List.range ds.length)[b.col]?).getD 0 }) = bs1 := by
        conv => rhs; rw [← List.map_id bs1]
        apply List.map_congr_left
        intro blk hb
        rw [List.getElem?_range (hgood1 blk hb).1]
        rfl
      rw [hid] at hmc
      obtain ⟨ncols, hnc, hcl, hatt⟩ := maxCols_ok bs1 hne1
      have hn : ncols = ds.length := by
        obtain ⟨blk, hb, hbn⟩ := hatt
        have h1 := (hgood1 blk hb).1
        have h2 : ∃ blk ∈ bs, blk.col = ds.length - 1 := by
          by_contra hno
          push Not at hno
          apply hlast (by omega)
          rw [← hcn _ (by omega)]
          have : bs.filter (fun b => b.col = ds.length - 1) = [] := by
            rw [List.filter_eq_nil_iff]; intro x hx; simpa using hno x hx
          rw [this]; rfl
        obtain ⟨blk', hb', hc'⟩ := h2
        have h3 := hcl ⟨blk'.rows, blk'.col, blk'.vals.map (fun v => v / sc blk'.col)⟩ (by rw [hbs1]; exact List.mem_map_of_mem hb')
        dsimp only at h3
        omega
      subst hn
      have hun : unshare u (List.range u.length) = .ok u := by
        rw [unshare_ok u _ (fun i hi => List.mem_range.1 hi)]
        congr 1
        apply List.ext_getElem
        · simp
        · intro i i1 i2
          have hi : i < u.length := by simpa using i1
          rw [List.getElem_map, List.getElem_range, List.getElem?_eq_getElem hi, Option.getD_some]
      simp only [applyMap, hmc, hnc, Except.map, if_neg hE1, hmk, unshareOpt, ← hu]
      rw [show List.range ds.length = List.range u.length by rw [hl], hun]
  refine ⟨_, hrun, ?_, ?_⟩
  · cases scale with
    | false => simpa using hl
    | true =>
      simp only [if_true, unscale, List.length_zipWith, hl]
      have : scales.length = ds.length := by simp [hscales, colNorms]
      omega
  intro Y hY
  set X := (if scale then unscale scales u else u) with hX
  have hXv : ∀ c, c < ds.length → X[c]? = some (u.getD c 0 / sc c) := by
    intro c hc
    have huc : u[c]? = some (u.getD c 0) := by
      rw [List.getD_eq_getElem?_getD, List.getElem?_eq_getElem (by omega), Option.getD_some]
    rw [hX]
    cases scale with
    | false => simp only [Bool.false_eq_true, if_false, huc, sc, unitOf, false_and, div_one]
    | true =>
      simp only [if_true, unscale, List.getElem?_zipWith, huc, hsl c hc]
      simp only [sc, unitOf, true_and]
      split <;> simp
  have hXl : X.length = ds.length := by
    rw [hX]
    cases scale with
    | false => simpa using hl
    | true =>
      simp only [if_true, unscale, List.length_zipWith, hl]
      have : scales.length = ds.length := by simp [hscales, colNorms]
      omega
  -- the objective of the solver at `sc * Z` is that of `Z`
  have hobj' : ∀ (Z v : List R), Z.length = ds.length → (∀ c, c < ds.length → Z[c]? = some (v.getD c 0 / sc c)) →
      Problem.damped d ⟨n + es.length, ds.length, cellsOf bs1, b⟩ v =
        linearised imgs ds prior Z + d ^ 2 * size sc ds.length Z := by
    intro Z v hZ hv
    unfold Problem.damped size
    congr 1
    · rw [← hobj Z hZ (fun c => (v[c]?).getD 0 / sc c) (fun k hk => by
        rw [hv k hk, Option.getD_some, List.getD_eq_getElem?_getD])]
      show chisqOf _ bs1 b (fun c => (v[c]?).getD 0) = _
      simp only [chisqOf, hrow1]
    · congr 1
      refine Finset.sum_congr rfl (fun c hc => ?_)
      have hc := Finset.mem_range.1 hc
      rw [List.getD_eq_getElem?_getD (l := Z), hv c hc, Option.getD_some, mul_div_cancel₀ _ (hsc0 c)]
  have h1 := hobj' X u hXl hXv
  have h2 := hobj' Y ((List.range ds.length).map (fun c => Y.getD c 0 * sc c)) hY (fun c hc => by
    rw [List.getD_eq_getElem?_getD, List.getElem?_map, List.getElem?_range hc, Option.map_some, Option.getD_some, mul_div_cancel_right₀ _ (hsc0 c),
      List.getD_eq_getElem?_getD, List.getElem?_eq_getElem (by omega), Option.getD_some])
  have := hmin.2 ((List.range ds.length).map (fun c => Y.getD c 0 * sc c)) (by simp)
  rw [h1, h2] at this
  exact this

/-- There is a solver with any damping. -/
theorem damped_exists (d : R) : ∃ lsqr : Problem R → List R, DampSolves d lsqr := by
  have : ∀ P : Problem R, ∃ X, Minimises P.ncols (P.damped d) X := by
    intro P
    obtain ⟨X, hX, hm⟩ := exists_min (P.nrows + P.ncols) ((List.range P.ncols).map (fun c r =>
      if r < P.nrows then ((P.cells.filter (fun t => t.1 = (r : Int) ∧ t.2.1 = c)).map (fun t => t.2.2)).sum
      else if r = P.nrows + c then d else 0)) (fun r => if r < P.nrows then P.b r else 0)
    simp only [List.length_map, List.length_range] at hX hm
    have key : ∀ Z : List R, Z.length = P.ncols → P.damped d Z =
        ∑ r ∈ Finset.range (P.nrows + P.ncols), ((if r < P.nrows then P.b r else 0) -
          ∑ c ∈ Finset.range P.ncols, (if r < P.nrows then ((P.cells.filter (fun t => t.1 = (r : Int) ∧ t.2.1 = c)).map (fun t => t.2.2)).sum
      else if r = P.nrows + c then d else 0) * (Z[c]?).getD 0) ^ 2 := by
      intro Z hZ
      rw [Finset.sum_range_add]
      unfold Problem.damped
      congr 1
      · refine Finset.sum_congr rfl (fun r hr => ?_)
        have hr := Finset.mem_range.1 hr
        rw [if_pos hr, apply_eq_sum P Z hZ r]
        simp only [if_pos hr]
      · rw [Finset.mul_sum]
        refine Finset.sum_congr rfl (fun r hr => ?_)
        have hr' := Finset.mem_range.1 hr
        rw [if_neg (by omega)]
        simp only [if_neg (show ¬ P.nrows + r < P.nrows by omega)]
        rw [Finset.sum_eq_single r]
        · rw [if_pos rfl, List.getD_eq_getElem?_getD]; ring
        · intro c _ hc
          rw [if_neg (by omega), zero_mul]
        · intro h; exact absurd hr h
    refine ⟨X, hX, fun Y hY => ?_⟩
    have h := hm Y hY
    simp only [lin_range _ X _ hX, lin_range _ Y _ hY] at h
    rw [key X hX, key Y hY]
    exact h
  exact ⟨fun P => (this P).choose, fun P => (this P).choose_spec⟩

end Verif.Lsq
