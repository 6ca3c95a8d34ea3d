import Verif.Ceres.Scale
import Mathlib.Tactic.Ring
import Mathlib.Tactic.FieldSimp
import Mathlib.Tactic.Linarith
import Mathlib.Algebra.Order.Field.Basic
import Mathlib.Algebra.Order.Ring.Rat
import Mathlib.Algebra.Field.Rat
import Mathlib.LinearAlgebra.Matrix.NonsingularInverse

/-!
# Ceres in scaled parameters: properties C55, C76, C77
-/

namespace Verif.Ceres

variable {R : Type}

/-! ### Specification -/

section
variable [Field R]

/-- The parameters that belong to the scaled parameters `q`: all ones are the present parameters, and one unit of
`q[j]` is `scales[j]`. -/
def real (params scales q : List R) (j : Nat) : R :=
  params.getD j 0 + scales.getD j 0 * (q.getD j 0 - 1)

/-- The residual of a Gaussian prior (Ceres `NormalPrior`: `A (x - mu)` with `A = 1/sigma`, ceres.i). -/
def priorResidual (p : Nat → R) (g : Nat × R × R) : R := (p g.1 - g.2.1) / g.2.2

end

theorem getD_zipWith [Zero R] (f : R → R → R) (a b : List R) (h : a.length = b.length) (j : Nat) (hj : j < a.length) :
    (List.zipWith f a b).getD j 0 = f (a.getD j 0) (b.getD j 0) := by
  have hj' : j < b.length := by omega
  simp [List.getD_eq_getElem?_getD, hj, hj']

theorem getD_out [Zero R] (a : List R) (j : Nat) (h : a.length ≤ j) : a.getD j 0 = 0 := by
  simp [List.getD_eq_getElem?_getD, h]

theorem ext_getD [Zero R] (a b : List R) (h : a.length = b.length) (he : ∀ j, j < a.length → a.getD j 0 = b.getD j 0) :
    a = b := by
  apply List.ext_getElem h
  intro j h1 h2
  have := he j h1
  simpa [List.getD_eq_getElem?_getD, h1, h2] using this

section
variable [Field R]

theorem toParams_getD (params scales q : List R) (hs : scales.length = params.length) (hq : q.length = params.length)
    (j : Nat) (hj : j < params.length) :
    (toParams (List.zipWith (· - ·) params scales) scales q).getD j 0 = real params scales q j := by
  have l1 : (List.zipWith (· - ·) params scales).length = params.length := by simp [hs]
  have l2 : (List.zipWith (· * ·) scales q).length = params.length := by simp [hs, hq]
  rw [toParams, getD_zipWith _ _ _ (by rw [l1, l2]) j (by omega), getD_zipWith _ _ _ (by omega) j hj,
    getD_zipWith _ _ _ (by omega) j (by omega), real]
  ring

theorem toParams_length (params scales q : List R) (hs : scales.length = params.length) (hq : q.length = params.length) :
    (toParams (List.zipWith (· - ·) params scales) scales q).length = params.length := by
  simp [toParams, hs, hq]

/-- **C55 (start and residuals).** The scaled problem starts at all ones, which stand for the present parameters, and
its residuals at `q` are the chi images at the parameters that `q` stands for. -/
theorem C55_residuals (T : Target R) (scales : List R) (pr bd : Bool) (P : Prob R)
    (hs : scales.length = T.params.length) (hP : mkProb T true scales pr bd = .ok P) :
    P.start = List.replicate T.params.length 1 ∧ P.nims = T.nims ∧
    (∀ i, P.residual i P.start = T.chi i T.params) ∧
    ∀ i q, q.length = T.params.length → ∃ p : List R, p.length = T.params.length ∧
      (∀ j, j < T.params.length → p.getD j 0 = real T.params scales q j) ∧ P.residual i q = T.chi i p := by
  simp only [mkProb] at hP
  split at hP
  · exact absurd hP (by simp)
  · injection hP with hP
    subst hP
    have e : (List.zipWith (· - ·) T.params scales).map (fun _ => (1 : R)) = List.replicate T.params.length 1 := by
      rw [List.map_const', List.length_zipWith, hs, Nat.min_self]
    simp only [if_true, e]
    refine ⟨trivial, trivial, ?_, ?_⟩
    · intro i
      congr 1
      apply ext_getD
      · rw [toParams_length _ _ _ hs (by simp)]
      · intro j hj
        rw [toParams_length _ _ _ hs (by simp)] at hj
        rw [toParams_getD _ _ _ hs (by simp) j hj, real]
        simp [List.getD_eq_getElem?_getD, hj]
    · intro i q hq
      exact ⟨_, toParams_length _ _ _ hs hq, fun j hj => toParams_getD _ _ _ hs hq j hj, rfl⟩

/-- **C55 (priors).** The Gaussian priors handed to Ceres have at `q` the residuals that the priors of the tractor have
at the parameters that `q` stands for. -/
theorem C55_priors (T : Target R) (scales : List R) (bd : Bool) (P : Prob R)
    (hs : scales.length = T.params.length) (h0 : ∀ j, j < scales.length → scales.getD j 0 ≠ 0)
    (hg : ∀ g ∈ T.gpriors, g.1 < T.params.length) (hP : mkProb T true scales true bd = .ok P) (q : List R) :
    ∃ gs, P.priors = some gs ∧ gs.map (·.1) = T.gpriors.map (·.1) ∧
      gs.map (priorResidual (fun j => q.getD j 0)) = T.gpriors.map (priorResidual (real T.params scales q)) := by
  simp only [mkProb] at hP
  split at hP
  · exact absurd hP (by simp)
  · injection hP with hP
    subst hP
    refine ⟨_, rfl, ?_, ?_⟩
    · simp [scalePriors, Function.comp_def]
    · simp only [if_true, scalePriors, List.map_map]
      refine List.map_congr_left (fun g hm => ?_)
      have hj := hg g hm
      have hn := h0 g.1 (by omega)
      simp only [Function.comp, priorResidual, real]
      rw [getD_zipWith _ _ _ hs.symm g.1 hj]
      generalize T.params.getD g.1 0 = p
      generalize q.getD g.1 0 = y
      generalize scales.getD g.1 0 = s at *
      rw [div_div_eq_mul_div]
      congr 1
      field_simp
      ring

/-- **C55 (derivatives).** If `chi` of image `i` changes with parameter `k` as `d t` plus a remainder, then the residual
of the scaled problem changes with `q[k]` with the derivative that the adapter reports, `d * scales[k]`, and the same
remainder at the scaled step. -/
theorem C55_derivs (T : Target R) (scales : List R) (pr bd : Bool) (P : Prob R)
    (hs : scales.length = T.params.length) (hP : mkProb T true scales pr bd = .ok P) (i k : Nat) (hk : k < T.params.length)
    (q p : List R) (hq : q.length = T.params.length) (hp : p.length = T.params.length)
    (hpq : ∀ j, j < T.params.length → p.getD j 0 = real T.params scales q j) (D : List R)
    (hD : (k, D) ∈ T.derivs i p) (m : Nat) (hm : m < D.length) (rem : R → R)
    (hrem : ∀ t, (T.chi i (p.set k (p.getD k 0 + t))).getD m 0 = (T.chi i p).getD m 0 + D.getD m 0 * t + rem t) :
    ∃ D' : List R, (k, D') ∈ P.jac i q ∧ ∀ t, (P.residual i (q.set k (q.getD k 0 + t))).getD m 0 =
      (P.residual i q).getD m 0 + D'.getD m 0 * t + rem (scales.getD k 0 * t) := by
  obtain ⟨-, -, -, hres⟩ := C55_residuals T scales pr bd P hs hP
  have hlist : ∀ (q' p' : List R), q'.length = T.params.length → p'.length = T.params.length →
      (∀ j, j < T.params.length → p'.getD j 0 = real T.params scales q' j) → P.residual i q' = T.chi i p' := by
    intro q' p' h1 h2 h3
    obtain ⟨p'', h4, h5, h6⟩ := hres i q' h1
    rw [h6, ext_getD p'' p' (by omega) (fun j hj => by rw [h5 j (by omega), h3 j (by omega)])]
  have hjac : P.jac i q = scaleDerivs scales (T.derivs i p) := by
    have e : p = toParams (List.zipWith (· - ·) T.params scales) scales q := by
      apply ext_getD
      · rw [toParams_length _ _ _ hs hq, hp]
      · intro j hj
        rw [toParams_getD _ _ _ hs hq j (by omega), hpq j (by omega)]
    simp only [mkProb] at hP
    split at hP
    · exact absurd hP (by simp)
    · injection hP with hP
      subst hP
      simp only [if_true]
      rw [e]
  refine ⟨D.map (· * scales.getD k 0), ?_, ?_⟩
  · rw [hjac, scaleDerivs, List.mem_map]
    exact ⟨(k, D), hD, rfl⟩
  · intro t
    rw [hlist q p hq hp hpq, hlist (q.set k (q.getD k 0 + t)) (p.set k (p.getD k 0 + scales.getD k 0 * t)) (by simp [hq])
      (by simp [hp]), hrem]
    · have : (D.map (· * scales.getD k 0)).getD m 0 = D.getD m 0 * scales.getD k 0 := by
        simp [List.getD_eq_getElem?_getD, hm]
      rw [this]; ring
    · intro j hj
      by_cases hjk : k = j
      · subst hjk
        have a1 : (p.set k (p.getD k 0 + scales.getD k 0 * t)).getD k 0 = p.getD k 0 + scales.getD k 0 * t := by
          rw [List.getD_eq_getElem?_getD, List.getElem?_set_self (by omega)]; rfl
        have a2 : (q.set k (q.getD k 0 + t)).getD k 0 = q.getD k 0 + t := by
          rw [List.getD_eq_getElem?_getD, List.getElem?_set_self (by omega)]; rfl
        rw [a1, hpq k hj, real, real, a2]; ring
      · have a1 : (p.set k (p.getD k 0 + scales.getD k 0 * t)).getD j 0 = p.getD j 0 := by
          rw [List.getD_eq_getElem?_getD, List.getElem?_set_ne hjk, ← List.getD_eq_getElem?_getD]
        have a2 : (q.set k (q.getD k 0 + t)).getD j 0 = q.getD j 0 := by
          rw [List.getD_eq_getElem?_getD, List.getElem?_set_ne hjk, ← List.getD_eq_getElem?_getD]
        rw [a1, hpq j hj, real, real, a2]

/-- **C55 (result).** Whatever vector Ceres ends at, the tractor gets the parameters it stands for; if Ceres changes
nothing, the parameters stay as they were.  Variances are multiplied by the squared scales. -/
theorem C55_result (solve : Prob R → List R × List R) (T : Target R) (scales : List R) (pr bd : Bool) (P : Prob R)
    (hs : scales.length = T.params.length) (hn : T.params.length ≠ 0) (hP : mkProb T true scales pr bd = .ok P)
    (hq : (solve P).1.length = T.params.length) (hv : (solve P).2.length = T.params.length) :
    ∃ p v, ceresOpt solve T true scales pr bd = .ok (some (p, v)) ∧ p.length = T.params.length ∧
      (∀ j, j < T.params.length → p.getD j 0 = real T.params scales (solve P).1 j ∧
        v.getD j 0 = (solve P).2.getD j 0 * scales.getD j 0 ^ 2) ∧
      ((solve P).1 = P.start → p = T.params) := by
  have hstart := (C55_residuals T scales pr bd P hs hP).1
  simp only [ceresOpt, if_neg hn, hP, if_true]
  have hl : ∀ q : List R, q.length = T.params.length →
      (List.zipWith (· + ·) (List.zipWith (· - ·) T.params scales) (List.zipWith (· * ·) q scales)).length = T.params.length := by
    intro q h; simp [hs, h]
  have hget : ∀ q : List R, q.length = T.params.length → ∀ j, j < T.params.length →
      (List.zipWith (· + ·) (List.zipWith (· - ·) T.params scales) (List.zipWith (· * ·) q scales)).getD j 0 =
        real T.params scales q j := by
    intro q h j hj
    rw [getD_zipWith _ _ _ (by simp [hs, h]) j (by simp [hs]; omega), getD_zipWith _ _ _ (by omega) j hj,
      getD_zipWith _ _ _ (by omega) j (by omega), real]
    ring
  refine ⟨_, _, rfl, hl _ hq, ?_, ?_⟩
  · intro j hj
    refine ⟨hget _ hq j hj, ?_⟩
    rw [getD_zipWith _ _ _ (by simp [hs, hv]) j (by omega)]
    congr 1
    simp [List.getD_eq_getElem?_getD, show j < scales.length by omega]
  · intro h
    apply ext_getD _ _ (hl _ hq)
    intro j hj
    rw [hl _ hq] at hj
    rw [hget _ hq j hj, h, hstart, real]
    simp [List.getD_eq_getElem?_getD, hj]

/-- **C55 (variances).** If `C` is the inverse of the normal matrix of the scaled problem, whose Jacobian is `J` with
column `k` multiplied by `s k`, then the inverse of the normal matrix of the original problem has on its diagonal
`C k k * (s k)²`: the number the code reports. -/
theorem C55_variance {m n : Type} [Fintype m] [Fintype n] [DecidableEq n] (J : Matrix m n R) (s : n → R) (C : Matrix n n R)
    (h0 : ∀ k, s k ≠ 0)
    (hC : C * ((J * Matrix.diagonal s).transpose * (J * Matrix.diagonal s)) = 1) :
    ∃ V : Matrix n n R, V * (J.transpose * J) = 1 ∧ ∀ k, V k k = C k k * s k ^ 2 := by
  have hinv : Matrix.diagonal s * Matrix.diagonal (fun k => (s k)⁻¹) = 1 := by
    rw [Matrix.diagonal_mul_diagonal, ← Matrix.diagonal_one]
    congr 1
    funext k
    exact mul_inv_cancel₀ (h0 k)
  refine ⟨Matrix.diagonal s * C * Matrix.diagonal s, ?_, ?_⟩
  · rw [Matrix.transpose_mul, Matrix.diagonal_transpose] at hC
    have h1 : C * (Matrix.diagonal s * (J.transpose * J)) * Matrix.diagonal s = 1 := by
      rw [← hC]; simp only [Matrix.mul_assoc]
    have h2 := mul_eq_one_comm.1 h1
    simpa only [Matrix.mul_assoc] using h2
  · intro k
    rw [Matrix.mul_diagonal, Matrix.diagonal_mul]
    ring

end

/-- **C55 (bounds).** If all scales are positive, the bounds handed to Ceres allow `q` exactly when the bounds of the
tractor allow the parameters that `q` stands for. -/
theorem C55_bounds_partial [Field R] [LinearOrder R] [IsStrictOrderedRing R] (T : Target R) (scales : List R) (pr : Bool) (P : Prob R)
    (hs : scales.length = T.params.length) (h0 : ∀ j, j < scales.length → 0 < scales.getD j 0)
    (hP : mkProb T true scales pr true = .ok P) (q : List R) :
    ∃ bs, P.bounds = some bs ∧
      ((∀ b ∈ bs, if b.2.2 then b.2.1 ≤ q.getD b.1 0 else q.getD b.1 0 ≤ b.2.1) ↔
        (∀ (j : Nat) (v : R), T.lowers[j]? = some (some v) → v ≤ real T.params scales q j) ∧
        (∀ (j : Nat) (v : R), T.uppers[j]? = some (some v) → real T.params scales q j ≤ v)) := by
  simp only [mkProb, Bool.true_and] at hP
  split at hP
  · exact absurd hP (by simp)
  · rename_i hl
    injection hP with hP
    subst hP
    simp only [Bool.not_eq_true', Bool.not_eq_false, Bool.and_eq_true, decide_eq_true_eq] at hl
    refine ⟨_, rfl, ?_⟩
    have mem : ∀ (low : Bool) (l : List (Option R)) (b : Nat × R × Bool),
        b ∈ boundList low (scaleBounds (List.zipWith (· - ·) T.params scales) scales l) ↔
          ∃ (j : Nat) (v : R), l[j]? = some (some v) ∧
            b = (j, (v - (List.zipWith (· - ·) T.params scales).getD j 0) / scales.getD j 0, low) := by
      intro low l b
      simp only [boundList, scaleBounds, List.mem_filterMap, Option.map_eq_some_iff]
      constructor
      · rintro ⟨⟨o, j⟩, hm, v', hv', rfl⟩
        replace hm := List.mem_zipIdx_iff_getElem?.1 hm
        simp only [List.getElem?_map, Option.map_eq_some_iff] at hm
        obtain ⟨⟨o', j'⟩, hm2, he⟩ := hm
        simp only at hv' he
        subst hv'
        rw [List.getElem?_zipIdx, Option.map_eq_some_iff] at hm2
        obtain ⟨o'', hm3, he'⟩ := hm2
        injection he' with e1 e2
        simp only [Nat.zero_add] at e2
        subst e1 e2
        rw [Option.map_eq_some_iff] at he
        obtain ⟨v, rfl, rfl⟩ := he
        exact ⟨j, v, hm3, rfl⟩
      · rintro ⟨j, v, hj, rfl⟩
        refine ⟨(some ((v - (List.zipWith (· - ·) T.params scales).getD j 0) / scales.getD j 0), j), ?_, _, rfl, rfl⟩
        rw [List.mem_zipIdx_iff_getElem?]
        simp [List.getElem?_map, List.getElem?_zipIdx, hj]
    have key : ∀ (j : Nat), j < T.params.length → 0 < scales.getD j 0 ∧
        (List.zipWith (· - ·) T.params scales).getD j 0 = T.params.getD j 0 - scales.getD j 0 :=
      fun j hj => ⟨h0 j (by omega), getD_zipWith _ _ _ hs.symm j hj⟩
    have jlt : ∀ (l : List (Option R)) (j : Nat) (v : R), l.length = T.params.length → l[j]? = some (some v) →
        j < T.params.length := by
      intro l j v h1 h2
      have := (List.getElem?_eq_some_iff.1 h2).1
      omega
    simp only [if_true, List.mem_append, mem]
    constructor
    · intro h
      constructor
      · intro j v hj
        obtain ⟨k1, k2⟩ := key j (jlt _ _ _ hl.1 hj)
        have := h _ (.inl ⟨j, v, hj, rfl⟩)
        simp only [if_true] at this
        rw [k2, div_le_iff₀ k1] at this
        simp only [real]; linarith
      · intro j v hj
        obtain ⟨k1, k2⟩ := key j (jlt _ _ _ hl.2 hj)
        have := h _ (.inr ⟨j, v, hj, rfl⟩)
        simp only [Bool.false_eq_true, if_false] at this
        rw [k2, le_div_iff₀ k1] at this
        simp only [real]; linarith
    · rintro ⟨h1, h2⟩ b (⟨j, v, hj, rfl⟩ | ⟨j, v, hj, rfl⟩)
      · obtain ⟨k1, k2⟩ := key j (jlt _ _ _ hl.1 hj)
        have := h1 j v hj
        simp only [if_true]
        rw [k2, div_le_iff₀ k1]
        simp only [real] at this; linarith
      · obtain ⟨k1, k2⟩ := key j (jlt _ _ _ hl.2 hj)
        have := h2 j v hj
        simp only [Bool.false_eq_true, if_false]
        rw [k2, le_div_iff₀ k1]
        simp only [real] at this; linarith

/-- An example: two parameters, one image with two pixels. -/
def exTarget : Target Rat where
  params := [5, 7]
  nims := 1
  chi := fun _ p => [p.getD 0 0 - 2 * p.getD 1 0, p.getD 1 0]
  derivs := fun _ _ => [(0, [1, 0]), (1, [-2, 1])]
  gpriors := [(1, 6, 2)]
  lowers := [some 0, none]
  uppers := [none, some 9]
  steps := [1 / 2, -1]

/-- Problem, in a form that can be compared. -/
def exShow (r : Except PyErr (Prob Rat)) (q : List Rat) :
    (List Rat × List Rat × List (Nat × List Rat)) × List (Nat × Rat × Rat) × List (Nat × Rat × Bool) :=
  match r with
  | .ok P => ((P.start, P.residual 0 q, P.jac 0 q), P.priors.getD [], P.bounds.getD [])
  | .error _ => (([], [], []), [], [])

/-- One unit of `q` is 1/2 and 2: `q = (3, 2)` stands for (6, 9). -/
example : (exShow (mkProb exTarget true [1 / 2, 2] true true) [3, 2]).1 =
      ([1, 1], [-12, 9], [(0, [1 / 2, 0]), (1, [-4, 2])]) ∧
    (exShow (mkProb exTarget true [1 / 2, 2] true true) [3, 2]).2.1 = [(1, 1 / 2, 1)] ∧
    (exShow (mkProb exTarget true [1 / 2, 2] true true) [3, 2]).2.2 = [(0, -9, true), (1, 2, false)] := by decide +kernel

/-- **C55 is false for bounds of a parameter with negative step size** (they are allowed: the step size is a signed
number): with `dynamic_scale=False` the bound 9 above becomes a bound for `q` above, though `q` runs backwards.
Here `q = (1, -5)` stands for (5, 13), which is not allowed but obeys all bounds Ceres knows of. -/
theorem C55_negative_step_false :
    (exShow (mkProb exTarget true (chooseScales exTarget none) false true) [1, -5]).2.2 =
      [(0, -9, true), (1, -1, false)] ∧
    (-5 : Rat) ≤ -1 ∧ real exTarget.params (chooseScales exTarget none) [1, -5] 1 = 13 := by decide +kernel

/-- **C55 is false without free parameters**: `optimize` fails with TypeError instead of doing nothing. -/
theorem C55_no_params_false [Field R] (solve : Prob R → List R × List R) (T : Target R) (scaled : Bool) (scales : List R)
    (pr bd : Bool) (h : T.params = []) : optimize solve T scaled scales pr bd = .error .typeErr := by
  simp [optimize, ceresOpt, h]

/-- **C55 (dynamic scales).** With `dynamic_scale` a step of one unit in a parameter that has any effect changes the chi
images, to first order, by a vector of length one. -/
theorem C55_dynamic [Field R] [DecidableEq R] (sqrt : R → R) (ss step : R) (h1 : sqrt ss * sqrt ss = ss) (h2 : ss ≠ 0) :
    dynamicScale sqrt ss step ^ 2 * ss = 1 := by
  have : sqrt ss ≠ 0 := by
    intro h; rw [h, zero_mul] at h1; exact h2 h1.symm
  rw [dynamicScale, if_pos this, one_div, inv_pow, pow_two, h1]
  exact inv_mul_cancel₀ h2

example : dynamicScales (fun x : Rat => if x = 4 then 2 else 0) { exTarget with derivs := fun _ _ => [(0, [2, 0])] } =
    [1 / 2, -1] := by decide +kernel

/-! ## C77: every image takes part -/

theorem imageBlocks_analytic (np nims : Nat) : ∀ fuel i, nims ≤ i + fuel →
    imageBlocks false np nims fuel i = ((List.range nims).drop i, true)
  | 0, i, h => by
    rw [imageBlocks, List.drop_eq_nil_of_le (by simp; omega)]
    simp; omega
  | fuel + 1, i, h => by
    rw [imageBlocks]
    split
    · rename_i hi
      simp only [afterBody, Bool.false_eq_true, if_false]
      rw [imageBlocks_analytic np nims fuel (i + 1) (by omega)]
      rw [List.drop_eq_getElem_cons (i := i) (by simpa using hi)]
      simp
    · rw [List.drop_eq_nil_of_le (by simp; omega)]

/-- **C77 (analytic derivatives).** The problem has one residual block per image, in order. -/
theorem C77_all_images_partial (nparams nims fuel : Nat) (h : nims ≤ fuel) :
    imageBlocks false nparams nims fuel 0 = (List.range nims, true) := by
  rw [imageBlocks_analytic _ _ _ _ (by omega), List.drop_zero]

example : imageBlocks false 1 3 10 0 = ([0, 1, 2], true) := by decide

/-- **C77 is false with `numeric=True`** and at least two images: if there are not more images than parameters plus one,
only the first image takes part in the fit … -/
theorem C77_numeric_first_only_false (nparams nims fuel : Nat) (h : 2 ≤ nims) (hn : nims ≤ nparams + 1) (hf : 1 ≤ fuel) :
    imageBlocks true nparams nims fuel 0 = ([0], true) := by
  obtain ⟨f, rfl⟩ : ∃ f, fuel = f + 1 := ⟨fuel - 1, by omega⟩
  rw [imageBlocks, if_pos (by omega)]
  cases f with
  | zero => simp [imageBlocks, afterBody, hn]
  | succ f => rw [imageBlocks, if_neg (by simp [afterBody]; omega)]

/-- … and otherwise the loop never ends, adding the same image over and over. -/
theorem C77_numeric_endless_false (nparams nims : Nat) (hn : nparams + 1 < nims) : ∀ fuel,
    imageBlocks true nparams nims (fuel + 1) 0 = (0 :: List.replicate fuel (nparams + 1), false) := by
  have key : ∀ fuel, imageBlocks true nparams nims fuel (nparams + 1) = (List.replicate fuel (nparams + 1), false) := by
    intro fuel
    induction fuel with
    | zero => simp [imageBlocks]; omega
    | succ f ih => rw [imageBlocks, if_pos (by omega)]; simp only [afterBody, if_true]; rw [ih]; rfl
  intro fuel
  rw [imageBlocks, if_pos (by omega)]
  simp only [afterBody, if_true]
  rw [key]

example : imageBlocks true 5 3 10 0 = ([0], true) ∧ imageBlocks true 1 4 5 0 = ([0, 2, 2, 2, 2], false) := by decide

/-! ## C76: Jacobian columns -/

section
variable [Field R]

theorem jac_fold (ds : List (Der R)) : ∀ (J : List (Option (Nat → Nat → R))) (k : Nat),
    (∀ d ∈ ds, d.ind ≠ k) → (ds.foldl (fun J d => J.set d.ind (some (writeDer d))) J)[k]? = J[k]? := by
  induction ds with
  | nil => intro J k _; rfl
  | cons d ds ih =>
    intro J k h
    rw [List.foldl_cons, ih _ _ (fun d' hd' => h d' (List.mem_cons_of_mem _ hd')),
      List.getElem?_set_ne (h d (List.mem_cons_self ..))]

theorem jac_length (ds : List (Der R)) : ∀ (J : List (Option (Nat → Nat → R))),
    (ds.foldl (fun J d => J.set d.ind (some (writeDer d))) J).length = J.length := by
  induction ds with
  | nil => intro J; rfl
  | cons d ds ih => intro J; rw [List.foldl_cons, ih, List.length_set]

/-- **C76.** If no parameter occurs twice among the derivatives, then the Jacobian column of a parameter that occurs is
its derivative at its place in the image, zero around it; and a column is written at all exactly if its parameter
occurs. -/
theorem C76_jacobian_partial (n : Nat) (ds : List (Der R)) (hn : (ds.map (·.ind)).Nodup) (hlt : ∀ d ∈ ds, d.ind < n) :
    (∀ d ∈ ds, (jacobian n ds)[d.ind]? = some (some (fun r c =>
      if d.y0 ≤ r ∧ r < d.y0 + d.h ∧ d.x0 ≤ c ∧ c < d.x0 + d.w then d.px (r - d.y0) (c - d.x0) else 0))) ∧
    ∀ k, k < n → ((jacobian n ds)[k]? = some none ↔ ∀ d ∈ ds, d.ind ≠ k) := by
  have first : ∀ d ∈ ds, (jacobian n ds)[d.ind]? = some (some (writeDer d)) := by
    intro d hd
    obtain ⟨a, b, rfl⟩ := List.append_of_mem hd
    rw [jacobian, List.foldl_append, List.foldl_cons]
    rw [List.map_append, List.map_cons, List.nodup_append] at hn
    have hb := (List.nodup_cons.1 hn.2.1).1
    rw [jac_fold]
    · rw [List.getElem?_set_self]
      rw [jac_length, List.length_replicate]
      exact hlt d (by simp)
    · intro d' hd' he
      exact hb (by rw [← he]; exact List.mem_map_of_mem hd')
  refine ⟨first, ?_⟩
  intro k hk
  constructor
  · intro h d hd he
    subst he
    rw [first d hd] at h
    simp at h
  · intro h
    rw [jacobian, jac_fold ds _ k h]
    simp [hk]

end

/-- **C76 is false for a parameter without derivative in an image** (for example a source outside it, or a parameter of
another image): its Jacobian column is not filled with zeros but left unwritten. -/
theorem C76_unwritten_false : ∃ ds : List (Der Rat), (ds.map (·.ind)).Nodup ∧ (∀ d ∈ ds, d.ind < 2) ∧
    (jacobian 2 ds)[1]? = some none := by
  refine ⟨[⟨0, 0, 0, 1, 1, fun _ _ => 4⟩], by simp, by simp, ?_⟩
  rfl

end Verif.Ceres
