import Verif.Lsq.Lemmas5

/-!
# Lemmas: shared parameters; existence of least-squares solutions
-/

set_option linter.unusedSectionVars false

namespace Verif.Lsq

open Verif Verif.Params Verif.Patches

variable {R : Type} [Field R] [LinearOrder R]

/-! ### Assigning slots -/

/-- The value of cell `c` after assigning the slots in turn. -/
def assignAll (v : Nat → R) (l : List (Nat × R)) : Nat → R :=
  l.foldl (fun v e => fun c => if c = e.1 then e.2 else v c) v

theorem assignAll_not_mem (l : List (Nat × R)) (c : Nat) (h : ∀ e ∈ l, e.1 ≠ c) :
    ∀ v : Nat → R, assignAll v l c = v c := by
  induction l with
  | nil => intro v; rfl
  | cons a l ih =>
    intro v
    rw [assignAll, List.foldl_cons]
    have := ih (fun e he => h e (by simp [he])) (fun c => if c = a.1 then a.2 else v c)
    rw [assignAll] at this
    rw [this, if_neg (h a (by simp)).symm]

theorem assignAll_mem (l : List (Nat × R)) (c : Nat) (h : ∃ e ∈ l, e.1 = c) :
    ∀ v : Nat → R, (c, assignAll v l c) ∈ l := by
  induction l with
  | nil => simp at h
  | cons a l ih =>
    intro v
    by_cases hl : ∃ e ∈ l, e.1 = c
    · exact List.mem_cons_of_mem _ (ih hl _)
    · obtain ⟨e, he, hec⟩ := h
      have ha : a.1 = c := by
        rcases List.mem_cons.1 he with rfl | he
        · exact hec
        · exact absurd ⟨e, he, hec⟩ hl
      push Not at hl
      have := assignAll_not_mem l c hl (fun c => if c = a.1 then a.2 else v c)
      rw [assignAll, List.foldl_cons]
      rw [assignAll] at this
      rw [this, if_pos ha.symm, ← ha]
      simp

theorem setParams_val (s : Store R) (p : List R) : (s.setParams p).val = assignAll s.val (s.cells.zip p) := rfl

/-- Two slots hold the same number after counting up iff they are the same cell. -/
theorem count_eq_iff [CharZero R] (s : Store R) (i j : Nat) (hi : i < s.cells.length) (hj : j < s.cells.length) :
    (s.setParams ((List.range s.cells.length).map (fun i : Nat => (i : R)))).val s.cells[i] =
      (s.setParams ((List.range s.cells.length).map (fun i : Nat => (i : R)))).val s.cells[j] ↔
    s.cells[i] = s.cells[j] := by
  constructor
  · intro h
    rw [setParams_val] at h
    have hz : ∀ k (hk : k < s.cells.length),
        ∃ e ∈ s.cells.zip ((List.range s.cells.length).map (fun i : Nat => (i : R))), e.1 = s.cells[k] := by
      intro k hk
      refine ⟨(s.cells[k], (k : R)), ?_, rfl⟩
      rw [List.mem_iff_getElem]
      exact ⟨k, by simpa using hk, by simp⟩
    have h1 := assignAll_mem _ _ (hz i hi) s.val
    have h2 := assignAll_mem _ _ (hz j hj) s.val
    rw [List.mem_iff_getElem] at h1 h2
    obtain ⟨k1, hk1, e1⟩ := h1
    obtain ⟨k2, hk2, e2⟩ := h2
    simp only [List.getElem_zip, List.getElem_map, List.getElem_range, Prod.mk.injEq] at e1 e2
    have : (k1 : R) = (k2 : R) := by rw [e1.2, e2.2, h]
    have hk : k1 = k2 := Nat.cast_injective this
    subst hk
    rw [← e1.1, ← e2.1]
  · intro h; rw [h]

theorem idxOf_inj (u : List R) (x y : R) (hx : x ∈ u) (h : u.idxOf x = u.idxOf y) : x = y := by
  have h1 : u.idxOf x < u.length := List.idxOf_lt_length_of_mem hx
  have h2 : u.idxOf y < u.length := h ▸ h1
  have e1 : u[u.idxOf x] = x := List.getElem_idxOf h1
  have e2 : u[u.idxOf y] = y := List.getElem_idxOf h2
  rw [← e1, ← e2]
  simp only [h]

theorem sharedMap_ok [CharZero R] (s : Store R) :
    (sharedMap s).1.length = s.cells.length ∧
    (∀ (i j : Nat) (hi : i < s.cells.length) (hj : j < s.cells.length),
      (sharedMap s).1[i]? = (sharedMap s).1[j]? ↔ s.cells[i] = s.cells[j]) ∧
    (sharedMap s).2 = s := by
  have hlen : s.getParams.length = s.cells.length := by simp [Store.getParams]
  refine ⟨by simp [sharedMap, uniqueInverse, Store.getParams, Store.setParams], ?_, ?_⟩
  · intro i j hi hj
    rw [← count_eq_iff s i j hi hj]
    simp only [sharedMap, uniqueInverse, hlen]
    set s1 := s.setParams ((List.range s.cells.length).map (fun i : Nat => (i : R))) with hs1
    have hc1 : s1.cells = s.cells := rfl
    rw [List.getElem?_map, List.getElem?_map, Store.getParams, List.getElem?_map, List.getElem?_map, hc1,
      List.getElem?_eq_getElem hi, List.getElem?_eq_getElem hj]
    simp only [Option.map_some, Option.some.injEq]
    constructor
    · intro h
      apply idxOf_inj _ _ _ _ h
      rw [List.mem_insertionSort, List.mem_dedup]
      exact List.mem_map_of_mem (List.getElem_mem hi)
    · intro h; rw [h]
  · simp only [sharedMap, hlen]
    set s1 := s.setParams ((List.range s.cells.length).map (fun i : Nat => (i : R))) with hs1
    have hval : (s1.setParams s.getParams).val = s.val := by
      funext c
      rw [setParams_val]
      have hc1 : s1.cells = s.cells := rfl
      rw [hc1]
      by_cases hc : c ∈ s.cells
      · obtain ⟨k, hk, rfl⟩ := List.mem_iff_getElem.1 hc
        have hz : ∃ e ∈ s.cells.zip s.getParams, e.1 = s.cells[k] := by
          refine ⟨(s.cells[k], s.val s.cells[k]), ?_, rfl⟩
          rw [List.mem_iff_getElem]
          exact ⟨k, by simpa [Store.getParams] using hk, by simp [Store.getParams]⟩
        have := assignAll_mem _ _ hz s1.val
        rw [List.mem_iff_getElem] at this
        obtain ⟨j, hj, e⟩ := this
        simp only [List.getElem_zip, Store.getParams, List.getElem_map, Prod.mk.injEq] at e
        simp only [Store.getParams]
        rw [← e.2, e.1]
      · rw [assignAll_not_mem]
        · rw [hs1, setParams_val, assignAll_not_mem]
          intro e he h
          exact hc (h ▸ (List.of_mem_zip he).1)
        · intro e he h
          exact hc (h ▸ (List.of_mem_zip he).1)
    have : s1.setParams s.getParams = ⟨(s1.setParams s.getParams).cells, (s1.setParams s.getParams).val⟩ := rfl
    rw [this, hval]
    rfl

theorem idxOf_mono (u : List R) (hs : u.Pairwise (· ≤ ·)) (x y : R) (hx : x ∈ u) (hy : y ∈ u) (h : x ≤ y) :
    u.idxOf x ≤ u.idxOf y := by
  by_contra hlt
  push Not at hlt
  have h1 : u.idxOf x < u.length := List.idxOf_lt_length_of_mem hx
  have h2 : u.idxOf y < u.length := List.idxOf_lt_length_of_mem hy
  have := List.pairwise_iff_getElem.1 hs _ _ h2 h1 hlt
  rw [List.getElem_idxOf h1, List.getElem_idxOf h2] at this
  have e : x = y := le_antisymm h this
  rw [e] at hlt
  exact lt_irrefl _ hlt

/-- The cell of the last slot gets the largest number. -/
theorem sharedMap_max [IsStrictOrderedRing R] (s : Store R) (i : Nat) (hi : i < s.cells.length) :
    mergeInto (some (sharedMap s).1) i ≤ mergeInto (some (sharedMap s).1) (s.cells.length - 1) := by
  have hlen : s.getParams.length = s.cells.length := by simp [Store.getParams]
  have hl : s.cells.length - 1 < s.cells.length := by omega
  simp only [mergeInto, sharedMap, uniqueInverse, hlen]
  set s1 := s.setParams ((List.range s.cells.length).map (fun i : Nat => (i : R))) with hs1
  have hc1 : s1.cells = s.cells := rfl
  have hg : ∀ k (hk : k < s.cells.length), s1.getParams[k]? = some (s1.val s.cells[k]) := by
    intro k hk
    rw [Store.getParams, List.getElem?_map, hc1, List.getElem?_eq_getElem hk]; rfl
  rw [List.getElem?_map, List.getElem?_map, hg i hi, hg _ hl]
  simp only [Option.map_some, Option.getD_some]
  have hmem : ∀ k (hk : k < s.cells.length), s1.val s.cells[k] ∈
      (s1.getParams.dedup).insertionSort (· ≤ ·) := by
    intro k hk
    rw [List.mem_insertionSort, List.mem_dedup]
    exact List.mem_of_getElem? (hg k hk)
  apply idxOf_mono _ (List.pairwise_insertionSort _ _) _ _ (hmem i hi) (hmem _ hl)
  have hval : ∀ k (hk : k < s.cells.length), ∃ j : Nat, j < s.cells.length ∧ s1.val s.cells[k] = (j : R) := by
    intro k hk
    have hz : ∃ e ∈ s.cells.zip ((List.range s.cells.length).map (fun i : Nat => (i : R))), e.1 = s.cells[k] := by
      refine ⟨(s.cells[k], (k : R)), ?_, rfl⟩
      rw [List.mem_iff_getElem]
      exact ⟨k, by simpa using hk, by simp⟩
    have h1 := assignAll_mem _ _ hz s.val
    rw [List.mem_iff_getElem] at h1
    obtain ⟨k1, hk1, e1⟩ := h1
    simp only [List.getElem_zip, List.getElem_map, List.getElem_range, Prod.mk.injEq] at e1
    simp only [List.length_zip, List.length_map, List.length_range, Nat.min_self] at hk1
    exact ⟨k1, hk1, by rw [hs1, setParams_val, ← e1.2]⟩
  -- the last slot is assigned last
  have hlast : s1.val s.cells[s.cells.length - 1] = ((s.cells.length - 1 : Nat) : R) := by
    rw [hs1, setParams_val]
    have hne : s.cells ≠ [] := by intro h; rw [h] at hi; simp at hi
    have e : s.cells.zip ((List.range s.cells.length).map (fun i : Nat => (i : R))) =
        s.cells.dropLast.zip ((List.range (s.cells.length - 1)).map (fun i : Nat => (i : R))) ++
          [(s.cells[s.cells.length - 1], ((s.cells.length - 1 : Nat) : R))] := by
      have h1 : s.cells = s.cells.dropLast ++ [s.cells[s.cells.length - 1]] := by
        rw [← List.getLast_eq_getElem hne]; exact (List.dropLast_append_getLast hne).symm
      have h2 : (List.range s.cells.length).map (fun i : Nat => (i : R)) =
          (List.range (s.cells.length - 1)).map (fun i : Nat => (i : R)) ++
            [((s.cells.length - 1 : Nat) : R)] := by
        conv_lhs => rw [show s.cells.length = (s.cells.length - 1) + 1 by omega, List.range_succ]
        simp
      rw [h2]
      conv_lhs => rw [h1]
      rw [List.zip_append (by simp), ← h1]
      rfl
    rw [e, assignAll, List.foldl_append]
    simp
  obtain ⟨j, hj, e⟩ := hval i hi
  rw [e, hlast]
  exact_mod_cast (by omega : j ≤ s.cells.length - 1)

theorem shared_iff [CharZero R] (s : Store R) (n : Nat) (hs : s.cells.length = n) :
    ∀ c c' : Nat, c < n → c' < n →
      (mergeInto (some (sharedMap s).1) c = mergeInto (some (sharedMap s).1) c' ↔ s.cells[c]? = s.cells[c']?) := by
  obtain ⟨hlen, hdet, -⟩ := sharedMap_ok s
  intro c c' hc hc'
  have h := hdet c c' (by omega) (by omega)
  rw [List.getElem?_eq_getElem (show c < s.cells.length by omega),
    List.getElem?_eq_getElem (show c' < s.cells.length by omega), Option.some.injEq, ← h]
  simp only [mergeInto]
  rw [List.getElem?_eq_getElem (by omega), List.getElem?_eq_getElem (by omega)]
  simp

/-! ### Least-squares solutions exist -/

section exist
variable [IsStrictOrderedRing R]

/-- Component of `A x` for a matrix given by its columns. -/
def lin (cols : List (Nat → R)) (X : List R) (r : Nat) : R := (List.zipWith (fun a x => a r * x) cols X).sum

theorem lin_cons (a : Nat → R) (cols : List (Nat → R)) (x : R) (X : List R) (r : Nat) :
    lin (a :: cols) (x :: X) r = a r * x + lin cols X r := by simp [lin]

/-- Scalar product of the first `n` components. -/
def dotp (n : Nat) (a b : Nat → R) : R := ∑ r ∈ Finset.range n, a r * b r

theorem lin_proj (n : Nat) (a : Nat → R) (cols : List (Nat → R)) :
    ∀ X : List R, ∀ r, lin (cols.map (fun c r => c r - dotp n c a / dotp n a a * a r)) X r =
      lin cols X r - dotp n (lin cols X) a / dotp n a a * a r := by
  induction cols with
  | nil => intro X r; simp [lin, dotp]
  | cons c cols ih =>
    intro X r
    cases X with
    | nil => simp [lin, dotp]
    | cons x X =>
      rw [List.map_cons, lin_cons, lin_cons, ih X r]
      have : dotp n (lin (c :: cols) (x :: X)) a = dotp n c a * x + dotp n (lin cols X) a := by
        simp only [dotp, lin_cons, add_mul, Finset.sum_add_distrib, Finset.sum_mul]
        congr 1
        apply Finset.sum_congr rfl
        intro r _; ring
      rw [this]
      ring

theorem exists_min (n : Nat) (cols : List (Nat → R)) :
    ∀ b : Nat → R, ∃ X : List R, X.length = cols.length ∧ ∀ Y : List R, Y.length = cols.length →
      ∑ r ∈ Finset.range n, (b r - lin cols X r) ^ 2 ≤ ∑ r ∈ Finset.range n, (b r - lin cols Y r) ^ 2 := by
  suffices h : ∀ (k : Nat) (cols : List (Nat → R)), cols.length = k → ∀ b : Nat → R,
      ∃ X : List R, X.length = cols.length ∧ ∀ Y : List R, Y.length = cols.length →
      ∑ r ∈ Finset.range n, (b r - lin cols X r) ^ 2 ≤ ∑ r ∈ Finset.range n, (b r - lin cols Y r) ^ 2 from
    h cols.length cols rfl
  intro k
  induction k with
  | zero =>
    intro cols hc b
    refine ⟨[], by simpa using hc.symm, fun Y hY => ?_⟩
    have : Y = [] := List.eq_nil_of_length_eq_zero (by omega)
    rw [this]
  | succ k ih =>
    intro cols hc b
    cases cols with
    | nil => simp at hc
    | cons a cols =>
      have hk : cols.length = k := by simpa using hc
      by_cases h0 : dotp n a a = 0
      · have ha : ∀ r ∈ Finset.range n, a r = 0 := by
          intro r hr
          have := (Finset.sum_eq_zero_iff_of_nonneg (fun r _ => mul_self_nonneg (a r))).1 h0 r hr
          exact mul_self_eq_zero.1 this
        obtain ⟨X, hX, hm⟩ := ih cols hk b
        refine ⟨0 :: X, by simp [hX], fun Y hY => ?_⟩
        cases Y with
        | nil => simp at hY
        | cons y Y =>
          have e : ∀ (z : R) (Z : List R), ∑ r ∈ Finset.range n, (b r - lin (a :: cols) (z :: Z) r) ^ 2 =
              ∑ r ∈ Finset.range n, (b r - lin cols Z r) ^ 2 := by
            intro z Z
            apply Finset.sum_congr rfl
            intro r hr
            rw [lin_cons, ha r hr, zero_mul, zero_add]
          rw [e, e]
          exact hm Y (by simpa using hY)
      · have hpos : 0 < dotp n a a :=
          lt_of_le_of_ne (Finset.sum_nonneg (fun r _ => mul_self_nonneg (a r))) (Ne.symm h0)
        obtain ⟨X, hX, hm⟩ := ih (cols.map (fun c r => c r - dotp n c a / dotp n a a * a r)) (by simpa using hk)
          (fun r => b r - dotp n b a / dotp n a a * a r)
        have hX' : X.length = cols.length := by simpa using hX
        -- completing the square
        have key : ∀ (t : R) (Z : List R),
            ∑ r ∈ Finset.range n, (b r - lin (a :: cols) (t :: Z) r) ^ 2 =
            ∑ r ∈ Finset.range n, ((b r - dotp n b a / dotp n a a * a r) -
              lin (cols.map (fun c r => c r - dotp n c a / dotp n a a * a r)) Z r) ^ 2 +
            dotp n a a * (t - (dotp n b a / dotp n a a - dotp n (lin cols Z) a / dotp n a a)) ^ 2 := by
          intro t Z
          simp only [lin_proj, lin_cons]
          set L := lin cols Z with hL
          set q := dotp n b a / dotp n a a - dotp n L a / dotp n a a with hq
          have hq' : q * dotp n a a = dotp n b a - dotp n L a := by
            rw [hq]; field_simp
          have e1 : ∀ r, b r - (a r * t + L r) = (b r - L r - q * a r) - (t - q) * a r := by intro r; ring
          have e2 : ∀ r, b r - dotp n b a / dotp n a a * a r - (L r - dotp n L a / dotp n a a * a r) =
              b r - L r - q * a r := by intro r; rw [hq]; ring
          simp only [e1, e2]
          have e3 : ∀ r, ((b r - L r - q * a r) - (t - q) * a r) ^ 2 = (b r - L r - q * a r) ^ 2 -
              2 * (t - q) * (b r * a r - L r * a r - q * (a r * a r)) + (t - q) ^ 2 * (a r * a r) := by
            intro r; ring
          simp only [e3, Finset.sum_add_distrib, Finset.sum_sub_distrib, ← Finset.mul_sum]
          have d1 : ∑ r ∈ Finset.range n, b r * a r = dotp n b a := rfl
          have d2 : ∑ r ∈ Finset.range n, L r * a r = dotp n L a := rfl
          have d3 : ∑ r ∈ Finset.range n, a r * a r = dotp n a a := rfl
          rw [d1, d2, d3, hq']
          ring
        refine ⟨(dotp n b a / dotp n a a - dotp n (lin cols X) a / dotp n a a) :: X, by simp [hX'], fun Y hY => ?_⟩
        cases Y with
        | nil => simp at hY
        | cons y Y =>
          rw [key, key, sub_self]
          have h1 := hm Y (by simpa using hY)
          have h2 : 0 ≤ dotp n a a * (y - (dotp n b a / dotp n a a - dotp n (lin cols Y) a / dotp n a a)) ^ 2 :=
            mul_nonneg hpos.le (sq_nonneg _)
          simp only [ne_eq, OfNat.ofNat_ne_zero, not_false_eq_true, zero_pow, mul_zero, add_zero]
          linarith

theorem zipWith_range_sum (g : Nat → R) (X : List R) (n : Nat) (h : X.length = n) :
    (List.zipWith (fun a x => a * x) ((List.range n).map g) X).sum =
      ∑ c ∈ Finset.range n, g c * (X[c]?).getD 0 := by
  induction n generalizing X g with
  | zero => simp
  | succ n ih =>
    cases X with
    | nil => simp at h
    | cons x X =>
      rw [List.range_succ_eq_map, List.map_cons, List.map_map, List.zipWith_cons_cons, List.sum_cons,
        ih _ X (by simpa using h), Finset.sum_range_succ']
      simp [add_comm]

theorem lin_range (g : Nat → Nat → R) (X : List R) (n : Nat) (h : X.length = n) (r : Nat) :
    lin ((List.range n).map g) X r = ∑ c ∈ Finset.range n, g c r * (X[c]?).getD 0 := by
  rw [← zipWith_range_sum (fun c => g c r) X n h, lin]
  congr 1
  rw [List.zipWith_map_left, List.zipWith_map_left]

theorem apply_eq_sum (P : Problem R) (X : List R) (hX : X.length = P.ncols) (r : Nat) :
    P.apply X r = ∑ c ∈ Finset.range P.ncols,
      ((P.cells.filter (fun t => t.1 = (r : Int) ∧ t.2.1 = c)).map (fun t => t.2.2)).sum * (X[c]?).getD 0 := by
  simp only [Problem.apply]
  generalize P.cells = l
  induction l with
  | nil => simp
  | cons t l ih =>
    by_cases h : t.1 = (r : Int)
    · rw [List.filter_cons_of_pos (by simpa using h), List.map_cons, List.sum_cons, ih]
      by_cases hc : t.2.1 < P.ncols
      · have hmem : t.2.1 ∈ Finset.range P.ncols := Finset.mem_range.2 hc
        rw [← Finset.add_sum_erase _ _ hmem, ← Finset.add_sum_erase _ _ hmem]
        rw [List.filter_cons_of_pos (by simp [h]), List.map_cons, List.sum_cons, add_mul, add_assoc]
        congr 2
        apply Finset.sum_congr rfl
        intro c hc'
        rw [List.filter_cons_of_neg]
        simp only [decide_eq_true_eq, not_and]
        intro _ hh
        exact (Finset.mem_erase.1 hc').1 hh.symm
      · rw [List.getElem?_eq_none (by omega), Option.getD_none, mul_zero, zero_add]
        apply Finset.sum_congr rfl
        intro c hc'
        have := Finset.mem_range.1 hc'
        rw [List.filter_cons_of_neg]
        simp only [decide_eq_true_eq, not_and]
        intro _ hh
        omega
    · rw [List.filter_cons_of_neg (by simpa using h), ih]
      apply Finset.sum_congr rfl
      intro c _
      rw [List.filter_cons_of_neg (by simp [h])]

/-- Every least-squares problem has a solution (in any ordered field). -/
theorem solver_exists : ∃ lsqr : Problem R → List R, Solves lsqr := by
  have : ∀ P : Problem R, ∃ X, Minimises P.ncols P.chisq X := by
    intro P
    obtain ⟨X, hX, hm⟩ := exists_min P.nrows ((List.range P.ncols).map (fun c r =>
      ((P.cells.filter (fun t => t.1 = (r : Int) ∧ t.2.1 = c)).map (fun t => t.2.2)).sum)) P.b
    simp only [List.length_map, List.length_range] at hX hm
    refine ⟨X, hX, fun Y hY => ?_⟩
    have h := hm Y hY
    simp only [lin_range _ X _ hX, lin_range _ Y _ hY] at h
    simp only [Problem.chisq, apply_eq_sum P X hX, apply_eq_sum P Y hY]
    exact h
  exact ⟨fun P => (this P).choose, fun P => (this P).choose_spec⟩

end exist

end Verif.Lsq
