import Verif.Lsq.Lemmas3

/-!
# Lemmas: column scaling, shared parameters, the update direction
-/

set_option linter.unusedSectionVars false

namespace Verif.Lsq

open Verif Verif.Params Verif.Patches

variable {R : Type} [Field R] [LinearOrder R]

theorem rowVal_congr (bs : List (Block R)) (r : Int) (f g : Nat → R) (h : ∀ b ∈ bs, f b.col = g b.col) :
    rowVal bs r f = rowVal bs r g := by
  induction bs with
  | nil => rfl
  | cons b bs ih => rw [rowVal_cons, rowVal_cons, h b (by simp), ih (fun x hx => h x (by simp [hx]))]

theorem chisqOf_congr (n : Nat) (bs : List (Block R)) (b : Nat → R) (f g : Nat → R)
    (h : ∀ blk ∈ bs, f blk.col = g blk.col) : chisqOf n bs b f = chisqOf n bs b g := by
  simp only [chisqOf, rowVal_congr bs _ f g h]

theorem Problem.chisq_eq (n m : Nat) (bs : List (Block R)) (b : Nat → R) (X : List R) :
    Problem.chisq ⟨n, m, cellsOf bs, b⟩ X = chisqOf n bs b (fun c => (X[c]?).getD 0) := rfl

theorem mkProblem_ok (n m : Nat) (bs : List (Block R)) (b : Nat → R)
    (h : ∀ blk ∈ bs, blk.col < m ∧ GoodBlock n blk) :
    mkProblem n m bs b = .ok ⟨n, m, cellsOf bs, b⟩ := by
  rw [mkProblem, if_pos]
  rw [List.all_eq_true]
  intro t ht
  simp only [cellsOf, List.mem_flatMap, List.mem_map] at ht
  obtain ⟨blk, hb, e, he, rfl⟩ := ht
  obtain ⟨hc, hg⟩ := h blk hb
  have := hg.rng e.1 (List.of_mem_zip he).1
  simp only [decide_eq_true_eq]
  exact ⟨this.1, this.2, hc⟩

/-! ### Scaling -/

theorem keySum_div (rows : List Int) (vals : List R) (r : Int) (s : R) :
    keySum (rows.zip (vals.map (fun v => v / s))) r = keySum (rows.zip vals) r / s := by
  induction rows generalizing vals with
  | nil => simp [keySum]
  | cons a rows ih =>
    cases vals with
    | nil => simp [keySum]
    | cons v vals =>
      have := ih vals
      simp only [keySum] at this
      simp only [keySum, List.map_cons, List.zip_cons_cons]
      by_cases h : a = r
      · rw [List.filter_cons_of_pos (by simpa using h), List.filter_cons_of_pos (by simpa using h)]
        simp only [List.map_cons, List.sum_cons, this, add_div]
      · rw [List.filter_cons_of_neg (by simpa using h), List.filter_cons_of_neg (by simpa using h)]
        exact this

theorem scaleBlocks_ok (tiny : R) (scales : List R) (n : Nat) (bs : List (Block R))
    (hg : ∀ b ∈ bs, GoodBlock n b)
    (hs : ∀ b ∈ bs, (scales[b.col]?).getD 0 ≠ 0)
    (ht : ∀ b ∈ bs, ∀ v ∈ b.vals, tiny < |v / (scales[b.col]?).getD 0|) :
    scaleBlocks tiny scales bs =
      bs.map (fun b => ⟨b.rows, b.col, b.vals.map (fun v => v / (scales[b.col]?).getD 0)⟩) := by
  induction bs with
  | nil => rfl
  | cons b bs ih =>
    have hb := hg b (by simp)
    have hk : (b.rows.zip b.vals).filter (fun e => |e.2 / (scales[b.col]?).getD 0| > tiny) =
        b.rows.zip b.vals := by
      rw [List.filter_eq_self]
      intro e he
      simpa using ht b (by simp) e.2 (List.of_mem_zip he).2
    have hne : (b.rows.zip b.vals).isEmpty = false := by
      have h1 := hb.ne
      have h2 := hb.len
      cases hv : b.vals with
      | nil => exact absurd hv h1
      | cons v vs =>
        cases hr : b.rows with
        | nil => rw [hv, hr] at h2; simp at h2
        | cons r rs => rfl
    have ih' := ih (fun x hx => hg x (by simp [hx])) (fun x hx => hs x (by simp [hx]))
      (fun x hx => ht x (by simp [hx]))
    simp only [scaleBlocks] at ih' ⊢
    rw [List.filterMap_cons, List.map_cons, ← ih']
    simp only [if_neg (hs b (by simp)), hk, hne, Bool.false_eq_true, if_false]
    congr 1
    have e1 : (b.rows.zip b.vals).map (·.1) = b.rows := by
      rw [List.map_fst_zip]; exact le_of_eq hb.len
    have e2 : (b.rows.zip b.vals).map (fun e => e.2 / (scales[b.col]?).getD 0) =
        b.vals.map (fun v => v / (scales[b.col]?).getD 0) := by
      have : (b.rows.zip b.vals).map (·.2) = b.vals := by
        rw [List.map_snd_zip]; exact le_of_eq hb.len.symm
      conv_rhs => rw [← this, List.map_map]
      rfl
    rw [e1, e2]

theorem scaled_rowVal (s : Nat → R) (bs : List (Block R)) (r : Int) (f : Nat → R) :
    rowVal (bs.map (fun b => (⟨b.rows, b.col, b.vals.map (fun v => v / s b.col)⟩ : Block R))) r f =
      rowVal bs r (fun c => f c / s c) := by
  induction bs with
  | nil => rfl
  | cons b bs ih =>
    rw [List.map_cons, rowVal_cons, rowVal_cons, ih]
    simp only [keySum_div]
    ring

/-! ### Renamed columns -/

theorem mapCols_ok (m : List Nat) (bs : List (Block R)) (h : ∀ b ∈ bs, b.col < m.length) :
    mapCols m bs = .ok (bs.map (fun b => { b with col := (m[b.col]?).getD 0 })) := by
  induction bs with
  | nil => rfl
  | cons b bs ih =>
    have hb := h b (by simp)
    simp only [mapCols, List.getElem?_eq_getElem hb, ih (fun x hx => h x (by simp [hx])), Except.map,
      List.map_cons, Option.getD_some]

theorem mapped_rowVal (m : Nat → Nat) (bs : List (Block R)) (r : Int) (f : Nat → R) :
    rowVal (bs.map (fun b => { b with col := m b.col })) r f = rowVal bs r (fun c => f (m c)) := by
  induction bs with
  | nil => rfl
  | cons b bs ih => rw [List.map_cons, rowVal_cons, rowVal_cons, ih]

theorem foldl_max_ge (l : List Nat) : ∀ a : Nat, a ≤ l.foldl (fun m c => max m (c + 1)) a ∧
    ∀ c ∈ l, c < l.foldl (fun m c => max m (c + 1)) a := by
  induction l with
  | nil => intro a; simp
  | cons x l ih =>
    intro a
    simp only [List.foldl_cons, List.mem_cons]
    obtain ⟨h1, h2⟩ := ih (max a (x + 1))
    refine ⟨by omega, ?_⟩
    rintro c (rfl | hc)
    · omega
    · exact h2 c hc

theorem foldl_max_attained (l : List Nat) : ∀ a : Nat,
    l.foldl (fun m c => max m (c + 1)) a = a ∨ ∃ c ∈ l, l.foldl (fun m c => max m (c + 1)) a = c + 1 := by
  induction l with
  | nil => intro a; exact Or.inl rfl
  | cons x l ih =>
    intro a
    simp only [List.foldl_cons, List.mem_cons]
    rcases ih (max a (x + 1)) with h | ⟨c, hc, h⟩
    · rw [h]
      rcases Nat.le_total a (x + 1) with h' | h'
      · exact Or.inr ⟨x, Or.inl rfl, by omega⟩
      · exact Or.inl (by omega)
    · exact Or.inr ⟨c, Or.inr hc, h⟩

theorem maxCols_ok (bs : List (Block R)) (h : bs ≠ []) :
    ∃ n, maxCols bs = .ok n ∧ (∀ b ∈ bs, b.col < n) ∧ ∃ b ∈ bs, n = b.col + 1 := by
  refine ⟨_, by rw [maxCols, if_neg (by simpa using h)], fun b hb => ?_, ?_⟩
  · exact (foldl_max_ge _ 0).2 b.col (List.mem_map_of_mem hb)
  · obtain ⟨b, hb⟩ := List.exists_mem_of_ne_nil bs h
    have := (foldl_max_ge (bs.map (·.col)) 0).2 b.col (List.mem_map_of_mem hb)
    rcases foldl_max_attained (bs.map (·.col)) 0 with h0 | ⟨c, hc, h0⟩
    · omega
    · obtain ⟨b', hb', rfl⟩ := List.mem_map.1 hc
      exact ⟨b', hb', h0⟩

theorem unshare_ok (X : List R) (m : List Nat) (h : ∀ i ∈ m, i < X.length) :
    unshare X m = .ok (m.map (fun i => (X[i]?).getD 0)) := by
  induction m with
  | nil => rfl
  | cons i m ih =>
    simp only [unshare, List.getElem?_eq_getElem (h i (by simp)), ih (fun j hj => h j (by simp [hj])),
      Except.map, List.map_cons, Option.getD_some]

theorem unshare_inv (X : List R) (m : List Nat) (Y : List R) (h : unshare X m = .ok Y) :
    ∀ i ∈ m, i < X.length := by
  induction m generalizing Y with
  | nil => simp
  | cons i m ih =>
    simp only [unshare] at h
    cases hi : X[i]? with
    | none => rw [hi] at h; simp at h
    | some x =>
      rw [hi] at h
      have hlt : i < X.length := by
        by_contra hc
        rw [List.getElem?_eq_none (by omega)] at hi; simp at hi
      cases hu : unshare X m with
      | error e => simp [hu, Except.map] at h
      | ok Z =>
        intro j hj
        rcases List.mem_cons.1 hj with rfl | hj
        · exact hlt
        · exact ih Z hu j hj

theorem unshare_error (X : List R) (m : List Nat) (e : PyErr) (h : unshare X m = .error e) : e = .index := by
  induction m with
  | nil => simp [unshare] at h
  | cons i m ih =>
    simp only [unshare] at h
    cases hi : X[i]? with
    | none => rw [hi] at h; simpa using h.symm
    | some x =>
      rw [hi] at h
      cases hu : unshare X m with
      | error e' => simp only [hu, Except.map, Except.error.injEq] at h; subst h; exact ih hu
      | ok Z => simp [hu, Except.map] at h

/-! ### The core argument -/

/-- If `u` minimises the problem in which column `c` is divided by `sc c` and merged into column
`m c`, then `u (m c) / sc c` minimises the original one among the vectors constant on the merged columns. -/
theorem minimiser_transfer (n N ncols : Nat) (bs bs1 : List (Block R)) (b : Nat → R) (sc : Nat → R)
    (hsc : ∀ c, c < N → sc c ≠ 0) (hcol : ∀ blk ∈ bs, blk.col < N)
    (m : Nat → Nat) (hm : ∀ c, c < N → m c < ncols)
    (hclass : ∀ c c', c < N → c' < N → m c = m c' → sc c = sc c')
    (h1 : ∀ (r : Int) (f : Nat → R), rowVal bs1 r f = rowVal bs r (fun c => f (m c) / sc c))
    (u : List R) (hu : Minimises ncols (fun u => chisqOf n bs1 b (fun c => (u[c]?).getD 0)) u)
    (Y : List R) (hY : ∀ c c', c < N → c' < N → m c = m c' → (Y[c]?).getD 0 = (Y[c']?).getD 0) :
    chisqOf n bs b (fun c => (u[m c]?).getD 0 / sc c) ≤ chisqOf n bs b (fun c => (Y[c]?).getD 0) := by
  classical
  let rep : Nat → Nat := fun q => if h : ∃ c, c < N ∧ m c = q then h.choose else 0
  have hrep : ∀ c, c < N → rep (m c) < N ∧ m (rep (m c)) = m c := by
    intro c hc
    have h : ∃ c', c' < N ∧ m c' = m c := ⟨c, hc, rfl⟩
    simp only [rep, dif_pos h]
    exact h.choose_spec
  let v : List R := (List.range ncols).map (fun q => (Y[rep q]?).getD 0 * sc (rep q))
  have hv := hu.2 v (by simp [v])
  have e : ∀ w : List R, chisqOf n bs1 b (fun c => (w[c]?).getD 0) =
      chisqOf n bs b (fun c => (w[m c]?).getD 0 / sc c) := by
    intro w; simp only [chisqOf, h1]
  simp only [e] at hv
  refine le_of_le_of_eq hv (chisqOf_congr _ _ _ _ _ ?_)
  intro blk hb
  have hc := hcol blk hb
  obtain ⟨r1, r2⟩ := hrep blk.col hc
  simp only [v, List.getElem?_map, List.getElem?_range (hm _ hc), Option.map_some, Option.getD_some]
  rw [hclass _ _ r1 hc r2, hY _ _ r1 hc r2, mul_div_cancel_right₀ _ (hsc _ hc)]

end Verif.Lsq
