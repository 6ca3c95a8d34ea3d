import Verif.Lsq.SmarterLemmas
import Mathlib.Algebra.BigOperators.Intervals

/-!
# Lemmas: SmarterDenseOptimizer, columns and objective
-/

set_option linter.unusedSectionVars false

namespace Verif.Lsq

open Verif Verif.Params Verif.Patches

variable {R : Type} [Field R] [LinearOrder R]

/-! ### Live columns -/

theorem keep_length {α : Type} : ∀ (live : List Bool) (l : List α), l.length = live.length →
    (keep live l).length = live.count true
  | [], l, h => by cases l <;> simp_all [keep]
  | b :: live, [], h => by simp at h
  | true :: live, a :: l, h => by
    simp only [keep, List.length_cons, List.count_cons_self]
    rw [keep_length live l (by simpa using h)]
  | false :: live, a :: l, h => by
    simp only [keep]
    rw [keep_length live l (by simpa using h)]
    simp

theorem keep_getElem? {α : Type} : ∀ (live : List Bool) (l : List α) (k : Nat), live[k]? = some true →
    (keep live l)[colOf live k]? = l[k]? := by
  intro live
  induction live with
  | nil => intro l k h; simp at h
  | cons b live ih =>
    intro l k h
    cases l with
    | nil => simp [keep]
    | cons a l =>
      cases k with
      | zero =>
        simp only [List.getElem?_cons_zero, Option.some.injEq] at h
        subst h
        simp [keep, colOf]
      | succ k =>
        simp only [List.getElem?_cons_succ] at h
        cases b with
        | true => simpa [keep, colOf, List.take_succ_cons] using ih l k h
        | false => simpa [keep, colOf, List.take_succ_cons] using ih l k h

theorem colOf_lt (live : List Bool) (k : Nat) (h : live[k]? = some true) : colOf live k < live.count true := by
  have := keep_getElem? live live k h
  rw [h] at this
  have h2 := (List.getElem?_eq_some_iff.1 this).1
  rwa [keep_length live live rfl] at h2

theorem expand_length : ∀ (live : List Bool) (X : List R), (expand live X).length = live.length
  | [], _ => rfl
  | false :: live, X => by simp [expand, expand_length live X]
  | true :: live, x :: X => by simp [expand, expand_length live X]
  | true :: live, [] => by simp [expand, expand_length live []]

theorem keep_expand : ∀ (live : List Bool) (X : List R), X.length = live.count true →
    keep live (expand live X) = X
  | [], X, h => by cases X <;> simp_all [keep]
  | false :: live, X, h => by
    simp only [expand, keep]
    exact keep_expand live X (by simpa using h)
  | true :: live, x :: X, h => by
    simp only [expand, keep]
    rw [keep_expand live X (by simpa using h)]
  | true :: live, [], h => by simp at h

theorem keep_map {α β : Type} (f : α → β) : ∀ (live : List Bool) (l : List α),
    keep live (l.map f) = (keep live l).map f
  | [], l => by cases l <;> rfl
  | _ :: _, [] => by simp [keep]
  | true :: live, a :: l => by simp [keep, keep_map f live l]
  | false :: live, a :: l => by simp [keep, keep_map f live l]

theorem mem_keep {α : Type} (a : α) : ∀ (live : List Bool) (l : List α), a ∈ keep live l → a ∈ l
  | [], l => by cases l <;> simp [keep]
  | _ :: _, [] => by simp [keep]
  | true :: live, b :: l => by
    intro h
    simp only [keep, List.mem_cons] at h
    rcases h with h | h
    · simp [h]
    · exact List.mem_cons_of_mem _ (mem_keep a live l h)
  | false :: live, b :: l => by
    intro h
    simp only [keep] at h
    exact List.mem_cons_of_mem _ (mem_keep a live l h)

/-- Dropping empty lists does not change the concatenation. -/
theorem keep_flatMap {α β : Type} (f : α → List β) : ∀ (live : List Bool) (l : List α), l.length = live.length →
    (∀ k : Nat, live[k]? = some false → ∀ a, l[k]? = some a → f a = []) →
    (keep live l).flatMap f = l.flatMap f
  | [], l, h, _ => by cases l <;> simp_all [keep]
  | b :: live, [], h, _ => by simp at h
  | b :: live, a :: l, h, hf => by
    have ih := keep_flatMap f live l (by simpa using h) (fun k hk a' ha' => hf (k + 1) (by simpa using hk) a' (by simpa using ha'))
    cases b with
    | true => simp [keep, ih]
    | false =>
      have := hf 0 (by simp) a (by simp)
      simp [keep, ih, this]

/-- Sums over parameters without the terms that vanish. -/
theorem keep_zipWith {α : Type} (g : α → R → R) : ∀ (live : List Bool) (l : List α) (Y : List R), l.length = live.length →
    Y.length = live.length → (∀ k : Nat, live[k]? = some false → ∀ a y, l[k]? = some a → g a y = 0) →
    (List.zipWith g (keep live l) (keep live Y)).sum = (List.zipWith g l Y).sum
  | [], l, Y, h, hY, _ => by cases l <;> simp_all [keep]
  | b :: live, [], _, h, _, _ => by simp at h
  | b :: live, _, [], _, h, _ => by simp at h
  | b :: live, a :: l, y :: Y, h, hY, hf => by
    have ih := keep_zipWith g live l Y (by simpa using h) (by simpa using hY)
      (fun k hk a' y' ha' => hf (k + 1) (by simpa using hk) a' y' (by simpa using ha'))
    cases b with
    | true => simp [keep, ih]
    | false =>
      have := hf 0 (by simp) a y (by simp)
      simp [keep, ih, this]

theorem liveCols_ok (ds : Derivs R) (prior : Option (PriorDerivs R)) (es : List (Entry R))
    (hes : PriorOK ds.length prior es) :
    ∃ live, liveCols ds prior = .ok live ∧ live.length = ds.length ∧
      ∀ k, k < ds.length → (live[k]? = some true ↔ Live ds es k) ∧ (live[k]? = some false ↔ ¬ Live ds es k) := by
  obtain ⟨hrep, -, hcols⟩ := hes
  have hc : priorCols prior = es.map (·.col) := by
    cases prior with
    | none => have : es = [] := hrep; simp [this, priorCols]
    | some d => exact (hrep : Represents d es).cols
  simp only [liveCols, hc]
  rw [if_neg]
  · refine ⟨_, rfl, by simp, fun k hk => ?_⟩
    rw [List.getElem?_map, List.getElem?_range hk, Option.map_some, Option.some.injEq, Option.some.injEq]
    have key : (!((ds[k]?).getD []).isEmpty || (es.map (·.col)).contains k) = true ↔ Live ds es k := by
      simp only [Bool.or_eq_true, Bool.not_eq_true', List.contains_iff_mem, List.mem_map, Live,
        List.getElem?_eq_getElem hk, Option.getD_some, Option.some.injEq, exists_eq_left', ← Bool.not_eq_true,
        List.isEmpty_iff, ne_eq]
    refine ⟨key, ?_⟩
    rw [← key, Bool.not_eq_true]
  · simp only [List.any_eq_true, decide_eq_true_eq, List.mem_map, not_exists, not_and]
    rintro c ⟨e, he, rfl⟩
    have := (hcols e he).1
    omega

theorem priorRows_ok (n : Nat) (prior : Option (PriorDerivs R)) (es : List (Entry R)) (hes : PriorOK n prior es)
    (hne : ∀ d, prior = some d → d.rows ≠ []) : priorRows prior = .ok es.length := by
  obtain ⟨hrep, hrows, -⟩ := hes
  cases prior with
  | none => have : es = [] := hrep; simp [priorRows, this]
  | some d =>
    have hr : Represents d es := hrep
    simp only [priorRows]
    rw [if_neg, rowsEnd_eq d es hr hrows]
    simp only [Bool.or_eq_true, List.isEmpty_iff, List.any_eq_true, not_or, not_exists, not_and]
    refine ⟨hne d rfl, fun r hr' => ?_⟩
    rw [hr.rows] at hr'
    obtain ⟨e, -, rfl⟩ := List.mem_map.1 hr'
    simp

/-- The prior with renumbered columns. -/
def cropPrior (live : List Bool) (prior : Option (PriorDerivs R)) : Option (PriorDerivs R) :=
  prior.map (fun d => { d with cols := d.cols.map (colOf live) })

/-- Its entries. -/
def cropEntry (live : List Bool) (e : Entry R) : Entry R := { e with col := colOf live e.col }

theorem cropPrior_ok (live : List Bool) (n : Nat) (prior : Option (PriorDerivs R)) (es : List (Entry R))
    (hes : PriorOK n prior es) (hl : ∀ e ∈ es, live[e.col]? = some true) :
    PriorOK (live.count true) (cropPrior live prior) (es.map (cropEntry live)) := by
  obtain ⟨hrep, hrows, hcols⟩ := hes
  refine ⟨?_, ?_, ?_⟩
  · cases prior with
    | none => have : es = [] := hrep; simp [this, RepresentsOpt, cropPrior]
    | some d =>
      have hr : Represents d es := hrep
      refine ⟨?_, ?_, ?_, ?_, ?_⟩ <;> simp only [List.map_map]
      · rw [hr.rows]; rfl
      · rw [hr.cols, List.map_map]; rfl
      · rw [hr.vals]; rfl
      · rw [hr.bs]; rfl
      · rw [hr.mus]; rfl
  · rw [List.map_map, List.length_map, ← hrows]; rfl
  · intro e he
    obtain ⟨e', he', rfl⟩ := List.mem_map.1 he
    exact ⟨colOf_lt _ _ (hl e' he'), (hcols e' he').2⟩

theorem linearChi_entries (n : Nat) (prior : Option (PriorDerivs R)) (es : List (Entry R)) (hes : PriorOK n prior es)
    (X : List R) :
    linearChi prior X = ∑ k ∈ Finset.range es.length,
      (((es.filter (fun e => e.row = k)).map (·.b)).sum -
      ((es.filter (fun e => e.row = k)).map (fun e => e.val * (X[e.col]?).getD 0)).sum) ^ 2 := by
  obtain ⟨hrep, -, -⟩ := hes
  cases prior with
  | none =>
    have : es = [] := hrep
    subst this
    simp [linearChi]
  | some d =>
    have hr : Represents d es := hrep
    have hlen : d.rows.length = es.length := by rw [hr.rows, List.length_map]
    simp only [linearChi, normSq, hlen]
    rw [sum_list_range]
    apply Finset.sum_congr rfl
    intro k _
    rw [residual_eq d es hr]

theorem linearChi_crop (live : List Bool) (n : Nat) (prior : Option (PriorDerivs R)) (es : List (Entry R))
    (hes : PriorOK n prior es) (hl : ∀ e ∈ es, live[e.col]? = some true) (Y : List R) :
    linearChi (cropPrior live prior) (keep live Y) = linearChi prior Y := by
  rw [linearChi_entries n prior es hes, linearChi_entries _ _ _ (cropPrior_ok live n prior es hes hl), List.length_map]
  apply Finset.sum_congr rfl
  intro k _
  have hf : (es.map (cropEntry live)).filter (fun e => decide (e.row = k)) =
      (es.filter (fun e => decide (e.row = k))).map (cropEntry live) := by
    rw [List.filter_map]; rfl
  rw [hf, List.map_map, List.map_map]
  congr 2
  apply congrArg
  apply List.map_congr_left
  intro e he
  have := hl e (List.mem_of_mem_filter he)
  simp only [Function.comp, cropEntry, keep_getElem? live Y e.col this]

/-! ### Pixel sums -/

theorem sum_box1 (n a b : Nat) (hb : b ≤ n) (f : Nat → R) :
    ∑ x ∈ Finset.range n, (if a ≤ x ∧ x < b then f x else 0) = ∑ k ∈ Finset.range (b - a), f (a + k) := by
  rw [← Finset.sum_filter, ← Finset.sum_Ico_eq_sum_range]
  apply Finset.sum_congr _ (fun _ _ => rfl)
  ext x
  simp only [Finset.mem_filter, Finset.mem_range, Finset.mem_Ico]
  omega

theorem sum_box2 (h w x0 x1 y0 y1 : Nat) (hx : x1 ≤ w) (hy : y1 ≤ h) (f : Nat → Nat → R) :
    ∑ y ∈ Finset.range h, ∑ x ∈ Finset.range w, (if (x0 ≤ x ∧ x < x1) ∧ (y0 ≤ y ∧ y < y1) then f y x else 0) =
      ∑ y ∈ Finset.range (y1 - y0), ∑ x ∈ Finset.range (x1 - x0), f (y0 + y) (x0 + x) := by
  rw [← sum_box1 h y0 y1 hy (fun y => ∑ x ∈ Finset.range (x1 - x0), f y (x0 + x))]
  apply Finset.sum_congr rfl
  intro y _
  by_cases h1 : y0 ≤ y ∧ y < y1
  · rw [if_pos h1, ← sum_box1 w x0 x1 hx]
    apply Finset.sum_congr rfl
    intro x _
    simp only [h1, and_self, and_true]
  · rw [if_neg h1]
    apply Finset.sum_eq_zero
    intro x _
    rw [if_neg (by tauto)]

end Verif.Lsq
