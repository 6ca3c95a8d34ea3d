import Verif.Lsq.Lemmas4
import Mathlib.Tactic.FieldSimp
import Mathlib.Algebra.Order.BigOperators.Group.List
import Mathlib.Algebra.Order.BigOperators.Ring.Finset

/-!
# Lemmas: what `getUpdateDirection` returns
-/

set_option linter.unusedSectionVars false

namespace Verif.Lsq

open Verif Verif.Params Verif.Patches

variable {R : Type} [Field R] [LinearOrder R] [IsStrictOrderedRing R]

theorem dot_pos (n : Nat) (b : Block R) (h : GoodBlock n b) : 0 < b.dot := by
  have hne := h.ne
  have hnz := h.nz
  simp only [Block.dot]
  cases hv : b.vals with
  | nil => exact absurd hv hne
  | cons v vs =>
    rw [hv] at hnz
    rw [List.map_cons, List.sum_cons]
    have h1 : 0 < v * v := by
      have : v ≠ 0 := hnz v (by simp)
      exact mul_self_pos.2 this
    have h2 : 0 ≤ (vs.map (fun v => v * v)).sum := by
      apply List.sum_nonneg
      intro x hx
      simp only [List.mem_map] at hx
      obtain ⟨y, _, rfl⟩ := hx
      exact mul_self_nonneg y
    linarith

theorem norm_pos (n : Nat) (bs : List (Block R)) (h : ∀ b ∈ bs, GoodBlock n b) (b : Block R) (hb : b ∈ bs) :
    0 < ((bs.filter (fun x => x.col = b.col)).map Block.dot).sum := by
  have hmem : b.dot ∈ (bs.filter (fun x => x.col = b.col)).map Block.dot :=
    List.mem_map_of_mem (List.mem_filter.2 ⟨hb, by simp⟩)
  have hnn : ∀ x ∈ (bs.filter (fun x => x.col = b.col)).map Block.dot, 0 ≤ x := by
    intro x hx
    simp only [List.mem_map, List.mem_filter] at hx
    obtain ⟨c, ⟨hc, -⟩, rfl⟩ := hx
    exact le_of_lt (dot_pos n c (h c hc))
  exact lt_of_lt_of_le (dot_pos n b (h b hb)) (List.single_le_sum hnn _ hmem)

/-- Column that column `c` is merged into. -/
def mergeInto : Option (List Nat) → Nat → Nat
  | none, c => c
  | some m, c => (m[c]?).getD 0

theorem direction_ok (sqrt : R → R) (hsq : SqrtOK sqrt) (tiny : R) (lsqr : Problem R → List R)
    (hlsqr : Solves lsqr) (imgs : Nat → Img R) (ds : Derivs R) (hI : ImagesOK imgs ds)
    (prior : Option (PriorDerivs R)) (es : List (Entry R)) (hes : PriorOK ds.length prior es)
    (scale : Bool) (ht : scale = true → NoTiny sqrt tiny imgs ds es)
    (shared : Option (List Nat)) (hlen : ∀ m, shared = some m → m.length = ds.length)
    (hnorm : scale = true → ∀ c c', c < ds.length → c' < ds.length →
      mergeInto shared c = mergeInto shared c' → columnNorm imgs ds es c = columnNorm imgs ds es c') :
    (getUpdateDirection sqrt tiny lsqr imgs ds prior scale shared = .ok none ∧
      (∀ X Y : List R, X.length = ds.length → Y.length = ds.length →
        linearised imgs ds prior X = linearised imgs ds prior Y) ∧
      ∀ c, c < ds.length → columnNorm imgs ds es c = 0) ∨
    (getUpdateDirection sqrt tiny lsqr imgs ds prior scale shared = .error .index ∧ shared ≠ none ∧
      ∃ c, c < ds.length ∧ ∀ c', c' < ds.length → columnNorm imgs ds es c' ≠ 0 →
        mergeInto shared c' < mergeInto shared c) ∨
    ∃ X, getUpdateDirection sqrt tiny lsqr imgs ds prior scale shared = .ok (some X) ∧
      (shared ≠ none → ∀ c, c < ds.length → ∃ c', c' < ds.length ∧ columnNorm imgs ds es c' ≠ 0 ∧
        mergeInto shared c ≤ mergeInto shared c') ∧
      X.length = ds.length ∧
      (∀ c c', c < ds.length → c' < ds.length → mergeInto shared c = mergeInto shared c' →
        X[c]? = X[c']?) ∧
      ∀ Y : List R, Y.length = ds.length →
        (∀ c c', c < ds.length → c' < ds.length → mergeInto shared c = mergeInto shared c' →
          Y[c]? = Y[c']?) →
        linearised imgs ds prior X ≤ linearised imgs ds prior Y := by
  obtain ⟨hrep, hrows, hcols⟩ := hes
  obtain ⟨bs, offs, n, pb, b, hasm, hrhs, hgood, hobj, hcn⟩ :=
    assemble_ok imgs ds prior hI es hrep hrows hcols
  have hgb : ∀ blk ∈ bs, GoodBlock (n + es.length) blk := fun blk h => (hgood blk h).2.1
  have hbc : ∀ blk ∈ bs, blk.col < ds.length := fun blk h => (hgood blk h).1
  have hany : ¬ (scale = true ∧ bs.any (fun b => ds.length ≤ b.col) = true) := by
    rintro ⟨-, h⟩
    obtain ⟨blk, hb, h⟩ := List.any_eq_true.1 h
    have := hbc blk hb
    simp only [decide_eq_true_eq] at h
    omega
  simp only [getUpdateDirection, hasm, if_neg hany, hrhs]
  by_cases hE : bs = []
  · left
    refine ⟨by simp [hE], ?_, ?_⟩
    · intro X Y hX hY
      rw [← hobj X hX (fun k => (X[k]?).getD 0) (fun _ _ => rfl),
        ← hobj Y hY (fun k => (Y[k]?).getD 0) (fun _ _ => rfl)]
      exact chisqOf_congr _ _ _ _ _ (by simp [hE])
    · intro c hc
      rw [← hcn c hc, hE]; rfl
  right
  have hEb : ¬ bs.isEmpty = true := by simpa using hE
  rw [if_neg hEb]
  set scales := (colNorms ds.length bs).map sqrt with hscales
  have hsl : ∀ c, c < ds.length → scales[c]? = some (sqrt (columnNorm imgs ds es c)) := by
    intro c hc
    rw [hscales, colNorms, List.map_map, List.getElem?_map, List.getElem?_range hc]
    simp only [Option.map_some, Function.comp, hcn c hc]
  have hpos : ∀ blk ∈ bs, 0 < columnNorm imgs ds es blk.col := by
    intro blk hb
    rw [← hcn _ (hbc blk hb)]
    exact norm_pos _ bs hgb blk hb
  let sc : Nat → R := fun c =>
    if scale = true ∧ 0 < sqrt (columnNorm imgs ds es c) then sqrt (columnNorm imgs ds es c) else 1
  have hsc0 : ∀ c, sc c ≠ 0 := by
    intro c
    simp only [sc]
    split
    · rename_i h; exact ne_of_gt h.2
    · exact one_ne_zero
  -- the scaled blocks
  let bs1 : List (Block R) := if scale = true then scaleBlocks tiny scales bs else bs
  have hb1 : (if scale = true then scaleBlocks tiny scales bs else bs) = bs1 := rfl
  rw [hb1]
  have hbs1 : bs1 = bs.map (fun b => ⟨b.rows, b.col, b.vals.map (fun v => v / sc b.col)⟩) := by
    cases scale with
    | false =>
      simp only [bs1, sc, Bool.false_eq_true, if_false, false_and, div_one, List.map_id']
    | true =>
      simp only [bs1, if_true]
      have e : ∀ blk ∈ bs, (scales[blk.col]?).getD 0 = sc blk.col := by
        intro blk hb
        rw [hsl _ (hbc blk hb), Option.getD_some]
        simp only [sc, true_and]
        rw [if_pos (hsq _ (hpos blk hb))]
      rw [scaleBlocks_ok tiny scales (n + es.length) bs hgb]
      · apply List.map_congr_left
        intro blk hb
        rw [e blk hb]
      · intro blk hb; rw [e blk hb]; exact hsc0 _
      · intro blk hb v hv
        have := ht rfl blk.col v ((hgood blk hb).2.2 v hv)
        rw [hsl _ (hbc blk hb), Option.getD_some]
        exact this
  have hrow1 : ∀ (r : Int) (f : Nat → R), rowVal bs1 r f = rowVal bs r (fun c => f c / sc c) := by
    intro r f; rw [hbs1, scaled_rowVal]
  have hgood1 : ∀ blk ∈ bs1, blk.col < ds.length ∧ GoodBlock (n + es.length) blk := by
    intro blk hb
    rw [hbs1] at hb
    obtain ⟨blk', hb', rfl⟩ := List.mem_map.1 hb
    have hg := hgb blk' hb'
    refine ⟨hbc blk' hb', by simpa using hg.len, by simpa using hg.ne, ?_, hg.rng⟩
    intro v hv
    obtain ⟨v', hv', rfl⟩ := List.mem_map.1 hv
    exact div_ne_zero (hg.nz v' hv') (hsc0 _)
  have hne1 : bs1 ≠ [] := by rw [hbs1]; simpa using hE
  -- finishing: from a minimiser of the merged problem
  have finish : ∀ (bs2 : List (Block R)) (ncols : Nat) (X' : List R),
      (∀ (r : Int) (f : Nat → R), rowVal bs2 r f = rowVal bs1 r (fun c => f (mergeInto shared c))) →
      (∀ blk ∈ bs2, blk.col < ncols ∧ GoodBlock (n + es.length) blk) →
      (∀ c, c < ds.length → mergeInto shared c < ncols) → X'.length = ds.length →
      (∀ c, c < ds.length → X'[c]? = some (((lsqr ⟨n + es.length, ncols, cellsOf bs2, b⟩)[mergeInto shared c]?).getD 0)) →
      (if scale = true then unscale scales X' else X').length = ds.length ∧
      (∀ c c', c < ds.length → c' < ds.length → mergeInto shared c = mergeInto shared c' →
        (if scale = true then unscale scales X' else X')[c]? = (if scale = true then unscale scales X' else X')[c']?) ∧
      ∀ Y : List R, Y.length = ds.length →
        (∀ c c', c < ds.length → c' < ds.length → mergeInto shared c = mergeInto shared c' →
          Y[c]? = Y[c']?) →
        linearised imgs ds prior (if scale = true then unscale scales X' else X') ≤
          linearised imgs ds prior Y := by
    intro bs2 ncols X' hr2 hg2 hm2 hX' hXc
    set u := lsqr ⟨n + es.length, ncols, cellsOf bs2, b⟩ with hu
    set X := if scale = true then unscale scales X' else X' with hX
    have hclass : ∀ c c', c < ds.length → c' < ds.length → mergeInto shared c = mergeInto shared c' →
        sc c = sc c' := by
      intro c c' hc hc' hcc
      cases scale with
      | false => simp [sc]
      | true => simp only [sc, hnorm rfl c c' hc hc' hcc]
    have hXl : X.length = ds.length := by
      rw [hX]
      cases scale with
      | false => simpa using hX'
      | true =>
        simp only [if_true, unscale, List.length_zipWith, hX']
        have : scales.length = ds.length := by simp [hscales, colNorms]
        omega
    have hXv : ∀ c, c < ds.length → X[c]? = some ((u[mergeInto shared c]?).getD 0 / sc c) := by
      intro c hc
      rw [hX]
      cases scale with
      | false => simp only [Bool.false_eq_true, if_false, hXc c hc, sc, false_and, div_one]
      | true =>
        simp only [if_true, unscale, List.getElem?_zipWith, hXc c hc, hsl c hc]
        simp only [sc, true_and]
        split <;> simp
    refine ⟨hXl, ?_, ?_⟩
    · intro c c' hc hc' hcc
      rw [hXv c hc, hXv c' hc', hcc, hclass c c' hc hc' hcc]
    · intro Y hY hYc
      have hmin := hlsqr ⟨n + es.length, ncols, cellsOf bs2, b⟩
      rw [← hu] at hmin
      have htr := minimiser_transfer (n + es.length) ds.length ncols bs bs2 b sc (fun c _ => hsc0 c) hbc
        (mergeInto shared) hm2 hclass (by intro r f; rw [hr2, hrow1]) u hmin Y
        (fun c c' hc hc' hcc => by rw [hYc c c' hc hc' hcc])
      rw [← hobj X hXl (fun c => (u[mergeInto shared c]?).getD 0 / sc c)
        (fun k hk => by rw [hXv k hk, Option.getD_some]),
        ← hobj Y hY (fun k => (Y[k]?).getD 0) (fun _ _ => rfl)]
      exact htr
  cases shared with
  | none =>
    right
    have hmk := mkProblem_ok (n + es.length) ds.length bs1 b hgood1
    have hl := (hlsqr ⟨n + es.length, ds.length, cellsOf bs1, b⟩).1
    simp only at hl
    simp only [applyMap, if_neg (show ¬ bs1.isEmpty = true by simpa using hne1), hmk, unshareOpt]
    refine ⟨_, rfl, by simp, ?_⟩
    apply finish bs1 ds.length _ (fun r f => rfl) hgood1 (fun c hc => hc) hl
    intro c hc
    simp only [mergeInto]
    rw [List.getElem?_eq_getElem (by omega), Option.getD_some]
  | some m =>
    have hml := hlen m rfl
    have hmc := mapCols_ok m bs1 (fun blk hb => by rw [hml]; exact (hgood1 blk hb).1)
    set bs2 := bs1.map (fun b => { b with col := (m[b.col]?).getD 0 }) with hbs2
    have hne2 : bs2 ≠ [] := by rw [hbs2]; simpa using hne1
    obtain ⟨ncols, hnc, hcl, hatt⟩ := maxCols_ok bs2 hne2
    have hg2 : ∀ blk ∈ bs2, blk.col < ncols ∧ GoodBlock (n + es.length) blk := by
      intro blk hb
      refine ⟨hcl blk hb, ?_⟩
      rw [hbs2] at hb
      obtain ⟨blk', hb', rfl⟩ := List.mem_map.1 hb
      have := (hgood1 blk' hb').2
      exact ⟨this.len, this.ne, this.nz, this.rng⟩
    have hmk := mkProblem_ok (n + es.length) ncols bs2 b hg2
    have hl := (hlsqr ⟨n + es.length, ncols, cellsOf bs2, b⟩).1
    simp only at hl
    simp only [applyMap, hmc, hnc, Except.map, if_neg (show ¬ bs2.isEmpty = true by simpa using hne2), hmk,
      unshareOpt]
    by_cases hmx : ∀ i ∈ m, i < ncols
    · right
      rw [unshare_ok _ m (by rw [hl]; exact hmx)]
      refine ⟨_, rfl, ?_, ?_⟩
      · intro _ c hc
        obtain ⟨blk, hb, hbn⟩ := hatt
        rw [hbs2, hbs1, List.map_map] at hb
        obtain ⟨blk', hb', rfl⟩ := List.mem_map.1 hb
        refine ⟨blk'.col, hbc blk' hb', ne_of_gt (hpos blk' hb'), ?_⟩
        have hlt : mergeInto (some m) c < ncols := by
          simp only [mergeInto]
          rw [List.getElem?_eq_getElem (by omega), Option.getD_some]
          exact hmx _ (List.getElem_mem _)
        simp only [Function.comp] at hbn
        simp only [mergeInto] at hlt ⊢
        omega
      apply finish bs2 ncols
      · intro r f; rw [hbs2, mapped_rowVal (fun c => (m[c]?).getD 0)]; rfl
      · exact hg2
      · intro c hc
        simp only [mergeInto]
        rw [List.getElem?_eq_getElem (by omega), Option.getD_some]
        exact hmx _ (List.getElem_mem _)
      · simpa using hml
      · intro c hc
        rw [List.getElem?_map, List.getElem?_eq_getElem (by omega)]
        simp only [Option.map_some, mergeInto, List.getElem?_eq_getElem (show c < m.length by omega),
          Option.getD_some]
    · left
      have herr : unshare (lsqr ⟨n + es.length, ncols, cellsOf bs2, b⟩) m = .error .index := by
        cases hu : unshare (lsqr ⟨n + es.length, ncols, cellsOf bs2, b⟩) m with
        | ok Y => exact absurd (by have := unshare_inv _ m Y hu; rwa [hl] at this) hmx
        | error e =>
          rw [unshare_error _ m e hu]
      rw [herr]
      refine ⟨rfl, by simp, ?_⟩
      push Not at hmx
      obtain ⟨i, him, hi⟩ := hmx
      obtain ⟨c, hc, rfl⟩ := List.getElem_of_mem him
      refine ⟨c, by omega, ?_⟩
      intro c' hc' hn
      have hblk : ∃ blk ∈ bs, blk.col = c' := by
        by_contra hno
        push Not at hno
        apply hn
        rw [← hcn c' hc']
        have : bs.filter (fun b => b.col = c') = [] := by
          rw [List.filter_eq_nil_iff]; intro x hx; simpa using hno x hx
        rw [this]; rfl
      obtain ⟨blk, hb, rfl⟩ := hblk
      have hmem : (⟨blk.rows, (m[blk.col]?).getD 0, blk.vals.map (fun v => v / sc blk.col)⟩ : Block R) ∈ bs2 := by
        rw [hbs2, hbs1, List.map_map]
        exact List.mem_map.2 ⟨blk, hb, rfl⟩
      have := hcl _ hmem
      simp only [mergeInto]
      rw [List.getElem?_eq_getElem hc, Option.getD_some]
      exact lt_of_lt_of_le this hi

end Verif.Lsq
