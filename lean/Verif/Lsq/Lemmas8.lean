import Verif.Lsq.Lemmas7

/-!
# Lemmas: explicit layout of the sparse matrix
-/

set_option linter.unusedSectionVars false

namespace Verif.Lsq

open Verif Verif.Params Verif.Patches

variable {R : Type} [Field R] [LinearOrder R]

theorem rowVal_unit (bs : List (Block R)) (r : Int) (c : Nat) :
    rowVal bs r (fun k => if k = c then 1 else 0) =
      (((cellsOf bs).filter (fun t => t.1 = r ∧ t.2.1 = c)).map (fun t => t.2.2)).sum := by
  have : rowVal bs r (fun k => if k = c then 1 else 0) =
    (((cellsOf bs).filter (fun t => t.1 = r)).map (fun t => t.2.2 * (if t.2.1 = c then 1 else 0))).sum := rfl
  rw [this]
  generalize cellsOf bs = l
  induction l with
  | nil => rfl
  | cons t l ih =>
    by_cases h : t.1 = r
    · rw [List.filter_cons_of_pos (by simpa using h), List.map_cons, List.sum_cons, ih]
      by_cases hc : t.2.1 = c
      · rw [List.filter_cons_of_pos (by simp [h, hc])]; simp [hc]
      · rw [List.filter_cons_of_neg (by simp [hc])]; simp [hc]
    · rw [List.filter_cons_of_neg (by simpa using h), ih, List.filter_cons_of_neg (by simp [h])]

theorem assemble_layout (imgs : Nat → Img R) (ds : Derivs R) (prior : Option (PriorDerivs R))
    (hI : ImagesOK imgs ds) (es : List (Entry R)) (hes : PriorOK ds.length prior es) :
    ∃ bs offs n pb b, assemble imgs ds prior = .ok (bs, offs, n, es.length, pb) ∧
      rhsVector imgs offs n es.length pb = .ok b ∧
      (∀ blk ∈ bs, blk.col < ds.length ∧ GoodBlock (n + es.length) blk) ∧
      Layout (fun i => (imgs i).npix) offs n ∧ (∀ i, i ∈ offs.map (·.1) ↔ i ∈ usedImages ds) ∧
      (∀ e ∈ offs, ∀ y x : Nat, y < (imgs e.1).h → x < (imgs e.1).w →
        b (e.2 + (y * (imgs e.1).w + x)) = (imgs e.1).chi.px y x ∧
        ∀ f : Nat → R, rowVal bs (e.2 + (y * (imgs e.1).w + x) : Nat) f =
          ∑ c ∈ Finset.range ds.length, slope imgs ((ds[c]?).getD []) e.1 y x * f c) ∧
      (∀ e ∈ es, b (n + e.row) = e.b ∧ ∀ f : Nat → R, rowVal bs (n + e.row : Nat) f = e.val * f e.col) := by
  obtain ⟨hrep, hrows, hcols⟩ := hes
  obtain ⟨hl, hm⟩ := imgOffsets_ok (fun i => (imgs i).npix) ds
  set o := imgOffsets (fun i => (imgs i).npix) ds with ho
  have him : ∀ param ∈ ds, ∀ e ∈ param, e.2 ∈ o.1.map (·.1) ∧ (imgs e.2).inverr.h = (imgs e.2).h ∧
      (imgs e.2).inverr.w = (imgs e.2).w ∧ (imgs e.2).w * (imgs e.2).h < 2 ^ 31 := by
    intro param hp e he
    have hu : e.2 ∈ usedImages ds := by
      simp only [usedImages, List.mem_toFinset, List.mem_flatMap, List.mem_map]
      exact ⟨param, hp, e, he, rfl⟩
    obtain ⟨h1, h2, -, -, h5⟩ := hI e.2 hu
    exact ⟨(hm e.2).2 hu, h1, h2, h5⟩
  obtain ⟨bs, hbs, hgood, hrow, hdot⟩ := allBlocks_ok imgs o.1 o.2 hl ds 0 him
  obtain ⟨bs', offs', n', pb, b, hasm, hrhs, hg', -, -⟩ :=
    assemble_ok imgs ds prior hI es hrep hrows hcols
  have hsh : bs' = bs ++ es.map (entryBlock o.2) ∧ offs' = o.1 ∧ n' = o.2 ∧ pb = es.map (·.b) := by
    cases prior with
    | none =>
      have : es = [] := hrep
      subst this
      simp only [assemble, ← ho, hbs, Except.ok.injEq, Prod.mk.injEq] at hasm
      obtain ⟨h1, h2, h3, -, h4⟩ := hasm
      simp [h1, h2, h3, h4.symm]
    | some d =>
      have hr : Represents d es := hrep
      simp only [assemble, ← ho, hbs, priorBlocks_eq _ d es hr, Except.ok.injEq, Prod.mk.injEq] at hasm
      obtain ⟨h1, h2, h3, -, h4⟩ := hasm
      have : d.bs.flatten = es.map (·.b) := by
        rw [hr.bs]; clear hr hrows hcols hrep h1 hrhs hg'
        induction es with
        | nil => rfl
        | cons e es ih => simp [ih]
      exact ⟨h1.symm, h2.symm, h3.symm, by rw [← h4, this]⟩
  obtain ⟨rfl, rfl, rfl, hpb⟩ := hsh
  have hbdef : b = fillChi imgs o.1 (fun r => if r < o.2 then 0 else (pb[r - o.2]?).getD 0) := by
    simp only [rhsVector] at hrhs
    rw [if_pos (by simp [hpb])] at hrhs
    exact (Except.ok.inj hrhs).symm
  refine ⟨_, _, _, pb, b, hasm, hrhs, fun blk hb => ⟨(hg' blk hb).1, (hg' blk hb).2.1⟩, hl, hm, ?_, ?_⟩
  · intro e he y x hy hx
    have hu : e.1 ∈ usedImages ds := (hm e.1).1 (List.mem_map_of_mem he)
    obtain ⟨-, -, hch, hcw, -⟩ := hI e.1 hu
    refine ⟨?_, fun f => ?_⟩
    · rw [hbdef, fillChi_in imgs o.1 hl.disjoint hl.nodup e he _ (npix_lt hy hx)]
      have := ravel_getElem? (imgs e.1).chi y x (by omega) (by omega)
      rw [hcw] at this
      rw [this, Option.getD_some]
    · have hlt : e.2 + (y * (imgs e.1).w + x) < o.2 := by
        have h1 := hl.le e he
        have h2 := npix_lt hy hx
        omega
      have hent : rowVal (es.map (entryBlock o.2)) (e.2 + (y * (imgs e.1).w + x) : Nat) f = 0 := by
        have := rowVal_entries o.2 es (((e.2 + (y * (imgs e.1).w + x) : Nat) : Int) - o.2) f
        rw [show ((e.2 + (y * (imgs e.1).w + x) : Nat) : Int) - o.2 + o.2 =
          ((e.2 + (y * (imgs e.1).w + x) : Nat) : Int) by omega] at this
        rw [this]
        have : es.filter (fun e' => (e'.row : Int) = ((e.2 + (y * (imgs e.1).w + x) : Nat) : Int) - o.2) = [] := by
          rw [List.filter_eq_nil_iff]; intro e _; simp only [decide_eq_true_eq]; omega
        rw [this]; rfl
      rw [rowVal_append, hent, add_zero]
      have := hrow e he y x hy hx f
      rw [changeFrom_sum] at this
      push_cast at this ⊢
      rw [this]
      simp
  · intro e he
    have hr : e.row < es.length := by
      have : e.row ∈ es.map (·.row) := List.mem_map_of_mem he
      rw [hrows] at this
      exact List.mem_range.1 this
    have hnd : (es.map (·.row)).Nodup := hrows ▸ List.nodup_range
    have hget : es[e.row] = e := by
      have hmem : es[e.row] ∈ es.filter (fun e' => e'.row = e.row) := by
        rw [filter_row hrows e.row hr]; simp
      exact List.inj_on_of_nodup_map hnd (List.getElem_mem hr) he (by simpa using (List.mem_filter.1 hmem).2)
    refine ⟨?_, fun f => ?_⟩
    · rw [hbdef, fillChi_out]
      · rw [if_neg (by omega), Nat.add_sub_cancel_left, hpb, List.getElem?_map, List.getElem?_eq_getElem hr, hget]
        rfl
      · intro e' he' hh
        have := hl.le e' he'
        omega
    · rw [rowVal_append, rowVal_out o.2 bs (fun b hb => (hgood b hb).2.2.1) _ (by push_cast; omega), zero_add]
      have := rowVal_entries o.2 es (e.row : Int) f
      rw [show ((o.2 + e.row : Nat) : Int) = (e.row : Int) + o.2 by push_cast; omega, this]
      simp only [Nat.cast_inj]
      rw [filter_row hrows e.row hr, hget]
      simp

end Verif.Lsq
