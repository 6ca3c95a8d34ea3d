import Verif.Lsq.SmarterLemmas3
import Mathlib.Tactic.Ring
import Mathlib.Tactic.FieldSimp
import Mathlib.Tactic.LinearCombination

/-!
# Lemmas: SmarterDenseOptimizer, direction and inverse covariance
-/

set_option linter.unusedSectionVars false

namespace Verif.Lsq

open Verif Verif.Params Verif.Patches

variable {R : Type} [Field R] [LinearOrder R] [IsStrictOrderedRing R]

theorem expand_dead : ∀ (live : List Bool) (X : List R) (k : Nat), live[k]? = some false →
    (expand live X)[k]? = some 0
  | [], _, k, h => by simp at h
  | false :: live, X, 0, _ => by simp [expand]
  | false :: live, X, k + 1, h => by simpa [expand] using expand_dead live X k (by simpa using h)
  | true :: live, x :: X, 0, h => by simp at h
  | true :: live, x :: X, k + 1, h => by simpa [expand] using expand_dead live X k (by simpa using h)
  | true :: live, [], 0, h => by simp at h
  | true :: live, [], k + 1, h => by simpa [expand] using expand_dead live [] k (by simpa using h)

theorem smartScaled_eq (sqrt : R → R) (hsq : SqrtPos sqrt) (norms : List R) (A : Dense R) :
    smartScaled sqrt norms A = scaleDense sqrt norms A := by
  funext r c
  simp only [smartScaled, scaleDense]
  cases norms[c]? with
  | none => rfl
  | some s => simp only [hsq s]

theorem smartScales_eq (sqrt : R → R) (hsq : SqrtPos sqrt) (hs1 : sqrt 1 = 1) (norms : List R) :
    smartScales sqrt norms = norms.map (fun s => if 0 < s then sqrt s else sqrt 1) := by
  simp only [smartScales, hs1]
  apply List.map_congr_left
  intro s _
  simp only [hsq s]

theorem smart_direction_ok (sqrt : R → R) (hsq : SqrtPos sqrt) (hs1 : sqrt 1 = 1)
    (lstsq : Nat → Nat → Dense R → (Nat → R) → List R) (hls : DenseSolves lstsq)
    (imgs : Nat → Img R) (ds : Derivs R) (box : Nat → Box)
    (hbox : OneBox imgs ds box) (hI : ImagesOK imgs ds) (hd : DistinctImages ds) (prior : Option (PriorDerivs R))
    (es : List (Entry R)) (hes : PriorOK ds.length prior es) (hne : ∀ d, prior = some d → d.rows ≠ []) (scale : Bool) :
    (smartUpdateDirection sqrt lstsq imgs ds prior scale = .ok none ∧
      ∀ X : List R, X.length = ds.length → linearised imgs ds prior X = 0) ∨
    ∃ X, smartUpdateDirection sqrt lstsq imgs ds prior scale = .ok (some X) ∧
      Minimises ds.length (linearised imgs ds prior) X ∧
      ∀ k, k < ds.length → ¬ Live ds es k → X[k]? = some 0 := by
  obtain ⟨live, n, A, B, norms, hlen, hlv, hnl, hdp, hsp, hemp, hobj⟩ :=
    smartProblem_ok sqrt imgs ds box hbox hI hd prior es hes hne
  have hdead : ∀ k : Nat, live[k]? = some false → ds[k]? = some [] := by
    intro k hk
    have hlt : k < ds.length := by rw [← hlen]; exact (List.getElem?_eq_some_iff.1 hk).1
    have hn := (hlv k hlt).2.1 hk
    rw [List.getElem?_eq_getElem hlt]
    by_contra hh
    exact hn (Or.inl ⟨ds[k], List.getElem?_eq_getElem hlt, fun h0 => hh (by rw [h0])⟩)
  have hle : ∀ e ∈ es, live[e.col]? = some true := fun e he =>
    (hlv e.col ((hes.2.2 e he).1)).1.2 (Or.inr ⟨e, he, rfl⟩)
  have hcount : (cropDs imgs live ds).length = live.count true := by
    rw [cropDs, keep_length _ _ (by simp [hlen])]
  have hlin := fun Y hY => linearised_crop imgs ds box hbox hI prior es hes live hlen hdead hle Y hY
  have hdir := dense_direction_ok sqrt (fun x hx => (hsq x).2 hx) hs1 lstsq hls (cropImg imgs box)
    (cropDs imgs live ds) (crop_imagesOK imgs ds box hbox hI live hlen hdead) (crop_distinct imgs ds hd live)
    (cropPrior live prior) (es.map (cropEntry live)) (by rw [hcount]; exact cropPrior_ok live _ prior es hes hle) scale
  simp only [denseUpdateDirection, hdp, hcount] at hdir
  simp only [smartUpdateDirection, hsp]
  by_cases hn : n = 0
  · left
    rw [if_pos hn]
    refine ⟨rfl, fun X hX => ?_⟩
    rw [hlin X hX, boxRest, (hemp hn).1, Finset.sum_empty, add_zero,
      ← hobj _ (keep_length live X (by rw [hX, hlen])), denseChisq, hn, Finset.sum_range_zero]
  · right
    rw [if_neg hn] at hdir
    rw [if_neg hn]
    rcases hdir with ⟨h, -⟩ | ⟨X, hX, hmin⟩
    · simp at h
    · simp only [Except.ok.injEq, Option.some.injEq] at hX
      simp only [smartScaled_eq sqrt hsq, smartScales_eq sqrt hsq hs1, hX]
      refine ⟨_, rfl, ⟨by rw [expand_length, hlen], fun Y hY => ?_⟩, ?_⟩
      · rw [hlin _ (by rw [expand_length, hlen]), hlin Y hY, keep_expand live X hmin.1]
        exact add_le_add_left (hmin.2 _ (keep_length live Y (by rw [hY, hlen]))) _
      · intro k hk hnl'
        have hf := (hlv k hk).2.2 hnl'
        exact expand_dead live X k hf

/-! ### Inverse covariance -/

/-- The unit vector. -/
def unit (n k : Nat) : List R := (List.replicate n 0).set k 1

omit [LinearOrder R] [IsStrictOrderedRing R] in
theorem unit_get (n k c : Nat) (hk : k < n) : ((unit n k : List R)[c]?).getD 0 = if c = k then 1 else 0 := by
  by_cases h : c = k
  · subst h
    rw [if_pos rfl, unit, List.getElem?_set_self (by simpa using hk), Option.getD_some]
  · rw [if_neg h, unit, List.getElem?_set_ne (fun h' => h h'.symm)]
    by_cases hc : c < n
    · rw [List.getElem?_replicate, if_pos hc, Option.getD_some]
    · rw [List.getElem?_replicate, if_neg hc, Option.getD_none]

theorem keep_replicate {α : Type} (a : α) : ∀ live : List Bool,
    keep live (List.replicate live.length a) = List.replicate (live.count true) a
  | [] => rfl
  | true :: live => by
    simp [List.replicate_succ, keep, keep_replicate a live]
  | false :: live => by
    simp [List.replicate_succ, keep, keep_replicate a live]

theorem keep_set {α : Type} (a : α) : ∀ (live : List Bool) (l : List α) (k : Nat), live[k]? = some true →
    keep live (l.set k a) = (keep live l).set (colOf live k) a
  | [], _, k, h => by simp at h
  | _ :: _, [], k, _ => by simp [keep]
  | true :: live, b :: l, 0, _ => by simp [keep, colOf]
  | false :: live, b :: l, 0, h => by simp at h
  | true :: live, b :: l, k + 1, h => by
    have := keep_set a live l k (by simpa using h)
    simp [keep, colOf, this, List.take_succ_cons]
  | false :: live, b :: l, k + 1, h => by
    have := keep_set a live l k (by simpa using h)
    simp [keep, colOf, this, List.take_succ_cons]

theorem keep_unit (live : List Bool) (k : Nat) (h : live[k]? = some true) :
    keep live (unit live.length k : List R) = unit (live.count true) (colOf live k) := by
  rw [unit, keep_set 1 live _ k h, keep_replicate, unit]

theorem keep_add : ∀ (live : List Bool) (X Y : List R), X.length = live.length → Y.length = live.length →
    keep live (List.zipWith (· + ·) X Y) = List.zipWith (· + ·) (keep live X) (keep live Y)
  | [], X, Y, hX, hY => by cases X <;> simp_all [keep]
  | _ :: _, [], _, h, _ => by simp at h
  | _ :: _, _, [], _, h => by simp at h
  | true :: live, x :: X, y :: Y, hX, hY => by
    simp [keep, keep_add live X Y (by simpa using hX) (by simpa using hY)]
  | false :: live, x :: X, y :: Y, hX, hY => by
    simp [keep, keep_add live X Y (by simpa using hX) (by simpa using hY)]

/-- Mixed second difference. -/
def mixed (n : Nat) (f : List R → R) (X Y : List R) : R :=
  f (List.zipWith (· + ·) X Y) - f X - f Y + f (List.replicate n 0)

omit [LinearOrder R] [IsStrictOrderedRing R] in
theorem add_get (X Y : List R) (h : X.length = Y.length) (c : Nat) :
    ((List.zipWith (· + ·) X Y)[c]?).getD 0 = (X[c]?).getD 0 + (Y[c]?).getD 0 := by
  by_cases hc : c < X.length
  · rw [List.getElem?_zipWith, List.getElem?_eq_getElem hc, List.getElem?_eq_getElem (by omega)]
    rfl
  · rw [List.getElem?_zipWith, List.getElem?_eq_none (by omega), List.getElem?_eq_none (by omega)]
    simp

omit [LinearOrder R] [IsStrictOrderedRing R] in
theorem zero_get (n c : Nat) : ((List.replicate n (0 : R))[c]?).getD 0 = 0 := by
  rw [List.getElem?_replicate]
  by_cases h : c < n
  · rw [if_pos h]; rfl
  · rw [if_neg h]; rfl

theorem mixed_dense (n m : Nat) (A : Dense R) (B : Nat → R) (c d : Nat) (hc : c < m) (hd : d < m) :
    mixed m (denseChisq n m A B) (unit m c) (unit m d) = 2 * ((List.range n).map (fun r => A r c * A r d)).sum := by
  have hu : ∀ k, k < m → ∀ r, ∑ j ∈ Finset.range m, A r j * ((unit m k : List R)[j]?).getD 0 = A r k := by
    intro k hk r
    simp only [unit_get m k _ hk, mul_ite, mul_one, mul_zero]
    rw [Finset.sum_ite_eq', if_pos (Finset.mem_range.2 hk)]
  simp only [mixed, denseChisq]
  rw [sum_list_range, Finset.mul_sum, ← Finset.sum_sub_distrib, ← Finset.sum_sub_distrib, ← Finset.sum_add_distrib]
  apply Finset.sum_congr rfl
  intro r _
  have h1 : ∑ j ∈ Finset.range m, A r j * ((List.zipWith (· + ·) (unit m c) (unit m d) : List R)[j]?).getD 0 =
      A r c + A r d := by
    rw [← hu c hc r, ← hu d hd r, ← Finset.sum_add_distrib]
    apply Finset.sum_congr rfl
    intro j _
    rw [add_get _ _ (by simp [unit]), mul_add]
  rw [h1, hu c hc r, hu d hd r]
  simp only [zero_get, mul_zero, Finset.sum_const_zero]
  ring

theorem change_get (imgs : Nat → Img R) (ds : Derivs R) (X : List R) (hX : X.length = ds.length) (i y x : Nat) :
    change imgs ds X i y x = ∑ c ∈ Finset.range ds.length, slope imgs ((ds[c]?).getD []) i y x * (X[c]?).getD 0 := by
  rw [← changeFrom_eq imgs i y x ds X 0 (fun k => (X[k]?).getD 0) (fun k hk => by simp) hX, changeFrom_sum]
  simp only [zero_add]

theorem filter_row_nodup (es : List (Entry R)) (h : (es.map (·.row)).Nodup) (e : Entry R) (he : e ∈ es) :
    es.filter (fun e' => decide (e'.row = e.row)) = [e] := by
  induction es with
  | nil => simp at he
  | cons a es ih =>
    simp only [List.map_cons, List.nodup_cons] at h
    rcases List.mem_cons.1 he with rfl | he
    · rw [List.filter_cons_of_pos (by simp), List.filter_eq_nil_iff.2]
      intro b hb
      simp only [decide_eq_true_eq]
      intro hh
      exact h.1 (List.mem_map.2 ⟨b, hb, hh⟩)
    · have hne : a.row ≠ e.row := fun hh => h.1 (List.mem_map.2 ⟨e, he, hh.symm⟩)
      rw [List.filter_cons_of_neg (by simpa using hne), ih h.2 he]

theorem mixed_linearised (imgs : Nat → Img R) (ds : Derivs R) (prior : Option (PriorDerivs R)) (es : List (Entry R))
    (hes : PriorOK ds.length prior es) (k l : Nat) (hk : k < ds.length) (hl : l < ds.length) :
    mixed ds.length (linearised imgs ds prior) (unit ds.length k) (unit ds.length l) = 2 * fisher imgs ds es k l := by
  have hlu : ∀ j : Nat, (unit ds.length j : List R).length = ds.length := by intro j; simp [unit]
  have hla : (List.zipWith (· + ·) (unit ds.length k) (unit ds.length l) : List R).length = ds.length := by
    simp [unit]
  have hlz : (List.replicate ds.length (0 : R)).length = ds.length := by simp
  have hcu : ∀ j, j < ds.length → ∀ i y x, change imgs ds (unit ds.length j) i y x = slope imgs ((ds[j]?).getD []) i y x := by
    intro j hj i y x
    rw [change_get imgs ds _ (hlu j)]
    simp only [unit_get _ j _ hj, mul_ite, mul_one, mul_zero]
    rw [Finset.sum_ite_eq', if_pos (Finset.mem_range.2 hj)]
  have hca : ∀ i y x, change imgs ds (List.zipWith (· + ·) (unit ds.length k) (unit ds.length l)) i y x =
      slope imgs ((ds[k]?).getD []) i y x + slope imgs ((ds[l]?).getD []) i y x := by
    intro i y x
    rw [← hcu k hk, ← hcu l hl, change_get imgs ds _ hla, change_get imgs ds _ (hlu k), change_get imgs ds _ (hlu l),
      ← Finset.sum_add_distrib]
    apply Finset.sum_congr rfl
    intro j _
    rw [add_get _ _ (by simp [unit]), mul_add]
  have hcz : ∀ i y x, change imgs ds (List.replicate ds.length 0) i y x = 0 := by
    intro i y x
    rw [change_get imgs ds _ hlz]
    simp only [zero_get, mul_zero, Finset.sum_const_zero]
  have hprior : mixed ds.length (linearChi prior) (unit ds.length k) (unit ds.length l) =
      2 * (if k = l then ((es.filter (fun e => e.col = k)).map (fun e => e.val ^ 2)).sum else 0) := by
    have hnd : (es.map (·.row)).Nodup := hes.2.1 ▸ List.nodup_range
    have hchi : ∀ X : List R, linearChi prior X = (es.map (fun e => (e.b - e.val * (X[e.col]?).getD 0) ^ 2)).sum := by
      intro X
      rw [linearChi_entries _ prior es hes, ← sum_list_range, ← hes.2.1, List.map_map]
      congr 1
      apply List.map_congr_left
      intro e he
      simp only [Function.comp]
      rw [filter_row_nodup es hnd e he]
      simp
    simp only [mixed, hchi, unit_get _ k _ hk, unit_get _ l _ hl, zero_get, add_get (unit ds.length k) (unit ds.length l) (by simp [unit])]
    clear hchi hnd hes
    induction es with
    | nil => simp
    | cons e es ih =>
      simp only [List.map_cons, List.sum_cons]
      by_cases h1 : e.col = k
      · by_cases h2 : k = l
        · subst h2
          simp only [h1, if_true] at ih ⊢
          rw [List.filter_cons_of_pos (by simpa using h1), List.map_cons, List.sum_cons]
          linear_combination ih
        · have h3 : ¬ e.col = l := fun h => h2 (h1 ▸ h)
          simp only [h1, if_true, h2, if_false] at ih ⊢
          linear_combination ih
      · by_cases h2 : k = l
        · subst h2
          simp only [h1, if_true, if_false] at ih ⊢
          rw [List.filter_cons_of_neg (by simpa using h1)]
          linear_combination ih
        · simp only [h1, if_false, h2] at ih ⊢
          linear_combination ih
  have hpix : ∀ i y x, ((imgs i).chi.px y x - change imgs ds (List.zipWith (· + ·) (unit ds.length k) (unit ds.length l)) i y x) ^ 2 -
      ((imgs i).chi.px y x - change imgs ds (unit ds.length k) i y x) ^ 2 -
      ((imgs i).chi.px y x - change imgs ds (unit ds.length l) i y x) ^ 2 +
      ((imgs i).chi.px y x - change imgs ds (List.replicate ds.length 0) i y x) ^ 2 =
      2 * (slope imgs ((ds[k]?).getD []) i y x * slope imgs ((ds[l]?).getD []) i y x) := by
    intro i y x
    rw [hca, hcu k hk, hcu l hl, hcz]
    ring
  have hsum : ∑ i ∈ usedImages ds, ∑ y ∈ Finset.range (imgs i).h, ∑ x ∈ Finset.range (imgs i).w,
        ((imgs i).chi.px y x - change imgs ds (List.zipWith (· + ·) (unit ds.length k) (unit ds.length l)) i y x) ^ 2 -
      ∑ i ∈ usedImages ds, ∑ y ∈ Finset.range (imgs i).h, ∑ x ∈ Finset.range (imgs i).w,
        ((imgs i).chi.px y x - change imgs ds (unit ds.length k) i y x) ^ 2 -
      ∑ i ∈ usedImages ds, ∑ y ∈ Finset.range (imgs i).h, ∑ x ∈ Finset.range (imgs i).w,
        ((imgs i).chi.px y x - change imgs ds (unit ds.length l) i y x) ^ 2 +
      ∑ i ∈ usedImages ds, ∑ y ∈ Finset.range (imgs i).h, ∑ x ∈ Finset.range (imgs i).w,
        ((imgs i).chi.px y x - change imgs ds (List.replicate ds.length 0) i y x) ^ 2 =
      2 * ∑ i ∈ usedImages ds, ∑ y ∈ Finset.range (imgs i).h, ∑ x ∈ Finset.range (imgs i).w,
        slope imgs ((ds[k]?).getD []) i y x * slope imgs ((ds[l]?).getD []) i y x := by
    simp only [← Finset.sum_sub_distrib, ← Finset.sum_add_distrib, Finset.mul_sum, hpix]
  simp only [mixed] at hprior
  simp only [mixed, linearised, fisher, mul_add]
  linear_combination hsum + hprior

theorem flatnonzero_from : ∀ (live : List Bool) (s : Nat),
    ((live.zipIdx s).filter (fun e => e.1)).map (fun e => e.2) = keep live (List.range' s live.length)
  | [], s => rfl
  | true :: live, s => by
    simp [List.zipIdx_cons, List.range'_succ, keep, flatnonzero_from live (s + 1)]
  | false :: live, s => by
    simp [List.zipIdx_cons, List.range'_succ, keep, flatnonzero_from live (s + 1)]

theorem keep_sublist {α : Type} : ∀ (live : List Bool) (l : List α), (keep live l).Sublist l
  | [], l => by cases l <;> simp [keep]
  | _ :: _, [] => by simp [keep]
  | true :: live, a :: l => by simpa [keep] using keep_sublist live l
  | false :: live, a :: l => by simpa [keep] using (keep_sublist live l).trans (List.sublist_cons_self a l)

theorem flatnonzero_ok (live : List Bool) :
    (flatnonzero live).Pairwise (· < ·) ∧ (∀ k, k ∈ flatnonzero live ↔ live[k]? = some true) ∧
    ∀ c k : Nat, (flatnonzero live)[c]? = some k → c = colOf live k ∧ live[k]? = some true := by
  have he : flatnonzero live = keep live (List.range live.length) := by
    rw [flatnonzero, flatnonzero_from, List.range_eq_range']
  have hp : (flatnonzero live).Pairwise (· < ·) := by
    rw [he]
    exact List.Pairwise.sublist (keep_sublist _ _) List.pairwise_lt_range
  have hm : ∀ k, k ∈ flatnonzero live ↔ live[k]? = some true := by
    intro k
    simp only [flatnonzero, List.mem_map, List.mem_filter, Prod.exists, List.mem_zipIdx_iff_getElem?]
    constructor
    · rintro ⟨b, j, ⟨h, rfl⟩, rfl⟩
      exact h
    · intro h
      exact ⟨true, k, ⟨h, rfl⟩, rfl⟩
  refine ⟨hp, hm, fun c k hc => ?_⟩
  have hk := (hm k).1 (List.mem_of_getElem? hc)
  refine ⟨?_, hk⟩
  have h2 : (flatnonzero live)[colOf live k]? = some k := by
    rw [he, keep_getElem? live _ k hk, List.getElem?_range (List.getElem?_eq_some_iff.1 hk).1]
  have hnd : (flatnonzero live).Nodup := hp.imp (fun h => Nat.ne_of_lt h)
  exact (List.getElem?_inj (List.getElem?_eq_some_iff.1 hc).1 hnd).1 (hc.trans h2.symm)

theorem smartCovariance_ok (sqrt : R → R) (hsq : SqrtPos sqrt) (hs1 : sqrt 1 = 1)
    (lstsq : Nat → Nat → Dense R → (Nat → R) → List R) (hls : DenseSolves lstsq)
    (imgs : Nat → Img R) (ds : Derivs R) (box : Nat → Box)
    (hbox : OneBox imgs ds box) (hI : ImagesOK imgs ds) (hd : DistinctImages ds) (prior : Option (PriorDerivs R))
    (es : List (Entry R)) (hes : PriorOK ds.length prior es) (hne : ∀ d, prior = some d → d.rows ≠ [])
    (hlive : ∃ k, Live ds es k) :
    ∃ (X : List R) (ic : Nat → Nat → R) (cols : List Nat) (full : List R),
      smartCovariance sqrt lstsq imgs ds prior true = .ok (some (X, ic, cols)) ∧
      smartUpdateDirection sqrt lstsq imgs ds prior true = .ok (some full) ∧
      Minimises ds.length (linearised imgs ds prior) full ∧
      cols.Pairwise (· < ·) ∧ (∀ k, k ∈ cols ↔ Live ds es k) ∧ X.length = cols.length ∧
      (∀ c k : Nat, cols[c]? = some k → X[c]? = full[k]?) ∧
      ∀ c d k l : Nat, cols[c]? = some k → cols[d]? = some l → ic c d = fisher imgs ds es k l := by
  have hdir := smart_direction_ok sqrt hsq hs1 lstsq hls imgs ds box hbox hI hd prior es hes hne true
  obtain ⟨live, n, A, B, norms, hlen, hlv, hnl, hdp, hsp, hemp, hobj⟩ :=
    smartProblem_ok sqrt imgs ds box hbox hI hd prior es hes hne
  have hlt : ∀ k, Live ds es k → k < ds.length := by
    rintro k (⟨p, hp, -⟩ | ⟨e, he, rfl⟩)
    · exact (List.getElem?_eq_some_iff.1 hp).1
    · exact (hes.2.2 e he).1
  have hdead : ∀ k : Nat, live[k]? = some false → ds[k]? = some [] := by
    intro k hk
    have hlt : k < ds.length := by rw [← hlen]; exact (List.getElem?_eq_some_iff.1 hk).1
    have hn := (hlv k hlt).2.1 hk
    rw [List.getElem?_eq_getElem hlt]
    by_contra hh
    exact hn (Or.inl ⟨ds[k], List.getElem?_eq_getElem hlt, fun h0 => hh (by rw [h0])⟩)
  have hle : ∀ e ∈ es, live[e.col]? = some true := fun e he =>
    (hlv e.col ((hes.2.2 e he).1)).1.2 (Or.inr ⟨e, he, rfl⟩)
  have hlin := fun Y hY => linearised_crop imgs ds box hbox hI prior es hes live hlen hdead hle Y hY
  have hn : n ≠ 0 := by
    intro h0
    obtain ⟨hu, he⟩ := hemp h0
    obtain ⟨k, ⟨param, hp, hpn⟩ | ⟨e, he', -⟩⟩ := hlive
    · obtain ⟨e, he⟩ := List.exists_mem_of_ne_nil _ hpn
      have := mem_used (List.mem_of_getElem? hp) he
      rw [hu] at this
      simp at this
    · rw [he] at he'; simp at he'
  have hsd : smartUpdateDirection sqrt lstsq imgs ds prior true = .ok (some (expand live
      (List.zipWith (fun s x => x / s) (smartScales sqrt norms)
        (lstsq n (live.count true) (smartScaled sqrt norms A) B)))) := by
    simp only [smartUpdateDirection, hsp, if_true]
    rw [if_neg hn]
  have hXl : (List.zipWith (fun s x => x / s) (smartScales sqrt norms)
      (lstsq n (live.count true) (smartScaled sqrt norms A) B)).length = live.count true := by
    rw [List.length_zipWith, (hls n (live.count true) (smartScaled sqrt norms A) B).1]
    simp [smartScales, hnl]
  obtain ⟨hp, hm, hg⟩ := flatnonzero_ok live
  have hm' : ∀ k, k ∈ flatnonzero live ↔ Live ds es k := by
    intro k
    rw [hm]
    constructor
    · intro hk
      have : k < ds.length := by rw [← hlen]; exact (List.getElem?_eq_some_iff.1 hk).1
      exact (hlv k this).1.1 hk
    · intro hk
      exact (hlv k (hlt k hk)).1.2 hk
  refine ⟨_, _, flatnonzero live, _, by simp only [smartCovariance, hsp]; rw [if_neg hn], hsd, ?_, hp, hm', ?_, ?_, ?_⟩
  · rcases hdir with ⟨h, -⟩ | ⟨Y, hY, hmin, -⟩
    · rw [hsd] at h; simp at h
    · rw [hsd] at hY
      simp only [Except.ok.injEq, Option.some.injEq] at hY
      rw [hY]; exact hmin
  · simp only [if_true]
    rw [hXl, flatnonzero, flatnonzero_from, keep_length _ _ (by simp)]
  · intro c k hc
    obtain ⟨rfl, hk⟩ := hg c k hc
    simp only [if_true]
    rw [← keep_getElem? live (expand live _) k hk, keep_expand live _ hXl]
  · intro c d k l hc hd'
    obtain ⟨rfl, hk'⟩ := hg c k hc
    obtain ⟨rfl, hl'⟩ := hg d l hd'
    have hk := (hm' k).1 ((hm k).2 hk')
    have hl := (hm' l).1 ((hm l).2 hl')
    have hkc := colOf_lt live k hk'
    have hlc := colOf_lt live l hl'
    simp only [if_true]
    have hsc : ∀ c, c < live.count true → ∃ s : R, s ≠ 0 ∧ ((smartScales sqrt norms)[c]?).getD 0 = s ∧
        ∀ r, smartScaled sqrt norms A r c = A r c / s := by
      intro c hc
      rw [← hnl] at hc
      simp only [smartScales, smartScaled, List.getElem?_map, List.getElem?_eq_getElem hc, Option.map_some,
        Option.getD_some]
      by_cases h0 : 0 < sqrt norms[c]
      · exact ⟨sqrt norms[c], ne_of_gt h0, by rw [if_pos h0], fun r => by rw [if_pos h0]⟩
      · exact ⟨1, one_ne_zero, by rw [if_neg h0], fun r => by rw [if_neg h0, div_one]⟩
    obtain ⟨s, s0, s1, s2⟩ := hsc _ hkc
    obtain ⟨t, t0, t1, t2⟩ := hsc _ hlc
    rw [s1, t1]
    simp only [s2, t2]
    have hAA : ((List.range n).map (fun r => A r (colOf live k) / s * (A r (colOf live l) / t))).sum * (s * t) =
        ((List.range n).map (fun r => A r (colOf live k) * A r (colOf live l))).sum := by
      rw [← List.sum_map_mul_right]
      congr 1
      apply List.map_congr_left
      intro r _
      field_simp
    rw [hAA]
    have h2 : (2 : R) ≠ 0 := two_ne_zero
    apply mul_left_cancel₀ h2
    rw [← mixed_dense n (live.count true) A B _ _ hkc hlc,
      ← mixed_linearised imgs ds prior es hes k l (hlt k hk) (hlt l hl)]
    have hku := keep_unit (R := R) live k hk'
    have hlu := keep_unit (R := R) live l hl'
    have hun : ∀ j : Nat, (unit live.length j : List R).length = live.length := by intro j; simp [unit]
    simp only [mixed]
    rw [hlin _ (by simp [unit]), hlin _ (by simp [unit]), hlin _ (by simp [unit]), hlin _ (by simp), ← hlen,
      keep_add live _ _ (hun k) (hun l), hku, hlu, keep_replicate, hobj _ (by simp [unit]), hobj _ (by simp [unit]),
      hobj _ (by simp [unit]), hobj _ (by simp)]
    ring

end Verif.Lsq
