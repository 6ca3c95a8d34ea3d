import Verif.Fpfit.DirLemmas
import Verif.Fpfit.Props

namespace Verif.Fpfit

open Verif Patches Forced Linmod Finset

variable {R M : Type} [Field R] [LinearOrder R]

/-- The chi images one by one. -/
theorem fitChis_ok (minsb : R) (sky : Bool) (cat : List (Source R)) (p : List R) (hp : p.length = numParams cat) :
    ∀ (tims : List (Tim R M)) (l : List R), (∀ t ∈ tims, Ready minsb cat t) → (∀ t ∈ tims, t.ie.h = t.data.h ∧ t.ie.w = t.data.w) →
      ∃ cs, fitChis minsb sky cat p tims l = .ok cs ∧ cs.length = tims.length ∧
        ∀ i t, tims[i]? = some t → ∃ A, cs[i]? = some A ∧ fitChi minsb sky cat p t (l.getD i t.sky) = .ok A := by
  intro tims
  induction tims with
  | nil => intro l _ _; exact ⟨[], rfl, rfl, by simp⟩
  | cons t ts ih =>
    intro l hr hs
    obtain ⟨h1, h2⟩ := hs t (List.mem_cons_self ..)
    obtain ⟨_, hc⟩ := fitChi_px minsb sky cat t (hr t (List.mem_cons_self ..)) h1 h2
    obtain ⟨A, a1, _⟩ := hc p (l.headD t.sky) hp
    obtain ⟨cs, c1, c2, c3⟩ := ih l.tail (fun t' ht' => hr t' (List.mem_cons_of_mem _ ht')) (fun t' ht' => hs t' (List.mem_cons_of_mem _ ht'))
    refine ⟨A :: cs, by unfold fitChis; rw [a1, c1], by rw [List.length_cons, c2, List.length_cons], ?_⟩
    intro i t' ht'
    cases i with
    | zero =>
      simp only [List.getElem?_cons_zero, Option.some.injEq] at ht'
      subst ht'
      refine ⟨A, rfl, ?_⟩
      rw [← a1]
      congr 1
      cases l <;> rfl
    | succ i =>
      rw [List.getElem?_cons_succ] at ht' ⊢
      obtain ⟨B, b1, b2⟩ := c3 i t' ht'
      refine ⟨B, b1, ?_⟩
      rw [← b2]
      congr 1
      cases l <;> simp

omit [LinearOrder R] in
theorem sum_range_list (f : Nat → R) (n : Nat) : ((List.range n).map f).sum = ∑ k ∈ range n, f k := by
  induction n with
  | zero => rfl
  | succ n ih => rw [List.range_succ, List.map_append, List.sum_append, ih, sum_range_succ]; simp

omit [LinearOrder R] in
theorem sumSq_range (A : Arr R) : sumSq A = ∑ y ∈ range A.h, ∑ x ∈ range A.w, A.px y x * A.px y x := by
  unfold sumSq Arr.ravel
  rw [List.map_flatMap, List.flatMap_def, List.sum_flatten, List.map_map, sum_range_list]
  refine sum_congr rfl (fun y _ => ?_)
  simp only [Function.comp_apply, List.map_map]
  rw [sum_range_list]
  rfl

omit [LinearOrder R] in
theorem chisqOf_range : ∀ (l : List (Arr R)), chisqOf l = ∑ i ∈ range l.length, sumSq (l.getD i (Arr.zeros 0 0)) := by
  intro l
  unfold chisqOf
  induction l with
  | nil => rfl
  | cons A l ih => rw [List.map_cons, List.sum_cons, ih, List.length_cons, sum_range_succ']; simp [add_comm]

/-- The square sum of one image in the linearised chi-squared. -/
def imgSum (imgs : Nat → Lsq.Img R) (ds : Lsq.Derivs R) (X : List R) (i : Nat) : R :=
  ∑ y ∈ range (imgs i).h, ∑ x ∈ range (imgs i).w, ((imgs i).chi.px y x - Lsq.change imgs ds X i y x) ^ 2

omit [LinearOrder R] in
theorem change_unused (imgs : Nat → Lsq.Img R) (ds : Lsq.Derivs R) (X : List R) (i y x : Nat) (h : i ∉ Lsq.usedImages ds) :
    Lsq.change imgs ds X i y x = 0 := by
  unfold Lsq.change
  have hz : ∀ param ∈ ds, Lsq.slope imgs param i y x = 0 := by
    intro param hp
    unfold Lsq.slope
    have : param.filter (fun e => e.2 = i) = [] := by
      rw [List.filter_eq_nil_iff]
      intro e he hei
      apply h
      unfold Lsq.usedImages
      rw [List.mem_toFinset, List.mem_flatMap]
      exact ⟨param, hp, List.mem_map.2 ⟨e, he, by simpa using hei⟩⟩
    rw [this]; rfl
  clear h
  induction ds generalizing X with
  | nil => rfl
  | cons d ds ih =>
    cases X with
    | nil => rfl
    | cons a X =>
      rw [List.zipWith_cons_cons, List.sum_cons, hz d (List.mem_cons_self ..), zero_mul, zero_add]
      exact ih X (fun p hp => hz p (List.mem_cons_of_mem _ hp))

omit [LinearOrder R] in
/-- All images together: the linearised chi-squared and a constant. -/
theorem linearised_all (imgs : Nat → Lsq.Img R) (ds : Lsq.Derivs R) (n : Nat) (h0 : ∀ i, n ≤ i → (imgs i).h = 0) (X : List R) :
    ∑ i ∈ range n, imgSum imgs ds X i = Lsq.linearised imgs ds none X + ∑ i ∈ range n \ Lsq.usedImages ds, imgSum imgs ds [] i := by
  have e1 : Lsq.linearised imgs ds none X = ∑ i ∈ Lsq.usedImages ds, imgSum imgs ds X i := by
    unfold Lsq.linearised imgSum
    simp [Params.linearChi]
  rw [e1, ← sum_inter_add_sum_sdiff (range n) (Lsq.usedImages ds), ← sum_inter_add_sum_sdiff (Lsq.usedImages ds) (range n)]
  have e2 : ∑ i ∈ Lsq.usedImages ds \ range n, imgSum imgs ds X i = 0 := by
    refine sum_eq_zero (fun i hi => ?_)
    rw [mem_sdiff, mem_range, not_lt] at hi
    unfold imgSum
    rw [h0 i hi.2]; simp
  rw [e2, add_zero, inter_comm]
  congr 1
  refine sum_congr rfl (fun i hi => ?_)
  unfold imgSum
  refine sum_congr rfl (fun y _ => sum_congr rfl (fun x _ => ?_))
  rw [mem_sdiff] at hi
  rw [change_unused imgs ds X i y x hi.2, change_unused imgs ds [] i y x hi.2]

/-- `p` and `l` are the starting values and a change `X`. -/
structure Moved (sky : Bool) (tims : List (Tim R M)) (cat : List (Source R)) (X p l : List R) : Prop where
  len : p.length = numParams cat
  flux : ∀ k, p.getD k 0 = (getParams cat).getD k 0 + (fluxOf sky tims.length X).getD k 0
  level : sky = true → ∀ i t, tims[i]? = some t → l.getD i t.sky = t.sky + (skyOf sky tims.length X).getD i 0

/-- The chi-squared of the fit is the linearised chi-squared and a constant. -/
theorem chisq_linear (minsb : R) (sky : Bool) (tims : List (Tim R M)) (cat : List (Source R)) (hr : ∀ t ∈ tims, Ready minsb cat t)
    (hs : ∀ t ∈ tims, t.ie.h = t.data.h ∧ t.ie.w = t.data.w) (chis : List (Arr R))
    (hc : fitChis minsb sky cat (getParams cat) tims (tims.map (·.sky)) = .ok chis) :
    ∃ C, ∀ X p l, X.length = (derivs minsb sky tims cat).length → Moved sky tims cat X p l →
      (objective minsb sky tims cat).chisq p l = .ok (Lsq.linearised (lsqImgs tims chis) (derivs minsb sky tims cat) none X + C) := by
  refine ⟨∑ i ∈ range tims.length \ Lsq.usedImages (derivs minsb sky tims cat), imgSum (lsqImgs tims chis) (derivs minsb sky tims cat) [] i,
    fun X p l hX hm => ?_⟩
  obtain ⟨cs0, z1, z2, z3⟩ := fitChis_ok minsb sky cat (getParams cat) (getParams_length cat) tims (tims.map (·.sky)) hr hs
  rw [hc] at z1
  injection z1 with z1
  subst z1
  obtain ⟨cs, c1, c2, c3⟩ := fitChis_ok minsb sky cat p hm.len tims l hr hs
  have e : (objective minsb sky tims cat).chisq p l = .ok (chisqOf cs) := by unfold objective; dsimp only; rw [c1]
  rw [e, chisqOf_range, c2]
  congr 1
  rw [← linearised_all (lsqImgs tims chis) (derivs minsb sky tims cat) tims.length (fun i hi => by
    unfold lsqImgs; rw [List.getElem?_eq_none hi]) X]
  refine sum_congr rfl (fun i hi => ?_)
  have hi := mem_range.1 hi
  have ht : tims[i]? = some tims[i] := List.getElem?_eq_getElem hi
  obtain ⟨A0, g1, g2⟩ := z3 i _ ht
  obtain ⟨A, a1, a2⟩ := c3 i _ ht
  have hmem : tims[i] ∈ tims := List.getElem_mem hi
  obtain ⟨c0, hpx⟩ := fitChi_px minsb sky cat tims[i] (hr _ hmem) (hs _ hmem).1 (hs _ hmem).2
  obtain ⟨B0, b1, b2, b3, b4⟩ := hpx (getParams cat) ((tims.map (·.sky)).getD i tims[i].sky) (getParams_length cat)
  rw [g2] at b1
  injection b1 with b1
  subst b1
  obtain ⟨B, d1, d2, d3, d4⟩ := hpx p (l.getD i tims[i].sky) hm.len
  rw [a2] at d1
  injection d1 with d1
  subst d1
  have eA : cs.getD i (Arr.zeros 0 0) = A := by rw [List.getD_eq_getElem?_getD, a1]; rfl
  have eI : lsqImgs tims chis i = ⟨tims[i].data.h, tims[i].data.w, tims[i].ie, A0⟩ := by
    unfold lsqImgs; rw [ht, g1]
  rw [eA, sumSq_range, d2, d3]
  unfold imgSum
  rw [eI]
  refine sum_congr rfl (fun y hy => sum_congr rfl (fun x hx => ?_))
  have hy := mem_range.1 hy
  have hx := mem_range.1 hx
  rw [change_eq minsb sky tims cat chis hr X hX i tims[i] ht (by rw [g1]; rfl) y x hy hx]
  dsimp only at hy hx ⊢
  rw [d4 y x hy hx, b4 y x hy hx]
  have el : (tims.map (·.sky)).getD i tims[i].sky = tims[i].sky := by
    rw [List.getD_eq_getElem?_getD, List.getElem?_map, ht]; rfl
  rw [el]
  have ef : ∀ k, p.getD k 0 = (getParams cat).getD k 0 + (fluxOf sky tims.length X).getD k 0 := hm.flux
  have es : (if sky then l.getD i tims[i].sky else 0) = (if sky then tims[i].sky else 0) +
      (if sky then (skyOf sky tims.length X).getD i 0 else 0) := by
    cases hsk : sky
    · simp
    · have := hm.level hsk i _ ht
      rw [hsk] at this
      simp only [if_true]
      exact this
  rw [es]
  simp only [ef, add_mul, sum_add_distrib]
  ring

end Verif.Fpfit
