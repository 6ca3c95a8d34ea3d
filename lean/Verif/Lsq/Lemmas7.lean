import Verif.Lsq.Lemmas6

/-!
# Lemmas: the dense optimizer
-/

set_option linter.unusedSectionVars false

namespace Verif.Lsq

open Verif Verif.Params Verif.Patches

variable {R : Type} [Field R] [LinearOrder R]

theorem ravel_length (A : Arr R) : A.ravel.length = A.h * A.w := by
  simp [Arr.ravel, List.length_flatMap]

/-- The weighted derivative image. -/
theorem denseColumn_ok (im : Img R) (d : Patch R) (h1 : im.inverr.h = im.h) (h2 : im.inverr.w = im.w) :
    (denseColumn im d = .ok none ∧ ∀ x y, d.at x y = 0) ∨
    ∃ vals, denseColumn im d = .ok (some vals) ∧ vals.length = im.npix ∧
      ∀ y x : Nat, y < im.h → x < im.w → vals[y * im.w + x]? = some (d.at x y * im.inverr.px y x) := by
  cases hA : d.patch with
  | none => left; exact ⟨by simp [denseColumn, hA], fun x y => by simp [Patch.at, hA]⟩
  | some A =>
    right
    simp only [denseColumn, hA]
    have gen : ∀ B : Arr R, B.h = im.h → B.w = im.w →
        (∀ y x : Nat, y < im.h → x < im.w → B.px y x = d.at x y) →
        (List.zipWith (· * ·) B.ravel im.inverr.ravel).length = im.npix ∧
        ∀ y x : Nat, y < im.h → x < im.w →
          (List.zipWith (· * ·) B.ravel im.inverr.ravel)[y * im.w + x]? =
            some (d.at x y * im.inverr.px y x) := by
      intro B hB1 hB2 hB
      refine ⟨by simp [ravel_length, hB1, hB2, h1, h2, Img.npix], fun y x hy hx => ?_⟩
      have e1 := ravel_getElem? B y x (by omega) (by omega)
      have e2 := ravel_getElem? im.inverr y x (by omega) (by omega)
      rw [hB2] at e1
      rw [h2] at e2
      rw [List.getElem?_zipWith, e1, e2, hB y x hy hx]
    by_cases hf : d.x0 = 0 ∧ d.y0 = 0 ∧ A.h = im.h ∧ A.w = im.w
    · rw [if_pos hf]
      obtain ⟨f1, f2, f3, f4⟩ := hf
      refine ⟨_, rfl, gen A f3 f4 ?_⟩
      intro y x hy hx
      simp only [Patch.at, hA]
      rw [if_pos (by omega), f1, f2]
      simp
    · rw [if_neg hf]
      obtain ⟨r, hr, hh, hw, hpx⟩ := addTo_ok d (Arr.zeros im.h im.w) 1
      rw [hr]
      refine ⟨_, rfl, gen r hh hw ?_⟩
      intro y x hy hx
      rw [hpx y x hy hx]
      by_cases hc : d.covers x y
      · rw [if_pos hc]; simp [Arr.zeros]
      · rw [if_neg hc]
        simp only [Arr.zeros, Patch.at, hA]
        rw [if_neg]
        simpa [Patch.covers, hA] using hc

theorem denseParam_ok (imgs : Nat → Img R) (offs : List (Nat × Nat)) (n : Nat)
    (hl : Layout (fun i => (imgs i).npix) offs n) (col : Nat) (param : List (Patch R × Nat)) :
    (∀ e ∈ param, e.2 ∈ offs.map (·.1) ∧ (imgs e.2).inverr.h = (imgs e.2).h ∧
      (imgs e.2).inverr.w = (imgs e.2).w) → (param.map (·.2)).Nodup →
    ∀ (A : Dense R) (s : R),
    (∀ e ∈ offs, e.1 ∈ param.map (·.2) → ∀ k, k < (imgs e.1).npix → A (e.2 + k) col = 0) →
    ∃ A' s', denseParam imgs offs col param (A, s) = .ok (A', s') ∧
      (∀ r c, c ≠ col → A' r c = A r c) ∧ (∀ r c, n ≤ r → A' r c = A r c) ∧
      ∀ e ∈ offs, ∀ y x : Nat, y < (imgs e.1).h → x < (imgs e.1).w →
        A' (e.2 + (y * (imgs e.1).w + x)) col =
          A (e.2 + (y * (imgs e.1).w + x)) col + slope imgs param e.1 y x := by
  induction param with
  | nil =>
    intro _ _ A s _
    refine ⟨A, s, rfl, fun _ _ _ => rfl, fun _ _ _ => rfl, ?_⟩
    intro e _ y x _ _
    simp [slope]
  | cons p param ih =>
    intro him hnd A s hz
    obtain ⟨d, i⟩ := p
    obtain ⟨hi, h1, h2⟩ := him (d, i) (by simp)
    simp only at hi h1 h2
    simp only [List.map_cons, List.nodup_cons] at hnd
    have hss : ∀ e : Nat × Nat, e.1 ∈ param.map (·.2) → e.1 ∈ ((d, i) :: param).map (·.2) := by
      intro e he; rw [List.map_cons]; exact List.mem_cons_of_mem _ he
    rcases denseColumn_ok (imgs i) d h1 h2 with ⟨hc, h0⟩ | ⟨vals, hc, hlen, hv⟩
    · simp only [denseParam, hc]
      obtain ⟨A', s', g1, g2, g3, g4⟩ := ih (fun e he => him e (by simp [he])) hnd.2 A s
        (fun e he hm => hz e he (hss e hm))
      refine ⟨A', s', g1, g2, g3, ?_⟩
      intro e he y x hy hx
      rw [g4 e he y x hy hx, slope_cons]
      simp only [h0, zero_mul, ite_self, zero_add]
    · obtain ⟨e0, he0, rfl⟩ := List.mem_map.1 hi
      simp only [denseParam, hc, lookupOff_mem hl e0 he0]
      have hle := hl.le e0 he0
      have hdis : ∀ e ∈ offs, e.1 ≠ e0.1 → ∀ k, k < (imgs e.1).npix →
          setRows A e0.2 col vals (e.2 + k) col = A (e.2 + k) col := by
        intro e he hne k hk
        have := hl.disjoint e he e0 he0 hne
        simp only [setRows, hlen]
        rw [if_neg]
        omega
      obtain ⟨A', s', g1, g2, g3, g4⟩ := ih (fun e he => him e (by simp [he])) hnd.2
        (setRows A e0.2 col vals) (s + (vals.map (fun v => v * v)).sum) (by
          intro e he hm k hk
          have hne : e.1 ≠ e0.1 := fun h => hnd.1 (h ▸ hm)
          rw [hdis e he hne k hk]
          exact hz e he (hss e hm) k hk)
      refine ⟨A', s', g1, ?_, ?_, ?_⟩
      · intro r c hcc
        rw [g2 r c hcc, setRows, if_neg (by tauto)]
      · intro r c hr
        rw [g3 r c hr, setRows, if_neg (by omega)]
      · intro e he y x hy hx
        rw [g4 e he y x hy hx, slope_cons]
        by_cases hee : e0.1 = e.1
        · have : e0 = e := List.inj_on_of_nodup_map hl.nodup he0 he hee
          subst this
          have hlt := npix_lt hy hx
          rw [if_pos rfl, hz e0 he (by simp) _ hlt, setRows, if_pos (by omega), Nat.add_sub_cancel_left,
            hv y x hy hx, Option.getD_some, zero_add]
        · rw [hdis e he (fun h => hee h.symm) _ (npix_lt hy hx), if_neg hee, zero_add]

theorem denseAll_ok (imgs : Nat → Img R) (offs : List (Nat × Nat)) (n : Nat)
    (hl : Layout (fun i => (imgs i).npix) offs n) (ds : Derivs R) :
    (∀ param ∈ ds, ∀ e ∈ param, e.2 ∈ offs.map (·.1) ∧ (imgs e.2).inverr.h = (imgs e.2).h ∧
      (imgs e.2).inverr.w = (imgs e.2).w) → DistinctImages ds →
    ∀ (col : Nat) (A : Dense R), (∀ r c, col ≤ c → A r c = 0) →
    ∃ A' norms, denseAll imgs offs col ds A = .ok (A', norms) ∧ norms.length = ds.length ∧
      (∀ r c, c < col → A' r c = A r c) ∧ (∀ r c, n ≤ r → A' r c = A r c) ∧
      ∀ e ∈ offs, ∀ y x : Nat, y < (imgs e.1).h → x < (imgs e.1).w → ∀ (k : Nat) param, ds[k]? = some param →
        A' (e.2 + (y * (imgs e.1).w + x)) (col + k) = slope imgs param e.1 y x := by
  induction ds with
  | nil => intro _ _ col A _; exact ⟨A, [], rfl, rfl, fun _ _ _ => rfl, fun _ _ _ => rfl, by simp⟩
  | cons param ds ih =>
    intro him hd col A hA
    obtain ⟨A1, s1, g1, g2, g3, g4⟩ := denseParam_ok imgs offs n hl col param (him param (by simp))
      (hd param (by simp)) A 0 (fun e _ _ k _ => hA _ _ le_rfl)
    obtain ⟨A', norms, f1, f2, f3, f4, f5⟩ := ih (fun p hp => him p (by simp [hp]))
      (fun p hp => hd p (by simp [hp])) (col + 1) A1 (by
        intro r c hc
        rw [g2 r c (by omega)]
        exact hA r c (by omega))
    simp only [denseAll, g1, f1, Except.map]
    refine ⟨A', _, rfl, by simp [f2], ?_, ?_, ?_⟩
    · intro r c hc
      rw [f3 r c (by omega), g2 r c (by omega)]
    · intro r c hr
      rw [f4 r c hr, g3 r c hr]
    · intro e he y x hy hx k p hp
      cases k with
      | zero =>
        simp only [List.getElem?_cons_zero, Option.some.injEq] at hp
        subst hp
        rw [add_zero, f3 _ _ (by omega), g4 e he y x hy hx, hA _ _ le_rfl, zero_add]
      | succ k =>
        simp only [List.getElem?_cons_succ] at hp
        have := f5 e he y x hy hx k p hp
        rw [show col + (k + 1) = col + 1 + k by omega]
        exact this

theorem densePriors_ok (npix : Nat) (es : List (Entry R)) :
    (es.map (·.row)).Nodup → ∀ (A : Dense R) (B : Nat → R) (norms : List R),
    (∀ e ∈ es, ∀ c, A (npix + e.row) c = 0) →
    ∃ A' B' norms', densePriors npix (es.map (fun e => ((([e.row], e.col), [e.val]), [e.b]))) (A, B, norms) =
        (A', B', norms') ∧ norms'.length = norms.length ∧
      (∀ r c, r < npix → A' r c = A r c) ∧ (∀ r, r < npix → B' r = B r) ∧
      (∀ k c, A' (npix + k) c = A (npix + k) c +
        ((es.filter (fun e => e.row = k ∧ e.col = c)).map (·.val)).sum) ∧
      (∀ k, B' (npix + k) = B (npix + k) + ((es.filter (fun e => e.row = k)).map (·.b)).sum) := by
  induction es with
  | nil =>
    intro _ A B norms _
    exact ⟨A, B, norms, rfl, rfl, fun _ _ _ => rfl, fun _ _ => rfl, by simp, by simp⟩
  | cons e es ih =>
    intro hnd A B norms hz
    simp only [List.map_cons, List.nodup_cons] at hnd
    simp only [List.map_cons, densePriors, List.zip_cons_cons, List.zip_nil_right, List.foldl_cons,
      List.foldl_nil]
    obtain ⟨A', B', norms', g1, g2, g3, g4, g5, g6⟩ := ih hnd.2
      (fun r c => if r = npix + e.row ∧ c = e.col then e.val else A r c)
      (fun r => if r = npix + e.row then B r + e.b else B r)
      (norms.modify e.col (· + (([e.val] : List R).map (fun v => v * v)).sum)) (by
        intro e' he' c
        have hne : e'.row ≠ e.row := fun h => hnd.1 (List.mem_map.2 ⟨e', he', h⟩)
        rw [if_neg (by omega)]
        exact hz e' (by simp [he']) c)
    refine ⟨A', B', norms', g1, by rw [g2]; simp, ?_, ?_, ?_, ?_⟩
    · intro r c hr
      rw [g3 r c hr, if_neg (by omega)]
    · intro r hr
      rw [g4 r hr, if_neg (by omega)]
    · intro k c
      rw [g5]
      by_cases h : k = e.row ∧ c = e.col
      · obtain ⟨rfl, rfl⟩ := h
        rw [if_pos ⟨rfl, rfl⟩, hz e (by simp), List.filter_cons_of_pos (by simp), List.map_cons, List.sum_cons,
          zero_add]
      · rw [if_neg (by omega), List.filter_cons_of_neg (by simp only [decide_eq_true_eq]; omega)]
    · intro k
      rw [g6]
      by_cases h : k = e.row
      · subst h
        rw [if_pos rfl, List.filter_cons_of_pos (by simp), List.map_cons, List.sum_cons, add_assoc]
      · rw [if_neg (by omega), List.filter_cons_of_neg (by simp only [decide_eq_true_eq]; omega)]

theorem sum_entries (N : Nat) (es : List (Entry R)) (hc : ∀ e ∈ es, e.col < N) (k : Nat) (f : Nat → R) :
    ∑ c ∈ Finset.range N, ((es.filter (fun e => e.row = k ∧ e.col = c)).map (·.val)).sum * f c =
      ((es.filter (fun e => e.row = k)).map (fun e => e.val * f e.col)).sum := by
  induction es with
  | nil => simp
  | cons e es ih =>
    have ih' := ih (fun x hx => hc x (by simp [hx]))
    by_cases h : e.row = k
    · have hmem : e.col ∈ Finset.range N := Finset.mem_range.2 (hc e (by simp))
      rw [List.filter_cons_of_pos (p := fun e : Entry R => decide (e.row = k)) (by simpa using h), List.map_cons,
        List.sum_cons, ← ih', ← Finset.add_sum_erase _ _ hmem, ← Finset.add_sum_erase _ _ hmem,
        List.filter_cons_of_pos (by simp [h]), List.map_cons, List.sum_cons, add_mul, add_assoc]
      congr 2
      apply Finset.sum_congr rfl
      intro c hc'
      rw [List.filter_cons_of_neg]
      simp only [decide_eq_true_eq, not_and]
      intro _ hh
      exact (Finset.mem_erase.1 hc').1 hh.symm
    · rw [List.filter_cons_of_neg (p := fun e : Entry R => decide (e.row = k)) (by simpa using h), ← ih']
      apply Finset.sum_congr rfl
      intro c _
      rw [List.filter_cons_of_neg (by simp [h])]

theorem changeFrom_sum (imgs : Nat → Img R) (ds : Derivs R) (i y x : Nat) (f : Nat → R) : ∀ c0 : Nat,
    changeFrom imgs f i y x c0 ds =
      ∑ c ∈ Finset.range ds.length, slope imgs ((ds[c]?).getD []) i y x * f (c0 + c) := by
  induction ds with
  | nil => intro c0; rfl
  | cons p ds ih =>
    intro c0
    rw [changeFrom, ih (c0 + 1), List.length_cons, Finset.sum_range_succ', add_comm]
    congr 1
    apply Finset.sum_congr rfl
    intro c _
    rw [List.getElem?_cons_succ, show c0 + 1 + c = c0 + (c + 1) by omega]

/-- The dense problem without scaling is the linearised chi-squared. -/
theorem denseProblem_ok (sqrt : R → R) (imgs : Nat → Img R) (ds : Derivs R) (hI : ImagesOK imgs ds)
    (hd : DistinctImages ds) (prior : Option (PriorDerivs R)) (es : List (Entry R))
    (hes : PriorOK ds.length prior es) :
    ∃ (n : Nat) (A : Dense R) (B : Nat → R) (norms : List R), norms.length = ds.length ∧
      (∀ scale, denseProblem sqrt imgs ds prior scale =
        .ok (n, if scale then scaleDense sqrt norms A else A, B,
          norms.map (fun s => if 0 < s then sqrt s else sqrt 1))) ∧
      ∀ X : List R, X.length = ds.length →
        denseChisq n ds.length A B X = linearised imgs ds prior X := by
  obtain ⟨hrep, hrows, hcols⟩ := hes
  obtain ⟨hl, hm⟩ := imgOffsets_ok (fun i => (imgs i).npix) ds
  set o := imgOffsets (fun i => (imgs i).npix) ds with ho
  have him : ∀ param ∈ ds, ∀ e ∈ param, e.2 ∈ o.1.map (·.1) ∧ (imgs e.2).inverr.h = (imgs e.2).h ∧
      (imgs e.2).inverr.w = (imgs e.2).w := by
    intro param hp e he
    have hu : e.2 ∈ usedImages ds := by
      simp only [usedImages, List.mem_toFinset, List.mem_flatMap, List.mem_map]
      exact ⟨param, hp, e, he, rfl⟩
    obtain ⟨h1, h2, -, -, h5⟩ := hI e.2 hu
    exact ⟨(hm e.2).2 hu, h1, h2⟩
  obtain ⟨A0, norms0, f1, f2, -, f4, f5⟩ := denseAll_ok imgs o.1 o.2 hl ds him hd 0 (fun _ _ => 0)
    (fun _ _ _ => rfl)
  have hb0 : ∀ (B : Nat → R), ∀ e ∈ o.1, ∀ k, k < (imgs e.1).npix →
      fillChi imgs o.1 B (e.2 + k) = (((imgs e.1).chi.ravel)[k]?).getD 0 := fun B e he k hk =>
    fillChi_in imgs o.1 hl.disjoint hl.nodup e he k hk B
  have hb1 : ∀ (B : Nat → R) (r : Nat), o.2 ≤ r → fillChi imgs o.1 B r = B r := by
    intro B r hr
    apply fillChi_out
    intro e he hh
    have := hl.le e he
    omega
  -- the prior rows
  obtain ⟨A', B', norms', g0, g1, g2, g4, g5⟩ : ∃ (A' : Dense R) (B' : Nat → R) (norms' : List R),
      addPriors o.2 prior A0 norms0 = (A', B', norms', es.length) ∧ norms'.length = norms0.length ∧
      (∀ r c, r < o.2 → A' r c = A0 r c) ∧
      (∀ k c, A' (o.2 + k) c = ((es.filter (fun e => e.row = k ∧ e.col = c)).map (·.val)).sum) ∧
      (∀ k, B' (o.2 + k) = ((es.filter (fun e => e.row = k)).map (·.b)).sum) := by
    cases prior with
    | none =>
      have : es = [] := hrep
      subst this
      exact ⟨A0, fun _ => 0, norms0, rfl, rfl, fun _ _ _ => rfl,
        fun k c => by simpa using f4 _ _ (by omega), fun k => by simp⟩
    | some d =>
      have hr : Represents d es := hrep
      have hnd : (es.map (·.row)).Nodup := hrows ▸ List.nodup_range
      obtain ⟨A', B', norms', e1, e2, e3, -, e5, e6⟩ := densePriors_ok o.2 es hnd A0 (fun _ => 0) norms0
        (fun e _ c => f4 _ _ (by omega))
      have hz : ((d.rows.zip d.cols).zip d.vals).zip d.bs =
          es.map (fun e => ((([e.row], e.col), [e.val]), [e.b])) := by
        rw [hr.rows, hr.cols, hr.vals, hr.bs]
        clear hr hrows hnd e1 e5 e6 hcols hrep
        induction es with
        | nil => rfl
        | cons e es ih => simp [ih]
      refine ⟨A', B', norms', ?_, e2, e3, ?_, ?_⟩
      · simp only [addPriors, hz, e1, rowsEnd_eq d es hr hrows]
      · intro k c
        rw [e5, f4 _ _ (by omega), zero_add]
      · intro k
        rw [e6, zero_add]
  refine ⟨o.2 + es.length, A', fillChi imgs o.1 B', norms', by rw [g1, f2], ?_, ?_⟩
  · intro scale
    simp only [denseProblem, ← ho, f1, g0]
  · intro X hX
    rw [denseChisq, Finset.sum_range_add, linearised]
    congr 1
    · have := chisq_pixels imgs ds hI o.1 o.2 hl hm (fillChi imgs o.1 B')
        (fun r => ∑ c ∈ Finset.range ds.length, A' r c * (X[c]?).getD 0) (hb0 _)
        (fun i y x => change imgs ds X i y x) ?_
      · exact this
      · intro e he y x hy hx
        have hlt : e.2 + (y * (imgs e.1).w + x) < o.2 := by
          have h1 := hl.le e he
          have h2 := npix_lt hy hx
          omega
        rw [← changeFrom_eq imgs e.1 y x ds X 0 (fun k => (X[k]?).getD 0) (fun k hk => by simp) hX,
          changeFrom_sum]
        apply Finset.sum_congr rfl
        intro c hc
        have hc' := Finset.mem_range.1 hc
        rw [g2 _ _ hlt]
        have := f5 e he y x hy hx c ds[c] (List.getElem?_eq_getElem hc')
        rw [zero_add] at this
        rw [this, List.getElem?_eq_getElem hc', Option.getD_some, zero_add]
    · have hchi : linearChi prior X = ∑ k ∈ Finset.range es.length,
          (((es.filter (fun e => e.row = k)).map (·.b)).sum -
          ((es.filter (fun e => e.row = k)).map (fun e => e.val * (X[e.col]?).getD 0)).sum) ^ 2 := by
        cases prior with
        | none =>
          have : es = [] := hrep
          subst this
          simp [linearChi]
        | some d =>
          have hr : Represents d es := hrep
          have hlen : d.rows.length = es.length := by rw [hr.rows, List.length_map]
          simp only [linearChi, normSq, hlen]
          rw [sum_list_range]
          apply Finset.sum_congr rfl
          intro k _
          rw [residual_eq d es hr]
      rw [hchi]
      apply Finset.sum_congr rfl
      intro k _
      rw [hb1 _ _ (by omega), g5]
      simp only [g4]
      rw [sum_entries ds.length es (fun e he => (hcols e he).1) k (fun c => (X[c]?).getD 0)]

section ordered
variable [IsStrictOrderedRing R]

theorem dense_direction_ok (sqrt : R → R) (hsq : SqrtOK sqrt) (hs1 : sqrt 1 = 1)
    (lstsq : Nat → Nat → Dense R → (Nat → R) → List R) (hls : DenseSolves lstsq)
    (imgs : Nat → Img R) (ds : Derivs R) (hI : ImagesOK imgs ds)
    (hd : DistinctImages ds) (prior : Option (PriorDerivs R)) (es : List (Entry R))
    (hes : PriorOK ds.length prior es) (scale : Bool) :
    (denseUpdateDirection sqrt lstsq imgs ds prior scale = .ok none ∧
      ∀ X : List R, X.length = ds.length → linearised imgs ds prior X = 0) ∨
    ∃ X, denseUpdateDirection sqrt lstsq imgs ds prior scale = .ok (some X) ∧
      Minimises ds.length (linearised imgs ds prior) X := by
  obtain ⟨n, A, B, norms, hlen, hp, hobj⟩ := denseProblem_ok sqrt imgs ds hI hd prior es hes
  simp only [denseUpdateDirection, hp]
  by_cases hn : n = 0
  · left
    rw [if_pos hn]
    refine ⟨rfl, fun X hX => ?_⟩
    rw [← hobj X hX, denseChisq, hn, Finset.sum_range_zero]
  right
  rw [if_neg hn]
  refine ⟨_, rfl, ?_⟩
  cases scale with
  | false =>
    simp only [Bool.false_eq_true, if_false]
    obtain ⟨h1, h2⟩ := hls n ds.length A B
    refine ⟨h1, fun Y hY => ?_⟩
    rw [← hobj _ h1, ← hobj Y hY]
    exact h2 Y hY
  | true =>
    simp only [if_true]
    obtain ⟨h1, h2⟩ := hls n ds.length (scaleDense sqrt norms A) B
    set z := lstsq n ds.length (scaleDense sqrt norms A) B with hz
    set scales := norms.map (fun s => if 0 < s then sqrt s else sqrt 1) with hsc
    let sc : Nat → R := fun c => (scales[c]?).getD 1
    have hscl : scales.length = ds.length := by rw [hsc, List.length_map, hlen]
    have hpos : ∀ c, sc c ≠ 0 := by
      intro c
      simp only [sc]
      by_cases hc : c < scales.length
      · rw [List.getElem?_eq_getElem hc, Option.getD_some]
        simp only [hsc, List.getElem_map]
        split
        · rename_i h; exact ne_of_gt (hsq _ h)
        · rw [hs1]; exact one_ne_zero
      · rw [List.getElem?_eq_none (by omega)]; exact one_ne_zero
    have hmat : ∀ r c, c < ds.length → scaleDense sqrt norms A r c = A r c / sc c := by
      intro r c hc
      have hc' : c < norms.length := by omega
      simp only [scaleDense, sc, hsc, List.getElem?_map, List.getElem?_eq_getElem hc', Option.map_some,
        Option.getD_some]
      split
      · rfl
      · rw [hs1, div_one]
    have hchi : ∀ w : List R, w.length = ds.length →
        denseChisq n ds.length (scaleDense sqrt norms A) B w =
          denseChisq n ds.length A B (List.zipWith (fun s x => x / s) scales w) := by
      intro w hw
      simp only [denseChisq]
      apply Finset.sum_congr rfl
      intro r _
      congr 2
      apply Finset.sum_congr rfl
      intro c hc
      have hc' := Finset.mem_range.1 hc
      rw [hmat r c hc', List.getElem?_zipWith, List.getElem?_eq_getElem (show c < scales.length by omega),
        List.getElem?_eq_getElem (show c < w.length by omega)]
      simp only [sc, List.getElem?_eq_getElem (show c < scales.length by omega), Option.getD_some]
      ring
    have hl2 : ∀ w : List R, w.length = ds.length →
        (List.zipWith (fun s x => x / s) scales w).length = ds.length := by
      intro w hw; rw [List.length_zipWith, hscl, hw, Nat.min_self]
    refine ⟨hl2 z h1, fun Y hY => ?_⟩
    rw [← hobj _ (hl2 z h1), ← hobj Y hY, ← hchi z h1]
    let Y' : List R := List.zipWith (fun s y => y * s) scales Y
    have hY' : Y'.length = ds.length := by simp only [Y', List.length_zipWith, hscl, hY, Nat.min_self]
    refine le_of_le_of_eq (h2 Y' hY') ?_
    rw [hchi Y' hY']
    congr 1
    apply List.ext_getElem?
    intro c
    by_cases hc : c < ds.length
    · simp only [Y', List.getElem?_zipWith, List.getElem?_eq_getElem (show c < scales.length by omega),
        List.getElem?_eq_getElem (show c < Y.length by omega)]
      congr 1
      have := hpos c
      simp only [sc, List.getElem?_eq_getElem (show c < scales.length by omega), Option.getD_some] at this
      exact mul_div_cancel_right₀ _ this
    · rw [List.getElem?_eq_none (by rw [hl2 Y' hY']; omega), List.getElem?_eq_none (by omega)]

theorem dense_solver_exists : ∃ lstsq : Nat → Nat → Dense R → (Nat → R) → List R, DenseSolves lstsq := by
  have : ∀ (n m : Nat) (A : Dense R) (B : Nat → R), ∃ X, Minimises m (denseChisq n m A B) X := by
    intro n m A B
    obtain ⟨X, hX, hm⟩ := exists_min n ((List.range m).map (fun c r => A r c)) B
    simp only [List.length_map, List.length_range] at hX hm
    refine ⟨X, hX, fun Y hY => ?_⟩
    have h := hm Y hY
    simp only [lin_range _ X _ hX, lin_range _ Y _ hY] at h
    exact h
  exact ⟨fun n m A B => (this n m A B).choose, fun n m A B => (this n m A B).choose_spec⟩

end ordered

end Verif.Lsq
