import Verif.Params.Lemmas4

set_option linter.unusedSimpArgs false
set_option linter.unusedVariables false
set_option linter.unusedSectionVars false

namespace Verif.Params

open Verif

variable {α : Type}

/-! ### C15 -/

section chi
variable [Field α]

/-- `‖b - A x‖²` straight from the entries. -/
def entryChi (es : List (Entry α)) (x : List α) : α :=
  (es.map (fun e => (e.b - e.val * (x[e.col]?).getD 0) ^ 2)).sum

theorem filter_row (es : List (Entry α)) (k : Nat) (h : es.map (·.row) = List.range' k es.length) :
    (List.range' k es.length).map (fun i => es.filter (fun e => e.row = i)) =
      es.map (fun e => [e]) := by
  induction es generalizing k with
  | nil => rfl
  | cons e es ih =>
    simp only [List.map_cons, List.length_cons, List.range'_succ, List.cons.injEq] at h
    obtain ⟨h1, h2⟩ := h
    simp only [List.length_cons, List.range'_succ, List.map_cons]
    have hrows : ∀ f ∈ es, k + 1 ≤ f.row := by
      intro f hf
      have : f.row ∈ es.map (·.row) := List.mem_map_of_mem hf
      rw [h2, List.mem_range'] at this
      obtain ⟨i, _, hi⟩ := this
      omega
    congr 1
    · rw [List.filter_cons_of_pos (by simp [h1])]
      rw [List.filter_eq_nil_iff.mpr]
      intro f hf
      have := hrows f hf
      simp; omega
    · rw [← ih (k + 1) h2]
      apply List.map_congr_left
      intro i hi
      rw [List.mem_range'] at hi
      obtain ⟨_, _, hi⟩ := hi
      rw [List.filter_cons_of_neg]
      simp; omega

theorem cells_rep (d : PriorDerivs α) (es : List (Entry α)) (h : Represents d es) :
    cells d = es.map (fun e => (e.row, e.col, e.val)) := by
  rw [cells, h.rows, h.cols, h.vals]
  clear h
  induction es with
  | nil => rfl
  | cons e es ih => simpa using ih

theorem rhs_rep (d : PriorDerivs α) (es : List (Entry α)) (h : Represents d es) :
    rhs d = es.map (fun e => (e.row, e.b)) := by
  rw [rhs, h.rows, h.bs]
  clear h
  induction es with
  | nil => rfl
  | cons e es ih => simpa using ih

theorem normSq_rep (d : PriorDerivs α) (es : List (Entry α)) (h : Represents d es)
    (hr : es.map (·.row) = List.range es.length) (x : List α) :
    normSq d x d.rows.length = entryChi es x := by
  have hlen : d.rows.length = es.length := by rw [h.rows]; simp
  have hres : ∀ i, residual d x i =
      ((es.filter (fun e => e.row = i)).map (·.b)).sum -
      ((es.filter (fun e => e.row = i)).map (fun e => e.val * (x[e.col]?).getD 0)).sum := by
    intro i
    rw [residual, cells_rep d es h, rhs_rep d es h, List.filter_map, List.filter_map, List.map_map,
      List.map_map]
    rfl
  rw [normSq, hlen]
  simp only [hres]
  rw [List.range_eq_range'] at hr ⊢
  have hf := filter_row es 0 hr
  have : (List.range' 0 es.length).map (fun i =>
      (((es.filter (fun e => e.row = i)).map (·.b)).sum -
      ((es.filter (fun e => e.row = i)).map (fun e => e.val * (x[e.col]?).getD 0)).sum) ^ 2) =
      ((List.range' 0 es.length).map (fun i => es.filter (fun e => e.row = i))).map (fun fs =>
        ((fs.map (·.b)).sum - (fs.map (fun e => e.val * (x[e.col]?).getD 0)).sum) ^ 2) := by
    rw [List.map_map]; rfl
  rw [this, hf, List.map_map, entryChi]
  congr 1
  apply List.map_congr_left
  intro e _
  simp

theorem linearChi_rep (X : Option (PriorDerivs α)) (es : List (Entry α)) (h : RepresentsOpt X es)
    (hr : es.map (·.row) = List.range es.length) (x : List α) : linearChi X x = entryChi es x := by
  cases X with
  | none => simp only [RepresentsOpt] at h; subst h; simp [linearChi, entryChi]
  | some d => exact normSq_rep d es h hr x

/-- A block only sees its own slice of the step. -/
theorem entryChi_shift (es : List (Entry α)) (x y : List α) (r0 : Nat) :
    entryChi (es.map (Entry.shift r0 x.length)) (x ++ y) = entryChi es y := by
  simp only [entryChi, List.map_map]
  congr 1
  apply List.map_congr_left
  intro e _
  simp [Entry.shift, List.getElem?_append_right]

theorem entryChi_left (es : List (Entry α)) (x y : List α) (h : ∀ e ∈ es, e.col < x.length) :
    entryChi es (x ++ y) = entryChi es x := by
  simp only [entryChi]
  congr 1
  apply List.map_congr_left
  intro e he
  rw [List.getElem?_append_left (h e he)]

theorem entryChi_append (es es' : List (Entry α)) (x : List α) :
    entryChi (es ++ es') x = entryChi es x + entryChi es' x := by
  simp [entryChi]

/-! the value of slot `i` after `setParams` -/

theorem setSlots_val (ss : List (Slot α)) (v : List α)
    (h : v.length = countLiquid (ss.map (·.liquid))) (i : Nat) (s : Slot α) (hs : ss[i]? = some s) :
    ((setSlots ss v).1.map (·.val))[i]? =
      if s.liquid then v[countLiquid ((ss.map (·.liquid)).take i)]? else some s.val := by
  induction ss generalizing v i with
  | nil => simp at hs
  | cons a ss ih =>
    cases hl : a.liquid with
    | true =>
      cases v with
      | nil => simp [hl] at h
      | cons x v =>
        cases i with
        | zero => simp at hs; subst hs; simp [setSlots, hl]
        | succ i =>
          have := ih v (by simpa [hl] using h) i (by simpa using hs)
          simpa [setSlots, hl] using this
    | false =>
      cases i with
      | zero => simp at hs; subst hs; simp [setSlots, hl]
      | succ i =>
        have := ih v (by simpa [hl] using h) i (by simpa using hs)
        simpa [setSlots, hl] using this

theorem gaussianChisq_ok (p : List α) (ts : List (Nat × α × α)) (h : ∀ t ∈ ts, t.1 < p.length) :
    gaussianChisq p ts =
      .ok ((ts.map (fun t => ((p[t.1]?).getD 0 - t.2.1) ^ 2 / t.2.2 ^ 2)).sum) := by
  induction ts with
  | nil => rfl
  | cons t ts ih =>
    obtain ⟨i, mu, s⟩ := t
    have hi : i < p.length := h (i, mu, s) (by simp)
    simp [gaussianChisq, List.getElem?_eq_getElem hi, ih (fun t ht => h t (by simp [ht])), Except.map]

theorem sum_filter_split (ts : List (Nat × α × α)) (fs : List Bool) (f g : Nat × α × α → α)
    (hf : ∀ t ∈ ts, fs[t.1]? ≠ some true → f t = g t) :
    (ts.map f).sum + ((ts.filter (fun t => fs[t.1]? = some true)).map g).sum =
      (ts.map g).sum + ((ts.filter (fun t => fs[t.1]? = some true)).map f).sum := by
  induction ts with
  | nil => simp
  | cons t ts ih =>
    have ih' := ih (fun t ht => hf t (by simp [ht]))
    by_cases ht : fs[t.1]? = some true
    · rw [List.filter_cons_of_pos (by simpa using ht)]
      simp only [List.map_cons, List.sum_cons]
      linear_combination ih'
    · have h0 := hf t (by simp) ht
      rw [List.filter_cons_of_neg (by simpa using ht)]
      simp only [List.map_cons, List.sum_cons, h0]
      linear_combination ih'

/-- Entries of a list as sums over its terms. -/
theorem entryChi_terms (fs : List Bool) (p : List α) (ts : List (Nat × α × α)) (es : List (Entry α))
    (x : List α)
    (h : es.map (fun e => (e.col, Entry.dat e)) =
        (ts.filter (fun t => fs[t.1]? = some true)).map (fun t =>
          (countLiquid (fs.take t.1), t.2.1, 1 / t.2.2,
            -((p[countLiquid (fs.take t.1)]?).getD 0 - t.2.1) / t.2.2))) :
    entryChi es x = ((ts.filter (fun t => fs[t.1]? = some true)).map (fun t =>
      ((p[countLiquid (fs.take t.1)]?).getD 0 + (x[countLiquid (fs.take t.1)]?).getD 0 - t.2.1) ^ 2 /
        t.2.2 ^ 2)).sum := by
  have : entryChi es x = ((es.map (fun e => (e.col, Entry.dat e))).map (fun y =>
      (y.2.2.2 - y.2.2.1 * (x[y.1]?).getD 0) ^ 2)).sum := by
    rw [List.map_map]; rfl
  rw [this, h, List.map_map]
  congr 1
  apply List.map_congr_left
  intro t _
  simp only [Function.comp]
  ring

theorem zipWith_add_append (a b c d : List α) (h : a.length = c.length) :
    List.zipWith (· + ·) (a ++ b) (c ++ d) = List.zipWith (· + ·) a c ++ List.zipWith (· + ·) b d :=
  List.zipWith_append h

mutual
/-- The master lemma: after a step `d`, the log-prior plus half the linearised chi-squared is the
same number as without the step. -/
theorem logPrior_step (t : Par α) (h : PriorsOK t) :
    ∃ X es, getLogPriorDerivatives t = .ok X ∧ RepresentsOpt X es ∧
      es.map (·.row) = List.range es.length ∧ ColSpec es (thawedPriors t) ∧
      ∃ L, getLogPrior t = .ok L ∧
        (PriorsThawed t → L = -(1 / 2) * entryChi es (List.replicate (numberOfParams t) 0)) ∧
        ∀ d : List α, d.length = numberOfParams t →
          getLogPrior (setParams t (List.zipWith (· + ·) (getParams t) d)).1 =
            .ok (L + (1 / 2) * entryChi es (List.replicate (numberOfParams t) 0)
              - (1 / 2) * entryChi es d) := by
  match t with
  | .scalar s =>
    refine ⟨none, [], rfl, rfl, rfl, ?_, 0, rfl, ?_, ?_⟩
    · intro j
      cases j <;> simp [thawedPriors, priorLeavesFrom, expected]
    · intro _; simp [entryChi]
    · intro d hd
      have : ∃ x, d = [x] := by
        cases d with
        | nil => simp [numberOfParams] at hd
        | cons x d => cases d with
          | nil => exact ⟨x, rfl⟩
          | cons y d => simp [numberOfParams] at hd
      obtain ⟨x, rfl⟩ := this
      simp [getParams, setParams, getLogPrior, entryChi]
  | .plist l =>
    have hok := h
    simp only [PriorsOK] at h
    obtain ⟨X, es0, k1, k2, k3, k4⟩ := getLogPriorDerivatives_ok (.plist l) hok
    obtain ⟨d0, es, h1, hrep, h3, h4⟩ := gaussianDerivs_ok (flags l) (getParams (.plist l))
      (by rw [getParams_length]; rfl) 0 l.priors (fun t ht => by simpa [flags] using (h t ht).1)
    -- the two derivations give the same entries
    have hX : X = some d0 := by
      simp only [getLogPriorDerivatives, h1, Except.map] at k1
      cases k1; rfl
    subst hX
    have hees : es0 = es := by
      simp only [RepresentsOpt] at k2
      have a1 := k2.rows.symm.trans hrep.rows
      have a2 := k2.cols.symm.trans hrep.cols
      have a3 := k2.vals.symm.trans hrep.vals
      have a4 := k2.bs.symm.trans hrep.bs
      have a5 := k2.mus.symm.trans hrep.mus
      clear k1 k2 k3 k4 h1 hrep h3 h4
      induction es0 generalizing es with
      | nil => cases es with
        | nil => rfl
        | cons e es => simp at a1
      | cons e0 es0 ih =>
        cases es with
        | nil => simp at a1
        | cons e es =>
          simp only [List.map_cons, List.cons.injEq, and_true] at a1 a2 a3 a4 a5
          rw [ih es a1.2 a2.2 a3.2 a4.2 a5.2]
          congr 1
          cases e0; cases e
          simp_all
    subst hees
    have hv : ∀ t ∈ l.priors, t.1 < (vals l).length := fun t ht => by
      simpa [vals] using (h t ht).1
    have hc := gaussianChisq_ok (vals l) l.priors hv
    have hlen : (vals l).length = (flags l).length := by simp [vals, flags]
    have hrank : ∀ t ∈ l.priors, (flags l)[t.1]? = some true →
        (getParams (.plist l))[countLiquid ((flags l).take t.1)]? = (vals l)[t.1]? := by
      intro t _ hft
      rw [getParams]
      exact liquidArray_get (flags l) (vals l) hlen t.1 hft
    refine ⟨some d0, es0, k1, k2, k3, k4, _, by simp only [getLogPrior, gaussianLogPrior, hc]; rfl,
      ?_, ?_⟩
    · intro hth
      simp only [PriorsThawed] at hth
      rw [entryChi_terms (flags l) (getParams (.plist l)) l.priors es0 _ h4]
      have hall : l.priors.filter (fun t => (flags l)[t.1]? = some true) = l.priors := by
        rw [List.filter_eq_self]
        intro t ht
        have hlt := (h t ht).1
        have := hth t ht l.slots[t.1] (List.getElem?_eq_getElem hlt)
        simp [flags, List.getElem?_map, List.getElem?_eq_getElem hlt, this]
      rw [hall]
      congr 2
      apply List.map_congr_left
      intro t ht
      have hft : (flags l)[t.1]? = some true := by
        have := List.filter_eq_self.mp hall t ht
        simpa using this
      rw [hrank t ht hft]
      have hz : ((List.replicate (numberOfParams (.plist l)) (0 : α))[countLiquid
          ((flags l).take t.1)]?).getD 0 = 0 := by
        rw [List.getElem?_replicate]; split <;> rfl
      rw [hz]; ring
    · intro d hd
      have hlenv : (List.zipWith (· + ·) (getParams (.plist l)) d).length =
          countLiquid (l.slots.map (·.liquid)) := by
        rw [List.length_zipWith, getParams_length, hd]
        simp [numberOfParams, flags]
      have hslen : ((setSlots l.slots (List.zipWith (· + ·) (getParams (.plist l)) d)).1).length =
          l.slots.length := by
        have := congrArg List.length (setSlots_flags l.slots
          (List.zipWith (· + ·) (getParams (.plist l)) d))
        simpa using this
      have hc' := gaussianChisq_ok (vals { l with slots :=
        (setSlots l.slots (List.zipWith (· + ·) (getParams (.plist l)) d)).1 }) l.priors
        (fun t ht => by simp only [vals, List.length_map, hslen]; exact (h t ht).1)
      simp only [setParams, getLogPrior, gaussianLogPrior, hc', Except.map, Except.ok.injEq]
      rw [entryChi_terms (flags l) (getParams (.plist l)) l.priors es0 _ h4,
        entryChi_terms (flags l) (getParams (.plist l)) l.priors es0 _ h4]
      -- values after the step
      have hval : ∀ t ∈ l.priors,
          ((vals { l with slots := (setSlots l.slots
            (List.zipWith (· + ·) (getParams (.plist l)) d)).1 })[t.1]?).getD 0 =
          if (flags l)[t.1]? = some true then
            ((getParams (.plist l))[countLiquid ((flags l).take t.1)]?).getD 0 +
              (d[countLiquid ((flags l).take t.1)]?).getD 0
          else ((vals l)[t.1]?).getD 0 := by
        intro t ht
        have hlt := (h t ht).1
        have hs : l.slots[t.1]? = some l.slots[t.1] := List.getElem?_eq_getElem hlt
        have := setSlots_val l.slots (List.zipWith (· + ·) (getParams (.plist l)) d) hlenv t.1 _ hs
        simp only [vals]
        rw [this]
        have hfl : (flags l)[t.1]? = some l.slots[t.1].liquid := by
          simp [flags, List.getElem?_map, hs]
        cases hl : l.slots[t.1].liquid with
        | true =>
          rw [hl] at hfl
          have hr := countLiquid_take_lt (flags l) t.1 hfl
          have hg : countLiquid ((flags l).take t.1) < (getParams (.plist l)).length := by
            rw [getParams_length]; exact hr
          have hd' : countLiquid ((flags l).take t.1) < d.length := by
            rw [hd]; exact hr
          simp only [if_true, hfl]
          rw [show countLiquid ((l.slots.map (·.liquid)).take t.1) =
            countLiquid ((flags l).take t.1) from rfl]
          simp [List.getElem?_zipWith, List.getElem?_eq_getElem hg, List.getElem?_eq_getElem hd']
        | false =>
          rw [hl] at hfl
          simp [hfl, List.getElem?_map, hs]
      have hA : (l.priors.map (fun t => (((vals { l with slots := (setSlots l.slots
            (List.zipWith (· + ·) (getParams (.plist l)) d)).1 })[t.1]?).getD 0 - t.2.1) ^ 2 /
            t.2.2 ^ 2)).sum = (l.priors.map (fun t =>
            ((if (flags l)[t.1]? = some true then
            ((getParams (.plist l))[countLiquid ((flags l).take t.1)]?).getD 0 +
              (d[countLiquid ((flags l).take t.1)]?).getD 0
          else ((vals l)[t.1]?).getD 0) - t.2.1) ^ 2 / t.2.2 ^ 2)).sum := by
        congr 1
        apply List.map_congr_left
        intro t ht
        rw [hval t ht]
      rw [hA]
      have hsplit := sum_filter_split l.priors (flags l)
        (fun t => ((if (flags l)[t.1]? = some true then
            ((getParams (.plist l))[countLiquid ((flags l).take t.1)]?).getD 0 +
              (d[countLiquid ((flags l).take t.1)]?).getD 0
          else ((vals l)[t.1]?).getD 0) - t.2.1) ^ 2 / t.2.2 ^ 2)
        (fun t => (((vals l)[t.1]?).getD 0 - t.2.1) ^ 2 / t.2.2 ^ 2)
        (by intro t _ hne; simp [hne])
      have hB : ((l.priors.filter (fun t => (flags l)[t.1]? = some true)).map (fun t =>
          ((if (flags l)[t.1]? = some true then
            ((getParams (.plist l))[countLiquid ((flags l).take t.1)]?).getD 0 +
              (d[countLiquid ((flags l).take t.1)]?).getD 0
          else ((vals l)[t.1]?).getD 0) - t.2.1) ^ 2 / t.2.2 ^ 2)) =
          (l.priors.filter (fun t => (flags l)[t.1]? = some true)).map (fun t =>
      (((getParams (.plist l))[countLiquid ((flags l).take t.1)]?).getD 0 +
        (d[countLiquid ((flags l).take t.1)]?).getD 0 - t.2.1) ^ 2 / t.2.2 ^ 2) := by
        apply List.map_congr_left
        intro t ht
        have : (flags l)[t.1]? = some true := by simpa using (List.mem_filter.mp ht).2
        simp [this]
      have hC : ((l.priors.filter (fun t => (flags l)[t.1]? = some true)).map (fun t =>
          (((vals l)[t.1]?).getD 0 - t.2.1) ^ 2 / t.2.2 ^ 2)) =
          (l.priors.filter (fun t => (flags l)[t.1]? = some true)).map (fun t =>
      (((getParams (.plist l))[countLiquid ((flags l).take t.1)]?).getD 0 +
        ((List.replicate (numberOfParams (.plist l)) (0 : α))[countLiquid
          ((flags l).take t.1)]?).getD 0 - t.2.1) ^ 2 / t.2.2 ^ 2) := by
        apply List.map_congr_left
        intro t ht
        have hm := List.mem_filter.mp ht
        have hft : (flags l)[t.1]? = some true := by simpa using hm.2
        rw [hrank t hm.1 hft]
        have hz : ((List.replicate (numberOfParams (.plist l)) (0 : α))[countLiquid
            ((flags l).take t.1)]?).getD 0 = 0 := by
          rw [List.getElem?_replicate]; split <;> rfl
        rw [hz]; ring
      rw [hB, hC] at hsplit
      linear_combination (-(1 / 2)) * hsplit
  | .multi subs =>
    obtain ⟨X, es0, k1, k2, k3, k4⟩ := getLogPriorDerivatives_ok (.multi subs) h
    obtain ⟨xs, es, h1, hrep, h3, h4, L, hL, hth, hstep⟩ := logPriorSubs_step subs
      (by simpa [PriorsOK] using h)
    have hr0 := hrep 0 0 ⟨[], [], [], [], []⟩ [] ⟨rfl, rfl, rfl, rfl, rfl⟩
    rw [show es.map (Entry.shift 0 0) = es from List.map_id es] at hr0
    simp only [List.nil_append] at hr0
    have hX : RepresentsOpt X es := by
      simp only [getLogPriorDerivatives, h1, Except.map, stack, Except.ok.injEq] at k1
      subst k1
      split
      · rename_i hrows
        have := hr0.rows
        rw [hrows] at this
        simpa [RepresentsOpt] using this.symm
      · exact hr0
    refine ⟨X, es, k1, hX, h3, ?_, L, by simpa [getLogPrior] using hL, ?_, ?_⟩
    · simpa [thawedPriors, priorLeavesFrom, thawedPriorsSubs] using h4
    · intro ht
      simpa [numberOfParams] using hth (by simpa [PriorsThawed] using ht)
    · intro d hd
      simpa [setParams, getParams, getLogPrior, numberOfParams] using
        hstep d (by simpa [numberOfParams] using hd)
theorem logPriorSubs_step (t : Subs α) (h : PriorsOKSubs t) :
    ∃ xs es, subDerivs t = .ok xs ∧
      (∀ r0 c0 acc eacc, Represents acc eacc →
        Represents (stackLoop r0 c0 acc xs) (eacc ++ es.map (Entry.shift r0 c0))) ∧
      es.map (·.row) = List.range es.length ∧ ColSpec es (thawedPriorsSubs t) ∧
      ∃ L, getLogPriorSubs t = .ok L ∧
        (PriorsThawedSubs t → L = -(1 / 2) * entryChi es (List.replicate (numberOfParamsSubs t) 0)) ∧
        ∀ d : List α, d.length = numberOfParamsSubs t →
          getLogPriorSubs (setParamsSubs t (List.zipWith (· + ·) (getParamsSubs t) d)).1 =
            .ok (L + (1 / 2) * entryChi es (List.replicate (numberOfParamsSubs t) 0)
              - (1 / 2) * entryChi es d) := by
  match t with
  | .nil =>
    refine ⟨[], [], rfl, ?_, rfl, ?_, 0, rfl, ?_, ?_⟩
    · intro r0 c0 acc eacc hacc; simpa [stackLoop] using hacc
    · intro j; simp [thawedPriorsSubs, priorLeavesFromSubs]
    · intro _; simp [entryChi]
    · intro d hd; simp [setParamsSubs, getLogPriorSubs, entryChi]
  | .cons nm false s rest =>
    simp only [PriorsOKSubs] at h
    obtain ⟨xs, es, h1, hrep, h3, h4, L, hL, hth, hstep⟩ := logPriorSubs_step rest h.2
    refine ⟨xs, es, by simp [subDerivs, h1], hrep, h3, by
      rw [thawedPriorsSubs_cons_false]; exact h4, L, by simp [getLogPriorSubs, hL], ?_, ?_⟩
    · intro ht
      simp only [PriorsThawedSubs] at ht
      simpa [numberOfParamsSubs] using hth ht.2
    · intro d hd
      have := hstep d (by simpa [numberOfParamsSubs] using hd)
      simpa [setParamsSubs, getParamsSubs, getLogPriorSubs, numberOfParamsSubs] using this
  | .cons nm true s rest =>
    simp only [PriorsOKSubs] at h
    obtain ⟨X, es, g1, g2, g3, g4, L1, gL, gth, gstep⟩ := logPrior_step s h.1
    obtain ⟨xs, es', h1, hrep, h3, h4, L2, hL, hth, hstep⟩ := logPriorSubs_step rest h.2
    have hcol : ∀ e ∈ es, e.col < numberOfParams s := by
      intro e he; rw [← thawedPriors_length]; exact g4.lt e he
    have hsplit : ∀ x y : List α, x.length = numberOfParams s →
        entryChi (es ++ es'.map (Entry.shift es.length (numberOfParams s))) (x ++ y) =
          entryChi es x + entryChi es' y := by
      intro x y hx
      rw [entryChi_append, entryChi_left es x y (by rw [hx]; exact hcol), ← hx, entryChi_shift]
    have hzero : (List.replicate (numberOfParamsSubs (.cons nm true s rest)) (0 : α)) =
        List.replicate (numberOfParams s) 0 ++ List.replicate (numberOfParamsSubs rest) 0 := by
      simp [numberOfParamsSubs]
    refine ⟨(numberOfParams s, X) :: xs,
      es ++ es'.map (Entry.shift es.length (numberOfParams s)), by simp [subDerivs, g1, h1],
      ?_, ?_, ?_, L1 + L2, by simp [getLogPriorSubs, gL, hL], ?_, ?_⟩
    · intro r0 c0 acc eacc hacc
      cases X with
      | none =>
        simp only [RepresentsOpt] at g2
        subst g2
        have := hrep r0 (c0 + numberOfParams s) acc eacc hacc
        simpa [stackLoop, Entry.shift_shift, Function.comp_def] using this
      | some d =>
        simp only [RepresentsOpt] at g2
        have hend : rowsEnd d.rows = es.length := by rw [g2.rows]; exact rowsEnd_rep es g3
        have := hrep (r0 + es.length) (c0 + numberOfParams s) _ _ (hacc.stackBlock g2 r0 c0)
        simpa [stackLoop, hend, Entry.shift_shift, Function.comp_def] using this
    · simp only [List.map_append, List.map_map, g3, List.length_append, List.length_map]
      have : es'.map ((fun e => e.row) ∘ Entry.shift es.length (numberOfParams s)) =
          (es'.map (·.row)).map (· + es.length) := by
        rw [List.map_map]; rfl
      rw [this, h3, List.range_add]
      simp [Nat.add_comm]
    · rw [thawedPriorsSubs_cons_true, ← thawedPriors_length]
      exact g4.append h4 es.length
    · intro ht
      simp only [PriorsThawedSubs] at ht
      rw [hzero, hsplit _ _ (by simp), gth (ht.1 trivial), hth ht.2]
      ring
    · intro d hd
      simp only [numberOfParamsSubs, if_true] at hd
      obtain ⟨d1, d2, rfl, hd1⟩ : ∃ d1 d2, d = d1 ++ d2 ∧ d1.length = numberOfParams s :=
        ⟨d.take (numberOfParams s), d.drop (numberOfParams s), by simp, by simp; omega⟩
      have hd2 : d2.length = numberOfParamsSubs rest := by simp at hd; omega
      have gs := gstep d1 hd1
      have hs := hstep d2 hd2
      have hz : List.zipWith (· + ·) (getParamsSubs (.cons nm true s rest)) (d1 ++ d2) =
          List.zipWith (· + ·) (getParams s) d1 ++ List.zipWith (· + ·) (getParamsSubs rest) d2 := by
        simp only [getParamsSubs, if_true]
        exact List.zipWith_append (by rw [getParams_length, hd1])
      have hzl : (List.zipWith (· + ·) (getParams s) d1).length = numberOfParams s := by
        rw [List.length_zipWith, getParams_length, hd1]; simp
      rw [hz, hzero, hsplit _ _ (by simp), hsplit _ _ hd1]
      have e1 : (List.zipWith (· + ·) (getParams s) d1 ++
          List.zipWith (· + ·) (getParamsSubs rest) d2).take (numberOfParams s) =
          List.zipWith (· + ·) (getParams s) d1 := by rw [← hzl]; simp
      have e2 : (List.zipWith (· + ·) (getParams s) d1 ++
          List.zipWith (· + ·) (getParamsSubs rest) d2).drop (numberOfParams s) =
          List.zipWith (· + ·) (getParamsSubs rest) d2 := by rw [← hzl]; simp
      have hnone := (setParams_get s (List.zipWith (· + ·) (getParams s) d1) hzl).1
      simp only [setParamsSubs, if_true, e1, e2, hnone, getLogPriorSubs, gs, hs, Except.ok.injEq]
      ring
  | .missing nm l rest =>
    obtain ⟨xs, es, h1, hrep, h3, h4, L, hL, hth, hstep⟩ := logPriorSubs_step rest
      (by simpa [PriorsOKSubs] using h)
    refine ⟨xs, es, by simp [subDerivs, h1], hrep, h3, by
      simpa [thawedPriorsSubs, priorLeavesFromSubs] using h4, L,
      by simp [getLogPriorSubs, hL], ?_, ?_⟩
    · intro ht
      simpa [numberOfParamsSubs] using hth (by simpa [PriorsThawedSubs] using ht)
    · intro d hd
      have := hstep d (by simpa [numberOfParamsSubs] using hd)
      simpa [setParamsSubs, getParamsSubs, getLogPriorSubs, numberOfParamsSubs] using this
end

end chi

/-! ### C16 -/

/-- Column by column, the reported (index, mean, sigma) are the priors of the parameter there. -/
def PriorIdxSpec (gs : List (Nat × α × α)) (tp : List (α × List (α × α))) : Prop :=
  ∀ j, (gs.filter (fun g => g.1 = j)).map (·.2) = ((tp[j]?).map (·.2)).getD []

theorem PriorIdxSpec.lt {gs : List (Nat × α × α)} {tp : List (α × List (α × α))}
    (h : PriorIdxSpec gs tp) : ∀ g ∈ gs, g.1 < tp.length := by
  intro g hg
  by_cases hlt : g.1 < tp.length
  · exact hlt
  · have := h g.1
    rw [List.getElem?_eq_none (Nat.le_of_not_lt hlt)] at this
    simp only [Option.map_none, Option.getD_none, List.map_eq_nil_iff, List.filter_eq_nil_iff] at this
    exact absurd (by simp) (this g hg)

theorem PriorIdxSpec.append {gs gs' : List (Nat × α × α)} {tp tp' : List (α × List (α × α))}
    (h : PriorIdxSpec gs tp) (h' : PriorIdxSpec gs' tp') :
    PriorIdxSpec (gs ++ gs'.map (fun g => (tp.length + g.1, g.2))) (tp ++ tp') := by
  intro j
  rw [List.filter_append, List.map_append, List.filter_map, List.map_map]
  by_cases hj : j < tp.length
  · rw [List.getElem?_append_left hj, ← h j]
    have : gs'.filter ((fun g : Nat × α × α => decide (g.1 = j)) ∘
        fun g => (tp.length + g.1, g.2)) = [] := by
      simp only [List.filter_eq_nil_iff, Function.comp, decide_eq_true_eq]
      intro e _; omega
    simp [this]
  · have h1 : gs.filter (fun g => decide (g.1 = j)) = [] := by
      simp only [List.filter_eq_nil_iff, decide_eq_true_eq]
      intro e he
      have := h.lt e he
      omega
    rw [List.getElem?_append_right (by omega), ← h' (j - tp.length), h1]
    simp only [List.map_nil, List.nil_append]
    have : gs'.filter ((fun g : Nat × α × α => decide (g.1 = j)) ∘
        fun g => (tp.length + g.1, g.2)) = gs'.filter (fun g => g.1 = j - tp.length) := by
      apply List.filter_congr
      intro e _
      simp only [Function.comp, decide_eq_decide]
      omega
    rw [this]
    rfl

theorem countLiquid_all (fs : List Bool) (h : ∀ b ∈ fs, b = true) : countLiquid fs = fs.length := by
  induction fs with
  | nil => rfl
  | cons b fs ih =>
    have := h b (by simp)
    subst this
    simp [ih (fun b hb => h b (by simp [hb]))]

mutual
theorem getGaussianPriors_ok [Zero α] (t : Par α) (hok : PriorsOK t) (h : ListsThawed t) :
    PriorIdxSpec (getGaussianPriors t) (thawedPriors t) := by
  match t with
  | .scalar s => intro j; cases j <;> simp [getGaussianPriors, thawedPriors, priorLeavesFrom]
  | .plist l =>
    simp only [ListsThawed] at h
    simp only [PriorsOK] at hok
    intro j
    have hall : ∀ n, countLiquid ((flags l).take n) = min n (flags l).length := by
      intro n
      rw [countLiquid_all]
      · simp
      · intro b hb
        have := List.mem_of_mem_take hb
        simp only [flags, List.mem_map] at this
        obtain ⟨s, hs, rfl⟩ := this
        exact h s hs
    have hcount : countLiquid (flags l) = l.slots.length := by
      have := hall (flags l).length
      rw [List.take_of_length_le (Nat.le_refl _)] at this
      simpa [flags] using this
    rcases thawedPriors_plist_get l j with ⟨hn, hge⟩ | ⟨i, s, hs, hsl, hr, hget⟩
    · rw [thawedPriors, hn]
      simp only [getGaussianPriors, Option.map_none, Option.getD_none, List.map_eq_nil_iff,
        List.filter_eq_nil_iff, decide_eq_true_eq]
      intro t ht
      have := (hok t ht).1
      omega
    · have : i = j := by
        rw [hall] at hr
        have := lt_of_getElem? hs
        simp [flags] at hr
        omega
      subst this
      rw [thawedPriors, hget]
      simp [getGaussianPriors]
  | .multi subs =>
    have := getGaussianPriorsSubs_ok subs (by simpa [PriorsOK] using hok)
      (by simpa [ListsThawed] using h)
    obtain ⟨gs, h1, h2⟩ := this
    intro j
    have h1' := h1 0
    simp only [Nat.zero_add] at h1'
    have : gs.map (fun g => (g.1, g.2)) = gs := by simp
    simp only [getGaussianPriors, h1', this]
    simpa [thawedPriors, priorLeavesFrom, thawedPriorsSubs] using h2 j
theorem getGaussianPriorsSubs_ok [Zero α] (t : Subs α) (hok : PriorsOKSubs t)
    (h : ListsThawedSubs t) :
    ∃ gs, (∀ off, getGaussianPriorsSubs off t = gs.map (fun g => (off + g.1, g.2))) ∧
      PriorIdxSpec gs (thawedPriorsSubs t) := by
  match t with
  | .nil =>
    refine ⟨[], fun off => rfl, ?_⟩
    intro j; simp [thawedPriorsSubs, priorLeavesFromSubs]
  | .cons nm false s rest =>
    simp only [ListsThawedSubs] at h
    simp only [PriorsOKSubs] at hok
    obtain ⟨gs, h1, h2⟩ := getGaussianPriorsSubs_ok rest hok.2 h.2
    exact ⟨gs, fun off => by simp [getGaussianPriorsSubs, h1],
      by rw [thawedPriorsSubs_cons_false]; exact h2⟩
  | .cons nm true s rest =>
    simp only [ListsThawedSubs] at h
    simp only [PriorsOKSubs] at hok
    have g := getGaussianPriors_ok s hok.1 (h.1 trivial)
    obtain ⟨gs, h1, h2⟩ := getGaussianPriorsSubs_ok rest hok.2 h.2
    refine ⟨getGaussianPriors s ++ gs.map (fun g => ((thawedPriors s).length + g.1, g.2)), ?_, ?_⟩
    · intro off
      simp [getGaussianPriorsSubs, h1, thawedPriors_length, Nat.add_assoc]
    · rw [thawedPriorsSubs_cons_true]
      exact g.append h2
  | .missing nm l rest =>
    obtain ⟨gs, h1, h2⟩ := getGaussianPriorsSubs_ok rest (by simpa [PriorsOKSubs] using hok)
      (by simpa [ListsThawedSubs] using h)
    exact ⟨gs, fun off => by simp [getGaussianPriorsSubs, h1], by
      simpa [thawedPriorsSubs, priorLeavesFromSubs] using h2⟩
end

end Verif.Params
