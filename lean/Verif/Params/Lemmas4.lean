import Verif.Params.Lemmas3
import Verif.Params.PriorSpec
import Mathlib.Tactic.Ring
import Mathlib.Tactic.FieldSimp
import Mathlib.Tactic.LinearCombination

set_option linter.unusedSimpArgs false
set_option linter.unusedVariables false

namespace Verif.Params

open Verif

variable {α : Type}

/-! ### C11 -/

theorem edit_refines {β : Type} [DecidableEq β] (c : Cont β) (h : c.liquid.length = c.subs.length)
    (e : Edit β) :
    ((c.edit e).1.liquid.length = (c.edit e).1.subs.length) ∧
    (c.edit e).1.pairs = specEdit c.pairs e := by
  obtain ⟨subs, liquid⟩ := c
  simp only at h
  cases e with
  | append x =>
    refine ⟨by simp [Cont.edit, h], ?_⟩
    simp [Cont.edit, Cont.pairs, specEdit, List.zip_append h.symm]
  | prepend x => exact ⟨by simp [Cont.edit, h], by simp [Cont.edit, Cont.pairs, specEdit]⟩
  | extend xs =>
    refine ⟨by simp [Cont.edit, h], ?_⟩
    simp only [Cont.edit, Cont.pairs, specEdit, List.zip_append h.symm]
    congr 1
    induction xs with
    | nil => rfl
    | cons x xs ih => simp [List.replicate_succ, ih]
  | remove x =>
    simp only [Cont.edit, specEdit, Cont.pairs]
    induction subs generalizing liquid with
    | nil =>
      have : liquid = [] := by simpa using h
      subst this
      simp
    | cons s subs ih =>
      cases liquid with
      | nil => simp at h
      | cons l liquid =>
        simp only [List.findIdx?_cons]
        by_cases hs : s = x
        · subst hs
          simp only [decide_true, if_true]
          exact ⟨by simpa using h, by simp⟩
        · have := ih liquid (by simpa using h)
          simp only [hs, decide_false, Bool.false_eq_true, if_false]
          cases hf : subs.findIdx? (fun y => decide (y = x)) with
          | none =>
            simp only [hf, Option.map_none] at this ⊢
            exact ⟨by simpa using h, by simpa [List.eraseP_cons, hs] using this.2⟩
          | some i =>
            simp only [hf, Option.map_some] at this ⊢
            refine ⟨by simpa using this.1, ?_⟩
            simp [List.eraseP_cons, hs, this.2]
  | freeze i =>
    simp only [Cont.edit, specEdit, Cont.pairs]
    by_cases hi : i < liquid.length
    · simp only [hi, if_true]
      refine ⟨by simpa using h, ?_⟩
      apply List.ext_getElem?
      intro j
      by_cases hj : i = j
      · subst hj
        have hi' : i < subs.length := by omega
        simp [List.getElem?_zip_eq_some, List.getElem?_modify, List.zip_eq_zipWith,
          List.getElem?_zipWith, hi, hi']
      · simp [List.getElem?_modify, List.zip_eq_zipWith, List.getElem?_zipWith, hj,
          List.getElem?_set_ne hj]
    · simp only [hi, if_false]
      refine ⟨h, ?_⟩
      rw [List.modify_eq_self]
      simp; omega
  | thaw i =>
    simp only [Cont.edit, specEdit, Cont.pairs]
    by_cases hi : i < liquid.length
    · simp only [hi, if_true]
      refine ⟨by simpa using h, ?_⟩
      apply List.ext_getElem?
      intro j
      by_cases hj : i = j
      · subst hj
        have hi' : i < subs.length := by omega
        simp [List.getElem?_zip_eq_some, List.getElem?_modify, List.zip_eq_zipWith,
          List.getElem?_zipWith, hi, hi']
      · simp [List.getElem?_modify, List.zip_eq_zipWith, List.getElem?_zipWith, hj,
          List.getElem?_set_ne hj]
    · simp only [hi, if_false]
      refine ⟨h, ?_⟩
      rw [List.modify_eq_self]
      simp; omega

/-! ### C14 -/

theorem rowsEnd_range' (n : Nat) : ∀ (k m : Nat), m ≤ k →
    ((List.range' k n).foldl (fun m x => max m (x + 1)) m) = if n = 0 then m else k + n := by
  induction n with
  | zero => intro k m h; simp
  | succ n ih =>
    intro k m h
    simp only [List.range'_succ, List.foldl_cons]
    rw [ih (k + 1) (max m (k + 1)) (by omega)]
    split <;> simp <;> omega

theorem rowsEnd_rep (es : List (Entry α)) (h : es.map (·.row) = List.range es.length) :
    rowsEnd (es.map (fun e => [e.row])) = es.length := by
  have : (es.map (fun e => [e.row])).flatten = List.range es.length := by
    rw [← h]
    clear h
    induction es with
    | nil => rfl
    | cons e es ih => simpa using ih
  rw [rowsEnd, this, List.range_eq_range', rowsEnd_range' es.length 0 0 (by omega)]
  split <;> omega

/-- The shift applied to a block when it is stacked. -/
def Entry.shift (r0 c0 : Nat) (e : Entry α) : Entry α :=
  { e with row := e.row + r0, col := e.col + c0 }

/-- The data of an entry apart from its position. -/
def Entry.dat (e : Entry α) : α × α × α := (e.mu, e.val, e.b)

/-- What the entries in one column must be. -/
def expected [Field α] (x : α × List (α × α)) : List (α × α × α) :=
  x.2.map (fun ms => (ms.1, 1 / ms.2, -(x.1 - ms.1) / ms.2))

/-- Column by column, the entries are the priors of the parameter at that position. -/
def ColSpec [Field α] (es : List (Entry α)) (tp : List (α × List (α × α))) : Prop :=
  ∀ j, (es.filter (fun e => e.col = j)).map Entry.dat = ((tp[j]?).map expected).getD []

theorem ColSpec.lt [Field α] {es : List (Entry α)} {tp : List (α × List (α × α))}
    (h : ColSpec es tp) : ∀ e ∈ es, e.col < tp.length := by
  intro e he
  by_cases hlt : e.col < tp.length
  · exact hlt
  · have := h e.col
    rw [List.getElem?_eq_none (Nat.le_of_not_lt hlt)] at this
    simp only [Option.map_none, Option.getD_none, List.map_eq_nil_iff, List.filter_eq_nil_iff] at this
    exact absurd (by simp) (this e he)

theorem ColSpec.append [Field α] {es es' : List (Entry α)} {tp tp' : List (α × List (α × α))}
    (h : ColSpec es tp) (h' : ColSpec es' tp') (r0 : Nat) :
    ColSpec (es ++ es'.map (Entry.shift r0 tp.length)) (tp ++ tp') := by
  intro j
  rw [List.filter_append, List.map_append]
  have hmap : ((es'.map (Entry.shift r0 tp.length)).filter (fun e => e.col = j)).map Entry.dat =
      (es'.filter (fun e => e.col + tp.length = j)).map Entry.dat := by
    induction es' with
    | nil => rfl
    | cons e es' ih =>
      clear ih
      rw [List.filter_map, List.map_map]
      rfl
  rw [hmap]
  by_cases hj : j < tp.length
  · rw [List.getElem?_append_left hj, h j]
    have : es'.filter (fun e => decide (e.col + tp.length = j)) = [] := by
      simp only [List.filter_eq_nil_iff, decide_eq_true_eq]
      intro e _; omega
    simp [this]
  · have h1 : es.filter (fun e => decide (e.col = j)) = [] := by
      simp only [List.filter_eq_nil_iff, decide_eq_true_eq]
      intro e he
      have := h.lt e he
      omega
    rw [List.getElem?_append_right (by omega), ← h' (j - tp.length), h1]
    simp only [List.map_nil, List.nil_append]
    congr 1
    apply List.filter_congr
    intro e _
    simp only [decide_eq_decide]
    omega

/-- The entries of a `ParamList`, in the order of its prior terms. -/
def termEntry [Field α] (fs : List Bool) (p : List α) (t : Nat × α × α) (row : Nat) : Entry α :=
  let i := countLiquid (fs.take t.1)
  { row := row, col := i, val := 1 / t.2.2, b := -((p[i]?).getD 0 - t.2.1) / t.2.2, mu := t.2.1 }

theorem gaussianDerivs_ok [Field α] (fs : List Bool) (p : List α) (hp : p.length = countLiquid fs)
    (row0 : Nat) (ts : List (Nat × α × α)) (h : ∀ t ∈ ts, t.1 < fs.length) :
    ∃ d es, gaussianDerivs fs p row0 ts = .ok d ∧ Represents d es ∧
      es.map (·.row) = List.range' row0 es.length ∧
      es.map (fun e => (e.col, Entry.dat e)) =
        (ts.filter (fun t => fs[t.1]? = some true)).map (fun t =>
          (countLiquid (fs.take t.1), t.2.1, 1 / t.2.2,
            -((p[countLiquid (fs.take t.1)]?).getD 0 - t.2.1) / t.2.2)) := by
  induction ts generalizing row0 with
  | nil => exact ⟨⟨[], [], [], [], []⟩, [], rfl, ⟨rfl, rfl, rfl, rfl, rfl⟩, rfl, rfl⟩
  | cons t ts ih =>
    obtain ⟨j, mu, sigma⟩ := t
    have hj : j < fs.length := h (j, mu, sigma) (by simp)
    have hjs : fs[j]? = some fs[j] := List.getElem?_eq_getElem hj
    cases hb : fs[j] with
    | false =>
      rw [hb] at hjs
      obtain ⟨d, es, h1, h2, h3, h4⟩ := ih row0 (fun t ht => h t (by simp [ht]))
      refine ⟨d, es, ?_, h2, h3, ?_⟩
      · simp [gaussianDerivs, liquidIndexOfIndex, hjs, h1]
      · rw [h4, List.filter_cons_of_neg (by simp [hjs])]
    | true =>
      rw [hb] at hjs
      obtain ⟨d, es, h1, h2, h3, h4⟩ := ih (row0 + 1) (fun t ht => h t (by simp [ht]))
      have hlt : countLiquid (fs.take j) < p.length := by
        rw [hp]; exact countLiquid_take_lt fs j hjs
      have hne : ¬ ((countLiquid (fs.take j) : Nat) : Int) = -1 := by omega
      refine ⟨⟨[row0] :: d.rows, countLiquid (fs.take j) :: d.cols, [1 / sigma] :: d.vals,
        [-(p[countLiquid (fs.take j)] - mu) / sigma] :: d.bs, [mu] :: d.mus⟩,
        termEntry fs p (j, mu, sigma) row0 :: es, ?_, ?_, ?_, ?_⟩
      · simp only [gaussianDerivs, liquidIndexOfIndex, hjs, hne, if_false, Int.toNat_natCast,
          List.getElem?_eq_getElem hlt, h1]
      · exact ⟨by simp [h2.rows, termEntry], by simp [h2.cols, termEntry],
          by simp [h2.vals, termEntry], by simp [h2.bs, termEntry, List.getElem?_eq_getElem hlt],
          by simp [h2.mus, termEntry]⟩
      · simp [List.range'_succ, h3, termEntry]
      · rw [List.filter_cons_of_pos (by simp [hjs]), List.map_cons, List.map_cons, h4]
        simp [termEntry, Entry.dat]

/-- The thawed leaves of a list and their priors, by position. -/
theorem thawedPriors_plist_get (l : PList α) (j : Nat) :
    ((((priorLeavesFrom true (.plist l)).filter (·.1)).map (·.2))[j]? = none ∧
      countLiquid (flags l) ≤ j) ∨
    ∃ i s, l.slots[i]? = some s ∧ s.liquid = true ∧ countLiquid ((flags l).take i) = j ∧
      (((priorLeavesFrom true (.plist l)).filter (·.1)).map (·.2))[j]? =
        some (s.val, (l.priors.filter (fun t => t.1 = i)).map (·.2)) := by
  have key := liquidArray_zipIdx (fun (s : Slot α) (i : Nat) =>
      (s.val, (l.priors.filter (fun t => t.1 = i)).map (·.2))) (·.liquid) l.slots
      (l.slots.zipIdx.map (fun x => (x.1.val, (l.priors.filter (fun t => t.1 = x.2)).map (·.2)))) 0
      (by simp) (by
        intro i s hs
        simp [List.getElem?_zipIdx, hs])
  simp only [priorLeavesFrom, Bool.true_and]
  rw [← key]
  have hlen : (l.slots.zipIdx.map (fun x => (x.1.val,
      (l.priors.filter (fun t => t.1 = x.2)).map (·.2)))).length = (l.slots.map (·.liquid)).length := by
    simp
  by_cases hj : j < countLiquid (flags l)
  · right
    obtain ⟨i, _, h2, h3⟩ := indexLiquid_ok (flags l) j hj
    have h2' : ∃ s, l.slots[i]? = some s ∧ s.liquid = true := by
      simpa [flags, List.getElem?_map, Option.map_eq_some_iff] using h2
    obtain ⟨s, hs, hsl⟩ := h2'
    refine ⟨i, s, hs, hsl, h3, ?_⟩
    have := liquidArray_get (l.slots.map (fun s : Slot α => s.liquid)) _ hlen i h2
    rw [show countLiquid ((l.slots.map (·.liquid)).take i) = j from h3] at this
    rw [this]
    simp [List.getElem?_zipIdx, hs]
  · left
    refine ⟨?_, by omega⟩
    rw [List.getElem?_eq_none]
    rw [liquidArray_length _ _ hlen]
    exact Nat.le_of_not_lt hj

mutual
theorem priorLeavesFrom_false (t : Par α) : (priorLeavesFrom false t).filter (·.1) = [] := by
  match t with
  | .scalar s => simp [priorLeavesFrom]
  | .plist l => simp [priorLeavesFrom]
  | .multi subs => simpa [priorLeavesFrom] using priorLeavesFromSubs_false subs
theorem priorLeavesFromSubs_false (t : Subs α) :
    (priorLeavesFromSubs false t).filter (·.1) = [] := by
  match t with
  | .nil => simp [priorLeavesFromSubs]
  | .cons nm l s rest =>
    simp only [priorLeavesFromSubs, Bool.false_and, List.filter_append, priorLeavesFrom_false s,
      priorLeavesFromSubs_false rest, List.append_nil]
  | .missing nm l rest => simpa [priorLeavesFromSubs] using priorLeavesFromSubs_false rest
end

mutual
theorem priorLeavesFrom_vals (up : Bool) (t : Par α) :
    (priorLeavesFrom up t).map (fun x => (x.1, x.2.1)) = leavesFrom up t := by
  match t with
  | .scalar s => simp [priorLeavesFrom, leavesFrom]
  | .plist l =>
    simp only [priorLeavesFrom, leavesFrom, List.map_map]
    apply List.ext_getElem?
    intro i
    simp [List.getElem?_zipIdx]
    rfl
  | .multi subs => simpa [priorLeavesFrom, leavesFrom] using priorLeavesFromSubs_vals up subs
theorem priorLeavesFromSubs_vals (up : Bool) (t : Subs α) :
    (priorLeavesFromSubs up t).map (fun x => (x.1, x.2.1)) = leavesFromSubs up t := by
  match t with
  | .nil => simp [priorLeavesFromSubs, leavesFromSubs]
  | .cons nm l s rest =>
    simp [priorLeavesFromSubs, leavesFromSubs, priorLeavesFrom_vals (up && l) s,
      priorLeavesFromSubs_vals up rest]
  | .missing nm l rest =>
    simpa [priorLeavesFromSubs, leavesFromSubs] using priorLeavesFromSubs_vals up rest
end

theorem filter_fst_map {β γ : Type} (f : β → γ) (l : List (Bool × β)) :
    ((l.filter (·.1)).map (·.2)).map f = ((l.map (fun x => (x.1, f x.2))).filter (·.1)).map (·.2) :=
  filter_map_comp f l

/-- The positions of `thawedPriors` are the positions of `getParams()`. -/
theorem thawedPriors_vals (t : Par α) : (thawedPriors t).map (·.1) = getParams t := by
  rw [getParams_eq, thawedPriors, filter_fst_map, ← priorLeavesFrom_vals true t]

def thawedPriorsSubs (t : Subs α) : List (α × List (α × α)) :=
  ((priorLeavesFromSubs true t).filter (·.1)).map (·.2)

theorem thawedPriors_length (t : Par α) : (thawedPriors t).length = numberOfParams t := by
  rw [← getParams_length, ← thawedPriors_vals]; simp

theorem thawedPriorsSubs_cons_true (nm : List String) (s : Par α) (rest : Subs α) :
    thawedPriorsSubs (.cons nm true s rest) = thawedPriors s ++ thawedPriorsSubs rest := by
  simp [thawedPriorsSubs, thawedPriors, priorLeavesFromSubs]

theorem thawedPriorsSubs_cons_false (nm : List String) (s : Par α) (rest : Subs α) :
    thawedPriorsSubs (.cons nm false s rest) = thawedPriorsSubs rest := by
  simp only [thawedPriorsSubs, priorLeavesFromSubs, Bool.and_false, List.filter_append,
    priorLeavesFrom_false, List.nil_append]

/-- Stacking behind an accumulator whose entries are known. -/
theorem Represents.stackBlock {acc x : PriorDerivs α} {es es' : List (Entry α)}
    (h : Represents acc es) (h' : Represents x es') (r0 c0 : Nat) :
    Represents (stackBlock r0 c0 acc x) (es ++ es'.map (Entry.shift r0 c0)) where
  rows := by simp [Params.stackBlock, h.rows, h'.rows, Entry.shift]
  cols := by simp [Params.stackBlock, h.cols, h'.cols, Entry.shift]
  vals := by simp [Params.stackBlock, h.vals, h'.vals, Entry.shift]
  bs := by simp [Params.stackBlock, h.bs, h'.bs, Entry.shift]
  mus := by simp [Params.stackBlock, h.mus, h'.mus, Entry.shift]

theorem Entry.shift_zero (e : Entry α) : e.shift 0 0 = e := rfl

theorem Entry.shift_shift (e : Entry α) (a b c d : Nat) :
    (e.shift a b).shift c d = e.shift (c + a) (d + b) := by
  simp [Entry.shift]; omega

mutual
theorem getLogPriorDerivatives_ok [Field α] (t : Par α) (h : PriorsOK t) :
    ∃ X es, getLogPriorDerivatives t = .ok X ∧ RepresentsOpt X es ∧
      es.map (·.row) = List.range es.length ∧ ColSpec es (thawedPriors t) := by
  match t with
  | .scalar s =>
    refine ⟨none, [], rfl, rfl, rfl, ?_⟩
    intro j
    cases j <;> simp [thawedPriors, priorLeavesFrom, expected]
  | .plist l =>
    simp only [PriorsOK] at h
    obtain ⟨d, es, h1, h2, h3, h4⟩ := gaussianDerivs_ok (flags l) (getParams (.plist l))
      (by rw [getParams_length]; rfl) 0 l.priors (fun t ht => by simpa [flags] using (h t ht).1)
    refine ⟨some d, es, by simp [getLogPriorDerivatives, h1, Except.map], h2,
      by rw [h3, List.range_eq_range'], ?_⟩
    intro j
    -- the entries in column j, through the list of (column, data)
    have hcol : (es.filter (fun e => e.col = j)).map Entry.dat =
        ((es.map (fun e => (e.col, Entry.dat e))).filter (fun x => x.1 = j)).map (·.2) := by
      rw [List.filter_map, List.map_map]; rfl
    rw [hcol, h4]
    rcases thawedPriors_plist_get l j with ⟨hn, hge⟩ | ⟨i, s, hs, hsl, hr, hget⟩
    · rw [thawedPriors, hn]
      simp only [Option.map_none, Option.getD_none, List.map_eq_nil_iff, List.filter_eq_nil_iff,
        List.mem_map, List.mem_filter, decide_eq_true_eq]
      rintro x ⟨t, ⟨_, ht⟩, rfl⟩
      have := countLiquid_take_lt (flags l) t.1 ht
      simp; omega
    · rw [thawedPriors, hget]
      have hif : (flags l)[i]? = some true := by simp [flags, List.getElem?_map, hs, hsl]
      have hpj : (getParams (.plist l))[j]? = some s.val := by
        have := liquidArray_get (flags l) (vals l) (by simp [flags, vals]) i hif
        rw [hr] at this
        rw [getParams, this]
        simp [vals, List.getElem?_map, hs]
      simp only [Option.map_some, Option.getD_some, expected]
      rw [List.filter_map, List.map_map, List.filter_filter, List.map_map]
      have hf : l.priors.filter (fun t =>
          ((fun x : Nat × α × α × α => decide (x.1 = j)) ∘ fun t =>
            (countLiquid ((flags l).take t.1), t.2.1, 1 / t.2.2,
              -(((getParams (.plist l))[countLiquid ((flags l).take t.1)]?).getD 0 - t.2.1) / t.2.2)) t &&
          decide ((flags l)[t.1]? = some true)) = l.priors.filter (fun t => t.1 = i) := by
        apply List.filter_congr
        intro t _
        simp only [Function.comp, Bool.decide_and, decide_eq_decide]
        rw [← Bool.decide_and, decide_eq_decide]
        constructor
        · rintro ⟨a, b⟩
          exact rank_inj _ _ _ b hif (by rw [a, hr])
        · intro e
          subst e
          exact ⟨hr, hif⟩
      rw [hf]
      apply List.map_congr_left
      intro t ht
      simp only [List.mem_filter, decide_eq_true_eq] at ht
      simp only [Function.comp, ht.2, hr, hpj, Option.getD_some]
  | .multi subs =>
    obtain ⟨xs, es, h1, h2, h3, h4⟩ := subDerivs_ok subs (by simpa [PriorsOK] using h)
    have hrep := h2 0 0 ⟨[], [], [], [], []⟩ [] ⟨rfl, rfl, rfl, rfl, rfl⟩
    rw [show es.map (Entry.shift 0 0) = es from List.map_id es] at hrep
    simp only [List.nil_append] at hrep
    by_cases hrows : (stackLoop 0 0 ⟨[], [], [], [], []⟩ xs).rows = []
    · refine ⟨none, es, ?_, ?_, h3, ?_⟩
      · simp [getLogPriorDerivatives, h1, Except.map, stack, hrows]
      · have := hrep.rows
        rw [hrows] at this
        simpa [RepresentsOpt] using this.symm
      · simpa [thawedPriors, priorLeavesFrom, thawedPriorsSubs] using h4
    · refine ⟨some (stackLoop 0 0 ⟨[], [], [], [], []⟩ xs), es, ?_, hrep, h3, ?_⟩
      · simp [getLogPriorDerivatives, h1, Except.map, stack, hrows]
      · simpa [thawedPriors, priorLeavesFrom, thawedPriorsSubs] using h4
theorem subDerivs_ok [Field α] (t : Subs α) (h : PriorsOKSubs t) :
    ∃ xs es, subDerivs t = .ok xs ∧
      (∀ r0 c0 acc eacc, Represents acc eacc →
        Represents (stackLoop r0 c0 acc xs) (eacc ++ es.map (Entry.shift r0 c0))) ∧
      es.map (·.row) = List.range es.length ∧ ColSpec es (thawedPriorsSubs t) := by
  match t with
  | .nil =>
    refine ⟨[], [], rfl, ?_, rfl, ?_⟩
    · intro r0 c0 acc eacc hacc; simpa [stackLoop] using hacc
    · intro j; simp [thawedPriorsSubs, priorLeavesFromSubs]
  | .cons nm false s rest =>
    simp only [PriorsOKSubs] at h
    obtain ⟨xs, es, h1, h2, h3, h4⟩ := subDerivs_ok rest h.2
    exact ⟨xs, es, by simp [subDerivs, h1], h2, h3, by rw [thawedPriorsSubs_cons_false]; exact h4⟩
  | .cons nm true s rest =>
    simp only [PriorsOKSubs] at h
    obtain ⟨X, es, g1, g2, g3, g4⟩ := getLogPriorDerivatives_ok s h.1
    obtain ⟨xs, es', h1, h2, h3, h4⟩ := subDerivs_ok rest h.2
    refine ⟨(numberOfParams s, X) :: xs,
      es ++ es'.map (Entry.shift es.length (numberOfParams s)), by simp [subDerivs, g1, h1],
      ?_, ?_, ?_⟩
    · intro r0 c0 acc eacc hacc
      cases X with
      | none =>
        simp only [RepresentsOpt] at g2
        subst g2
        have := h2 r0 (c0 + numberOfParams s) acc eacc hacc
        simpa [stackLoop, Entry.shift_shift, Function.comp_def] using this
      | some d =>
        simp only [RepresentsOpt] at g2
        have hend : rowsEnd d.rows = es.length := by rw [g2.rows]; exact rowsEnd_rep es g3
        have := h2 (r0 + es.length) (c0 + numberOfParams s) _ _ (hacc.stackBlock g2 r0 c0)
        simpa [stackLoop, hend, Entry.shift_shift, Function.comp_def] using this
    · simp only [List.map_append, List.map_map, g3, List.length_append, List.length_map]
      have : es'.map ((fun e => e.row) ∘ Entry.shift es.length (numberOfParams s)) =
          (es'.map (·.row)).map (· + es.length) := by
        rw [List.map_map]; rfl
      rw [this, h3, List.range_add]
      simp [Nat.add_comm]
    · rw [thawedPriorsSubs_cons_true, ← thawedPriors_length]
      exact g4.append h4 es.length
  | .missing nm l rest =>
    obtain ⟨xs, es, h1, h2, h3, h4⟩ := subDerivs_ok rest (by simpa [PriorsOKSubs] using h)
    exact ⟨xs, es, by simp [subDerivs, h1], h2, h3, by
      simpa [thawedPriorsSubs, priorLeavesFromSubs] using h4⟩
end

end Verif.Params
