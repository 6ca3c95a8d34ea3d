import Verif.Params.Lemmas

set_option linter.unusedSimpArgs false
set_option linter.unusedVariables false

namespace Verif.Params

open Verif

variable {α : Type}

/-! ### C04: names, bounds and steps -/

theorem slotNames_length (i : Nat) (ss : List (Slot α)) :
    (slotNames i ss).length = countLiquid (ss.map (·.liquid)) := by
  induction ss generalizing i with
  | nil => simp [slotNames]
  | cons s ss ih => cases hl : s.liquid <;> simp [slotNames, hl, ih]

mutual
theorem getParamNames_length (t : Par α) : (getParamNames t).length = numberOfParams t := by
  match t with
  | .scalar s => simp [getParamNames, numberOfParams]
  | .plist l => simp [getParamNames, numberOfParams, slotNames_length, flags]
  | .multi subs => simpa [getParamNames, numberOfParams] using getParamNamesSubs_length 0 subs
theorem getParamNamesSubs_length (i : Nat) (t : Subs α) :
    (getParamNamesSubs i t).length = numberOfParamsSubs t := by
  match t with
  | .nil => simp [getParamNamesSubs, numberOfParamsSubs]
  | .cons nm l s rest =>
    have h1 := getParamNames_length s
    have h2 := getParamNamesSubs_length (i + 1) rest
    cases l <;> simp [getParamNamesSubs, numberOfParamsSubs, h1, h2]
  | .missing nm l rest =>
    simpa [getParamNamesSubs, numberOfParamsSubs] using getParamNamesSubs_length (i + 1) rest
end

/-- Reading a per-slot list through the flags equals filtering the indexed slots. -/
theorem liquidArray_zipIdx {β γ : Type} (g : γ → Nat → β) (fl : γ → Bool) (ss : List γ)
    (as : List β) (k : Nat) (hlen : as.length = ss.length)
    (h : ∀ (i : Nat) (s : γ), ss[i]? = some s → as[i]? = some (g s (k + i))) :
    liquidArray (ss.map fl) as =
      (((ss.zipIdx k).map (fun x => (fl x.1, g x.1 x.2))).filter (·.1)).map (·.2) := by
  induction ss generalizing as k with
  | nil =>
    cases as with
    | nil => rfl
    | cons a as => simp at hlen
  | cons s ss ih =>
    cases as with
    | nil => simp at hlen
    | cons a as =>
      have h0 := h 0 s (by simp)
      simp at h0
      have ih' := ih as (k + 1) (by simpa using hlen) (by
        intro i t ht
        have := h (i + 1) t (by simpa using ht)
        simpa [Nat.add_assoc, Nat.add_comm 1 i] using this)
      cases hf : fl s <;> simp [List.zipIdx_cons, hf, liquidArray, h0, ih']

theorem filter_map_comp {β γ : Type} (f : β → γ) (l : List (Bool × β)) :
    ((l.filter (·.1)).map (·.2)).map f = ((l.map (fun x => (x.1, f x.2))).filter (·.1)).map (·.2) := by
  induction l with
  | nil => rfl
  | cons x l ih =>
    obtain ⟨b, y⟩ := x
    cases b <;> simp <;> simpa using ih

mutual
theorem infosFrom_false [One α] (t : Par α) : (infosFrom false t).filter (·.1) = [] := by
  match t with
  | .scalar s => simp [infosFrom]
  | .plist l => simp [infosFrom]
  | .multi subs => simpa [infosFrom] using infosFromSubs_false subs
theorem infosFromSubs_false [One α] (t : Subs α) : (infosFromSubs false t).filter (·.1) = [] := by
  match t with
  | .nil => simp [infosFromSubs]
  | .cons nm l s rest =>
    simp only [infosFromSubs, Bool.false_and, List.filter_append, infosFrom_false s,
      infosFromSubs_false rest, List.append_nil]
  | .missing nm l rest => simpa [infosFromSubs] using infosFromSubs_false rest
end

theorem some_join_getElem {β : Type} (as : List (Option β)) (i n : Nat) (h : as.length = n)
    (hi : i < n) : as[i]? = some ((as[i]?).join) := by
  have : i < as.length := by omega
  simp [List.getElem?_eq_getElem this]

/-- The plist part shared by all five vectors. -/
theorem plist_infos [One α] {β : Type} (l : PList α) (as : List β) (f : Info α → β)
    (hlen : as.length = l.slots.length)
    (h : ∀ (i : Nat) (s : Slot α), l.slots[i]? = some s → as[i]? = some (f
        { val := s.val
          lower := (l.lowers[i]?).join
          upper := (l.uppers[i]?).join
          maxstep := (l.maxstep[i]?).join
          step := match l.steps with
            | none => 1
            | some ss => (ss[i]?).getD 1 })) :
    liquidArray (flags l) as = (((infosFrom true (.plist l)).filter (·.1)).map (·.2)).map f := by
  rw [filter_map_comp]
  simp only [infosFrom, Bool.true_and, List.map_map, flags]
  rw [liquidArray_zipIdx (fun s i => f
        { val := s.val
          lower := (l.lowers[i]?).join
          upper := (l.uppers[i]?).join
          maxstep := (l.maxstep[i]?).join
          step := match l.steps with
            | none => 1
            | some ss => (ss[i]?).getD 1 }) (·.liquid) l.slots as 0 hlen (by simpa using h)]
  rfl

theorem lt_of_getElem? {β : Type} {as : List β} {i : Nat} {a : β} (h : as[i]? = some a) :
    i < as.length := by
  by_cases hlt : i < as.length
  · exact hlt
  · simp [List.getElem?_eq_none (Nat.le_of_not_lt hlt)] at h

/-- All five vectors at once. -/
def AllVectors [One α] (t : Par α) (is : List (Info α)) : Prop :=
  getParams t = is.map (·.val) ∧ getLowerBounds t = is.map (·.lower) ∧
  getUpperBounds t = is.map (·.upper) ∧ getMaxStep t = is.map (·.maxstep) ∧
  getStepSizes t = is.map (·.step)

def AllVectorsSubs [One α] (t : Subs α) (is : List (Info α)) : Prop :=
  getParamsSubs t = is.map (·.val) ∧ getLowerBoundsSubs t = is.map (·.lower) ∧
  getUpperBoundsSubs t = is.map (·.upper) ∧ getMaxStepSubs t = is.map (·.maxstep) ∧
  getStepSizesSubs t = is.map (·.step)

mutual
theorem vectors_eq [One α] (t : Par α) (h : BoundsComplete t) :
    AllVectors t (((infosFrom true t).filter (·.1)).map (·.2)) := by
  match t with
  | .scalar s =>
    simp [AllVectors, getParams, getLowerBounds, getUpperBounds, getMaxStep, getStepSizes, infosFrom]
  | .plist l =>
    simp only [BoundsComplete] at h
    obtain ⟨h1, h2, h3, h4⟩ := h
    refine ⟨?_, ?_, ?_, ?_, ?_⟩
    · exact plist_infos l (vals l) (·.val) (by simp [vals])
        (by intro i s hs; simp [vals, List.getElem?_map, hs])
    · exact plist_infos l l.lowers (·.lower) h1
        (by intro i s hs; exact some_join_getElem _ _ _ h1 (lt_of_getElem? hs))
    · exact plist_infos l l.uppers (·.upper) h2
        (by intro i s hs; exact some_join_getElem _ _ _ h2 (lt_of_getElem? hs))
    · exact plist_infos l l.maxstep (·.maxstep) h3
        (by intro i s hs; exact some_join_getElem _ _ _ h3 (lt_of_getElem? hs))
    · simp only [getStepSizes]
      apply plist_infos l (allSteps l) (·.step)
      · cases hst : l.steps with
        | none => simp [allSteps, hst, vals]
        | some ss => simp [allSteps, hst, h4 ss hst]
      · intro i s hs
        have hi := lt_of_getElem? hs
        cases hst : l.steps with
        | none => simp [allSteps, hst, vals, List.getElem?_replicate, hi]
        | some ss =>
          have : i < ss.length := by have := h4 ss hst; omega
          simp [allSteps, hst, List.getElem?_eq_getElem this]
  | .multi subs =>
    have := vectorsSubs_eq subs (by simpa [BoundsComplete] using h)
    simpa [AllVectors, AllVectorsSubs, getParams, getLowerBounds, getUpperBounds, getMaxStep,
      getStepSizes, infosFrom] using this
theorem vectorsSubs_eq [One α] (t : Subs α) (h : BoundsCompleteSubs t) :
    AllVectorsSubs t (((infosFromSubs true t).filter (·.1)).map (·.2)) := by
  match t with
  | .nil =>
    simp [AllVectorsSubs, getParamsSubs, getLowerBoundsSubs, getUpperBoundsSubs, getMaxStepSubs,
      getStepSizesSubs, infosFromSubs]
  | .cons nm l s rest =>
    simp only [BoundsCompleteSubs] at h
    obtain ⟨a1, a2, a3, a4, a5⟩ := vectors_eq s h.1
    obtain ⟨b1, b2, b3, b4, b5⟩ := vectorsSubs_eq rest h.2
    cases l with
    | true =>
      simp only [AllVectorsSubs, getParamsSubs, getLowerBoundsSubs, getUpperBoundsSubs,
        getMaxStepSubs, getStepSizesSubs, infosFromSubs, Bool.and_true, List.filter_append,
        List.map_append, if_true, a1, a2, a3, a4, a5, b1, b2, b3, b4, b5, and_self]
    | false =>
      simp only [AllVectorsSubs, getParamsSubs, getLowerBoundsSubs, getUpperBoundsSubs,
        getMaxStepSubs, getStepSizesSubs, infosFromSubs, Bool.and_false, List.filter_append,
        infosFrom_false, List.nil_append, Bool.false_eq_true, if_false, b1, b2, b3, b4, b5,
        and_self]
  | .missing nm l rest =>
    have := vectorsSubs_eq rest (by simpa [BoundsCompleteSubs] using h)
    simpa [AllVectorsSubs, getParamsSubs, getLowerBoundsSubs, getUpperBoundsSubs, getMaxStepSubs,
      getStepSizesSubs, infosFromSubs] using this
end

/-! ### C06: setAllParams -/

theorem setAllSlots_ok (ss : List (Slot α)) (v : List α) (h : v.length = ss.length) :
    (setAllSlots ss v).2 = none ∧ (setAllSlots ss v).1.map (·.val) = v := by
  induction ss generalizing v with
  | nil => cases v <;> simp_all [setAllSlots]
  | cons s ss ih =>
    cases v with
    | nil => simp at h
    | cons x v => simpa [setAllSlots] using ih v (by simpa using h)

theorem setAllSlots_blank (c : α) (ss : List (Slot α)) (v : List α) :
    (setAllSlots ss v).1.map (fun s => { s with val := c }) = ss.map (fun s => { s with val := c }) := by
  induction ss generalizing v with
  | nil => cases v <;> simp [setAllSlots]
  | cons s ss ih => cases v <;> simp [setAllSlots, ih]

mutual
theorem getAllParams_length_setAllParams (t : Par α) (v : List α) :
    (getAllParams (setAllParams t v).1).length = (getAllParams t).length := by
  match t with
  | .scalar s =>
    match v with
    | [] => simp [setAllParams, getAllParams]
    | [x] => simp [setAllParams, getAllParams]
    | x :: y :: z => simp [setAllParams, getAllParams]
  | .plist l =>
    have hl : ∀ (ss : List (Slot α)) (v : List α), (setAllSlots ss v).1.length = ss.length := by
      intro ss
      induction ss with
      | nil => intro v; cases v <;> simp [setAllSlots]
      | cons s ss ih => intro v; cases v <;> simp [setAllSlots, ih]
    simp [setAllParams, getAllParams, vals, hl]
  | .multi subs => simpa [setAllParams, getAllParams] using getAllParams_length_setAllParamsSubs subs v
theorem getAllParams_length_setAllParamsSubs (t : Subs α) (v : List α) :
    (getAllParamsSubs (setAllParamsSubs t v).1).length = (getAllParamsSubs t).length := by
  match t with
  | .nil => simp [setAllParamsSubs, getAllParamsSubs]
  | .cons nm l s rest =>
    have h1 := getAllParams_length_setAllParams s (v.take (getAllParams s).length)
    have h2 := getAllParams_length_setAllParamsSubs rest (v.drop (getAllParams s).length)
    simp only [setAllParamsSubs]
    split <;> simp [getAllParamsSubs, h1, h2]
  | .missing nm l rest =>
    simp [setAllParamsSubs, getAllParamsSubs, getAllParams_length_setAllParamsSubs rest v]
end

mutual
theorem setAllParams_ok (t : Par α) (v : List α) (h : v.length = (getAllParams t).length) :
    (setAllParams t v).2 = none ∧ getAllParams (setAllParams t v).1 = v := by
  match t with
  | .scalar s =>
    match v, h with
    | [x], _ => simp [setAllParams, getAllParams]
    | [], h => simp [getAllParams] at h
    | x :: y :: z, h => simp [getAllParams] at h
  | .plist l =>
    have := setAllSlots_ok l.slots v (by simpa [getAllParams, vals] using h)
    simpa [setAllParams, getAllParams, vals] using this
  | .multi subs =>
    have := setAllParamsSubs_ok subs v (by simpa [getAllParams] using h)
    simpa [setAllParams, getAllParams] using this
theorem setAllParamsSubs_ok (t : Subs α) (v : List α) (h : v.length = (getAllParamsSubs t).length) :
    (setAllParamsSubs t v).2 = none ∧ getAllParamsSubs (setAllParamsSubs t v).1 = v := by
  match t with
  | .nil =>
    have : v = [] := by simpa [getAllParamsSubs] using h
    simp [setAllParamsSubs, getAllParamsSubs, this]
  | .cons nm l s rest =>
    simp only [getAllParamsSubs, List.length_append] at h
    have h1 := setAllParams_ok s (v.take (getAllParams s).length) (by simp; omega)
    have h2 := setAllParamsSubs_ok rest (v.drop (getAllParams s).length) (by simp; omega)
    simp [setAllParamsSubs, getAllParamsSubs, h1, h2]
  | .missing nm l rest =>
    have := setAllParamsSubs_ok rest v (by simpa [getAllParamsSubs] using h)
    simpa [setAllParamsSubs, getAllParamsSubs] using this
end

mutual
theorem setAllParams_blank (c : α) (t : Par α) (v : List α) :
    blank c (setAllParams t v).1 = blank c t := by
  match t with
  | .scalar s =>
    match v with
    | [] => simp [setAllParams, blank]
    | [x] => simp [setAllParams, blank]
    | x :: y :: z => simp [setAllParams, blank]
  | .plist l => simp [setAllParams, blank, setAllSlots_blank]
  | .multi subs => simpa [setAllParams, blank] using setAllParamsSubs_blank c subs v
theorem setAllParamsSubs_blank (c : α) (t : Subs α) (v : List α) :
    blankSubs c (setAllParamsSubs t v).1 = blankSubs c t := by
  match t with
  | .nil => simp [setAllParamsSubs, blankSubs]
  | .cons nm l s rest =>
    have h1 := setAllParams_blank c s (v.take (getAllParams s).length)
    have h2 := setAllParamsSubs_blank c rest (v.drop (getAllParams s).length)
    simp only [setAllParamsSubs]
    split <;> simp [blankSubs, h1, h2]
  | .missing nm l rest => simp [setAllParamsSubs, blankSubs, setAllParamsSubs_blank c rest v]
end

mutual
theorem getAllParams_withFlags (b : Bool) (t : Par α) :
    getAllParams (withFlags b t) = getAllParams t := by
  match t with
  | .scalar s => simp [withFlags]
  | .plist l => simp [withFlags, getAllParams, vals]
  | .multi subs => simpa [withFlags, getAllParams] using getAllParams_withFlagsSubs b subs
theorem getAllParams_withFlagsSubs (b : Bool) (t : Subs α) :
    getAllParamsSubs (withFlagsSubs b t) = getAllParamsSubs t := by
  match t with
  | .nil => simp [withFlagsSubs]
  | .cons nm l s rest =>
    simp [withFlagsSubs, getAllParamsSubs, getAllParams_withFlags b s,
      getAllParams_withFlagsSubs b rest]
  | .missing nm l rest =>
    simp [withFlagsSubs, getAllParamsSubs, getAllParams_withFlagsSubs b rest]
end

/-! ### C08: recursive freeze and thaw of everything -/

mutual
theorem setFlagsRecursive_star (b : Bool) (t : Par α) :
    setFlagsRecursive b ["*"] t = withFlags b t := by
  match t with
  | .scalar s => simp [setFlagsRecursive, withFlags]
  | .plist l => simp [setFlagsRecursive, withFlags, recSlot]
  | .multi subs => simpa [setFlagsRecursive, withFlags] using setFlagsRecursiveSubs_star b subs
theorem setFlagsRecursiveSubs_star (b : Bool) (t : Subs α) :
    setFlagsRecursiveSubs b ["*"] t = withFlagsSubs b t := by
  match t with
  | .nil => simp [setFlagsRecursiveSubs, withFlagsSubs]
  | .cons nm l s rest =>
    simp [setFlagsRecursiveSubs, withFlagsSubs, setFlagsRecursive_star b s,
      setFlagsRecursiveSubs_star b rest]
  | .missing nm l rest =>
    simp [setFlagsRecursiveSubs, withFlagsSubs, setFlagsRecursiveSubs_star b rest]
end

theorem numberOfParams_withFlags_false (t : Par α) (h : ∀ s, t ≠ .scalar s) :
    numberOfParams (withFlags false t) = 0 := by
  have hs : ∀ t : Subs α, numberOfParamsSubs (withFlagsSubs false t) = 0 := by
    intro t
    induction t using Subs.rec (motive_1 := fun _ => True) with
    | scalar => trivial
    | plist => trivial
    | multi => trivial
    | nil => simp [withFlagsSubs, numberOfParamsSubs]
    | cons nm l s rest _ ih => simp [withFlagsSubs, numberOfParamsSubs, ih]
    | missing nm l rest ih => simp [withFlagsSubs, numberOfParamsSubs, ih]
  match t with
  | .scalar s => exact absurd rfl (h s)
  | .plist l => simp [withFlags, numberOfParams, flags, countLiquid]
  | .multi subs => simp [withFlags, numberOfParams, hs]

mutual
theorem getParams_withFlags_true (t : Par α) : getParams (withFlags true t) = getAllParams t := by
  match t with
  | .scalar s => simp [withFlags, getParams, getAllParams]
  | .plist l =>
    simp only [withFlags, getParams, getAllParams, flags, vals, List.map_map]
    induction l.slots with
    | nil => rfl
    | cons s ss ih => simpa [liquidArray] using ih
  | .multi subs => simpa [withFlags, getParams, getAllParams] using getParams_withFlagsSubs_true subs
theorem getParams_withFlagsSubs_true (t : Subs α) :
    getParamsSubs (withFlagsSubs true t) = getAllParamsSubs t := by
  match t with
  | .nil => simp [withFlagsSubs, getParamsSubs, getAllParamsSubs]
  | .cons nm l s rest =>
    simp [withFlagsSubs, getParamsSubs, getAllParamsSubs, getParams_withFlags_true s,
      getParams_withFlagsSubs_true rest]
  | .missing nm l rest =>
    simp [withFlagsSubs, getParamsSubs, getAllParamsSubs, getParams_withFlagsSubs_true rest]
end

/-! ### C07: freezing one entry -/

/-- The parameter vector assembled from the thawed entries. -/
def assemble (es : List (List String × Bool × List α)) : List α :=
  (es.map (fun e => if e.2.1 then e.2.2 else [])).flatten

theorem getParamsSubs_assemble (t : Subs α) : getParamsSubs t = assemble (entriesSubs t) := by
  induction t using Subs.rec (motive_1 := fun _ => True) with
  | scalar => trivial
  | plist => trivial
  | multi => trivial
  | nil => simp [getParamsSubs, entriesSubs, assemble]
  | cons nm l s rest _ ih => simp [getParamsSubs, entriesSubs, assemble, getParams_eq] ; simpa [assemble] using ih
  | missing nm l rest ih => simp [getParamsSubs, entriesSubs, assemble]; simpa [assemble] using ih

theorem getParams_assemble (t : Par α) (h : ∀ s, t ≠ .scalar s) :
    getParams t = assemble (entries t) := by
  match t with
  | .scalar s => exact absurd rfl (h s)
  | .plist l =>
    simp only [getParams, entries, flags, vals, assemble, List.map_map]
    induction l.slots with
    | nil => rfl
    | cons s ss ih => cases hl : s.liquid <;> simp [liquidArray, hl] <;> simpa using ih
  | .multi subs => simpa [getParams, entries] using getParamsSubs_assemble subs

/-- Set the flag of entry `k` in the entry list. -/
def setEntryFlag (b : Bool) (k : Nat) (es : List (List String × Bool × List α)) :
    List (List String × Bool × List α) :=
  es.modify k (fun e => (e.1, b, e.2.2))

theorem setFlagSubs_entries (b : Bool) (k : Nat) (t : Subs α) :
    (k < (entriesSubs t).length → ∃ t', setFlagSubs b k t = .ok t' ∧
      entriesSubs t' = setEntryFlag b k (entriesSubs t)) ∧
    ((entriesSubs t).length ≤ k → setFlagSubs b k t = .error .index) := by
  induction t using Subs.rec (motive_1 := fun _ => True) generalizing k with
  | scalar => trivial
  | plist => trivial
  | multi => trivial
  | nil => simp [entriesSubs, setFlagSubs]
  | cons nm l s rest _ ih =>
    cases k with
    | zero => simp [entriesSubs, setFlagSubs, setEntryFlag]
    | succ k =>
      obtain ⟨h1, h2⟩ := ih k
      constructor
      · intro hk
        obtain ⟨t', ht, he⟩ := h1 (by simpa [entriesSubs] using hk)
        refine ⟨.cons nm l s t', by simp [setFlagSubs, ht, Except.map], ?_⟩
        simp [entriesSubs, he, setEntryFlag]
      · intro hk
        simp [setFlagSubs, h2 (by simpa [entriesSubs] using hk), Except.map]
  | missing nm l rest ih =>
    cases k with
    | zero => simp [entriesSubs, setFlagSubs, setEntryFlag]
    | succ k =>
      obtain ⟨h1, h2⟩ := ih k
      constructor
      · intro hk
        obtain ⟨t', ht, he⟩ := h1 (by simpa [entriesSubs] using hk)
        refine ⟨.missing nm l t', by simp [setFlagSubs, ht, Except.map], ?_⟩
        simp [entriesSubs, he, setEntryFlag]
      · intro hk
        simp [setFlagSubs, h2 (by simpa [entriesSubs] using hk), Except.map]

theorem map_set_modify {β γ : Type} (f : β → γ) (g : γ → γ) (h : β → β) (hg : ∀ x, f (h x) = g (f x))
    (l : List β) (k : Nat) (x : β) (hx : l[k]? = some x) :
    (l.set k (h x)).map f = (l.map f).modify k g := by
  apply List.ext_getElem?
  intro j
  simp only [List.getElem?_map, List.getElem?_set, List.getElem?_modify]
  have hk := lt_of_getElem? hx
  by_cases hj : k = j
  · subst hj
    obtain ⟨_, rfl⟩ := List.getElem?_eq_some_iff.mp hx
    simp [hk, hg]
  · simp [hj]

theorem setFlag_entries (b : Bool) (k : Nat) (t : Par α) (h : ∀ s, t ≠ .scalar s) :
    (k < (entries t).length → ∃ t', setFlag b k t = .ok t' ∧ (∀ s, t' ≠ .scalar s) ∧
      entries t' = setEntryFlag b k (entries t)) ∧
    ((entries t).length ≤ k → setFlag b k t = .error .index) := by
  match t with
  | .scalar s => exact absurd rfl (h s)
  | .plist l =>
    constructor
    · intro hk
      have hk' : k < l.slots.length := by simpa [entries] using hk
      have hs : l.slots[k]? = some l.slots[k] := List.getElem?_eq_getElem hk'
      refine ⟨.plist { l with slots := l.slots.set k { l.slots[k] with liquid := b } }, ?_,
        by simp, ?_⟩
      · simp only [setFlag, setFlagSlots, hs]; rfl
      · simp only [entries, setEntryFlag]
        exact map_set_modify (fun s : Slot α => (s.names, s.liquid, [s.val]))
          (fun e => (e.1, b, e.2.2)) (fun s : Slot α => { s with liquid := b }) (fun s => rfl) _ _ _ hs
    · intro hk
      have hk' : l.slots.length ≤ k := by simpa [entries] using hk
      simp [setFlag, setFlagSlots, List.getElem?_eq_none hk', Except.map]
  | .multi subs =>
    obtain ⟨h1, h2⟩ := setFlagSubs_entries b k subs
    constructor
    · intro hk
      obtain ⟨t', ht, he⟩ := h1 (by simpa [entries] using hk)
      exact ⟨.multi t', by simp [setFlag, ht, Except.map], by simp, by simpa [entries] using he⟩
    · intro hk
      simp [setFlag, h2 (by simpa [entries] using hk), Except.map]

/-- Setting the flag of an entry twice is the second setting; setting it to what it was is the
identity. -/
theorem setFlagSubs_twice (b b' : Bool) (k : Nat) (t t' : Subs α) (h : setFlagSubs b k t = .ok t') :
    setFlagSubs b' k t' = setFlagSubs b' k t := by
  induction t using Subs.rec (motive_1 := fun _ => True) generalizing k t' with
  | scalar => trivial
  | plist => trivial
  | multi => trivial
  | nil => simp [setFlagSubs] at h
  | cons nm l s rest _ ih =>
    cases k with
    | zero => simp [setFlagSubs] at h; subst h; simp [setFlagSubs]
    | succ k =>
      simp only [setFlagSubs] at h
      cases hr : setFlagSubs b k rest with
      | error e => simp [hr, Except.map] at h
      | ok r =>
        simp [hr, Except.map] at h
        subst h
        simp [setFlagSubs, ih k r hr]
  | missing nm l rest ih =>
    cases k with
    | zero => simp [setFlagSubs] at h; subst h; simp [setFlagSubs]
    | succ k =>
      simp only [setFlagSubs] at h
      cases hr : setFlagSubs b k rest with
      | error e => simp [hr, Except.map] at h
      | ok r =>
        simp [hr, Except.map] at h
        subst h
        simp [setFlagSubs, ih k r hr]

theorem setFlagSubs_same (b : Bool) (k : Nat) (t : Subs α)
    (h : ((entriesSubs t)[k]?).map (·.2.1) = some b) : setFlagSubs b k t = .ok t := by
  induction t using Subs.rec (motive_1 := fun _ => True) generalizing k with
  | scalar => trivial
  | plist => trivial
  | multi => trivial
  | nil => simp [entriesSubs] at h
  | cons nm l s rest _ ih =>
    cases k with
    | zero => simp [entriesSubs] at h; subst h; simp [setFlagSubs]
    | succ k => simp [setFlagSubs, ih k (by simpa [entriesSubs] using h), Except.map]
  | missing nm l rest ih =>
    cases k with
    | zero => simp [entriesSubs] at h; subst h; simp [setFlagSubs]
    | succ k => simp [setFlagSubs, ih k (by simpa [entriesSubs] using h), Except.map]

theorem setFlag_twice (b b' : Bool) (k : Nat) (t t' : Par α) (h : setFlag b k t = .ok t') :
    setFlag b' k t' = setFlag b' k t := by
  match t with
  | .scalar s => simp [setFlag] at h
  | .plist l =>
    simp only [setFlag, setFlagSlots] at h ⊢
    cases hs : l.slots[k]? with
    | none => simp [hs, Except.map] at h
    | some s =>
      simp [hs, Except.map] at h
      subst h
      have hk := lt_of_getElem? hs
      simp [List.getElem?_set_self hk, hk, hs, Except.map, setFlag, setFlagSlots]
  | .multi subs =>
    simp only [setFlag] at h ⊢
    cases hr : setFlagSubs b k subs with
    | error e => simp [hr, Except.map] at h
    | ok r =>
      simp [hr, Except.map] at h
      subst h
      simp [setFlag, setFlagSubs_twice b b' k subs r hr]

theorem setFlag_same (b : Bool) (k : Nat) (t : Par α)
    (h : ((entries t)[k]?).map (·.2.1) = some b) : setFlag b k t = .ok t := by
  match t with
  | .scalar s => simp [entries] at h
  | .plist l =>
    simp only [entries, List.getElem?_map, Option.map_map, Option.map_eq_some_iff] at h
    obtain ⟨s, hs, hb⟩ := h
    have hk := lt_of_getElem? hs
    have : l.slots.set k { s with liquid := b } = l.slots := by
      apply List.ext_getElem?
      intro j
      rw [List.getElem?_set]
      split
      · rename_i hij; subst hij
        simp at hb
        rw [hs, ← hb]
      · rfl
    simp [setFlag, setFlagSlots, hs, this, Except.map]
  | .multi subs =>
    simp [setFlag, setFlagSubs_same b k subs (by simpa [entries] using h), Except.map]

/-- Freezing and thawing touches nothing but flags. -/
theorem setFlagSubs_withFlags (b c : Bool) (k : Nat) (t t' : Subs α)
    (h : setFlagSubs b k t = .ok t') : withFlagsSubs c t' = withFlagsSubs c t := by
  induction t using Subs.rec (motive_1 := fun _ => True) generalizing k t' with
  | scalar => trivial
  | plist => trivial
  | multi => trivial
  | nil => simp [setFlagSubs] at h
  | cons nm l s rest _ ih =>
    cases k with
    | zero => simp [setFlagSubs] at h; subst h; simp [withFlagsSubs]
    | succ k =>
      simp only [setFlagSubs] at h
      cases hr : setFlagSubs b k rest with
      | error e => simp [hr, Except.map] at h
      | ok r => simp [hr, Except.map] at h; subst h; simp [withFlagsSubs, ih k r hr]
  | missing nm l rest ih =>
    cases k with
    | zero => simp [setFlagSubs] at h; subst h; simp [withFlagsSubs]
    | succ k =>
      simp only [setFlagSubs] at h
      cases hr : setFlagSubs b k rest with
      | error e => simp [hr, Except.map] at h
      | ok r => simp [hr, Except.map] at h; subst h; simp [withFlagsSubs, ih k r hr]

theorem setFlag_withFlags (b c : Bool) (k : Nat) (t t' : Par α) (h : setFlag b k t = .ok t') :
    withFlags c t' = withFlags c t := by
  match t with
  | .scalar s => simp [setFlag] at h
  | .plist l =>
    simp only [setFlag, setFlagSlots] at h
    cases hs : l.slots[k]? with
    | none => simp [hs, Except.map] at h
    | some s =>
      simp [hs, Except.map] at h
      subst h
      simp only [withFlags]
      have : (l.slots.set k { s with liquid := b }).map (fun s => ({ s with liquid := c } : Slot α)) =
          l.slots.map (fun s => { s with liquid := c }) := by
        apply List.ext_getElem?
        intro j
        have hk := lt_of_getElem? hs
        simp only [List.getElem?_map, List.getElem?_set]
        by_cases hj : k = j
        · subst hj
          obtain ⟨_, rfl⟩ := List.getElem?_eq_some_iff.mp hs
          simp [hk]
        · simp [hj]
      simp [this]
  | .multi subs =>
    simp only [setFlag] at h
    cases hr : setFlagSubs b k subs with
    | error e => simp [hr, Except.map] at h
    | ok r =>
      simp [hr, Except.map] at h
      subst h
      simp [withFlags, setFlagSubs_withFlags b c k subs r hr]

/-! names -/

/-- Position of the first entry having the name. -/
def entryIndex (n : String) (es : List (List String × Bool × List α)) : Option Nat :=
  es.findIdx? (fun e => n ∈ e.1)

theorem nameIndexSubs_eq (n : String) (t : Subs α) : nameIndexSubs n t = entryIndex n (entriesSubs t) := by
  induction t using Subs.rec (motive_1 := fun _ => True) with
  | scalar => trivial
  | plist => trivial
  | multi => trivial
  | nil => simp [nameIndexSubs, entriesSubs, entryIndex]
  | cons nm l s rest _ ih =>
    simp only [nameIndexSubs, entriesSubs, entryIndex, List.findIdx?_cons] at ih ⊢
    by_cases hn : n ∈ nm <;> simp [hn, ih]
  | missing nm l rest ih =>
    simp only [nameIndexSubs, entriesSubs, entryIndex, List.findIdx?_cons] at ih ⊢
    by_cases hn : n ∈ nm <;> simp [hn, ih]

theorem nameIndex_eq (n : String) (t : Par α) : nameIndex n t = entryIndex n (entries t) := by
  match t with
  | .scalar s => simp [nameIndex, entries, entryIndex]
  | .plist l =>
    simp only [nameIndex, entries]
    induction l.slots with
    | nil => simp [nameIndexSlots, entryIndex]
    | cons s ss ih =>
      simp only [nameIndexSlots, entryIndex, List.map_cons, List.findIdx?_cons] at ih ⊢
      by_cases hn : n ∈ s.names <;> simp [hn, ih]
  | .multi subs => simpa [nameIndex, entries] using nameIndexSubs_eq n subs

theorem setAllFlags_entries (b : Bool) (t : Par α) (h : ∀ s, t ≠ .scalar s) :
    ∃ t', setAllFlags b t = .ok t' ∧ (∀ s, t' ≠ .scalar s) ∧
      entries t' = (entries t).map (fun e => (e.1, b, e.2.2)) := by
  have hs : ∀ t : Subs α, entriesSubs (setAllFlagsSubs b t) =
      (entriesSubs t).map (fun e => (e.1, b, e.2.2)) := by
    intro t
    induction t using Subs.rec (motive_1 := fun _ => True) with
    | scalar => trivial
    | plist => trivial
    | multi => trivial
    | nil => simp [setAllFlagsSubs, entriesSubs]
    | cons nm l s rest _ ih => simp [setAllFlagsSubs, entriesSubs, ih]
    | missing nm l rest ih => simp [setAllFlagsSubs, entriesSubs, ih]
  match t with
  | .scalar s => exact absurd rfl (h s)
  | .plist l => exact ⟨_, rfl, by simp, by simp [entries, setAllFlagsSlots]⟩
  | .multi subs => exact ⟨_, rfl, by simp, by simpa [entries] using hs subs⟩

theorem setAllFlags_withFlags (b c : Bool) (t t' : Par α) (h : setAllFlags b t = .ok t') :
    withFlags c t' = withFlags c t := by
  have hs : ∀ t : Subs α, withFlagsSubs c (setAllFlagsSubs b t) = withFlagsSubs c t := by
    intro t
    induction t using Subs.rec (motive_1 := fun _ => True) with
    | scalar => trivial
    | plist => trivial
    | multi => trivial
    | nil => simp [setAllFlagsSubs, withFlagsSubs]
    | cons nm l s rest _ ih => simp [setAllFlagsSubs, withFlagsSubs, ih]
    | missing nm l rest ih => simp [setAllFlagsSubs, withFlagsSubs, ih]
  match t with
  | .scalar s => simp [setAllFlags] at h
  | .plist l => simp [setAllFlags] at h; subst h; simp [withFlags, setAllFlagsSlots]
  | .multi subs => simp [setAllFlags] at h; subst h; simp [withFlags, hs]

end Verif.Params
