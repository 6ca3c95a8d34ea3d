import Verif.Params.Spec

set_option linter.unusedSimpArgs false
set_option linter.unusedVariables false

namespace Verif.Params

open Verif

variable {α : Type}

@[simp] theorem countLiquid_nil : countLiquid [] = 0 := rfl
@[simp] theorem countLiquid_true (fs : List Bool) : countLiquid (true :: fs) = countLiquid fs + 1 := by
  simp [countLiquid]
@[simp] theorem countLiquid_false (fs : List Bool) : countLiquid (false :: fs) = countLiquid fs := by
  simp [countLiquid]

theorem liquidArray_length {β : Type} : ∀ (fs : List Bool) (as : List β), as.length = fs.length →
    (liquidArray fs as).length = countLiquid fs
  | [], [], _ => rfl
  | true :: fs, a :: as, h => by
    simp [liquidArray, liquidArray_length fs as (by simpa using h)]
  | false :: fs, a :: as, h => by
    simp [liquidArray, liquidArray_length fs as (by simpa using h)]

theorem liquidArray_slots (ss : List (Slot α)) :
    liquidArray (ss.map (·.liquid)) (ss.map (·.val)) =
      ((ss.map (fun s => (s.liquid, s.val))).filter (·.1)).map (·.2) := by
  induction ss with
  | nil => rfl
  | cons s ss ih =>
    cases h : s.liquid <;> simp [h, liquidArray] <;> simpa using ih

/-! ### getParams / getAllParams against the leaves -/

mutual
theorem leavesFrom_false (t : Par α) : (leavesFrom false t).filter (·.1) = [] := by
  match t with
  | .scalar s => simp [leavesFrom]
  | .plist l => simp [leavesFrom]
  | .multi subs => simpa [leavesFrom] using leavesFromSubs_false subs
theorem leavesFromSubs_false (t : Subs α) : (leavesFromSubs false t).filter (·.1) = [] := by
  match t with
  | .nil => simp [leavesFromSubs]
  | .cons nm l s rest =>
    simp only [leavesFromSubs, Bool.false_and, List.filter_append, leavesFrom_false s,
      leavesFromSubs_false rest, List.append_nil]
  | .missing nm l rest => simpa [leavesFromSubs] using leavesFromSubs_false rest
end

mutual
theorem getParams_eq (t : Par α) : getParams t = ((leavesFrom true t).filter (·.1)).map (·.2) := by
  match t with
  | .scalar s => simp [getParams, leavesFrom]
  | .plist l => simpa [getParams, leavesFrom, flags, vals] using liquidArray_slots l.slots
  | .multi subs => simpa [getParams, leavesFrom] using getParamsSubs_eq subs
theorem getParamsSubs_eq (t : Subs α) :
    getParamsSubs t = ((leavesFromSubs true t).filter (·.1)).map (·.2) := by
  match t with
  | .nil => simp [getParamsSubs, leavesFromSubs]
  | .cons nm l s rest =>
    cases l with
    | true => simp [getParamsSubs, leavesFromSubs, getParams_eq s, getParamsSubs_eq rest]
    | false =>
      have h := leavesFrom_false s
      have hr := getParamsSubs_eq rest
      simp only [getParamsSubs, leavesFromSubs, Bool.and_false, List.filter_append, h,
        List.nil_append, hr, if_neg, Bool.false_eq_true, not_false_eq_true]
  | .missing nm l rest => simpa [getParamsSubs, leavesFromSubs] using getParamsSubs_eq rest
end

mutual
theorem getAllParams_eq (up : Bool) (t : Par α) : getAllParams t = (leavesFrom up t).map (·.2) := by
  match t with
  | .scalar s => simp [getAllParams, leavesFrom]
  | .plist l => simp [getAllParams, leavesFrom, vals]
  | .multi subs => simpa [getAllParams, leavesFrom] using getAllParamsSubs_eq up subs
theorem getAllParamsSubs_eq (up : Bool) (t : Subs α) :
    getAllParamsSubs t = (leavesFromSubs up t).map (·.2) := by
  match t with
  | .nil => simp [getAllParamsSubs, leavesFromSubs]
  | .cons nm l s rest =>
    simp [getAllParamsSubs, leavesFromSubs, getAllParams_eq (up && l) s,
      getAllParamsSubs_eq up rest]
  | .missing nm l rest => simpa [getAllParamsSubs, leavesFromSubs] using getAllParamsSubs_eq up rest
end

mutual
theorem getParams_length (t : Par α) : (getParams t).length = numberOfParams t := by
  match t with
  | .scalar s => simp [getParams, numberOfParams]
  | .plist l => simpa [getParams, numberOfParams] using
      liquidArray_length (flags l) (vals l) (by simp [flags, vals])
  | .multi subs => simpa [getParams, numberOfParams] using getParamsSubs_length subs
theorem getParamsSubs_length (t : Subs α) : (getParamsSubs t).length = numberOfParamsSubs t := by
  match t with
  | .nil => simp [getParamsSubs, numberOfParamsSubs]
  | .cons nm l s rest =>
    have h1 := getParams_length s
    have h2 := getParamsSubs_length rest
    cases l <;> simp [getParamsSubs, numberOfParamsSubs, h1, h2]
  | .missing nm l rest => simpa [getParamsSubs, numberOfParamsSubs] using getParamsSubs_length rest
end

/-! ### setParams -/

theorem setSlots_get (ss : List (Slot α)) (v : List α)
    (h : v.length = countLiquid (ss.map (·.liquid))) :
    (setSlots ss v).2 = none ∧
    liquidArray ((setSlots ss v).1.map (·.liquid)) ((setSlots ss v).1.map (·.val)) = v := by
  induction ss generalizing v with
  | nil => cases v <;> simp_all [setSlots, liquidArray]
  | cons s ss ih =>
    cases hl : s.liquid with
    | true =>
      cases v with
      | nil => simp [hl] at h
      | cons x v =>
        have := ih v (by simpa [hl] using h)
        simp [setSlots, hl, liquidArray, this]
    | false =>
      have := ih v (by simpa [hl] using h)
      simp [setSlots, hl, liquidArray, this]

theorem setSlots_flags (ss : List (Slot α)) (v : List α) :
    (setSlots ss v).1.map (·.liquid) = ss.map (·.liquid) := by
  induction ss generalizing v with
  | nil => simp [setSlots]
  | cons s ss ih =>
    cases hl : s.liquid with
    | true => cases v <;> simp [setSlots, hl, ih]
    | false => simp [setSlots, hl, ih]

mutual
theorem numberOfParams_setParams (t : Par α) (v : List α) :
    numberOfParams (setParams t v).1 = numberOfParams t := by
  match t with
  | .scalar s =>
    match v with
    | [] => simp [setParams, numberOfParams]
    | [x] => simp [setParams, numberOfParams]
    | x :: y :: z => simp [setParams, numberOfParams]
  | .plist l => simp [setParams, numberOfParams, flags, setSlots_flags]
  | .multi subs => simpa [setParams, numberOfParams] using numberOfParams_setParamsSubs subs v
theorem numberOfParams_setParamsSubs (t : Subs α) (v : List α) :
    numberOfParamsSubs (setParamsSubs t v).1 = numberOfParamsSubs t := by
  match t with
  | .nil => simp [setParamsSubs, numberOfParamsSubs]
  | .cons nm l s rest =>
    cases l with
    | false => simp [setParamsSubs, numberOfParamsSubs, numberOfParams_setParamsSubs rest v]
    | true =>
      have h1 := numberOfParams_setParams s (v.take (numberOfParams s))
      have h2 := numberOfParams_setParamsSubs rest (v.drop (numberOfParams s))
      simp only [setParamsSubs, if_true]
      split <;> simp [numberOfParamsSubs, h1, h2]
  | .missing nm l rest =>
    simp [setParamsSubs, numberOfParamsSubs, numberOfParams_setParamsSubs rest v]
end

mutual
theorem setParams_get (t : Par α) (v : List α) (h : v.length = numberOfParams t) :
    (setParams t v).2 = none ∧ getParams (setParams t v).1 = v := by
  match t with
  | .scalar s =>
    match v, h with
    | [x], _ => simp [setParams, getParams]
    | [], h => simp [numberOfParams] at h
    | x :: y :: z, h => simp [numberOfParams] at h
  | .plist l =>
    have := setSlots_get l.slots v (by simpa [numberOfParams, flags] using h)
    simpa [setParams, getParams, flags, vals] using this
  | .multi subs =>
    have := setParamsSubs_get subs v (by simpa [numberOfParams] using h)
    simpa [setParams, getParams] using this
theorem setParamsSubs_get (t : Subs α) (v : List α) (h : v.length = numberOfParamsSubs t) :
    (setParamsSubs t v).2 = none ∧ getParamsSubs (setParamsSubs t v).1 = v := by
  match t with
  | .nil =>
    have : v = [] := by simpa [numberOfParamsSubs] using h
    simp [setParamsSubs, getParamsSubs, this]
  | .cons nm l s rest =>
    cases l with
    | false =>
      have := setParamsSubs_get rest v (by simpa [numberOfParamsSubs] using h)
      simpa [setParamsSubs, getParamsSubs] using this
    | true =>
      simp only [numberOfParamsSubs, if_true] at h
      have h1 := setParams_get s (v.take (numberOfParams s)) (by simp; omega)
      have h2 := setParamsSubs_get rest (v.drop (numberOfParams s)) (by simp; omega)
      simp [setParamsSubs, getParamsSubs, h1, h2]
  | .missing nm l rest =>
    have := setParamsSubs_get rest v (by simpa [numberOfParamsSubs] using h)
    simpa [setParamsSubs, getParamsSubs] using this
end

theorem setSlots_id (ss : List (Slot α)) :
    setSlots ss (liquidArray (ss.map (·.liquid)) (ss.map (·.val))) = (ss, none) := by
  induction ss with
  | nil => simp [setSlots]
  | cons s ss ih =>
    cases hl : s.liquid with
    | true =>
      simp only [List.map_cons, hl, liquidArray, setSlots, if_true, ih]
      cases s; simp_all
    | false => simp [hl, liquidArray, setSlots, ih]

mutual
theorem setParams_id (t : Par α) : setParams t (getParams t) = (t, none) := by
  match t with
  | .scalar s => simp [getParams, setParams]
  | .plist l =>
    have := setSlots_id l.slots
    simp [getParams, setParams, flags, vals, this]
  | .multi subs =>
    have := setParamsSubs_id subs
    simp [getParams, setParams, this]
theorem setParamsSubs_id (t : Subs α) : setParamsSubs t (getParamsSubs t) = (t, none) := by
  match t with
  | .nil => simp [setParamsSubs]
  | .cons nm l s rest =>
    cases l with
    | false =>
      have := setParamsSubs_id rest
      simp [getParamsSubs, setParamsSubs, this]
    | true =>
      have h0 := getParams_length s
      have h1 := setParams_id s
      have h2 := setParamsSubs_id rest
      have e1 : (getParams s ++ getParamsSubs rest).take (numberOfParams s) = getParams s := by
        rw [← h0]; simp
      have e2 : (getParams s ++ getParamsSubs rest).drop (numberOfParams s) = getParamsSubs rest := by
        rw [← h0]; simp
      simp [getParamsSubs, setParamsSubs, e1, e2, h1, h2]
  | .missing nm l rest =>
    have := setParamsSubs_id rest
    simp [getParamsSubs, setParamsSubs, this]
end

theorem setSlots_blank (c : α) (ss : List (Slot α)) (v : List α) :
    (setSlots ss v).1.map (fun s => { s with val := c }) = ss.map (fun s => { s with val := c }) := by
  induction ss generalizing v with
  | nil => simp [setSlots]
  | cons s ss ih =>
    cases hl : s.liquid with
    | true => cases v <;> simp [setSlots, hl, ih]
    | false => simp [setSlots, hl, ih]

mutual
theorem setParams_blank (c : α) (t : Par α) (v : List α) :
    blank c (setParams t v).1 = blank c t := by
  match t with
  | .scalar s =>
    match v with
    | [] => simp [setParams, blank]
    | [x] => simp [setParams, blank]
    | x :: y :: z => simp [setParams, blank]
  | .plist l => simp [setParams, blank, setSlots_blank]
  | .multi subs => simpa [setParams, blank] using setParamsSubs_blank c subs v
theorem setParamsSubs_blank (c : α) (t : Subs α) (v : List α) :
    blankSubs c (setParamsSubs t v).1 = blankSubs c t := by
  match t with
  | .nil => simp [setParamsSubs, blankSubs]
  | .cons nm l s rest =>
    cases l with
    | false => simp [setParamsSubs, blankSubs, setParamsSubs_blank c rest v]
    | true =>
      have h1 := setParams_blank c s (v.take (numberOfParams s))
      have h2 := setParamsSubs_blank c rest (v.drop (numberOfParams s))
      simp only [setParamsSubs, if_true]
      split <;> simp [blankSubs, h1, h2]
  | .missing nm l rest => simp [setParamsSubs, blankSubs, setParamsSubs_blank c rest v]
end

/-! Frozen leaves: pointwise relation between leaf lists. -/

/-- Same flags everywhere and same values at frozen positions. -/
def LeafRel : List (Bool × α) → List (Bool × α) → Prop
  | [], [] => True
  | (b, x) :: as, (b', x') :: as' => b' = b ∧ (b = false → x' = x) ∧ LeafRel as as'
  | _, _ => False

theorem LeafRel.refl : ∀ as : List (Bool × α), LeafRel as as
  | [] => trivial
  | (_, _) :: as => ⟨rfl, fun _ => rfl, LeafRel.refl as⟩

theorem LeafRel.append : ∀ {as as' bs bs' : List (Bool × α)}, LeafRel as as' → LeafRel bs bs' →
    LeafRel (as ++ bs) (as' ++ bs')
  | [], [], _, _, _, h => h
  | (_, _) :: as, (_, _) :: as', _, _, h, h' => ⟨h.1, h.2.1, h.2.2.append h'⟩
  | [], _ :: _, _, _, h, _ => h.elim
  | _ :: _, [], _, _, h, _ => h.elim

theorem LeafRel.length : ∀ {as as' : List (Bool × α)}, LeafRel as as' → as'.length = as.length
  | [], [], _ => rfl
  | (_, _) :: as, (_, _) :: as', h => by simp [LeafRel.length h.2.2]
  | [], _ :: _, h => h.elim
  | _ :: _, [], h => h.elim

theorem LeafRel.get : ∀ {as as' : List (Bool × α)}, LeafRel as as' → ∀ (i : Nat) (x : α),
    as[i]? = some (false, x) → as'[i]? = some (false, x)
  | [], [], _, i, x, h => by simp at h
  | (b, y) :: as, (b', y') :: as', h, 0, x, hx => by
    simp at hx
    obtain ⟨rfl, rfl⟩ := hx
    simp [h.1, h.2.1 rfl]
  | (b, y) :: as, (b', y') :: as', h, i + 1, x, hx => by
    simp at hx ⊢
    exact LeafRel.get h.2.2 i x hx
  | [], _ :: _, h, _, _, _ => h.elim
  | _ :: _, [], h, _, _, _ => h.elim

theorem LeafRel.slots (up : Bool) : ∀ {ss ss' : List (Slot α)},
    ss'.length = ss.length →
    (∀ (i : Nat) (s : Slot α), ss[i]? = some s → ∃ s' : Slot α, ss'[i]? = some s' ∧ s'.liquid = s.liquid ∧
      ((up && s.liquid) = false → s'.val = s.val)) →
    LeafRel (ss.map (fun s => (up && s.liquid, s.val))) (ss'.map (fun s => (up && s.liquid, s.val)))
  | [], [], _, _ => trivial
  | s :: ss, s' :: ss', hl, h => by
    obtain ⟨t, ht, h1, h2⟩ := h 0 s (by simp)
    simp at ht
    subst ht
    refine ⟨by rw [h1], h2, LeafRel.slots up (by simpa using hl) ?_⟩
    intro i t hi
    simpa using h (i + 1) t (by simpa using hi)
  | [], _ :: _, hl, _ => by simp at hl
  | _ :: _, [], hl, _ => by simp at hl

theorem setSlots_rel (ss : List (Slot α)) (v : List α) :
    LeafRel (ss.map (fun s => (true && s.liquid, s.val)))
      ((setSlots ss v).1.map (fun s => (true && s.liquid, s.val))) := by
  induction ss generalizing v with
  | nil => simp [setSlots, LeafRel]
  | cons s ss ih =>
    cases hl : s.liquid with
    | true =>
      cases v with
      | nil => simpa [setSlots, hl] using LeafRel.refl _
      | cons x v => simpa [setSlots, hl, LeafRel] using ih v
    | false => simpa [setSlots, hl, LeafRel] using ih v

mutual
theorem setParams_rel (t : Par α) (v : List α) :
    LeafRel (leavesFrom true t) (leavesFrom true (setParams t v).1) := by
  match t with
  | .scalar s =>
    match v with
    | [] => simpa [setParams, leavesFrom] using LeafRel.refl _
    | [x] => simp [setParams, leavesFrom, LeafRel]
    | x :: y :: z => simpa [setParams, leavesFrom] using LeafRel.refl _
  | .plist l => simpa [setParams, leavesFrom] using setSlots_rel l.slots v
  | .multi subs => simpa [setParams, leavesFrom] using setParamsSubs_rel subs v
theorem setParamsSubs_rel (t : Subs α) (v : List α) :
    LeafRel (leavesFromSubs true t) (leavesFromSubs true (setParamsSubs t v).1) := by
  match t with
  | .nil => simp [setParamsSubs, leavesFromSubs, LeafRel]
  | .cons nm l s rest =>
    cases l with
    | false =>
      simpa [setParamsSubs, leavesFromSubs] using
        (LeafRel.refl (leavesFrom false s)).append (setParamsSubs_rel rest v)
    | true =>
      have h1 := setParams_rel s (v.take (numberOfParams s))
      have h2 := setParamsSubs_rel rest (v.drop (numberOfParams s))
      simp only [setParamsSubs, if_true]
      split
      · simpa [leavesFromSubs] using h1.append (LeafRel.refl _)
      · simpa [leavesFromSubs] using h1.append h2
  | .missing nm l rest => simpa [setParamsSubs, leavesFromSubs] using setParamsSubs_rel rest v
end

/-! ### setParam -/

theorem indexLiquid_ok (fs : List Bool) (i : Nat) (h : i < countLiquid fs) :
    ∃ ii, indexLiquid fs (i : Int) = .ok ii ∧ fs[ii]? = some true ∧
      countLiquid (fs.take ii) = i := by
  induction fs generalizing i with
  | nil => simp at h
  | cons b fs ih =>
    cases b with
    | true =>
      cases i with
      | zero => exact ⟨0, by simp [indexLiquid], by simp, by simp⟩
      | succ i =>
        obtain ⟨ii, h1, h2, h3⟩ := ih i (by simpa using h)
        refine ⟨ii + 1, ?_, by simpa using h2, by simp [h3]⟩
        have e : ((i + 1 : Nat) : Int) - 1 = (i : Int) := by omega
        have hne : ((i + 1 : Nat) : Int) ≠ 0 := by omega
        simp only [indexLiquid, if_true, if_neg hne, e, h1]
        rfl
    | false =>
      obtain ⟨ii, h1, h2, h3⟩ := ih i (by simpa using h)
      refine ⟨ii + 1, ?_, by simpa using h2, by simp [h3]⟩
      simp only [indexLiquid, Bool.false_eq_true, if_false, h1]
      rfl

theorem indexLiquid_err (fs : List Bool) (i : Int) (h : i < 0 ∨ (countLiquid fs : Int) ≤ i) :
    indexLiquid fs i = .error .index := by
  induction fs generalizing i with
  | nil => simp [indexLiquid]
  | cons b fs ih =>
    cases b with
    | true =>
      have hne : i ≠ 0 := by
        rcases h with h | h
        · omega
        · simp at h; omega
      have := ih (i - 1) (by rcases h with h | h; · left; omega
                             · right; simp at h; omega)
      simp only [indexLiquid, if_true, if_neg hne, this]
      rfl
    | false =>
      have := ih i (by simpa using h)
      simp only [indexLiquid, Bool.false_eq_true, if_false, this]
      rfl

theorem liquidArray_get {β : Type} (fs : List Bool) (as : List β) (hl : as.length = fs.length)
    (ii : Nat) (h : fs[ii]? = some true) :
    (liquidArray fs as)[countLiquid (fs.take ii)]? = as[ii]? := by
  induction fs generalizing as ii with
  | nil => simp at h
  | cons b fs ih =>
    cases as with
    | nil => simp at hl
    | cons a as =>
      cases ii with
      | zero =>
        simp at h
        subst h
        simp [liquidArray]
      | succ ii =>
        have := ih as (by simpa using hl) ii (by simpa using h)
        cases b <;> simp [liquidArray, this]

theorem liquidArray_set {β : Type} (fs : List Bool) (as : List β) (hl : as.length = fs.length)
    (ii : Nat) (h : fs[ii]? = some true) (x : β) :
    liquidArray fs (as.set ii x) = (liquidArray fs as).set (countLiquid (fs.take ii)) x := by
  induction fs generalizing as ii with
  | nil => simp at h
  | cons b fs ih =>
    cases as with
    | nil => simp at hl
    | cons a as =>
      cases ii with
      | zero =>
        simp at h
        subst h
        simp [liquidArray]
      | succ ii =>
        have := ih as (by simpa using hl) ii (by simpa using h)
        cases b <;> simp [liquidArray, this]

theorem flags_set (l : PList α) (ii : Nat) (s : Slot α) (h : l.slots[ii]? = some s) (v : α) :
    (l.slots.set ii { s with val := v }).map (·.liquid) = l.slots.map (·.liquid) := by
  apply List.ext_getElem?
  intro j
  simp only [List.getElem?_map, List.getElem?_set]
  split
  · rename_i hij
    subst hij
    split
    · simp [h]
    · rename_i hlt
      simp [List.getElem?_eq_none (Nat.le_of_not_lt hlt)]
  · rfl

/-- Everything `setParam` does on a `ParamList` for a valid index. -/
theorem setParam_plist (l : PList α) (i : Nat) (v : α) (h : i < countLiquid (flags l)) :
    ∃ ii s, l.slots[ii]? = some s ∧ s.liquid = true ∧ countLiquid ((flags l).take ii) = i ∧
      setParam (.plist l) i v =
        (.plist { l with slots := l.slots.set ii { s with val := v } }, .ok s.val) := by
  obtain ⟨ii, h1, h2, h3⟩ := indexLiquid_ok (flags l) i h
  have h2' : ∃ s, l.slots[ii]? = some s ∧ s.liquid = true := by
    simp only [flags, List.getElem?_map, Option.map_eq_some_iff] at h2
    exact h2
  obtain ⟨s, hs, hsl⟩ := h2'
  exact ⟨ii, s, hs, hsl, h3, by simp only [setParam, h1, hs]⟩

mutual
theorem numberOfParams_setParam (t : Par α) (i : Int) (v : α) :
    numberOfParams (setParam t i v).1 = numberOfParams t := by
  match t with
  | .scalar s =>
    simp only [setParam]
    split <;> simp [numberOfParams]
  | .plist l =>
    simp only [setParam]
    split
    · rfl
    · split
      · rfl
      · rename_i s hs
        simp [numberOfParams, flags, flags_set l _ s hs v]
  | .multi subs => simpa [setParam, numberOfParams] using numberOfParams_setParamSubs subs i v
theorem numberOfParams_setParamSubs (t : Subs α) (i : Int) (v : α) :
    numberOfParamsSubs (setParamSubs t i v).1 = numberOfParamsSubs t := by
  match t with
  | .nil => simp [setParamSubs]
  | .cons nm l s rest =>
    cases l with
    | false => simp [setParamSubs, numberOfParamsSubs, numberOfParams_setParamSubs rest i v]
    | true =>
      have h1 := numberOfParams_setParam s i v
      have h2 := numberOfParams_setParamSubs rest (i - numberOfParams s) v
      simp only [setParamSubs, if_true]
      split <;> simp [numberOfParamsSubs, h1, h2]
  | .missing nm l rest =>
    simp [setParamSubs, numberOfParamsSubs, numberOfParams_setParamSubs rest i v]
end

mutual
theorem setParam_ok (t : Par α) (i : Nat) (v : α) (h : i < numberOfParams t) :
    ∃ old, (getParams t)[i]? = some old ∧ (setParam t i v).2 = .ok old ∧
      getParams (setParam t i v).1 = (getParams t).set i v ∧
      setParam (setParam t i v).1 i old = (t, .ok v) := by
  match t with
  | .scalar s =>
    have : i = 0 := by simpa [numberOfParams] using h
    subst this
    exact ⟨s.val, by simp [getParams], by simp [setParam], by simp [setParam, getParams],
      by simp [setParam]⟩
  | .plist l =>
    obtain ⟨ii, s, hs, hsl, hc, heq⟩ := setParam_plist l i v (by simpa [numberOfParams] using h)
    have hlt : ii < l.slots.length := by
      by_cases hlt : ii < l.slots.length
      · exact hlt
      · simp [List.getElem?_eq_none (Nat.le_of_not_lt hlt)] at hs
    have hf : (flags l)[ii]? = some true := by simp [flags, List.getElem?_map, hs, hsl]
    have hlen : (vals l).length = (flags l).length := by simp [vals, flags]
    refine ⟨s.val, ?_, by rw [heq], ?_, ?_⟩
    · have := liquidArray_get (flags l) (vals l) hlen ii hf
      rw [hc] at this
      simp only [getParams, this]
      simp [vals, List.getElem?_map, hs]
    · have := liquidArray_set (flags l) (vals l) hlen ii hf v
      rw [hc] at this
      rw [heq]
      simp only [getParams]
      rw [← this]
      have e1 : flags { l with slots := l.slots.set ii { s with val := v } } = flags l := by
        simpa [flags] using flags_set l ii s hs v
      have e2 : vals { l with slots := l.slots.set ii { s with val := v } } = (vals l).set ii v := by
        simp [vals, List.map_set]
      rw [e1, e2]
    · rw [heq]
      have e1 : flags { l with slots := l.slots.set ii { s with val := v } } = flags l := by
        simpa [flags] using flags_set l ii s hs v
      obtain ⟨ii', h1, h2, h3⟩ := indexLiquid_ok (flags l) i (by simpa [numberOfParams] using h)
      have : indexLiquid (flags l) i = .ok ii := by
        have := heq
        simp only [setParam, h1] at this
        rw [h1]
        -- both ii and ii' are thawed with the same rank, hence equal
        have huniq : ∀ (fs : List Bool) (a b : Nat), fs[a]? = some true → fs[b]? = some true →
            countLiquid (fs.take a) = countLiquid (fs.take b) → a = b := by
          intro fs
          induction fs with
          | nil => intro a b ha; simp at ha
          | cons f fs ih =>
            intro a b ha hb hab
            cases a with
            | zero =>
              cases b with
              | zero => rfl
              | succ b => simp at ha; subst ha; simp at hab
            | succ a =>
              cases b with
              | zero => simp at hb; subst hb; simp at hab
              | succ b =>
                have := ih a b (by simpa using ha) (by simpa using hb)
                  (by cases f <;> simpa using hab)
                omega
        rw [huniq (flags l) ii' ii h2 hf (by rw [h3, hc])]
      simp only [setParam, e1, this]
      simp only [List.getElem?_set_self hlt]
      simp only [List.set_set]
      have : l.slots.set ii { names := s.names, liquid := s.liquid, val := s.val } = l.slots := by
        apply List.ext_getElem?
        intro j
        rw [List.getElem?_set]
        split
        · rename_i hij; subst hij; rw [hs]
        · rfl
      simp [this]
  | .multi subs =>
    obtain ⟨old, h1, h2, h3, h4⟩ := setParamSubs_ok subs i v (by simpa [numberOfParams] using h)
    exact ⟨old, by simpa [getParams] using h1, by simpa [setParam] using h2,
      by simpa [setParam, getParams] using h3, by simp [setParam, h4]⟩
theorem setParamSubs_ok (t : Subs α) (i : Nat) (v : α) (h : i < numberOfParamsSubs t) :
    ∃ old, (getParamsSubs t)[i]? = some old ∧ (setParamSubs t i v).2 = .ok old ∧
      getParamsSubs (setParamSubs t i v).1 = (getParamsSubs t).set i v ∧
      setParamSubs (setParamSubs t i v).1 i old = (t, .ok v) := by
  match t with
  | .nil => simp [numberOfParamsSubs] at h
  | .cons nm l s rest =>
    cases l with
    | false =>
      obtain ⟨old, h1, h2, h3, h4⟩ := setParamSubs_ok rest i v (by simpa [numberOfParamsSubs] using h)
      exact ⟨old, by simpa [getParamsSubs] using h1, by simpa [setParamSubs] using h2,
        by simpa [setParamSubs, getParamsSubs] using h3, by simp [setParamSubs, h4]⟩
    | true =>
      have hlen := getParams_length s
      by_cases hi : i < numberOfParams s
      · obtain ⟨old, h1, h2, h3, h4⟩ := setParam_ok s i v hi
        have hi' : (i : Int) < (numberOfParams s : Int) := by omega
        have hn := numberOfParams_setParam s i v
        refine ⟨old, ?_, ?_, ?_, ?_⟩
        · simp only [getParamsSubs, if_true]
          rw [List.getElem?_append_left (by omega)]
          exact h1
        · simp [setParamSubs, hi', h2]
        · simp only [setParamSubs, hi', if_true, getParamsSubs, h3]
          rw [List.set_append_left _ _ (by omega)]
        · simp [setParamSubs, hi', hn, h4]
      · have hi' : ¬ (i : Int) < (numberOfParams s : Int) := by omega
        have hsub : (i : Int) - (numberOfParams s : Int) = ((i - numberOfParams s : Nat) : Int) := by
          omega
        obtain ⟨old, h1, h2, h3, h4⟩ := setParamSubs_ok rest (i - numberOfParams s) v
          (by simp [numberOfParamsSubs] at h; omega)
        refine ⟨old, ?_, ?_, ?_, ?_⟩
        · simp only [getParamsSubs, if_true]
          rw [List.getElem?_append_right (by omega), hlen]
          exact h1
        · simp [setParamSubs, hi', hsub, h2]
        · simp only [setParamSubs, hi', if_true, if_false, getParamsSubs, hsub, h3]
          rw [List.set_append_right _ _ (by omega), hlen]
        · simp [setParamSubs, hi', hsub, h4]
  | .missing nm l rest =>
    obtain ⟨old, h1, h2, h3, h4⟩ := setParamSubs_ok rest i v (by simpa [numberOfParamsSubs] using h)
    exact ⟨old, by simpa [getParamsSubs] using h1, by simpa [setParamSubs] using h2,
      by simpa [setParamSubs, getParamsSubs] using h3, by simp [setParamSubs, h4]⟩
end

mutual
theorem setParam_err (t : Par α) (i : Int) (v : α) (h : i < 0 ∨ (numberOfParams t : Int) ≤ i) :
    (setParam t i v).1 = t ∧ ∃ e, (setParam t i v).2 = .error e := by
  match t with
  | .scalar s =>
    have : i ≠ 0 := by
      rcases h with h | h
      · omega
      · simp [numberOfParams] at h; omega
    simp [setParam, this]
  | .plist l =>
    have := indexLiquid_err (flags l) i (by simpa [numberOfParams] using h)
    simp [setParam, this]
  | .multi subs =>
    obtain ⟨h1, e, h2⟩ := setParamSubs_err subs i v (by simpa [numberOfParams] using h)
    exact ⟨by simp [setParam, h1], e, by simpa [setParam] using h2⟩
theorem setParamSubs_err (t : Subs α) (i : Int) (v : α)
    (h : i < 0 ∨ (numberOfParamsSubs t : Int) ≤ i) :
    (setParamSubs t i v).1 = t ∧ ∃ e, (setParamSubs t i v).2 = .error e := by
  match t with
  | .nil => simp [setParamSubs]
  | .cons nm l s rest =>
    cases l with
    | false =>
      obtain ⟨h1, e, h2⟩ := setParamSubs_err rest i v (by simpa [numberOfParamsSubs] using h)
      exact ⟨by simp [setParamSubs, h1], e, by simpa [setParamSubs] using h2⟩
    | true =>
      by_cases hi : i < (numberOfParams s : Int)
      · have hneg : i < 0 := by
          rcases h with h | h
          · exact h
          · simp [numberOfParamsSubs] at h; omega
        obtain ⟨h1, e, h2⟩ := setParam_err s i v (Or.inl hneg)
        exact ⟨by simp [setParamSubs, hi, h1], e, by simpa [setParamSubs, hi] using h2⟩
      · obtain ⟨h1, e, h2⟩ := setParamSubs_err rest (i - numberOfParams s) v (by
          rcases h with h | h
          · omega
          · simp [numberOfParamsSubs] at h; omega)
        exact ⟨by simp [setParamSubs, hi, h1], e, by simpa [setParamSubs, hi] using h2⟩
  | .missing nm l rest =>
    obtain ⟨h1, e, h2⟩ := setParamSubs_err rest i v (by simpa [numberOfParamsSubs] using h)
    exact ⟨by simp [setParamSubs, h1], e, by simpa [setParamSubs] using h2⟩
end

theorem slots_set_blank (c v : α) (ss : List (Slot α)) (ii : Nat) (s : Slot α)
    (h : ss[ii]? = some s) :
    (ss.set ii { s with val := v }).map (fun s => { s with val := c }) =
      ss.map (fun s => { s with val := c }) := by
  apply List.ext_getElem?
  intro j
  simp only [List.getElem?_map, List.getElem?_set]
  split
  · rename_i hij
    subst hij
    split
    · simp [h]
    · rename_i hlt
      simp [List.getElem?_eq_none (Nat.le_of_not_lt hlt)]
  · rfl

mutual
theorem setParam_blank (c : α) (t : Par α) (i : Int) (v : α) :
    blank c (setParam t i v).1 = blank c t := by
  match t with
  | .scalar s =>
    simp only [setParam]
    split <;> simp [blank]
  | .plist l =>
    simp only [setParam]
    split
    · rfl
    · split
      · rfl
      · rename_i s hs
        simp [blank, slots_set_blank c v _ _ s hs]
  | .multi subs => simpa [setParam, blank] using setParamSubs_blank c subs i v
theorem setParamSubs_blank (c : α) (t : Subs α) (i : Int) (v : α) :
    blankSubs c (setParamSubs t i v).1 = blankSubs c t := by
  match t with
  | .nil => simp [setParamSubs]
  | .cons nm l s rest =>
    cases l with
    | false => simp [setParamSubs, blankSubs, setParamSubs_blank c rest i v]
    | true =>
      have h1 := setParam_blank c s i v
      have h2 := setParamSubs_blank c rest (i - numberOfParams s) v
      simp only [setParamSubs, if_true]
      split <;> simp [blankSubs, h1, h2]
  | .missing nm l rest => simp [setParamSubs, blankSubs, setParamSubs_blank c rest i v]
end

mutual
theorem setParam_rel (t : Par α) (i : Int) (v : α) :
    LeafRel (leavesFrom true t) (leavesFrom true (setParam t i v).1) := by
  match t with
  | .scalar s =>
    simp only [setParam]
    split
    · simp [leavesFrom, LeafRel]
    · exact LeafRel.refl _
  | .plist l =>
    by_cases h : i < 0 ∨ (numberOfParams (.plist l) : Int) ≤ i
    · rw [(setParam_err (.plist l) i v h).1]; exact LeafRel.refl _
    · obtain ⟨n, rfl⟩ : ∃ n : Nat, i = n := ⟨i.toNat, by omega⟩
      obtain ⟨ii, s, hs, hsl, -, heq⟩ := setParam_plist l n v (by
        simp [numberOfParams] at h; omega)
      rw [heq]
      simp only [leavesFrom]
      apply LeafRel.slots
      · simp
      · intro j t ht
        by_cases hij : ii = j
        · subst hij
          rw [hs] at ht
          cases ht
          have hlt : ii < l.slots.length := by
            by_cases hlt : ii < l.slots.length
            · exact hlt
            · simp [List.getElem?_eq_none (Nat.le_of_not_lt hlt)] at hs
          exact ⟨_, List.getElem?_set_self hlt, rfl, by simp [hsl]⟩
        · exact ⟨t, by rw [List.getElem?_set_ne hij]; exact ht, rfl, fun _ => rfl⟩
  | .multi subs => simpa [setParam, leavesFrom] using setParamSubs_rel subs i v
theorem setParamSubs_rel (t : Subs α) (i : Int) (v : α) :
    LeafRel (leavesFromSubs true t) (leavesFromSubs true (setParamSubs t i v).1) := by
  match t with
  | .nil => simp [setParamSubs, leavesFromSubs, LeafRel]
  | .cons nm l s rest =>
    cases l with
    | false =>
      simpa [setParamSubs, leavesFromSubs] using
        (LeafRel.refl (leavesFrom false s)).append (setParamSubs_rel rest i v)
    | true =>
      have h1 := setParam_rel s i v
      have h2 := setParamSubs_rel rest (i - numberOfParams s) v
      simp only [setParamSubs, if_true]
      split
      · simpa [leavesFromSubs] using h1.append (LeafRel.refl _)
      · simpa [leavesFromSubs] using (LeafRel.refl _).append h2
  | .missing nm l rest => simpa [setParamSubs, leavesFromSubs] using setParamSubs_rel rest i v
end

end Verif.Params
