import Verif.Params.Props
import Verif.Params.Spec2

/-!
# Lemmas: names, wrong-length vectors, step sizes of containers
-/

namespace Verif.Params

variable {α : Type}

/-! ### Names -/

mutual
theorem namesFrom_false (pre : String) (t : Par α) : (namesFrom pre false t).filter (·.1) = [] := by
  match t with
  | .scalar s => simp [namesFrom]
  | .plist l => simp [namesFrom]
  | .multi subs => exact namesFromSubs_false pre 0 subs
theorem namesFromSubs_false (pre : String) (i : Nat) (t : Subs α) :
    (namesFromSubs pre false i t).filter (·.1) = [] := by
  match t with
  | .nil => rfl
  | .cons nm l s rest =>
    simp only [namesFromSubs, Bool.false_and, List.filter_append, namesFrom_false _ s,
      namesFromSubs_false pre (i + 1) rest, List.append_nil]
  | .missing nm l rest => exact namesFromSubs_false pre (i + 1) rest
end

theorem toString_str (x : String) : toString x = x := rfl

theorem slotNames_eq (pre : String) (done rest : List (Slot α)) :
    ((rest.zipIdx done.length).map (fun x =>
      (x.1.liquid, pre ++ x.1.names.head?.getD
        ("param" ++ toString (((done ++ rest).take x.2).filter (·.liquid)).length)))).filter (·.1) =
      (slotNames ((done.filter (·.liquid)).length) rest).map (fun n => (true, pre ++ n)) := by
  induction rest generalizing done with
  | nil => rfl
  | cons s ss ih =>
    have := ih (done ++ [s])
    simp only [List.length_append, List.length_cons, List.length_nil, Nat.zero_add,
      List.append_assoc, List.cons_append, List.nil_append] at this
    simp only [List.zipIdx_cons, List.map_cons, List.take_left, slotNames]
    cases hs : s.liquid with
    | true =>
      rw [List.filter_cons_of_pos (by simp), this]
      simp only [if_true, List.map_cons, List.filter_append, List.length_append]
      have : ([s].filter (·.liquid)).length = 1 := by simp [hs]
      rw [this]
      congr 3
      cases s.names with
      | nil => simp [toString_str]
      | cons a as => simp
    | false =>
      rw [List.filter_cons_of_neg (by simp), this]
      simp [List.filter_append, hs]

mutual
theorem getParamNames_eq (pre : String) (t : Par α) :
    (namesFrom pre true t).filter (·.1) = (getParamNames t).map (fun n => (true, pre ++ n)) := by
  match t with
  | .scalar s => simp [namesFrom, getParamNames]
  | .plist l =>
    have := slotNames_eq pre [] l.slots
    simpa [namesFrom, getParamNames] using this
  | .multi subs => exact getParamNamesSubs_eq pre 0 subs
theorem getParamNamesSubs_eq (pre : String) (i : Nat) (t : Subs α) :
    (namesFromSubs pre true i t).filter (·.1) =
      (getParamNamesSubs i t).map (fun n => (true, pre ++ n)) := by
  match t with
  | .nil => rfl
  | .cons nm l s rest =>
    simp only [namesFromSubs, getParamNamesSubs, List.filter_append, List.map_append,
      getParamNamesSubs_eq pre (i + 1) rest, Bool.true_and]
    congr 1
    cases l with
    | false => simp [namesFrom_false]
    | true =>
      simp only [getParamNames_eq _ s, if_true, getParamNames_length s]
      rw [List.map_map]
      apply List.map_congr_left
      intro n _
      cases nm with
      | nil => simp [String.append_assoc, toString_str]
      | cons a as => simp [String.append_assoc, toString_str]
  | .missing nm l rest => exact getParamNamesSubs_eq pre (i + 1) rest
end

theorem getParamNames_thawed (t : Par α) : getParamNames t = thawedNames t := by
  rw [thawedNames, getParamNames_eq]
  simp [Function.comp_def]

mutual
theorem namesFrom_flags (pre : String) (up : Bool) (t : Par α) :
    (namesFrom pre up t).map (·.1) = (leavesFrom up t).map (·.1) := by
  match t with
  | .scalar s => rfl
  | .plist l =>
    simp only [namesFrom, leavesFrom, List.map_map]
    apply List.ext_getElem?
    intro i
    simp
    cases l.slots[i]? <;> rfl
  | .multi subs => exact namesFromSubs_flags pre up 0 subs
theorem namesFromSubs_flags (pre : String) (up : Bool) (i : Nat) (t : Subs α) :
    (namesFromSubs pre up i t).map (·.1) = (leavesFromSubs up t).map (·.1) := by
  match t with
  | .nil => rfl
  | .cons nm l s rest =>
    simp only [namesFromSubs, leavesFromSubs, List.map_append, namesFrom_flags _ _ s,
      namesFromSubs_flags pre up (i + 1) rest]
  | .missing nm l rest => exact namesFromSubs_flags pre up (i + 1) rest
end

/-! ### `setAllParams` with vectors of any length -/

theorem setAllSlots_any (ss : List (Slot α)) (v : List α) :
    (setAllSlots ss v).1.map (·.val) = (v.take ss.length ++ (ss.map (·.val)).drop v.length) ∧
    (setAllSlots ss v).2 = if ss.length < v.length then some .index else none := by
  induction ss generalizing v with
  | nil => cases v <;> simp [setAllSlots]
  | cons s ss ih =>
    cases v with
    | nil => simp [setAllSlots]
    | cons x xs =>
      have := ih xs
      simp only [setAllSlots, List.map_cons, this.1, this.2, List.length_cons, List.take_succ_cons,
        List.drop_succ_cons, List.cons_append, true_and]
      by_cases h : ss.length < xs.length
      · rw [if_pos h, if_pos (by omega)]
      · rw [if_neg h, if_neg (by omega)]

theorem setAllParamsSubs_take (t : Subs α) (v w : List α) (h : v.length = (getAllParamsSubs t).length) :
    setAllParamsSubs t (v ++ w) = setAllParamsSubs t v := by
  match t with
  | .nil => rfl
  | .cons nm l s rest =>
    simp only [getAllParamsSubs, List.length_append] at h
    have h1 : (v ++ w).take (getAllParams s).length = v.take (getAllParams s).length :=
      List.take_append_of_le_length (by omega)
    have h2 : (v ++ w).drop (getAllParams s).length = v.drop (getAllParams s).length ++ w :=
      List.drop_append_of_le_length (by omega)
    have h3 := setAllParamsSubs_take rest (v.drop (getAllParams s).length) w (by simp; omega)
    simp only [setAllParamsSubs, h1, h2, h3]
  | .missing nm l rest =>
    simp only [getAllParamsSubs] at h
    simp only [setAllParamsSubs, setAllParamsSubs_take rest v w h]

/-! ### Step sizes -/

theorem setStepSizesList_ok [One α] (l : PList α) (ss : List α)
    (h : ss.length = numberOfParams (.plist l)) (hst : StepsSettableList l) :
    (setStepSizesList l ss).2 = none ∧
      getStepSizes (.plist (setStepSizesList l ss).1) = ss :=
  C13_steps_partial l ss h hst

theorem flags_steps (l : PList α) (x : Option (List α)) : flags { l with steps := x } = flags l := rfl

theorem setStepSizesList_blank [One α] (l : PList α) (ss : List α) :
    { (setStepSizesList l ss).1 with steps := none } = { l with steps := none } := by
  unfold setStepSizesList
  split
  · split <;> rfl
  · rfl

mutual
theorem setStepSizes_blank [One α] (t : Par α) (ss : List α) :
    blankSteps (setStepSizes t ss).1 = blankSteps t := by
  match t with
  | .scalar s => cases ss <;> simp [setStepSizes, blankSteps]
  | .plist l => simp only [setStepSizes, blankSteps, setStepSizesList_blank]
  | .multi subs => simp only [setStepSizes, blankSteps, setStepSizesSubs_blank subs ss]
theorem setStepSizesSubs_blank [One α] (t : Subs α) (ss : List α) :
    blankStepsSubs (setStepSizesSubs t ss).1 = blankStepsSubs t := by
  match t with
  | .nil => rfl
  | .cons nm l s rest =>
    simp only [setStepSizesSubs]
    split
    · have h1 := setStepSizes_blank s (ss.take (numberOfParams s))
      have h2 := setStepSizesSubs_blank rest (ss.drop (numberOfParams s))
      split <;> simp [blankStepsSubs, h1, h2]
    · simp [blankStepsSubs, setStepSizesSubs_blank rest ss]
  | .missing nm l rest => simp [setStepSizesSubs, blankStepsSubs, setStepSizesSubs_blank rest ss]
end

mutual
theorem numberOfParams_blankSteps (t : Par α) : numberOfParams (blankSteps t) = numberOfParams t := by
  match t with
  | .scalar s => rfl
  | .plist l => rfl
  | .multi subs => exact numberOfParamsSubs_blankSteps subs
theorem numberOfParamsSubs_blankSteps (t : Subs α) :
    numberOfParamsSubs (blankStepsSubs t) = numberOfParamsSubs t := by
  match t with
  | .nil => rfl
  | .cons nm l s rest =>
    simp only [blankStepsSubs, numberOfParamsSubs, numberOfParams_blankSteps s,
      numberOfParamsSubs_blankSteps rest]
  | .missing nm l rest => exact numberOfParamsSubs_blankSteps rest
end

mutual
theorem setStepSizes_ok [One α] (t : Par α) (ss : List α) (h : ss.length = numberOfParams t)
    (hst : StepsSettable t) :
    (setStepSizes t ss).2 = none ∧ getStepSizes (setStepSizes t ss).1 = ss := by
  match t with
  | .scalar s =>
    match ss, h with
    | [v], _ => simp [setStepSizes, getStepSizes]
  | .plist l => exact setStepSizesList_ok l ss h hst
  | .multi subs => exact setStepSizesSubs_ok subs ss h hst
theorem setStepSizesSubs_ok [One α] (t : Subs α) (ss : List α) (h : ss.length = numberOfParamsSubs t)
    (hst : StepsSettableSubs t) :
    (setStepSizesSubs t ss).2 = none ∧ getStepSizesSubs (setStepSizesSubs t ss).1 = ss := by
  match t with
  | .nil => simpa [setStepSizesSubs, getStepSizesSubs, numberOfParamsSubs, eq_comm] using h
  | .cons nm l s rest =>
    simp only [StepsSettableSubs] at hst
    simp only [numberOfParamsSubs] at h
    cases l with
    | true =>
      simp only [if_true] at h
      obtain ⟨h1, h2⟩ := setStepSizes_ok s (ss.take (numberOfParams s)) (by simp; omega) (hst.1 rfl)
      obtain ⟨h3, h4⟩ := setStepSizesSubs_ok rest (ss.drop (numberOfParams s)) (by simp; omega) hst.2
      simp only [setStepSizesSubs, if_true, h1, h3, getStepSizesSubs, h2, h4, List.take_append_drop,
        and_self]
    | false =>
      have := setStepSizesSubs_ok rest ss (by simpa using h) hst.2
      simp [setStepSizesSubs, getStepSizesSubs, this]
  | .missing nm l rest =>
    have := setStepSizesSubs_ok rest ss h hst
    simp [setStepSizesSubs, getStepSizesSubs, this]
end

end Verif.Params
