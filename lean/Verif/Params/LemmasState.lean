import Verif.Params.SpecState
import Verif.Params.Lemmas7

/-! Helper lemmas: the table of states. -/

namespace Verif.Params

variable {α : Type}

/-- An entry seen from above. -/
def lift (pre : String) (up : Bool) (x : String × Bool × Bool) : String × Bool × Bool := (pre ++ x.1, x.2.1, up && x.2.2)

theorem lift_lift (p q : String) (u v : Bool) (x : String × Bool × Bool) : lift p u (lift q v x) = lift (p ++ q) (u && v) x := by
  simp [lift, String.append_assoc, Bool.and_assoc]

theorem entryName_eq (nm : List String) (j : Nat) : entryName nm j = nm.head?.getD ("param" ++ toString j) := by
  cases nm <;> simp [entryName, toString_str]

theorem slotStates_eq (pre : String) (up : Bool) (j : Nat) (ss : List (Slot α)) :
    (slotStates j ss).map (lift pre up) =
      (ss.zipIdx j).map (fun x => (pre ++ x.1.names.head?.getD ("param" ++ toString x.2), x.1.liquid, up && x.1.liquid)) := by
  induction ss generalizing j with
  | nil => rfl
  | cons s ss ih => simp only [slotStates, List.map_cons, List.zipIdx_cons, ih, lift, entryName_eq]

theorem dot_lift (pre : String) (up l : Bool) (n : String) (L : List (String × Bool × Bool)) :
    (L.map (fun x => (s!"{n}.{x.1}", x.2.1, l && x.2.2))).map (lift pre up) = L.map (lift (pre ++ n ++ ".") (up && l)) := by
  rw [List.map_map]
  apply List.map_congr_left
  intro x _
  simp [lift, String.append_assoc, Bool.and_assoc, toString_str]

mutual
/-- What a part contributes, seen from above. -/
theorem partState_ok (t : Par α) (h : Complete t) :
    ∃ l, partState t = .ok l ∧ ∀ (pre : String) (up : Bool),
      (l.map (lift pre up)).Perm (valueStates pre up t ++ objectStates pre up t) ∧
      (valueStates pre up t).Sublist (l.map (lift pre up)) ∧ (objectStates pre up t).Sublist (l.map (lift pre up)) := by
  match t, h with
  | .scalar s, _ =>
    refine ⟨_, rfl, fun pre up => ?_⟩
    simp [valueStates, objectStates, lift]
  | .plist l, _ =>
    refine ⟨_, rfl, fun pre up => ?_⟩
    rw [slotStates_eq]
    simp only [valueStates, objectStates, List.append_nil, List.nil_sublist, and_true]
    exact ⟨List.Perm.refl _, List.Sublist.refl _⟩
  | .multi subs, h => exact paramStateSubs_ok 0 subs h
theorem paramStateSubs_ok (i : Nat) (t : Subs α) (h : CompleteSubs t) :
    ∃ l, paramStateSubs i t = .ok l ∧ ∀ (pre : String) (up : Bool),
      (l.map (lift pre up)).Perm (valueStatesSubs pre up i t ++ objectStatesSubs pre up i t) ∧
      (valueStatesSubs pre up i t).Sublist (l.map (lift pre up)) ∧ (objectStatesSubs pre up i t).Sublist (l.map (lift pre up)) := by
  match t, h with
  | .nil, _ =>
    refine ⟨[], rfl, fun pre up => ?_⟩
    simp [valueStatesSubs, objectStatesSubs]
  | .cons nm l s rest, h =>
    obtain ⟨a, ha, ha'⟩ := partState_ok s h.1
    obtain ⟨b, hb, hb'⟩ := paramStateSubs_ok (i + 1) rest h.2
    refine ⟨_, by simp only [paramStateSubs, ha, hb]; rfl, fun pre up => ?_⟩
    obtain ⟨p1, v1, o1⟩ := ha' (pre ++ entryName nm i ++ ".") (up && l)
    obtain ⟨p2, v2, o2⟩ := hb' pre up
    rw [List.map_append, List.map_cons, dot_lift]
    simp only [valueStatesSubs, objectStatesSubs, ← entryName_eq]
    have e : lift pre up (entryName nm i, l, true) = (pre ++ entryName nm i, l, up) := by simp [lift]
    rw [e]
    refine ⟨?_, ?_, ?_⟩
    · generalize valueStates (pre ++ entryName nm i ++ ".") (up && l) s = V1 at *
      generalize valueStatesSubs pre up (i + 1) rest = V2 at *
      generalize objectStates (pre ++ entryName nm i ++ ".") (up && l) s = O1 at *
      generalize objectStatesSubs pre up (i + 1) rest = O2 at *
      refine ((p1.cons _).append p2).trans ?_
      rw [List.perm_iff_count]
      intro x
      simp only [List.count_append, List.count_cons]
      omega
    · exact (v1.cons _).append v2
    · exact (o1.cons_cons _).append o2
end

mutual
/-- With names, thawed values have the names of `getParamNames`. -/
theorem valueStates_names (pre : String) (up : Bool) (t : Par α) (h : AllNamed t) :
    (valueStates pre up t).map (fun x => (x.2.2, x.1)) = namesFrom pre up t := by
  match t, h with
  | .scalar s, _ => rfl
  | .plist l, h =>
    simp only [valueStates, namesFrom, List.map_map]
    apply List.map_congr_left
    intro x hx
    have hm : x.1 ∈ l.slots := by
      have := List.mem_zipIdx hx
      rw [this.2.2]
      exact List.getElem_mem _
    simp only [Function.comp_apply]
    cases hn : x.1.names with
    | nil => exact absurd hn (h _ hm)
    | cons a as => rfl
  | .multi subs, h => exact valueStatesSubs_names pre up 0 subs h
theorem valueStatesSubs_names (pre : String) (up : Bool) (i : Nat) (t : Subs α) (h : AllNamedSubs t) :
    (valueStatesSubs pre up i t).map (fun x => (x.2.2, x.1)) = namesFromSubs pre up i t := by
  match t, h with
  | .nil, _ => rfl
  | .cons nm l s rest, h =>
    simp only [valueStatesSubs, namesFromSubs, List.map_append, valueStates_names _ _ s h.1, valueStatesSubs_names pre up (i + 1) rest h.2]
  | .missing nm l rest, h => exact valueStatesSubs_names pre up (i + 1) rest h
end

mutual
theorem partState_missing (t : Par α) (h : ¬ Complete t) : partState t = .error .attribute := by
  match t, h with
  | .scalar s, h => exact absurd trivial h
  | .plist l, h => exact absurd trivial h
  | .multi subs, h => exact paramStateSubs_missing 0 subs h
theorem paramStateSubs_missing (i : Nat) (t : Subs α) (h : ¬ CompleteSubs t) : paramStateSubs i t = .error .attribute := by
  match t, h with
  | .nil, h => exact absurd trivial h
  | .cons nm l s rest, h =>
    by_cases hs : Complete s
    · have hr : ¬ CompleteSubs rest := fun hr => h ⟨hs, hr⟩
      obtain ⟨a, ha, _⟩ := partState_ok s hs
      simp only [paramStateSubs, ha, paramStateSubs_missing (i + 1) rest hr]
    · simp only [paramStateSubs, partState_missing s hs]
  | .missing nm l rest, _ => rfl
end

end Verif.Params
