import Verif.Params.LemmasState

/-!
# Property theorems: what is thawed, by name (C128)
-/

namespace Verif.Params

variable {α : Type}

theorem lift_id (l : List (String × Bool × Bool)) : l.map (lift "" true) = l := by
  have : lift "" true = id := by funext x; simp [lift]
  rw [this, List.map_id]

/-- **C128 (the table; part).** `getParamStateRecursive()` of a container without missing parts lists every value and every object below it
exactly once, values and objects each in the order of the tree: for a value its own flag and whether its full path, with itself, is thawed,
for an object its own flag and whether all objects above it are thawed.  Missing: missing parts, where it raises. -/
theorem C128_table_partial (subs : Subs α) (h : CompleteSubs subs) :
    ∃ l, paramState (.multi subs) = .ok l ∧ l.Perm (valueStates "" true (.multi subs) ++ objectStates "" true (.multi subs)) ∧
      (valueStates "" true (.multi subs)).Sublist l ∧ (objectStates "" true (.multi subs)).Sublist l := by
  obtain ⟨l, hl, h'⟩ := paramStateSubs_ok 0 subs h
  have := h' "" true
  rw [lift_id] at this
  exact ⟨l, hl, this⟩

/-- The table of doc/intro.rst 251-258: everything frozen, then the path to `r` thawed. -/
example : paramState (.multi (.cons ["source0"] true (.multi (.cons ["pos"] false (.plist ⟨[⟨["ra"], false, (42 : Rat)⟩, ⟨["dec"], false, 9⟩], [], [], [], none, []⟩)
      (.cons ["brightness"] true (.plist ⟨[⟨["r"], true, 99⟩], [], [], [], none, []⟩) .nil))) .nil)) =
    .ok [("source0", true, true), ("source0.pos", false, true), ("source0.pos.ra", false, false), ("source0.pos.dec", false, false),
      ("source0.brightness", true, true), ("source0.brightness.r", true, true)] := by decide +kernel

/-- **C128 (thawed means fitted; part).** If all values have names, the values that the table marks as thawed along their full path are, in
order, those of `getParamNames()` (and so of `getParams()`).  Missing: values without names. -/
theorem C128_thawed_partial (subs : Subs α) (h : AllNamedSubs subs) :
    ((valueStates "" true (.multi subs)).filter (·.2.2)).map (·.1) = getParamNames (.multi subs) := by
  rw [getParamNames_thawed, thawedNames, ← valueStates_names "" true (.multi subs) h, List.filter_map, List.map_map]
  rfl

example : (valueStates "" true exTreeFull).filter (·.2.2) |>.map (·.1) |> (· = getParamNames exTreeFull) := by decide +kernel

/-- **C128 (false: values without names).** The table numbers all values of a list, `getParamNames` only the thawed ones: the same value has
two names. -/
theorem C128_unnamed_false :
    ∃ t : Par Int, (match paramState t with
      | .ok l => (l.filter (·.2.2)).map (·.1)
      | .error _ => []) = ["param1"] ∧ getParamNames t = ["param0"] :=
  ⟨.plist ⟨[⟨[], false, 1⟩, ⟨[], true, 2⟩], [], [], [], none, []⟩, by decide +kernel⟩

/-- **C128 (false: the third column).** It is not "thawed (parent)" as in the documentation: of a frozen value it says frozen although
everything above is thawed. -/
theorem C128_parent_false :
    ∃ t : Par Int, paramState t = .ok [("pos", true, true), ("pos.x", false, false)] ∧ getParamNames t = [] :=
  ⟨.multi (.cons ["pos"] true (.plist ⟨[⟨["x"], false, 1⟩], [], [], [], none, []⟩) .nil), by decide +kernel⟩

/-- **C128 (false: missing parts).** With a part that is None, which `getParams` and the others skip, the table raises AttributeError. -/
theorem C128_missing_false (subs : Subs α) (h : ¬ CompleteSubs subs) : paramState (.multi subs) = .error .attribute :=
  paramStateSubs_missing 0 subs h

example : paramState exTree = .error .attribute ∧ getParamNames exTree = ["pos.x", "bright.inner.r", "bright.inner.g"] := by decide +kernel

/-- **C128 (index by name; part).** On a list, `getLiquidIndex(name)` of a thawed value is its place in `getParams()`; it is -1 exactly for
frozen ones and KeyError exactly for names that do not exist.  Missing: containers. -/
theorem C128_index_partial (l : PList α) (n : String) :
    ((∀ s ∈ l.slots, n ∉ s.names) → getLiquidIndex (.plist l) n = .error .key) ∧
    ∀ (j : Nat) (s : Slot α), l.slots[j]? = some s → n ∈ s.names → (∀ (i : Nat) (u : Slot α), i < j → l.slots[i]? = some u → n ∉ u.names) →
      (s.liquid = false → getLiquidIndex (.plist l) n = .ok (-1)) ∧
      (s.liquid = true → ∃ i : Nat, getLiquidIndex (.plist l) n = .ok (i : Int) ∧ (getParams (.plist l))[i]? = some s.val) := by
  constructor
  · intro h
    have : (namedEntries (.plist l)).findIdx? (fun e => e.1.contains n) = none := by
      rw [List.findIdx?_eq_none_iff]
      intro e he
      simp only [namedEntries, List.mem_map] at he
      obtain ⟨s, hs, rfl⟩ := he
      simpa using h s hs
    simp only [getLiquidIndex, this]
  · intro j s hj hn hfirst
    have hidx : (namedEntries (.plist l)).findIdx? (fun e => e.1.contains n) = some j := by
      rw [List.findIdx?_eq_some_iff_getElem]
      have hlt : j < l.slots.length := (List.getElem?_eq_some_iff.1 hj).1
      have hs := (List.getElem?_eq_some_iff.1 hj).2
      refine ⟨by simpa [namedEntries] using hlt, ?_, ?_⟩
      · simp only [namedEntries, List.getElem_map, hs]
        simpa using hn
      · intro i hi
        have := hfirst i l.slots[i] hi (List.getElem?_eq_getElem (by omega))
        simpa [namedEntries] using this
    have hfl : (namedEntries (.plist l)).map (·.2) = flags l := by simp [namedEntries, flags]
    have hg : getLiquidIndex (.plist l) n = liquidIndexOfIndex (flags l) j := by
      simp only [getLiquidIndex, hidx, hfl]
    rw [hg]
    have hc := C10_index_maps l j s hj
    refine ⟨hc.1, fun hs => ?_⟩
    obtain ⟨i, h1, _, h2, _⟩ := hc.2 hs
    exact ⟨i, h1, h2⟩

example : getLiquidIndex (.plist { exFlux with slots := [⟨["a"], true, 1⟩, ⟨["b"], false, 2⟩, ⟨["c", "see"], true, 3⟩] }) "see" = .ok 1 ∧
    getLiquidIndex (.plist { exFlux with slots := [⟨["a"], true, 1⟩, ⟨["b"], false, 2⟩, ⟨["c", "see"], true, 3⟩] }) "b" = .ok (-1) ∧
    getLiquidIndex (.plist exFlux) "zzz" = .error .key := by decide +kernel

/-- **C128 (false: index by name in containers).** On a container `getLiquidIndex(name)` counts thawed objects, not thawed parameters: it
is not the place of the parameters of that object in `getParams()`. -/
theorem C128_index_false :
    ∃ t : Par Int, getLiquidIndex t "brightness" = .ok 1 ∧ getParamNames t = ["pos.x", "pos.y", "brightness.r"] :=
  ⟨.multi (.cons ["pos"] true (.plist ⟨[⟨["x"], true, 1⟩, ⟨["y"], true, 2⟩], [], [], [], none, []⟩)
    (.cons ["brightness"] true (.plist ⟨[⟨["r"], true, 3⟩], [], [], [], none, []⟩) .nil)), by decide +kernel⟩

/-- **C128 (thawed and frozen entries).** `getThawedParams()` and `getFrozenParams()` together name every entry exactly once, each in order. -/
theorem C128_split (t : Par α) :
    (getThawedNames t ++ getFrozenNames t).Perm ((namedEntries t).map (·.1.head?)) ∧
    (getThawedNames t).Sublist ((namedEntries t).map (·.1.head?)) ∧ (getFrozenNames t).Sublist ((namedEntries t).map (·.1.head?)) := by
  refine ⟨?_, List.filter_sublist.map _, List.filter_sublist.map _⟩
  unfold getThawedNames getFrozenNames
  rw [← List.map_append]
  exact (List.filter_append_perm (fun e : List String × Bool => e.2) (namedEntries t)).map _

example : getThawedNames exTree = [some "pos", some "shape", some "bright"] ∧ getFrozenNames exTree = [some "sky"] := by decide +kernel

end Verif.Params
