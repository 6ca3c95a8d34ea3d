import Verif.Params.Lemmas7

/-!
# Further properties of parameter objects (C04, C06, C11, C13)
-/

namespace Verif.Params

open Verif

variable {α : Type}

/-- **C04 (names).** `getParamNames()` lists, for the thawed parameters in order, their dotted names:
entry `j` is the name of the parameter whose value is entry `j` of `getParams()`. -/
theorem C04_names (t : Par α) :
    getParamNames t = thawedNames t ∧
    (namesFrom "" true t).map (·.1) = (leaves t).map (·.1) := by
  refine ⟨getParamNames_thawed t, ?_⟩
  exact namesFrom_flags "" true t

/-- Unnamed entries: the list numbers its thawed values, the container its entries. -/
example :
    let l : PList Rat := { exFlux with
      slots := [⟨[], true, 1⟩, ⟨["q"], false, 2⟩, ⟨[], true, 3⟩, ⟨["s", "alias"], true, 4⟩] }
    getParamNames (.multi (.missing ["shape"] true (.cons [] true (.plist l)
      (.cons ["sky"] true (.scalar ⟨"Sky", 100, none, none, none, 1, none⟩) .nil)))) =
      ["param1.param0", "param1.param1", "param1.s", "sky.Sky"] := by decide +kernel

/-- **C06 (wrong lengths).** On a list, `setAllParams` assigns as many values as there are; a vector
that is too long raises IndexError (after assigning), a shorter one does not raise and leaves the rest
alone.  A container ignores surplus values. -/
theorem C06_wrong_length (l : PList α) (subs : Subs α) (v w : List α)
    (h : v.length = (allValues (.multi subs)).length) :
    (getAllParams (setAllParams (.plist l) v).1 =
        v.take (allValues (.plist l)).length ++ (allValues (.plist l)).drop v.length ∧
      (setAllParams (.plist l) v).2 =
        if (allValues (.plist l)).length < v.length then some .index else none) ∧
    setAllParams (.multi subs) (v ++ w) = setAllParams (.multi subs) v := by
  have hv : ∀ t : Par α, getAllParams t = allValues t := fun t => getAllParams_eq true t
  constructor
  · have hl := hv (.plist l)
    have := setAllSlots_any l.slots v
    rw [← hl]
    simp only [getAllParams, vals, List.length_map, setAllParams] at *
    exact this
  · simp only [setAllParams]
    rw [setAllParamsSubs_take subs v w]
    rw [h, ← hv]
    rfl

example : (setAllParams (.plist exFlux) [1, 2, 3]).2 = some .index ∧
    getAllParams (setAllParams (.plist exFlux) [1, 2, 3]).1 = [1, 2] ∧
    (setAllParams (.plist exFlux) [1]).2 = none ∧
    getAllParams (setAllParams (.plist exFlux) [1]).1 = [1, 8] ∧
    (setAllParams exTree [1, 2, 3, 4, 5, 6]).2 = none := by decide +kernel

/-- **C11 (what raises).** Only `remove` of an absent object (ValueError) and freezing or thawing a
position that does not exist (IndexError) raise, and then nothing is changed; `remove` of a present
object removes its first occurrence. -/
theorem C11_raises {β : Type} [DecidableEq β] (c : Cont β) (h : c.liquid.length = c.subs.length) :
    (∀ x, (c.edit (.append x)).2 = none ∧ (c.edit (.prepend x)).2 = none) ∧
    (∀ xs, (c.edit (.extend xs)).2 = none) ∧
    (∀ x, x ∉ c.subs → c.edit (.remove x) = (c, some .value)) ∧
    (∀ x, x ∈ c.subs → (c.edit (.remove x)).2 = none ∧ (c.edit (.remove x)).1.subs = c.subs.erase x) ∧
    (∀ i, c.subs.length ≤ i →
      c.edit (.freeze i) = (c, some .index) ∧ c.edit (.thaw i) = (c, some .index)) ∧
    (∀ i, i < c.subs.length → (c.edit (.freeze i)).2 = none ∧ (c.edit (.thaw i)).2 = none) := by
  refine ⟨fun x => ⟨rfl, rfl⟩, fun xs => rfl, ?_, ?_, ?_, ?_⟩
  · intro x hx
    have : c.subs.findIdx? (· = x) = none := by
      rw [List.findIdx?_eq_none_iff]
      intro y hy
      simp only [decide_eq_false_iff_not]
      rintro rfl
      exact hx hy
    simp [Cont.edit, this]
  · intro x hx
    cases hf : c.subs.findIdx? (· = x) with
    | none =>
      rw [List.findIdx?_eq_none_iff] at hf
      have := hf x hx
      simp at this
    | some i =>
      simp only [Cont.edit, hf, true_and]
      rw [List.erase_eq_eraseIdx]
      have : c.subs.idxOf? x = some i := by
        rw [← hf]
        unfold List.idxOf?
        congr 1
      rw [this]
      exact (List.eraseIdx_eq_take_drop_succ _ _).symm
  · intro i hi
    simp [Cont.edit, h, hi]
  · intro i hi
    simp [Cont.edit, h, hi]

example :
    let c : Cont Nat := ⟨[10, 20, 10], [true, false, false]⟩
    (c.edit (.remove 10)).1.subs = [20, 10] ∧ (c.edit (.remove 10)).1.liquid = [false, false] ∧
    (c.edit (.remove 7)).2 = some .value := by decide

/-- **C13 (trees, partial).** `setStepSizes(ss)` on any parameter object, with one step per thawed
parameter, does not raise, is read back by `getStepSizes()`, and changes nothing but step sizes,
provided each list reached through thawed entries had no step sizes set before or has its thawed values
in front.
Missing: other lists (`C13_second_call_false`). -/
theorem C13_steps_tree_partial [One α] (t : Par α) (ss : List α) (h : ss.length = numberOfParams t)
    (hst : StepsSettable t) :
    (setStepSizes t ss).2 = none ∧ getStepSizes (setStepSizes t ss).1 = ss ∧
    blankSteps (setStepSizes t ss).1 = blankSteps t :=
  ⟨(setStepSizes_ok t ss h hst).1, (setStepSizes_ok t ss h hst).2, setStepSizes_blank t ss⟩

example :
    let t : Par Rat := .multi (.cons ["pos"] true (.plist { exPos with steps := none })
      (.missing ["shape"] true (.cons ["sky"] true (.scalar ⟨"Sky", 100, none, none, none, 1, none⟩)
        (.cons ["bright"] true (.plist exFlux) .nil))))
    numberOfParams t = 4 ∧ StepsSettable t ∧ getStepSizes (setStepSizes t [2, 3, 4, 5]).1 = [2, 3, 4, 5] := by
  refine ⟨by decide, ?_, by decide +kernel⟩
  simp [StepsSettable, StepsSettableSubs, StepsSettableList, exFlux]

end Verif.Params
