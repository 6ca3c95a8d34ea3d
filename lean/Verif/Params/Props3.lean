import Verif.Params.Header
import Verif.Params.Lemmas7

/-!
# C69: calibration parameters written to a FITS header are read back
-/

namespace Verif.Params

variable {α : Type}

theorem toHeader_eq (t : Par α) : toHeader t = (getAllParams t).take (numberOfParams t) := by
  have h : ∀ (ns : List String) (l : List α), (List.zip ns l).map (·.2) = l.take ns.length := by
    intro ns
    induction ns with
    | nil => simp
    | cons n ns ih => intro l; cases l <;> simp [ih]
  rw [toHeader, h, getParamNames_length]

/-- **C69 (part).** If nothing is frozen and there are at most 100 parameters, an object of the same make
read from the header has the same parameters.  Missing: frozen parameters and longer vectors (false). -/
theorem C69_header_partial (t fresh : Par α) (hall : numberOfParams t = (getAllParams t).length)
    (hlen : (getAllParams t).length ≤ 100) (hf : (getAllParams fresh).length = (getAllParams t).length) :
    (fromHeader fresh (toHeader t)).2 = none ∧
    getAllParams (fromHeader fresh (toHeader t)).1 = getAllParams t := by
  rw [fromHeader, toHeader_eq, hall, List.take_length, List.take_of_length_le hlen]
  exact setAllParams_ok fresh _ hf.symm

/-- What is read back in general, for a list: as many of the first parameters as there are *thawed* ones (at
most 100); the others have the values the constructor gave them. -/
theorem C69_list (l fresh : PList α) (hf : fresh.slots.length = l.slots.length) :
    (fromHeader (.plist fresh) (toHeader (.plist l))).2 = none ∧
    getAllParams (fromHeader (.plist fresh) (toHeader (.plist l))).1 =
      (getAllParams (.plist l)).take (min 100 (numberOfParams (.plist l))) ++
      (getAllParams (.plist fresh)).drop (min 100 (numberOfParams (.plist l))) := by
  have hl : (getAllParams (.plist l)).length = l.slots.length := by simp [getAllParams, vals]
  have hn : numberOfParams (.plist l) ≤ l.slots.length := by
    simp only [numberOfParams, flags]
    simpa [countLiquid] using List.length_filter_le id (l.slots.map (·.liquid))
  have := setAllSlots_any fresh.slots (((getAllParams (.plist l)).take (numberOfParams (.plist l))).take 100)
  have hlen : (((getAllParams (.plist l)).take (numberOfParams (.plist l))).take 100).length =
      min 100 (numberOfParams (.plist l)) := by
    rw [List.length_take, List.length_take, hl]; omega
  simp only [fromHeader, toHeader_eq, setAllParams, hlen] at this ⊢
  constructor
  · rw [this.2, if_neg (by omega)]
  · simp only [getAllParams, vals] at this ⊢
    rw [this.1, List.take_take, List.take_take]
    congr 2
    omega

/-- An example list with one frozen element. -/
def exCal (fr : Bool) (a b c : Int) : Par Int :=
  .plist ⟨[⟨["a"], !fr, a⟩, ⟨["b"], true, b⟩, ⟨["c"], true, c⟩], [], [], [], none, []⟩

example : getAllParams (fromHeader (exCal false 0 0 0) (toHeader (exCal false 7 8 9))).1 = [7, 8, 9] := by
  decide +kernel

/-- **C69 is false with a frozen parameter**: the last parameter is not written, and silently keeps its
default when read. -/
theorem C69_frozen_false :
    fromHeader (exCal false 0 0 0) (toHeader (exCal true 7 8 9)) = (exCal false 7 8 0, none) := by
  decide +kernel

end Verif.Params
