import Verif.Params.Spec

/-!
# Specification vocabulary for parameter objects, continued: names, step sizes, the parameter at a
given place
-/

namespace Verif.Params

variable {α : Type}

mutual
/-- Every scalar parameter of the tree in order, as (thawed along its whole path?, dotted name).
Containers contribute the primary name of the entry (`param` and its position if it has none), lists
the primary name of the value (`param` and the number of thawed values before it if it has none),
scalars their class name. -/
def namesFrom (pre : String) (up : Bool) : Par α → List (Bool × String)
  | .scalar s => [(up, pre ++ s.cls)]
  | .plist l => l.slots.zipIdx.map (fun x =>
      (up && x.1.liquid,
        pre ++ x.1.names.head?.getD
          ("param" ++ toString ((l.slots.take x.2).filter (·.liquid)).length)))
  | .multi subs => namesFromSubs pre up 0 subs
def namesFromSubs (pre : String) (up : Bool) (i : Nat) : Subs α → List (Bool × String)
  | .nil => []
  | .cons nm liquid s rest =>
    namesFrom (pre ++ nm.head?.getD ("param" ++ toString i) ++ ".") (up && liquid) s ++
      namesFromSubs pre up (i + 1) rest
  | .missing _ _ rest => namesFromSubs pre up (i + 1) rest
end

/-- Names of the thawed parameters, in order. -/
def thawedNames (t : Par α) : List String := ((namesFrom "" true t).filter (·.1)).map (·.2)

/-- A list on which `setStepSizes` works: no step sizes were set before, or all thawed values come
before all frozen ones. -/
def StepsSettableList (l : PList α) : Prop :=
  l.steps = none ∨ ((∀ st, l.steps = some st → st.length = l.slots.length) ∧
    ∃ n m, l.slots.map (·.liquid) = List.replicate n true ++ List.replicate m false)

mutual
/-- All lists reachable through thawed entries are such. -/
def StepsSettable : Par α → Prop
  | .scalar _ => True
  | .plist l => StepsSettableList l
  | .multi subs => StepsSettableSubs subs
def StepsSettableSubs : Subs α → Prop
  | .nil => True
  | .cons _ liquid s rest => (liquid = true → StepsSettable s) ∧ StepsSettableSubs rest
  | .missing _ _ rest => StepsSettableSubs rest
end

mutual
/-- The object with all instance step sizes removed. -/
def blankSteps : Par α → Par α
  | .scalar s => .scalar { s with step := none }
  | .plist l => .plist { l with steps := none }
  | .multi subs => .multi (blankStepsSubs subs)
def blankStepsSubs : Subs α → Subs α
  | .nil => .nil
  | .cons nm l s rest => .cons nm l (blankSteps s) (blankStepsSubs rest)
  | .missing nm l rest => .missing nm l (blankStepsSubs rest)
end

end Verif.Params
