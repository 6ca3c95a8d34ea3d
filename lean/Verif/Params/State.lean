import Verif.Params.Model

/-!
# What is thawed, by name

tractor/utils.py `getParamStateRecursive`, `getLiquidIndex`, `getThawedParams`, `getFrozenParams`.
-/

namespace Verif.Params

variable {α : Type}

/-- `getNamedParamName(j)`, or `'param%i' % j`. -/
def entryName (names : List String) (j : Nat) : String :=
  match names with
  | nm :: _ => nm
  | [] => s!"param{j}"

/-- `NamedParams.getParamStateRecursive`, utils.py 529-536. -/
def slotStates : Nat → List (Slot α) → List (String × Bool × Bool)
  | _, [] => []
  | j, s :: ss => (entryName s.names j, s.liquid, s.liquid) :: slotStates (j + 1) ss

mutual
/-- `getParamStateRecursive`, utils.py 529-536, 1088-1101.  A `ScalarParam` has no such method (AttributeError if called on one); as part of a
container it contributes its name with two `True`.  A missing part has neither this method nor `getParamNames`. -/
def paramState : Par α → Except PyErr (List (String × Bool × Bool))
  | .scalar _ => .error .attribute
  | .plist l => .ok (slotStates 0 l.slots)
  | .multi subs => paramStateSubs 0 subs
def paramStateSubs : Nat → Subs α → Except PyErr (List (String × Bool × Bool))
  | _, .nil => .ok []
  | i, .cons nm liquid s rest =>
    let pre := entryName nm i
    match partState s with
    | .error e => .error e
    | .ok snames =>
      match paramStateSubs (i + 1) rest with
      | .error e => .error e
      | .ok l => .ok ((pre, liquid, true) :: snames.map (fun x => (s!"{pre}.{x.1}", x.2.1, liquid && x.2.2)) ++ l)
  | _, .missing _ _ _ => .error .attribute
/-- Lines 1095-1098. -/
def partState : Par α → Except PyErr (List (String × Bool × Bool))
  | .scalar s => .ok [(s.cls, true, true)]
  | .plist l => .ok (slotStates 0 l.slots)
  | .multi subs => paramStateSubs 0 subs
end

/-- Names (with aliases) and flags of the entries of a container. -/
def subNamed : Subs α → List (List String × Bool)
  | .nil => []
  | .cons nm l _ rest => (nm, l) :: subNamed rest
  | .missing nm l rest => (nm, l) :: subNamed rest

/-- Names (with aliases) and flags of the entries of a list or container. -/
def namedEntries : Par α → List (List String × Bool)
  | .scalar _ => []
  | .plist l => l.slots.map (fun s => (s.names, s.liquid))
  | .multi subs => subNamed subs

/-- `getLiquidIndex(paramname)`, utils.py 651-667. -/
def getLiquidIndex (t : Par α) (n : String) : Except PyErr Int :=
  match t with
  | .scalar _ => .error .attribute
  | t =>
    match (namedEntries t).findIdx? (fun e => e.1.contains n) with
    | none => .error .key
    | some i => liquidIndexOfIndex ((namedEntries t).map (·.2)) i

/-- `getThawedParams()`, utils.py 613-614: primary names, `None` for entries without name. -/
def getThawedNames (t : Par α) : List (Option String) := ((namedEntries t).filter (·.2)).map (·.1.head?)

/-- `getFrozenParams()`, utils.py 610-611. -/
def getFrozenNames (t : Par α) : List (Option String) := ((namedEntries t).filter (fun e => !e.2)).map (·.1.head?)

end Verif.Params
