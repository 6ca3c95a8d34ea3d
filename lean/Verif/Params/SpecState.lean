import Verif.Params.State
import Verif.Params.Spec2

/-! What the table of states is compared with. -/

namespace Verif.Params

variable {α : Type}

mutual
/-- Every single value in order: dotted name, own flag (scalars have none, hence thawed), and whether the full path to it, with itself, is
thawed. -/
def valueStates (pre : String) (up : Bool) : Par α → List (String × Bool × Bool)
  | .scalar s => [(pre ++ s.cls, true, up)]
  | .plist l => l.slots.zipIdx.map (fun x => (pre ++ x.1.names.head?.getD ("param" ++ toString x.2), x.1.liquid, up && x.1.liquid))
  | .multi subs => valueStatesSubs pre up 0 subs
def valueStatesSubs (pre : String) (up : Bool) (i : Nat) : Subs α → List (String × Bool × Bool)
  | .nil => []
  | .cons nm liquid s rest =>
    valueStates (pre ++ nm.head?.getD ("param" ++ toString i) ++ ".") (up && liquid) s ++ valueStatesSubs pre up (i + 1) rest
  | .missing _ _ rest => valueStatesSubs pre up (i + 1) rest
end

mutual
/-- Every object within a container in order: dotted name, own flag, and whether everything above it is thawed. -/
def objectStates (pre : String) (up : Bool) : Par α → List (String × Bool × Bool)
  | .scalar _ => []
  | .plist _ => []
  | .multi subs => objectStatesSubs pre up 0 subs
def objectStatesSubs (pre : String) (up : Bool) (i : Nat) : Subs α → List (String × Bool × Bool)
  | .nil => []
  | .cons nm liquid s rest =>
    (pre ++ nm.head?.getD ("param" ++ toString i), liquid, up) ::
      objectStates (pre ++ nm.head?.getD ("param" ++ toString i) ++ ".") (up && liquid) s ++ objectStatesSubs pre up (i + 1) rest
  | .missing _ _ rest => objectStatesSubs pre up (i + 1) rest
end

mutual
/-- No part is missing. -/
def Complete : Par α → Prop
  | .scalar _ => True
  | .plist _ => True
  | .multi subs => CompleteSubs subs
def CompleteSubs : Subs α → Prop
  | .nil => True
  | .cons _ _ s rest => Complete s ∧ CompleteSubs rest
  | .missing _ _ _ => False
end

mutual
/-- All values of lists have names. -/
def AllNamed : Par α → Prop
  | .scalar _ => True
  | .plist l => ∀ s ∈ l.slots, s.names ≠ []
  | .multi subs => AllNamedSubs subs
def AllNamedSubs : Subs α → Prop
  | .nil => True
  | .cons _ _ s rest => AllNamed s ∧ AllNamedSubs rest
  | .missing _ _ rest => AllNamedSubs rest
end

end Verif.Params
