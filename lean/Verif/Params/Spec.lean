import Verif.Params.Model

/-!
# Specification vocabulary for parameter objects

These definitions do not use the get/set functions of the model.  `leaves` lists every scalar
parameter of a tree together with the fact whether it is thawed all the way from the root, and
`blank` erases the values, so that `blank c t' = blank c t` says that nothing but parameter values
changed (names, flags, bounds, steps, priors, tree structure).
-/

namespace Verif.Params

variable {α : Type}

mutual
/-- Every scalar parameter of the tree in order, as (thawed along its whole path?, value). -/
def leavesFrom (up : Bool) : Par α → List (Bool × α)
  | .scalar s => [(up, s.val)]
  | .plist l => l.slots.map (fun s => (up && s.liquid, s.val))
  | .multi subs => leavesFromSubs up subs
def leavesFromSubs (up : Bool) : Subs α → List (Bool × α)
  | .nil => []
  | .cons _ liquid s rest => leavesFrom (up && liquid) s ++ leavesFromSubs up rest
  | .missing _ _ rest => leavesFromSubs up rest
end

/-- Every scalar parameter of the object: (effectively thawed?, value). -/
def leaves (t : Par α) : List (Bool × α) := leavesFrom true t

/-- Values of the thawed parameters, in order. -/
def thawedValues (t : Par α) : List α := ((leaves t).filter (·.1)).map (·.2)

/-- Values of all parameters, in order. -/
def allValues (t : Par α) : List α := (leaves t).map (·.2)

mutual
/-- The object with every parameter value replaced by `c`. -/
def blank (c : α) : Par α → Par α
  | .scalar s => .scalar { s with val := c }
  | .plist l => .plist { l with slots := l.slots.map (fun s => { s with val := c }) }
  | .multi subs => .multi (blankSubs c subs)
def blankSubs (c : α) : Subs α → Subs α
  | .nil => .nil
  | .cons nm l s rest => .cons nm l (blank c s) (blankSubs c rest)
  | .missing nm l rest => .missing nm l (blankSubs c rest)
end

/-- Nothing but parameter values differs. -/
def SameButValues (t t' : Par α) : Prop := ∀ c, blank c t' = blank c t

/-- Every frozen parameter has the same value in `t'` as in `t`. -/
def FrozenUnchanged (t t' : Par α) : Prop :=
  (leaves t').length = (leaves t).length ∧
  ∀ (i : Nat) (x : α), (leaves t)[i]? = some (false, x) → (leaves t')[i]? = some (false, x)

mutual
/-- The bound and step lists of every `ParamList` in the tree have one entry per value, as
`ParamList.__init__` creates them. -/
def BoundsComplete : Par α → Prop
  | .scalar _ => True
  | .plist l => l.lowers.length = l.slots.length ∧ l.uppers.length = l.slots.length ∧
      l.maxstep.length = l.slots.length ∧ (∀ ss, l.steps = some ss → ss.length = l.slots.length)
  | .multi subs => BoundsCompleteSubs subs
def BoundsCompleteSubs : Subs α → Prop
  | .nil => True
  | .cons _ _ s rest => BoundsComplete s ∧ BoundsCompleteSubs rest
  | .missing _ _ rest => BoundsCompleteSubs rest
end

mutual
/-- The object with every flag set to `b` (values, names and structure kept). -/
def withFlags (b : Bool) : Par α → Par α
  | .scalar s => .scalar s
  | .plist l => .plist { l with slots := l.slots.map (fun s => { s with liquid := b }) }
  | .multi subs => .multi (withFlagsSubs b subs)
def withFlagsSubs (b : Bool) : Subs α → Subs α
  | .nil => .nil
  | .cons nm _ s rest => .cons nm b (withFlags b s) (withFlagsSubs b rest)
  | .missing nm _ rest => .missing nm b (withFlagsSubs b rest)
end

/-- The direct entries of a container or list: their names, flags, and the parameter block each one
contributes when it is thawed. -/
def entriesSubs : Subs α → List (List String × Bool × List α)
  | .nil => []
  | .cons nm l s rest => (nm, l, ((leavesFrom true s).filter (·.1)).map (·.2)) :: entriesSubs rest
  | .missing nm l rest => (nm, l, []) :: entriesSubs rest

/-- The direct entries of a parameter object. -/
def entries : Par α → List (List String × Bool × List α)
  | .scalar _ => []
  | .plist l => l.slots.map (fun s => (s.names, s.liquid, [s.val]))
  | .multi subs => entriesSubs subs

/-- What a user may want to know about one scalar parameter. -/
structure Info (α : Type) where
  val : α
  lower : Option α
  upper : Option α
  maxstep : Option α
  step : α

mutual
/-- Every scalar parameter with its own bounds and step, as (thawed along its whole path?, info).
In a `ParamList` the bounds of the `i`-th value are the `i`-th entries of the bound lists, and its
step is the `i`-th step size if any were set and 1 otherwise. -/
def infosFrom [One α] (up : Bool) : Par α → List (Bool × Info α)
  | .scalar s => [(up, ⟨s.val, s.lower, s.upper, s.maxstep, s.step.getD s.defstep⟩)]
  | .plist l => l.slots.zipIdx.map (fun x =>
      (up && x.1.liquid,
        { val := x.1.val
          lower := (l.lowers[x.2]?).join
          upper := (l.uppers[x.2]?).join
          maxstep := (l.maxstep[x.2]?).join
          step := match l.steps with
            | none => 1
            | some ss => (ss[x.2]?).getD 1 }))
  | .multi subs => infosFromSubs up subs
def infosFromSubs [One α] (up : Bool) : Subs α → List (Bool × Info α)
  | .nil => []
  | .cons _ liquid s rest => infosFrom (up && liquid) s ++ infosFromSubs up rest
  | .missing _ _ rest => infosFromSubs up rest
end

/-- Bounds and steps of the thawed parameters, in order. -/
def thawedInfos [One α] (t : Par α) : List (Info α) :=
  ((infosFrom true t).filter (·.1)).map (·.2)

/-! Addressing entries at any depth by a path of positions. -/

/-- What is found at a path: the names the recursive operations recognise, the flag, and the
sub-object if there is one (an entry of a `ParamList`, and a missing sub-object, have none). -/
structure Node (α : Type) where
  names : List String
  liquid : Bool
  sub : Option (Par α)

/-- The `i`-th direct entry of a container.  Containers recognise an entry by its primary name. -/
def childSubs : Subs α → Nat → Option (Node α)
  | .nil, _ => none
  | .cons nm l s _, 0 => some ⟨nm.head?.toList, l, some s⟩
  | .missing nm l _, 0 => some ⟨nm.head?.toList, l, none⟩
  | .cons _ _ _ rest, i + 1 => childSubs rest i
  | .missing _ _ rest, i + 1 => childSubs rest i

/-- The `i`-th direct entry of a parameter object.  Lists recognise an entry by any of its names. -/
def child : Par α → Nat → Option (Node α)
  | .scalar _, _ => none
  | .plist l, i => (l.slots[i]?).map (fun s => ⟨s.names, s.liquid, none⟩)
  | .multi subs, i => childSubs subs i

/-- The entry at the path `i :: p`. -/
def nodeAt (t : Par α) (i : Nat) : List Nat → Option (Node α)
  | [] => child t i
  | j :: p =>
    match child t i with
    | some ⟨_, _, some s⟩ => nodeAt s j p
    | _ => none

/-- One of the entry's names is listed. -/
def Listed (ns : List String) (names : List String) : Prop := ∃ n ∈ names, n ∈ ns

/-- The object contains, at some depth, an entry with a listed name. -/
def Mentions (ns : List String) (t : Par α) : Prop :=
  ∃ i p x, nodeAt t i p = some x ∧ Listed ns x.names

mutual
/-- No sub-object is `None`. -/
def NoMissing : Par α → Prop
  | .scalar _ => True
  | .plist _ => True
  | .multi subs => NoMissingSubs subs
def NoMissingSubs : Subs α → Prop
  | .nil => True
  | .cons _ _ s rest => NoMissing s ∧ NoMissingSubs rest
  | .missing _ _ _ => False
end

/-- Names identify entries: no name belongs to two entries (the names are the keys of a dict). -/
def NamesUnique (es : List (List String × Bool × List α)) : Prop :=
  ∀ (i j : Nat) (e e' : List String × Bool × List α) (n : String),
    es[i]? = some e → es[j]? = some e' → n ∈ e.1 → n ∈ e'.1 → i = j

/-- Run a sequence of `freezeParam(i)` / `thawParam(i)` calls. -/
def runFlags : List (Bool × Nat) → Par α → Except PyErr (Par α)
  | [], t => .ok t
  | (b, k) :: ops, t => (setFlag b k t).bind (runFlags ops)

end Verif.Params
