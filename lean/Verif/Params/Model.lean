import Verif.Py

/-!
# Parameter objects (tractor/utils.py)

`Par` models the three implementations of the `Params` duck type that everything else in
tractor is built from: `ScalarParam`, `ParamList` and `MultiParams`.  Objects are values:
a mutating method returns the new object.  Two slots of a tree never alias (aliasing is
modelled separately, see `Verif/Lsq`).
-/

namespace Verif.Params

open Verif

variable {α : Type}

/-- One entry of a `ParamList`: its value `self.vals[i]`, its flag `self.liquid[i]` and the names
that refer to it.  utils.py 410-420 (`NamedParams.__init__`), 462-466 (`_addNamedParams`), 715-720
(`ParamList.__init__`).

`self.liquid` and `self.vals` are separate Python lists; they are created with the same length
and no method of `ParamList` resizes either, so they are paired here.  `names` holds the names
`n` with `namedparams[n] == i`; the primary (non-alias) name, `paramnames[i]`, comes first. -/
structure Slot (α : Type) where
  names : List String
  liquid : Bool
  val : α
  deriving DecidableEq, Repr

/-- A `ParamList`, utils.py 710-836.  `lowers`, `uppers`, `maxstep` are independent lists in the
code and are read with `zip`, so they are independent lists here.  `steps` is the optional
attribute `stepsizes`; `priors` is `gpriors.terms` without the name: (index, mean, sigma). -/
structure PList (α : Type) where
  slots : List (Slot α)
  lowers : List (Option α)
  uppers : List (Option α)
  maxstep : List (Option α)
  steps : Option (List α)
  priors : List (Nat × α × α)
  deriving DecidableEq, Repr

/-- A `ScalarParam`, utils.py 307-379.  `defstep` is the class attribute `stepsize`; `step` the
instance attribute shadowing it, if set. -/
structure Scalar (α : Type) where
  cls : String
  val : α
  lower : Option α
  upper : Option α
  maxstep : Option α
  defstep : α
  step : Option α
  deriving DecidableEq, Repr

mutual
/-- A parameter object. -/
inductive Par (α : Type) where
  | scalar (s : Scalar α)
  | plist (l : PList α)
  | multi (subs : Subs α)
/-- The `subs` of a `MultiParams` together with `liquid` and names (utils.py 923-934);
`missing` is a sub-object that is `None` (utils.py 1031). -/
inductive Subs (α : Type) where
  | nil
  | cons (names : List String) (liquid : Bool) (sub : Par α) (rest : Subs α)
  | missing (names : List String) (liquid : Bool) (rest : Subs α)
end

deriving instance Repr for Par
deriving instance DecidableEq for Par

/-- `_getLiquidArray(array)`, utils.py 674-677: the entries of `array` at thawed positions,
truncated like `zip`. -/
def liquidArray {β : Type} : List Bool → List β → List β
  | true :: ls, a :: as => a :: liquidArray ls as
  | false :: ls, _ :: as => liquidArray ls as
  | _, _ => []

/-- `self.liquid`. -/
def flags (l : PList α) : List Bool := l.slots.map (·.liquid)
/-- `self.vals`. -/
def vals (l : PList α) : List α := l.slots.map (·.val)

/-- `_countLiquid`, utils.py 689-690. -/
def countLiquid (fs : List Bool) : Nat := (fs.filter id).length

mutual
/-- `numberOfParams`: utils.py 337-338, 779-780, 1127-1131. -/
def numberOfParams : Par α → Nat
  | .scalar _ => 1
  | .plist l => countLiquid (flags l)
  | .multi subs => numberOfParamsSubs subs
def numberOfParamsSubs : Subs α → Nat
  | .nil => 0
  | .cons _ liquid s rest => (if liquid then numberOfParams s else 0) + numberOfParamsSubs rest
  | .missing _ _ rest => numberOfParamsSubs rest
end

mutual
/-- `getParams`: utils.py 346-347, 782-786, 1133-1143. -/
def getParams : Par α → List α
  | .scalar s => [s.val]
  | .plist l => liquidArray (flags l) (vals l)
  | .multi subs => getParamsSubs subs
def getParamsSubs : Subs α → List α
  | .nil => []
  | .cons _ liquid s rest => (if liquid then getParams s else []) ++ getParamsSubs rest
  | .missing _ _ rest => getParamsSubs rest
end

mutual
/-- `getAllParams`: utils.py 229-230, 788-789, 1145-1154. -/
def getAllParams : Par α → List α
  | .scalar s => [s.val]
  | .plist l => vals l
  | .multi subs => getAllParamsSubs subs
def getAllParamsSubs : Subs α → List α
  | .nil => []
  | .cons _ _ s rest => getAllParams s ++ getAllParamsSubs rest
  | .missing _ _ rest => getAllParamsSubs rest
end

/-- `ParamList.setParams`, utils.py 775-777 with `_indexBoth` 701-707: walk the slots, giving the
next element of `p` to each thawed slot.  `p[i]` raises IndexError when `p` is too short, after the
earlier slots were already assigned; extra elements of `p` are ignored. -/
def setSlots : List (Slot α) → List α → List (Slot α) × Option PyErr
  | [], _ => ([], none)
  | s :: ss, p =>
    if s.liquid then
      match p with
      | [] => (s :: ss, some .index)
      | v :: p' => let r := setSlots ss p'; ({ s with val := v } :: r.1, r.2)
    else
      let r := setSlots ss p; (s :: r.1, r.2)

mutual
/-- `setParams`: utils.py 349-351 (assert len == 1), 775-777, 1166-1171 (slices `p[i:i+n]`, an
exception in one sub-object leaves the later ones untouched). -/
def setParams : Par α → List α → Par α × Option PyErr
  | .scalar s, p =>
    match p with
    | [v] => (.scalar { s with val := v }, none)
    | _ => (.scalar s, some .assertion)
  | .plist l, p => let r := setSlots l.slots p; (.plist { l with slots := r.1 }, r.2)
  | .multi subs, p => let r := setParamsSubs subs p; (.multi r.1, r.2)
/-- The loop of `MultiParams.setParams`; the argument is the not yet consumed `p[i:]`. -/
def setParamsSubs : Subs α → List α → Subs α × Option PyErr
  | .nil, _ => (.nil, none)
  | .cons nm liquid s rest, p =>
    if liquid then
      let n := numberOfParams s
      let r := setParams s (p.take n)
      match r.2 with
      | some e => (.cons nm liquid r.1 rest, some e)
      | none =>
        let q := setParamsSubs rest (p.drop n)
        (.cons nm liquid r.1 q.1, q.2)
    else
      let q := setParamsSubs rest p
      (.cons nm liquid s q.1, q.2)
  | .missing nm liquid rest, p =>
    let q := setParamsSubs rest p
    (.missing nm liquid q.1, q.2)
end

/-- `_indexLiquid(j)`, utils.py 692-699: raw index of the `j`-th thawed entry, else IndexError. -/
def indexLiquid : List Bool → Int → Except PyErr Nat
  | [], _ => .error .index
  | v :: vs, j =>
    if v then
      if j = 0 then .ok 0
      else (indexLiquid vs (j - 1)).map (· + 1)
    else (indexLiquid vs j).map (· + 1)

mutual
/-- `setParam(i, v)`: utils.py 353-357 (assert i == 0), 769-773, 1173-1181.  Returns the object left
behind and the old value or the exception. -/
def setParam : Par α → Int → α → Par α × Except PyErr α
  | .scalar s, i, v =>
    if i = 0 then (.scalar { s with val := v }, .ok s.val) else (.scalar s, .error .assertion)
  | .plist l, i, v =>
    match indexLiquid (flags l) i with
    | .error e => (.plist l, .error e)
    | .ok ii =>
      match l.slots[ii]? with
      | none => (.plist l, .error .index)
      | some s => (.plist { l with slots := l.slots.set ii { s with val := v } }, .ok s.val)
  | .multi subs, i, v => let r := setParamSubs subs i v; (.multi r.1, r.2)
/-- The loop of `MultiParams.setParam`; `i` is `i - off`. -/
def setParamSubs : Subs α → Int → α → Subs α × Except PyErr α
  | .nil, _, _ => (.nil, .error .runtime)
  | .cons nm liquid s rest, i, v =>
    if liquid then
      if i < numberOfParams s then
        let r := setParam s i v
        (.cons nm liquid r.1 rest, r.2)
      else
        let q := setParamSubs rest (i - numberOfParams s) v
        (.cons nm liquid s q.1, q.2)
    else
      let q := setParamSubs rest i v
      (.cons nm liquid s q.1, q.2)
  | .missing nm liquid rest, i, v =>
    let q := setParamSubs rest i v
    (.missing nm liquid q.1, q.2)
end

/-- `ParamList.setAllParams`, utils.py 795-797: `vals[i] = p[i]` for every element of `p`;
IndexError once `p` is longer than the list; a short `p` assigns a prefix. -/
def setAllSlots : List (Slot α) → List α → List (Slot α) × Option PyErr
  | ss, [] => (ss, none)
  | [], _ :: _ => ([], some .index)
  | s :: ss, v :: p => let r := setAllSlots ss p; ({ s with val := v } :: r.1, r.2)

mutual
/-- `setAllParams`: utils.py 260-261, 795-797, 1156-1164.  (The final assert of 1164 compares the
summed lengths with the length of `getAllParams()`, which are always equal, so it is not
represented.) -/
def setAllParams : Par α → List α → Par α × Option PyErr
  | .scalar s, p =>
    match p with
    | [v] => (.scalar { s with val := v }, none)
    | _ => (.scalar s, some .assertion)
  | .plist l, p => let r := setAllSlots l.slots p; (.plist { l with slots := r.1 }, r.2)
  | .multi subs, p => let r := setAllParamsSubs subs p; (.multi r.1, r.2)
def setAllParamsSubs : Subs α → List α → Subs α × Option PyErr
  | .nil, _ => (.nil, none)
  | .cons nm liquid s rest, p =>
    let n := (getAllParams s).length
    let r := setAllParams s (p.take n)
    match r.2 with
    | some e => (.cons nm liquid r.1 rest, some e)
    | none =>
      let q := setAllParamsSubs rest (p.drop n)
      (.cons nm liquid r.1 q.1, q.2)
  | .missing nm liquid rest, p =>
    let q := setAllParamsSubs rest p
    (.missing nm liquid q.1, q.2)
end

/-- `ParamList.getParamNames`, utils.py 742-749; `i` is the running index among thawed slots. -/
def slotNames : Nat → List (Slot α) → List String
  | _, [] => []
  | i, s :: ss =>
    if s.liquid then
      (match s.names with
       | nm :: _ => nm
       | [] => s!"param{i}") :: slotNames (i + 1) ss
    else slotNames i ss

mutual
/-- `getParamNames`: utils.py 334-335, 742-749, 1107-1125. -/
def getParamNames : Par α → List String
  | .scalar s => [s.cls]
  | .plist l => slotNames 0 l.slots
  | .multi subs => getParamNamesSubs 0 subs
def getParamNamesSubs : Nat → Subs α → List String
  | _, .nil => []
  | i, .cons nm liquid s rest =>
    (if liquid then
      let pre := match nm with
        | n :: _ => n
        | [] => s!"param{i}"
      let snames := getParamNames s
      if snames.length = numberOfParams s then
        snames.map (fun post => s!"{pre}.{post}")
      else
        (List.range (numberOfParams s)).map (fun k => s!"{pre}.param{k}")
     else []) ++ getParamNamesSubs (i + 1) rest
  | i, .missing _ _ rest => getParamNamesSubs (i + 1) rest
end

mutual
/-- `getLowerBounds`: utils.py 365-366, 799-800, 1183-1187. -/
def getLowerBounds : Par α → List (Option α)
  | .scalar s => [s.lower]
  | .plist l => liquidArray (flags l) l.lowers
  | .multi subs => getLowerBoundsSubs subs
def getLowerBoundsSubs : Subs α → List (Option α)
  | .nil => []
  | .cons _ liquid s rest => (if liquid then getLowerBounds s else []) ++ getLowerBoundsSubs rest
  | .missing _ _ rest => getLowerBoundsSubs rest
end

mutual
/-- `getUpperBounds`: utils.py 368-369, 802-803, 1189-1193. -/
def getUpperBounds : Par α → List (Option α)
  | .scalar s => [s.upper]
  | .plist l => liquidArray (flags l) l.uppers
  | .multi subs => getUpperBoundsSubs subs
def getUpperBoundsSubs : Subs α → List (Option α)
  | .nil => []
  | .cons _ liquid s rest => (if liquid then getUpperBounds s else []) ++ getUpperBoundsSubs rest
  | .missing _ _ rest => getUpperBoundsSubs rest
end

mutual
/-- `getMaxStep`: utils.py 371-372, 805-806, 1195-1199. -/
def getMaxStep : Par α → List (Option α)
  | .scalar s => [s.maxstep]
  | .plist l => liquidArray (flags l) l.maxstep
  | .multi subs => getMaxStepSubs subs
def getMaxStepSubs : Subs α → List (Option α)
  | .nil => []
  | .cons _ liquid s rest => (if liquid then getMaxStep s else []) ++ getMaxStepSubs rest
  | .missing _ _ rest => getMaxStepSubs rest
end

/-- `NamedParams.getAllStepSizes`, utils.py 434-442: the `stepsizes` attribute, else all ones. -/
def allSteps [One α] (l : PList α) : List α :=
  match l.steps with
  | some ss => ss
  | none => List.replicate (vals l).length 1

mutual
/-- `getStepSizes`: utils.py 340-341, 428-432, 1211-1215. -/
def getStepSizes [One α] : Par α → List α
  | .scalar s => [s.step.getD s.defstep]
  | .plist l => liquidArray (flags l) (allSteps l)
  | .multi subs => getStepSizesSubs subs
def getStepSizesSubs [One α] : Subs α → List α
  | .nil => []
  | .cons _ liquid s rest => (if liquid then getStepSizes s else []) ++ getStepSizesSubs rest
  | .missing _ _ rest => getStepSizesSubs rest
end

/-- First branch of `NamedParams.setStepSizes`, utils.py 445-454: build a full-length list, consuming
`ss` compactly over the thawed entries and putting 1. at the frozen ones. -/
def freshSteps [One α] : List Bool → List α → Except PyErr (List α)
  | [], _ => .ok []
  | true :: fs, ss =>
    match ss with
    | [] => .error .index
    | s :: ss' => (freshSteps fs ss').map (s :: ·)
  | false :: fs, ss => (freshSteps fs ss).map (1 :: ·)

/-- Second branch of `setStepSizes`, utils.py 455-457: for each thawed raw index `i`,
`self.stepsizes[i] = ss[i]` – note that `_enumerateLiquidArray` (669-672) indexes `ss` by the *raw*
index.  `k` is the raw index of the head.  Returns the list left behind. -/
def overwriteSteps (ss : List α) : Nat → List Bool → List α → List α × Option PyErr
  | _, [], st => (st, none)
  | k, true :: fs, st =>
    match ss[k]? with
    | none => (st, some .index)
    | some s =>
      match st with
      | [] => ([], some .index)
      | _ :: st' => let r := overwriteSteps ss (k + 1) fs st'; (s :: r.1, r.2)
  | k, false :: fs, st =>
    match st with
    | [] => overwriteSteps ss (k + 1) fs []
    | x :: st' => let r := overwriteSteps ss (k + 1) fs st'; (x :: r.1, r.2)

/-- `NamedParams.setStepSizes`, utils.py 444-457, on a `ParamList`. -/
def setStepSizesList [One α] (l : PList α) (ss : List α) : PList α × Option PyErr :=
  match l.steps with
  | none =>
    match freshSteps (flags l) ss with
    | .ok st => ({ l with steps := some st }, none)
    | .error e => (l, some e)
  | some st =>
    let r := overwriteSteps ss 0 (flags l) st
    ({ l with steps := some r.1 }, r.2)

mutual
/-- `setStepSizes`: utils.py 343-344 (`ss[0]`), 444-457, 1223-1228. -/
def setStepSizes [One α] : Par α → List α → Par α × Option PyErr
  | .scalar s, ss =>
    match ss with
    | [] => (.scalar s, some .index)
    | v :: _ => (.scalar { s with step := some v }, none)
  | .plist l, ss => let r := setStepSizesList l ss; (.plist r.1, r.2)
  | .multi subs, ss => let r := setStepSizesSubs subs ss; (.multi r.1, r.2)
def setStepSizesSubs [One α] : Subs α → List α → Subs α × Option PyErr
  | .nil, _ => (.nil, none)
  | .cons nm liquid s rest, ss =>
    if liquid then
      let n := numberOfParams s
      let r := setStepSizes s (ss.take n)
      match r.2 with
      | some e => (.cons nm liquid r.1 rest, some e)
      | none =>
        let q := setStepSizesSubs rest (ss.drop n)
        (.cons nm liquid r.1 q.1, q.2)
    else
      let q := setStepSizesSubs rest ss
      (.cons nm liquid s q.1, q.2)
  | .missing nm liquid rest, ss =>
    let q := setStepSizesSubs rest ss
    (.missing nm liquid q.1, q.2)
end

/-! ### Freezing and thawing -/

/-- `liquid[i] = b` on the sub-objects of a container (utils.py 566, 595); IndexError when out of
range. -/
def setFlagSubs (b : Bool) : Nat → Subs α → Except PyErr (Subs α)
  | _, .nil => .error .index
  | 0, .cons nm _ s rest => .ok (.cons nm b s rest)
  | 0, .missing nm _ rest => .ok (.missing nm b rest)
  | i + 1, .cons nm l s rest => (setFlagSubs b i rest).map (.cons nm l s ·)
  | i + 1, .missing nm l rest => (setFlagSubs b i rest).map (.missing nm l ·)

/-- `getNamedParamIndex(name)` (utils.py 519-520) on a container. -/
def nameIndexSubs (n : String) : Subs α → Option Nat
  | .nil => none
  | .cons nm _ _ rest => if n ∈ nm then some 0 else (nameIndexSubs n rest).map (· + 1)
  | .missing nm _ rest => if n ∈ nm then some 0 else (nameIndexSubs n rest).map (· + 1)

/-- `getNamedParamIndex(name)` on a list. -/
def nameIndexSlots (n : String) : List (Slot α) → Option Nat
  | [] => none
  | s :: ss => if n ∈ s.names then some 0 else (nameIndexSlots n ss).map (· + 1)

/-- `liquid[i] = b` on a list. -/
def setFlagSlots (b : Bool) (i : Nat) (ss : List (Slot α)) : Except PyErr (List (Slot α)) :=
  match ss[i]? with
  | none => .error .index
  | some s => .ok (ss.set i { s with liquid := b })

/-- `freezeParam(i)` (`b = false`, utils.py 560-566) and `thawParam(i)` (`b = true`, 585-595) with an
integer argument.  Scalars have no such method (AttributeError). -/
def setFlag (b : Bool) (i : Nat) : Par α → Except PyErr (Par α)
  | .scalar _ => .error .attribute
  | .plist l => (setFlagSlots b i l.slots).map (fun ss => .plist { l with slots := ss })
  | .multi subs => (setFlagSubs b i subs).map .multi

/-- `getNamedParamIndex(name)`. -/
def nameIndex (n : String) : Par α → Option Nat
  | .scalar _ => none
  | .plist l => nameIndexSlots n l.slots
  | .multi subs => nameIndexSubs n subs

/-- `freezeParam(name)` / `thawParam(name)`: look the name up, `assert(i is not None)`. -/
def setFlagNamed (b : Bool) (n : String) (t : Par α) : Except PyErr (Par α) :=
  match nameIndex n t with
  | none => .error .assertion
  | some i => setFlag b i t

/-- `freezeAllParams` / `thawAllParams` on a container, utils.py 601-602, 607-608. -/
def setAllFlagsSubs (b : Bool) : Subs α → Subs α
  | .nil => .nil
  | .cons nm _ s rest => .cons nm b s (setAllFlagsSubs b rest)
  | .missing nm _ rest => .missing nm b (setAllFlagsSubs b rest)

/-- `freezeAllParams` / `thawAllParams` on a list. -/
def setAllFlagsSlots (b : Bool) (ss : List (Slot α)) : List (Slot α) :=
  ss.map (fun s => { s with liquid := b })

/-- `freezeAllParams` / `thawAllParams`. -/
def setAllFlags (b : Bool) : Par α → Except PyErr (Par α)
  | .scalar _ => .error .attribute
  | .plist l => .ok (.plist { l with slots := setAllFlagsSlots b l.slots })
  | .multi subs => .ok (.multi (setAllFlagsSubs b subs))

/-- `thawParams(*names)`, utils.py 597-599. -/
def thawParams : List String → Par α → Except PyErr (Par α)
  | [], t => .ok t
  | n :: ns, t => (setFlagNamed true n t).bind (thawParams ns)

/-- `freezeAllBut(*names)`, utils.py 568-570. -/
def freezeAllBut (ns : List String) (t : Par α) : Except PyErr (Par α) :=
  (setAllFlags false t).bind (thawParams ns)

/-- One slot of `NamedParams.{freeze,thaw}ParamsRecursive`, utils.py 538-554: the entry is switched
if one of its names is listed or `'*'` is listed. -/
def recSlot (b : Bool) (pn : List String) (s : Slot α) : Slot α :=
  if s.names.any (fun n => pn.contains n) || pn.contains "*" then { s with liquid := b } else s

mutual
/-- `freezeParamsRecursive` (`b = false`) and `thawParamsRecursive` (`b = true`):
utils.py 538-554 (list), 1052-1059 and 1064-1071 (container).  Scalars have no such method, so a
container skips them (`hasattr` test, 1054).  In a container the primary name decides (1056), and
`'*'` switches every entry (1058). -/
def setFlagsRecursive (b : Bool) (pn : List String) : Par α → Par α
  | .scalar s => .scalar s
  | .plist l => .plist { l with slots := l.slots.map (recSlot b pn) }
  | .multi subs => .multi (setFlagsRecursiveSubs b pn subs)
def setFlagsRecursiveSubs (b : Bool) (pn : List String) : Subs α → Subs α
  | .nil => .nil
  | .cons nm l s rest =>
    let l' := if nm.head?.any (fun n => pn.contains n) || pn.contains "*" then b else l
    .cons nm l' (setFlagsRecursive b pn s) (setFlagsRecursiveSubs b pn rest)
  | .missing nm l rest =>
    let l' := if nm.head?.any (fun n => pn.contains n) || pn.contains "*" then b else l
    .missing nm l' (setFlagsRecursiveSubs b pn rest)
end

/-- One slot of `NamedParams.thawPathsTo`, utils.py 572-583. -/
def thawSlot (pn : List String) (s : Slot α) : Slot α :=
  if s.names.any (fun n => pn.contains n) then { s with liquid := true } else s

mutual
/-- `thawPathsTo(*names)`: utils.py 572-583 (list), 1076-1086 (container).  Scalars have no such
method and are skipped by the container.  Returns the object and whether anything was thawed. -/
def thawPathsTo (pn : List String) : Par α → Par α × Bool
  | .scalar s => (.scalar s, false)
  | .plist l =>
    (.plist { l with slots := l.slots.map (thawSlot pn) },
      l.slots.any (fun s => s.names.any (fun n => pn.contains n)))
  | .multi subs => let r := thawPathsToSubs pn subs; (.multi r.1, r.2)
def thawPathsToSubs (pn : List String) : Subs α → Subs α × Bool
  | .nil => (.nil, false)
  | .cons nm l s rest =>
    let r := thawPathsTo pn s
    let here := nm.head?.any (fun n => pn.contains n)
    let q := thawPathsToSubs pn rest
    (.cons nm (if r.2 || here then true else l) r.1 q.1, r.2 || here || q.2)
  | .missing nm l rest =>
    let here := nm.head?.any (fun n => pn.contains n)
    let q := thawPathsToSubs pn rest
    (.missing nm (if here then true else l) q.1, here || q.2)
end

/-! ### Index maps -/

/-- `getLiquidIndexOfIndex(i)`, utils.py 641-649; IndexError if out of range. -/
def liquidIndexOfIndex (fs : List Bool) (i : Nat) : Except PyErr Int :=
  match fs[i]? with
  | none => .error .index
  | some false => .ok (-1)
  | some true => .ok (countLiquid (fs.take i))

/-- `getThawedParamIndices()`, utils.py 621-624 (`k` is the raw index of the head). -/
def thawedIndices : Nat → List Bool → List Nat
  | _, [] => []
  | k, true :: fs => k :: thawedIndices (k + 1) fs
  | k, false :: fs => thawedIndices (k + 1) fs

/-! ### Copying -/

/-- `ParamList.__init__`, utils.py 715-720, for values with given names: everything thawed, no bounds,
no steps, no priors. -/
def mkPList (nv : List (List String × α)) : PList α where
  slots := nv.map (fun x => ⟨x.1, true, x.2⟩)
  lowers := nv.map (fun _ => none)
  uppers := nv.map (fun _ => none)
  maxstep := nv.map (fun _ => none)
  steps := none
  priors := []

/-- `NpArrayParams.__init__` (utils.py 1277-1283) and `MogParams.__init__` (1329-1335): the base
constructor is called without values, so the bound lists are empty, and the flags are created
afterwards (by `_numberOfThings`). -/
def mkArrayList (nv : List (List String × α)) : PList α :=
  { mkPList nv with lowers := [], uppers := [], maxstep := [] }

/-- `ParamList.copy`, utils.py 722-725 via `BaseParams.copy` 206-207: construct a new object from
`getAllParams()`, then copy the flags.  Bounds, step sizes and priors set on the instance are not
carried over. -/
def copyPList (l : PList α) : PList α :=
  let c := mkPList (l.slots.map (fun s => (s.names, s.val)))
  { c with slots := c.slots.zipWith (fun s b => { s with liquid := b }) (flags l) }

mutual
/-- `copy()`: utils.py 331-332, 722-725, 935-938.  A container with a missing sub-object raises
AttributeError (`None.copy()`). -/
def copy : Par α → Except PyErr (Par α)
  | .scalar s => .ok (.scalar { s with lower := none, upper := none, maxstep := none, step := none })
  | .plist l => .ok (.plist (copyPList l))
  | .multi subs => (copySubs subs).map .multi
def copySubs : Subs α → Except PyErr (Subs α)
  | .nil => .ok .nil
  | .cons nm l s rest =>
    match copy s with
    | .error e => .error e
    | .ok s' =>
      match copySubs rest with
      | .error e => .error e
      | .ok rest' => .ok (.cons nm l s' rest')
  | .missing _ _ _ => .error .attribute
end

end Verif.Params
