import Verif.Odict.Ops
import Mathlib.Data.List.Basic

/-!
# The ordered dictionary of tractor/ordereddict.py

What `cache.py` uses where `collections.OrderedDict` is missing: a builtin dictionary, and a circular doubly linked list of its keys.  List
nodes `[key, prev, next]` are cells of a heap, addressed by numbers; each dictionary has its own heap.  The methods taken from `DictMixin`
(UserDict of Python 2) are modelled as they are there, in terms of the others.
-/

namespace Verif.Odict

open Verif

/-- A node `[key, prev, next]`. -/
structure Node (K : Type) where
  key : Option K
  prev : Nat
  next : Nat

/-- An `OrderedDict`: cells, next free address, `self.__end`, `self.__map` and the builtin dictionary it is itself (both as lists of pairs
whose order means nothing). -/
structure OD (K V : Type) where
  heap : Nat → Node K
  free : Nat
  endN : Nat
  map : List (K × Nat)
  dict : List (K × V)

section
variable {K V : Type} [DecidableEq K]

/-- Builtin lookup. -/
def bget {A : Type} (k : K) : List (K × A) → Option A
  | [] => none
  | (k', a) :: l => if k' = k then some a else bget k l

/-- Builtin assignment. -/
def bset {A : Type} (k : K) (a : A) (l : List (K × A)) : List (K × A) :=
  if (bget k l).isSome then l.map (fun p => if p.1 = k then (k, a) else p) else (k, a) :: l

/-- Builtin removal. -/
def bdel {A : Type} (k : K) (l : List (K × A)) : List (K × A) := l.filter (fun p => !decide (p.1 = k))

/-- `node[1] = b`. -/
def setPrev (h : Nat → Node K) (a b : Nat) : Nat → Node K := fun i => if i = a then { h i with prev := b } else h i

/-- `node[2] = b`. -/
def setNext (h : Nat → Node K) (a b : Nat) : Nat → Node K := fun i => if i = a then { h i with next := b } else h i

/-- `clear()`, ordereddict.py 37-41: a new sentinel node. -/
def clear (d : OD K V) : OD K V :=
  { heap := fun i => if i = d.free then ⟨none, d.free, d.free⟩ else d.heap i, free := d.free + 1, endN := d.free, map := [], dict := [] }

/-- An object before `clear()`. -/
def blank : OD K V := ⟨fun _ => ⟨none, 0, 0⟩, 0, 0, [], []⟩

/-- `__setitem__`, ordereddict.py 43-48.  The chained assignment goes from left to right. -/
def setitem (d : OD K V) (k : K) (v : V) : OD K V :=
  if (bget k d.dict).isSome then { d with dict := bset k v d.dict }
  else
    let curr := (d.heap d.endN).prev
    let node := d.free
    let h := fun i => if i = node then ⟨some k, curr, d.endN⟩ else d.heap i
    let h := setNext h curr node
    let h := setPrev h d.endN node
    { heap := h, free := d.free + 1, endN := d.endN, map := bset k node d.map, dict := bset k v d.dict }

/-- `__delitem__`, ordereddict.py 50-54. -/
def delitem (d : OD K V) (k : K) : OD K V × Option PyErr :=
  if (bget k d.dict).isSome then
    match bget k d.map with
    | none => ({ d with dict := bdel k d.dict }, some .key)
    | some n =>
      let prev := (d.heap n).prev
      let next := (d.heap n).next
      let h := setNext d.heap prev next
      let h := setPrev h next prev
      ({ d with heap := h, map := bdel k d.map, dict := bdel k d.dict }, none)
  else (d, some .key)

/-- The generator of `__iter__`, ordereddict.py 56-61, or of `__reversed__`, 63-68: not started, or with its `end` and `curr`. -/
inductive Iter where
  | start
  | at (e curr : Nat)

/-- `next()` of the generator of `__iter__`: `none` when it stops. -/
def iterNext (d : OD K V) : Iter → Option (Option K × Iter)
  | .start =>
    let c := (d.heap d.endN).next
    if c = d.endN then none else some ((d.heap c).key, .at d.endN c)
  | .at e curr =>
    let c := (d.heap curr).next
    if c = e then none else some ((d.heap c).key, .at e c)

/-- `next()` of the generator of `__reversed__`. -/
def revNext (d : OD K V) : Iter → Option (Option K × Iter)
  | .start =>
    let c := (d.heap d.endN).prev
    if c = d.endN then none else some ((d.heap c).key, .at d.endN c)
  | .at e curr =>
    let c := (d.heap curr).prev
    if c = e then none else some ((d.heap c).key, .at e c)

/-- All that a generator gives; `none` if it has not stopped after `n` more calls. -/
def drain (step : Iter → Option (Option K × Iter)) : Nat → Iter → Option (List (Option K))
  | 0, _ => none
  | n + 1, it =>
    match step it with
    | none => some []
    | some (k, it') => (drain step n it').map (k :: ·)

/-- `keys()`, ordereddict.py 90-91: more calls of `next` than there are cells would go round. -/
def keys (d : OD K V) : Option (List (Option K)) := drain (iterNext d) (d.free + 1) .start

/-- `list(reversed(d))`, ordereddict.py 63-68. -/
def revKeys (d : OD K V) : Option (List (Option K)) := drain (revNext d) (d.free + 1) .start

/-- `self[key]` for what a generator gave (the key of the sentinel, `None`, is not in the dictionary). -/
def item (d : OD K V) : Option K → Option (K × V)
  | none => none
  | some k => (bget k d.dict).map (fun v => (k, v))

/-- `items()` (`DictMixin`): `[(k, self[k]) for k in self]`; `none` if a lookup fails. -/
def items (d : OD K V) : Option (List (K × V)) := (keys d).bind (fun ks => ks.mapM (item d))

/-- `len(d)`. -/
def len (d : OD K V) : Nat := d.dict.length

/-- `pop(key)` and `pop(key, default)` (`DictMixin`). -/
def pop (d : OD K V) (k : K) (dflt : Option V) : OD K V × Except PyErr V :=
  match bget k d.dict with
  | none => (d, match dflt with | none => .error .key | some v => .ok v)
  | some v =>
    match delitem d k with
    | (d', none) => (d', .ok v)
    | (d', some e) => (d', .error e)

/-- `popitem(last)`, ordereddict.py 70-78. -/
def popitem (d : OD K V) (last : Bool) : OD K V × Except PyErr (K × V) :=
  if d.dict.isEmpty then (d, .error .key)
  else
    match (if last then revNext d .start else iterNext d .start) with
    | none => (d, .error .runtime)  -- StopIteration
    | some (none, _) => (d, .error .key)
    | some (some k, _) =>
      match pop d k none with
      | (d', .ok v) => (d', .ok (k, v))
      | (d', .error e) => (d', .error e)

/-- `setdefault(key, default)` (`DictMixin`). -/
def setdefault (d : OD K V) (k : K) (v : V) : OD K V × V :=
  match bget k d.dict with
  | some v' => (d, v')
  | none => (setitem d k v, v)

/-- `update(pairs)` (`DictMixin`). -/
def update (d : OD K V) (l : List (K × V)) : OD K V := l.foldl (fun d p => setitem d p.1 p.2) d

/-- `OrderedDict(pairs)`, ordereddict.py 28-35. -/
def new (l : List (K × V)) : OD K V := update (clear blank) l

/-- `copy()`, ordereddict.py 107-108; `update` goes through `iteritems()`. -/
def copy (d : OD K V) : Option (OD K V) := (items d).map new

/-- Pickling and unpickling through `__reduce__`, ordereddict.py 80-88: the class is called with the list of items. -/
def unpickled (d : OD K V) : Option (OD K V) := (items d).map new

/-- `fromkeys(iterable, value)`, ordereddict.py 110-115. -/
def fromkeys (ks : List K) (v : V) : OD K V := ks.foldl (fun d k => setitem d k v) (clear blank)

/-- `d == other` for two ordered dictionaries, ordereddict.py 117-124. -/
def eq [DecidableEq V] (d e : OD K V) : Option Bool :=
  if len d ≠ len e then some false
  else
    match items d, items e with
    | some a, some b => some ((a.zip b).all (fun p => decide (p.1 = p.2)))
    | _, _ => none

/-- One operation. -/
def step (d : OD K V) : Op K V → OD K V × Out K V
  | .set k v => (setitem d k v, .done)
  | .del k =>
    match delitem d k with
    | (d', none) => (d', .done)
    | (d', some e) => (d', .err e)
  | .get k =>
    match bget k d.dict with
    | none => (d, .err .key)
    | some v => (d, .val v)
  | .pop k dflt =>
    match pop d k dflt with
    | (d', .ok v) => (d', .val v)
    | (d', .error e) => (d', .err e)
  | .popitem last =>
    match popitem d last with
    | (d', .ok (k, v)) => (d', .item k v)
    | (d', .error e) => (d', .err e)
  | .setdefault k v => let r := setdefault d k v; (r.1, .val r.2)
  | .update l => (update d l, .done)
  | .clear => (clear d, .done)

/-- A sequence of operations. -/
def run (d : OD K V) : List (Op K V) → OD K V × List (Out K V)
  | [] => (d, [])
  | o :: os => let r := step d o; let r' := run r.1 os; (r'.1, r.2 :: r'.2)

/-- `for k in d: for k' in body(k): del d[k']`: the keys visited and the dictionary afterwards; `none` if the loop has not ended after `n`
rounds.  Errors of `del` are passed over. -/
def loopDel (body : K → List K) : Nat → OD K V → Iter → Option (List (Option K) × OD K V)
  | 0, _, _ => none
  | n + 1, d, it =>
    match iterNext d it with
    | none => some ([], d)
    | some (k, it') =>
      let ks := match k with | none => [] | some k => body k
      let d' := ks.foldl (fun d k => (delitem d k).1) d
      (loopDel body n d' it').map (fun r => (k :: r.1, r.2))

end

end Verif.Odict
