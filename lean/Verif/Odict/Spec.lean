import Verif.Odict.Ops

/-!
# What an ordered dictionary is: a list of items, in order of insertion

Nothing of the model is used.
-/

namespace Verif.Odict.Spec

open Verif

section
variable {K V : Type} [DecidableEq K]

/-- The value of a key. -/
def value (k : K) (l : List (K × V)) : Option V := (l.find? (fun p => decide (p.1 = k))).map Prod.snd

/-- A key that is there keeps its place, a new one goes last. -/
def put (k : K) (v : V) (l : List (K × V)) : List (K × V) :=
  if l.any (fun p => decide (p.1 = k)) then l.map (fun p => if p.1 = k then (k, v) else p) else l ++ [(k, v)]

/-- Without a key. -/
def remove (k : K) (l : List (K × V)) : List (K × V) := l.filter (fun p => !decide (p.1 = k))

/-- Many items put in. -/
def puts (l : List (K × V)) (ps : List (K × V)) : List (K × V) := ps.foldl (fun l p => put p.1 p.2 l) l

/-- The item taken by `popitem`. -/
def pick (last : Bool) (l : List (K × V)) : Option (K × V) := if last then l.getLast? else l.head?

/-- One operation on the list of items. -/
def step (l : List (K × V)) : Op K V → List (K × V) × Out K V
  | .set k v => (put k v l, .done)
  | .del k => if (value k l).isSome then (remove k l, .done) else (l, .err .key)
  | .get k =>
    match value k l with
    | none => (l, .err .key)
    | some v => (l, .val v)
  | .pop k dflt =>
    match value k l, dflt with
    | some v, _ => (remove k l, .val v)
    | none, some v => (l, .val v)
    | none, none => (l, .err .key)
  | .popitem last =>
    match pick last l with
    | none => (l, .err .key)
    | some (k, v) => (remove k l, .item k v)
  | .setdefault k v =>
    match value k l with
    | some v' => (l, .val v')
    | none => (put k v l, .val v)
  | .update ps => (puts l ps, .done)
  | .clear => ([], .done)

/-- A sequence of operations. -/
def run (l : List (K × V)) : List (Op K V) → List (K × V) × List (Out K V)
  | [] => (l, [])
  | o :: os => let r := step l o; let r' := run r.1 os; (r'.1, r.2 :: r'.2)

end

end Verif.Odict.Spec
