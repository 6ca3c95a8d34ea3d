import Verif.Num
import Mathlib.Order.Defs.LinearOrder

/-!
# Model of comparisons of scalar parameters

tractor/utils.py 307-333: `ScalarParam` (`Mag`, `Flux`, `ConstantSky`, `FracDev`, `SersicIndex`, `TAITime`, ...) defines `__eq__` and `__lt__`; functools.total_ordering adds the other
operators (utils.py 17-20; the copy in tractor/total_ordering.py is for Python 2.6).
-/

namespace Verif.Scal

variable {R : Type} [LinearOrder R]

/-- IEEE `a == b`. -/
def numEq : Num R → Num R → Bool
  | .nan, _ => false
  | _, .nan => false
  | .fin x, .fin y => decide (x = y)
  | .ninf, .ninf => true
  | .pinf, .pinf => true
  | _, _ => false

/-- An object: its identity, its class, and `getValue()` (none: an object without that method, as None or a number).  Bounds, step sizes and so on are left out: the operators do
not read them. -/
structure Obj (R : Type) where
  id : Nat
  cls : String
  val : Option (Num R)

/-- `self.__eq__(other)`, utils.py 328-329, for a scalar parameter of value `v`. -/
def eqWith (v : Num R) (other : Obj R) : Except PyErr Bool :=
  match other.val with
  | none => .error .attribute
  | some w => .ok (numEq v w)

/-- `self.__lt__(other)`, utils.py 331-332. -/
def ltWith (v : Num R) (other : Obj R) : Except PyErr Bool :=
  match other.val with
  | none => .error .attribute
  | some w => .ok (v.lt w)

/-- `self != other`: Python inverts `__eq__`. -/
def neWith (v : Num R) (other : Obj R) : Except PyErr Bool := (eqWith v other).map (!·)

/-- `self <= other` of total_ordering: `self < other or self == other`. -/
def leWith (v : Num R) (other : Obj R) : Except PyErr Bool :=
  match ltWith v other with
  | .error e => .error e
  | .ok true => .ok true
  | .ok false => eqWith v other

/-- `self > other` of total_ordering: `not self < other and self != other`.  Python calls the reflected `other < self` first if the class of `other` is a strict subclass of that of
`self`; here, and for `<`, `<=`, `>=`, the classes are taken to be the same or unrelated (as `Mag` and `Flux`).  Without NaN both are the same. -/
def gtWith (v : Num R) (other : Obj R) : Except PyErr Bool :=
  match ltWith v other with
  | .error e => .error e
  | .ok true => .ok false
  | .ok false => neWith v other

/-- `self >= other` of total_ordering: `not self < other`. -/
def geWith (v : Num R) (other : Obj R) : Except PyErr Bool := (ltWith v other).map (!·)

/-- `item == x` where `x` is a scalar parameter of value `v`: the method of the item if it is one, else (reflected) that of `x`. -/
def eqItem (item : Obj R) (x : Obj R) (v : Num R) : Except PyErr Bool :=
  match item.val with
  | some w => eqWith w x
  | none => eqWith v item

/-- `x in l` and `l.index(x)` for a list: the first entry that is `x` or equals it; none if there is none (`index` raises ValueError then). -/
def indexOf (x : Obj R) (v : Num R) : List (Obj R) → Except PyErr (Option Nat)
  | [] => .ok none
  | item :: l =>
    if item.id = x.id then .ok (some 0)
    else
      match eqItem item x v with
      | .error e => .error e
      | .ok true => .ok (some 0)
      | .ok false => (indexOf x v l).map (·.map (· + 1))

/-- `max(l)` of a list of scalar parameters, given with their values: the next one replaces the largest so far if it is `>`. -/
def maxFrom (best : Obj R × Num R) : List (Obj R × Num R) → Except PyErr (Obj R × Num R)
  | [] => .ok best
  | x :: l =>
    match gtWith x.2 best.1 with
    | .error e => .error e
    | .ok true => maxFrom x l
    | .ok false => maxFrom best l

/-- `min(l)`: the next one replaces the smallest so far if it is `<`. -/
def minFrom (best : Obj R × Num R) : List (Obj R × Num R) → Except PyErr (Obj R × Num R)
  | [] => .ok best
  | x :: l =>
    match ltWith x.2 best.1 with
    | .error e => .error e
    | .ok true => minFrom x l
    | .ok false => minFrom best l

end Verif.Scal
