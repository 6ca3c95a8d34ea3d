import Verif.Params.Model
import Mathlib.Algebra.Field.Basic

/-!
# Priors, arithmetic and container edits (tractor/utils.py)
-/

namespace Verif.Params

open Verif

variable {α : Type}

/-- What `getLogPriorDerivatives` returns: `rA, cA, vA, pb, mub` (utils.py 97-104, 1247).
Row and column numbers are naturals: the code only ever adds non-negative offsets. -/
structure PriorDerivs (α : Type) where
  rows : List (List Nat)
  cols : List Nat
  vals : List (List α)
  bs : List (List α)
  mus : List (List α)
  deriving DecidableEq, Repr

/-- `listmax(X, -1) + 1`, utils.py 51-55 with the call in 1265: one more than the largest number in
the lists, 0 if there is none. -/
def rowsEnd (r : List (List Nat)) : Nat :=
  r.flatten.foldl (fun m x => max m (x + 1)) 0

section field
variable [Field α]

/-- The sum in `_GaussianPriors.getLogPrior`, utils.py 93-95 (a right fold here, the summands are the
same).  `p[i]` on a bad index raises IndexError. -/
def gaussianChisq (p : List α) : List (Nat × α × α) → Except PyErr α
  | [] => .ok 0
  | (i, mu, sigma) :: ts =>
    match p[i]? with
    | none => .error .index
    | some x => (gaussianChisq p ts).map (fun c => (x - mu) ^ 2 / sigma ^ 2 + c)

/-- `_GaussianPriors.getLogPrior`, utils.py 89-96; the isLegal test of 187 is not modelled (the
default is always legal). -/
def gaussianLogPrior (p : List α) (ts : List (Nat × α × α)) : Except PyErr α :=
  (gaussianChisq p ts).map (fun c => -(1 / 2) * c)

mutual
/-- `getLogPrior`: utils.py 287-292 (0), 176-192 (list), 1237-1241 (container, active subs only).
Scalars have no priors. -/
def getLogPrior : Par α → Except PyErr α
  | .scalar _ => .ok 0
  | .plist l => gaussianLogPrior (vals l) l.priors
  | .multi subs => getLogPriorSubs subs
/-- The loop of the container (a right fold here; the summands are the same). -/
def getLogPriorSubs : Subs α → Except PyErr α
  | .nil => .ok 0
  | .cons _ liquid s rest =>
    if liquid then
      match getLogPrior s with
      | .error e => .error e
      | .ok x =>
        match getLogPriorSubs rest with
        | .error e => .error e
        | .ok y => .ok (x + y)
    else getLogPriorSubs rest
  | .missing _ _ rest => getLogPriorSubs rest
end

/-- The loop of `_GaussianPriors.getDerivs`, utils.py 121-133; `row0` is the running row number,
`p` is `getParams()`. -/
def gaussianDerivs (fs : List Bool) (p : List α) :
    Nat → List (Nat × α × α) → Except PyErr (PriorDerivs α)
  | _, [] => .ok ⟨[], [], [], [], []⟩
  | row0, (j, mu, sigma) :: ts =>
    match liquidIndexOfIndex fs j with
    | .error e => .error e
    | .ok i =>
      if i = -1 then gaussianDerivs fs p row0 ts
      else
        match p[i.toNat]? with
        | none => .error .index
        | some x =>
          match gaussianDerivs fs p (row0 + 1) ts with
          | .error e => .error e
          | .ok d => .ok
              { rows := [row0] :: d.rows
                cols := i.toNat :: d.cols
                vals := [1 / sigma] :: d.vals
                bs := [-(x - mu) / sigma] :: d.bs
                mus := [mu] :: d.mus }

end field

/-- One step of the loop of `MultiParams.getLogPriorDerivatives`, utils.py 1252-1265: put the block of
one active sub-object (with `n` parameters) behind what was accumulated; `r0`, `c0` are the offsets. -/
def stackBlock (r0 c0 : Nat) (acc : PriorDerivs α) (x : PriorDerivs α) : PriorDerivs α where
  rows := acc.rows ++ x.rows.map (fun ri => ri.map (· + r0))
  cols := acc.cols ++ x.cols.map (· + c0)
  vals := acc.vals ++ x.vals
  bs := acc.bs ++ x.bs
  mus := acc.mus ++ x.mus

/-- The loop of `MultiParams.getLogPriorDerivatives` over (numberOfParams, getLogPriorDerivatives())
of the active sub-objects. -/
def stackLoop : Nat → Nat → PriorDerivs α → List (Nat × Option (PriorDerivs α)) → PriorDerivs α
  | _, _, acc, [] => acc
  | r0, c0, acc, (n, none) :: rest => stackLoop r0 (c0 + n) acc rest
  | r0, c0, acc, (n, some x) :: rest =>
    stackLoop (r0 + rowsEnd x.rows) (c0 + n) (stackBlock r0 c0 acc x) rest

/-- `MultiParams.getLogPriorDerivatives`, utils.py 1243-1269. -/
def stack (xs : List (Nat × Option (PriorDerivs α))) : Option (PriorDerivs α) :=
  let d := stackLoop 0 0 ⟨[], [], [], [], []⟩ xs
  if d.rows = [] then none else some d

mutual
/-- `getLogPriorDerivatives`: utils.py 294-295 (None), 152-166 (list), 1243-1269 (container). -/
def getLogPriorDerivatives [Field α] : Par α → Except PyErr (Option (PriorDerivs α))
  | .scalar _ => .ok none
  | .plist l => (gaussianDerivs (flags l) (getParams (.plist l)) 0 l.priors).map some
  | .multi subs => (subDerivs subs).map stack
/-- The (numberOfParams, getLogPriorDerivatives()) pairs of the active sub-objects. -/
def subDerivs [Field α] : Subs α → Except PyErr (List (Nat × Option (PriorDerivs α)))
  | .nil => .ok []
  | .cons _ liquid s rest =>
    if liquid then
      match getLogPriorDerivatives s with
      | .error e => .error e
      | .ok x =>
        match subDerivs rest with
        | .error e => .error e
        | .ok xs => .ok ((numberOfParams s, x) :: xs)
    else subDerivs rest
  | .missing _ _ rest => subDerivs rest
end

mutual
/-- `getGaussianPriors`: utils.py 303-304, 98-99 (raw index in the list!), 1201-1209 (container). -/
def getGaussianPriors : Par α → List (Nat × α × α)
  | .scalar _ => []
  | .plist l => l.priors
  | .multi subs => getGaussianPriorsSubs 0 subs
def getGaussianPriorsSubs : Nat → Subs α → List (Nat × α × α)
  | _, .nil => []
  | off, .cons _ liquid s rest =>
    if liquid then
      (getGaussianPriors s).map (fun x => (off + x.1, x.2)) ++
        getGaussianPriorsSubs (off + numberOfParams s) rest
    else getGaussianPriorsSubs off rest
  | off, .missing _ _ rest => getGaussianPriorsSubs off rest
end

/-! ### Arithmetic -/

/-- The right operand of `ArithmeticParams` operators: another parameter object, or a plain number. -/
inductive Operand (α : Type) where
  | obj (t : Par α)
  | num (x : α)

/-- The list written by the operators: `[x op y for x, y in zip(...)]` or `[x op other for x in ...]`,
utils.py 842-850 and the same lines of the other operators. -/
def opVector (f : α → α → α) (t : Par α) : Operand α → List α
  | .obj o => List.zipWith f (getAllParams t) (getAllParams o)
  | .num x => (getAllParams t).map (f · x)

/-- `__add__`, `__sub__`, `__mul__`, `__div__` (utils.py 841-879): on a copy. -/
def binop (f : α → α → α) (t : Par α) (o : Operand α) : Except PyErr (Par α) :=
  match copy t with
  | .error e => .error e
  | .ok res =>
    let r := setAllParams res (opVector f res o)
    match r.2 with
    | some e => .error e
    | none => .ok r.1

/-- `__iadd__`, `__isub__`, `__imul__`, `__idiv__` (utils.py 881-915): in place. -/
def inplace (f : α → α → α) (t : Par α) (o : Operand α) : Par α × Option PyErr :=
  setAllParams t (opVector f t o)

/-- `__rsub__ = __sub__` (utils.py 918): Python calls `obj.__rsub__(x)` to evaluate `x - obj`. -/
def rsub [Sub α] (x : α) (t : Par α) : Except PyErr (Par α) := binop (· - ·) t (.num x)

/-- `__radd__ = __add__`, `__rmul__ = __mul__` (utils.py 917, 919). -/
def radd [Add α] (x : α) (t : Par α) : Except PyErr (Par α) := binop (· + ·) t (.num x)
def rmul [Mul α] (x : α) (t : Par α) : Except PyErr (Par α) := binop (· * ·) t (.num x)

/-! ### Container edits -/

/-- The two parallel lists of a container: `subs` and `liquid` (utils.py 928-933). -/
structure Cont (β : Type) where
  subs : List β
  liquid : List Bool
  deriving DecidableEq, Repr

/-- A call on a container. -/
inductive Edit (β : Type) where
  | append (x : β)
  | prepend (x : β)
  | extend (xs : List β)
  | remove (x : β)
  | freeze (i : Nat)
  | thaw (i : Nat)

/-- `append`, `prepend`, `extend`, `remove` (utils.py 941-957; `remove` raises ValueError when
`subs.index(x)` finds nothing) and `freezeParam`/`thawParam` with an integer (560-566, 585-595).
Python's `==` on sub-objects is taken to be equality (object identity for most classes). -/
def Cont.edit {β : Type} [DecidableEq β] (c : Cont β) : Edit β → Cont β × Option PyErr
  | .append x => (⟨c.subs ++ [x], c.liquid ++ [true]⟩, none)
  | .prepend x => (⟨[x] ++ c.subs, [true] ++ c.liquid⟩, none)
  | .extend xs => (⟨c.subs ++ xs, c.liquid ++ List.replicate xs.length true⟩, none)
  | .remove x =>
    match c.subs.findIdx? (· = x) with
    | none => (c, some .value)
    | some i =>
      (⟨c.subs.take i ++ c.subs.drop (i + 1), c.liquid.take i ++ c.liquid.drop (i + 1)⟩, none)
  | .freeze i =>
    if i < c.liquid.length then (⟨c.subs, c.liquid.set i false⟩, none) else (c, some .index)
  | .thaw i =>
    if i < c.liquid.length then (⟨c.subs, c.liquid.set i true⟩, none) else (c, some .index)

/-- A history of calls; a call that raises leaves the container as it is and the caller goes on. -/
def Cont.run {β : Type} [DecidableEq β] (c : Cont β) (es : List (Edit β)) : Cont β :=
  es.foldl (fun c e => (c.edit e).1) c

end Verif.Params
