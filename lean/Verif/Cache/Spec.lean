import Verif.Cache.Model

/-! Vocabulary for the cache properties, in terms of the history of operations only. -/

namespace Verif.Cache

variable {K V : Type} [DecidableEq K]

/-- The value last stored under `k` since the last clear. -/
def lastStore (k : K) (ops : List (Op K V)) : Option V :=
  ops.foldl (fun acc op => match op with
    | .store k' v => if k' = k then some v else acc
    | .get _ => acc
    | .clear => none) none

/-- The keys stored (with repetitions) in the history. -/
def storedKeys (ops : List (Op K V)) : List K :=
  ops.filterMap (fun op => match op with
    | .store k _ => some k
    | _ => none)

/-- The keys present, oldest first. -/
def State.keys (c : State K V) : List K := c.dict.map (·.1)

/-- The value a lookup of `k` would return. -/
def State.lookup (c : State K V) (k : K) : Option V := (get c k).2.toOption

/-- Does the operation name key `k` (store or lookup)? -/
def Op.uses (k : K) : Op K V → Bool
  | .store k' _ => k' = k
  | .get k' => k' = k
  | .clear => false

/-- Position (counted from 1) of the last operation of the history that used `k`; 0 if none. -/
def lastUse (k : K) (ops : List (Op K V)) : Nat :=
  ops.length - (ops.reverse.findIdx (Op.uses k))

/-- In this history every store is to a key that is absent at that moment. -/
def FreshStores (sizeOf : V → Nat) (c : State K V) (ops : List (Op K V)) : Prop :=
  ∀ pre k v post, ops = pre ++ .store k v :: post → k ∉ (run sizeOf c pre).keys

/-- Number of lookups since the last clear. -/
def lookups (ops : List (Op K V)) : Nat :=
  ops.foldl (fun n op => match op with
    | .get _ => n + 1
    | .store _ _ => n
    | .clear => 0) 0

/-- Number of lookups since the last clear that returned a value (`n` so far, cache `c` now). -/
def foundLookups (sizeOf : V → Nat) (c : State K V) (n : Nat) : List (Op K V) → Nat
  | [] => n
  | op :: ops => foundLookups sizeOf (step sizeOf c op)
      (match op with
        | .get k => if (c.lookup k).isSome then n + 1 else n
        | .store _ _ => n
        | .clear => 0) ops

end Verif.Cache
