import Verif.Py
import Mathlib.Order.Defs.LinearOrder

/-!
# Model of the LRU cache (tractor/cache.py) and of cached model patches

The `OrderedDict` is a list of (key, entry) pairs in dict order, oldest first.
-/

namespace Verif.Cache

open Verif

/-- `Cache.Entry`, cache.py 62-63, with the fields set in `__setitem__` (100-103). -/
structure Entry (V : Type) where
  val : V
  size : Nat
  hits : Nat
deriving DecidableEq

/-- A `Cache` object, cache.py 61-91: the ordered dict, the counters, the maximum size. -/
structure State (K V : Type) where
  dict : List (K × Entry V)
  hits : Nat
  misses : Nat
  maxsize : Nat
deriving DecidableEq

variable {K V : Type} [DecidableEq K]

/-- `OrderedDict` assignment `d[key] = e`: an existing key keeps its position, a new key goes to the
end (Python semantics of `collections.OrderedDict`). -/
def assign (k : K) (e : Entry V) : List (K × Entry V) → List (K × Entry V)
  | [] => [(k, e)]
  | (k', e') :: d => if k' = k then (k, e) :: d else (k', e') :: assign k e d

/-- Dict lookup. -/
def find (k : K) : List (K × Entry V) → Option (Entry V)
  | [] => none
  | (k', e') :: d => if k' = k then some e' else find k d

/-- Dict with a key removed (`dict.pop(key)` keeps the other entries in order). -/
def without (k : K) : List (K × Entry V) → List (K × Entry V)
  | [] => []
  | (k', e') :: d => if k' = k then d else (k', e') :: without k d

/-- `Cache.__init__`, cache.py 65-68. -/
def empty (m : Nat) : State K V := ⟨[], 0, 0, m⟩

/-- `Cache.clear`, cache.py 75-91 (the dict exists after construction). -/
def clear (c : State K V) : State K V := { c with dict := [], hits := 0, misses := 0 }

/-- `Cache.__setitem__` / `put`, cache.py 93-107, 127-128.  `size` is `int(val.size)` or 0 (94-99).
`popitem(0)` is `popitem(last=False)`: it removes the first item and raises KeyError on an empty
dict.  The fullness test does not ask whether the key is already present. -/
def store (sizeOf : V → Nat) (c : State K V) (k : K) (v : V) : State K V × Option PyErr :=
  if c.maxsize ≤ c.dict.length then
    match c.dict with
    | [] => (c, some .key)
    | _ :: d => ({ c with dict := assign k ⟨v, sizeOf v, 0⟩ d }, none)
  else ({ c with dict := assign k ⟨v, sizeOf v, 0⟩ c.dict }, none)

/-- `Cache.__getitem__` / `get(key)`, cache.py 109-122, 130-133: pop, count, reinsert at the end. -/
def get (c : State K V) (k : K) : State K V × Except PyErr V :=
  match find k c.dict with
  | none => ({ c with misses := c.misses + 1 }, .error .key)
  | some e =>
    ({ c with dict := without k c.dict ++ [(k, { e with hits := e.hits + 1 })], hits := c.hits + 1 },
      .ok e.val)

/-- `Cache.get(key, default)`, cache.py 134-139. -/
def getD (c : State K V) (k : K) (dflt : V) : State K V × V :=
  match get c k with
  | (c', .ok v) => (c', v)
  | (c', .error _) => (c', dflt)

/-- `Cache.totalSize`, cache.py 179-185. -/
def totalSize (c : State K V) : Nat := (c.dict.map (fun p => p.2.size)).sum

/-- `Cache.__len__`, cache.py 124-125. -/
def len (c : State K V) : Nat := c.dict.length

/-- The operations a user can perform. -/
inductive Op (K V : Type) where
  | store (k : K) (v : V)
  | get (k : K)
  | clear
deriving DecidableEq

/-- One operation; an exception leaves the object as it is at that point. -/
def step (sizeOf : V → Nat) (c : State K V) : Op K V → State K V
  | .store k v => (store sizeOf c k v).1
  | .get k => (get c k).1
  | .clear => clear c

/-- A history of operations. -/
def run (sizeOf : V → Nat) (c : State K V) (ops : List (Op K V)) : State K V :=
  ops.foldl (step sizeOf) c

/-! ## Cached model patches -/

/-- What `TractorCacheMixin.getModelPatch` depends on besides the cache: how to render a patch
(`super().getModelPatch`, engine.py 414-422: it looks up the current model mask itself), the combined
hash key (cache.py 25-26), and the image's default accuracy (28-29).  Images and sources stand for
their complete current states.  Extra keyword arguments are not modelled. -/
structure World (I S M R P K : Type) where
  render : M → I → S → R → Option P
  /-- rendering without `minsb=` (the renderer's own default) -/
  renderDefault : M → I → S → Option P
  key : I → S → K
  modelMinval : I → R

/-- The tractor with the mixin: `self.cache` (None when disabled, cache.py 14-15) and the model
masks (engine.py 341-361). -/
structure Tr (K M R P : Type) where
  cache : Option (State K (R × Option P))
  masks : M

variable {I S M R P : Type}

/-- `TractorCacheMixin.getModelPatch`, cache.py 20-44.  The finite-pixel assertion (39-42) is not
modelled.  `minsb = none` is the default argument. -/
def getModelPatch [LinearOrder R] [Zero R] (w : World I S M R P K) (t : Tr K M R P) (i : I) (s : S)
    (minsb : Option R) : Tr K M R P × Option P :=
  match t.cache with
  | none => (t, w.renderDefault t.masks i s)
  | some c =>
    let (c1, mv, mod) := getD c (w.key i s) (0, none)
    let msb := minsb.getD (w.modelMinval i)
    let mod1 := if msb < mv then none else mod
    match mod1 with
    | some p => ({ t with cache := some c1 }, some p)
    | none =>
      let p := w.render t.masks i s msb
      ({ t with cache := some (store (fun _ => 0) c1 (w.key i s) (msb, p)).1 }, p)

/-- What a user can do between calls: request patches, change the model masks, clear the cache. -/
inductive Act (I S M R : Type) where
  | patch (i : I) (s : S) (minsb : Option R)
  | setMasks (m : M)
  | clearCache

/-- One action. -/
def act [LinearOrder R] [Zero R] (w : World I S M R P K) (t : Tr K M R P) : Act I S M R → Tr K M R P
  | .patch i s msb => (getModelPatch w t i s msb).1
  | .setMasks m => { t with masks := m }
  | .clearCache => { t with cache := t.cache.map clear }

/-- A sequence of actions. -/
def runActs [LinearOrder R] [Zero R] (w : World I S M R P K) (t : Tr K M R P)
    (as : List (Act I S M R)) : Tr K M R P := as.foldl (act w) t

end Verif.Cache
