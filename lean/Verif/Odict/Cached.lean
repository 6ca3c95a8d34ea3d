import Verif.Odict.Lemmas3
import Verif.Cache.Model

/-!
# The cache of tractor/cache.py over the dictionary of tractor/ordereddict.py

`Verif.Cache` has the same code over a list of items, as `collections.OrderedDict` is understood.
-/

namespace Verif.Odict

open Verif

section
variable {K V : Type} [DecidableEq K]

/-- A `Cache` object, cache.py 61-91, over an `OrderedDict` of ordereddict.py. -/
structure LCache (K V : Type) where
  dict : OD K (Cache.Entry V)
  hits : Nat
  misses : Nat
  maxsize : Nat

/-- `Cache(maxsize)`, cache.py 65-68. -/
def LCache.empty (m : Nat) : LCache K V := ⟨new [], 0, 0, m⟩

/-- `clear`, cache.py 75-91. -/
def LCache.clear (c : LCache K V) : LCache K V := { c with dict := Odict.clear c.dict, hits := 0, misses := 0 }

/-- `__setitem__`, cache.py 93-107. -/
def LCache.store (sizeOf : V → Nat) (c : LCache K V) (k : K) (v : V) : LCache K V × Option PyErr :=
  let e : Cache.Entry V := ⟨v, sizeOf v, 0⟩
  if c.maxsize ≤ len c.dict then
    match popitem c.dict false with
    | (d, .error err) => ({ c with dict := d }, some err)
    | (d, .ok _) => ({ c with dict := setitem d k e }, none)
  else ({ c with dict := setitem c.dict k e }, none)

/-- `__getitem__`, cache.py 109-122. -/
def LCache.get (c : LCache K V) (k : K) : LCache K V × Except PyErr V :=
  match pop c.dict k none with
  | (d, .error err) => ({ c with dict := d, misses := c.misses + 1 }, .error err)
  | (d, .ok e) => ({ c with dict := setitem d k { e with hits := e.hits + 1 }, hits := c.hits + 1 }, .ok e.val)

/-- What a call shows. -/
inductive Shown (V : Type) where
  | stored (e : Option PyErr)
  | got (r : Except PyErr V)
  | cleared

/-- A history of calls. -/
def LCache.run (sizeOf : V → Nat) (c : LCache K V) : List (Cache.Op K V) → LCache K V × List (Shown V)
  | [] => (c, [])
  | .store k v :: os => let r := c.store sizeOf k v; let r' := LCache.run sizeOf r.1 os; (r'.1, .stored r.2 :: r'.2)
  | .get k :: os => let r := c.get k; let r' := LCache.run sizeOf r.1 os; (r'.1, .got r.2 :: r'.2)
  | .clear :: os => let r' := LCache.run sizeOf c.clear os; (r'.1, .cleared :: r'.2)

/-- What the calls show for the cache of `Verif.Cache`. -/
def shown (sizeOf : V → Nat) (c : Cache.State K V) : List (Cache.Op K V) → List (Shown V)
  | [] => []
  | .store k v :: os => .stored (Cache.store sizeOf c k v).2 :: shown sizeOf (Cache.step sizeOf c (.store k v)) os
  | .get k :: os => .got (Cache.get c k).2 :: shown sizeOf (Cache.step sizeOf c (.get k)) os
  | .clear :: os => .cleared :: shown sizeOf (Cache.step sizeOf c .clear) os

theorem find_eq (k : K) (l : List (K × Cache.Entry V)) : Cache.find k l = bget k l := by
  induction l with
  | nil => rfl
  | cons p l ih =>
    obtain ⟨k', e⟩ := p
    unfold Cache.find bget
    rw [ih]

theorem assign_eq (k : K) (e : Cache.Entry V) (l : List (K × Cache.Entry V)) (h : (l.map Prod.fst).Nodup) :
    Cache.assign k e l = Spec.put k e l := by
  induction l with
  | nil => rfl
  | cons p l ih =>
    obtain ⟨k', e'⟩ := p
    simp only [List.map_cons, List.nodup_cons] at h
    unfold Cache.assign
    by_cases hk : k' = k
    · subst hk
      rw [if_pos rfl]
      unfold Spec.put
      simp only [List.any_cons, decide_true, Bool.true_or, if_true, List.map_cons]
      congr 1
      symm
      conv_rhs => rw [← List.map_id l]
      apply List.map_congr_left
      intro x hx
      have : x.1 ≠ k' := fun e => h.1 (List.mem_map.2 ⟨x, hx, e⟩)
      rw [if_neg this]
      rfl
    · rw [if_neg hk, ih h.2]
      unfold Spec.put
      simp only [List.any_cons, hk, decide_false, Bool.false_or, List.map_cons, if_false]
      split <;> simp

theorem without_eq (k : K) (l : List (K × Cache.Entry V)) (h : (l.map Prod.fst).Nodup) : Cache.without k l = Spec.remove k l := by
  induction l with
  | nil => rfl
  | cons p l ih =>
    obtain ⟨k', e'⟩ := p
    simp only [List.map_cons, List.nodup_cons] at h
    unfold Cache.without
    by_cases hk : k' = k
    · subst hk
      rw [if_pos rfl]
      unfold Spec.remove
      rw [List.filter_cons_of_neg (by simp)]
      symm
      rw [List.filter_eq_self]
      intro x hx
      have : x.1 ≠ k' := fun e => h.1 (List.mem_map.2 ⟨x, hx, e⟩)
      simpa using this
    · rw [if_neg hk, ih h.2]
      unfold Spec.remove
      rw [List.filter_cons_of_pos (by simpa using hk)]

/-- The two caches hold the same. -/
structure Same (c : LCache K V) (s : Cache.State K V) : Prop where
  rep : ∃ t, Rep c.dict t ∧ t.map (fun x => x.2) = s.dict
  hits : c.hits = s.hits
  misses : c.misses = s.misses
  size : c.maxsize = s.maxsize

omit [DecidableEq K] in
theorem nodup_items {d : OD K V} {t : List (Nat × K × V)} (r : Rep d t) : ((t.map (fun x => x.2)).map Prod.fst).Nodup := by
  rw [List.map_map]
  exact r.kd

theorem same_store (sizeOf : V → Nat) {c : LCache K V} {s : Cache.State K V} (h : Same c s) (k : K) (v : V) :
    Same (c.store sizeOf k v).1 (Cache.store sizeOf s k v).1 ∧ (c.store sizeOf k v).2 = (Cache.store sizeOf s k v).2 := by
  obtain ⟨⟨t, r, e⟩, hh, hm, hs⟩ := h
  have hlen : len c.dict = s.dict.length := by
    unfold len
    rw [r.len, ← e, List.length_map]
  unfold LCache.store Cache.store
  rw [hlen, hs]
  by_cases hfull : s.maxsize ≤ s.dict.length
  · simp only [if_pos hfull]
    rcases rep_popitem r false with ⟨p, hp, ho, t', r', e'⟩ | ⟨hp, ho⟩
    · cases hd : s.dict with
      | nil => rw [e, hd] at hp; simp [Spec.pick] at hp
      | cons q l =>
        rw [e, hd] at hp e'
        simp only [Spec.pick, Bool.false_eq_true, if_false, List.head?_cons, Option.some.injEq] at hp
        subst hp
        have hnd : ((q :: l).map Prod.fst).Nodup := by rw [← hd, ← e]; exact nodup_items r
        have hrem : Spec.remove q.1 (q :: l) = l := by
          rw [← without_eq _ _ hnd]
          unfold Cache.without
          rw [if_pos rfl]
        rw [hrem] at e'
        cases hq : popitem c.dict false with
        | mk a b =>
          rw [hq] at ho r'
          simp only at ho r'
          subst ho
          simp only [and_true]
          obtain ⟨t2, r2, e2⟩ := rep_set r' k (⟨v, sizeOf v, 0⟩ : Cache.Entry V)
          refine ⟨⟨t2, r2, ?_⟩, hh, hm, rfl⟩
          rw [e2, e', assign_eq _ _ _ (by simp only [List.map_cons, List.nodup_cons] at hnd; exact hnd.2)]
    · cases hd : s.dict with
      | cons q l => rw [e, hd] at hp; simp [Spec.pick] at hp
      | nil =>
        rw [ho]
        simp only [and_true]
        exact ⟨⟨t, r, e⟩, hh, hm, rfl⟩
  · simp only [if_neg hfull, and_true]
    obtain ⟨t2, r2, e2⟩ := rep_set r k (⟨v, sizeOf v, 0⟩ : Cache.Entry V)
    refine ⟨⟨t2, r2, ?_⟩, hh, hm, rfl⟩
    rw [e2, e, assign_eq _ _ _ (by rw [← e]; exact nodup_items r)]

theorem same_get {c : LCache K V} {s : Cache.State K V} (h : Same c s) (k : K) :
    Same (c.get k).1 (Cache.get s k).1 ∧ (c.get k).2 = (Cache.get s k).2 := by
  obtain ⟨⟨t, r, e⟩, hh, hm, hs⟩ := h
  unfold LCache.get Cache.get
  rw [find_eq, ← e]
  rcases rep_pop r k none with ⟨en, hv, ho, t', r', e'⟩ | ⟨hv, ho⟩
  · rw [hv]
    cases hq : pop c.dict k none with
    | mk a b =>
      rw [hq] at ho r'
      simp only at ho r'
      subst ho
      simp only [and_true]
      obtain ⟨t2, r2, e2⟩ := rep_set r' k ({ en with hits := en.hits + 1 } : Cache.Entry V)
      refine ⟨⟨t2, r2, ?_⟩, by rw [hh], hm, hs⟩
      rw [e2, e', without_eq _ _ (nodup_items r), put_new]
      intro hc
      obtain ⟨x, hx, hk⟩ := List.mem_map.1 hc
      unfold Spec.remove at hx
      have := (List.mem_filter.1 hx).2
      simp [hk] at this
  · rw [hv, ho]
    simp only [and_true]
    exact ⟨⟨t, r, rfl⟩, hh, by rw [hm], hs⟩

theorem same_run (sizeOf : V → Nat) {c : LCache K V} {s : Cache.State K V} (h : Same c s) (os : List (Cache.Op K V)) :
    Same (c.run sizeOf os).1 (Cache.run sizeOf s os) ∧ (c.run sizeOf os).2 = shown sizeOf s os := by
  induction os generalizing c s with
  | nil => exact ⟨h, rfl⟩
  | cons o os ih =>
    cases o with
    | store k v =>
      obtain ⟨h1, h2⟩ := same_store sizeOf h k v
      obtain ⟨h3, h4⟩ := ih h1
      refine ⟨h3, ?_⟩
      simp only [LCache.run, shown, h2, h4]
      rfl
    | get k =>
      obtain ⟨h1, h2⟩ := same_get h k
      obtain ⟨h3, h4⟩ := ih h1
      refine ⟨h3, ?_⟩
      simp only [LCache.run, shown, h2, h4]
      rfl
    | clear =>
      have h1 : Same c.clear (Cache.clear s) := ⟨⟨[], rep_clear _, rfl⟩, rfl, rfl, h.size⟩
      obtain ⟨h3, h4⟩ := ih h1
      refine ⟨h3, ?_⟩
      simp only [LCache.run, shown, h4]
      rfl

end

end Verif.Odict
