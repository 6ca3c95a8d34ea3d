import Verif.Cache.Lemmas2
import Mathlib.Algebra.Order.Ring.Int

/-! # Properties C18–C22: the LRU cache and cached model patches -/

namespace Verif.Cache

open Verif

variable {K V : Type} [DecidableEq K]

/-- **C18.** After any history of operations on a new cache of maximum size `m ≥ 1` there are at most
`m` entries and no key occurs twice. -/
theorem C18_bounded (sizeOf : V → Nat) (m : Nat) (hm : 1 ≤ m) (ops : List (Op K V)) :
    len (run sizeOf (empty m) ops) ≤ m ∧ (run sizeOf (empty m) ops).keys.Nodup :=
  ⟨(inv_run sizeOf m hm ops).len, (inv_run sizeOf m hm ops).nodup⟩

/-- **C18 (size zero).** A cache of maximum size 0 accepts nothing: storing raises KeyError. -/
theorem C18_size_zero (sizeOf : V → Nat) (k : K) (v : V) :
    store sizeOf (empty 0) k v = (empty 0, some .key) := rfl

example : (run (fun _ => 1) (empty 2) [.store 1 'a', .store 2 'b', .get 1, .store 3 'c'] :
    State Nat Char).keys = [1, 3] := by decide

/-- **C19.** If a lookup returns a value, it is the one stored last under that key since the last
clear. -/
theorem C19_last_write (sizeOf : V → Nat) (m : Nat) (hm : 1 ≤ m) (ops : List (Op K V)) (k : K) (v : V)
    (h : (run sizeOf (empty m) ops).lookup k = some v) : lastStore k ops = some v :=
  lookup_sound sizeOf m hm ops k v h

/-- **C19 (no loss while there is room).** As long as fewer than `m` different keys have been stored,
every lookup finds exactly the value last stored. -/
theorem C19_no_loss (sizeOf : V → Nat) (m : Nat) (ops : List (Op K V))
    (h : (storedKeys ops).dedup.length < m) (k : K) :
    (run sizeOf (empty m) ops).lookup k = lastStore k ops :=
  (lookup_complete sizeOf m ops h).1 k

example : (run (fun _ => 1) (empty 3) [.store 1 'a', .store 2 'b', .store 1 'z', .get 2] :
    State Nat Char).lookup 1 = some 'z' ∧
    (storedKeys [.store 1 'a', .store 2 'b', .store 1 'z', .get 2] : List Nat).dedup.length < 3 := by
  decide

/-- **C20 (partial).** In a history whose stores are all to absent keys (the usual "look up, on a miss
store" pattern), storing another absent key `k`:
into a non-full cache removes nothing; into a full cache removes exactly the key whose last use
(store or lookup) is the oldest.  All other keys keep their values.  Also, for *any* history,
storing into a non-full cache leaves every other key's value alone.
Missing: overwriting a present key — see `C20_overwrite_evicts_false` and
`C20_overwrite_not_refreshed_false`. -/
theorem C20_evicts_lru_partial (sizeOf : V → Nat) (m : Nat) (hm : 1 ≤ m) (ops : List (Op K V))
    (k : K) (v : V) (c : State K V) (hc : c = run sizeOf (empty m) ops) :
    (len c < m → ∀ k', k' ≠ k → (store sizeOf c k v).1.lookup k' = c.lookup k') ∧
    (FreshStores sizeOf (empty m) ops → k ∉ c.keys →
      (len c < m → (store sizeOf c k v).1.keys = c.keys ++ [k]) ∧
      (len c = m → ∃ old ∈ c.keys,
        (∀ k' ∈ c.keys, k' ≠ old → lastUse old ops < lastUse k' ops) ∧
        (∀ k', k' ∈ (store sizeOf c k v).1.keys ↔ k' = k ∨ (k' ∈ c.keys ∧ k' ≠ old)) ∧
        (∀ k', k' ≠ old → k' ≠ k → (store sizeOf c k v).1.lookup k' = c.lookup k'))) ∧
    (store sizeOf c k v).1.lookup k = some v := by
  have hinv := inv_run (V := V) sizeOf m hm ops
  rw [← hc] at hinv
  have hmax := hinv.maxsize
  refine ⟨?_, ?_, ?_⟩
  · intro hl k' hk'
    have hnf : ¬ c.maxsize ≤ c.dict.length := by simp only [len] at hl; omega
    have h1 : ¬ k = k' := fun e => hk' e.symm
    simp only [store, if_neg hnf, lookup_eq, find_assign, if_neg h1]
  · intro hf hk
    refine ⟨?_, ?_⟩
    · intro hl
      have hnf : ¬ c.maxsize ≤ c.dict.length := by simp only [len] at hl; omega
      simp only [store, if_neg hnf, State.keys]
      rw [assign_not_mem _ _ _ hk, List.map_append]; rfl
    · intro hl
      have hfull : c.maxsize ≤ c.dict.length := by simp only [len] at hl; omega
      have hrec := recency sizeOf m hm ops hf
      rw [← hc] at hrec
      have hnd := hinv.nodup
      simp only [len] at hl
      simp only [State.keys] at hk
      simp only [store, if_pos hfull, State.keys, lookup_eq]
      cases hd : c.dict with
      | nil => rw [hd] at hl; simp at hl; omega
      | cons p d =>
        rw [hd] at hk hrec hnd
        simp only [List.map_cons, List.mem_cons, not_or, List.pairwise_cons, List.nodup_cons] at hk hrec hnd
        refine ⟨p.1, by simp, ?_, ?_, ?_⟩
        · intro k' hk' hne
          simp only [List.map_cons, List.mem_cons] at hk'
          rcases hk' with h | h
          · exact absurd h hne
          · exact hrec.1 k' h
        · intro k'
          simp only []
          rw [assign_not_mem _ _ _ hk.2, List.map_append, List.mem_append]
          simp only [List.map_cons, List.map_nil, List.mem_cons, List.not_mem_nil, or_false]
          constructor
          · rintro (h | h)
            · exact .inr ⟨.inr h, by rintro rfl; exact hnd.1 h⟩
            · exact .inl h
          · rintro (h | ⟨h | h, h'⟩)
            · exact .inr h
            · exact absurd h h'
            · exact .inl h
        · intro k' h1 h2
          have h3 : ¬ k = k' := fun e => h2 e.symm
          simp only [find_assign, if_neg h3]
          rw [find_tail k' p d h1]
  · simp only [store, lookup_eq]
    split
    · rename_i hfull
      cases hd : c.dict with
      | nil => rw [hd] at hfull; simp at hfull; omega
      | cons p d => simp [find_assign]
    · simp [find_assign]

example :
    let ops : List (Op Nat Char) := [.store 1 'a', .store 2 'b', .get 1]
    let c := run (fun _ => 1) (empty 2) ops
    len c = 2 ∧ lastUse 2 ops = 2 ∧ lastUse 1 ops = 3 ∧
      (store (fun _ => 1) c 3 'c').1.keys = [1, 3] := by decide

example : FreshStores (fun _ => 1) (empty 2) [.store 1 'a', .store 2 'b', .get 1] := by
  intro pre k v post h
  match pre, h with
  | [], h => injection h with h1 h2; injection h1 with h1 _; subst h1; decide
  | [a], h =>
    injection h with h1 h2; subst h1
    injection h2 with h2 h3; injection h2 with h2 _; subst h2; decide
  | [a, b], h => simp at h
  | a :: b :: d :: pre, h => simp at h

/-- **C20 (negation 1).** Overwriting a key that is present in a full cache throws out another key:
the cache shrinks. -/
theorem C20_overwrite_evicts_false :
    ∃ (ops : List (Op Nat Char)) (k k' : Nat) (v : Char),
      let c := run (fun _ => 0) (empty 2) ops
      len c = 2 ∧ k ∈ c.keys ∧ k' ∈ c.keys ∧ k' ≠ k ∧
      k' ∉ (store (fun _ => 0) c k v).1.keys ∧ len (store (fun _ => 0) c k v).1 = 1 :=
  ⟨[.store 1 'a', .store 2 'b'], 2, 1, 'z', by decide⟩

/-- **C20 (negation 2).** Overwriting does not count as a use: after storing 1, 2, then 1 again, in a
cache of size 3, the next evicted key is 1 although 2 was used longer ago. -/
theorem C20_overwrite_not_refreshed_false :
    ∃ (ops : List (Op Nat Char)),
      let c := run (fun _ => 0) (empty 3) ops
      len c = 3 ∧ lastUse 2 ops < lastUse 1 ops ∧
      1 ∉ (store (fun _ => 0) c 4 'd').1.keys ∧ 2 ∈ (store (fun _ => 0) c 4 'd').1.keys :=
  ⟨[.store 1 'a', .store 2 'b', .store 1 'z', .store 3 'c'], by decide⟩

/-- **C21.** After any history, the hit counter is the number of lookups since the last clear that
returned a value, and hits plus misses is the number of lookups since the last clear. -/
theorem C21_counters (sizeOf : V → Nat) (m : Nat) (ops : List (Op K V)) :
    (run sizeOf (empty m) ops).hits = foundLookups sizeOf (empty m) 0 ops ∧
    (run sizeOf (empty m) ops).hits + (run sizeOf (empty m) ops).misses = lookups ops :=
  counters sizeOf (empty m) ops 0 rfl 0 rfl

example :
    let c := run (fun _ => 1) (empty 2) [.get 1, .clear, .store 1 'a', .get 1, .get 2, .get 1]
    c.hits = 2 ∧ c.misses = 1 := by decide

variable {I S M R P : Type} [LinearOrder R] [Zero R]

/-- **C22 (partial).** Whatever happened before, after `clearCache()` and any further requests without
a change of model masks, a request is answered with the current rendering at an accuracy at least as
good as the requested one (that of this or an earlier request) — with equal requested accuracies,
exactly the fresh rendering.  Assumption: the hash key determines the rendering.
Missing: mask changes (`C22_mask_change_false`) and a disabled cache (`C22_disabled_false`). -/
theorem C22_cached_patch_partial (w : World I S M R P K) (m : Nat) (hm : 1 ≤ m) (m0 : M)
    (before after : List (Act I S M R)) (hno : ∀ a ∈ after, ∀ k, a ≠ .setMasks k)
    (t : Tr K M R P)
    (ht : t = runActs w ⟨some (empty m), m0⟩ (before ++ [.clearCache] ++ after))
    (hkey : ∀ i s i' s', w.key i s = w.key i' s' → w.render t.masks i s = w.render t.masks i' s')
    (i : I) (s : S) (minsb : Option R) :
    (∃ r ≤ minsb.getD (w.modelMinval i), (getModelPatch w t i s minsb).2 = w.render t.masks i s r) ∧
    ((∀ a ∈ after, ∀ i' s' b, a = .patch i' s' b →
        b.getD (w.modelMinval i') = minsb.getD (w.modelMinval i)) →
      (getModelPatch w t i s minsb).2 = w.render t.masks i s (minsb.getD (w.modelMinval i))) := by
  obtain ⟨c, hc, hcm⟩ := maxsize_acts w before ⟨some (empty m), m0⟩ m ⟨empty m, rfl, rfl⟩
  generalize htb : before.foldl (act w) ⟨some (empty m), m0⟩ = tb at hc
  have hg0 : Good w tb.masks [] (act w tb .clearCache) :=
    ⟨rfl, clear c, by simp [act, hc], by simp [clear], by simp [clear, hcm]; omega,
      by simp [clear, find]⟩
  have hmasks : ∀ (acts : List (Act I S M R)) (u : Tr K M R P),
      (∀ a ∈ acts, ∀ k, a ≠ .setMasks k) → (acts.foldl (act w) u).masks = u.masks := by
    intro acts
    induction acts with
    | nil => intro u _; rfl
    | cons a acts ih =>
      intro u h
      rw [List.foldl_cons, ih _ (fun b hb => h b (List.mem_cons_of_mem a hb))]
      cases a with
      | setMasks k => exact absurd rfl (h _ (List.mem_cons_self ..) k)
      | clearCache => rfl
      | patch i s b =>
        simp only [act, getModelPatch]
        cases u.cache with
        | none => rfl
        | some c => simp only []; split <;> rfl
  have ht' : t = after.foldl (act w) (act w tb .clearCache) := by
    rw [ht, runActs, List.foldl_append, List.foldl_append, htb]; rfl
  have hm' : t.masks = tb.masks := by rw [ht', hmasks after _ hno]; rfl
  rw [hm'] at hkey ⊢
  have hg := good_acts w tb.masks hkey after hno [] _ hg0
  rw [← ht', List.nil_append] at hg
  obtain ⟨⟨r, hr, hle, heq⟩, -⟩ := good_patch w tb.masks _ t hkey hg i s minsb
  refine ⟨⟨r, hle, heq⟩, ?_⟩
  intro hsame
  have : r = minsb.getD (w.modelMinval i) := by
    rw [List.mem_append] at hr
    rcases hr with hr | hr
    · rw [List.mem_filterMap] at hr
      obtain ⟨a, ha, hacc⟩ := hr
      cases a with
      | setMasks k => simp [Act.accuracy] at hacc
      | clearCache => simp [Act.accuracy] at hacc
      | patch i' s' b =>
        simp only [Act.accuracy, Option.some.injEq] at hacc
        rw [← hacc]; exact hsame _ ha i' s' b rfl
    · simpa using hr
  rw [heq, this]

/-- A renderer whose patch records the mask, the source and the accuracy. -/
def exWorld : World Unit Nat Bool Int (Bool × Nat × Int) Nat where
  render m _ s r := some (m, s, r)
  renderDefault m _ s := some (m, s, 7)
  key _ s := s
  modelMinval _ := 0

example : (getModelPatch exWorld
    (runActs exWorld ⟨some (empty 3), false⟩ [.patch () 5 (some 2), .setMasks true, .clearCache,
      .patch () 5 (some 1), .patch () 6 none]) () 5 (some 3)).2
    = some (true, 5, 1) := by decide

/-- **C22 (negation: masks).** After changing the model masks the old patch is returned. -/
theorem C22_mask_change_false :
    ∃ (t : Tr Nat Bool Int (Bool × Nat × Int)),
      t = runActs exWorld ⟨some (empty 3), false⟩ [.patch () 5 none, .setMasks true] ∧
      (getModelPatch exWorld t () 5 none).2 ≠ exWorld.render t.masks () 5 0 :=
  ⟨_, rfl, by decide⟩

/-- **C22 (negation: disabled cache).** With the cache disabled the requested accuracy is dropped. -/
theorem C22_disabled_false :
    ∃ (t : Tr Nat Bool Int (Bool × Nat × Int)), t.cache = none ∧
      (getModelPatch exWorld t () 5 (some 2)).2 ≠ exWorld.render t.masks () 5 2 :=
  ⟨⟨none, false⟩, rfl, by decide⟩

end Verif.Cache
