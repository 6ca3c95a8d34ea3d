import Verif.Cache.Spec
import Mathlib.Data.List.Induction
import Mathlib.Data.List.Nodup
import Mathlib.Data.List.Perm.Subperm
import Mathlib.Data.List.Dedup

set_option linter.unusedSimpArgs false
set_option linter.unusedVariables false

/-! Helper lemmas for the cache properties. -/

namespace Verif.Cache

open Verif

variable {K V : Type} [DecidableEq K]

abbrev ks (d : List (K × Entry V)) : List K := d.map (·.1)

theorem find_isSome (k : K) (d : List (K × Entry V)) : (find k d).isSome = true ↔ k ∈ ks d := by
  induction d with
  | nil => simp [find]
  | cons p d ih =>
    obtain ⟨k', e⟩ := p
    by_cases h : k' = k
    · simp [find, h]
    · have h' : ¬ k = k' := fun e => h e.symm
      rw [find, if_neg h, ih]; simp [h']

theorem find_none (k : K) (d : List (K × Entry V)) : find k d = none ↔ k ∉ ks d := by
  rw [← find_isSome]; cases find k d <;> simp

theorem ks_assign_mem (k : K) (e : Entry V) (d : List (K × Entry V)) (h : k ∈ ks d) :
    ks (assign k e d) = ks d := by
  induction d with
  | nil => simp at h
  | cons p d ih =>
    obtain ⟨k', e'⟩ := p
    by_cases hk : k' = k
    · simp [assign, hk]
    · have : k ∈ ks d := by
        have h' : ¬ k = k' := fun e => hk e.symm
        simpa [h'] using h
      simp only [assign, if_neg hk, List.map_cons, ih this]

theorem assign_not_mem (k : K) (e : Entry V) (d : List (K × Entry V)) (h : k ∉ ks d) :
    assign k e d = d ++ [(k, e)] := by
  induction d with
  | nil => rfl
  | cons p d ih =>
    obtain ⟨k', e'⟩ := p
    simp only [List.map_cons, List.mem_cons, not_or] at h
    have hk : ¬ k' = k := fun e => h.1 e.symm
    simp only [assign, if_neg hk, ih h.2, List.cons_append]

theorem find_assign (k k' : K) (e : Entry V) (d : List (K × Entry V)) :
    find k' (assign k e d) = if k = k' then some e else find k' d := by
  induction d with
  | nil => simp [assign, find]
  | cons p d ih =>
    obtain ⟨k1, e1⟩ := p
    by_cases h : k1 = k
    · subst h
      by_cases h2 : k1 = k'
      · simp [assign, find, h2]
      · simp [assign, find, h2]
    · by_cases h2 : k1 = k'
      · subst h2
        have h3 : ¬ k = k1 := fun e => h e.symm
        simp [assign, find, h, h3]
      · simp only [assign, if_neg h, find, if_neg h2, ih]

theorem ks_without (k : K) (d : List (K × Entry V)) : ks (without k d) = (ks d).erase k := by
  induction d with
  | nil => rfl
  | cons p d ih =>
    obtain ⟨k', e'⟩ := p
    by_cases h : k' = k
    · simp [without, h]
    · simp only [without, if_neg h, List.map_cons, ih]
      rw [List.erase_cons_tail (by simpa using h)]

theorem find_append (k : K) (d1 d2 : List (K × Entry V)) :
    find k (d1 ++ d2) = (find k d1).or (find k d2) := by
  induction d1 with
  | nil => simp [find]
  | cons p d ih =>
    obtain ⟨k', e'⟩ := p
    by_cases h : k' = k <;> simp [find, h, ih]

theorem find_without (k k' : K) (d : List (K × Entry V)) (hne : k' ≠ k) :
    find k' (without k d) = find k' d := by
  induction d with
  | nil => rfl
  | cons p d ih =>
    obtain ⟨k1, e1⟩ := p
    by_cases h : k1 = k
    · subst h
      have : ¬ k1 = k' := fun e => hne e.symm
      simp [without, find, this]
    · by_cases h2 : k1 = k'
      · subst h2; simp [without, find, h]
      · simp only [without, if_neg h, find, if_neg h2, ih]

theorem lookup_eq (c : State K V) (k : K) : c.lookup k = (find k c.dict).map (·.val) := by
  simp only [State.lookup, get]
  cases find k c.dict <;> rfl

theorem run_snoc (sizeOf : V → Nat) (c : State K V) (ops : List (Op K V)) (op : Op K V) :
    run sizeOf c (ops ++ [op]) = step sizeOf (run sizeOf c ops) op := by
  simp [run, List.foldl_append]

/-- Structural invariant. -/
structure Inv (m : Nat) (c : State K V) : Prop where
  maxsize : c.maxsize = m
  nodup : (ks c.dict).Nodup
  len : c.dict.length ≤ m

theorem find_tail (k' : K) (p : K × Entry V) (d : List (K × Entry V)) (h : k' ≠ p.1) :
    find k' (p :: d) = find k' d := by
  obtain ⟨k1, e1⟩ := p
  have : ¬ k1 = k' := fun e => h e.symm
  simp [find, this]

theorem inv_step (sizeOf : V → Nat) (m : Nat) (hm : 0 < m) (c : State K V) (op : Op K V)
    (h : Inv m c) : Inv m (step sizeOf c op) := by
  obtain ⟨h1, h2, h3⟩ := h
  have hassign : ∀ (k : K) (e : Entry V) (d : List (K × Entry V)), (ks d).Nodup →
      d.length < m → (ks (assign k e d)).Nodup ∧ (assign k e d).length ≤ m := by
    intro k e d hd hl
    by_cases hk : k ∈ ks d
    · have := ks_assign_mem k e d hk
      refine ⟨by rw [this]; exact hd, ?_⟩
      have h4 : (ks (assign k e d)).length = (ks d).length := by rw [this]
      simp only [List.length_map] at h4
      omega
    · rw [assign_not_mem k e d hk]
      refine ⟨?_, by simp; omega⟩
      rw [ks, List.map_append]
      refine List.Nodup.append hd (by simp) ?_
      intro x hx hx'
      simp only [List.map_cons, List.map_nil, List.mem_singleton] at hx'
      subst hx'; exact hk hx
  cases op with
  | clear => exact ⟨h1, by simp [step, clear], by simp [step, clear]⟩
  | get k =>
    simp only [step, get]
    cases hf : find k c.dict with
    | none => exact ⟨h1, h2, h3⟩
    | some e =>
      have hk : k ∈ ks c.dict := by rw [← find_isSome, hf]; rfl
      refine ⟨h1, ?_, ?_⟩
      · simp only [List.map_append, ks_without, List.map_cons, List.map_nil]
        refine List.Nodup.append (h2.erase k) (by simp) ?_
        intro x hx hx'
        simp only [List.mem_singleton] at hx'
        subst hx'
        exact (List.Nodup.not_mem_erase h2) hx
      · have h4 : (ks (without k c.dict)).length = ((ks c.dict).erase k).length := by
          rw [ks_without]
        rw [List.length_erase_of_mem hk] at h4
        simp only [List.length_map] at h4
        have : 0 < c.dict.length := by
          have := List.length_pos_of_mem hk; simpa using this
        simp only [List.length_append, List.length_cons, List.length_nil]
        omega
  | store k v =>
    simp only [step, store]
    split
    · rename_i hfull
      cases hd : c.dict with
      | nil => exact ⟨h1, h2, h3⟩
      | cons p d =>
        rw [hd] at h2 h3
        simp only [List.map_cons, List.nodup_cons, List.length_cons] at h2 h3
        obtain ⟨g1, g2⟩ := hassign k ⟨v, sizeOf v, 0⟩ d h2.2 (by omega)
        exact ⟨h1, g1, g2⟩
    · rename_i hfull
      obtain ⟨g1, g2⟩ := hassign k ⟨v, sizeOf v, 0⟩ c.dict h2 (by omega)
      exact ⟨h1, g1, g2⟩

theorem inv_run (sizeOf : V → Nat) (m : Nat) (hm : 0 < m) (ops : List (Op K V)) :
    Inv m (run sizeOf (empty m) ops) := by
  induction ops using List.reverseRecOn with
  | nil => exact ⟨rfl, by simp [run, empty], by simp [run, empty]⟩
  | append_singleton ops op ih => rw [run_snoc]; exact inv_step sizeOf m hm _ op ih

theorem lastStore_snoc (k : K) (ops : List (Op K V)) (op : Op K V) :
    lastStore k (ops ++ [op]) = match op with
      | .store k' v => if k' = k then some v else lastStore k ops
      | .get _ => lastStore k ops
      | .clear => none := by
  simp only [lastStore, List.foldl_append, List.foldl_cons, List.foldl_nil]
  cases op <;> rfl

/-- What one step does to the value found under a key. -/
theorem find_store (sizeOf : V → Nat) (c : State K V) (k k' : K) (v : V) (e : Entry V)
    (hn : (ks c.dict).Nodup)
    (h : find k' (store sizeOf c k v).1.dict = some e) :
    (k' = k ∧ (e.val = v ∨ (c.maxsize ≤ c.dict.length ∧ c.dict = []))) ∨
      (k' ≠ k ∧ find k' c.dict = some e) := by
  simp only [store] at h
  split at h
  · cases hd : c.dict with
    | nil => rw [hd] at h; simp [hd, find] at h
    | cons p d =>
      rw [hd] at h hn
      simp only [find_assign] at h
      by_cases hk : k = k'
      · subst hk; simp at h; subst h; exact .inl ⟨rfl, .inl rfl⟩
      · rw [if_neg hk] at h
        refine .inr ⟨fun e => hk e.symm, ?_⟩
        have hmem : k' ∈ ks d := by rw [← find_isSome, h]; rfl
        simp only [List.map_cons, List.nodup_cons] at hn
        rw [find_tail]; exact h
        rintro rfl; exact hn.1 hmem
  · simp only [find_assign] at h
    by_cases hk : k = k'
    · subst hk; simp at h; subst h; exact .inl ⟨rfl, .inl rfl⟩
    · rw [if_neg hk] at h; exact .inr ⟨fun e => hk e.symm, h⟩

theorem find_get (c : State K V) (k k' : K) (hn : (ks c.dict).Nodup) :
    (find k' (get c k).1.dict).map (·.val) = (find k' c.dict).map (·.val) := by
  simp only [get]
  cases hf : find k c.dict with
  | none => rfl
  | some e =>
    simp only [find_append]
    by_cases h : k' = k
    · subst h
      have : find k' (without k' c.dict) = none := by
        rw [find_none, ks_without]; exact List.Nodup.not_mem_erase hn
      simp [this, find, hf]
    · rw [find_without k k' _ h]
      have : ¬ k = k' := fun e => h e.symm
      simp [find, this]

theorem get_keys_perm (c : State K V) (k x : K) (hn : (ks c.dict).Nodup) :
    x ∈ ks (get c k).1.dict ↔ x ∈ ks c.dict := by
  rw [← find_isSome, ← find_isSome]
  have := find_get c k x hn
  cases h1 : find x (get c k).1.dict <;> cases h2 : find x c.dict <;> simp [h1, h2] at this ⊢

theorem lookup_sound (sizeOf : V → Nat) (m : Nat) (hm : 0 < m) (ops : List (Op K V)) (k : K) (v : V)
    (h : (run sizeOf (empty m) ops).lookup k = some v) : lastStore k ops = some v := by
  rw [lookup_eq] at h
  induction ops using List.reverseRecOn generalizing v with
  | nil => simp [run, empty, find] at h
  | append_singleton ops op ih =>
    have hinv := inv_run (V := V) sizeOf m hm ops
    rw [run_snoc] at h
    rw [lastStore_snoc]
    cases op with
    | clear => simp [step, clear, find] at h
    | get k' =>
      simp only [step] at h
      rw [find_get _ _ _ hinv.nodup] at h
      exact ih v h
    | store k' v' =>
      simp only [step] at h
      rw [Option.map_eq_some_iff] at h
      obtain ⟨e, he, rfl⟩ := h
      rcases find_store sizeOf _ k' k v' e hinv.nodup he with ⟨rfl, h | ⟨h, h'⟩⟩ | ⟨hne, h⟩
      · simp [h]
      · rw [h', hinv.maxsize] at h; simp at h; omega
      · have : ¬ k' = k := fun e => hne e.symm
        simp only [if_neg this]
        exact ih e.val (by rw [h]; rfl)

/-- No evictions while fewer distinct keys than the maximum size have been stored. -/
theorem lookup_complete (sizeOf : V → Nat) (m : Nat) (ops : List (Op K V))
    (hd : (storedKeys ops).dedup.length < m) :
    (∀ k, (run sizeOf (empty m) ops).lookup k = lastStore k ops) ∧
    (∀ x ∈ ks (run sizeOf (empty m) ops).dict, x ∈ storedKeys ops) := by
  induction ops using List.reverseRecOn with
  | nil => simp [run, empty, lookup_eq, find, lastStore]
  | append_singleton ops op ih =>
    have hm : 0 < m := by omega
    have hinv := inv_run (V := V) sizeOf m hm ops
    have hsk : storedKeys (ops ++ [op]) = storedKeys ops ++ storedKeys [op] := by
      simp [storedKeys]
    have hle : (storedKeys ops).dedup.length ≤ (storedKeys (ops ++ [op])).dedup.length := by
      apply List.Subperm.length_le
      apply List.Nodup.subperm (List.nodup_dedup _)
      intro x hx
      rw [List.mem_dedup] at hx ⊢
      rw [hsk]; simp [hx]
    obtain ⟨ih1, ih2⟩ := ih (by omega)
    have hlt : (run sizeOf (empty m) ops).dict.length < m := by
      have : (ks (run sizeOf (empty m) ops).dict).length ≤ (storedKeys ops).dedup.length := by
        apply List.Subperm.length_le
        apply List.Nodup.subperm hinv.nodup
        intro x hx
        rw [List.mem_dedup]; exact ih2 x hx
      simp only [List.length_map] at this
      omega
    rw [run_snoc]
    simp only [lastStore_snoc]
    cases op with
    | clear => simp [step, clear, lookup_eq, find]
    | get k' =>
      simp only [step]
      refine ⟨fun k => ?_, fun x hx => ?_⟩
      · rw [lookup_eq, find_get _ _ _ hinv.nodup, ← lookup_eq]; exact ih1 k
      · rw [get_keys_perm _ _ _ hinv.nodup] at hx
        rw [hsk]; simp [ih2 x hx]
    | store k' v' =>
      have hnf : ¬ (run sizeOf (empty m) ops).maxsize ≤ (run sizeOf (empty m) ops).dict.length := by
        rw [hinv.maxsize]; omega
      simp only [step, store, if_neg hnf]
      refine ⟨fun k => ?_, fun x hx => ?_⟩
      · rw [lookup_eq]
        simp only [find_assign]
        by_cases hk : k' = k
        · simp [hk]
        · rw [if_neg hk, if_neg hk, ← lookup_eq]; exact ih1 k
      · rw [← find_isSome, find_assign] at hx
        rw [hsk]
        by_cases hk : k' = x
        · simp [storedKeys, hk]
        · rw [if_neg hk, find_isSome] at hx
          simp [ih2 x hx]

/-! ### Recency -/

theorem lastUse_snoc (k : K) (ops : List (Op K V)) (op : Op K V) :
    lastUse k (ops ++ [op]) = if op.uses k then ops.length + 1 else lastUse k ops := by
  simp only [lastUse, List.reverse_append, List.reverse_cons, List.reverse_nil, List.nil_append,
    List.cons_append, List.findIdx_cons, List.length_append, List.length_cons, List.length_nil]
  cases h : op.uses k
  · simp
  · simp

theorem lastUse_le (k : K) (ops : List (Op K V)) : lastUse k ops ≤ ops.length := by
  simp [lastUse]

theorem recency (sizeOf : V → Nat) (m : Nat) (hm : 0 < m) (ops : List (Op K V))
    (hf : FreshStores sizeOf (empty m) ops) :
    (ks (run sizeOf (empty m) ops).dict).Pairwise (fun a b => lastUse a ops < lastUse b ops) := by
  induction ops using List.reverseRecOn with
  | nil => simp [run, empty]
  | append_singleton ops op ih =>
    have hinv := inv_run (V := V) sizeOf m hm ops
    have hf' : FreshStores sizeOf (empty m) ops := by
      intro pre k v post h
      exact hf pre k v (post ++ [op]) (by simp [h])
    have ih := ih hf'
    rw [run_snoc]
    have key : ∀ (l : List K) (k : K), op.uses k = true → (∀ x, x ≠ k → op.uses x = false) →
        k ∉ l → l.Pairwise (fun a b => lastUse a ops < lastUse b ops) →
        (l ++ [k]).Pairwise (fun a b => lastUse a (ops ++ [op]) < lastUse b (ops ++ [op])) := by
      intro l k hu hnu hk hl
      have hsame : ∀ x ∈ l, lastUse x (ops ++ [op]) = lastUse x ops := by
        intro x hx
        rw [lastUse_snoc, hnu x (by rintro rfl; exact hk hx)]; rfl
      rw [List.pairwise_append]
      refine ⟨?_, by simp, ?_⟩
      · apply hl.imp_of_mem
        intro a b ha hb hab
        rw [hsame a ha, hsame b hb]; exact hab
      · intro a ha b hb
        simp only [List.mem_singleton] at hb; subst hb
        rw [hsame a ha, lastUse_snoc, hu]
        have := lastUse_le a ops
        simp only [if_true]; omega
    cases op with
    | clear => simp [step, clear]
    | get k =>
      simp only [step, get]
      cases hfd : find k (run sizeOf (empty m) ops).dict with
      | none =>
        apply ih.imp_of_mem
        have hk := (find_none _ _).1 hfd
        intro a b ha hb hab
        rw [lastUse_snoc, lastUse_snoc]
        have h1 : ¬ k = a := by rintro rfl; exact hk ha
        have h2 : ¬ k = b := by rintro rfl; exact hk hb
        simpa [Op.uses, h1, h2] using hab
      | some e =>
        simp only [List.map_append, ks_without, List.map_cons, List.map_nil]
        apply key _ k (by simp [Op.uses])
        · intro x hx; simp only [Op.uses, decide_eq_false_iff_not]; exact fun e => hx e.symm
        · exact List.Nodup.not_mem_erase hinv.nodup
        · exact ih.sublist List.erase_sublist
    | store k v =>
      have hk : k ∉ ks (run sizeOf (empty m) ops).dict := hf ops k v [] rfl
      have hother : ∀ x, x ≠ k → (Op.store k v : Op K V).uses x = false := by
        intro x hx; simp only [Op.uses, decide_eq_false_iff_not]; exact fun e => hx e.symm
      simp only [step, store]
      split
      · rename_i hfull
        cases hd : (run sizeOf (empty m) ops).dict with
        | nil => rw [hinv.maxsize, hd] at hfull; simp at hfull; omega
        | cons p d =>
          rw [hd] at hk ih
          simp only [List.map_cons, List.mem_cons, not_or] at hk
          simp only [List.map_cons, List.pairwise_cons] at ih
          simp only []
          rw [assign_not_mem _ _ _ hk.2, ks, List.map_append]
          exact key _ k (by simp [Op.uses]) hother hk.2 ih.2
      · simp only []
        rw [assign_not_mem _ _ _ hk, ks, List.map_append]
        exact key _ k (by simp [Op.uses]) hother hk ih

/-! ### Counters -/

theorem counters (sizeOf : V → Nat) (c : State K V) (ops : List (Op K V)) (n : Nat)
    (h : c.hits = n) (a : Nat) (h2 : c.hits + c.misses = a) :
    (run sizeOf c ops).hits = foundLookups sizeOf c n ops ∧
    (run sizeOf c ops).hits + (run sizeOf c ops).misses = ops.foldl (fun n op => match op with
      | .get _ => n + 1
      | .store _ _ => n
      | .clear => 0) a := by
  induction ops generalizing c n a with
  | nil => exact ⟨h, h2⟩
  | cons op ops ih =>
    simp only [run, List.foldl_cons, foundLookups]
    have hst : ∀ k v, (store sizeOf c k v).1.hits = c.hits ∧
        (store sizeOf c k v).1.misses = c.misses := by
      intro k v
      simp only [store]
      split
      · cases c.dict <;> simp
      · simp
    apply ih
    · cases op with
      | clear => rfl
      | get k =>
        simp only [step, lookup_eq, get]
        cases find k c.dict <;> simp [h]
      | store k v => simp [step, hst, h]
    · cases op with
      | clear => rfl
      | get k =>
        simp only [step, get]
        cases find k c.dict <;> simp <;> omega
      | store k v => simp [step, hst, h2]

end Verif.Cache
