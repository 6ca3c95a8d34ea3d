import Verif.Odict.Lemmas

/-!
# Every operation does to the linked list what it should do to the list of items
-/

namespace Verif.Odict

open Verif

section
variable {K V : Type} [DecidableEq K]

theorem bget_iff {A : Type} {l : List (K × A)} (h : (l.map Prod.fst).Nodup) (k : K) (a : A) : bget k l = some a ↔ (k, a) ∈ l := by
  induction l with
  | nil => simp [bget]
  | cons p l ih =>
    obtain ⟨k', a'⟩ := p
    simp only [List.map_cons, List.nodup_cons] at h
    unfold bget
    by_cases hk : k' = k
    · subst hk
      rw [if_pos rfl]
      constructor
      · intro e; cases e; simp
      · intro e
        rcases List.mem_cons.1 e with e | e
        · cases e; rfl
        · exact absurd (List.mem_map.2 ⟨_, e, rfl⟩) h.1
    · rw [if_neg hk, ih h.2]
      constructor
      · intro e; exact List.mem_cons_of_mem _ e
      · intro e
        rcases List.mem_cons.1 e with e | e
        · cases e; exact absurd rfl hk
        · exact e

theorem bget_perm {A : Type} {l l' : List (K × A)} (hp : l.Perm l') (h : (l'.map Prod.fst).Nodup) (k : K) : bget k l = bget k l' := by
  have h' : (l.map Prod.fst).Nodup := (hp.map Prod.fst).nodup_iff.2 h
  apply Option.ext
  intro a
  rw [bget_iff h', bget_iff h, hp.mem_iff]

theorem bget_none {A : Type} (k : K) (l : List (K × A)) : bget k l = none ↔ k ∉ l.map Prod.fst := by
  induction l with
  | nil => simp [bget]
  | cons p l ih =>
    unfold bget
    by_cases hk : p.1 = k
    · simp [hk]
    · simp [hk, ih, Ne.symm hk]

theorem bget_isSome {A : Type} (k : K) (l : List (K × A)) : (bget k l).isSome = true ↔ k ∈ l.map Prod.fst := by
  have := bget_none k l
  cases h : bget k l with
  | none => simp only [Option.isSome_none]; rw [this] at h; simp [h]
  | some a =>
    rw [h] at this
    simp only [Option.isSome_some, true_iff]
    by_contra hc
    exact absurd (this.2 hc) (by simp)

theorem value_eq (k : K) (l : List (K × V)) : Spec.value k l = bget k l := by
  induction l with
  | nil => rfl
  | cons p l ih =>
    unfold Spec.value at ih ⊢
    unfold bget
    rw [List.find?_cons]
    by_cases hk : p.1 = k
    · simp [hk]
    · simp only [hk, decide_false, if_false]
      exact ih

theorem any_eq (k : K) (l : List (K × V)) : l.any (fun p => decide (p.1 = k)) = (bget k l).isSome := by
  induction l with
  | nil => rfl
  | cons p l ih =>
    unfold bget
    by_cases hk : p.1 = k
    · simp [hk]
    · simp [hk, ih]

/-- The cells hold the items `t`: address, key, value. -/
structure Rep (d : OD K V) (t : List (Nat × K × V)) : Prop where
  seg : Seg d.heap d.endN (t.map (·.1)) d.endN
  nd : (d.endN :: t.map (·.1)).Nodup
  lt : ∀ x ∈ d.endN :: t.map (·.1), x < d.free
  key : ∀ x ∈ t, (d.heap x.1).key = some x.2.1
  kd : (t.map (fun x => x.2.1)).Nodup
  map : d.map.Perm (t.map (fun x => (x.2.1, x.1)))
  dict : d.dict.Perm (t.map (fun x => x.2))

theorem Rep.get {d : OD K V} {t : List (Nat × K × V)} (r : Rep d t) (k : K) : bget k d.dict = bget k (t.map (fun x => x.2)) := by
  apply bget_perm r.dict
  rw [List.map_map]
  exact r.kd

theorem Rep.getMap {d : OD K V} {t : List (Nat × K × V)} (r : Rep d t) (k : K) :
    bget k d.map = bget k (t.map (fun x => (x.2.1, x.1))) := by
  apply bget_perm r.map
  rw [List.map_map]
  exact r.kd

omit [DecidableEq K] in
theorem Rep.len {d : OD K V} {t : List (Nat × K × V)} (r : Rep d t) : d.dict.length = t.length := by
  rw [r.dict.length_eq, List.length_map]

omit [DecidableEq K] in
theorem rep_clear (d : OD K V) : Rep (clear d) [] := by
  constructor <;> simp [clear, Seg]

theorem bset_perm_new {A : Type} {l l' : List (K × A)} (hp : l.Perm l') {k : K} (a : A) (h : (bget k l).isSome = false) :
    (bset k a l).Perm (l' ++ [(k, a)]) := by
  unfold bset
  rw [h]
  simp only [Bool.false_eq_true, if_false]
  exact (List.Perm.cons _ hp).trans (List.perm_append_singleton (k, a) l').symm

theorem rep_set_old {d : OD K V} {t : List (Nat × K × V)} (r : Rep d t) {k : K} (v : V) (h : (bget k d.dict).isSome = true) :
    Rep (setitem d k v) (t.map (fun x => if x.2.1 = k then (x.1, k, v) else x)) := by
  unfold setitem
  rw [if_pos h]
  have e1 : (t.map (fun x => if x.2.1 = k then (x.1, k, v) else x)).map (·.1) = t.map (·.1) := by
    rw [List.map_map]; apply List.map_congr_left; intro x _; simp only [Function.comp]; split <;> rfl
  have e2 : (t.map (fun x => if x.2.1 = k then (x.1, k, v) else x)).map (fun x => x.2.1) = t.map (fun x => x.2.1) := by
    rw [List.map_map]; apply List.map_congr_left; intro x _; simp only [Function.comp]; split
    · next h => exact h.symm
    · rfl
  have e3 : (t.map (fun x => if x.2.1 = k then (x.1, k, v) else x)).map (fun x => (x.2.1, x.1)) = t.map (fun x => (x.2.1, x.1)) := by
    rw [List.map_map]; apply List.map_congr_left; intro x _; simp only [Function.comp]; split
    · next h => rw [h]
    · rfl
  have e4 : (t.map (fun x => if x.2.1 = k then (x.1, k, v) else x)).map (fun x => x.2) =
      (t.map (fun x => x.2)).map (fun p => if p.1 = k then (k, v) else p) := by
    rw [List.map_map, List.map_map]; apply List.map_congr_left; intro x _; simp only [Function.comp]; split <;> rfl
  refine ⟨?_, ?_, ?_, ?_, ?_, ?_, ?_⟩
  · rw [e1]; exact r.seg
  · rw [e1]; exact r.nd
  · rw [e1]; exact r.lt
  · intro x hx
    obtain ⟨y, hy, rfl⟩ := List.mem_map.1 hx
    have := r.key y hy
    simp only []
    split
    · next h => rw [this, h]
    · exact this
  · rw [e2]; exact r.kd
  · rw [e3]; exact r.map
  · rw [e4]
    simp only [bset, h, if_true]
    exact r.dict.map _

theorem rep_set_new {d : OD K V} {t : List (Nat × K × V)} (r : Rep d t) {k : K} (v : V) (h : (bget k d.dict).isSome = false) :
    Rep (setitem d k v) (t ++ [(d.free, k, v)]) := by
  have hf : d.free ∉ d.endN :: t.map (·.1) := fun hc => Nat.lt_irrefl _ (r.lt _ hc)
  have hk : k ∉ t.map (fun x => x.2.1) := by
    intro hc
    rw [r.get] at h
    have : (bget k (t.map (fun x => x.2))).isSome = true := by
      rw [bget_isSome, List.map_map]; exact hc
    rw [this] at h; cases h
  unfold setitem
  rw [if_neg (by rw [h]; simp)]
  refine ⟨?_, ?_, ?_, ?_, ?_, ?_, ?_⟩
  · rw [List.map_append]
    exact seg_insert r.seg r.nd hf
  · simp only [List.map_append, List.map_cons, List.map_nil]
    have := r.nd
    rw [← List.cons_append, List.nodup_append]
    refine ⟨this, by simp, ?_⟩
    intro x hx y hy
    simp only [List.mem_singleton] at hy
    rintro rfl
    exact hf (hy ▸ hx)
  · intro x hx
    simp only [List.map_append, List.map_cons, List.map_nil] at hx
    rw [← List.cons_append, List.mem_append] at hx
    rcases hx with hx | hx
    · exact Nat.lt_succ_of_lt (r.lt x hx)
    · simp only [List.mem_singleton] at hx
      exact hx ▸ Nat.lt_succ_self _
  · intro x hx
    simp only [setPrev_key, setNext_key]
    rcases List.mem_append.1 hx with hx | hx
    · have : x.1 ≠ d.free := fun e => hf (e ▸ List.mem_cons_of_mem _ (List.mem_map.2 ⟨x, hx, rfl⟩))
      rw [if_neg this]
      exact r.key x hx
    · simp only [List.mem_singleton] at hx
      subst hx
      simp
  · rw [List.map_append, List.nodup_append]
    refine ⟨r.kd, by simp, ?_⟩
    intro x hx y hy
    simp only [List.map_cons, List.map_nil, List.mem_singleton] at hy
    rintro rfl
    exact hk (hy ▸ hx)
  · rw [List.map_append]
    apply bset_perm_new r.map
    rw [r.getMap]
    have : bget k (t.map (fun x => (x.2.1, x.1))) = none := by
      rw [bget_none, List.map_map]; exact hk
    rw [this]; rfl
  · rw [List.map_append]
    exact bset_perm_new r.dict v h

theorem put_items (t : List (Nat × K × V)) (k : K) (v : V) (n : Nat) :
    (if (bget k (t.map (fun x => x.2))).isSome then t.map (fun x => if x.2.1 = k then (x.1, k, v) else x) else t ++ [(n, k, v)]).map
      (fun x => x.2) = Spec.put k v (t.map (fun x => x.2)) := by
  unfold Spec.put
  rw [any_eq]
  split
  · rw [List.map_map, List.map_map]; apply List.map_congr_left; intro x _; simp only [Function.comp]; split <;> rfl
  · rw [List.map_append]; rfl

/-- Assignment. -/
theorem rep_set {d : OD K V} {t : List (Nat × K × V)} (r : Rep d t) (k : K) (v : V) :
    ∃ t', Rep (setitem d k v) t' ∧ t'.map (fun x => x.2) = Spec.put k v (t.map (fun x => x.2)) := by
  refine ⟨_, ?_, put_items t k v d.free⟩
  by_cases h : (bget k (t.map (fun x => x.2))).isSome = true
  · rw [if_pos h]; exact rep_set_old r v (by rw [r.get]; exact h)
  · rw [if_neg h]; exact rep_set_new r v (by rw [r.get]; simpa using h)

omit [DecidableEq K] in
/-- The place of a key. -/
theorem split_at {t : List (Nat × K × V)} {x : Nat × K × V} (hx : x ∈ t) : ∃ a b, t = a ++ x :: b := List.append_of_mem hx

/-- Without the key: without its item. -/
theorem filter_split {a b : List (Nat × K × V)} {x : Nat × K × V} (h : ((a ++ x :: b).map (fun x => x.2.1)).Nodup) :
    (a ++ x :: b).filter (fun y => !decide (y.2.1 = x.2.1)) = a ++ b := by
  rw [List.map_append, List.map_cons, List.nodup_append] at h
  obtain ⟨_, h2, h3⟩ := h
  rw [List.nodup_cons] at h2
  rw [List.filter_append, List.filter_cons_of_neg (by simp)]
  congr 1
  · rw [List.filter_eq_self]
    intro y hy
    have := h3 y.2.1 (List.mem_map.2 ⟨y, hy, rfl⟩) x.2.1 (by simp)
    simpa using this
  · rw [List.filter_eq_self]
    intro y hy
    have : y.2.1 ≠ x.2.1 := fun e => h2.1 (List.mem_map.2 ⟨y, hy, e⟩)
    simpa using this

/-- Removal of a key that is there: the heap after it, and the items. -/
theorem rep_del {d : OD K V} {a b : List (Nat × K × V)} {x : Nat × K × V} (r : Rep d (a ++ x :: b)) :
    (delitem d x.2.1).2 = none ∧ Rep (delitem d x.2.1).1 (a ++ b) ∧ (delitem d x.2.1).1.endN = d.endN ∧
      (delitem d x.2.1).1.free = d.free ∧
      (delitem d x.2.1).1.heap =
        setPrev (setNext d.heap (d.heap x.1).prev (d.heap x.1).next) (d.heap x.1).next (d.heap x.1).prev := by
  have hin : x ∈ a ++ x :: b := by simp
  have hg : bget x.2.1 d.dict = some x.2.2 := by
    rw [r.get, bget_iff (by rw [List.map_map]; exact r.kd)]
    exact List.mem_map.2 ⟨x, hin, rfl⟩
  have hm : bget x.2.1 d.map = some x.1 := by
    rw [r.getMap, bget_iff (by rw [List.map_map]; exact r.kd)]
    exact List.mem_map.2 ⟨x, hin, rfl⟩
  unfold delitem
  rw [hg, hm]
  simp only [Option.isSome_some, if_true]
  refine ⟨trivial, ?_, trivial, trivial, trivial⟩
  have hsub : (a ++ b).Sublist (a ++ x :: b) := List.Sublist.append_left (List.sublist_cons_self x b) a
  refine ⟨?_, ?_, ?_, ?_, ?_, ?_, ?_⟩
  · have hs := r.seg
    have hn := r.nd
    rw [List.map_append, List.map_cons] at hs hn
    rw [List.map_append]
    exact seg_delete hs hn
  · exact List.Nodup.sublist (List.Sublist.cons_cons _ (hsub.map _)) r.nd
  · intro y hy
    exact r.lt y ((List.Sublist.cons_cons _ (hsub.map _)).subset hy)
  · intro y hy
    simp only [setPrev_key, setNext_key]
    exact r.key y (hsub.subset hy)
  · exact List.Nodup.sublist (hsub.map _) r.kd
  · have h1 : (bdel x.2.1 d.map).Perm (bdel x.2.1 ((a ++ x :: b).map (fun x => (x.2.1, x.1)))) := r.map.filter _
    refine h1.trans ?_
    have : bdel x.2.1 ((a ++ x :: b).map (fun x => (x.2.1, x.1))) = (a ++ b).map (fun x => (x.2.1, x.1)) := by
      unfold bdel
      rw [List.filter_map, ← filter_split r.kd]
      rfl
    rw [this]
  · have h1 : (bdel x.2.1 d.dict).Perm (bdel x.2.1 ((a ++ x :: b).map (fun x => x.2))) := r.dict.filter _
    refine h1.trans ?_
    have : bdel x.2.1 ((a ++ x :: b).map (fun x => x.2)) = (a ++ b).map (fun x => x.2) := by
      unfold bdel
      rw [List.filter_map, ← filter_split r.kd]
      rfl
    rw [this]

theorem remove_split {a b : List (Nat × K × V)} {x : Nat × K × V} (h : ((a ++ x :: b).map (fun x => x.2.1)).Nodup) :
    Spec.remove x.2.1 ((a ++ x :: b).map (fun x => x.2)) = (a ++ b).map (fun x => x.2) := by
  unfold Spec.remove
  rw [List.filter_map, ← filter_split h]
  rfl

omit [DecidableEq K] in
/-- Where a key with a value is. -/
theorem find_split [DecidableEq K] {t : List (Nat × K × V)} (hk : (t.map (fun x => x.2.1)).Nodup) {k : K} {v : V}
    (h : bget k (t.map (fun x => x.2)) = some v) : ∃ a n b, t = a ++ (n, k, v) :: b := by
  rw [bget_iff (by rw [List.map_map]; exact hk)] at h
  obtain ⟨x, hx, e⟩ := List.mem_map.1 h
  obtain ⟨a, b, hab⟩ := split_at hx
  obtain ⟨n, k', v'⟩ := x
  simp only [Prod.mk.injEq] at e
  obtain ⟨rfl, rfl⟩ := e
  exact ⟨a, n, b, hab⟩

/-- Removal. -/
theorem rep_delitem {d : OD K V} {t : List (Nat × K × V)} (r : Rep d t) (k : K) :
    (∃ v, bget k (t.map (fun x => x.2)) = some v ∧ (delitem d k).2 = none ∧
      ∃ t', Rep (delitem d k).1 t' ∧ t'.map (fun x => x.2) = Spec.remove k (t.map (fun x => x.2))) ∨
    (bget k (t.map (fun x => x.2)) = none ∧ delitem d k = (d, some .key)) := by
  cases h : bget k (t.map (fun x => x.2)) with
  | none =>
    refine Or.inr ⟨rfl, ?_⟩
    unfold delitem
    rw [r.get, h]
    simp
  | some v =>
    obtain ⟨a, n, b, rfl⟩ := find_split r.kd h
    refine Or.inl ⟨v, rfl, (rep_del r).1, a ++ b, (rep_del r).2.1, ?_⟩
    rw [← remove_split r.kd]

end

end Verif.Odict
