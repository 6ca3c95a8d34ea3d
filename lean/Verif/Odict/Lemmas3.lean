import Verif.Odict.Lemmas2
import Mathlib.Data.List.Range
import Mathlib.Data.List.Perm.Subperm

/-!
# What generators give, and sequences of operations
-/

namespace Verif.Odict

open Verif

section
variable {K V : Type}

theorem drain_seg (d : OD K V) (e : Nat) : ∀ (xs : List Nat) (a n : Nat), Seg d.heap a xs e → e ∉ xs → xs.length < n →
    drain (iterNext d) n (.at e a) = some (xs.map (fun i => (d.heap i).key)) := by
  intro xs
  induction xs with
  | nil =>
    intro a n hs _ hn
    obtain ⟨m, rfl⟩ : ∃ m, n = m + 1 := ⟨n - 1, by simp at hn; omega⟩
    simp only [Seg] at hs
    simp [drain, iterNext, hs.1]
  | cons x xs ih =>
    intro a n hs he hn
    obtain ⟨m, rfl⟩ : ∃ m, n = m + 1 := ⟨n - 1, by simp at hn; omega⟩
    simp only [Seg] at hs
    have hx : x ≠ e := fun h => he (by simp [h])
    have he' : e ∉ xs := fun h => he (by simp [h])
    have := ih x m hs.2.2 he' (by simp at hn; omega)
    simp [drain, iterNext, hs.1, hx, this]

theorem drain_rev (d : OD K V) (a : Nat) : ∀ (xs : List Nat) (b n : Nat), Seg d.heap a xs b → a ∉ xs → xs.length < n →
    drain (revNext d) n (.at a b) = some (xs.reverse.map (fun i => (d.heap i).key)) := by
  intro xs
  induction xs using List.reverseRecOn with
  | nil =>
    intro b n hs _ hn
    obtain ⟨m, rfl⟩ : ∃ m, n = m + 1 := ⟨n - 1, by simp at hn; omega⟩
    simp only [Seg] at hs
    simp [drain, revNext, hs.2]
  | append_singleton xs x ih =>
    intro b n hs he hn
    obtain ⟨m, rfl⟩ : ∃ m, n = m + 1 := ⟨n - 1, by simp at hn; omega⟩
    rw [seg_append] at hs
    have h2 := hs.2
    simp only [Seg] at h2
    have hx : x ≠ a := fun h => he (by simp [h])
    have he' : a ∉ xs := fun h => he (by simp [h])
    have := ih x m hs.1 he' (by simp at hn; omega)
    simp [drain, revNext, h2.2, hx, this]

theorem Rep.length_lt {d : OD K V} {t : List (Nat × K × V)} (r : Rep d t) : t.length < d.free + 1 := by
  have h : (t.map (·.1)).Subperm (List.range d.free) :=
    (List.nodup_cons.1 r.nd).2.subperm (by
      intro x hx
      exact List.mem_range.2 (r.lt x (List.mem_cons_of_mem _ hx)))
  have := h.length_le
  simp at this
  omega

theorem Rep.keys_map {d : OD K V} {t : List (Nat × K × V)} (r : Rep d t) :
    (t.map (·.1)).map (fun i => (d.heap i).key) = t.map (fun x => some x.2.1) := by
  rw [List.map_map]
  apply List.map_congr_left
  intro x hx
  exact r.key x hx

theorem Rep.keys {d : OD K V} {t : List (Nat × K × V)} (r : Rep d t) : keys d = some (t.map (fun x => some x.2.1)) := by
  have h := drain_seg d d.endN (t.map (·.1)) d.endN (d.free + 1) r.seg (List.nodup_cons.1 r.nd).1 (by
    rw [List.length_map]; exact r.length_lt)
  rw [r.keys_map] at h
  rw [← h]
  rfl

theorem Rep.revKeys {d : OD K V} {t : List (Nat × K × V)} (r : Rep d t) : revKeys d = some (t.reverse.map (fun x => some x.2.1)) := by
  have h := drain_rev d d.endN (t.map (·.1)) d.endN (d.free + 1) r.seg (List.nodup_cons.1 r.nd).1 (by
    rw [List.length_map]; exact r.length_lt)
  rw [List.map_reverse, r.keys_map, ← List.map_reverse] at h
  rw [← h]
  rfl

variable [DecidableEq K]

theorem mapM_some {A B : Type} (f : A → Option B) (g : A → B) (l : List A) (h : ∀ x ∈ l, f x = some (g x)) : l.mapM f = some (l.map g) := by
  induction l with
  | nil => rfl
  | cons a l ih =>
    rw [List.mapM_cons, h a (by simp), ih (fun x hx => h x (by simp [hx]))]
    rfl

theorem Rep.items {d : OD K V} {t : List (Nat × K × V)} (r : Rep d t) : items d = some (t.map (fun x => x.2)) := by
  unfold Odict.items
  rw [r.keys]
  simp only [Option.bind_some]
  have : ∀ s : List (Nat × K × V), (∀ x ∈ s, x ∈ t) → (s.map (fun x => some x.2.1)).mapM (item d) = some (s.map (fun x => x.2)) := by
    intro s
    induction s with
    | nil => intro _; rfl
    | cons a s ih =>
      intro hs
      have ha : item d (some a.2.1) = some a.2 := by
        unfold item
        have : bget a.2.1 d.dict = some a.2.2 := by
          rw [r.get, bget_iff (by rw [List.map_map]; exact r.kd)]
          exact List.mem_map.2 ⟨a, hs a (by simp), rfl⟩
        simp only [this]
        rfl
      rw [List.map_cons, List.mapM_cons, ha, ih (fun x hx => hs x (by simp [hx]))]
      rfl
  exact this t (fun x hx => hx)

theorem rep_update {d : OD K V} {t : List (Nat × K × V)} (r : Rep d t) (ps : List (K × V)) :
    ∃ t', Rep (update d ps) t' ∧ t'.map (fun x => x.2) = Spec.puts (t.map (fun x => x.2)) ps := by
  induction ps generalizing d t with
  | nil => exact ⟨t, r, rfl⟩
  | cons p ps ih =>
    obtain ⟨t1, r1, e1⟩ := rep_set r p.1 p.2
    obtain ⟨t2, r2, e2⟩ := ih r1
    exact ⟨t2, r2, by rw [e2, e1]; rfl⟩

theorem rep_pop {d : OD K V} {t : List (Nat × K × V)} (r : Rep d t) (k : K) (dflt : Option V) :
    (∃ v, bget k (t.map (fun x => x.2)) = some v ∧ (pop d k dflt).2 = .ok v ∧
      ∃ t', Rep (pop d k dflt).1 t' ∧ t'.map (fun x => x.2) = Spec.remove k (t.map (fun x => x.2))) ∨
    (bget k (t.map (fun x => x.2)) = none ∧ pop d k dflt = (d, match dflt with | none => .error .key | some v => .ok v)) := by
  rcases rep_delitem r k with ⟨v, hv, he, t', r', e'⟩ | ⟨hv, _⟩
  · left
    refine ⟨v, hv, ?_⟩
    have hp : pop d k dflt = ((delitem d k).1, .ok v) := by
      unfold pop
      rw [r.get, hv]
      simp only []
      cases hd : delitem d k with
      | mk a b =>
        rw [hd] at he
        simp only at he
        subst he
        rfl
    rw [hp]
    exact ⟨rfl, t', r', e'⟩
  · right
    refine ⟨hv, ?_⟩
    unfold pop
    rw [r.get, hv]
    rfl

omit [DecidableEq K] in
theorem first_next {d : OD K V} {x : Nat × K × V} {t : List (Nat × K × V)} (r : Rep d (x :: t)) :
    iterNext d .start = some (some x.2.1, .at d.endN x.1) := by
  have h := r.seg
  simp only [List.map_cons, Seg] at h
  have hx : x.1 ≠ d.endN := fun e => (List.nodup_cons.1 r.nd).1 (by simp [← e])
  unfold iterNext
  simp only [h.1, if_neg hx, r.key x (by simp)]

omit [DecidableEq K] in
theorem last_next {d : OD K V} {x : Nat × K × V} {t : List (Nat × K × V)} (r : Rep d (t ++ [x])) :
    revNext d .start = some (some x.2.1, .at d.endN x.1) := by
  have h := r.seg
  simp only [List.map_append, List.map_cons, List.map_nil] at h
  rw [seg_append] at h
  have h := h.2
  simp only [Seg] at h
  have hx : x.1 ≠ d.endN := fun e => (List.nodup_cons.1 r.nd).1 (by simp [← e])
  unfold revNext
  simp only [h.2, if_neg hx, r.key x (by simp)]

theorem rep_popitem {d : OD K V} {t : List (Nat × K × V)} (r : Rep d t) (last : Bool) :
    (∃ p, Spec.pick last (t.map (fun x => x.2)) = some p ∧ (popitem d last).2 = .ok p ∧
      ∃ t', Rep (popitem d last).1 t' ∧ t'.map (fun x => x.2) = Spec.remove p.1 (t.map (fun x => x.2))) ∨
    (Spec.pick last (t.map (fun x => x.2)) = none ∧ popitem d last = (d, .error .key)) := by
  have key : ∀ x : Nat × K × V, x ∈ t → ∀ it, (if last then revNext d .start else iterNext d .start) = some (some x.2.1, it) →
      (popitem d last).2 = .ok x.2 ∧
      ∃ t', Rep (popitem d last).1 t' ∧ t'.map (fun x => x.2) = Spec.remove x.2.1 (t.map (fun x => x.2)) := by
    intro x hx it hit
    have hne : d.dict.isEmpty = false := by
      have := r.len
      cases hd : d.dict with
      | nil =>
        rw [hd] at this
        cases t with
        | nil => cases hx
        | cons _ _ => simp at this
      | cons _ _ => rfl
    rcases rep_pop r x.2.1 none with ⟨v, hv, he, t', r', e'⟩ | ⟨hv, _⟩
    · have hvx : v = x.2.2 := by
        have : bget x.2.1 (t.map (fun x => x.2)) = some x.2.2 := by
          rw [bget_iff (by rw [List.map_map]; exact r.kd)]
          exact List.mem_map.2 ⟨x, hx, rfl⟩
        rw [this] at hv
        cases hv; rfl
      have hp : popitem d last = ((pop d x.2.1 none).1, .ok x.2) := by
        unfold popitem
        rw [hne, hit]
        simp only [Bool.false_eq_true, if_false]
        cases hd : pop d x.2.1 none with
        | mk a b =>
          rw [hd] at he
          simp only at he
          subst he
          subst hvx
          rfl
      rw [hp]
      exact ⟨rfl, t', r', e'⟩
    · rw [bget_none, List.map_map] at hv
      exact absurd (List.mem_map.2 ⟨x, hx, rfl⟩) hv
  have empty : t = [] → popitem d last = (d, .error .key) := by
    rintro rfl
    have : d.dict = [] := List.eq_nil_of_length_eq_zero r.len
    unfold popitem
    rw [this]
    rfl
  cases last with
  | true =>
    induction t using List.reverseRecOn with
    | nil => exact Or.inr ⟨rfl, empty rfl⟩
    | append_singleton t x _ =>
      left
      refine ⟨x.2, ?_, key x (by simp) _ (by rw [if_pos rfl]; exact last_next r)⟩
      simp [Spec.pick]
  | false =>
    cases t with
    | nil => exact Or.inr ⟨rfl, empty rfl⟩
    | cons x t =>
      left
      refine ⟨x.2, ?_, key x (by simp) _ (by rw [if_neg (by simp)]; exact first_next r)⟩
      simp [Spec.pick]

/-- One operation. -/
theorem rep_step {d : OD K V} {t : List (Nat × K × V)} (r : Rep d t) (o : Op K V) :
    (step d o).2 = (Spec.step (t.map (fun x => x.2)) o).2 ∧
    ∃ t', Rep (step d o).1 t' ∧ t'.map (fun x => x.2) = (Spec.step (t.map (fun x => x.2)) o).1 := by
  cases o with
  | set k v => exact ⟨rfl, rep_set r k v⟩
  | del k =>
    rcases rep_delitem r k with ⟨v, hv, he, t', r', e'⟩ | ⟨hv, he⟩
    · simp only [step, Spec.step, value_eq, hv, Option.isSome_some, if_true]
      cases hd : delitem d k with
      | mk a b =>
        rw [hd] at he r'
        simp only at he r'
        subst he
        exact ⟨rfl, t', r', e'⟩
    · simp only [step, Spec.step, value_eq, hv, he]
      exact ⟨rfl, t, r, rfl⟩
  | get k =>
    simp only [step, Spec.step, value_eq, r.get]
    cases bget k (t.map (fun x => x.2)) with
    | none => exact ⟨rfl, t, r, rfl⟩
    | some v => exact ⟨rfl, t, r, rfl⟩
  | pop k dflt =>
    rcases rep_pop r k dflt with ⟨v, hv, he, t', r', e'⟩ | ⟨hv, he⟩
    · simp only [step, Spec.step, value_eq, hv]
      cases hd : pop d k dflt with
      | mk a b =>
        rw [hd] at he r'
        simp only at he r'
        subst he
        exact ⟨rfl, t', r', e'⟩
    · simp only [step, Spec.step, value_eq, hv, he]
      cases dflt with
      | none => exact ⟨rfl, t, r, rfl⟩
      | some v => exact ⟨rfl, t, r, rfl⟩
  | popitem last =>
    rcases rep_popitem r last with ⟨p, hv, he, t', r', e'⟩ | ⟨hv, he⟩
    · simp only [step, Spec.step, hv]
      cases hd : popitem d last with
      | mk a b =>
        rw [hd] at he r'
        simp only at he r'
        subst he
        exact ⟨rfl, t', r', e'⟩
    · simp only [step, Spec.step, hv, he]
      exact ⟨trivial, t, r, rfl⟩
  | setdefault k v =>
    simp only [step, Spec.step, setdefault, value_eq, r.get]
    cases bget k (t.map (fun x => x.2)) with
    | none => exact ⟨rfl, rep_set r k v⟩
    | some v' => exact ⟨rfl, t, r, rfl⟩
  | update ps => exact ⟨rfl, rep_update r ps⟩
  | clear => exact ⟨rfl, [], rep_clear d, rfl⟩

/-- A sequence of operations. -/
theorem rep_run {d : OD K V} {t : List (Nat × K × V)} (r : Rep d t) (os : List (Op K V)) :
    (run d os).2 = (Spec.run (t.map (fun x => x.2)) os).2 ∧
    ∃ t', Rep (run d os).1 t' ∧ t'.map (fun x => x.2) = (Spec.run (t.map (fun x => x.2)) os).1 := by
  induction os generalizing d t with
  | nil => exact ⟨rfl, t, r, rfl⟩
  | cons o os ih =>
    obtain ⟨h1, t1, r1, e1⟩ := rep_step r o
    obtain ⟨h2, t2, r2, e2⟩ := ih r1
    simp only [run, Spec.run]
    rw [e1] at h2 e2
    exact ⟨by rw [h1, h2], t2, r2, e2⟩

theorem put_new {l : List (K × V)} {k : K} (v : V) (h : k ∉ l.map Prod.fst) : Spec.put k v l = l ++ [(k, v)] := by
  unfold Spec.put
  rw [any_eq, (bget_none k l).2 h]
  rfl

/-- Items with different keys put in give themselves. -/
theorem puts_nodup (l m : List (K × V)) (h : ((l ++ m).map Prod.fst).Nodup) : Spec.puts l m = l ++ m := by
  induction m generalizing l with
  | nil => simp [Spec.puts]
  | cons p m ih =>
    have hk : p.1 ∉ l.map Prod.fst := by
      rw [List.map_append, List.map_cons, List.nodup_append] at h
      intro hc
      exact h.2.2 _ hc _ (by simp) rfl
    have := ih (l ++ [p]) (by simpa using h)
    unfold Spec.puts at this ⊢
    rw [List.foldl_cons, put_new p.2 hk, this]
    simp

/-- A dictionary made of items. -/
theorem rep_new (l : List (K × V)) (h : (l.map Prod.fst).Nodup) : ∃ t, Rep (new l) t ∧ t.map (fun x => x.2) = l := by
  obtain ⟨t, r, e⟩ := rep_update (rep_clear (blank : OD K V)) l
  refine ⟨t, r, ?_⟩
  rw [e]
  exact (puts_nodup [] l (by simpa using h)).trans (by simp)

/-- The loop that removes keys it has been given: from the place before `rest`. -/
theorem loop_rest (P : K → Bool) : ∀ (rest a : List (Nat × K × V)) (d : OD K V) (c n : Nat), Rep d (a ++ rest) →
    (d.heap c).next = (rest.map (·.1) ++ [d.endN]).head (by simp) → rest.length < n →
    ∃ d', loopDel (fun k => if P k then [k] else []) n d (.at d.endN c) = some (rest.map (fun x => some x.2.1), d') ∧
      Rep d' (a ++ rest.filter (fun x => !P x.2.1)) := by
  intro rest
  induction rest with
  | nil =>
    intro a d c n r hc hn
    obtain ⟨m, rfl⟩ : ∃ m, n = m + 1 := ⟨n - 1, by simp at hn; omega⟩
    refine ⟨d, ?_, by simpa using r⟩
    simp only [List.map_nil, List.nil_append, List.head_cons] at hc
    simp [loopDel, iterNext, hc]
  | cons x rest ih =>
    intro a d c n r hc hn
    obtain ⟨m, rfl⟩ : ∃ m, n = m + 1 := ⟨n - 1, by simp at hn; omega⟩
    simp only [List.map_cons, List.cons_append, List.head_cons] at hc
    have hx : x.1 ≠ d.endN := fun e => (List.nodup_cons.1 r.nd).1 (by simp [← e])
    have hs := r.seg
    rw [List.map_append, List.map_cons, seg_append] at hs
    have hit : iterNext d (.at d.endN c) = some (some x.2.1, .at d.endN x.1) := by
      unfold iterNext
      simp only [hc, if_neg hx, r.key x (by simp)]
    by_cases hP : P x.2.1 = true
    · obtain ⟨-, r', he, -, hh⟩ := rep_del r
      have hnx : ((delitem d x.2.1).1.heap x.1).next = (d.heap x.1).next := by
        rw [hh, setPrev_next, setNext_next, if_neg]
        intro e
        have hm : (d.heap x.1).prev ∈ d.endN :: a.map (·.1) := by rw [seg_prev hs.1]; exact List.getLast_mem _
        rw [← e] at hm
        have hnd := r.nd
        rw [List.map_append, List.map_cons, ← List.cons_append, List.nodup_append] at hnd
        exact hnd.2.2 _ hm _ (by simp) rfl
      obtain ⟨d', h1, h2⟩ := ih a (delitem d x.2.1).1 x.1 m r' (by rw [hnx, seg_next hs.2]; simp only [he]) (by simp at hn; omega)
      refine ⟨d', ?_, ?_⟩
      · rw [he] at h1
        simp only [loopDel, hit, hP, if_true, List.foldl_cons, List.foldl_nil, h1]
        rfl
      · rw [List.filter_cons_of_neg (by simp [hP])]
        exact h2
    · obtain ⟨d', h1, h2⟩ := ih (a ++ [x]) d x.1 m (by simpa using r) (seg_next hs.2) (by simp at hn; omega)
      refine ⟨d', ?_, ?_⟩
      · simp only [loopDel, hit, hP, Bool.false_eq_true, if_false, List.foldl_nil, h1]
        rfl
      · rw [List.filter_cons_of_pos (by simp [hP])]
        simpa using h2

end

end Verif.Odict
