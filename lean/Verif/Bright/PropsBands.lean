import Verif.Bright.BandLemmas
import Mathlib.Data.List.Perm.Subperm

/-!
# C87: brightnesses in several bands; C60 for them
-/

namespace Verif.Bright

open Verif

variable {α β : Type}

/-- Specification: the objects a program can have, with the class at that time: constructed with distinct keywords, after other
objects were constructed, bands, all values or flags set, or read from a pickle by a process whose class is in any state. -/
inductive Reach : Cls → MB α → Prop
  | new {c kwargs order c' o} : (kwargs.map Prod.fst).Nodup → mk c kwargs order = (c', .ok o) → Reach c' o
  | other {c o} (kwargs : List (String × α)) (order : Option (List String)) : Reach c o → Reach (mk c kwargs order).1 o
  | set {c o} (b : String) (v : α) : Reach c o → Reach c (setBand c o b v).1
  | vals {c o} (l : List α) : l.length = o.vals.length → Reach c o → Reach c { o with vals := l }
  | flags {c o} (l : List Bool) : l.length = o.liquid.length → Reach c o → Reach c { o with liquid := l }
  | pickle {c o} (c' : Cls) : Reach c o → Reach (unpickle c' o).1 (unpickle c' o).2

theorem perm_of (keys order : List String) (hn : keys.Nodup) (hl : keys.length = order.length)
    (h : ∀ k ∈ keys, k ∈ order) : order.Perm keys :=
  ((hn.subperm h).perm_of_length_le hl.symm.le).symm

theorem mapM_some (l : List String) (f : String → Except PyErr α) (h : ∀ k ∈ l, ∃ v, f k = .ok v) :
    ∃ vs, l.mapM f = .ok vs ∧ vs.length = l.length ∧ ∀ (i : Nat) (k : String) (v : α), l[i]? = some k → f k = .ok v → vs[i]? = some v := by
  induction l with
  | nil => exact ⟨[], rfl, rfl, by simp⟩
  | cons x t ih =>
    obtain ⟨vs, h1, h2, h3⟩ := ih (fun k hk => h k (by simp [hk]))
    obtain ⟨v, hv⟩ := h x (by simp)
    refine ⟨v :: vs, ?_, by simp [h2], fun i k w hi hw => ?_⟩
    · rw [List.mapM_cons, hv, h1]; rfl
    · cases i with
      | zero => simp only [List.getElem?_cons_zero, Option.some.injEq] at hi ⊢; subst hi; rw [hv] at hw; injection hw
      | succ i => simp only [List.getElem?_cons_succ] at hi ⊢; exact h3 i k w hi hw

/-- What the constructor does with a given order. -/
theorem mk_cases (c : Cls) (kwargs : List (String × α)) (order : List String) (hn : (kwargs.map Prod.fst).Nodup) :
    (order.Perm (kwargs.map Prod.fst) → ∃ vs, vs.length = order.length ∧
      (∀ (i : Nat) (k : String) (v : α), order[i]? = some k → kwargs.lookup k = some v → vs[i]? = some v) ∧
      mk c kwargs (some order) = (c.addNames order, .ok ⟨order, vs, List.replicate order.length true, []⟩)) ∧
    (¬ order.Perm (kwargs.map Prod.fst) → mk c kwargs (some order) = (c, .error .assertion)) := by
  constructor
  · intro hp
    obtain ⟨vs, h1, h2, h3⟩ := mapM_some order (kw kwargs) (fun k hk => by
      obtain ⟨v, hv⟩ := lookup_mem kwargs k (hp.mem_iff.mp hk)
      exact ⟨v, by simp [kw, hv]⟩)
    refine ⟨vs, h2, fun i k v hi hv => h3 i k v hi (by simp [kw, hv]), ?_⟩
    unfold mk
    simp only
    rw [if_neg (by simpa using hp.length_eq.symm), if_neg, h1]
    · simp [h2]
    · simp only [Bool.not_eq_true', Bool.not_eq_false, Bool.and_eq_true, List.all_eq_true, List.contains_eq_mem, decide_eq_true_eq]
      exact ⟨fun k hk => hp.mem_iff.mp hk, fun k hk => hp.mem_iff.mpr hk⟩
  · intro hp
    unfold mk
    simp only
    by_cases hl : kwargs.length = order.length
    · rw [if_neg (by simp [hl]), if_pos]
      by_contra hc
      simp only [Bool.not_eq_true', Bool.not_eq_false, Bool.and_eq_true, List.all_eq_true, List.contains_eq_mem, decide_eq_true_eq] at hc
      exact hp (perm_of _ _ hn (by simpa using hl) hc.2)
    · rw [if_pos hl]

/-- The order without argument. -/
theorem mk_none (c : Cls) (kwargs : List (String × α)) :
    mk c kwargs none = mk c kwargs (some ((kwargs.map Prod.fst).insertionSort (fun a b => a ≤ b))) := rfl

theorem mk_wf {c c' : Cls} {kwargs : List (String × α)} {order : Option (List String)} {o : MB α}
    (hn : (kwargs.map Prod.fst).Nodup) (h : mk c kwargs order = (c', .ok o)) : WF c' o := by
  obtain ⟨l, hl⟩ : ∃ l, mk c kwargs order = mk c kwargs (some l) := by
    cases order with
    | none => exact ⟨_, mk_none c kwargs⟩
    | some l => exact ⟨l, rfl⟩
  rw [hl] at h
  by_cases hp : l.Perm (kwargs.map Prod.fst)
  · obtain ⟨vs, h1, -, h2⟩ := (mk_cases c kwargs l hn).1 hp
    rw [h2] at h
    simp only [Prod.mk.injEq, Except.ok.injEq] at h
    obtain ⟨rfl, rfl⟩ := h
    exact wf_new c l vs h1 (hp.nodup_iff.mpr hn)
  · rw [(mk_cases c kwargs l hn).2 hp] at h
    simp at h

/-- The class only grows. -/
theorem mk_props (c : Cls) (kwargs : List (String × α)) (order : Option (List String)) (b : String) (hb : b ∈ c.props) :
    b ∈ (mk c kwargs order).1.props := by
  obtain ⟨l, hl⟩ : ∃ l, mk c kwargs order = mk c kwargs (some l) := by
    cases order with
    | none => exact ⟨_, mk_none c kwargs⟩
    | some l => exact ⟨l, rfl⟩
  rw [hl]
  unfold mk
  simp only
  split
  · exact hb
  · split
    · exact hb
    · split
      · exact hb
      · exact (mem_addNames _ _ _).mpr (.inl hb)

theorem setBand_shape (c : Cls) (o : MB α) (b : String) (v : α) : (setBand c o b v).1.order = o.order ∧
    (setBand c o b v).1.vals.length = o.vals.length ∧ (setBand c o b v).1.liquid = o.liquid := by
  unfold setBand
  split
  · split
    · split <;> simp
    · simp
  · simp

theorem Reach.wf {c : Cls} {o : MB α} (h : Reach c o) : WF c o := by
  induction h with
  | new hn h => exact mk_wf hn h
  | other kwargs order _ ih => exact ih.mono (fun b hb => mk_props _ kwargs order b hb)
  | @set c o b v _ ih =>
    obtain ⟨h1, h2, h3⟩ := setBand_shape c o b v
    exact ⟨h1 ▸ ih.nodup, by rw [h1, h2]; exact ih.vals, by rw [h1, h3]; exact ih.flags, fun b' hb => ih.props b' (h1 ▸ hb)⟩
  | vals l hl _ ih => exact ⟨ih.nodup, hl.trans ih.vals, ih.flags, ih.props⟩
  | flags l hl _ ih => exact ⟨ih.nodup, ih.vals, hl.trans ih.flags, ih.props⟩
  | pickle c' _ ih => exact ⟨ih.nodup, ih.vals, ih.flags, fun b hb => (mem_addNames _ _ _).mpr (.inr hb)⟩

/-- The constructor accepts the orders that rearrange the bands, and only those; the parameters are then the values of the
bands in that order, all thawed.  Without order the bands are sorted. -/
theorem C87_init (c : Cls) (kwargs : List (String × α)) (hn : (kwargs.map Prod.fst).Nodup) :
    (∀ order : List String, order.Perm (kwargs.map Prod.fst) →
      ∃ c' o, mk c kwargs (some order) = (c', .ok o) ∧ o.order = order ∧ o.getParams.length = order.length ∧
        ∀ (i : Nat) (k : String) (v : α), order[i]? = some k → (k, v) ∈ kwargs →
          o.getParams[i]? = some v ∧ getBand c' o k = .ok v) ∧
    (∀ order : List String, ¬ order.Perm (kwargs.map Prod.fst) → mk c kwargs (some order) = (c, .error .assertion)) ∧
    (∃ l, l.Perm (kwargs.map Prod.fst) ∧ l.Pairwise (· ≤ ·) ∧ mk c kwargs none = mk c kwargs (some l)) := by
  refine ⟨fun order hp => ?_, fun order hp => (mk_cases c kwargs order hn).2 hp, _, List.perm_insertionSort _ _, ?_, mk_none c kwargs⟩
  · obtain ⟨vs, h1, h2, h3⟩ := (mk_cases c kwargs order hn).1 hp
    have hgp : (⟨order, vs, List.replicate order.length true, []⟩ : MB α).getParams = vs := by
      unfold MB.getParams
      simp only
      have : ∀ (l : List α) (n : Nat), n = l.length → ((l.zip (List.replicate n true)).filter (·.2)).map (·.1) = l := by
        intro l
        induction l with
        | nil => intro n hn; simp
        | cons x t ih =>
          intro n hn
          cases n with
          | zero => simp at hn
          | succ n => simp only [List.replicate_succ, List.zip_cons_cons, List.filter_cons, if_true, List.map_cons]
                      rw [ih n (by simpa using hn)]
      exact this vs _ h1.symm
    refine ⟨_, _, h3, rfl, by rw [hgp]; exact h1, fun i k v hi hkv => ?_⟩
    have hlk : kwargs.lookup k = some v := by
      clear h2 h3 hgp hp
      induction kwargs with
      | nil => simp at hkv
      | cons p t ih =>
        obtain ⟨k', v'⟩ := p
        simp only [List.map_cons, List.nodup_cons] at hn
        rcases List.mem_cons.mp hkv with h | h
        · injection h with h h'; subst h; subst h'; simp
        · have hne : k ≠ k' := by
            rintro rfl
            exact hn.1 (List.mem_map.mpr ⟨(k, v), h, rfl⟩)
          have : (k == k') = false := by simpa using hne
          simp only [List.lookup, this]
          exact ih hn.2 h
    have hv := h2 i k v hi hlk
    refine ⟨by rw [hgp]; exact hv, ?_⟩
    have hmem : k ∈ order := List.mem_of_getElem? hi
    have hw := wf_new c order vs h1 (hp.nodup_iff.mpr hn)
    obtain ⟨hlt, hg⟩ := getBand_in hw (b := k) hmem
    rw [hg]
    have hidx : order.idxOf k = i := by
      obtain ⟨hil, hik⟩ := List.getElem?_eq_some_iff.mp hi
      subst hik
      exact (hp.nodup_iff.mpr hn).idxOf_getElem i hil
    simp only at hlt ⊢
    obtain ⟨hil, hiv⟩ := List.getElem?_eq_some_iff.mp hv
    congr 1
    rw [← hiv]
    congr 1
  · exact List.pairwise_insertionSort (fun a b : String => a ≤ b) (kwargs.map Prod.fst)

/-- Non-vacuity: order r, g. -/
example : (mk ⟨[]⟩ [("g", 15), ("r", 14)] (some ["r", "g"])).2.toOption.map (fun o : MB Nat => o.getParams) = some [14, 15] ∧
    (mk ⟨[]⟩ [("r", 14), ("g", 15)] none).2.toOption.map (fun o : MB Nat => o.getParams) = some [15, 14] ∧
    ["r", "g"].Perm ([("g", 15), ("r", 14)].map Prod.fst) := by
  refine ⟨by decide +kernel, by decide +kernel, by decide +kernel⟩

/-- Setting a band sets that parameter and no other, whatever other objects there are. -/
theorem C87_set {c : Cls} {o : MB α} (h : Reach c o) (b : String) (hb : b ∈ o.order) (v : α) :
    ∃ i, o.order[i]? = some b ∧ setBand c o b v = ({ o with vals := o.vals.set i v }, none) ∧
      getBand c (setBand c o b v).1 b = .ok v ∧
      ∀ b' ∈ o.order, b' ≠ b → getBand c (setBand c o b v).1 b' = getBand c o b' := by
  have hw := h.wf
  have hi : o.order.idxOf b < o.order.length := List.idxOf_lt_length_of_mem hb
  have hs : setBand c o b v = ({ o with vals := o.vals.set (o.order.idxOf b) v }, none) := by
    simp [setBand, hw.props b hb, hb, hw.vals, hi]
  refine ⟨o.order.idxOf b, by rw [List.getElem?_eq_getElem hi, List.getElem_idxOf], hs, ?_, fun b' hb' hne => ?_⟩
  · rw [hs]
    simp [getBand, hw.props b hb, hb, hw.vals, hi]
  · rw [hs]
    have : o.order.idxOf b ≠ o.order.idxOf b' := by
      intro he
      apply hne
      have h1 := List.getElem_idxOf hi
      have h2 := List.getElem_idxOf (List.idxOf_lt_length_of_mem hb')
      rw [← h1, ← h2]
      congr 1
      exact he.symm
    simp [getBand, hw.props b' hb', hb', this]

/-- Constructing other objects changes nothing for this one, nor does pickling it, whatever the class of the other process. -/
theorem C87_others {c : Cls} {o : MB α} (h : Reach c o) (kwargs : List (String × β)) (order : Option (List String))
    (b : String) (hb : b ∈ o.order) (v : α) :
    getBand (mk c kwargs order).1 o b = getBand c o b ∧ setBand (mk c kwargs order).1 o b v = setBand c o b v := by
  have h1 := h.wf.props b hb
  have h2 := mk_props c kwargs order b h1
  simp [getBand, setBand, h1, h2, hb]

/-- C60 for brightnesses. -/
theorem C60_brightness {c : Cls} {o : MB α} (h : Reach c o) (c' : Cls) :
    (unpickle c' o).2 = o ∧ ∀ b ∈ o.order, ∀ v, getBand (unpickle c' o).1 (unpickle c' o).2 b = getBand c o b ∧
      setBand (unpickle c' o).1 (unpickle c' o).2 b v = setBand c o b v := by
  refine ⟨rfl, fun b hb v => ?_⟩
  have h1 := h.wf.props b hb
  have h2 : b ∈ (c'.addNames o.order).props := (mem_addNames _ _ _).mpr (.inr hb)
  show getBand (c'.addNames o.order) o b = getBand c o b ∧ setBand (c'.addNames o.order) o b v = setBand c o b v
  simp [getBand, setBand, h1, h2, hb]

/-- Non-vacuity: an object made after one of other bands, then set. -/
example : ∃ (c : Cls) (o : MB Nat), Reach c o ∧ o.order = ["g", "r"] ∧ o.vals = [15, 20] ∧ c.props = ["z", "g", "r"] := by
  refine ⟨_, _, Reach.set "r" 20 (Reach.new (c := ⟨["z"]⟩) (kwargs := [("r", 14), ("g", 15)]) (order := none) (by decide) rfl), ?_⟩
  decide +kernel

/-- A band an object does not have is an error for a fresh object, but which one depends on other objects. -/
theorem C87_missing (c : Cls) (o : MB α) (b : String) (ha : o.attrs = []) (hb : b ∉ o.order) :
    getBand c o b = .error (if b ∈ c.props then .key else .attribute) := by
  by_cases h : b ∈ c.props <;> simp [getBand, h, hb, ha]

/-- Setting a band the object does not have succeeds silently, unless some other object has that band: the value can be read,
but is no parameter, and it is lost when another object with this band is made. -/
theorem C87_missing_false : ∃ (c : Cls) (o : MB Nat), Reach c o ∧ "z" ∉ o.order ∧
    (setBand c o "z" 7).2 = none ∧ getBand c (setBand c o "z" 7).1 "z" = .ok 7 ∧
    (setBand c o "z" 7).1.getParams = o.getParams ∧
    getBand (mk c [("z", 3)] none).1 (setBand c o "z" 7).1 "z" = .error .key ∧
    (setBand (mk c [("z", 3)] none).1 o "z" 7).2 = some .key := by
  refine ⟨_, _, Reach.new (c := ⟨[]⟩) (kwargs := [("r", 14), ("g", 15)]) (order := none) (by decide) rfl, ?_⟩
  decide +kernel

end Verif.Bright
