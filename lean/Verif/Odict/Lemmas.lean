import Verif.Odict.Model
import Verif.Odict.Spec
import Mathlib.Data.List.Perm.Basic
import Mathlib.Data.List.Nodup
import Mathlib.Data.List.Induction
import Mathlib.Tactic.Tauto

/-!
# The linked list holds the keys in order
-/

namespace Verif.Odict

open Verif

section
variable {K V : Type}

/-- From `a` by `next` through `xs` to `b`, and back by `prev`. -/
def Seg (h : Nat → Node K) : Nat → List Nat → Nat → Prop
  | a, [], b => (h a).next = b ∧ (h b).prev = a
  | a, x :: xs, b => (h a).next = x ∧ (h x).prev = a ∧ Seg h x xs b

theorem seg_append (h : Nat → Node K) (a y b : Nat) (xs ys : List Nat) :
    Seg h a (xs ++ y :: ys) b ↔ Seg h a xs y ∧ Seg h y ys b := by
  induction xs generalizing a with
  | nil => simp [Seg, and_assoc]
  | cons x xs ih => simp [Seg, ih, and_assoc]

/-- What lies outside may change. -/
theorem seg_frame {h h' : Nat → Node K} {a b : Nat} {xs : List Nat} (hs : Seg h a xs b)
    (hn : ∀ x ∈ a :: xs, (h' x).next = (h x).next) (hp : ∀ x ∈ b :: xs, (h' x).prev = (h x).prev) : Seg h' a xs b := by
  induction xs generalizing a with
  | nil =>
    simp only [Seg] at hs ⊢
    rw [hn a (by simp), hp b (by simp)]
    exact hs
  | cons x xs ih =>
    simp only [Seg] at hs ⊢
    refine ⟨?_, ?_, ih hs.2.2 ?_ ?_⟩
    · rw [hn a (by simp)]; exact hs.1
    · rw [hp x (by simp)]; exact hs.2.1
    · intro y hy; exact hn y (by simp only [List.mem_cons] at hy ⊢; tauto)
    · intro y hy; exact hp y (by simp only [List.mem_cons] at hy ⊢; tauto)

/-- The last link of a segment. -/
theorem seg_prev {h : Nat → Node K} {a b : Nat} {xs : List Nat} (hs : Seg h a xs b) : (h b).prev = (a :: xs).getLast (by simp) := by
  induction xs generalizing a with
  | nil => exact hs.2
  | cons x xs ih =>
    rw [ih hs.2.2]
    rfl

/-- The first link of a segment. -/
theorem seg_next {h : Nat → Node K} {a b : Nat} {xs : List Nat} (hs : Seg h a xs b) : (h a).next = (xs ++ [b]).head (by simp) := by
  cases xs with
  | nil => exact hs.1
  | cons x xs => exact hs.1

theorem setPrev_next (h : Nat → Node K) (a b i : Nat) : (setPrev h a b i).next = (h i).next := by
  unfold setPrev; split <;> rfl

theorem setPrev_key (h : Nat → Node K) (a b i : Nat) : (setPrev h a b i).key = (h i).key := by
  unfold setPrev; split <;> rfl

theorem setPrev_prev (h : Nat → Node K) (a b i : Nat) : (setPrev h a b i).prev = if i = a then b else (h i).prev := by
  unfold setPrev; split <;> rfl

theorem setNext_prev (h : Nat → Node K) (a b i : Nat) : (setNext h a b i).prev = (h i).prev := by
  unfold setNext; split <;> rfl

theorem setNext_key (h : Nat → Node K) (a b i : Nat) : (setNext h a b i).key = (h i).key := by
  unfold setNext; split <;> rfl

theorem setNext_next (h : Nat → Node K) (a b i : Nat) : (setNext h a b i).next = if i = a then b else (h i).next := by
  unfold setNext; split <;> rfl

/-- A link is replaced at the end of a segment: the last node now leads to `m`. -/
theorem seg_relinkL {h h' : Nat → Node K} {a n m : Nat} {ys : List Nat} (hs : Seg h a ys n) (hnd : (a :: ys).Nodup)
    (hn : ∀ x, (h' x).next = if x = (h n).prev then m else (h x).next)
    (hp : ∀ x ∈ ys, (h' x).prev = (h x).prev) (hm : (h' m).prev = (h n).prev) : Seg h' a ys m := by
  induction ys generalizing a with
  | nil =>
    simp only [Seg] at hs ⊢
    rw [hn, hm, hs.2]
    simp
  | cons y ys ih =>
    have hne : a ≠ (h n).prev := by
      rw [seg_prev hs.2.2]
      intro e
      have : a ∈ y :: ys := by rw [e]; exact List.getLast_mem _
      exact (List.nodup_cons.1 hnd).1 this
    simp only [Seg] at hs ⊢
    refine ⟨?_, ?_, ih hs.2.2 (List.nodup_cons.1 hnd).2 (fun x hx => hp x (by simp [hx]))⟩
    · rw [hn, if_neg hne]; exact hs.1
    · rw [hp y (by simp)]; exact hs.2.1

/-- A node goes in at the end. -/
theorem seg_insert {h : Nat → Node K} {e n : Nat} {xs : List Nat} {k : Option K} (hs : Seg h e xs e) (hnd : (e :: xs).Nodup)
    (hf : n ∉ e :: xs) :
    Seg (setPrev (setNext (fun i => if i = n then ⟨k, (h e).prev, e⟩ else h i) (h e).prev n) e n) e (xs ++ [n]) e := by
  have hpe : (h e).prev ∈ e :: xs := by rw [seg_prev hs]; exact List.getLast_mem _
  have hen : e ≠ n := fun h => hf (by simp [h])
  have hpn : (h e).prev ≠ n := fun h => hf (h ▸ hpe)
  rw [seg_append]
  constructor
  · -- the next pointers differ only at the last node, up to the new node, which is not in the segment
    induction xs using List.reverseRecOn with
    | nil =>
      simp only [Seg] at hs ⊢
      simp only [setPrev_next, setNext_next, setPrev_prev, setNext_prev, hs.2, if_true, if_neg (Ne.symm hen)]
      simp
    | append_singleton ys c _ =>
      rw [seg_append] at hs
      obtain ⟨hs1, hs2⟩ := hs
      simp only [Seg] at hs2
      rw [seg_append]
      have hnd' : (e :: ys).Nodup ∧ c ∉ e :: ys := by
        have : ((e :: ys) ++ [c]).Nodup := by simpa using hnd
        rw [List.nodup_append] at this
        exact ⟨this.1, fun hc => this.2.2 c hc c (by simp) rfl⟩
      constructor
      · refine seg_frame hs1 ?_ ?_
        · intro x hx
          have hxc : x ≠ c := fun h => hnd'.2 (h ▸ hx)
          have hxn : x ≠ n := fun h => hf (by subst h; simp only [List.mem_cons, List.mem_append] at hx ⊢; tauto)
          simp only [setPrev_next, setNext_next, hs2.2, if_neg hxc, if_neg hxn]
        · intro x hx
          have hxe : x ≠ e := by
            rintro rfl
            have : x ∉ ys ++ [c] := (List.nodup_cons.1 hnd).1
            exact this (by simp only [List.mem_cons, List.mem_append, List.not_mem_nil, or_false] at hx ⊢; tauto)
          have hxn : x ≠ n := fun h => hf (by subst h; simp only [List.mem_cons, List.mem_append, List.not_mem_nil, or_false] at hx ⊢; tauto)
          simp only [setPrev_prev, setNext_prev, if_neg hxe, if_neg hxn]
      · simp only [Seg]
        simp only [setPrev_next, setNext_next, setPrev_prev, setNext_prev, hs2.2, if_true, if_neg (Ne.symm hen)]
        simp
  · simp only [Seg]
    simp only [setPrev_next, setNext_next, setPrev_prev, setNext_prev, if_neg (Ne.symm hpn), if_true]
    simp

/-- A node goes out. -/
theorem seg_delete {h : Nat → Node K} {e n : Nat} {ys zs : List Nat} (hs : Seg h e (ys ++ n :: zs) e)
    (hnd : (e :: (ys ++ n :: zs)).Nodup) :
    Seg (setPrev (setNext h (h n).prev (h n).next) (h n).next (h n).prev) e (ys ++ zs) e := by
  rw [seg_append] at hs
  obtain ⟨h1, h2⟩ := hs
  have hnd1 : (e :: ys).Nodup := by
    have : ((e :: ys) ++ n :: zs).Nodup := by simpa using hnd
    exact (List.nodup_append.1 this).1
  have hpm : (h n).prev ∈ e :: ys := by rw [seg_prev h1]; exact List.getLast_mem _
  have hdis : ∀ x ∈ e :: ys, x ∉ n :: zs := by
    have : ((e :: ys) ++ n :: zs).Nodup := by simpa using hnd
    intro x hx hx'
    exact (List.nodup_append.1 this).2.2 x hx x hx' rfl
  have hez : e ∉ ys ++ n :: zs := (List.nodup_cons.1 hnd).1
  cases zs with
  | nil =>
    simp only [Seg] at h2
    rw [List.append_nil, h2.1]
    refine seg_relinkL h1 hnd1 ?_ ?_ ?_
    · intro x; rw [setPrev_next, setNext_next]
    · intro x hx
      have : x ≠ e := fun h => (List.nodup_cons.1 hnd1).1 (h ▸ hx)
      rw [setPrev_prev, if_neg this, setNext_prev]
    · rw [setPrev_prev, if_pos rfl]
  | cons z zs =>
    simp only [Seg] at h2
    rw [h2.1, seg_append]
    constructor
    · refine seg_relinkL h1 hnd1 ?_ ?_ ?_
      · intro x; rw [setPrev_next, setNext_next]
      · intro x hx
        have : x ≠ z := fun h => hdis x (by simp [hx]) (by simp [h])
        rw [setPrev_prev, if_neg this, setNext_prev]
      · rw [setPrev_prev, if_pos rfl]
    · refine seg_frame h2.2.2 ?_ ?_
      · intro x hx
        have : x ≠ (h n).prev := fun h => hdis x (h ▸ hpm) (by simp only [List.mem_cons] at hx ⊢; tauto)
        rw [setPrev_next, setNext_next, if_neg this]
      · intro x hx
        have : x ≠ z := by
          rintro rfl
          rcases List.mem_cons.1 hx with rfl | hx
          · exact hez (by simp)
          · have : (x :: zs).Nodup := by
              have h0 := (List.nodup_append.1 (List.nodup_cons.1 hnd).2).2.1
              exact (List.nodup_cons.1 h0).2
            exact (List.nodup_cons.1 this).1 hx
        rw [setPrev_prev, if_neg this, setNext_prev]

end

end Verif.Odict
