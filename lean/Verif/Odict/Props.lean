import Verif.Odict.Cached

/-!
# C133: the ordered dictionary is a list of items in order of insertion
-/

namespace Verif.Odict

open Verif

section
variable {K V : Type} [DecidableEq K]

/-- Whatever is done with a new dictionary, every operation shows what it would show for a list of items in order of insertion, and then
iteration, reversed iteration, `items()` and `len()` end and show that list. -/
theorem C133_refines (os : List (Op K V)) :
    let d := run (new []) os
    let l := Spec.run [] os
    d.2 = l.2 ∧ keys d.1 = some (l.1.map (fun p => some p.1)) ∧ revKeys d.1 = some (l.1.reverse.map (fun p => some p.1)) ∧
    items d.1 = some l.1 ∧ len d.1 = l.1.length ∧ (l.1.map Prod.fst).Nodup ∧ ∀ k, bget k d.1.dict = Spec.value k l.1 := by
  obtain ⟨h, t, r, e⟩ := rep_run (rep_clear (blank : OD K V)) os
  simp only [List.map_nil] at h e
  refine ⟨h, ?_, ?_, ?_, ?_, ?_, ?_⟩
  · rw [← e, List.map_map]; exact r.keys
  · rw [← e, ← List.map_reverse, List.map_map]; exact r.revKeys
  · rw [← e]; exact r.items
  · rw [← e, List.length_map]; exact r.len
  · rw [← e]; exact nodup_items r
  · intro k; rw [← e, value_eq]; exact r.get k

/-- A copy and what comes back from a pickle have the same items in the same order, and behave the same in all that follows. -/
theorem C133_copy (os ps : List (Op K V)) :
    ∃ c, copy (run (new []) os).1 = some c ∧ unpickled (run (new []) os).1 = some c ∧ items c = items (run (new []) os).1 ∧
      (run c ps).2 = (run (run (new []) os).1 ps).2 ∧ items (run c ps).1 = items (run (run (new []) os).1 ps).1 := by
  obtain ⟨_, t, r, e⟩ := rep_run (rep_clear (blank : OD K V)) os
  change Rep (run (new []) os).1 t at r
  obtain ⟨u, ru, eu⟩ := rep_new (t.map (fun x => x.2)) (nodup_items r)
  refine ⟨new (t.map (fun x => x.2)), ?_, ?_, ?_, ?_, ?_⟩
  · unfold copy; rw [r.items]; rfl
  · unfold unpickled; rw [r.items]; rfl
  · rw [ru.items, r.items, eu]
  · obtain ⟨h1, _⟩ := rep_run ru ps
    obtain ⟨h2, _⟩ := rep_run r ps
    rw [h1, h2, eu]
  · obtain ⟨_, t1, r1, e1⟩ := rep_run ru ps
    obtain ⟨_, t2, r2, e2⟩ := rep_run r ps
    rw [r1.items, r2.items, e1, e2, eu]

/-- Ordered dictionaries are equal if they have the same items in the same order. -/
theorem C133_eq [DecidableEq V] (os ps : List (Op K V)) :
    eq (run (new []) os).1 (run (new []) ps).1 = some (decide ((Spec.run ([] : List (K × V)) os).1 = (Spec.run [] ps).1)) := by
  obtain ⟨_, _, _, hi, hl, _, _⟩ := C133_refines os
  obtain ⟨_, _, _, hi', hl', _, _⟩ := C133_refines ps
  unfold eq
  rw [hi, hi', hl, hl']
  generalize (Spec.run ([] : List (K × V)) os).1 = a
  generalize (Spec.run ([] : List (K × V)) ps).1 = b
  by_cases h : a.length = b.length
  · rw [if_neg (by simpa using h)]
    simp only [Option.some.injEq]
    induction a generalizing b with
    | nil => cases b with
      | nil => rfl
      | cons _ _ => simp at h
    | cons x a ih =>
      cases b with
      | nil => simp at h
      | cons y b =>
        rw [List.zip_cons_cons, List.all_cons, ih b (by simpa using h)]
        by_cases hx : x = y <;> simp [hx]
  · rw [if_pos h]
    simp only [Option.some.injEq]
    symm
    rw [decide_eq_false_iff_not]
    rintro rfl
    exact h rfl

/-- `fromkeys` gives every key its value, in the order of first appearance. -/
theorem C133_fromkeys (ks : List K) (v : V) : items (fromkeys ks v) = some (Spec.puts [] (ks.map (fun k => (k, v)))) := by
  obtain ⟨t, r, e⟩ := rep_update (rep_clear (blank : OD K V)) (ks.map (fun k => (k, v)))
  have : fromkeys ks v = update (clear blank) (ks.map (fun k => (k, v))) := by
    unfold fromkeys update
    rw [List.foldl_map]
  rw [this, r.items, e]
  rfl

/-- A loop over a dictionary that removes some of the keys it is given ends, is given every key once and in order, and leaves the others. -/
theorem C133_loop_partial (os : List (Op K V)) (P : K → Bool) :
    let l := (Spec.run ([] : List (K × V)) os).1
    let d := (run (new []) os).1
    ∃ d', loopDel (fun k => if P k then [k] else []) (l.length + 1) d .start = some (l.map (fun p => some p.1), d') ∧
      items d' = some (l.filter (fun p => !P p.1)) := by
  obtain ⟨_, t, r, e⟩ := rep_run (rep_clear (blank : OD K V)) os
  simp only [List.map_nil] at e
  change Rep (run (new []) os).1 t at r
  have hn := seg_next r.seg
  obtain ⟨d', h1, h2⟩ := loop_rest P t [] (run (new []) os).1 (run (new []) os).1.endN (t.length + 1) r hn (by omega)
  refine ⟨d', ?_, ?_⟩
  · rw [← e, List.length_map, List.map_map]
    exact h1
  · rw [h2.items, ← e, List.nil_append, List.filter_map]
    rfl

/-- The cache over this dictionary answers every history of calls as the cache over a list of items does, and holds the same. -/
theorem C133_cache (sizeOf : V → Nat) (m : Nat) (os : List (Cache.Op K V)) :
    let c := (LCache.empty m).run sizeOf os
    let s := Cache.run sizeOf (Cache.empty m) os
    c.2 = shown sizeOf (Cache.empty m) os ∧ items c.1.dict = some s.dict ∧ c.1.hits = s.hits ∧ c.1.misses = s.misses := by
  have h0 : Same (LCache.empty m : LCache K V) (Cache.empty m) := ⟨⟨[], rep_clear _, rfl⟩, rfl, rfl, rfl⟩
  obtain ⟨⟨⟨t, r, e⟩, hh, hm, _⟩, h2⟩ := same_run sizeOf h0 os
  exact ⟨h2, by rw [r.items, e], hh, hm⟩

end

/-- Some operations: an item overwritten keeps its place, one removed and put in again goes last. -/
def exOps : List (Op Nat String) :=
  [.set 3 "a", .set 1 "b", .set 2 "c", .set 3 "d", .del 1, .set 1 "e", .popitem false, .pop 9 (some "z"), .setdefault 4 "f"]

example : items (run (new []) exOps).1 = some [(2, "c"), (1, "e"), (4, "f")] := by decide +kernel

example : revKeys (run (new []) exOps).1 = some [some 4, some 1, some 2] := by decide +kernel

example : (loopDel (V := String) (fun k => if k = 1 then [k] else []) 4 (run (new []) exOps).1 .start).map Prod.fst =
    some [some 2, some 1, some 4] := by decide +kernel

/-- A loop that removes the key it is given and the next one is given a key that is no longer there: a removed node still leads on. -/
theorem C133_loop_false :
    (loopDel (V := String) (fun k => if k = 2 then [2, 1] else []) 4 (run (new []) exOps).1 .start).map
      (fun r => (r.1, items r.2)) = some ([some 2, some 1, some 4], some [(4, "f")]) := by decide +kernel

end Verif.Odict
