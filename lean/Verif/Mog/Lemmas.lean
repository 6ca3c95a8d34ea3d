import Verif.Mog.Model
import Std.Data.String.ToNat
import Mathlib.Tactic.Ring
import Mathlib.Tactic.FieldSimp

namespace Verif.Mog

variable {R : Type}

theorem getElem?_flatMap2 {α : Type} (f g : α → R) (l : List α) (i : Nat) :
    (l.flatMap (fun c => [f c, g c]))[i]? = if i % 2 = 0 then l[i / 2]?.map f else l[i / 2]?.map g := by
  induction l generalizing i with
  | nil => simp
  | cons c l ih =>
    match i with
    | 0 => simp
    | 1 => simp
    | i + 2 =>
      have h1 : (i + 2) / 2 = i / 2 + 1 := by omega
      have h2 : (i + 2) % 2 = i % 2 := by omega
      simp only [List.flatMap_cons, List.cons_append, List.nil_append, List.getElem?_cons_succ, h1, h2]
      exact ih i

theorem getElem?_flatMap3 {α : Type} (f g h : α → R) (l : List α) (i : Nat) :
    (l.flatMap (fun c => [f c, g c, h c]))[i]? =
      if i % 3 = 0 then l[i / 3]?.map f else if i % 3 = 1 then l[i / 3]?.map g else l[i / 3]?.map h := by
  induction l generalizing i with
  | nil => simp
  | cons c l ih =>
    match i with
    | 0 => simp
    | 1 => simp
    | 2 => simp
    | i + 3 =>
      have h1 : (i + 3) / 3 = i / 3 + 1 := by omega
      have h2 : (i + 3) % 3 = i % 3 := by omega
      simp only [List.flatMap_cons, List.cons_append, List.nil_append, List.getElem?_cons_succ, h1, h2]
      exact ih i

theorem length_flatMap2 {α : Type} (f g : α → R) (l : List α) : (l.flatMap (fun c => [f c, g c])).length = 2 * l.length := by
  induction l with
  | nil => rfl
  | cons c l ih => simp only [List.flatMap_cons, List.length_append, ih, List.length_cons, List.length_nil]; omega

theorem length_flatMap3 {α : Type} (f g h : α → R) (l : List α) :
    (l.flatMap (fun c => [f c, g c, h c])).length = 3 * l.length := by
  induction l with
  | nil => rfl
  | cons c l ih => simp only [List.flatMap_cons, List.length_append, ih, List.length_cons, List.length_nil]; omega

theorem getThings_length (m : Mix R) : (getThings m).length = 6 * m.length := by
  simp only [getThings, List.length_append, List.length_map, length_flatMap2, length_flatMap3]; omega

/-- The vector, entry by entry. -/
theorem getThings_get (m : Mix R) (i : Nat) :
    (getThings m)[i]? =
      if i < m.length then m[i]?.map (·.amp)
      else if i < 3 * m.length then
        (if (i - m.length) % 2 = 0 then m[(i - m.length) / 2]?.map (·.mx) else m[(i - m.length) / 2]?.map (·.my))
      else
        (if (i - 3 * m.length) % 3 = 0 then m[(i - 3 * m.length) / 3]?.map (·.vxx)
         else if (i - 3 * m.length) % 3 = 1 then m[(i - 3 * m.length) / 3]?.map (·.vyy)
         else m[(i - 3 * m.length) / 3]?.map (·.vxy)) := by
  unfold getThings
  by_cases h1 : i < m.length
  · rw [List.append_assoc, List.getElem?_append_left (by simpa using h1), if_pos h1, List.getElem?_map]
  · rw [if_neg h1]
    by_cases h2 : i < 3 * m.length
    · rw [if_pos h2, List.getElem?_append_left (by simp only [List.length_append, List.length_map, length_flatMap2]; omega),
        List.getElem?_append_right (by simp only [List.length_map]; omega), List.length_map, getElem?_flatMap2]
    · rw [if_neg h2, List.getElem?_append_right (by simp only [List.length_append, List.length_map, length_flatMap2]; omega)]
      have : (List.map (fun x => x.amp) m ++ List.flatMap (fun c => [c.mx, c.my]) m).length = 3 * m.length := by
        simp only [List.length_append, List.length_map, length_flatMap2]; omega
      rw [this, getElem?_flatMap3]

theorem map_set_same {α β : Type} (l : List α) (k : Nat) (c c' : α) (f : α → β) (hc : l[k]? = some c) (h : f c' = f c) :
    ∀ n : Nat, (l.set k c')[n]?.map f = l[n]?.map f := by
  intro n
  by_cases hk : k = n
  · subst hk
    have : k < l.length := by
      rcases Nat.lt_or_ge k l.length with h | h
      · exact h
      · rw [List.getElem?_eq_none h] at hc; cases hc
    rw [List.getElem?_set_self this, hc, Option.map_some, Option.map_some, h]
  · rw [List.getElem?_set_ne hk]

theorem map_set_new {α β : Type} (l : List α) (k : Nat) (c c' : α) (f : α → β) (hc : l[k]? = some c) :
    ∀ n : Nat, (l.set k c')[n]?.map f = if k = n then some (f c') else l[n]?.map f := by
  intro n
  by_cases hk : k = n
  · subst hk
    have : k < l.length := by
      rcases Nat.lt_or_ge k l.length with h | h
      · exact h
      · rw [List.getElem?_eq_none h] at hc; cases hc
    rw [List.getElem?_set_self this, Option.map_some, if_pos rfl]
  · rw [List.getElem?_set_ne hk, if_neg hk]

theorem get_of_lt {α : Type} (l : List α) (k : Nat) (h : k < l.length) : ∃ c, l[k]? = some c :=
  ⟨l[k], List.getElem?_eq_getElem h⟩

/-- All covariance matrices are symmetric. -/
def Symm (m : Mix R) : Prop := ∀ c ∈ m, c.vxy = c.vyx

theorem symm_set {m : Mix R} (hs : Symm m) (j : Nat) (c' : Comp R) (h : c'.vxy = c'.vyx) : Symm (m.set j c') := by
  intro d hd
  rcases List.mem_or_eq_of_mem_set hd with h' | h'
  · exact hs d h'
  · rw [h']; exact h

theorem symm_get {m : Mix R} (hs : Symm m) {j : Nat} {c : Comp R} (hc : m[j]? = some c) : c.vxy = c.vyx :=
  hs c (List.mem_of_getElem? hc)

/-- Setting one entry. -/
theorem setThing_ok (m : Mix R) (i : Nat) (p : R) (hi : i < 6 * m.length) :
    ∃ old, (getThings m)[i]? = some old ∧ (setThing m i p).2 = .ok old ∧
      getThings (setThing m i p).1 = (getThings m).set i p ∧ (setThing m i p).1.length = m.length ∧
      (Symm m → Symm (setThing m i p).1) := by
  have ext : ∀ (j : Nat) (c' : Comp R), (∀ n, (getThings (m.set j c'))[n]? = ((getThings m).set i p)[n]?) →
      getThings (m.set j c') = (getThings m).set i p := fun j c' h => List.ext_getElem? h
  have hl := getThings_length m
  have hset : ∀ n : Nat, ((getThings m).set i p)[n]? = if i = n then some p else (getThings m)[n]? := by
    intro n
    by_cases h : i = n
    · subst h; rw [List.getElem?_set_self (by omega), if_pos rfl]
    · rw [List.getElem?_set_ne h, if_neg h]
  unfold setThing
  by_cases h1 : i < m.length
  · obtain ⟨c, hc⟩ := get_of_lt m i h1
    simp only [if_pos h1, hc]
    refine ⟨c.amp, by rw [getThings_get, if_pos h1, hc]; rfl, rfl, ext _ _ (fun n => ?_), by simp,
      fun hs => symm_set hs _ _ (show c.vxy = c.vyx from symm_get hs hc)⟩
    rw [getThings_get, hset, getThings_get, List.length_set]
    simp only [map_set_same m i c { c with amp := p } (·.mx) hc rfl, map_set_same m i c { c with amp := p } (·.my) hc rfl,
      map_set_same m i c { c with amp := p } (·.vxx) hc rfl, map_set_same m i c { c with amp := p } (·.vyy) hc rfl,
      map_set_same m i c { c with amp := p } (·.vxy) hc rfl, map_set_new m i c { c with amp := p } (·.amp) hc]
    by_cases hn : i = n
    · subst hn; simp [h1]
    · simp [hn]
  · simp only [if_neg h1]
    by_cases h2 : i - m.length < m.length * 2
    · have h2' : i < 3 * m.length := by omega
      obtain ⟨c, hc⟩ := get_of_lt m ((i - m.length) / 2) (by omega)
      simp only [if_pos h2, hc]
      by_cases h3 : (i - m.length) % 2 = 0
      · simp only [if_pos h3]
        refine ⟨c.mx, by rw [getThings_get, if_neg h1, if_pos h2', if_pos h3, hc]; rfl, rfl, ext _ _ (fun n => ?_), by simp,
          fun hs => symm_set hs _ _ (show c.vxy = c.vyx from symm_get hs hc)⟩
        rw [getThings_get, hset, getThings_get, List.length_set]
        simp only [map_set_same m _ c { c with mx := p } (·.amp) hc rfl, map_set_same m _ c { c with mx := p } (·.my) hc rfl,
          map_set_same m _ c { c with mx := p } (·.vxx) hc rfl, map_set_same m _ c { c with mx := p } (·.vyy) hc rfl,
          map_set_same m _ c { c with mx := p } (·.vxy) hc rfl, map_set_new m _ c { c with mx := p } (·.mx) hc]
        by_cases hn : i = n
        · subst hn; simp [h1, h2', h3]
        · by_cases a1 : n < m.length
          · simp [hn, a1]
          · by_cases a2 : n < 3 * m.length
            · by_cases a3 : (n - m.length) % 2 = 0
              · simp [hn, a1, a2, a3]; omega
              · simp [hn, a1, a2, a3]
            · simp [hn, a1, a2]
      · simp only [if_neg h3]
        refine ⟨c.my, by rw [getThings_get, if_neg h1, if_pos h2', if_neg h3, hc]; rfl, rfl, ext _ _ (fun n => ?_), by simp,
          fun hs => symm_set hs _ _ (show c.vxy = c.vyx from symm_get hs hc)⟩
        rw [getThings_get, hset, getThings_get, List.length_set]
        simp only [map_set_same m _ c { c with my := p } (·.amp) hc rfl, map_set_same m _ c { c with my := p } (·.mx) hc rfl,
          map_set_same m _ c { c with my := p } (·.vxx) hc rfl, map_set_same m _ c { c with my := p } (·.vyy) hc rfl,
          map_set_same m _ c { c with my := p } (·.vxy) hc rfl, map_set_new m _ c { c with my := p } (·.my) hc]
        by_cases hn : i = n
        · subst hn; simp [h1, h2', h3]
        · by_cases a1 : n < m.length
          · simp [hn, a1]
          · by_cases a2 : n < 3 * m.length
            · by_cases a3 : (n - m.length) % 2 = 0
              · simp [hn, a1, a2, a3]
              · simp [hn, a1, a2, a3]; omega
            · simp [hn, a1, a2]
    · have h2' : ¬ i < 3 * m.length := by omega
      have e : i - m.length - m.length * 2 = i - 3 * m.length := by omega
      simp only [if_neg h2, e]
      obtain ⟨c, hc⟩ := get_of_lt m ((i - 3 * m.length) / 3) (by omega)
      simp only [hc]
      by_cases h3 : (i - 3 * m.length) % 3 = 0
      · simp only [if_pos h3]
        refine ⟨c.vxx, by rw [getThings_get, if_neg h1, if_neg h2', if_pos h3, hc]; rfl, rfl, ext _ _ (fun n => ?_), by simp,
          fun hs => symm_set hs _ _ (show c.vxy = c.vyx from symm_get hs hc)⟩
        rw [getThings_get, hset, getThings_get, List.length_set]
        simp only [map_set_same m _ c { c with vxx := p } (·.amp) hc rfl, map_set_same m _ c { c with vxx := p } (·.my) hc rfl,
          map_set_same m _ c { c with vxx := p } (·.mx) hc rfl, map_set_same m _ c { c with vxx := p } (·.vyy) hc rfl,
          map_set_same m _ c { c with vxx := p } (·.vxy) hc rfl, map_set_new m _ c { c with vxx := p } (·.vxx) hc]
        by_cases hn : i = n
        · subst hn; simp [h1, h2', h3]
        · by_cases a1 : n < m.length
          · simp [hn, a1]
          · by_cases a2 : n < 3 * m.length
            · simp [hn, a1, a2]
            · by_cases a3 : (n - 3 * m.length) % 3 = 0
              · simp [hn, a1, a2, a3]; omega
              · simp [hn, a1, a2, a3]
      · simp only [if_neg h3]
        by_cases h4 : (i - 3 * m.length) % 3 = 1
        · simp only [if_pos h4]
          refine ⟨c.vyy, by rw [getThings_get, if_neg h1, if_neg h2', if_neg h3, if_pos h4, hc]; rfl, rfl,
            ext _ _ (fun n => ?_), by simp, fun hs => symm_set hs _ _ (show c.vxy = c.vyx from symm_get hs hc)⟩
          rw [getThings_get, hset, getThings_get, List.length_set]
          simp only [map_set_same m _ c { c with vyy := p } (·.amp) hc rfl, map_set_same m _ c { c with vyy := p } (·.my) hc rfl,
            map_set_same m _ c { c with vyy := p } (·.mx) hc rfl, map_set_same m _ c { c with vyy := p } (·.vxx) hc rfl,
            map_set_same m _ c { c with vyy := p } (·.vxy) hc rfl, map_set_new m _ c { c with vyy := p } (·.vyy) hc]
          by_cases hn : i = n
          · subst hn; simp [h1, h2', h4]
          · by_cases a1 : n < m.length
            · simp [hn, a1]
            · by_cases a2 : n < 3 * m.length
              · simp [hn, a1, a2]
              · by_cases a3 : (n - 3 * m.length) % 3 = 1
                · simp [hn, a1, a2, a3]; omega
                · simp [hn, a1, a2, a3]
        · simp only [if_neg h4]
          refine ⟨c.vxy, by rw [getThings_get, if_neg h1, if_neg h2', if_neg h3, if_neg h4, hc]; rfl, rfl,
            ext _ _ (fun n => ?_), by simp, fun hs => symm_set hs _ _ rfl⟩
          rw [getThings_get, hset, getThings_get, List.length_set]
          simp only [map_set_same m _ c { c with vxy := p, vyx := p } (·.amp) hc rfl,
            map_set_same m _ c { c with vxy := p, vyx := p } (·.my) hc rfl,
            map_set_same m _ c { c with vxy := p, vyx := p } (·.mx) hc rfl,
            map_set_same m _ c { c with vxy := p, vyx := p } (·.vxx) hc rfl,
            map_set_same m _ c { c with vxy := p, vyx := p } (·.vyy) hc rfl,
            map_set_new m _ c { c with vxy := p, vyx := p } (·.vxy) hc]
          by_cases hn : i = n
          · subst hn; simp [h1, h2', h3, h4]
          · by_cases a1 : n < m.length
            · simp [hn, a1]
            · by_cases a2 : n < 3 * m.length
              · simp [hn, a1, a2]
              · by_cases a3 : (n - 3 * m.length) % 3 = 0
                · simp [hn, a1, a2, a3]
                · by_cases a4 : (n - 3 * m.length) % 3 = 1
                  · simp [hn, a1, a2, a4]
                  · simp [hn, a1, a2, a3, a4]; omega

theorem setThing_err (m : Mix R) (i : Nat) (p : R) (hi : ¬ i < 6 * m.length) : setThing m i p = (m, .error .index) := by
  unfold setThing
  have h1 : ¬ i < m.length := by omega
  have h2 : ¬ i - m.length < m.length * 2 := by omega
  have h3 : m[(i - m.length - m.length * 2) / 3]? = none := List.getElem?_eq_none (by omega)
  simp only [if_neg h1, if_neg h2, h3]

/-- A slot of a `ParamList` without name. -/
def slot (b : Bool) (v : R) : Params.Slot R := ⟨[], b, v⟩

theorem drop_cons {l : List R} {j : Nat} {x : R} (h : l[j]? = some x) : l.drop j = x :: l.drop (j + 1) := by
  obtain ⟨hl, e⟩ := List.getElem?_eq_some_iff.mp h
  rw [List.drop_eq_getElem_cons hl, e]

theorem take_add {l : List R} {j : Nat} {x : R} (h : l[j]? = some x) : l.take (j + 1) = l.take j ++ [x] := by
  rw [List.take_add_one, h]; rfl

theorem setLiquid_ok (fs : List Bool) : ∀ (m : Mix R) (j : Nat) (p : List R), j + fs.length = 6 * m.length →
    ∃ vs, Params.setSlots (List.zipWith slot fs ((getThings m).drop j)) p =
        (List.zipWith slot fs vs, (setLiquid m j fs p).2) ∧
      getThings (setLiquid m j fs p).1 = (getThings m).take j ++ vs ∧
      (setLiquid m j fs p).1.length = m.length ∧ (Symm m → Symm (setLiquid m j fs p).1) := by
  induction fs with
  | nil =>
    intro m j p h
    have hl := getThings_length m
    rw [List.length_nil, Nat.add_zero] at h
    refine ⟨[], rfl, ?_, rfl, id⟩
    rw [List.append_nil, List.take_of_length_le (by omega)]; rfl
  | cons f fs ih =>
    intro m j p h
    have hl := getThings_length m
    rw [List.length_cons] at h
    obtain ⟨x, hx⟩ := get_of_lt (getThings m) j (by omega)
    rw [drop_cons hx, List.zipWith_cons_cons]
    cases f with
    | false =>
      obtain ⟨vs, h1, h2, h3, h4⟩ := ih m (j + 1) p (by omega)
      refine ⟨x :: vs, ?_, ?_, h3, h4⟩
      · simp only [setLiquid, Params.setSlots, slot, Bool.false_eq_true, if_false, h1, List.zipWith_cons_cons]
      · rw [show setLiquid m j (false :: fs) p = setLiquid m (j + 1) fs p from rfl, h2, take_add hx, List.append_assoc]; rfl
    | true =>
      cases p with
      | nil =>
        refine ⟨x :: (getThings m).drop (j + 1), rfl, ?_, rfl, id⟩
        rw [← drop_cons hx, List.take_append_drop]; rfl
      | cons v p =>
        obtain ⟨old, g1, g2, g3, g4, g5⟩ := setThing_ok m j v (by omega)
        obtain ⟨vs, h1, h2, h3, h4⟩ := ih (setThing m j v).1 (j + 1) p (by omega)
        have e : setLiquid m j (true :: fs) (v :: p) = setLiquid (setThing m j v).1 (j + 1) fs p := by
          simp only [setLiquid]
          rw [show setThing m j v = ((setThing m j v).1, .ok old) from Prod.ext rfl g2]
        rw [e]
        have hd : (getThings (setThing m j v).1).drop (j + 1) = (getThings m).drop (j + 1) := by
          rw [g3, List.drop_set_of_lt (by omega)]
        have ht : (getThings (setThing m j v).1).take (j + 1) = (getThings m).take j ++ [v] := by
          rw [take_add (x := v) (by rw [g3, List.getElem?_set_self (by omega)]), g3, List.take_set_of_le (by omega)]
        refine ⟨v :: vs, ?_, ?_, h3.trans g4, fun hs => h4 (g5 hs)⟩
        · rw [hd] at h1
          simp only [Params.setSlots, slot, if_true, h1, List.zipWith_cons_cons]
        · rw [h2, ht, List.append_assoc]; rfl

theorem setAll_ok (p : List R) : ∀ (m : Mix R) (j : Nat) (fs : List Bool), j + fs.length = 6 * m.length →
    ∃ vs, Params.setAllSlots (List.zipWith slot fs ((getThings m).drop j)) p =
        (List.zipWith slot fs vs, (setAll m j p).2) ∧
      getThings (setAll m j p).1 = (getThings m).take j ++ vs ∧
      (setAll m j p).1.length = m.length ∧ (Symm m → Symm (setAll m j p).1) := by
  induction p with
  | nil =>
    intro m j fs h
    refine ⟨(getThings m).drop j, ?_, (List.take_append_drop _ _).symm, rfl, id⟩
    rw [Params.setAllSlots]; rfl
  | cons v p ih =>
    intro m j fs h
    have hl := getThings_length m
    cases fs with
    | nil =>
      rw [List.length_nil, Nat.add_zero] at h
      have e : setAll m j (v :: p) = (m, some .index) := by
        simp only [setAll, setThing_err m j v (by omega)]
      rw [e]
      refine ⟨[], rfl, ?_, rfl, id⟩
      rw [List.append_nil, List.take_of_length_le (by omega)]
    | cons f fs =>
      rw [List.length_cons] at h
      obtain ⟨x, hx⟩ := get_of_lt (getThings m) j (by omega)
      obtain ⟨old, g1, g2, g3, g4, g5⟩ := setThing_ok m j v (by omega)
      obtain ⟨vs, h1, h2, h3, h4⟩ := ih (setThing m j v).1 (j + 1) fs (by omega)
      have e : setAll m j (v :: p) = setAll (setThing m j v).1 (j + 1) p := by
        simp only [setAll]
        rw [show setThing m j v = ((setThing m j v).1, .ok old) from Prod.ext rfl g2]
      rw [e, drop_cons hx, List.zipWith_cons_cons]
      have hd : (getThings (setThing m j v).1).drop (j + 1) = (getThings m).drop (j + 1) := by
        rw [g3, List.drop_set_of_lt (by omega)]
      have ht : (getThings (setThing m j v).1).take (j + 1) = (getThings m).take j ++ [v] := by
        rw [take_add (x := v) (by rw [g3, List.getElem?_set_self (by omega)]), g3, List.take_set_of_le (by omega)]
      refine ⟨v :: vs, ?_, ?_, h3.trans g4, fun hs => h4 (g5 hs)⟩
      · rw [hd] at h1
        simp only [Params.setAllSlots, slot, h1, List.zipWith_cons_cons]
      · rw [h2, ht, List.append_assoc]; rfl

/-! ### Building from arguments -/

theorem pairs_flatMap {α : Type} (f g : α → R) (l : List α) (r : List R) :
    pairs (l.flatMap (fun c => [f c, g c]) ++ r) = l.map (fun c => (f c, g c)) ++ pairs r := by
  induction l with
  | nil => rfl
  | cons c l ih => simp [pairs, ih]

theorem triples_flatMap {α : Type} (f g h : α → R) (l : List α) :
    triples (l.flatMap (fun c => [f c, g c, h c])) = l.map (fun c => (f c, g c, h c)) := by
  induction l with
  | nil => rfl
  | cons c l ih => simp [triples, ih]

theorem build_map (m : Mix R) :
    build (m.map (·.amp)) (m.map (fun c => (c.mx, c.my))) (m.map (fun c => (c.vxx, c.vyy, c.vxy))) =
      m.map (fun c => { c with vyx := c.vxy }) := by
  induction m with
  | nil => rfl
  | cons c m ih => simp [build, ih]

theorem symmetrize_self [Field R] (h2 : (2 : R) ≠ 0) (m : Mix R) (hs : Symm m) : symmetrize m = m := by
  induction m with
  | nil => rfl
  | cons c m ih =>
    have hc : c.vxy = c.vyx := hs c (by simp)
    have e1 : (1 / 2 : R) * (c.vyx + c.vxy) = c.vxy := by rw [hc]; field_simp; ring
    have e2 : (1 / 2 : R) * (c.vyx + c.vxy) = c.vyx := e1.trans hc
    show { c with vxy := _, vyx := _ } :: symmetrize m = _
    rw [ih (fun d hd => hs d (by simp [hd]))]
    have : ({ c with vxy := (1 / 2) * (c.vyx + c.vxy), vyx := (1 / 2) * (c.vyx + c.vxy) } : Comp R) = c := by
      cases c; simp only [Comp.mk.injEq, true_and, and_true] at *; exact ⟨e1, e2⟩
    rw [this]

theorem ofArgs_getThings [Field R] (h2 : (2 : R) ≠ 0) (m : Mix R) (hs : Symm m) : ofArgs (getThings m) = .ok m := by
  unfold ofArgs
  have hl := getThings_length m
  rw [if_pos (by omega)]
  have hK : (getThings m).length / 6 = m.length := by omega
  simp only [hK]
  have e1 : (getThings m).take m.length = m.map (·.amp) := by
    unfold getThings; rw [List.append_assoc, List.take_append_of_le_length (by simp), List.take_of_length_le (by simp)]
  have e2 : pySlice (getThings m) m.length (3 * m.length - m.length) = m.flatMap (fun c => [c.mx, c.my]) := by
    unfold pySlice getThings
    rw [List.append_assoc, List.drop_append_of_le_length (by simp), List.drop_of_length_le (by simp), List.nil_append,
      List.take_append_of_le_length (by rw [length_flatMap2]; omega), List.take_of_length_le (by rw [length_flatMap2]; omega)]
  have e3 : (getThings m).drop (3 * m.length) = m.flatMap (fun c => [c.vxx, c.vyy, c.vxy]) := by
    unfold getThings
    rw [List.drop_append, List.drop_of_length_le (by simp only [List.length_append, List.length_map, length_flatMap2]; omega),
      List.nil_append, List.length_append, List.length_map, length_flatMap2,
      show 3 * m.length - (m.length + 2 * m.length) = 0 from by omega, List.drop_zero]
  have e4 := pairs_flatMap (·.mx) (·.my) m []
  rw [List.append_nil, show pairs ([] : List R) = [] from rfl, List.append_nil] at e4
  rw [e1, e2, e3, e4, triples_flatMap, build_map]
  have e5 : m.map (fun c => { c with vyx := c.vxy }) = m := by
    conv_rhs => rw [← List.map_id m]
    refine List.map_congr_left (fun c hc => ?_)
    have := hs c hc
    cases c; simp only [id, Comp.mk.injEq, true_and, and_true] at *; exact this
  rw [e5, symmetrize_self h2 m hs]

theorem symm_symmetrize [Field R] (m : Mix R) : Symm (symmetrize m) := by
  intro c hc
  obtain ⟨d, _, e⟩ := List.mem_map.mp hc
  rw [← e]

/-- Two mixtures with symmetric covariances are equal if their vectors are. -/
theorem eq_of_getThings {m m' : Mix R} (hl : m.length = m'.length) (hs : Symm m) (hs' : Symm m')
    (h : getThings m = getThings m') : m = m' := by
  unfold getThings at h
  rw [List.append_assoc, List.append_assoc] at h
  obtain ⟨h1, h'⟩ := List.append_inj h (by simp [hl])
  obtain ⟨h2, h3⟩ := List.append_inj h' (by rw [length_flatMap2, length_flatMap2, hl])
  clear h h'
  induction m generalizing m' with
  | nil => cases m' with
    | nil => rfl
    | cons _ _ => simp at hl
  | cons c m ih =>
    cases m' with
    | nil => simp at hl
    | cons c' m' =>
      simp only [List.map_cons, List.cons.injEq, List.flatMap_cons, List.cons_append, List.nil_append] at h1 h2 h3
      obtain ⟨a1, b1⟩ := h1
      obtain ⟨a2, a3, b2⟩ := h2
      obtain ⟨a4, a5, a6, b3⟩ := h3
      have s1 := hs c (by simp)
      have s2 := hs' c' (by simp)
      rw [ih (by simpa using hl) (fun d hd => hs d (by simp [hd])) (fun d hd => hs' d (by simp [hd])) b1 b2 b3]
      have : c = c' := by
        cases c; cases c'
        simp only [Comp.mk.injEq] at *
        exact ⟨a1, a2, a3, a4, a6, by rw [← s1, ← s2, a6], a5⟩
      rw [this]

/-! ### Names -/

theorem names_unique {K : Nat} {n : String} {i i' : Nat} (h : (n, i) ∈ names K) (h' : (n, i') ∈ names K) : i = i' := by
  unfold names at h h'
  obtain ⟨k, _, hk⟩ := List.mem_flatMap.mp h
  obtain ⟨k', _, hk'⟩ := List.mem_flatMap.mp h'
  have inj : ∀ s : String, s ++ k.repr = s ++ k'.repr → k = k' := by
    intro s hs
    have := congrArg String.toList hs
    rw [String.toList_append, String.toList_append] at this
    exact Nat.repr_injective (String.toList_inj.mp (List.append_cancel_left this))
  have ne : ∀ s t : String, (∀ l l' : List Char, s.toList ++ l ≠ t.toList ++ l') → s ++ k.repr = t ++ k'.repr → False := by
    intro s t hst hs
    have := congrArg String.toList hs
    rw [String.toList_append, String.toList_append] at this
    exact hst _ _ this
  simp only [List.mem_cons, Prod.mk.injEq, List.not_mem_nil, or_false] at hk hk'
  rcases hk with ⟨a, b⟩ | ⟨a, b⟩ | ⟨a, b⟩ | ⟨a, b⟩ | ⟨a, b⟩ | ⟨a, b⟩ <;>
  rcases hk' with ⟨a', b'⟩ | ⟨a', b'⟩ | ⟨a', b'⟩ | ⟨a', b'⟩ | ⟨a', b'⟩ | ⟨a', b'⟩ <;>
  first
  | (have e := inj _ (a.symm.trans a'); subst e; exact b.trans b'.symm)
  | exact (ne _ _ (by intro l l'; simp) (a.symm.trans a')).elim

theorem namedIndex_of_mem {K : Nat} {n : String} {i : Nat} (h : (n, i) ∈ names K) : namedIndex (names K) n = .ok i := by
  unfold namedIndex
  cases hf : (names K).reverse.find? (fun e => e.1 == n) with
  | none =>
    have := List.find?_eq_none.mp hf (n, i) (List.mem_reverse.mpr h)
    simp at this
  | some e =>
    have h1 := List.mem_of_find?_eq_some hf
    have h2 := List.find?_some hf
    obtain ⟨a, b⟩ := e
    simp only [beq_iff_eq] at h2
    subst h2
    simp only [names_unique h (List.mem_reverse.mp h1)]

/-! ### Ellipses -/

theorem pairs_ok (K : Nat) : ∀ l : List R, l.length = 2 * K →
    (pairs l).length = K ∧ (pairs l).flatMap (fun p => [p.1, p.2]) = l := by
  induction K with
  | zero => intro l h; rw [List.length_eq_zero_iff.mp (by omega : l.length = 0)]; exact ⟨rfl, rfl⟩
  | succ K ih =>
    intro l h
    match l with
    | [] => simp at h
    | [_] => simp at h; omega
    | a :: b :: l =>
      obtain ⟨h1, h2⟩ := ih l (by simp at h; omega)
      simp only [pairs, List.length_cons, List.flatMap_cons, h1, h2]
      exact ⟨trivial, rfl⟩

theorem triples_ok (K : Nat) : ∀ l : List R, l.length = 3 * K →
    (triples l).length = K ∧ (triples l).flatMap (fun p => [p.1, p.2.1, p.2.2]) = l := by
  induction K with
  | zero => intro l h; rw [List.length_eq_zero_iff.mp (by omega : l.length = 0)]; exact ⟨rfl, rfl⟩
  | succ K ih =>
    intro l h
    match l with
    | [] => simp at h
    | [_] => simp at h; omega
    | [_, _] => simp at h; omega
    | a :: b :: c :: l =>
      obtain ⟨h1, h2⟩ := ih l (by simp at h; omega)
      simp only [triples, List.length_cons, List.flatMap_cons, h1, h2]
      exact ⟨trivial, rfl⟩

theorem buildEll_ok (cov : R × R × R → R × R × R × R) : ∀ (as : List R) (ms : List (R × R)) (es : List (R × R × R)),
    as.length = es.length → ms.length = es.length →
    (buildEll cov as ms es).map (·.amp) = as ∧
    (buildEll cov as ms es).flatMap (fun c => [c.mx, c.my]) = ms.flatMap (fun p => [p.1, p.2]) ∧
    (buildEll cov as ms es).map (fun c => (c.vxx, c.vxy, c.vyx, c.vyy)) = es.map cov := by
  intro as
  induction as with
  | nil =>
    intro ms es h1 h2
    rw [List.length_eq_zero_iff.mp h1.symm] at h2 ⊢
    rw [List.length_eq_zero_iff.mp h2]
    exact ⟨rfl, rfl, rfl⟩
  | cons a as ih =>
    intro ms es h1 h2
    match ms, es with
    | [], [] => simp at h1
    | [], _ :: _ => simp at h2
    | _ :: _, [] => simp at h1
    | m :: ms, e :: es =>
      obtain ⟨g1, g2, g3⟩ := ih ms es (by simpa using h1) (by simpa using h2)
      simp only [buildEll, List.map_cons, List.flatMap_cons, g1, g2, g3]
      exact ⟨trivial, trivial, trivial⟩

theorem setThings_ok (cov : R × R × R → R × R × R × R) (m : EllMix R) (p : List R) (hp : p.length = 6 * m.mog.length) :
    (m.setThings cov p).getThings = p ∧ (m.setThings cov p).mog.length = m.mog.length ∧
      (m.setThings cov p).ells.length = m.mog.length ∧
      (m.setThings cov p).mog.map (fun c => (c.vxx, c.vxy, c.vyx, c.vyy)) = (m.setThings cov p).ells.map cov := by
  obtain ⟨a1, a2⟩ := triples_ok m.mog.length (p.drop (3 * m.mog.length)) (by rw [List.length_drop]; omega)
  obtain ⟨b1, b2⟩ := pairs_ok m.mog.length (pySlice p m.mog.length (m.mog.length * 2))
    (by unfold pySlice; rw [List.length_take, List.length_drop]; omega)
  obtain ⟨c1, c2, c3⟩ := buildEll_ok cov (p.take m.mog.length) (pairs (pySlice p m.mog.length (m.mog.length * 2)))
    (triples (p.drop (3 * m.mog.length))) (by rw [List.length_take, a1]; omega) (by rw [a1, b1])
  refine ⟨?_, ?_, a1, c3⟩
  · show (buildEll _ _ _ _).map (·.amp) ++ (buildEll _ _ _ _).flatMap _ ++ List.flatMap _ (triples _) = p
    rw [c1, c2, a2, b2]
    unfold pySlice
    have : p.drop (3 * m.mog.length) = (p.drop m.mog.length).drop (m.mog.length * 2) := by
      rw [List.drop_drop]; congr 1; omega
    rw [this, List.append_assoc, List.take_append_drop, List.take_append_drop]
  · have := congrArg List.length c1
    rw [List.length_map, List.length_take] at this
    exact this.trans (by omega)

/-! ### Fourier transforms -/

section
variable {C : Type} [CommRing R] [CommRing C] [Algebra R C] [DecidableEq R]

theorem fourierPy_from (E : Exp R C) (v w : R) : ∀ (m : Mix R) (s : C),
    m.foldl (fun s c => match s with
      | none => some (algebraMap R C c.amp * fourierTerm E c v w)
      | some s => some (s + algebraMap R C c.amp * fourierTerm E c v w)) (some s) =
    some (s + (m.map (fun c => algebraMap R C c.amp * fourierTerm E c v w)).sum) := by
  intro m
  induction m with
  | nil => intro s; simp
  | cons c m ih => intro s; rw [List.foldl_cons, ih, List.map_cons, List.sum_cons, add_assoc]

theorem fourierPy_eq (E : Exp R C) (m : Mix R) (v w : R) :
    fourierPy E m v w = if m = [] then none else some ((m.map (fun c => algebraMap R C c.amp * fourierTerm E c v w)).sum) := by
  cases m with
  | nil => rfl
  | cons c m =>
    rw [if_neg (by simp)]
    exact (fourierPy_from E v w m _).trans (by rw [List.map_cons, List.sum_cons])

theorem fourierC_eq (E : Exp R C) (m : Mix R) (v w : R) :
    fourierC E m v w = (m.map (fun c => if c.vxx = 0 ∧ c.vxy = 0 ∧ c.vyy = 0 then algebraMap R C c.amp
      else algebraMap R C c.amp *
        E.exp (algebraMap R C (-2 * E.pi * E.pi * (c.vxx * (v * v) + 2 * c.vxy * v * w + c.vyy * (w * w)))))).sum := by
  have : ∀ (m : Mix R) (s : C), m.foldl (fun s c =>
      if c.vxx = 0 ∧ c.vxy = 0 ∧ c.vyy = 0 then s + algebraMap R C c.amp
      else s + algebraMap R C c.amp *
        E.exp (algebraMap R C (-2 * E.pi * E.pi * (c.vxx * (v * v) + 2 * c.vxy * v * w + c.vyy * (w * w))))) s =
      s + (m.map (fun c => if c.vxx = 0 ∧ c.vxy = 0 ∧ c.vyy = 0 then algebraMap R C c.amp
        else algebraMap R C c.amp *
          E.exp (algebraMap R C (-2 * E.pi * E.pi * (c.vxx * (v * v) + 2 * c.vxy * v * w + c.vyy * (w * w)))))).sum := by
    intro m
    induction m with
    | nil => intro s; simp
    | cons c m ih =>
      intro s
      rw [List.foldl_cons, ih, List.map_cons, List.sum_cons, ← add_assoc]
      split <;> rfl
  unfold fourierC
  rw [this, zero_add]

end

theorem flatMap_pairs : ∀ (n : Nat) (l : List R), l.length = 2 * n →
    (pairs l).length = n ∧ (pairs l).flatMap (fun p => [p.1, p.2]) = l
  | 0, [], _ => ⟨rfl, rfl⟩
  | 0, _ :: _, h => by simp at h
  | n + 1, [], h => by simp at h
  | n + 1, [_], h => by simp at h; omega
  | n + 1, a :: b :: l, h => by
    have := flatMap_pairs n l (by simp at h; omega)
    simp [pairs, this.1, this.2]

theorem flatMap_triples : ∀ (n : Nat) (l : List R), l.length = 3 * n →
    (triples l).length = n ∧ (triples l).flatMap (fun p => [p.1, p.2.1, p.2.2]) = l
  | 0, [], _ => ⟨rfl, rfl⟩
  | 0, _ :: _, h => by simp at h
  | n + 1, [], h => by simp at h
  | n + 1, [_], h => by simp at h; omega
  | n + 1, [_, _], h => by simp at h; omega
  | n + 1, a :: b :: c :: l, h => by
    have := flatMap_triples n l (by simp at h; omega)
    simp [triples, this.1, this.2]

theorem build_parts : ∀ (as : List R) (ms : List (R × R)) (vs : List (R × R × R)), ms.length = as.length →
    vs.length = as.length → (build as ms vs).length = as.length ∧ Symm (build as ms vs) ∧
      (build as ms vs).map (·.amp) = as ∧ (build as ms vs).flatMap (fun c => [c.mx, c.my]) = ms.flatMap (fun p => [p.1, p.2]) ∧
      (build as ms vs).flatMap (fun c => [c.vxx, c.vyy, c.vxy]) = vs.flatMap (fun p => [p.1, p.2.1, p.2.2])
  | [], [], [], _, _ => ⟨rfl, (by intro c h; cases h), rfl, rfl, rfl⟩
  | [], _ :: _, _, h, _ => by simp at h
  | [], [], _ :: _, _, h => by simp at h
  | _ :: _, [], _, h, _ => by simp at h
  | _ :: _, _ :: _, [], _, h => by simp at h
  | a :: as, m :: ms, v :: vs, h1, h2 => by
    obtain ⟨g1, g2, g3, g4, g5⟩ := build_parts as ms vs (by simpa using h1) (by simpa using h2)
    refine ⟨by simp [build, g1], ?_, by simp [build, g3], by simp [build, g4], by simp [build, g5]⟩
    intro c hc
    simp only [build, List.mem_cons] at hc
    rcases hc with rfl | hc
    · rfl
    · exact g2 c hc

theorem ofArgs_ok [Field R] (h2 : (2 : R) ≠ 0) (args : List R) (K : Nat) (h : args.length = 6 * K) :
    ∃ m, ofArgs args = .ok m ∧ m.length = K ∧ getThings m = args ∧ Symm m := by
  unfold ofArgs
  rw [if_pos (by omega)]
  have hK : args.length / 6 = K := by omega
  simp only [hK]
  have hp := flatMap_pairs K (pySlice args K (3 * K - K)) (by unfold pySlice; simp; omega)
  have ht := flatMap_triples K (args.drop (3 * K)) (by simp; omega)
  obtain ⟨g1, g2, g3, g4, g5⟩ := build_parts (args.take K) (pairs (pySlice args K (3 * K - K))) (triples (args.drop (3 * K)))
    (by rw [hp.1]; simp; omega) (by rw [ht.1]; simp; omega)
  rw [symmetrize_self h2 _ g2]
  refine ⟨_, rfl, by rw [g1]; simp; omega, ?_, g2⟩
  unfold getThings
  rw [g3, g4, g5, hp.2, ht.2]
  unfold pySlice
  rw [show 3 * K - K = 2 * K from by omega, show 3 * K = K + 2 * K from by omega, ← List.drop_drop, List.append_assoc,
    List.take_append_drop, List.take_append_drop]

end Verif.Mog
