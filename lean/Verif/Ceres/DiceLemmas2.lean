import Verif.Ceres.DiceLemmas

/-! Invariant of the loop that dices images and models. -/

namespace Verif.Ceres

open Verif Patches

variable {R : Type}

/-! ### Slots -/

/-- The slots are 0, 1, …; no parameter has two. -/
def SlotsOK (used : List (Nat × Nat)) (next : Nat) : Prop :=
  used.map (·.2) = List.range next ∧ (used.map (·.1)).Nodup

theorem slotOf_ok (used : List (Nat × Nat)) (next i : Nat) (h : SlotsOK used next) :
    (i, (slotOf used next i).1) ∈ (slotOf used next i).2.1 ∧ used <+: (slotOf used next i).2.1 ∧
    SlotsOK (slotOf used next i).2.1 (slotOf used next i).2.2 ∧
    ∀ j, j ∈ (slotOf used next i).2.1.map (·.1) ↔ j ∈ used.map (·.1) ∨ j = i := by
  unfold slotOf
  split
  · rename_i u hu
    have h1 := List.find?_some hu
    have h1 : u.1 = i := of_decide_eq_true h1
    have h2 := List.mem_of_find?_eq_some hu
    refine ⟨by rw [← h1]; exact h2, List.prefix_refl _, h, ?_⟩
    intro j
    constructor
    · exact .inl
    · rintro (h | rfl)
      · exact h
      · rw [← h1]; exact List.mem_map_of_mem h2
  · rename_i hu
    rw [List.find?_eq_none] at hu
    have hni : i ∉ used.map (·.1) := by
      intro hm
      obtain ⟨u, hu1, hu2⟩ := List.mem_map.1 hm
      exact hu u hu1 (by simp [hu2])
    refine ⟨by simp, List.prefix_append _ _, ⟨?_, ?_⟩, ?_⟩
    · rw [List.map_append, h.1, List.range_succ]; rfl
    · rw [List.map_append, List.nodup_append]
      refine ⟨h.2, by simp, ?_⟩
      intro a ha b hb e
      simp only [List.map_cons, List.map_nil, List.mem_singleton] at hb
      subst e; subst hb
      exact hni ha
    · intro j
      rw [List.map_append, List.mem_append]
      simp

/-! ### What is attached -/

section
variable [Field R]

/-- Pixel of an attached model. -/
def srcAt (s : Src R) (y x : Nat) : R :=
  if s.y0 ≤ y ∧ (y : Int) < s.y0 + s.px.h ∧ s.x0 ≤ x ∧ (x : Int) < s.x0 + s.px.w then
    s.px.px ((y : Int) - s.y0).toNat ((x : Int) - s.x0).toNat else 0

/-- What the attached models add to a pixel. -/
def contrib (flux : List R) (l : List (Src R)) (y x : Nat) : R :=
  (l.map (fun s => srcAt s y x * flux.getD s.slot 0)).sum

theorem contrib_append (flux : List R) (l : List (Src R)) (d : Src R) (y x : Nat) :
    contrib flux (l ++ [d]) y x = contrib flux l y x + srcAt d y x * flux.getD d.slot 0 := by
  simp [contrib, List.map_append, List.sum_append]

/-- Pixel of a unit-flux model (None is no model). -/
def umodAt (u : Option (Patch R)) (y x : Nat) : R := (u.map (fun p => p.at (x : Int) (y : Int))).getD 0

/-- The model of a list of unit-flux models for the parameters from number `i` on. -/
def modelFrom (val : Nat → R) (scale : R) (i : Nat) (us : List (Option (Patch R))) (y x : Nat) : R :=
  ((us.zipIdx i).map (fun u => val u.2 * (scale * umodAt u.1 y x))).sum

/-- The values in the slots are those of the parameters. -/
def Compat (val : Nat → R) (flux : List R) (used : List (Nat × Nat)) : Prop :=
  ∀ u ∈ used, flux.getD u.2 0 = val u.1

theorem Compat.prefix {val : Nat → R} {flux : List R} {u u' : List (Nat × Nat)} (h : Compat val flux u') (hp : u <+: u') :
    Compat val flux u := fun a ha => h a (hp.subset ha)

variable [DecidableEq R]

/-- Is anything left of the model to hand over? -/
def Handed (H W : Nat) (u : Option (Patch R)) : Prop :=
  ∃ p, u = some p ∧ ((p.clipTo W H).1.trimToNonZero).patch ≠ none

theorem prep_at (p : Patch R) (H W y x : Nat) (hy : y < H) (hx : x < W) :
    ((p.clipTo W H).1.trimToNonZero).at (x : Int) (y : Int) = p.at (x : Int) (y : Int) := by
  rw [(C27_trim_partial _).1]
  obtain ⟨q, b, h1, h2, h3⟩ := clipTo_ok p W H
  rw [h1]
  exact h2.2 _ _ ⟨by omega, by exact_mod_cast hx, by omega, by exact_mod_cast hy⟩

theorem addMod_ok (B : Nat) (hB : 0 < B) (Q1 Q2 : List (Q R)) (q : Q R) (hh : 0 < q.im.img.h) (hw : 0 < q.im.img.w)
    (scale : R) (i : Nat) (u : Option (Patch R)) (st : St R) (hb : st.blocks = allBlocks B (Q1 ++ q :: Q2))
    (hs : SlotsOK st.used st.next) :
    ∃ st' A', addMod B q.im.img.h q.im.img.w (allBlocks B Q1).length (q.nbw B) (q.nbh B) scale i u st = .ok st' ∧
      st'.blocks = allBlocks B (Q1 ++ q.with A' :: Q2) ∧ st'.start = st.start ∧ st.used <+: st'.used ∧
      SlotsOK st'.used st'.next ∧
      (∀ j, j ∈ st'.used.map (·.1) ↔ j ∈ st.used.map (·.1) ∨ (j = i ∧ Handed q.im.img.h q.im.img.w u)) ∧
      ∀ val flux, Compat val flux st'.used → ∀ y x, y < q.im.img.h → x < q.im.img.w →
        contrib flux (A' (y / B) (x / B)) y x = contrib flux (q.A (y / B) (x / B)) y x + val i * (scale * umodAt u y x) := by
  cases u with
  | none =>
    refine ⟨st, q.A, rfl, hb, rfl, List.prefix_refl _, hs, ?_, ?_⟩
    · intro j; simp [Handed]
    · intro val flux _ y x _ _; simp [umodAt]
  | some p =>
    simp only [addMod]
    have hat := prep_at p q.im.img.h q.im.img.w
    cases hq : ((p.clipTo q.im.img.w q.im.img.h).1.trimToNonZero).patch with
    | none =>
      refine ⟨st, q.A, rfl, hb, rfl, List.prefix_refl _, hs, ?_, ?_⟩
      · intro j; simp [Handed, hq]
      · intro val flux _ y x hy hx
        have := hat y x hy hx
        rw [Patch.at, hq] at this
        simp [umodAt, ← this]
    | some A =>
      obtain ⟨s1, s2, s3, s4⟩ := slotOf_ok st.used st.next i hs
      simp only
      rw [hb, attachAll_ok B Q1 Q2 _ _ q (blockRange_ok _ _ _ _ _ _ _ ?_ ?_) (blockRange_nodup ..)]
      rotate_left
      · exact Nat.lt_of_le_of_lt (Nat.zero_le _) (div_lt_nblocks B _ 0 hB hw)
      · exact Nat.lt_of_le_of_lt (Nat.zero_le _) (div_lt_nblocks B _ 0 hB hh)
      refine ⟨_, _, rfl, rfl, rfl, s2, s3, ?_, ?_⟩
      · intro j
        rw [s4]
        simp [Handed, hq]
      · intro val flux hc y x hy hx
        have hv := hc _ s1
        simp only at hv
        have hpix : srcAt ⟨(slotOf st.used st.next i).1, ((p.clipTo q.im.img.w q.im.img.h).1.trimToNonZero).x0,
            ((p.clipTo q.im.img.w q.im.img.h).1.trimToNonZero).y0, A.map (· * scale)⟩ y x = scale * umodAt (some p) y x := by
          have := hat y x hy hx
          rw [Patch.at, hq] at this
          simp only at this
          simp only [srcAt, umodAt, Option.map_some, Option.getD_some, ← this, Arr.map]
          by_cases h : ((p.clipTo q.im.img.w q.im.img.h).1.trimToNonZero).x0 ≤ x ∧
              (x : Int) < ((p.clipTo q.im.img.w q.im.img.h).1.trimToNonZero).x0 + A.w ∧
              ((p.clipTo q.im.img.w q.im.img.h).1.trimToNonZero).y0 ≤ y ∧
              (y : Int) < ((p.clipTo q.im.img.w q.im.img.h).1.trimToNonZero).y0 + A.h
          · rw [if_pos h]
            exact (if_pos ⟨h.2.2.1, h.2.2.2, h.1, h.2.1⟩).trans (mul_comm _ _)
          · rw [if_neg h, mul_zero]
            exact if_neg (fun h' => h ⟨h'.2.2.1, h'.2.2.2, h'.1, h'.2.1⟩)
        by_cases hm : (((y / B : Nat) : Int), ((x / B : Nat) : Int)) ∈ blockRange B (q.nbw B) (q.nbh B)
            ((p.clipTo q.im.img.w q.im.img.h).1.trimToNonZero).x0 ((p.clipTo q.im.img.w q.im.img.h).1.trimToNonZero).y0 A.w A.h
        · rw [if_pos hm, contrib_append, hpix, hv]
          ring
        · rw [if_neg hm]
          have h0 : scale * umodAt (some p) y x = 0 := by
            rw [← hpix, srcAt]
            refine if_neg (fun h => hm ?_)
            exact blockRange_cover B _ _ _ _ _ _ hB y x (div_lt_nblocks B _ y hB hy) (div_lt_nblocks B _ x hB hx)
              h.1 h.2.1 h.2.2.1 h.2.2.2
          rw [h0, mul_zero, add_zero]

theorem addMods_ok (B : Nat) (hB : 0 < B) (Q1 Q2 : List (Q R)) (scale : R) : ∀ (us : List (Option (Patch R))) (i : Nat)
    (q : Q R) (st : St R), 0 < q.im.img.h → 0 < q.im.img.w →
    st.blocks = allBlocks B (Q1 ++ q :: Q2) → SlotsOK st.used st.next →
    ∃ st' A', addMods B q.im.img.h q.im.img.w (allBlocks B Q1).length (q.nbw B) (q.nbh B) scale i us st = .ok st' ∧
      st'.blocks = allBlocks B (Q1 ++ q.with A' :: Q2) ∧ st'.start = st.start ∧ st.used <+: st'.used ∧
      SlotsOK st'.used st'.next ∧
      (∀ j, j ∈ st'.used.map (·.1) ↔ j ∈ st.used.map (·.1) ∨
        ∃ u ∈ us.zipIdx i, u.2 = j ∧ Handed q.im.img.h q.im.img.w u.1) ∧
      ∀ val flux, Compat val flux st'.used → ∀ y x, y < q.im.img.h → x < q.im.img.w →
        contrib flux (A' (y / B) (x / B)) y x = contrib flux (q.A (y / B) (x / B)) y x + modelFrom val scale i us y x
  | [], i, q, st, hh, hw, hb, hs =>
    ⟨st, q.A, rfl, hb, rfl, List.prefix_refl _, hs, by simp, by simp [modelFrom]⟩
  | u :: us, i, q, st, hh, hw, hb, hs => by
    obtain ⟨st1, A1, e1, b1, t1, p1, s1, k1, c1⟩ := addMod_ok B hB Q1 Q2 q hh hw scale i u st hb hs
    obtain ⟨st2, A2, e2, b2, t2, p2, s2, k2, c2⟩ := addMods_ok B hB Q1 Q2 scale us (i + 1) (q.with A1) st1 hh hw b1 s1
    refine ⟨st2, A2, ?_, b2, t2.trans t1, p1.trans p2, s2, ?_, ?_⟩
    · rw [addMods, e1]; exact e2
    · intro j
      rw [k2, k1, List.zipIdx_cons]
      simp only [List.mem_cons, exists_eq_or_imp, or_assoc]
      constructor
      · rintro (h | ⟨rfl, h⟩ | h)
        · exact .inl h
        · exact .inr (.inl ⟨rfl, h⟩)
        · exact .inr (.inr h)
      · rintro (h | ⟨h1, h⟩ | h)
        · exact .inl h
        · exact .inr (.inl ⟨h1.symm, h⟩)
        · exact .inr (.inr h)
    · intro val flux hc y x hy hx
      have := c2 val flux hc y x hy hx
      rw [this, show (q.with A1).A = A1 from rfl, c1 val flux (hc.prefix p2) y x hy hx, modelFrom, modelFrom, List.zipIdx_cons,
        List.map_cons, List.sum_cons]
      ring

/-! ### The outer loop -/

/-- Position, image and fixed model of the images in order of first appearance. -/
def trips : List (Nat × Im R × Arr R) → List (Entry R) → List (Nat × Im R × Arr R)
  | l, [] => l
  | l, e :: es => trips (if e.key ∈ l.map (·.1) then l else l ++ [(e.key, e.im, e.mod0)]) es

def Q.trip (q : Q R) : Nat × Im R × Arr R := (q.key, q.im, q.mod0)

/-- What the loop has made of the entries `done`. -/
structure Inv (B : Nat) (done : List (Entry R)) (st : St R) (Qs : List (Q R)) : Prop where
  blocks : st.blocks = allBlocks B Qs
  start : st.start = startsOf B 0 Qs
  nodup : (Qs.map Q.key).Nodup
  slots : SlotsOK st.used st.next
  trips : Qs.map Q.trip = Ceres.trips [] done
  used : ∀ j, j ∈ st.used.map (·.1) ↔ ∃ e ∈ done, ∃ u ∈ e.umods.zipIdx e.off, u.2 = j ∧ Handed e.im.img.h e.im.img.w u.1
  content : ∀ val flux, Compat val flux st.used → ∀ q ∈ Qs, ∀ y x, y < q.im.img.h → x < q.im.img.w →
    contrib flux (q.A (y / B) (x / B)) y x =
      ((done.filter (fun e => e.key = q.key)).map (fun e => modelFrom val e.scale e.off e.umods y x)).sum

omit [Field R] [DecidableEq R] in
theorem trips_append : ∀ (a b : List (Entry R)) (l : List (Nat × Im R × Arr R)), trips l (a ++ b) = trips (trips l a) b
  | [], _, _ => rfl
  | e :: a, b, l => by rw [List.cons_append, trips, trips, trips_append a b]

omit [Field R] [DecidableEq R] in
theorem dice_eq (B : Nat) (e : Entry R) : dice B e.im e.mod0 = Q.blocks B ⟨e.key, e.im, e.mod0, fun _ _ => []⟩ := rfl

theorem addEntry_ok (B : Nat) (hB : 0 < B) (done : List (Entry R)) (e : Entry R) (st : St R) (Qs : List (Q R))
    (hh : 0 < e.im.img.h) (hw : 0 < e.im.img.w)
    (hsame : ∀ e' ∈ done, e'.key = e.key → e'.im = e.im ∧ e'.mod0 = e.mod0)
    (hkeys : ∀ q ∈ Qs, ∃ e' ∈ done, e'.key = q.key ∧ e'.im = q.im ∧ e'.mod0 = q.mod0)
    (h : Inv B done st Qs) : ∃ st' Qs', addEntry B e st = .ok st' ∧ Inv B (done ++ [e]) st' Qs' ∧
      ∀ q ∈ Qs', ∃ e' ∈ done ++ [e], e'.key = q.key ∧ e'.im = q.im ∧ e'.mod0 = q.mod0 := by
  -- the state after dicing
  obtain ⟨Q1, q, Q2, st0, hd, hbl, hst, hus, hsl, hnd, hk, him, hmod, htr, hcont⟩ :
      ∃ (Q1 : List (Q R)) (q : Q R) (Q2 : List (Q R)) (st0 : St R),
        diceOnce B e st = (st0, (allBlocks B Q1).length, q.nbw B, q.nbh B) ∧
        st0.blocks = allBlocks B (Q1 ++ q :: Q2) ∧ st0.start = startsOf B 0 (Q1 ++ q :: Q2) ∧ st0.used = st.used ∧
        st0.next = st.next ∧ ((Q1 ++ q :: Q2).map Q.key).Nodup ∧ q.key = e.key ∧ q.im = e.im ∧ q.mod0 = e.mod0 ∧
        (Q1 ++ q :: Q2).map Q.trip = Ceres.trips [] (done ++ [e]) ∧
        (∀ q' ∈ Q1 ++ q :: Q2, q' ∈ Qs ∨ q' = q ∧ (∀ iy ix, q.A iy ix = []) ∧ ∀ e' ∈ done, e'.key ≠ e.key) := by
    have hkeyeq : Qs.map Q.key = (Ceres.trips [] done).map (·.1) := by
      rw [← h.trips, List.map_map]; rfl
    cases hf : st.start.find? (fun s => s.1 = e.key) with
    | some s =>
      rw [h.start] at hf
      obtain ⟨Q1, q, Q2, hQ, hk, hs⟩ := startsOf_find B e.key Qs 0 s hf
      have hmem : q ∈ Qs := by rw [hQ]; simp
      obtain ⟨e', he', k1, k2, k3⟩ := hkeys q hmem
      obtain ⟨m1, m2⟩ := hsame e' he' (k1.trans hk)
      refine ⟨Q1, q, Q2, st, ?_, by rw [h.blocks, hQ], by rw [h.start, hQ], rfl, rfl, by rw [← hQ]; exact h.nodup, hk,
        by rw [← k2, m1], by rw [← k3, m2], ?_, ?_⟩
      · rw [diceOnce, h.start, hf, hs]; simp
      · rw [← hQ, h.trips, trips_append, Ceres.trips, Ceres.trips, if_pos]
        rw [← hkeyeq, ← hk]
        exact List.mem_map_of_mem hmem
      · intro q' hq'; rw [← hQ] at hq'; exact .inl hq'
    | none =>
      rw [h.start] at hf
      have hno := startsOf_find_none B e.key Qs 0 hf
      refine ⟨Qs, ⟨e.key, e.im, e.mod0, fun _ _ => []⟩, [],
        { st with blocks := st.blocks ++ dice B e.im e.mod0,
                  start := st.start ++ [(e.key, st.blocks.length, nblocks B e.im.img.w, nblocks B e.im.img.h)] },
        ?_, ?_, ?_, ?_, ?_, ?_, rfl, rfl, rfl, ?_, ?_⟩
      · rw [diceOnce, h.start, hf]
        simp only
        rw [h.blocks]
        rfl
      · simp only [h.blocks]
        simp [allBlocks, List.flatMap_append, dice_eq]
      · simp only [h.blocks, h.start]
        rw [startsOf_append]; simp [startsOf]; exact ⟨rfl, rfl⟩
      · rfl
      · rfl
      · rw [List.map_append, List.nodup_append]
        refine ⟨h.nodup, by simp, ?_⟩
        intro a ha b hb e
        simp only [List.map_cons, List.map_nil, List.mem_singleton] at hb
        subst e; subst hb; exact hno ha
      · rw [List.map_append, h.trips, trips_append, Ceres.trips, Ceres.trips, if_neg]
        · rfl
        · rw [← hkeyeq]; exact hno
      · intro q' hq'
        rw [List.mem_append, List.mem_singleton] at hq'
        rcases hq' with hq' | rfl
        · exact .inl hq'
        · refine .inr ⟨rfl, fun _ _ => rfl, ?_⟩
          intro e' he' hke
          apply hno
          rw [hkeyeq, ← hke]
          have key : ∀ (es : List (Entry R)) (l : List (Nat × Im R × Arr R)),
              (∀ t ∈ l.map (·.1), t ∈ (Ceres.trips l es).map (·.1)) ∧
              ∀ e' ∈ es, e'.key ∈ (Ceres.trips l es).map (·.1) := by
            intro es
            induction es with
            | nil => intro l; exact ⟨fun t ht => ht, by simp⟩
            | cons e1 es ih =>
              intro l
              rw [Ceres.trips]
              constructor
              · intro t ht
                refine (ih _).1 t ?_
                split
                · exact ht
                · rw [List.map_append]; exact List.mem_append_left _ ht
              · intro e' he'
                rcases List.mem_cons.1 he' with rfl | he'
                · refine (ih _).1 _ ?_
                  split
                  · assumption
                  · rw [List.map_append]; simp
                · exact (ih _).2 e' he'
          exact (key done []).2 e' he'
  have hh' : 0 < q.im.img.h := by rw [him]; exact hh
  have hw' : 0 < q.im.img.w := by rw [him]; exact hw
  obtain ⟨st', A', ea, b', t', p', s', k', c'⟩ := addMods_ok B hB Q1 Q2 e.scale e.umods e.off q st0 hh' hw' hbl
    (by rw [hus, hsl]; exact h.slots)
  have hkeys' : (Q1 ++ q.with A' :: Q2).map Q.key = (Q1 ++ q :: Q2).map Q.key := by
    simp [Q.with]
  have htrip' : (Q1 ++ q.with A' :: Q2).map Q.trip = (Q1 ++ q :: Q2).map Q.trip := by
    simp [Q.with, Q.trip]
  refine ⟨st', Q1 ++ q.with A' :: Q2, ?_, ⟨b', ?_, ?_, s', ?_, ?_, ?_⟩, ?_⟩
  · rw [addEntry, hd]
    simp only
    rw [← him]
    exact ea
  · rw [t', hst, startsOf_with]
  · rw [hkeys']; exact hnd
  · rw [htrip']; exact htr
  · intro j
    rw [k', hus, h.used]
    simp only [List.mem_append, List.mem_singleton, him]
    constructor
    · rintro (⟨e', h1, h2⟩ | h1)
      · exact ⟨e', .inl h1, h2⟩
      · exact ⟨e, .inr rfl, h1⟩
    · rintro ⟨e', h1 | rfl, h2⟩
      · exact .inl ⟨e', h1, h2⟩
      · exact .inr h2
  · intro val flux hc q' hq' y x hy hx
    have hc0 : Compat val flux st.used := by rw [← hus]; exact hc.prefix p'
    rw [List.filter_append, List.map_append, List.sum_append]
    have hother : ∀ q', q' ∈ Q1 ++ Q2 → q'.key ≠ e.key := by
      intro q' hq' he
      rw [← hk] at he
      rw [List.map_append, List.map_cons] at hnd
      have hnd2 := List.nodup_middle.1 hnd
      have := (List.nodup_cons.1 hnd2).1
      apply this
      rw [← List.map_append, ← he]
      exact List.mem_map_of_mem hq'
    have hcase : q' = q.with A' ∨ q' ∈ Q1 ++ Q2 := by
      simp only [List.mem_append, List.mem_cons] at hq' ⊢
      tauto
    rcases hcase with rfl | hq2
    · have := c' val flux hc y x hy hx
      rw [show (q.with A').A = A' from rfl, this]
      have hkey : (q.with A').key = e.key := hk
      rw [List.filter_cons_of_pos (by simp [hkey])]
      simp only [List.filter_nil, List.map_cons, List.map_nil, List.sum_cons, List.sum_nil, add_zero]
      congr 1
      rcases hcont q (by simp) with hm | ⟨-, hA, hno⟩
      · rw [h.content val flux hc0 q hm y x hy hx, hkey, hk]
      · rw [hA, hkey, List.filter_eq_nil_iff.2 (fun a ha => by simpa using hno a ha)]
        simp [contrib]
    · rw [List.filter_cons_of_neg (by simpa using (hother q' hq2).symm)]
      simp only [List.filter_nil, List.map_nil, List.sum_nil, add_zero]
      have hm : q' ∈ Q1 ++ q :: Q2 := by
        simp only [List.mem_append, List.mem_cons] at hq2 ⊢
        tauto
      rcases hcont q' hm with hm | ⟨rfl, -, -⟩
      · exact h.content val flux hc0 q' hm y x hy hx
      · exact absurd hk (hother _ hq2)
  · intro q' hq'
    have hcase : q' = q.with A' ∨ q' ∈ Q1 ++ q :: Q2 := by
      simp only [List.mem_append, List.mem_cons] at hq' ⊢
      tauto
    rcases hcase with rfl | hq'
    · exact ⟨e, by simp, hk.symm, him.symm, hmod.symm⟩
    · rcases hcont q' hq' with hm | ⟨rfl, -, -⟩
      · obtain ⟨e', h1, h2⟩ := hkeys q' hm
        exact ⟨e', List.mem_append_left _ h1, h2⟩
      · exact ⟨e, by simp, hk.symm, him.symm, hmod.symm⟩

theorem addEntries_ok (B : Nat) (hB : 0 < B) : ∀ (es done : List (Entry R)) (st : St R) (Qs : List (Q R)),
    (∀ e ∈ done ++ es, 0 < e.im.img.h ∧ 0 < e.im.img.w) →
    (∀ e ∈ done ++ es, ∀ e' ∈ done ++ es, e'.key = e.key → e'.im = e.im ∧ e'.mod0 = e.mod0) →
    (∀ q ∈ Qs, ∃ e' ∈ done, e'.key = q.key ∧ e'.im = q.im ∧ e'.mod0 = q.mod0) →
    Inv B done st Qs → ∃ st' Qs', addEntries B es st = .ok st' ∧ Inv B (done ++ es) st' Qs'
  | [], done, st, Qs, _, _, _, h => ⟨st, Qs, rfl, by rw [List.append_nil]; exact h⟩
  | e :: es, done, st, Qs, h1, h2, h3, h => by
    obtain ⟨st', Qs', h4, h5, h6⟩ := addEntry_ok B hB done e st Qs (h1 e (by simp)).1 (h1 e (by simp)).2
      (fun e' he' => h2 e (by simp) e' (List.mem_append_left _ he')) h3 h
    have e : done ++ e :: es = (done ++ [e]) ++ es := by simp
    rw [e] at h1 h2 ⊢
    obtain ⟨st'', Qs'', h7, h8⟩ := addEntries_ok B hB es (done ++ [_]) st' Qs' h1 h2 h6 h5
    exact ⟨st'', Qs'', by rw [addEntries, h4]; exact h7, h8⟩

theorem run_ok (B : Nat) (hB : 0 < B) (Z : List (Entry R)) (h1 : ∀ e ∈ Z, 0 < e.im.img.h ∧ 0 < e.im.img.w)
    (h2 : ∀ e ∈ Z, ∀ e' ∈ Z, e'.key = e.key → e'.im = e.im ∧ e'.mod0 = e.mod0) :
    ∃ st Qs, addEntries B Z ⟨[], [], [], 0⟩ = .ok st ∧ Inv B Z st Qs := by
  have := addEntries_ok B hB Z [] ⟨[], [], [], 0⟩ [] (by simpa using h1) (by simpa using h2) (by simp)
    ⟨rfl, rfl, by simp, ⟨rfl, by simp⟩, rfl, by simp, by simp⟩
  simpa using this

end

end Verif.Ceres
