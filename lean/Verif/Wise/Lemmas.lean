import Verif.Wise.Spec
import Mathlib.Tactic.Linarith
import Mathlib.Data.List.Basic

/-!
# Lemmas: array assignments and the loop over tiles
-/

namespace Verif.Wise

variable {R S : Type}

theorem foldl_update {α : Type} : ∀ (is : List Nat) (vs : List α) (a : Nat → α), is.Nodup → vs.length = is.length →
    (∀ (k : Nat) i v, is[k]? = some i → vs[k]? = some v → (is.zip vs).foldl (fun a p => Function.update a p.1 p.2) a i = v) ∧
    ∀ i, i ∉ is → (is.zip vs).foldl (fun a p => Function.update a p.1 p.2) a i = a i
  | [], _, _, _, _ => ⟨fun k i v h => by simp at h, fun _ _ => rfl⟩
  | _ :: _, [], _, _, h => by simp at h
  | j :: is, w :: vs, a, hn, hl => by
    obtain ⟨h1, h2⟩ := foldl_update is vs (Function.update a j w) (List.nodup_cons.mp hn).2 (by simpa using hl)
    refine ⟨?_, ?_⟩
    · intro k i v hi hv
      rw [List.zip_cons_cons, List.foldl_cons]
      cases k with
      | zero =>
        simp only [List.getElem?_cons_zero, Option.some.injEq] at hi hv
        subst hi hv
        rw [h2 j (List.nodup_cons.mp hn).1, Function.update_self]
      | succ k => exact h1 k i v (by simpa using hi) (by simpa using hv)
    · intro i hi
      rw [List.mem_cons, not_or] at hi
      rw [List.zip_cons_cons, List.foldl_cons, h2 i hi.2, Function.update_of_ne hi.1]

/-- Assigning as many values as there are indices. -/
theorem assign_ok {α : Type} (a : Nat → α) (is : List Nat) (vs : List α) (hn : is.Nodup) (hl : vs.length = is.length) :
    ∃ a', assign a is vs = .ok a' ∧ (∀ (k : Nat) i v, is[k]? = some i → vs[k]? = some v → a' i = v) ∧ ∀ i, i ∉ is → a' i = a i := by
  obtain ⟨h1, h2⟩ := foldl_update is vs a hn hl
  refine ⟨_, ?_, h1, h2⟩
  unfold assign
  rw [if_pos hl]

theorem sum_ones : ∀ (l : List Nat), (∀ x ∈ l, x = 1) → l.sum = l.length
  | [], _ => rfl
  | x :: l, h => by
    rw [List.sum_cons, sum_ones l (fun y hy => h y (List.mem_cons_of_mem _ hy)), h x List.mem_cons_self, List.length_cons, Nat.add_comm]

section
variable [Field R] [LinearOrder R]

theorem inMargin_iff {t : Tile R} {i : Nat} (hp : t.present = true) : t.inMargin i = true ↔ Near t i := by
  unfold Tile.inMargin Near
  simp only [Bool.and_eq_true, decide_eq_true_eq, hp, true_and, and_assoc]

theorem inBox_iff {t : Tile R} {i : Nat} (hp : t.present = true) : t.inBox i = true ↔ Inside t i := by
  unfold Tile.inBox Inside
  simp only [Bool.and_eq_true, decide_eq_true_eq, hp, true_and, and_assoc]

theorem Inside.near [IsStrictOrderedRing R] {t : Tile R} {i : Nat} (h : Inside t i) : Near t i := by
  obtain ⟨h0, h1, h2, h3, h4⟩ := h
  refine ⟨h0, ?_, ?_, ?_, ?_⟩ <;> linarith

theorem mem_kept {N : Nat} {t : Tile R} {d : Nat → R} {i : Nat} (hp : t.present = true) :
    i ∈ kept N t d ↔ i < N ∧ Near t i ∧ Inside t i ∧ centreDist t i < d i := by
  unfold kept near
  rw [List.mem_filter, List.mem_filter, List.mem_range, inMargin_iff hp, Bool.and_eq_true, inBox_iff hp, decide_eq_true_eq]
  unfold centreDist Tile.dist
  tauto

theorem mem_all {N : Nat} {t : Tile R} {d : Nat → R} {j : Nat} (hp : t.present = true) :
    j ∈ kept N t d ++ others N t d ↔ j < N ∧ Near t j := by
  unfold kept others near
  rw [List.mem_append, List.mem_filter, List.mem_filter, List.mem_filter, List.mem_range, ← inMargin_iff hp]
  cases (t.inBox j && decide (t.dist j < d j)) <;> simp

theorem nodup_all (N : Nat) (t : Tile R) (d : Nat → R) : (kept N t d ++ others N t d).Nodup := by
  unfold kept others near
  have hn : ((List.range N).filter t.inMargin).Nodup := List.Nodup.sublist List.filter_sublist List.nodup_range
  rw [List.nodup_append]
  refine ⟨hn.sublist List.filter_sublist, hn.sublist List.filter_sublist, ?_⟩
  intro a ha b hb e
  subst e
  rw [List.mem_filter] at ha hb
  rw [ha.2] at hb
  simp at hb

/-- What the arrays say about one source. -/
def Holds (N : Nat) (par : Nat → Nat) (fit : Fit R S) (t : Tile R) (i : Nat) (st : State R S) : Prop :=
  ∃ l r k, fit t l = .ok r ∧ (∀ j, j ∈ l.map (·.1) ↔ j < N ∧ Near t j) ∧ (l.map (·.1)).Nodup ∧ (l.map (·.1))[k]? = some i ∧
    r.flux[k]? = some (st.flux i) ∧ r.iv[((l.map (fun p => par p.1)).take k).sum]? = some (st.ivar i) ∧
    (∀ s, r.stats = some s → s[k]? = st.stat i) ∧ st.tile i = some t.id

/-- The invariant of the loop. -/
structure Inv (N : Nat) (par : Nat → Nat) (fit : Fit R S) (st0 : State R S) (done : List (Tile R)) (i : Nat) (st : State R S) : Prop where
  dist : ∀ r, r < st.dist i ↔ r < 10 ^ 100 ∧ ∀ u ∈ done, Near u i → r < centreDist u i
  res : (∃ t, Nearest done t i ∧ Holds N par fit t i st) ∨
    ((∀ u ∈ done, ¬ Inside u i) ∧ st.flux i = st0.flux i ∧ st.ivar i = 0 ∧ st.stat i = none ∧ st.tile i = st0.tile i)

/-- What is saved of a fit. -/
theorem save_ok {par : Nat → Nat} {fit : Fit R S} (hf : Proper par fit) {N : Nat} (h1 : ∀ i < N, par i = 1) (st : State R S) {t : Tile R}
    {d : Nat → R} (hp : t.present = true) {start : Nat → List R} {r : Result R S}
    (hr : fit t ((kept N t d ++ others N t d).map (fun i => (i, start i))) = .ok r) :
    ∃ st', save st (kept N t d) r = .ok st' ∧ st'.dist = st.dist ∧ st'.tile = st.tile ∧
      (∀ i, i ∉ kept N t d → st'.flux i = st.flux i ∧ st'.ivar i = st.ivar i ∧ st'.stat i = st.stat i) ∧
      ∀ i, i ∈ kept N t d → st.tile i = some t.id → Holds N par fit t i st' := by
  set srci := kept N t d with hsrc
  set margi := others N t d with hmar
  obtain ⟨l1, l2, l3⟩ := hf _ _ _ hr
  have hlen : ((srci ++ margi).map (fun i => (i, start i))).length = srci.length + margi.length := by simp
  have hiv : r.iv.length = srci.length + margi.length := by
    rw [l2, sum_ones, List.length_map, hlen]
    intro x hx
    rw [List.map_map, List.mem_map] at hx
    obtain ⟨j, hj, rfl⟩ := hx
    exact h1 j ((mem_all hp).mp hj).1
  have hnd := nodup_all N t d
  have hns : srci.Nodup := (List.nodup_append.mp hnd).1
  obtain ⟨fl, e1, f1, f2⟩ := assign_ok st.flux srci (r.flux.take srci.length) hns (by rw [List.length_take, l1, hlen]; omega)
  obtain ⟨iv, e2, v1, v2⟩ := assign_ok st.ivar srci (r.iv.take srci.length) hns (by rw [List.length_take, hiv]; omega)
  have mapfst : ((srci ++ margi).map (fun i => (i, start i))).map (·.1) = srci ++ margi := by
    rw [List.map_map]; exact List.map_id _
  have mappar : ((srci ++ margi).map (fun i => (i, start i))).map (fun p => par p.1) = (srci ++ margi).map par := by
    rw [List.map_map]; rfl
  have main : ∀ (st' : State R S), st'.flux = fl → st'.ivar = iv →
      (∀ s, r.stats = some s → ∀ (k : Nat) i, srci[k]? = some i → s[k]? = st'.stat i) → st'.tile = st.tile →
      ∀ i, i ∈ srci → st.tile i = some t.id → Holds N par fit t i st' := by
    intro st' a1 a2 a3 a4 i hi htile
    obtain ⟨k, hk⟩ := List.mem_iff_getElem?.mp hi
    have hkl : k < srci.length := (List.getElem?_eq_some_iff.mp hk).1
    have hk' : (srci ++ margi)[k]? = some i := by rw [List.getElem?_append_left hkl, hk]
    refine ⟨_, r, k, hr, ?_, ?_, ?_, ?_, ?_, fun s hs => a3 s hs k i hk, ?_⟩
    · intro j; rw [mapfst]; exact mem_all hp
    · rw [mapfst]; exact hnd
    · rw [mapfst]; exact hk'
    · rw [a1]
      have hlt : k < r.flux.length := by rw [l1, hlen]; omega
      rw [List.getElem?_eq_getElem hlt, f1 k i (r.flux[k]'hlt) hk]
      rw [List.getElem?_take, if_pos hkl, List.getElem?_eq_getElem hlt]
    · rw [a2, mappar, sum_ones]
      · rw [List.length_take, List.length_map, List.length_append, Nat.min_eq_left (by omega)]
        have hlt : k < r.iv.length := by rw [hiv]; omega
        rw [List.getElem?_eq_getElem hlt, v1 k i (r.iv[k]'hlt) hk]
        rw [List.getElem?_take, if_pos hkl, List.getElem?_eq_getElem hlt]
      · intro x hx
        obtain ⟨j, hj, rfl⟩ := List.mem_map.mp (List.mem_of_mem_take hx)
        exact h1 j ((mem_all hp).mp hj).1
    · rw [a4]; exact htile
  cases hs : r.stats with
  | none =>
    refine ⟨{ st with flux := fl, ivar := iv }, ?_, rfl, rfl, fun i hi => ⟨f2 i hi, v2 i hi, rfl⟩,
      main _ rfl rfl (fun s h => by rw [hs] at h; cases h) rfl⟩
    unfold save
    rw [e1, e2, hs]
    rfl
  | some s =>
    have hsl := l3 s hs
    obtain ⟨sa, e3, s1, s2⟩ := assign_ok st.stat srci ((s.take srci.length).map some) hns
      (by rw [List.length_map, List.length_take, hsl, hlen]; omega)
    refine ⟨{ st with flux := fl, ivar := iv, stat := sa }, ?_, rfl, rfl, fun i hi => ⟨f2 i hi, v2 i hi, s2 i hi⟩,
      main _ rfl rfl (fun s' h k i hk => ?_) rfl⟩
    · unfold save
      rw [e1, e2, hs]
      show (do let stat ← assign st.stat srci ((s.take srci.length).map some); Except.ok _) = _
      rw [e3]
      rfl
    · rw [hs] at h
      cases h
      have hkl : k < srci.length := (List.getElem?_eq_some_iff.mp hk).1
      have hlt : k < s.length := by rw [hsl, hlen]; omega
      show s[k]? = sa i
      rw [s1 k i (some (s[k]'hlt)) hk, List.getElem?_eq_getElem hlt]
      rw [List.getElem?_map, List.getElem?_take, if_pos hkl, List.getElem?_eq_getElem hlt]
      rfl

/-- One more tile after the nearest. -/
theorem Nearest.append {done : List (Tile R)} {t u : Tile R} {i : Nat} (h : Nearest done t i)
    (hu : Inside u i → centreDist t i ≤ centreDist u i) : Nearest (done ++ [u]) t i := by
  obtain ⟨h1, a, b, rfl, h2, h3⟩ := h
  refine ⟨h1, a, b ++ [u], by simp, h2, ?_⟩
  intro v hv hi
  rw [List.mem_append, List.mem_singleton] at hv
  rcases hv with hv | rfl
  · exact h3 v hv hi
  · exact hu hi

theorem Nearest.le {done : List (Tile R)} {t u : Tile R} {i : Nat} (h : Nearest done t i) (hu : u ∈ done) (hi : Inside u i) :
    centreDist t i ≤ centreDist u i := by
  obtain ⟨h1, a, b, rfl, h2, h3⟩ := h
  rw [List.mem_append, List.mem_cons] at hu
  rcases hu with hu | rfl | hu
  · exact (h2 u hu hi).le
  · exact le_rfl
  · exact h3 u hu hi

/-- The step keeps the invariant. -/
theorem step_inv [IsStrictOrderedRing R] {par : Nat → Nat} {fit : Fit R S} (hf : Proper par fit) {N : Nat} (h1 : ∀ i < N, par i = 1)
    {st0 st st' : State R S} {done rest : List (Tile R)} {t : Tile R} {i : Nat} (hi : i < N) (ho : Orderly (done ++ t :: rest) i)
    (hv : Inv N par fit st0 done i st) (hs : step N fit st t = .ok st') : Inv N par fit st0 (done ++ [t]) i st' := by
  have hmem : t ∈ done ++ t :: rest := by simp
  unfold step at hs
  by_cases hp : t.present = true
  · rw [if_neg (by rw [hp]; decide)] at hs
    simp only at hs
    -- the distances
    have hdist : ∀ r, r < newDist N t st.dist i ↔ r < 10 ^ 100 ∧ ∀ u ∈ done ++ [t], Near u i → r < centreDist u i := by
      intro r
      have hd := hv.dist r
      have e : (∀ u ∈ done ++ [t], Near u i → r < centreDist u i) ↔
          (∀ u ∈ done, Near u i → r < centreDist u i) ∧ (Near t i → r < centreDist t i) := by
        constructor
        · intro h
          exact ⟨fun u hu => h u (List.mem_append_left _ hu), h t (by simp)⟩
        · rintro ⟨ha, hb⟩ u hu
          rw [List.mem_append, List.mem_singleton] at hu
          rcases hu with hu | rfl
          · exact ha u hu
          · exact hb
      rw [e, ← and_assoc, ← hd]
      unfold newDist
      rw [show t.dist i = centreDist t i from rfl]
      by_cases hc : i < N ∧ Near t i ∧ centreDist t i < st.dist i
      · rw [if_pos ⟨hc.1, (inMargin_iff hp).mpr hc.2.1, hc.2.2⟩]
        constructor
        · intro h
          exact ⟨h.trans hc.2.2, fun _ => h⟩
        · rintro ⟨-, h⟩
          exact h hc.2.1
      · rw [if_neg (fun hh => hc ⟨hh.1, (inMargin_iff hp).mp hh.2.1, hh.2.2⟩)]
        constructor
        · intro h
          refine ⟨h, fun hn => ?_⟩
          by_contra hlt
          exact hc ⟨hi, hn, lt_of_le_of_lt (not_lt.mp hlt) h⟩
        · exact fun h => h.1
    -- unchanged if not kept
    have hun : i ∉ kept N t st.dist → ∀ st2 : State R S, st2.dist = newDist N t st.dist → st2.flux i = st.flux i → st2.ivar i = st.ivar i →
        st2.stat i = st.stat i → st2.tile i = st.tile i → Inv N par fit st0 (done ++ [t]) i st2 := by
      intro hk st2 a1 a2 a3 a4 a5
      refine ⟨by rw [a1]; exact hdist, ?_⟩
      have hfar : Inside t i → ∃ u ∈ done, Inside u i ∧ centreDist u i ≤ centreDist t i := by
        intro hin
        have hnc : ¬ centreDist t i < st.dist i := fun h => hk ((mem_kept hp).mpr ⟨hi, hin.near, hin, h⟩)
        rw [hv.dist] at hnc
        push Not at hnc
        obtain ⟨u, hu, hun, hle⟩ := hnc (ho t hmem hin).1
        refine ⟨u, hu, ?_, hle⟩
        by_contra hni
        exact absurd ((ho t hmem hin).2 u (List.mem_append_left _ hu) hun hni) (not_lt.mpr hle)
      rcases hv.res with ⟨v, hn, l, r, k, b1, b2, b3, b4, b5, b6, b7, b8⟩ | ⟨c1, c2, c3, c4, c5⟩
      · refine Or.inl ⟨v, hn.append (fun hin => ?_), l, r, k, b1, b2, b3, b4, ?_, ?_, ?_, ?_⟩
        · obtain ⟨u, hu, hui, hle⟩ := hfar hin
          exact (hn.le hu hui).trans hle
        · rw [a2]; exact b5
        · rw [a3]; exact b6
        · rw [a4]; exact b7
        · rw [a5]; exact b8
      · refine Or.inr ⟨?_, by rw [a2]; exact c2, by rw [a3]; exact c3, by rw [a4]; exact c4, by rw [a5]; exact c5⟩
        intro u hu
        rw [List.mem_append, List.mem_singleton] at hu
        rcases hu with hu | rfl
        · exact c1 u hu
        · intro hin
          obtain ⟨w, hw, hwi, -⟩ := hfar hin
          exact c1 w hw hwi
    by_cases he : kept N t st.dist = []
    · rw [if_pos he] at hs
      cases hs
      exact hun (by rw [he]; simp) _ rfl rfl rfl rfl rfl
    · rw [if_neg he] at hs
      split at hs
      · cases hs
      · rename_i r hr
        obtain ⟨st2, s1, s2, s3, s4, s5⟩ := save_ok hf h1
          { st with dist := newDist N t st.dist, tile := fun i => if i ∈ kept N t st.dist then some t.id else st.tile i } hp hr
        rw [s1] at hs
        cases hs
        by_cases hk : i ∈ kept N t st.dist
        · refine ⟨by rw [s2]; exact hdist, Or.inl ⟨t, ?_, s5 i hk (if_pos hk)⟩⟩
          obtain ⟨-, -, hin, hlt⟩ := (mem_kept hp).mp hk
          refine ⟨hin, done, [], rfl, fun u hu hui => ((hv.dist _).mp hlt).2 u hu hui.near, by simp⟩
        · obtain ⟨q1, q2, q3⟩ := s4 i hk
          exact hun hk _ s2 q1 q2 q3 (by rw [s3]; exact if_neg hk)
  · rw [if_pos (by simpa using hp)] at hs
    cases hs
    have hnn : ¬ Near t i := fun h => hp h.1
    have hni : ¬ Inside t i := fun h => hp h.1
    refine ⟨fun r => ?_, ?_⟩
    · rw [hv.dist r]
      refine and_congr_right (fun _ => ⟨fun h u hu hn => ?_, fun h u hu => h u (List.mem_append_left _ hu)⟩)
      rw [List.mem_append, List.mem_singleton] at hu
      rcases hu with hu | rfl
      · exact h u hu hn
      · exact absurd hn hnn
    · rcases hv.res with ⟨v, hn, hh⟩ | ⟨c1, c2⟩
      · exact Or.inl ⟨v, hn.append (fun h => absurd h hni), hh⟩
      · refine Or.inr ⟨?_, c2⟩
        intro u hu
        rw [List.mem_append, List.mem_singleton] at hu
        rcases hu with hu | rfl
        · exact c1 u hu
        · exact hni

/-- The loop over tiles. -/
theorem tiles_inv [IsStrictOrderedRing R] {par : Nat → Nat} {fit : Fit R S} (hf : Proper par fit) {N : Nat} (h1 : ∀ i < N, par i = 1)
    {st0 : State R S} {i : Nat} (hi : i < N) : ∀ (ts : List (Tile R)) (done : List (Tile R)) (st st' : State R S), Orderly (done ++ ts) i →
    Inv N par fit st0 done i st → tiles N fit ts st = .ok st' → Inv N par fit st0 (done ++ ts) i st'
  | [], done, st, st', _, hv, hs => by
    cases hs
    rwa [List.append_nil]
  | t :: ts, done, st, st', ho, hv, hs => by
    unfold tiles at hs
    cases hx : step N fit st t with
    | error e => rw [hx] at hs; cases hs
    | ok st2 =>
      rw [hx] at hs
      have h2 := step_inv hf h1 hi ho hv hx
      have := tiles_inv hf h1 hi ts (done ++ [t]) st2 st' (by simpa using ho) h2 hs
      simpa using this

end

end Verif.Wise
