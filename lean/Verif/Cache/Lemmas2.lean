import Verif.Cache.Lemmas

set_option linter.unusedSimpArgs false
set_option linter.unusedVariables false

/-! Helper lemmas for cached model patches (C22). -/

namespace Verif.Cache

open Verif

variable {I S M R P K : Type} [DecidableEq K] [LinearOrder R] [Zero R]

/-- The accuracy a call effectively asks for. -/
def Act.accuracy (w : World I S M R P K) : Act I S M R → Option R
  | .patch i _ msb => some (msb.getD (w.modelMinval i))
  | _ => none

/-- Cache contents are renderings under the masks `m0` with accuracies in `rs`. -/
structure Good (w : World I S M R P K) (m0 : M) (rs : List R) (t : Tr K M R P) : Prop where
  masks : t.masks = m0
  cache : ∃ c, t.cache = some c ∧ (ks c.dict).Nodup ∧ 0 < c.maxsize ∧
    ∀ k e p, find k c.dict = some e → e.val.2 = some p →
      ∃ i s, w.key i s = k ∧ w.render m0 i s e.val.1 = some p ∧ e.val.1 ∈ rs

theorem nodup_get {V : Type} (c : State K V) (k : K) (hn : (ks c.dict).Nodup) :
    (ks (get c k).1.dict).Nodup := by
  simp only [get]
  cases hf : find k c.dict with
  | none => exact hn
  | some e =>
    simp only [List.map_append, ks_without, List.map_cons, List.map_nil]
    refine List.Nodup.append (hn.erase k) (by simp) ?_
    intro x hx hx'
    simp only [List.mem_singleton] at hx'
    subst hx'
    exact (List.Nodup.not_mem_erase hn) hx

theorem getD_spec {V : Type} (c : State K V) (k : K) (d : V) (hn : (ks c.dict).Nodup) :
    (ks (getD c k d).1.dict).Nodup ∧ (getD c k d).1.maxsize = c.maxsize ∧
    (∀ k', (find k' (getD c k d).1.dict).map (·.val) = (find k' c.dict).map (·.val)) ∧
    (getD c k d).2 = ((find k c.dict).map (·.val)).getD d := by
  have h1 : (getD c k d).1 = (get c k).1 := by
    simp only [getD]
    rcases h : get c k with ⟨c', r⟩
    cases r <;> rfl
  have h2 : (getD c k d).2 = ((find k c.dict).map (·.val)).getD d := by
    simp only [getD, get]
    cases find k c.dict <;> rfl
  refine ⟨?_, ?_, ?_, h2⟩
  · rw [h1]
    exact nodup_get c k hn
  · rw [h1]; simp only [get]; cases find k c.dict <;> rfl
  · intro k'; rw [h1]; exact find_get c k k' hn

theorem good_patch (w : World I S M R P K) (m0 : M) (rs : List R) (t : Tr K M R P)
    (hkey : ∀ i s i' s', w.key i s = w.key i' s' → w.render m0 i s = w.render m0 i' s')
    (h : Good w m0 rs t) (i : I) (s : S) (msb : Option R) :
    (∃ r ∈ rs ++ [msb.getD (w.modelMinval i)], r ≤ msb.getD (w.modelMinval i) ∧
      (getModelPatch w t i s msb).2 = w.render m0 i s r) ∧
    Good w m0 (rs ++ [msb.getD (w.modelMinval i)]) (getModelPatch w t i s msb).1 := by
  obtain ⟨hm, c, hc, hn, hmax, hgood⟩ := h
  subst hm
  obtain ⟨g1, g2, g3, g4⟩ := getD_spec c (w.key i s) (0, none) hn
  have hgood' : ∀ k e p, find k (getD c (w.key i s) (0, none)).1.dict = some e →
      e.val.2 = some p → ∃ i s, w.key i s = k ∧ w.render t.masks i s e.val.1 = some p ∧ e.val.1 ∈ rs := by
    intro k e p he hp
    have := g3 k
    rw [he] at this
    simp only [Option.map_some] at this
    symm at this
    rw [Option.map_eq_some_iff] at this
    obtain ⟨e', he', hv⟩ := this
    rw [← hv] at hp ⊢
    exact hgood k e' p he' hp
  generalize hmsb : msb.getD (w.modelMinval i) = ms
  rcases hg : getD c (w.key i s) (0, none) with ⟨c1, mv, mod⟩
  rw [hg] at g1 g2 g3 g4 hgood'
  simp only at g1 g2 g3 g4 hgood'
  -- the fresh-rendering branch
  have fresh : Good w t.masks (rs ++ [ms])
      { t with cache := some (store (fun _ => 0) c1 (w.key i s) (ms, w.render t.masks i s ms)).1 } := by
    refine ⟨rfl, _, rfl, ?_, ?_, ?_⟩
    · -- nodup
      simp only [store]
      split
      · cases hd : c1.dict with
        | nil => simp [hd]
        | cons p d =>
          rw [hd] at g1
          simp only [List.map_cons, List.nodup_cons] at g1
          by_cases hk : w.key i s ∈ ks d
          · simp only []; rw [ks_assign_mem _ _ _ hk]; exact g1.2
          · simp only []
            rw [assign_not_mem _ _ _ hk, ks, List.map_append]
            refine List.Nodup.append g1.2 (by simp) ?_
            intro x hx hx'
            simp only [List.map_cons, List.map_nil, List.mem_singleton] at hx'
            subst hx'; exact hk hx
      · by_cases hk : w.key i s ∈ ks c1.dict
        · simp only []; rw [ks_assign_mem _ _ _ hk]; exact g1
        · simp only []
          rw [assign_not_mem _ _ _ hk, ks, List.map_append]
          refine List.Nodup.append g1 (by simp) ?_
          intro x hx hx'
          simp only [List.map_cons, List.map_nil, List.mem_singleton] at hx'
          subst hx'; exact hk hx
    · have : (store (fun _ => 0) c1 (w.key i s) (ms, w.render t.masks i s ms)).1.maxsize = c1.maxsize := by
        simp only [store]
        split
        · cases c1.dict <;> rfl
        · rfl
      rw [this, g2]; exact hmax
    · intro k e p he hp
      rcases find_store _ c1 _ k _ e g1 he with ⟨rfl, h | ⟨h, h'⟩⟩ | ⟨hne, h⟩
      · rw [h] at hp ⊢
        exact ⟨i, s, rfl, hp, by simp⟩
      · rw [h', g2] at h; simp at h; omega
      · obtain ⟨i', s', a, b, c⟩ := hgood' k e p h hp
        exact ⟨i', s', a, b, by simp [c]⟩
  simp only [getModelPatch, hc, hg, hmsb]
  by_cases hlt : ms < mv
  · simp only [if_pos hlt]
    exact ⟨⟨ms, by simp, le_refl _, rfl⟩, fresh⟩
  · simp only [if_neg hlt]
    cases hmod : mod with
    | none => exact ⟨⟨ms, by simp, le_refl _, rfl⟩, fresh⟩
    | some p =>
      subst hmod
      cases hf : find (w.key i s) c.dict with
      | none => rw [hf] at g4; simp at g4
      | some e =>
        rw [hf] at g4
        simp only [Option.map_some, Option.getD_some] at g4
        obtain ⟨i', s', a, b, d⟩ := hgood _ e p hf (by rw [← g4])
        rw [← g4] at b d
        refine ⟨⟨mv, by simp [d], not_lt.mp hlt, ?_⟩, rfl, c1, rfl, g1, by rw [g2]; exact hmax, ?_⟩
        · simp only
          rw [← b, hkey i' s' i s a]
        · intro k e p he hp
          obtain ⟨i', s', a, b, c⟩ := hgood' k e p he hp
          exact ⟨i', s', a, b, by simp [c]⟩

theorem good_acts (w : World I S M R P K) (m0 : M)
    (hkey : ∀ i s i' s', w.key i s = w.key i' s' → w.render m0 i s = w.render m0 i' s')
    (acts : List (Act I S M R)) (hno : ∀ a ∈ acts, ∀ m, a ≠ .setMasks m)
    (rs : List R) (t : Tr K M R P) (h : Good w m0 rs t) :
    Good w m0 (rs ++ acts.filterMap (Act.accuracy w)) (acts.foldl (act w) t) := by
  induction acts generalizing rs t with
  | nil => simpa using h
  | cons a acts ih =>
    have hno' := fun b hb => hno b (List.mem_cons_of_mem a hb)
    cases a with
    | setMasks m => exact absurd rfl (hno _ (List.mem_cons_self ..) m)
    | patch i s msb =>
      have := ih hno' _ _ (good_patch w m0 rs t hkey h i s msb).2
      simpa [Act.accuracy, act] using this
    | clearCache =>
      have : Good w m0 rs (act w t .clearCache) := by
        obtain ⟨hm, c, hc, hn, hmax, -⟩ := h
        exact ⟨hm, clear c, by simp [act, hc], by simp [clear], hmax, by simp [clear, find]⟩
      have h2 := ih hno' rs _ this
      rw [List.filterMap_cons_none (by rfl)]
      exact h2

theorem maxsize_acts (w : World I S M R P K) (acts : List (Act I S M R)) (t : Tr K M R P) (m : Nat)
    (h : ∃ c, t.cache = some c ∧ c.maxsize = m) :
    ∃ c, (acts.foldl (act w) t).cache = some c ∧ c.maxsize = m := by
  induction acts generalizing t with
  | nil => exact h
  | cons a acts ih =>
    apply ih
    obtain ⟨c, hc, hm⟩ := h
    cases a with
    | setMasks m => exact ⟨c, hc, hm⟩
    | clearCache => exact ⟨clear c, by simp [act, hc], hm⟩
    | patch i s msb =>
      have h1 : (getD c (w.key i s) (0, none)).1.maxsize = c.maxsize := by
        simp only [getD, get]
        cases find (w.key i s) c.dict <;> rfl
      have h2 : ∀ (c : State K (R × Option P)) k v,
          (store (fun _ => 0) c k v).1.maxsize = c.maxsize := by
        intro c k v
        simp only [store]
        split
        · cases c.dict <;> rfl
        · rfl
      simp only [act, getModelPatch, hc]
      split
      · exact ⟨_, rfl, h1.trans hm⟩
      · exact ⟨_, rfl, (h2 _ _ _).trans (h1.trans hm)⟩

end Verif.Cache
