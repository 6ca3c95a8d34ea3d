import Verif.Gpu.UpdateLemmas

/-!
# Which column belongs to which parameter
-/

namespace Verif.Gpu

open Verif Verif.Psf Verif.Params Verif.Lsq

theorem dictGet_mem (d : List (Nat × Nat)) (k v : Nat) (h : dictGet d k = some v) : (k, v) ∈ d := by
  unfold dictGet at h
  rw [Option.map_eq_some_iff] at h
  obtain ⟨⟨a, b⟩, h1, h2⟩ := h
  have h3 := List.find?_some h1
  have h4 := List.mem_of_find?_eq_some h1
  simp only [decide_eq_true_eq] at h3
  simp only at h2
  subst h3 h2
  simpa using h4

theorem dictGet_some (d : List (Nat × Nat)) (k v : Nat) (h : (k, v) ∈ d) (hf : ∀ v', (k, v') ∈ d → v' = v) :
    dictGet d k = some v := by
  cases e : dictGet d k with
  | some v' => rw [hf v' (dictGet_mem d k v' e)]
  | none =>
    exfalso
    unfold dictGet at e
    rw [Option.map_eq_none_iff, List.find?_eq_none] at e
    exact e (k, v) (by simpa using h) (by simp)

theorem mem_swap (d : List (Nat × Nat)) (s f : Nat) : (f, s) ∈ d.map (fun e => (e.2, e.1)) ↔ (s, f) ∈ d := by
  rw [List.mem_map]
  constructor
  · rintro ⟨⟨a, b⟩, h, e⟩
    simp only [Prod.mk.injEq] at e
    obtain ⟨rfl, rfl⟩ := e
    exact h
  · intro h
    exact ⟨(s, f), h, rfl⟩

theorem mem_bandPairs (ub : List String) (s0 f0 : Nat) (bands : List String) (s f : Nat) :
    (s, f) ∈ bandPairs ub s0 f0 bands ↔ ∃ i b, bands[i]? = some b ∧ b ∈ ub ∧ s = s0 + i ∧ f = f0 + ub.idxOf b := by
  unfold bandPairs
  rw [List.mem_filterMap]
  constructor
  · rintro ⟨⟨b, i⟩, h1, h2⟩
    rw [List.mem_zipIdx_iff_getElem?] at h1
    simp only at h1 h2
    by_cases hb : b ∈ ub
    · rw [if_pos hb] at h2
      simp only [Option.some.injEq, Prod.mk.injEq] at h2
      exact ⟨i, b, h1, hb, h2.1.symm, h2.2.symm⟩
    · rw [if_neg hb] at h2
      cases h2
  · rintro ⟨i, b, h1, h2, rfl, rfl⟩
    exact ⟨(b, i), by rw [List.mem_zipIdx_iff_getElem?]; exact h1, by simp [h2]⟩

theorem mem_uniqueBands (bands : List String) (b : String) : b ∈ uniqueBands bands ↔ b ∈ bands := by
  unfold uniqueBands
  rw [List.mem_mergeSort, List.mem_dedup]

theorem uniqueBands_nodup (bands : List String) : (uniqueBands bands).Nodup := by
  unfold uniqueBands
  exact (List.mergeSort_perm _ _).nodup_iff.mpr (List.nodup_dedup _)

theorem idxOf_inj (ub : List String) (a b : String) (ha : a ∈ ub) (h : ub.idxOf a = ub.idxOf b) : a = b := by
  have h1 := List.idxOf_lt_length_iff.mpr ha
  have h2 : ub.idxOf b < ub.length := by omega
  have e1 := List.getElem_idxOf h1
  have e2 := List.getElem_idxOf h2
  rw [← e1, ← e2]
  simp only [h]

theorem nodup_idx {bands : List String} (hn : bands.Nodup) {i j : Nat} {b : String} (hi : bands[i]? = some b)
    (hj : bands[j]? = some b) : i = j := by
  obtain ⟨a1, a2⟩ := List.getElem?_eq_some_iff.mp hi
  obtain ⟨b1, b2⟩ := List.getElem?_eq_some_iff.mp hj
  exact (hn.getElem_inj_iff).mp (a2.trans b2.symm)

variable {R : Type} [Field R]

/-- The pairs one by one. -/
inductive Paired (job : UpJob R) (ub : List String) : Nat → Nat → Prop
  | pos (s : Star R) (j : Nat) (h : job.src = some s) (h2 : s.npos = 2) (hj : j < 2) : Paired job ub j j
  | flux (s : Star R) (i : Nat) (b : String) (h : job.src = some s) (hb : s.bands[i]? = some b) (hu : b ∈ ub) :
      Paired job ub (s.npos + i) (s.npos + ub.idxOf b)
  | shape (s : Star R) (i : Nat) (h : job.src = some s) (hi : i < s.nshapes) :
      Paired job ub (s.npos + s.bands.length + i) (s.npos + ub.length + i)
  | glow (g : Glow R) (i : Nat) (b : String) (h : job.sb = some g) (hb : g.bands[i]? = some b) (hu : b ∈ ub) :
      Paired job ub ((match job.src with | some s => s.npos + s.bands.length + s.nshapes | none => 0) + i)
        ((match job.src with | some s => s.npos + ub.length + s.nshapes | none => 0) + ub.idxOf b)

theorem mem_paramIndices (job : UpJob R) (hx : Expected job) (ub : List String) (s f : Nat) :
    (s, f) ∈ paramIndices job ub ↔ Paired job ub s f := by
  unfold paramIndices
  simp only [List.mem_append, mem_bandPairs]
  constructor
  · rintro (((h | h) | h) | h)
    · cases hsrc : job.src with
      | none => simp [colsOf, hsrc] at h
      | some st =>
        rcases hx.npos st hsrc with h0 | h2
        · simp [colsOf, hsrc, h0] at h
        · simp only [colsOf, hsrc, h2] at h
          rw [if_pos (by omega)] at h
          simp only [List.mem_cons, Prod.mk.injEq, List.not_mem_nil, or_false] at h
          rcases h with ⟨rfl, rfl⟩ | ⟨rfl, rfl⟩
          · exact .pos st 0 hsrc h2 (by omega)
          · exact .pos st 1 hsrc h2 (by omega)
    · obtain ⟨i, b, h1, h2, h3, h4⟩ := h
      cases hsrc : job.src with
      | none => simp [srcBands, hsrc] at h1
      | some st =>
        simp only [srcBands, hsrc] at h1
        simp only [colsOf, hsrc] at h3 h4
        subst h3 h4
        exact .flux st i b hsrc h1 h2
    · rw [List.mem_map] at h
      obtain ⟨i, h1, h2⟩ := h
      rw [List.mem_range] at h1
      cases hsrc : job.src with
      | none => simp [colsOf, hsrc] at h1
      | some st =>
        simp only [colsOf, srcBands, hsrc, Prod.mk.injEq] at h1 h2
        obtain ⟨rfl, rfl⟩ := h2
        exact .shape st i hsrc h1
    · obtain ⟨i, b, h1, h2, h3, h4⟩ := h
      cases hsb : job.sb with
      | none => simp [sbBands, hsb] at h1
      | some g =>
        simp only [sbBands, hsb] at h1
        have := Paired.glow (ub := ub) g i b hsb h1 h2
        cases hsrc : job.src with
        | none =>
          simp only [colsOf, srcBands, hsrc, List.length_nil, Nat.add_zero] at h3 h4
          simp only [hsrc] at this
          rwa [h3, h4]
        | some st =>
          simp only [colsOf, srcBands, hsrc] at h3 h4
          simp only [hsrc] at this
          rwa [h3, h4]
  · intro h
    cases h with
    | pos st h0 h1 h2 hj =>
      refine .inl (.inl (.inl ?_))
      simp only [colsOf, h1, h2]
      rw [if_pos (by omega)]
      have : s = 0 ∨ s = 1 := by omega
      rcases this with rfl | rfl <;> simp
    | flux st i b h1 hb hu =>
      refine .inl (.inl (.inr ⟨i, b, ?_, hu, ?_, ?_⟩))
      · simpa only [srcBands, h1] using hb
      · simp only [colsOf, h1]
      · simp only [colsOf, h1]
    | shape st i h1 hi =>
      refine .inl (.inr (List.mem_map.mpr ⟨i, List.mem_range.mpr ?_, ?_⟩))
      · simpa only [colsOf, h1] using hi
      · simp only [colsOf, srcBands, h1]
    | glow g i b h1 hb hu =>
      refine .inr ⟨i, b, ?_, hu, ?_, ?_⟩
      · simpa only [sbBands, h1] using hb
      · cases hsrc : job.src with
        | none => simp [colsOf, srcBands, hsrc]
        | some st => simp [colsOf, srcBands, hsrc]
      · cases hsrc : job.src with
        | none => simp [colsOf, hsrc]
        | some st => simp [colsOf, hsrc]

omit [Field R] in
theorem lt_of_idx {bands : List String} {i : Nat} {b : String} (h : bands[i]? = some b) : i < bands.length :=
  (List.getElem?_eq_some_iff.mp h).1

theorem paired_bound (job : UpJob R) (hx : Expected job) (ub : List String) (s f : Nat) (h : Paired job ub s f) :
    s < nOut job ∧ f < (colsOf job ub).total := by
  cases h with
  | pos st h0 h1 h2 hj =>
    have := hx.nparams st h1
    simp only [nOut, colsOf, h1, Cols.total]
    omega
  | flux st i b h1 hb hu =>
    have := hx.nparams st h1
    have := lt_of_idx hb
    have := List.idxOf_lt_length_iff.mpr hu
    simp only [nOut, colsOf, h1, Cols.total]
    omega
  | shape st i h1 hi =>
    have := hx.nparams st h1
    simp only [nOut, colsOf, h1, Cols.total]
    omega
  | glow g i b h1 hb hu =>
    have := lt_of_idx hb
    have := List.idxOf_lt_length_iff.mpr hu
    cases hsrc : job.src with
    | none =>
      simp only [nOut, colsOf, h1, sbBands, hsrc, Cols.total]
      omega
    | some st =>
      have := hx.nparams st hsrc
      simp only [nOut, colsOf, h1, sbBands, hsrc, Cols.total]
      omega

/-- Every column belongs to a parameter. -/
theorem paired_col (job : UpJob R) (hx : Expected job) (f : Nat)
    (hf : f < (colsOf job (uniqueBands (job.tims.map job.band))).total) :
    ∃ s, Paired job (uniqueBands (job.tims.map job.band)) s f := by
  obtain ⟨ub, hub⟩ : ∃ ub, ub = uniqueBands (job.tims.map job.band) := ⟨_, rfl⟩
  have hmem : ∀ j, j < ub.length → ∃ tim ∈ job.tims, ∃ b, b = job.band tim ∧ b ∈ ub ∧ ub.idxOf b = j := by
    intro j hj
    have h1 : ub[j] ∈ ub := List.getElem_mem hj
    have h2 : ub[j] ∈ job.tims.map job.band := (mem_uniqueBands _ _).mp (hub ▸ h1)
    rw [List.mem_map] at h2
    obtain ⟨tim, h3, h4⟩ := h2
    refine ⟨tim, h3, ub[j], ?_, h1, ?_⟩
    · exact h4.symm
    · have hn : ub.Nodup := hub ▸ uniqueBands_nodup _
      exact hn.idxOf_getElem j hj
  rw [← hub] at hf ⊢
  simp only [Cols.total, colsOf] at hf
  have glowcase : ∀ g, job.sb = some g → ∀ j, j < ub.length → ∃ i, Paired job ub
      ((match job.src with | some s => s.npos + s.bands.length + s.nshapes | none => 0) + i)
        ((match job.src with | some s => s.npos + ub.length + s.nshapes | none => 0) + j) := by
    intro g hg j hj
    obtain ⟨tim, h1, b, h2, h3, h4⟩ := hmem j hj
    have := (hx.sbBands g hg).2 tim h1
    rw [← h2] at this
    obtain ⟨i, hi⟩ := List.mem_iff_getElem?.mp this
    refine ⟨i, ?_⟩
    rw [← h4]
    exact .glow g i b hg hi h3
  cases hsrc : job.src with
  | none =>
    cases hsb : job.sb with
    | none => simp [hsrc, hsb] at hf
    | some g =>
      simp only [hsrc, hsb] at hf
      obtain ⟨i, hi⟩ := glowcase g hsb f (by omega)
      simp only [hsrc] at hi
      rw [Nat.zero_add f] at hi
      exact ⟨_, hi⟩
  | some st =>
    simp only [hsrc] at hf
    by_cases c1 : f < st.npos
    · have := hx.npos st hsrc
      exact ⟨f, .pos st f hsrc (by omega) (by omega)⟩
    by_cases c2 : f < st.npos + ub.length
    · obtain ⟨tim, h1, b, h2, h3, h4⟩ := hmem (f - st.npos) (by omega)
      have := (hx.bands st hsrc).2 tim h1
      rw [← h2] at this
      obtain ⟨i, hi⟩ := List.mem_iff_getElem?.mp this
      have := Paired.flux (ub := ub) st i b hsrc hi h3
      rw [h4, show st.npos + (f - st.npos) = f by omega] at this
      exact ⟨_, this⟩
    by_cases c3 : f < st.npos + ub.length + st.nshapes
    · have := Paired.shape (ub := ub) st (f - (st.npos + ub.length)) hsrc (by omega)
      rw [show st.npos + ub.length + (f - (st.npos + ub.length)) = f by omega] at this
      exact ⟨_, this⟩
    · cases hsb : job.sb with
      | none => simp only [hsb] at hf; omega
      | some g =>
        simp only [hsb] at hf
        obtain ⟨i, hi⟩ := glowcase g hsb (f - (st.npos + ub.length + st.nshapes)) (by omega)
        simp only [hsrc] at hi
        rw [show st.npos + ub.length + st.nshapes + (f - (st.npos + ub.length + st.nshapes)) = f by omega] at hi
        exact ⟨_, hi⟩

omit [Field R] in
/-- One column per parameter. -/
theorem paired_fun (job : UpJob R) (ub : List String) (s f f' : Nat) (h : Paired job ub s f)
    (h' : Paired job ub s f') : f = f' := by
  obtain ⟨s', hs'⟩ : ∃ s', s' = s := ⟨_, rfl⟩
  rw [← hs'] at h'
  cases h with
  | pos st h0 h1 h2 hj =>
    cases h' with
    | pos => exact hs'.symm
    | flux st' i b h1' hb hu => rw [h1] at h1'; cases h1'; omega
    | shape st' i h1' hi => rw [h1] at h1'; cases h1'; omega
    | glow g i b h1' hb hu => simp only [h1] at hs' ⊢; omega
  | flux st i b h1 hb hu =>
    have := lt_of_idx hb
    cases h' with
    | pos st' h0 h1' h2 hj => rw [h1] at h1'; cases h1'; omega
    | flux st' i' b' h1' hb' hu' =>
      rw [h1] at h1'; cases h1'
      have : i' = i := by omega
      subst this
      rw [hb] at hb'; cases hb'; rfl
    | shape st' i h1' hi => rw [h1] at h1'; cases h1'; omega
    | glow g i b h1' hb hu => simp only [h1] at hs' ⊢; omega
  | shape st i h1 hi =>
    cases h' with
    | pos st' h0 h1' h2 hj => rw [h1] at h1'; cases h1'; omega
    | flux st' i' b' h1' hb' hu' => have := lt_of_idx hb'; rw [h1] at h1'; cases h1'; omega
    | shape st' i h1' hi => rw [h1] at h1'; cases h1'; omega
    | glow g i b h1' hb hu => simp only [h1] at hs' ⊢; omega
  | glow g i b h1 hb hu =>
    cases h' with
    | pos st' h0 h1' h2 hj => simp only [h1'] at hs' ⊢; omega
    | flux st' i' b' h1' hb' hu' => have := lt_of_idx hb'; simp only [h1'] at hs' ⊢; omega
    | shape st' i h1' hi => simp only [h1'] at hs' ⊢; omega
    | glow g' i' b' h1' hb' hu' =>
      rw [h1] at h1'; cases h1'
      have : i' = i := by omega
      subst this
      rw [hb] at hb'; cases hb'; rfl

/-- One parameter per column. -/
theorem paired_inj (job : UpJob R) (hx : Expected job) (ub : List String) (s s' f : Nat) (h : Paired job ub s f)
    (h' : Paired job ub s' f) : s = s' := by
  obtain ⟨f', hs'⟩ : ∃ f', f' = f := ⟨_, rfl⟩
  rw [← hs'] at h'
  cases h with
  | pos st h0 h1 h2 hj =>
    cases h' with
    | pos => exact hs'.symm
    | flux st' i b h1' hb hu => rw [h1] at h1'; cases h1'; omega
    | shape st' i h1' hi => rw [h1] at h1'; cases h1'; omega
    | glow g i b h1' hb hu => simp only [h1] at hs' ⊢; omega
  | flux st i b h1 hb hu =>
    have := List.idxOf_lt_length_iff.mpr hu
    cases h' with
    | pos st' h0 h1' h2 hj => rw [h1] at h1'; cases h1'; omega
    | flux st' i' b' h1' hb' hu' =>
      rw [h1] at h1'; cases h1'
      have : b' = b := idxOf_inj ub _ _ hu' (by omega)
      subst this
      rw [nodup_idx (hx.bands st h1).1 hb hb']
    | shape st' i h1' hi => rw [h1] at h1'; cases h1'; omega
    | glow g i b h1' hb hu => simp only [h1] at hs' ⊢; omega
  | shape st i h1 hi =>
    cases h' with
    | pos st' h0 h1' h2 hj => rw [h1] at h1'; cases h1'; omega
    | flux st' i' b' h1' hb' hu' => have := List.idxOf_lt_length_iff.mpr hu'; rw [h1] at h1'; cases h1'; omega
    | shape st' i h1' hi => rw [h1] at h1'; cases h1'; omega
    | glow g i b h1' hb hu => simp only [h1] at hs' ⊢; omega
  | glow g i b h1 hb hu =>
    cases h' with
    | pos st' h0 h1' h2 hj => simp only [h1'] at hs' ⊢; omega
    | flux st' i' b' h1' hb' hu' => have := List.idxOf_lt_length_iff.mpr hu'; simp only [h1'] at hs' ⊢; omega
    | shape st' i h1' hi => simp only [h1'] at hs' ⊢; omega
    | glow g' i' b' h1' hb' hu' =>
      rw [h1] at h1'; cases h1'
      have : b' = b := idxOf_inj ub _ _ hu' (by omega)
      subst this
      rw [nodup_idx (hx.sbBands g h1).1 hb hb']

end Verif.Gpu
