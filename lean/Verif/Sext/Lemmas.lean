import Verif.Sext.Spec
import Mathlib.Tactic.Linarith
import Mathlib.Tactic.FieldSimp

/-! Lemmas for C130. -/

namespace Verif.Sext

variable {R : Type} [Field R] [LinearOrder R]

omit [Field R] in
theorem leLim_iff (lim : R) (m : Option R) : leLim lim m = true ↔ Bright lim m := by
  cases m <;> simp [leLim, Bright]

omit [Field R] in
theorem gtLim_iff (lim : R) {m : Option R} (h : m ≠ none) : gtLim lim m = true ↔ ¬ Bright lim m := by
  cases m with
  | none => exact absurd rfl h
  | some x => simp [gtLim, Bright]

omit [Field R] [LinearOrder R] in
theorem bright_map (bands : List String) (x : Option R) : (allBands bands x).map (·.1) = bands := by
  simp [allBands, Function.comp_def]

omit [Field R] [LinearOrder R] in
theorem bright_val (bands : List String) (x : Option R) (b : String × Option R) (h : b ∈ allBands bands x) : b.2 = x := by
  obtain ⟨k, _, e⟩ := List.mem_map.1 h
  rw [← e]

omit [Field R] in
theorem psf_iff (lim : R) (t : Row R) : (decide (t.chi2Psf < t.chi2Model) && leLim lim t.magPsf) = true ↔ IsPsf lim t := by
  rw [Bool.and_eq_true, decide_eq_true_eq, leLim_iff]
  rfl

theorem fits_psf (nmOf : R → R) (lim : R) (bands : List String) (t : Row R) (h : IsPsf lim t) :
    Fits nmOf lim bands t (.point t.ra t.dec (allBands bands (t.magPsf.map nmOf))) where
  used := Or.inl h
  names := bright_map _ _
  point := fun _ => ⟨rfl, rfl, rfl, fun b hb => bright_val _ _ b hb⟩
  pos := fun h' => absurd h h'
  shapeDev := fun h' => absurd h h'
  shapeExp := fun h' => absurd h h'
  flux := fun h' => absurd h h'
  share := fun h' => absurd h h'

/-- A row that is kept gives the source it calls for, whatever the rows before. -/
theorem galaxy_fits [IsStrictOrderedRing R] (nmOf : R → R) (hp : ∀ m, 0 < nmOf m) (lim : R) (bands : List String)
    (sd se : Option (Shape R)) (t : Row R)
    (h : ¬ IsPsf lim t) (hc : Clean t) (hu : ¬ (gtLim lim t.magDisk && gtLim lim t.magSpheroid) = true) :
    ∃ s, galaxy nmOf lim bands (if leLim lim t.magSpheroid then some (shapeDevOf t) else sd)
      (if leLim lim t.magDisk then some (shapeExpOf t) else se) t = .ok s ∧ Fits nmOf lim bands t s := by
  obtain ⟨c1, c2⟩ := hc
  cases he : t.magDisk with
  | none => exact absurd he c1
  | some e =>
    cases hd : t.magSpheroid with
    | none => exact absurd hd c2
    | some d =>
      rw [he, hd] at hu
      simp only [gtLim, Bool.and_eq_true, decide_eq_true_eq, not_and, not_lt] at hu
      have hpe := hp e
      have hpd := hp d
      unfold galaxy
      by_cases h1 : e ≤ lim
      · by_cases h2 : d ≤ lim
        · refine ⟨_, by simp [he, hd, leLim, gtLim, h1, h2, not_lt.2 h1, not_lt.2 h2, both]; rfl, ?_⟩
          have hs : 0 < nmOf d + nmOf e := by linarith
          refine ⟨Or.inr (Or.inl ⟨e, he, h1⟩), bright_map _ _, fun h' => absurd h' h, fun _ => rfl, ?_, ?_, ?_, ?_⟩
          · intro _
            simp [Src.shapeDev, hd, partFlux, h2, hpd, shapeDevOf]
          · intro _
            simp [Src.shapeExp, he, partFlux, h1, hpe, shapeExpOf]
          · intro _ b hb
            rw [bright_val _ _ b hb]
            simp [hd, he, partFlux, h1, h2]
          · intro _
            refine ⟨nmOf d / (nmOf d + nmOf e), rfl, by positivity, ?_, ?_⟩
            · rw [div_le_one hs]
              linarith
            · simp only [hd, he, partFlux, h1, h2, if_true]
              field_simp
        · refine ⟨_, by simp [he, hd, leLim, gtLim, h1, h2, not_lt.2 h1, not_le.1 h2]; rfl, ?_⟩
          refine ⟨Or.inr (Or.inl ⟨e, he, h1⟩), bright_map _ _, fun h' => absurd h' h, fun _ => rfl, ?_, ?_, ?_, ?_⟩
          · intro _
            simp [Src.shapeDev, hd, partFlux, h2]
          · intro _
            simp [Src.shapeExp, he, partFlux, h1, hpe, shapeExpOf]
          · intro _ b hb
            rw [bright_val _ _ b hb]
            simp [hd, he, partFlux, h1, h2]
          · intro _
            refine ⟨0, rfl, le_refl _, zero_le_one, ?_⟩
            simp [hd, partFlux, h2]
      · have h2 : d ≤ lim := hu (not_le.1 h1)
        refine ⟨_, by simp [he, hd, leLim, gtLim, h2, not_le.1 h1]; rfl, ?_⟩
        refine ⟨Or.inr (Or.inr ⟨d, hd, h2⟩), bright_map _ _, fun h' => absurd h' h, fun _ => rfl, ?_, ?_, ?_, ?_⟩
        · intro _
          simp [Src.shapeDev, hd, partFlux, h2, hpd, shapeDevOf]
        · intro _
          simp [Src.shapeExp, he, partFlux, h1]
        · intro _ b hb
          rw [bright_val _ _ b hb]
          simp [hd, he, partFlux, h1, h2]
        · intro _
          refine ⟨1, rfl, zero_le_one, le_refl _, ?_⟩
          simp [hd, he, partFlux, h1, h2]

/-- The whole loop. -/
theorem loop_ok [IsStrictOrderedRing R] (nmOf : R → R) (hp : ∀ m, 0 < nmOf m) (lim : R) (bands : List String) (T : List (Row R)) :
    ∀ (i : Nat) (sd se : Option (Shape R)), (∀ t ∈ T, Clean t) →
    ∃ srcs is, loop nmOf lim bands sd se i T = .ok (srcs, is) ∧ is.Pairwise (· < ·) ∧ srcs.length = is.length ∧
      (∀ j : Nat, j ∈ is ↔ i ≤ j ∧ ∃ t, T[j - i]? = some t ∧ Used lim t) ∧
      (∀ (k : Nat) s, srcs[k]? = some s → ∃ j t, is[k]? = some j ∧ T[j - i]? = some t ∧ Fits nmOf lim bands t s) := by
  induction T with
  | nil =>
    intro i sd se _
    refine ⟨[], [], rfl, List.Pairwise.nil, rfl, ?_, ?_⟩
    · intro j
      simp
    · intro k s h
      simp at h
  | cons t T ih =>
    intro i sd se hc
    have hct := hc t List.mem_cons_self
    have hcT : ∀ t ∈ T, Clean t := fun t ht => hc t (List.mem_cons_of_mem _ ht)
    -- the two ways to go on
    have keep : ∀ (s : Src R) (sd se : Option (Shape R)), Fits nmOf lim bands t s →
        ∃ srcs is, push s i (loop nmOf lim bands sd se (i + 1) T) = .ok (srcs, is) ∧ is.Pairwise (· < ·) ∧ srcs.length = is.length ∧
          (∀ j : Nat, j ∈ is ↔ i ≤ j ∧ ∃ t', (t :: T)[j - i]? = some t' ∧ Used lim t') ∧
          (∀ (k : Nat) s, srcs[k]? = some s → ∃ j t', is[k]? = some j ∧ (t :: T)[j - i]? = some t' ∧ Fits nmOf lim bands t' s) := by
      intro s sd se hf
      obtain ⟨srcs, is, e, hpw, hl, hm, ha⟩ := ih (i + 1) sd se hcT
      have hge : ∀ j ∈ is, i < j := fun j hj => ((hm j).1 hj).1
      have hsub : ∀ j, i < j → (t :: T)[j - i]? = T[j - (i + 1)]? := by
        intro j hj
        have : j - i = (j - (i + 1)) + 1 := by omega
        rw [this, List.getElem?_cons_succ]
      refine ⟨s :: srcs, i :: is, by rw [e]; rfl, List.pairwise_cons.2 ⟨hge, hpw⟩, by simp [hl], ?_, ?_⟩
      · intro j
        rw [List.mem_cons]
        constructor
        · rintro (h | h)
          · subst h
            exact ⟨le_refl _, t, by simp, hf.used⟩
          · obtain ⟨h1, t', h2, h3⟩ := (hm j).1 h
            exact ⟨by omega, t', by rw [hsub j (by omega)]; exact h2, h3⟩
        · rintro ⟨h1, t', h2, h3⟩
          rcases Nat.eq_or_lt_of_le h1 with h | h
          · exact Or.inl h.symm
          · rw [hsub j h] at h2
            exact Or.inr ((hm j).2 ⟨h, t', h2, h3⟩)
      · intro k s' hk
        cases k with
        | zero =>
          simp at hk
          subst hk
          exact ⟨i, t, by simp, by simp, hf⟩
        | succ k =>
          rw [List.getElem?_cons_succ] at hk
          obtain ⟨j, t', h1, h2, h3⟩ := ha k s' hk
          refine ⟨j, t', by simpa using h1, ?_, h3⟩
          rw [hsub j (hge j (List.mem_of_getElem? h1))]
          exact h2
    unfold loop
    by_cases h1 : (decide (t.chi2Psf < t.chi2Model) && leLim lim t.magPsf) = true
    · rw [if_pos h1]
      exact keep _ sd se (fits_psf nmOf lim bands t ((psf_iff lim t).1 h1))
    · rw [if_neg h1]
      have hn : ¬ IsPsf lim t := fun h => h1 ((psf_iff lim t).2 h)
      by_cases h2 : (gtLim lim t.magDisk && gtLim lim t.magSpheroid) = true
      · rw [if_pos h2]
        obtain ⟨srcs, is, e, hpw, hl, hm, ha⟩ := ih (i + 1) sd se hcT
        have hsub : ∀ j, i < j → (t :: T)[j - i]? = T[j - (i + 1)]? := by
          intro j hj
          have : j - i = (j - (i + 1)) + 1 := by omega
          rw [this, List.getElem?_cons_succ]
        have hnu : ¬ Used lim t := by
          rw [Bool.and_eq_true, gtLim_iff lim hct.1, gtLim_iff lim hct.2] at h2
          rintro (h | h | h)
          · exact hn h
          · exact h2.1 h
          · exact h2.2 h
        refine ⟨srcs, is, e, hpw, hl, ?_, ?_⟩
        · intro j
          rw [hm j]
          constructor
          · rintro ⟨h1, t', h2, h3⟩
            exact ⟨by omega, t', by rw [hsub j (by omega)]; exact h2, h3⟩
          · rintro ⟨h1, t', h2, h3⟩
            rcases Nat.eq_or_lt_of_le h1 with h | h
            · subst h
              simp at h2
              subst h2
              exact absurd h3 hnu
            · rw [hsub j h] at h2
              exact ⟨h, t', h2, h3⟩
        · intro k s hk
          obtain ⟨j, t', h1, h2, h3⟩ := ha k s hk
          refine ⟨j, t', h1, ?_, h3⟩
          rw [hsub j ((hm j).1 (List.mem_of_getElem? h1)).1]
          exact h2
      · rw [if_neg h2]
        obtain ⟨s, e, hf⟩ := galaxy_fits nmOf hp lim bands sd se t hn hct h2
        simp only [e]
        exact keep s _ _ hf

end Verif.Sext
