import Verif.Gpu.ProfLemmas2
import Verif.Gpu.TryLemmas4

/-!
# Galaxy profiles of a whole batch, galaxies in the line search
-/

namespace Verif.Gpu

open Verif Verif.Psf Verif.Mog Verif.Params Verif.Opt

variable {R : Type} [Field R] [LinearOrder R] [IsStrictOrderedRing R]

/-- Light is drawn with one method or the other. -/
theorem some_method (E : Lib R) (hs : ∀ x, 0 ≤ x → 0 ≤ E.sqrt x ∧ E.sqrt x ^ 2 = x) (sz : Nat) (hp : 0 < sz)
    (mogs : List (List (Mix R))) (hc : ∀ l ∈ mogs, ∀ m ∈ l, ∀ c ∈ m, Semidefinite c)
    (hl : ∃ l ∈ mogs, ∃ m ∈ l, ∃ c ∈ m, c.amp ≠ 0) :
    0 < mogs.length ∧ 0 < nProf mogs ∧ ¬ (nMogOf sz mogs = 0 ∧ nFftOf sz mogs = 0) := by
  obtain ⟨l, hl, m, hm, c, hcm, h0⟩ := hl
  obtain ⟨i, hi⟩ := List.mem_iff_getElem?.mp hl
  obtain ⟨j, hj⟩ := List.mem_iff_getElem?.mp hm
  obtain ⟨k, hk⟩ := List.mem_iff_getElem?.mp hcm
  have hi' := (List.getElem?_eq_some_iff.mp hi).1
  have hj' := (List.getElem?_eq_some_iff.mp hj).1
  have hk' := (List.getElem?_eq_some_iff.mp hk).1
  have hjn : j < nProf mogs := lt_of_lt_of_le hj' (le_foldl_max _ _ _ (.inr (List.mem_map_of_mem hl)))
  have em : (mogs.getD i []).getD j [] = m := by
    rw [List.getD_eq_getElem?_getD, List.getD_eq_getElem?_getD, hi, Option.getD_some, hj, Option.getD_some]
  have ec : compAt mogs i j k = c := by
    unfold compAt
    rw [em, List.getD_eq_getElem?_getD, hk, Option.getD_some]
  have hkn : k < kMax mogs := by
    have := mix_len mogs i j
    rw [em] at this
    omega
  refine ⟨by omega, by omega, ?_⟩
  rintro ⟨n1, n2⟩
  obtain ⟨s, -, -, -, a3, a4, -, -⟩ := amp_facts E hs sz hp c (hc l hl m hm c hcm)
  have hM : inMogs sz c = false := by
    cases h : inMogs sz c with
    | false => rfl
    | true =>
      have := ((nMog_facts sz mogs).2 k ((mem_hotK _ _ _).mpr ⟨hkn, i, hi', j, hjn, by rw [ec]; exact h⟩)).1
      omega
  have hF : inFfts sz c = false := by
    cases h : inFfts sz c with
    | false => rfl
    | true =>
      have := (nFft_facts sz mogs).2 k ((mem_hotK _ _ _).mpr ⟨hkn, i, hi', j, hjn, by rw [ec]; exact h⟩)
      omega
  have e1 := a3 h0 hM
  have e2 := a4 h0 hF
  rw [e1] at e2
  exact zero_ne_one e2

/-- The array before the shift. -/
theorem profile_px (E : Lib R) (hs : ∀ x, 0 ≤ x → 0 ≤ E.sqrt x ∧ E.sqrt x ^ 2 = x) (sz : Nat) (hp : 0 < sz)
    (psfs : List (ImPsf R)) (mogs : List (List (Mix R))) (hg : GoodBatch psfs mogs) (i j : Nat) (hi : i < mogs.length)
    (hj : j < nProf mogs) (p : ImPsf R) (hpi : psfs[i]? = some p) (r q : Nat) (lo : Nat)
    (hlo : 0 < nMogOf sz mogs → lo = kMax mogs - nMogOf sz mogs) :
    (if nFftOf sz mogs > 0 then backAt psfs i (fSum E sz (decide (nMogOf sz mogs + nFftOf sz mogs > kMax mogs)) mogs
        (nFftOf sz mogs) i j) r q else 0) +
      (if nMogOf sz mogs > 0 then mogSum E sz (decide (nMogOf sz mogs + nFftOf sz mogs > kMax mogs)) mogs psfs lo i j r q
        else 0) = (profileOf E sz p ((mogs.getD i []).getD j [])).px r q := by
  have hmem : p ∈ psfs := List.mem_iff_getElem?.mpr ⟨i, hpi⟩
  have hsemi : ∀ k, Semidefinite (compAt mogs i j k) := by
    intro k
    rcases compAt_mem mogs i j k with h | ⟨l, hl, m, hm, h⟩
    · rw [h]; exact noComp_semi
    · exact hg.semi l hl m hm _ h
  have e1 : (if nFftOf sz mogs > 0 then backAt psfs i (fSum E sz (decide (nMogOf sz mogs + nFftOf sz mogs > kMax mogs)) mogs
        (nFftOf sz mogs) i j) r q else 0) = (((mogs.getD i []).getD j []).map (fun c => c.amp *
        (1 - Gal.share ((sz : R) / 2) 3 4 (E.sqrt (c.vxx + c.vyy))) * p.back (gaussFT E c) r q)).sum := by
    have := (split_sums E hs sz hp mogs hg.semi i j hi hj (fun c => p.back (gaussFT E c) r q)).1
    rw [← this]
    by_cases h0 : nFftOf sz mogs > 0
    · rw [if_pos h0]
      unfold backAt
      rw [hpi]
      simp only
      exact back_sum p.back (hg.lin p hmem) r q _ (fun k => ftOf E (compAt mogs i j k)) _
    · rw [if_neg h0, show nFftOf sz mogs = 0 by omega]
      simp
  have e2 : (if nMogOf sz mogs > 0 then mogSum E sz (decide (nMogOf sz mogs + nFftOf sz mogs > kMax mogs)) mogs psfs lo i j r q
        else 0) = (((mogs.getD i []).getD j []).map (fun c => c.amp *
        Gal.share ((sz : R) / 2) 3 4 (E.sqrt (c.vxx + c.vyy)) * (p.mog.map (fun d => d.amp * density E c d
          (q - ((sz / 2 : Nat) : R)) (r - ((sz / 2 : Nat) : R)))).sum)).sum := by
    have := (split_sums E hs sz hp mogs hg.semi i j hi hj (fun c => (p.mog.map (fun d => d.amp * density E c d
          (q - ((sz / 2 : Nat) : R)) (r - ((sz / 2 : Nat) : R)))).sum)).2
    rw [← this]
    by_cases h0 : nMogOf sz mogs > 0
    · rw [if_pos h0, if_pos h0]
      unfold mogSum
      rw [hlo h0, show kMax mogs - (kMax mogs - nMogOf sz mogs) = nMogOf sz mogs by have := (nMog_facts sz mogs).1; omega]
      congr 1
      refine List.map_congr_left (fun k _ => ?_)
      exact psf_sum E sz psfs i p hpi (hg.definite p hmem) _ (hsemi k) _ r q
    · rw [if_neg h0, if_neg h0]
  rw [e1, e2]
  unfold profileOf
  simp only
  generalize (mogs.getD i []).getD j [] = mix
  induction mix with
  | nil => simp
  | cons c mix ih =>
    simp only [List.map_cons, List.sum_cons]
    rw [← ih]
    unfold hybrid
    ring

/-- One array and its shift. -/
theorem raw_shifted (E : Lib R) (hs : ∀ x, 0 ≤ x → 0 ≤ E.sqrt x ∧ E.sqrt x ^ 2 = x) (lz : R → R)
    (junk : Nat → Nat → R) (sz : Nat) (h6 : 6 ≤ sz) (psfs : List (ImPsf R)) (mogs : List (List (Mix R)))
    (hg : GoodBatch psfs mogs) (i j : Nat) (hi : i < mogs.length) (hj : j < nProf mogs) (mux muy : R) :
    ∃ A, correlate (kernPy lz mux) (kernPy lz muy) (rawProfile E sz psfs mogs i j) ⟨sz, sz, junk⟩
        (rawProfile E sz psfs mogs i j) = .ok A ∧ A.h = sz ∧ A.w = sz ∧
      ∀ p, psfs[i]? = some p → ∀ r c, r < sz → c < sz → A.px r c =
        shiftedImage (kernPy lz) (profileOf E sz p ((mogs.getD i []).getD j [])) mux muy r c := by
  obtain ⟨A, e, a1, a2, a3⟩ := correlate_run (kernPy lz mux) (kernPy lz muy) (rawProfile E sz psfs mogs i j)
    ⟨sz, sz, junk⟩ (rawProfile E sz psfs mogs i j) h6 h6 rfl rfl rfl rfl
  refine ⟨A, e, a1, a2, fun p hp r c hr hc => ?_⟩
  have er : rawProfile E sz psfs mogs i j = profileOf E sz p ((mogs.getD i []).getD j []) := by
    have := profile_px E hs sz (by omega) psfs mogs hg i j hi hj p hp
    unfold rawProfile
    simp only
    show (⟨sz, sz, _⟩ : Arr R) = ⟨sz, sz, (profileOf E sz p ((mogs.getD i []).getD j [])).px⟩
    congr 1
    funext r q
    exact this r q _ (fun h => by rw [if_neg (by omega)])
  rw [a3 r c hr hc, er, ← lanczos_px (kernPy lz) (profileOf E sz p ((mogs.getD i []).getD j [])) mux muy r c hc]
  rfl

/-- The profiles of a batch. -/
theorem profiles_ok (E : Lib R) (hs : ∀ x, 0 ≤ x → 0 ≤ E.sqrt x ∧ E.sqrt x ^ 2 = x) (lz : R → R)
    (junk : Nat → Nat → Nat → Nat → R) (sz : Nat) (h6 : 6 ≤ sz) (psfs : List (ImPsf R)) (mogs : List (List (Mix R)))
    (hg : GoodBatch psfs mogs) (hl : ∃ l ∈ mogs, ∃ m ∈ l, ∃ c ∈ m, c.amp ≠ 0) (mux muy : Nat → Nat → R) :
    ∃ G, galaxyProfiles E lz junk sz psfs mogs mux muy = .ok G ∧ G.length = mogs.length ∧
      ∀ (i : Nat) (p : ImPsf R), psfs[i]? = some p → ∃ row, G[i]? = some row ∧ row.length = nProf mogs ∧
        ∀ j, j < nProf mogs → ∃ A, row[j]? = some A ∧ A.h = sz ∧ A.w = sz ∧ ∀ r c, r < sz → c < sz →
          A.px r c = shiftedImage (kernPy lz) (profileOf E sz p ((mogs.getD i []).getD j [])) (mux i j) (muy i j) r c := by
  obtain ⟨n1, n2, n3⟩ := some_method E hs sz (by omega) mogs hg.semi hl
  obtain ⟨m1, m2⟩ := nMog_facts sz mogs
  obtain ⟨f1, f2⟩ := nFft_facts sz mogs
  unfold galaxyProfiles
  rw [if_neg (by omega)]
  simp only
  rw [if_neg (by
    have e1 : (hotK (inMogs sz) mogs).all (fun k => decide (k ≥ kMax mogs - nMogOf sz mogs)) = true := by
      rw [List.all_eq_true]
      intro k hk
      exact decide_eq_true (m2 k hk).2
    have e2 : (hotK (inFfts sz) mogs).all (fun k => decide (k < nFftOf sz mogs)) = true := by
      rw [List.all_eq_true]
      intro k hk
      exact decide_eq_true (f2 k hk)
    rw [e1, e2]
    simp)]
  rw [if_neg (by
    rintro (h | h)
    · refine h (count_from _ _ _ ?_ ?_)
      · split <;> omega
      · intro k hk
        have := m2 k hk
        split <;> omega
    · exact h (count_to _ _ _ f1 f2))]
  rw [if_neg n3]
  rw [if_neg (by rw [dets_ok E sz _ mogs psfs _ hg.len hg.semi hg.definite]; simp)]
  have cell := fun i j => raw_shifted E hs lz (junk i j) sz h6 psfs mogs hg i j
  have cell' : ∀ i j, ∃ A, i < mogs.length → j < nProf mogs → correlate (kernPy lz (mux i j)) (kernPy lz (muy i j))
      (rawProfile E sz psfs mogs i j) ⟨sz, sz, junk i j⟩ (rawProfile E sz psfs mogs i j) = .ok A ∧ A.h = sz ∧ A.w = sz ∧
      ∀ p, psfs[i]? = some p → ∀ r c, r < sz → c < sz → A.px r c =
        shiftedImage (kernPy lz) (profileOf E sz p ((mogs.getD i []).getD j [])) (mux i j) (muy i j) r c := by
    intro i j
    by_cases h : i < mogs.length ∧ j < nProf mogs
    · obtain ⟨A, hA⟩ := cell i j h.1 h.2 (mux i j) (muy i j)
      exact ⟨A, fun _ _ => hA⟩
    · exact ⟨Arr.zeros 0 0, fun h1 h2 => absurd ⟨h1, h2⟩ h⟩
  choose A hA using cell'
  refine ⟨(List.range mogs.length).map (fun i => (List.range (nProf mogs)).map (A i)), ?_, by simp, ?_⟩
  · refine mapM_ok _ _ _ (fun i hi => ?_)
    rw [List.mem_range] at hi
    refine mapM_ok _ _ _ (fun j hj => ?_)
    rw [List.mem_range] at hj
    exact (hA i j hi hj).1
  · intro i p hpi
    have hi : i < mogs.length := by
      rw [← hg.len]
      exact (List.getElem?_eq_some_iff.mp hpi).1
    refine ⟨(List.range (nProf mogs)).map (A i), by simp [hi], by simp, fun j hj => ⟨A i j, by simp [hj], ?_⟩⟩
    obtain ⟨-, h1, h2, h3⟩ := hA i j hi hj
    exact ⟨h1, h2, h3 p hpi⟩

end Verif.Gpu
