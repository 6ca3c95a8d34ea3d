import Verif.Gpu.ProfLemmas
import Mathlib.Algebra.BigOperators.Ring.Finset

/-!
# The galaxy profiles of the GPU
-/

namespace Verif.Gpu

open Verif Verif.Psf Verif.Mog

variable {R : Type} [Field R] [LinearOrder R] [IsStrictOrderedRing R]

/-! ### The number of components for the two methods -/

omit [IsStrictOrderedRing R] in
theorem nMog_facts (sz : Nat) (mogs : List (List (Mix R))) : nMogOf sz mogs ≤ kMax mogs ∧
    (∀ k ∈ hotK (inMogs sz) mogs, 0 < nMogOf sz mogs ∧ kMax mogs - nMogOf sz mogs ≤ k) := by
  unfold nMogOf
  cases h : (hotK (inMogs sz) mogs).min? with
  | none =>
    rw [List.min?_eq_none_iff] at h
    simp [h]
  | some a =>
    obtain ⟨h1, h2⟩ := List.min?_eq_some_iff.mp h
    have h3 := ((mem_hotK _ _ _).mp h1).1
    refine ⟨by simp only; omega, fun k hk => ?_⟩
    have := h2 k hk
    simp only
    omega

omit [IsStrictOrderedRing R] in
theorem nFft_facts (sz : Nat) (mogs : List (List (Mix R))) : nFftOf sz mogs ≤ kMax mogs ∧
    (∀ k ∈ hotK (inFfts sz) mogs, k < nFftOf sz mogs) := by
  unfold nFftOf
  cases h : (hotK (inFfts sz) mogs).max? with
  | none =>
    rw [List.max?_eq_none_iff] at h
    simp [h]
  | some a =>
    obtain ⟨h1, h2⟩ := List.max?_eq_some_iff.mp h
    have h3 := ((mem_hotK _ _ _).mp h1).1
    refine ⟨by simp only; omega, fun k hk => ?_⟩
    have := h2 k hk
    simp only
    omega

omit [Field R] [LinearOrder R] [IsStrictOrderedRing R] in
theorem mix_len (mogs : List (List (Mix R))) (i j : Nat) : ((mogs.getD i []).getD j []).length ≤ kMax mogs := by
  rw [List.getD_eq_getElem?_getD, List.getD_eq_getElem?_getD]
  cases h' : mogs[i]? with
  | none => simp
  | some l =>
    rw [Option.getD_some]
    cases h : l[j]? with
    | none => simp
    | some m =>
      rw [Option.getD_some]
      refine le_foldl_max _ _ _ (.inr (List.mem_map_of_mem ?_))
      exact List.mem_flatten.mpr ⟨l, List.mem_iff_getElem?.mpr ⟨i, h'⟩, List.mem_iff_getElem?.mpr ⟨j, h⟩⟩

omit [LinearOrder R] [IsStrictOrderedRing R] in
theorem compAt_mem (mogs : List (List (Mix R))) (i j k : Nat) :
    compAt mogs i j k = noComp ∨ ∃ l ∈ mogs, ∃ m ∈ l, compAt mogs i j k ∈ m := by
  unfold compAt
  rw [List.getD_eq_getElem?_getD, List.getD_eq_getElem?_getD, List.getD_eq_getElem?_getD]
  cases h2 : mogs[i]? with
  | none => left; simp
  | some l =>
    rw [Option.getD_some]
    cases h1 : l[j]? with
    | none => left; simp
    | some m =>
      rw [Option.getD_some]
      cases h : m[k]? with
      | none => left; rfl
      | some c =>
        right
        exact ⟨l, List.mem_iff_getElem?.mpr ⟨i, h2⟩, m, List.mem_iff_getElem?.mpr ⟨j, h1⟩, List.mem_iff_getElem?.mpr ⟨k, h⟩⟩

/-- The amplitudes of both methods, summed with anything. -/
theorem split_sums (E : Lib R) (hs : ∀ x, 0 ≤ x → 0 ≤ E.sqrt x ∧ E.sqrt x ^ 2 = x) (sz : Nat) (hp : 0 < sz)
    (mogs : List (List (Mix R))) (hc : ∀ l ∈ mogs, ∀ m ∈ l, ∀ c ∈ m, Semidefinite c) (i j : Nat) (hi : i < mogs.length)
    (hj : j < nProf mogs) (f : Comp R → R) :
    (((List.range (nFftOf sz mogs)).map (fun k => fftAmp E sz (decide (nMogOf sz mogs + nFftOf sz mogs > kMax mogs))
        (compAt mogs i j k) * f (compAt mogs i j k))).sum =
      (((mogs.getD i []).getD j []).map (fun c => c.amp *
        (1 - Gal.share ((sz : R) / 2) 3 4 (E.sqrt (c.vxx + c.vyy))) * f c)).sum) ∧
    ((if nMogOf sz mogs > 0 then ((List.range' (kMax mogs - nMogOf sz mogs) (nMogOf sz mogs)).map (fun k =>
        mogAmp E sz (decide (nMogOf sz mogs + nFftOf sz mogs > kMax mogs)) (compAt mogs i j k) * f (compAt mogs i j k))).sum
        else 0) =
      (((mogs.getD i []).getD j []).map (fun c => c.amp *
        Gal.share ((sz : R) / 2) 3 4 (E.sqrt (c.vxx + c.vyy)) * f c)).sum) := by
  obtain ⟨m1, m2⟩ := nMog_facts sz mogs
  obtain ⟨n1, n2⟩ := nFft_facts sz mogs
  generalize hN : nMogOf sz mogs = nm at *
  generalize hF : nFftOf sz mogs = nf at *
  have hsemi : ∀ k, Semidefinite (compAt mogs i j k) := by
    intro k
    rcases compAt_mem mogs i j k with h | ⟨l, hl, m, hm, h⟩
    · rw [h]; exact noComp_semi
    · exact hc l hl m hm _ h
  have hmog : ∀ k, k < kMax mogs → inMogs sz (compAt mogs i j k) = true → 0 < nm ∧ kMax mogs - nm ≤ k :=
    fun k hk h => m2 k ((mem_hotK _ _ _).mpr ⟨hk, i, hi, j, hj, h⟩)
  have hfft : ∀ k, k < kMax mogs → inFfts sz (compAt mogs i j k) = true → k < nf :=
    fun k hk h => n2 k ((mem_hotK _ _ _).mpr ⟨hk, i, hi, j, hj, h⟩)
  have key : ∀ k, k < kMax mogs →
      (k < nf → fftAmp E sz (decide (nm + nf > kMax mogs)) (compAt mogs i j k) = (compAt mogs i j k).amp *
        (1 - Gal.share ((sz : R) / 2) 3 4 (E.sqrt ((compAt mogs i j k).vxx + (compAt mogs i j k).vyy)))) ∧
      (¬ k < nf → (compAt mogs i j k).amp *
        (1 - Gal.share ((sz : R) / 2) 3 4 (E.sqrt ((compAt mogs i j k).vxx + (compAt mogs i j k).vyy))) = 0) ∧
      (0 < nm ∧ kMax mogs - nm ≤ k → mogAmp E sz (decide (nm + nf > kMax mogs)) (compAt mogs i j k) =
        (compAt mogs i j k).amp * Gal.share ((sz : R) / 2) 3 4 (E.sqrt ((compAt mogs i j k).vxx + (compAt mogs i j k).vyy))) ∧
      (¬ (0 < nm ∧ kMax mogs - nm ≤ k) → (compAt mogs i j k).amp *
        Gal.share ((sz : R) / 2) 3 4 (E.sqrt ((compAt mogs i j k).vxx + (compAt mogs i j k).vyy)) = 0) := by
    intro k hk
    obtain ⟨s, hsd, a1, a2, a3, a4, a5, a6⟩ := amp_facts E hs sz hp (compAt mogs i j k) (hsemi k)
    rw [← hsd]
    have hm := hmog k hk
    have hf := hfft k hk
    generalize compAt mogs i j k = c at *
    have hout : c.amp = 0 ∨ inMogs sz c = false → c.amp * s = 0 := by
      rintro (h | h)
      · rw [h, zero_mul]
      · by_cases h0 : c.amp = 0
        · rw [h0, zero_mul]
        · rw [a3 h0 h, mul_zero]
    have houtF : inFfts sz c = false → c.amp * (1 - s) = 0 := by
      intro h
      by_cases h0 : c.amp = 0
      · rw [h0, zero_mul]
      · rw [a4 h0 h, sub_self, mul_zero]
    have noM : ¬ (0 < nm ∧ kMax mogs - nm ≤ k) → inMogs sz c = false := by
      intro h
      cases hI : inMogs sz c with
      | false => rfl
      | true => exact absurd (hm hI) h
    have noF : ¬ k < nf → inFfts sz c = false := by
      intro h
      cases hI : inFfts sz c with
      | false => rfl
      | true => exact absurd (hf hI) h
    refine ⟨fun h => ?_, fun h => houtF (noF h), fun h => ?_, fun h => hout (.inr (noM h))⟩
    · by_cases hr : nm + nf > kMax mogs
      · rw [decide_eq_true hr]; exact a6
      · rw [decide_eq_false hr]
        have := noM (by omega)
        have h' := hout (.inr this)
        unfold fftAmp
        rw [mul_sub, h', mul_one, sub_zero]
        rfl
    · by_cases hr : nm + nf > kMax mogs
      · rw [decide_eq_true hr]; exact a5
      · rw [decide_eq_false hr]
        have := houtF (noF (by omega))
        unfold mogAmp
        rw [mul_sub, mul_one] at this
        exact (sub_eq_zero.mp this)
  have hlen := mix_len mogs i j
  constructor
  · rw [sum_list_range, ← sum_list_pad (noComp : Comp R) _ (by simp [noComp]) _ _ hlen]
    refine Finset.sum_subset_zero_on_sdiff ?_ ?_ ?_
    · intro x; simp only [Finset.mem_range]; omega
    · intro x hx
      simp only [Finset.mem_sdiff, Finset.mem_range] at hx
      have := (key x hx.1).2.1 hx.2
      unfold compAt at this
      rw [this, zero_mul]
    · intro x hx
      rw [Finset.mem_range] at hx
      rw [(key x (by omega)).1 hx]
      rfl
  · rw [← sum_list_pad (noComp : Comp R) _ (by simp [noComp]) _ _ hlen]
    by_cases h0 : nm > 0
    · rw [if_pos h0, sum_list_range']
      refine Finset.sum_subset_zero_on_sdiff ?_ ?_ ?_
      · intro x; simp only [Finset.mem_range, Finset.mem_Ico]; omega
      · intro x hx
        simp only [Finset.mem_sdiff, Finset.mem_range, Finset.mem_Ico] at hx
        have := (key x hx.1).2.2.2 (by omega)
        unfold compAt at this
        rw [this, zero_mul]
      · intro x hx
        rw [Finset.mem_Ico] at hx
        rw [(key x (by omega)).2.2.1 (by omega)]
        rfl
    · rw [if_neg h0]
      symm
      refine Finset.sum_eq_zero (fun x hx => ?_)
      rw [Finset.mem_range] at hx
      have := (key x hx).2.2.2 (by omega)
      unfold compAt at this
      rw [this, zero_mul]

/-! ### The images of the two methods -/

omit [LinearOrder R] [IsStrictOrderedRing R] in
theorem back_sum (back : (Nat → Nat → R) → Nat → Nat → R) (hb : Linear back) (r q : Nat) {ι : Type} (a : ι → R)
    (F : ι → Nat → Nat → R) : ∀ l : List ι,
    back (fun x y => (l.map (fun k => a k * F k x y)).sum) r q = (l.map (fun k => a k * back (F k) r q)).sum
  | [] => by
    have := hb (fun _ _ => 0) (fun _ _ => 0) 1 r q
    simp only [mul_zero, add_zero, one_mul, left_eq_add] at this
    simpa using this
  | k :: l => by
    simp only [List.map_cons, List.sum_cons]
    have := hb (fun x y => (l.map (fun k => a k * F k x y)).sum) (F k) (a k) r q
    rw [back_sum back hb r q a F l] at this
    rw [add_comm, ← this]
    congr 1
    funext x y
    rw [add_comm]

theorem det_sum (c p : Comp R) (hc : Semidefinite c) (hp : Definite p) : 1 / 10 ^ 30 ≤ detOf (convVar c p) := by
  obtain ⟨a1, a2, a3⟩ := hc
  obtain ⟨b1, b2, b3⟩ := hp
  unfold detOf convVar
  simp only
  have hps : p.vxy ^ 2 ≤ p.vxx * p.vyy := by
    have : (0 : R) ≤ 1 / 10 ^ 30 := by positivity
    linarith
  -- 2 vxy pxy ≤ vxx pyy + vyy pxx
  have h2 : c.vxy * p.vxy * 2 ≤ c.vxx * p.vyy + p.vxx * c.vyy := by
    have hx : (0 : R) ≤ c.vxx * p.vyy + p.vxx * c.vyy := by positivity
    have hsq : (c.vxy * p.vxy * 2) ^ 2 ≤ (c.vxx * p.vyy + p.vxx * c.vyy) ^ 2 := by
      have e1 : (c.vxy * p.vxy) ^ 2 ≤ (c.vxx * c.vyy) * (p.vxx * p.vyy) := by
        rw [mul_pow]
        exact mul_le_mul a3 hps (sq_nonneg _) (mul_nonneg a1 a2)
      nlinarith [sq_nonneg (c.vxx * p.vyy - p.vxx * c.vyy)]
    exact le_of_sq_le_sq' hx hsq
  nlinarith
where
  le_of_sq_le_sq' {x y : R} (hy : 0 ≤ y) (h : x ^ 2 ≤ y ^ 2) : x ≤ y := by
    by_contra hlt
    push Not at hlt
    nlinarith

omit [LinearOrder R] [IsStrictOrderedRing R] in
theorem psfAt_cases (psfs : List (ImPsf R)) (i l : Nat) (p : ImPsf R) (hi : psfs[i]? = some p) :
    psfAt psfs i l = p.mog.getD l noComp := by
  simp [psfAt, List.getD_eq_getElem?_getD, hi]

/-- The inner sum over the components of the PSF. -/
theorem psf_sum (E : Lib R) (sz : Nat) (psfs : List (ImPsf R)) (i : Nat) (p : ImPsf R) (hi : psfs[i]? = some p)
    (hd : ∀ c ∈ p.mog, Definite c) (c : Comp R) (hc : Semidefinite c) (amp : R) (r q : Nat) :
    ((List.range (nPsf psfs)).map (fun l => gaussAt E sz (amp * (psfAt psfs i l).amp) (convVar c (psfAt psfs i l)) r q)).sum =
      amp * (p.mog.map (fun d => d.amp * density E c d (q - ((sz / 2 : Nat) : R)) (r - ((sz / 2 : Nat) : R)))).sum := by
  rw [sum_list_range]
  have hlen : p.mog.length ≤ nPsf psfs :=
    le_foldl_max _ _ _ (.inr (List.mem_map_of_mem (f := fun p : ImPsf R => p.mog.length) (List.mem_iff_getElem?.mpr ⟨i, hi⟩)))
  have : ∀ l, gaussAt E sz (amp * (psfAt psfs i l).amp) (convVar c (psfAt psfs i l)) r q =
      amp * ((p.mog.getD l noComp).amp * density E c (p.mog.getD l noComp) (q - ((sz / 2 : Nat) : R)) (r - ((sz / 2 : Nat) : R))) := by
    intro l
    rw [psfAt_cases psfs i l p hi]
    cases h : p.mog[l]? with
    | none =>
      rw [List.getD_eq_getElem?_getD, h, Option.getD_none]
      simp [gaussAt, noComp]
    | some d =>
      rw [List.getD_eq_getElem?_getD, h, Option.getD_some]
      have hdet := det_sum c d hc (hd d (List.mem_iff_getElem?.mpr ⟨l, h⟩))
      unfold gaussAt density
      simp only
      rw [max_eq_left hdet]
      unfold detOf convVar
      simp only
      rw [show ∀ x y D : R, (c.vyy + d.vyy) / D * x ^ 2 + -2 * (c.vxy + d.vxy) / D * (x * y) + (c.vxx + d.vxx) / D * y ^ 2 =
        ((c.vyy + d.vyy) * x ^ 2 - 2 * (c.vxy + d.vxy) * (x * y) + (c.vxx + d.vxx) * y ^ 2) / D from fun x y D => by ring]
      ring
  simp only [this]
  rw [← Finset.mul_sum]
  congr 1
  exact sum_list_pad (noComp : Comp R) (fun d : Comp R => d.amp * density E c d (q - ((sz / 2 : Nat) : R))
    (r - ((sz / 2 : Nat) : R))) (by simp [noComp]) _ _ hlen

/-- The determinants pass the assertion. -/
theorem dets_ok (E : Lib R) (sz : Nat) (ramp : Bool) (mogs : List (List (Mix R))) (psfs : List (ImPsf R)) (lo : Nat)
    (hlen : psfs.length = mogs.length) (hc : ∀ l ∈ mogs, ∀ m ∈ l, ∀ c ∈ m, Semidefinite c)
    (hd : ∀ p ∈ psfs, ∀ c ∈ p.mog, Definite c) : detsOK E sz ramp mogs psfs lo = true := by
  unfold detsOK
  simp only [List.all_eq_true, List.mem_range]
  intro i hi j hj k hk l hl
  obtain ⟨p, hp⟩ : ∃ p, psfs[i]? = some p := ⟨_, List.getElem?_eq_getElem (by omega)⟩
  have hsemi : Semidefinite (compAt mogs i j k) := by
    rcases compAt_mem mogs i j k with h | ⟨l, hl, m, hm, h⟩
    · rw [h]; exact noComp_semi
    · exact hc l hl m hm _ h
  rw [psfAt_cases psfs i l p hp]
  cases h : p.mog[l]? with
  | none =>
    rw [List.getD_eq_getElem?_getD, h, Option.getD_none]
    have hnn : 0 ≤ detOf (convVar (compAt mogs i j k) noComp) := by
      simp only [detOf, convVar, noComp, add_zero]
      linarith [hsemi.2.2]
    rcases lt_or_eq_of_le hnn with h | h
    · simp [h]
    · rw [← h]; simp [noComp]
  | some d =>
    rw [List.getD_eq_getElem?_getD, h, Option.getD_some]
    have := det_sum (compAt mogs i j k) d hsemi (hd p (List.mem_iff_getElem?.mpr ⟨i, hp⟩) d (List.mem_iff_getElem?.mpr ⟨l, h⟩))
    have h0 : (0 : R) < 1 / 10 ^ 30 := by positivity
    simp [lt_of_lt_of_le h0 this]

end Verif.Gpu
