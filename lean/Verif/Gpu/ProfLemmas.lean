import Verif.Gpu.ProfSpec
import Verif.Gpu.Lemmas3
import Mathlib.Algebra.BigOperators.Group.Finset.Basic
import Mathlib.Algebra.BigOperators.Intervals
import Mathlib.Tactic.Linarith
import Mathlib.Tactic.Ring
import Mathlib.Tactic.Positivity

/-!
# Lemmas for the galaxy profiles of the GPU
-/

namespace Verif.Gpu

open Verif Verif.Psf Verif.Mog

theorem le_foldl_max (l : List Nat) : ∀ (b x : Nat), x ≤ b ∨ x ∈ l → x ≤ l.foldl max b := by
  induction l with
  | nil => intro b x h; simpa using h
  | cons a l ih =>
    intro b x h
    rw [List.foldl_cons]
    refine ih _ _ ?_
    rcases h with h | h
    · left; omega
    · rcases List.mem_cons.mp h with rfl | h
      · left; omega
      · right; exact h

section
variable {M : Type} [AddCommMonoid M]

theorem sum_list_range (n : Nat) (f : Nat → M) : ((List.range n).map f).sum = ∑ k ∈ Finset.range n, f k := by
  induction n with
  | zero => simp
  | succ n ih => rw [List.range_succ, List.map_append, List.sum_append, ih, Finset.sum_range_succ]; simp

theorem sum_list_range' (n : Nat) (f : Nat → M) : ∀ lo, ((List.range' lo n).map f).sum = ∑ k ∈ Finset.Ico lo (lo + n), f k := by
  induction n with
  | zero => simp
  | succ n ih =>
    intro lo
    rw [List.range'_succ, List.map_cons, List.sum_cons, ih, Finset.sum_eq_sum_Ico_succ_bot (show lo < lo + (n + 1) by omega),
      show lo + (n + 1) = lo + 1 + n by omega]

theorem sum_list_getD {α : Type} (d : α) (f : α → M) : ∀ l : List α,
    (l.map f).sum = ∑ k ∈ Finset.range l.length, f (l.getD k d)
  | [] => by simp
  | a :: l => by
    rw [List.map_cons, List.sum_cons, sum_list_getD d f l, List.length_cons, Finset.sum_range_succ']
    simp [add_comm]

/-- A list padded with something that adds nothing. -/
theorem sum_list_pad {α : Type} (d : α) (f : α → M) (hd : f d = 0) (l : List α) (n : Nat) (h : l.length ≤ n) :
    ∑ k ∈ Finset.range n, f (l.getD k d) = (l.map f).sum := by
  rw [sum_list_getD d f l]
  symm
  apply Finset.sum_subset_zero_on_sdiff
  · intro x; simp only [Finset.mem_range]; omega
  · intro x hx
    simp only [Finset.mem_sdiff, Finset.mem_range, not_lt] at hx
    rw [List.getD_eq_getElem?_getD, List.getElem?_eq_none (by omega), Option.getD_none, hd]
  · intro x _; rfl

end

variable {R : Type} [Field R] [LinearOrder R] [IsStrictOrderedRing R]

omit [IsStrictOrderedRing R] in
theorem noComp_semi : Semidefinite (noComp : Comp R) := by simp [Semidefinite, noComp]

/-- What is known about one component: `s` is its share. -/
theorem amp_facts (E : Lib R) (hs : ∀ x, 0 ≤ x → 0 ≤ E.sqrt x ∧ E.sqrt x ^ 2 = x) (sz : Nat) (hp : 0 < sz) (c : Comp R)
    (hc : Semidefinite c) : ∃ s, s = Gal.share ((sz : R) / 2) 3 4 (E.sqrt (c.vxx + c.vyy)) ∧
    (inMogs sz c = true → c.amp ≠ 0) ∧ (inFfts sz c = true → c.amp ≠ 0) ∧
    (c.amp ≠ 0 → inMogs sz c = false → s = 0) ∧ (c.amp ≠ 0 → inFfts sz c = false → s = 1) ∧
    mogAmp E sz true c = c.amp * s ∧ fftAmp E sz true c = c.amp * (1 - s) := by
  have htr : (0 : R) ≤ Gal.trace c := add_nonneg hc.1 hc.2.1
  obtain ⟨f1, f2, f3, f4, -⟩ := Gal.comp_facts E.sqrt hs sz hp (3 : R) 4 (by norm_num) (by norm_num) (by norm_num) c htr
  have hpw : (1 : R) ≤ sz := by exact_mod_cast hp
  have rng := Gal.share_range ((sz : R) / 2) 3 4 (E.sqrt (Gal.trace c)) (by norm_num) (hs _ htr).1 (by linarith)
  have e1 : inMogs sz c = (Gal.inMog sz 4 c && decide (c.amp ≠ 0)) := rfl
  have e2 : inFfts sz c = (Gal.inFft sz 3 c && decide (c.amp ≠ 0)) := rfl
  have e3 : Gal.mogWeight E.sqrt sz 3 4 c = min 1 ((4 - nSig E sz c) / (4 - 3)) := rfl
  have e4 : Gal.fftWeight E.sqrt sz 3 4 c = min 1 ((nSig E sz c - 3) / (4 - 3)) := rfl
  refine ⟨_, rfl, ?_, ?_, ?_, ?_, ?_, ?_⟩
  · rw [e1]; simp
  · rw [e2]; simp
  · intro h0 h
    rw [e1] at h
    have hn : Gal.inMog sz 4 c = false := by simpa [h0] using h
    have hle := mt f1.mpr (by simp [hn])
    exact le_antisymm (not_lt.mp hle) rng.1
  · intro h0 h
    rw [e2] at h
    have hn : Gal.inFft sz 3 c = false := by simpa [h0] using h
    have hle := mt f2.mpr (by simp [hn])
    exact le_antisymm rng.2 (not_lt.mp hle)
  · unfold mogAmp
    rw [if_pos rfl, e1]
    by_cases h0 : c.amp = 0
    · simp [h0]
    · by_cases hm : Gal.inMog sz 4 c = true
      · have hw := f3 hm
        have hpos := f1.mp hm
        rw [e3] at hw
        simp only [hm, h0, ne_eq, not_false_eq_true, decide_true, Bool.and_self, if_true, mul_one]
        rw [mul_comm]
        congr 1
        show clip01 _ = Gal.share _ _ _ (E.sqrt (Gal.trace c))
        rw [← hw] at hpos ⊢
        have : 0 < (4 - nSig E sz c) / (4 - 3) := (lt_min_iff.mp hpos).2
        unfold clip01
        rw [max_eq_left this.le, min_comm]
      · have hle := mt f1.mpr hm
        have : Gal.share ((sz : R) / 2) 3 4 (E.sqrt (c.vxx + c.vyy)) = 0 := le_antisymm (not_lt.mp hle) rng.1
        rw [this]
        simp [hm]
  · unfold fftAmp
    rw [if_pos rfl, e2]
    by_cases h0 : c.amp = 0
    · simp [h0]
    · by_cases hm : Gal.inFft sz 3 c = true
      · have hw := f4 hm
        have hpos : 0 < 1 - Gal.share ((sz : R) / 2) 3 4 (E.sqrt (Gal.trace c)) := sub_pos.mpr (f2.mp hm)
        rw [e4] at hw
        simp only [hm, h0, ne_eq, not_false_eq_true, decide_true, Bool.and_self, if_true, mul_one]
        rw [mul_comm]
        congr 1
        show clip01 _ = 1 - Gal.share _ _ _ (E.sqrt (Gal.trace c))
        rw [← hw] at hpos ⊢
        have : 0 < (nSig E sz c - 3) / (4 - 3) := (lt_min_iff.mp hpos).2
        unfold clip01
        rw [max_eq_left this.le, min_comm]
      · have hle := mt f2.mpr hm
        have : Gal.share ((sz : R) / 2) 3 4 (E.sqrt (c.vxx + c.vyy)) = 1 := le_antisymm rng.2 (not_lt.mp hle)
        rw [this]
        simp [hm]

omit [LinearOrder R] [IsStrictOrderedRing R] in
theorem mem_hotK (I : Comp R → Bool) (mogs : List (List (Mix R))) (k : Nat) : k ∈ hotK I mogs ↔
    k < kMax mogs ∧ ∃ i < mogs.length, ∃ j < nProf mogs, I (compAt mogs i j k) = true := by
  simp [hotK]

omit [LinearOrder R] [IsStrictOrderedRing R] in
/-- Counting from where there is something to count. -/
theorem count_from (I : Comp R → Bool) (mogs : List (List (Mix R))) (lo : Nat) (h : lo ≤ kMax mogs)
    (h0 : ∀ k ∈ hotK I mogs, lo ≤ k) : countK I mogs 0 (kMax mogs) = countK I mogs lo (kMax mogs) := by
  unfold countK
  congr 1
  refine List.map_congr_left (fun i hi => ?_)
  congr 1
  refine List.map_congr_left (fun j hj => ?_)
  have e : List.range' 0 (kMax mogs - 0) = List.range' 0 lo ++ List.range' lo (kMax mogs - lo) := by
    have := List.range'_append (s := 0) (m := lo) (n := kMax mogs - lo) (step := 1)
    simp only [Nat.one_mul, Nat.zero_add] at this
    rw [this]
    congr 1
    omega
  rw [e, List.filter_append, List.filter_eq_nil_iff.mpr, List.nil_append]
  intro k hk
  rw [List.mem_range'_1] at hk
  intro hI
  have := h0 k ((mem_hotK I mogs k).mpr ⟨by omega, i, List.mem_range.mp hi, j, List.mem_range.mp hj, hI⟩)
  omega

omit [LinearOrder R] [IsStrictOrderedRing R] in
/-- Counting up to where there is something to count. -/
theorem count_to (I : Comp R → Bool) (mogs : List (List (Mix R))) (hi : Nat) (h : hi ≤ kMax mogs)
    (h0 : ∀ k ∈ hotK I mogs, k < hi) : countK I mogs 0 (kMax mogs) = countK I mogs 0 hi := by
  unfold countK
  congr 1
  refine List.map_congr_left (fun i hi' => ?_)
  congr 1
  refine List.map_congr_left (fun j hj => ?_)
  have e : List.range' 0 (kMax mogs - 0) = List.range' 0 (hi - 0) ++ List.range' hi (kMax mogs - hi) := by
    have := List.range'_append (s := 0) (m := hi) (n := kMax mogs - hi) (step := 1)
    simp only [Nat.one_mul, Nat.zero_add] at this
    simp only [Nat.sub_zero]
    rw [this]
    congr 1
    omega
  have e0 : (List.range' hi (kMax mogs - hi)).filter (fun k => I (compAt mogs i j k)) = [] := by
    rw [List.filter_eq_nil_iff]
    intro k hk
    rw [List.mem_range'_1] at hk
    intro hI
    have := h0 k ((mem_hotK I mogs k).mpr ⟨by omega, i, List.mem_range.mp hi', j, List.mem_range.mp hj, hI⟩)
    omega
  rw [e, List.filter_append, e0, List.append_nil]

end Verif.Gpu
