import Verif.Psf.Model
import Mathlib.Algebra.BigOperators.Group.Finset.Basic
import Mathlib.Algebra.BigOperators.Group.Finset.Sigma
import Mathlib.Algebra.BigOperators.Group.List.Basic
import Mathlib.Tactic.Ring
import Mathlib.Tactic.Linarith

/-! # The order of PsfEx terms -/

namespace Verif.Psf

/-- Index of the first term with power `k` of `y`. -/
def off (n : Nat) : Nat → Nat
  | 0 => 0
  | k + 1 => off n k + (n + 1 - k)

theorem tri_succ (k : Int) : ((k + 1) * (k + 1 - 1)) / 2 = (k * (k - 1)) / 2 + k := by
  rw [show (k + 1) * (k + 1 - 1) = k * (k - 1) + k * 2 by ring, Int.add_mul_ediv_right _ _ (by omega)]

theorem off_eq (n : Nat) : ∀ k, k ≤ n + 1 → (off n k : Int) = (n + 1) * k - (k * (k - 1) : Int) / 2
  | 0, _ => by simp [off]
  | k + 1, h => by
    have ih := off_eq n k (by omega)
    simp only [off]
    push_cast
    rw [tri_succ, ih, Nat.cast_sub (by omega)]
    push_cast
    ring

theorem termIndex_eq (n j k : Nat) (h : j + k ≤ n) : termIndex n j k = ((off n k + j : Nat) : Int) := by
  push_cast
  rw [termIndex, off_eq n k (by omega)]
  ring

theorem off_mono (n : Nat) : ∀ {a b : Nat}, a ≤ b → off n a ≤ off n b := by
  intro a b h
  induction h with
  | refl => exact le_rfl
  | step _ ih => exact ih.trans (by simp [off])

theorem off_last (n : Nat) : off n (n + 1) = (n + 1) * (n + 2) / 2 := by
  have h := off_eq n (n + 1) (by omega)
  push_cast at h
  have e : ((n : Int) + 1) * ((n : Int) + 1) - ((n + 1) * (n + 1 - 1)) / 2 = ((n + 1) * (n + 2)) / 2 := by
    have h1 : ((n : Int) + 1) * (n + 2) = (n + 1) * (n + 1 - 1) + (n + 1) * 2 := by ring
    rw [h1, Int.add_mul_ediv_right _ _ (by omega)]
    have h2 : ((n : Int) + 1) * (n + 1 - 1) % 2 = 0 := by
      have : ((n : Int) + 1) * (n + 1 - 1) = n * (n + 1) := by ring
      rw [this]
      rcases Int.emod_two_eq_zero_or_one n with a | a
      · rw [Int.mul_emod, a]; simp
      · rw [Int.mul_emod, Int.add_emod, a]; simp
    have h3 := Int.mul_ediv_add_emod (((n : Int) + 1) * (n + 1 - 1)) 2
    nlinarith
  have g : ((off n (n + 1) : Nat) : Int) = (((n + 1) * (n + 2) / 2 : Nat) : Int) := by
    push_cast
    rw [h, e]
  exact_mod_cast g

theorem index_lt (n j k : Nat) (h : j + k ≤ n) : off n k + j < (n + 1) * (n + 2) / 2 := by
  have h1 : off n (k + 1) ≤ off n (n + 1) := off_mono n (by omega)
  rw [off_last] at h1
  simp only [off] at h1
  omega

theorem index_inj (n j k j' k' : Nat) (h : j + k ≤ n) (h' : j' + k' ≤ n) (e : off n k + j = off n k' + j') :
    j = j' ∧ k = k' := by
  rcases Nat.lt_trichotomy k k' with a | a | a
  · have h1 : off n (k + 1) ≤ off n k' := off_mono n a
    simp only [off] at h1
    omega
  · subst a; omega
  · have h1 : off n (k' + 1) ≤ off n k := off_mono n a
    simp only [off] at h1
    omega

theorem index_onto (n : Nat) : ∀ K, K ≤ n + 1 → ∀ i, i < off n K → ∃ j k, j + k ≤ n ∧ off n k + j = i
  | 0, _, i, h => by simp [off] at h
  | K + 1, hK, i, h => by
    by_cases c : i < off n K
    · exact index_onto n K (by omega) i c
    · refine ⟨i - off n K, K, ?_, by omega⟩
      simp only [off] at h
      omega

theorem mem_powerPairs (n j k : Nat) : (j, k) ∈ powerPairs n ↔ j + k ≤ n := by
  simp only [powerPairs, List.mem_flatMap, List.mem_range, List.mem_map, Prod.mk.injEq]
  constructor
  · rintro ⟨d, hd, j', hj', rfl, rfl⟩; omega
  · intro h; exact ⟨j + k, by omega, j, by omega, rfl, by omega⟩

/-- The loops over any part of the pairs: the terms met are assigned, the others unchanged. -/
theorem polyLoop_ok {A : Type} (n : Nat) (amp : Nat → Nat → A) : ∀ (ps : List (Nat × Nat)) (terms : List A),
    (∀ p ∈ ps, p.1 + p.2 ≤ n) → terms.length = (n + 1) * (n + 2) / 2 →
    ∃ terms', polyLoop n amp ps terms = .ok terms' ∧ terms'.length = terms.length ∧
      (∀ j k, (j, k) ∈ ps → terms'[off n k + j]? = some (amp j k)) ∧
      (∀ j k, j + k ≤ n → (j, k) ∉ ps → terms'[off n k + j]? = terms[off n k + j]?)
  | [], terms, _, _ => ⟨terms, rfl, rfl, by simp, fun _ _ _ _ => rfl⟩
  | (j0, k0) :: ps, terms, hp, hl => by
    have h0 : j0 + k0 ≤ n := hp (j0, k0) (by simp)
    have hi := index_lt n j0 k0 h0
    have hs : setTerm terms (termIndex n j0 k0) (amp j0 k0) = .ok (terms.set (off n k0 + j0) (amp j0 k0)) := by
      rw [termIndex_eq n j0 k0 h0, setTerm, if_pos (by omega), Int.toNat_natCast]
    obtain ⟨t', e, l', h1, h2⟩ := polyLoop_ok n amp ps (terms.set (off n k0 + j0) (amp j0 k0))
      (fun p h => hp p (by simp [h])) (by simpa using hl)
    refine ⟨t', by simp only [polyLoop, hs, e], by simpa using l', ?_, ?_⟩
    · intro j k hjk
      by_cases c : (j, k) ∈ ps
      · exact h1 j k c
      · have : j = j0 ∧ k = k0 := by simpa [c] using hjk
        obtain ⟨rfl, rfl⟩ := this
        rw [h2 j k h0 c, List.getElem?_set_self (by omega)]
    · intro j k hjk hn
      simp only [List.mem_cons, Prod.mk.injEq, not_or] at hn
      rw [h2 j k hjk hn.2, List.getElem?_set_ne]
      intro e
      exact hn.1 ⟨(index_inj n j0 k0 j k h0 hjk e).1.symm, (index_inj n j0 k0 j k h0 hjk e).2.symm⟩

theorem zip_sum {R A : Type} [Field R] (f : A → R) : ∀ (ts : List R) (bs : List A), ts.length = bs.length →
    ((List.zip ts bs).map (fun tb => tb.1 * f tb.2)).sum =
      ∑ i ∈ Finset.range bs.length, (ts.getD i 0) * ((bs[i]?.map f).getD 0)
  | [], [], _ => by simp
  | t :: ts, b :: bs, h => by
    rw [List.zip_cons_cons, List.map_cons, List.sum_cons, zip_sum f ts bs (by simpa using h),
      List.length_cons, Finset.sum_range_succ']
    simp [add_comm]
  | [], _ :: _, h => by simp at h
  | _ :: _, [], h => by simp at h

end Verif.Psf
