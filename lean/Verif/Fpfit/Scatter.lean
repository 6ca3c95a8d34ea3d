import Verif.Fpfit.Recover2

/-!
# The scatter of least-squares fits (C149): lemmas
-/

namespace Verif.Fpfit

open Finset

variable {R : Type} [Field R] [LinearOrder R] [IsStrictOrderedRing R] {ι κ : Type} [DecidableEq ι]

/-- The information of a parameter: the sum of its squared weighted derivatives. -/
def info (P : Finset ι) (w : ι → R) (A : ι → ℕ → R) (k : ℕ) : R := ∑ π ∈ P, (w π * A π k) * (w π * A π k)

/-- Least-squares fits to data with uncorrelated noise of variance one over the squared weight: the variance of a parameter that can be told from the
pixels is at least one over its information, and is that if no other parameter changes the same pixels. -/
theorem resid_var (P : Finset ι) (K K' : Finset ℕ) (hK : K' ⊆ K) (w c : ι → R) (A : ι → ℕ → R) (J : Finset κ) (ω : κ → R) (hω : ∀ j ∈ J, 0 ≤ ω j)
    (d : κ → ι → R) (θ : κ → ℕ → R) (q : ℕ → R)
    (h : ∀ j ∈ J, ∀ θ', ∑ π ∈ P, resid K w (d j) c A (θ j) π * resid K w (d j) c A (θ j) π ≤
      ∑ π ∈ P, resid K w (d j) c A θ' π * resid K w (d j) c A θ' π)
    (hcov : ∀ π ∈ P, ∀ π' ∈ P, ∑ j ∈ J, ω j * (resid K w (d j) c A q π * resid K w (d j) c A q π') = if π = π' ∧ w π ≠ 0 then 1 else 0)
    (hid : ∀ v : ℕ → R, (∀ π ∈ P, w π * ∑ k ∈ K, v k * A π k = 0) → ∀ k ∈ K', v k = 0) (k : ℕ) (hk : k ∈ K') :
    1 ≤ info P w A k * ∑ j ∈ J, ω j * ((θ j k - q k) * (θ j k - q k)) ∧
    ((∀ l ∈ K, l ≠ k → ∀ π ∈ P, (w π * A π k) * (w π * A π l) = 0) → info P w A k * ∑ j ∈ J, ω j * ((θ j k - q k) * (θ j k - q k)) = 1) := by
  obtain ⟨G, hG⟩ : ∃ G : ℕ → ℕ → R, G = fun l m => ∑ π ∈ P, (w π * A π l) * (w π * A π m) := ⟨_, rfl⟩
  obtain ⟨b, hb⟩ : ∃ b : κ → ℕ → R, b = fun j l => ∑ π ∈ P, resid K w (d j) c A q π * (w π * A π l) := ⟨_, rfl⟩
  obtain ⟨δ, hδ⟩ : ∃ δ : κ → ℕ → R, δ = fun j l => θ j l - q l := ⟨_, rfl⟩
  have hkK : k ∈ K := hK hk
  have hinfo : info P w A k = G k k := by rw [hG]; rfl
  -- the normal equations
  have normal : ∀ j ∈ J, ∀ l ∈ K, b j l = ∑ m ∈ K, δ j m * G m l := by
    intro j hj l hl
    have h0 := resid_normal P K w (d j) c A (θ j) (h j hj) (fun m => if m = l then 1 else 0)
    have e1 : ∀ π, ∑ m ∈ K, (if m = l then (1 : R) else 0) * A π m = A π l := by
      intro π
      rw [sum_eq_single l]
      · rw [if_pos rfl, one_mul]
      · intro m _ hm; rw [if_neg hm, zero_mul]
      · intro h; exact absurd hl h
    simp only [e1] at h0
    have e2 : ∀ π, resid K w (d j) c A (θ j) π = resid K w (d j) c A q π - ∑ m ∈ K, δ j m * (w π * A π m) := by
      intro π
      have : ∑ m ∈ K, δ j m * (w π * A π m) = w π * (∑ m ∈ K, θ j m * A π m - ∑ m ∈ K, q m * A π m) := by
        rw [← sum_sub_distrib, mul_sum, hδ]
        exact sum_congr rfl (fun m _ => by ring)
      rw [this]
      unfold resid
      ring
    have e3 : ∑ π ∈ P, resid K w (d j) c A (θ j) π * (w π * A π l) = b j l - ∑ m ∈ K, δ j m * G m l := by
      have : ∑ m ∈ K, δ j m * G m l = ∑ π ∈ P, (∑ m ∈ K, δ j m * (w π * A π m)) * (w π * A π l) := by
        rw [hG]
        simp only [mul_sum, sum_mul]
        rw [sum_comm]
        exact sum_congr rfl (fun _ _ => sum_congr rfl (fun _ _ => by ring))
      rw [this, hb, ← sum_sub_distrib]
      refine sum_congr rfl (fun π _ => ?_)
      rw [e2]; ring
    rw [e3] at h0
    linarith
  -- the covariance of the right-hand sides
  have covb : ∀ l m, ∑ j ∈ J, ω j * (b j l * b j m) = G l m := by
    intro l m
    have e1 : ∀ j, ω j * (b j l * b j m) = ∑ π ∈ P, ∑ π' ∈ P, (w π * A π l) * (w π' * A π' m) *
        (ω j * (resid K w (d j) c A q π * resid K w (d j) c A q π')) := by
      intro j
      rw [hb]
      dsimp only
      rw [sum_mul_sum, mul_sum]
      refine sum_congr rfl (fun π _ => ?_)
      rw [mul_sum]
      exact sum_congr rfl (fun π' _ => by ring)
    rw [sum_congr rfl (fun j _ => e1 j), sum_comm, hG]
    refine sum_congr rfl (fun π hπ => ?_)
    rw [sum_comm]
    have e2 : ∀ π' ∈ P, ∑ j ∈ J, (w π * A π l) * (w π' * A π' m) * (ω j * (resid K w (d j) c A q π * resid K w (d j) c A q π')) =
        if π' = π then (w π * A π l) * (w π * A π m) else 0 := by
      intro π' hπ'
      rw [← mul_sum, hcov π hπ π' hπ']
      by_cases e : π' = π
      · subst e
        by_cases hw : w π' = 0
        · rw [if_neg (by simp [hw]), if_pos rfl, hw]; ring
        · rw [if_pos ⟨rfl, hw⟩, if_pos rfl, mul_one]
      · rw [if_neg (fun h => e h.1.symm), if_neg e, mul_zero]
    rw [sum_congr rfl e2, sum_ite_eq' P π, if_pos hπ]
  -- the covariance of the right-hand sides and the parameters
  have cross : ∑ j ∈ J, ω j * (b j k * δ j k) = 1 := by
    obtain ⟨v, hv⟩ : ∃ v : ℕ → R, v = fun m => ∑ j ∈ J, ω j * (b j k * δ j m) - (if m = k then 1 else 0) := ⟨_, rfl⟩
    have vG : ∀ l ∈ K, ∑ m ∈ K, v m * G m l = 0 := by
      intro l hl
      have e1 : ∑ m ∈ K, (∑ j ∈ J, ω j * (b j k * δ j m)) * G m l = G k l := by
        rw [← covb k l]
        have : ∀ j ∈ J, ω j * (b j k * b j l) = ∑ m ∈ K, ω j * (b j k * δ j m) * G m l := by
          intro j hj
          rw [normal j hj l hl, mul_sum, mul_sum]
          exact sum_congr rfl (fun m _ => by ring)
        rw [sum_congr rfl this, sum_comm]
        exact sum_congr rfl (fun m _ => by rw [sum_mul])
      have e2 : ∑ m ∈ K, (if m = k then (1 : R) else 0) * G m l = G k l := by
        rw [sum_eq_single k]
        · rw [if_pos rfl, one_mul]
        · intro m _ hm; rw [if_neg hm, zero_mul]
        · intro h; exact absurd hkK h
      rw [hv]
      simp only [sub_mul, sum_sub_distrib]
      rw [e1, e2, sub_self]
    have sq : ∑ π ∈ P, (w π * ∑ m ∈ K, v m * A π m) * (w π * ∑ m ∈ K, v m * A π m) = 0 := by
      have : ∑ π ∈ P, (w π * ∑ m ∈ K, v m * A π m) * (w π * ∑ m ∈ K, v m * A π m) = ∑ l ∈ K, v l * ∑ m ∈ K, v m * G m l := by
        rw [hG]
        simp only [mul_sum, sum_mul]
        rw [sum_comm]
        refine sum_congr rfl (fun l _ => ?_)
        rw [sum_comm]
        exact sum_congr rfl (fun _ _ => sum_congr rfl (fun _ _ => by ring))
      rw [this]
      exact sum_eq_zero (fun l hl => by rw [vG l hl, mul_zero])
    rw [sum_eq_zero_iff_of_nonneg (fun _ _ => mul_self_nonneg _)] at sq
    have := hid v (fun π hπ => mul_self_eq_zero.1 (sq π hπ)) k hk
    rw [hv] at this
    dsimp only at this
    rw [if_pos rfl] at this
    linarith
  have Gpos : 0 < G k k := by
    have hn : 0 ≤ G k k := by rw [hG]; exact sum_nonneg (fun _ _ => mul_self_nonneg _)
    rcases hn.lt_or_eq with h1 | h1
    · exact h1
    · exfalso
      rw [hG] at h1
      have h2 := (sum_eq_zero_iff_of_nonneg (fun _ _ => mul_self_nonneg _)).1 h1.symm
      have := hid (fun m => if m = k then 1 else 0) (fun π hπ => by
        have e1 : ∑ m ∈ K, (if m = k then (1 : R) else 0) * A π m = A π k := by
          rw [sum_eq_single k]
          · rw [if_pos rfl, one_mul]
          · intro m _ hm; rw [if_neg hm, zero_mul]
          · intro h; exact absurd hkK h
        rw [e1]
        exact mul_self_eq_zero.1 (h2 π hπ)) k hk
      simp at this
  rw [hinfo]
  have hδk : ∑ j ∈ J, ω j * ((θ j k - q k) * (θ j k - q k)) = ∑ j ∈ J, ω j * (δ j k * δ j k) := by rw [hδ]
  rw [hδk]
  constructor
  · have h0 : 0 ≤ ∑ j ∈ J, ω j * ((G k k * δ j k - b j k) * (G k k * δ j k - b j k)) :=
      sum_nonneg (fun j hj => mul_nonneg (hω j hj) (mul_self_nonneg _))
    have e : ∑ j ∈ J, ω j * ((G k k * δ j k - b j k) * (G k k * δ j k - b j k)) =
        G k k * (G k k * ∑ j ∈ J, ω j * (δ j k * δ j k)) - 2 * G k k * ∑ j ∈ J, ω j * (b j k * δ j k) + ∑ j ∈ J, ω j * (b j k * b j k) := by
      simp only [mul_sum]
      rw [← sum_sub_distrib, ← sum_add_distrib]
      exact sum_congr rfl (fun j _ => by ring)
    rw [e, cross, covb] at h0
    nlinarith
  · intro hiso
    have Gz : ∀ m ∈ K, m ≠ k → G m k = 0 := by
      intro m hm hne
      rw [hG]
      exact sum_eq_zero (fun π hπ => by rw [mul_comm]; exact hiso m hm hne π hπ)
    have e1 : ∀ j ∈ J, b j k = δ j k * G k k := by
      intro j hj
      rw [normal j hj k hkK, sum_eq_single k]
      · intro m hm hne; rw [Gz m hm hne, mul_zero]
      · intro h; exact absurd hkK h
    have e2 : G k k * ∑ j ∈ J, ω j * (δ j k * δ j k) = ∑ j ∈ J, ω j * (b j k * δ j k) := by
      rw [mul_sum]
      exact sum_congr rfl (fun j hj => by rw [e1 j hj]; ring)
    rw [e2, cross]

end Verif.Fpfit
