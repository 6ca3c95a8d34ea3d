import Verif.Fit.PropsTurns
import Mathlib.LinearAlgebra.Basis.VectorSpace
import Mathlib.LinearAlgebra.Pi

/-!
# Turns over and over again (C162): lemmas

The distance to the best fit is at most a constant times what a pass of turns gains, whatever the starting values.
-/

namespace Verif.Fit

open Verif Params Patches Engine Finset

section algebra

variable {ι κ R : Type} [Field R] [LinearOrder R] [IsStrictOrderedRing R]

/-- `|Σ u v|² ≤ Σ u² Σ v²`. -/
theorem dot_sq (P : Finset ι) (u v : ι → R) : (∑ π ∈ P, u π * v π) ^ 2 ≤ (∑ π ∈ P, u π * u π) * ∑ π ∈ P, v π * v π := by
  have := sum_mul_sq_le_sq_mul_sq P u v
  simpa only [sq] using this

/-- A sum of vectors is not larger, up to a constant, than what its products with the vectors allow. -/
theorem span_bound [Fintype κ] [DecidableEq κ] (P : Finset ι) (a : κ → ι → R) : ∃ C : R, 0 ≤ C ∧ ∀ z : κ → R,
    ∑ π ∈ P, (∑ k, z k * a k π) * (∑ k, z k * a k π) ≤ C * ∑ k, (∑ π ∈ P, (∑ l, z l * a l π) * a k π) ^ 2 := by
  let N : (κ → R) →ₗ[R] (κ → R) :=
    { toFun := fun z k => ∑ π ∈ P, (∑ l, z l * a l π) * a k π
      map_add' := by
        intro z z'
        funext k
        simp only [Pi.add_apply, add_mul, sum_add_distrib]
      map_smul' := by
        intro c z
        funext k
        simp only [Pi.smul_apply, smul_eq_mul, RingHom.id_apply, mul_sum, sum_mul]
        exact sum_congr rfl (fun π _ => sum_congr rfl (fun l _ => by ring)) }
  have hN : ∀ z k, N z k = ∑ π ∈ P, (∑ l, z l * a l π) * a k π := fun _ _ => rfl
  have hpair : ∀ z z' : κ → R, ∑ π ∈ P, (∑ k, z k * a k π) * (∑ k, z' k * a k π) = ∑ k, z' k * N z k := by
    intro z z'
    simp only [hN]
    simp only [mul_sum (s := univ) (f := fun k => z' k * a k _), mul_sum (s := P)]
    rw [sum_comm]
    exact sum_congr rfl (fun k _ => sum_congr rfl (fun π _ => by ring))
  have hsymm : ∀ z z' : κ → R, ∑ k, z' k * N z k = ∑ k, z k * N z' k := by
    intro z z'
    rw [← hpair, ← hpair]
    exact sum_congr rfl (fun π _ => mul_comm _ _)
  obtain ⟨g, hg⟩ := N.rangeRestrict.exists_rightInverse_of_surjective (LinearMap.range_rangeRestrict N)
  obtain ⟨G, hG⟩ := LinearMap.exists_extend g
  have hinv : ∀ z, N (G (N z)) = N z := by
    intro z
    have h1 : G (N z) = g ⟨N z, LinearMap.mem_range_self N z⟩ := by rw [← hG]; rfl
    have h2 : N.rangeRestrict (g ⟨N z, LinearMap.mem_range_self N z⟩) = ⟨N z, LinearMap.mem_range_self N z⟩ := by
      exact LinearMap.congr_fun hg ⟨N z, LinearMap.mem_range_self N z⟩
    rw [h1]
    exact congrArg Subtype.val h2
  refine ⟨∑ k, ∑ l, |G (Pi.single l 1) k|, sum_nonneg (fun k _ => sum_nonneg (fun l _ => abs_nonneg _)), fun z => ?_⟩
  have e1 : ∑ π ∈ P, (∑ k, z k * a k π) * (∑ k, z k * a k π) = ∑ k, G (N z) k * N z k := by
    rw [hpair, ← hinv z, ← hsymm, hinv]
  have e2 : ∀ (m : κ → R) k, G m k = ∑ l, m l * G (Pi.single l 1) k := by
    intro m k
    have := LinearMap.pi_apply_eq_sum_univ G m
    rw [this, Finset.sum_apply]
    refine sum_congr rfl (fun l _ => ?_)
    rw [Pi.smul_apply, smul_eq_mul]
    have e : (fun j => if l = j then (1 : R) else 0) = Pi.single l 1 := by
      funext j
      simp [Pi.single_apply, eq_comm]
    rw [e]
  simp only [← hN]
  rw [e1]
  generalize N z = m
  rw [sum_mul]
  refine sum_le_sum (fun k _ => ?_)
  rw [e2, sum_mul, sum_mul]
  refine sum_le_sum (fun l _ => ?_)
  have hk : m k ^ 2 ≤ ∑ j, m j ^ 2 := single_le_sum (f := fun j => m j ^ 2) (fun j _ => sq_nonneg _) (mem_univ k)
  have hl : m l ^ 2 ≤ ∑ j, m j ^ 2 := single_le_sum (f := fun j => m j ^ 2) (fun j _ => sq_nonneg _) (mem_univ l)
  have h0 : m l * m k ≤ ∑ j, m j ^ 2 := by nlinarith [sq_nonneg (m l - m k)]
  have h1 : -(m l * m k) ≤ ∑ j, m j ^ 2 := by nlinarith [sq_nonneg (m l + m k)]
  calc m l * G (Pi.single l 1) k * m k = G (Pi.single l 1) k * (m l * m k) := by ring
    _ ≤ |G (Pi.single l 1) k * (m l * m k)| := le_abs_self _
    _ = |G (Pi.single l 1) k| * |m l * m k| := abs_mul _ _
    _ ≤ |G (Pi.single l 1) k| * ∑ j, m j ^ 2 := mul_le_mul_of_nonneg_left (abs_le'.2 ⟨h0, h1⟩) (abs_nonneg _)

section quad

variable (P : Finset ι) (K : Finset ℕ) (w d c : ι → R) (A : ι → ℕ → R)

/-- The sum of squares. -/
def squares (θ : ℕ → R) : R := ∑ π ∈ P, Fpfit.resid K w d c A θ π * Fpfit.resid K w d c A θ π

/-- The change of the model between two sets of values. -/
def shift (θ θ' : ℕ → R) (π : ι) : R := ∑ k ∈ K, (θ' k - θ k) * (w π * A π k)

omit [LinearOrder R] [IsStrictOrderedRing R] in
theorem resid_shift (θ θ' : ℕ → R) (π : ι) : Fpfit.resid K w d c A θ π = Fpfit.resid K w d c A θ' π + shift K w A θ θ' π := by
  have : shift K w A θ θ' π = w π * (∑ k ∈ K, θ' k * A π k - ∑ k ∈ K, θ k * A π k) := by
    unfold shift
    rw [← sum_sub_distrib, mul_sum]
    exact sum_congr rfl (fun k _ => by ring)
  rw [this]
  unfold Fpfit.resid
  ring

omit [LinearOrder R] [IsStrictOrderedRing R] in
theorem pull_shift (θ θ' : ℕ → R) (k : ℕ) :
    pull P K w d c A θ k = pull P K w d c A θ' k + ∑ π ∈ P, shift K w A θ θ' π * (w π * A π k) := by
  unfold pull
  rw [← sum_add_distrib]
  exact sum_congr rfl (fun π _ => by rw [resid_shift K w d c A θ θ']; ring)

omit [LinearOrder R] [IsStrictOrderedRing R] in
/-- Where nothing pulls at the parameters that were changed, the gain is the squared change. -/
theorem squares_shift (θ θ' : ℕ → R) (h : ∀ l ∈ K, θ' l ≠ θ l → pull P K w d c A θ' l = 0) :
    squares P K w d c A θ = squares P K w d c A θ' + ∑ π ∈ P, shift K w A θ θ' π * shift K w A θ θ' π := by
  have h0 : ∑ π ∈ P, Fpfit.resid K w d c A θ' π * shift K w A θ θ' π = 0 := by
    have e : ∑ π ∈ P, Fpfit.resid K w d c A θ' π * shift K w A θ θ' π = ∑ k ∈ K, (θ' k - θ k) * pull P K w d c A θ' k := by
      unfold shift pull
      simp only [mul_sum]
      rw [sum_comm]
      exact sum_congr rfl (fun k _ => sum_congr rfl (fun π _ => by ring))
    rw [e]
    refine sum_eq_zero (fun k hk => ?_)
    by_cases hne : θ' k = θ k
    · rw [hne, sub_self, zero_mul]
    · rw [h k hk hne, mul_zero]
  have e : squares P K w d c A θ = squares P K w d c A θ' + 2 * (∑ π ∈ P, Fpfit.resid K w d c A θ' π * shift K w A θ θ' π) +
      ∑ π ∈ P, shift K w A θ θ' π * shift K w A θ θ' π := by
    unfold squares
    rw [mul_sum, ← sum_add_distrib, ← sum_add_distrib]
    exact sum_congr rfl (fun π _ => by rw [resid_shift K w d c A θ θ']; ring)
  rw [e, h0]
  ring

/-- What a turn changes at the pulls is bounded by what it gains. -/
theorem pull_gain (θ θ' : ℕ → R) (h : ∀ l ∈ K, θ' l ≠ θ l → pull P K w d c A θ' l = 0) (k : ℕ) :
    (pull P K w d c A θ k - pull P K w d c A θ' k) ^ 2 ≤
      (squares P K w d c A θ - squares P K w d c A θ') * ∑ π ∈ P, (w π * A π k) * (w π * A π k) := by
  rw [pull_shift P K w d c A θ θ', squares_shift P K w d c A θ θ' h]
  have := dot_sq P (shift K w A θ θ') (fun π => w π * A π k)
  rw [add_sub_cancel_left, add_sub_cancel_left]
  exact this

end quad

/-- What is missing to the best fit is bounded by the pulls. -/
theorem pull_bound (P : Finset ι) (n : ℕ) (w d c : ι → R) (A : ι → ℕ → R) : ∃ C : R, 0 ≤ C ∧ ∀ θ θ' : ℕ → R,
    (∀ k ∈ range n, pull P (range n) w d c A θ' k = 0) →
      squares P (range n) w d c A θ - squares P (range n) w d c A θ' ≤ C * ∑ k ∈ range n, pull P (range n) w d c A θ k ^ 2 := by
  obtain ⟨C, hC, h⟩ := span_bound (κ := Fin n) P (fun k π => w π * A π k)
  refine ⟨C, hC, fun θ θ' h0 => ?_⟩
  have e := h (fun k => θ' k - θ k)
  have e1 : ∀ π, ∑ k : Fin n, (θ' k - θ k) * (w π * A π k) = shift (range n) w A θ θ' π := by
    intro π
    unfold shift
    rw [sum_range]
  simp only [e1] at e
  rw [squares_shift P (range n) w d c A θ θ' (fun l hl _ => h0 l hl), add_sub_cancel_left]
  refine e.trans (le_of_eq ?_)
  congr 1
  rw [sum_range]
  refine sum_congr rfl (fun k _ => ?_)
  rw [pull_shift P (range n) w d c A θ θ', h0 k (mem_range.2 k.2), zero_add]

/-- Vectors that are independent: the coefficients of a sum are bounded by the sum. -/
theorem coefficient_bound [Fintype κ] [DecidableEq κ] (P : Finset ι) (a : κ → ι → R) (hinj : ∀ z : κ → R, (∀ π ∈ P, ∑ k, z k * a k π = 0) → z = 0) :
    ∃ C : R, 0 ≤ C ∧ ∀ z : κ → R, ∑ k, z k ^ 2 ≤ C * ∑ π ∈ P, (∑ k, z k * a k π) * (∑ k, z k * a k π) := by
  classical
  let N : (κ → R) →ₗ[R] (P → R) :=
    { toFun := fun z π => ∑ l, z l * a l π
      map_add' := by
        intro z z'
        funext π
        simp only [Pi.add_apply, add_mul, sum_add_distrib]
      map_smul' := by
        intro c z
        funext π
        simp only [Pi.smul_apply, smul_eq_mul, RingHom.id_apply, mul_sum]
        exact sum_congr rfl (fun l _ => by ring) }
  have hN : ∀ z π, N z π = ∑ l, z l * a l π := fun _ _ => rfl
  have hker : LinearMap.ker N = ⊥ := by
    rw [LinearMap.ker_eq_bot']
    intro z hz
    exact hinj z (fun π hπ => congrFun hz ⟨π, hπ⟩)
  obtain ⟨G, hG⟩ := N.exists_leftInverse_of_injective hker
  have hinv : ∀ z, G (N z) = z := fun z => LinearMap.congr_fun hG z
  have e2 : ∀ (m : P → R) k, G m k = ∑ l, m l * G (Pi.single l 1) k := by
    intro m k
    have := LinearMap.pi_apply_eq_sum_univ G m
    rw [this, Finset.sum_apply]
    refine sum_congr rfl (fun l _ => ?_)
    rw [Pi.smul_apply, smul_eq_mul]
    have e : (fun j => if l = j then (1 : R) else 0) = Pi.single l 1 := by
      funext j
      simp [Pi.single_apply, eq_comm]
    rw [e]
  refine ⟨∑ k, ∑ l, G (Pi.single l 1) k * G (Pi.single l 1) k, sum_nonneg (fun k _ => sum_nonneg (fun l _ => mul_self_nonneg _)), fun z => ?_⟩
  rw [sum_mul]
  refine sum_le_sum (fun k _ => ?_)
  have h1 : z k = ∑ l, N z l * G (Pi.single l 1) k := by rw [← e2, hinv]
  have h2 := dot_sq univ (N z) (fun l => G (Pi.single l 1) k)
  rw [← h1] at h2
  have h3 : ∑ l, N z l * N z l = ∑ π ∈ P, (∑ k, z k * a k π) * (∑ k, z k * a k π) := by
    rw [← sum_coe_sort P]
    rfl
  rw [h3, mul_comm] at h2
  exact h2

end algebra

variable {R M : Type} [Field R] [LinearOrder R] [IsStrictOrderedRing R]

/-- Some values give the largest log-probability, `L`. -/
def Peak (W : World R M) (T : Tractor R M) (L : R) : Prop :=
  ∃ q : List R, q.length = numberOfParams T.par ∧ Best W (setAll T q) ∧ logProb W (setAll T q) = .ok (.fin L)

/-- A linear tractor has a best fit. -/
theorem peak_exists (W : World R M) (hooks : Tractor R M → Nat → Nat → Option (List (Deriv R))) (T : Tractor R M) (base : Nat → Nat → Nat → R)
    (D : Nat → Nat → Nat → Nat → R) (hr : Ready W hooks T) (hl : Linear W hooks T base D) : ∃ L, Peak W T L := by
  obtain ⟨lsqr, hS⟩ := Lsq.solver_exists (R := R)
  obtain ⟨T', r, q, b1, b2, rfl, b4, ⟨u0, u1, c0, c1, c2⟩, b5⟩ := optimize_best ⟨fun _ => 1, 0, lsqr⟩ (fun _ _ => one_pos) hS W hooks ⟨false, false, true⟩ T base D hr hl
    ⟨.inl rfl, by simp, by simp⟩ [] [] (by simp) (by simp)
  exact ⟨u1, q, b2, b4, c1⟩

omit [IsStrictOrderedRing R] in
/-- No values do better than the peak, and those that do as well are the best fit. -/
theorem Peak.best {W : World R M} {T : Tractor R M} {L : R} (h : Peak W T L) (p : List R) (hp : p.length = numberOfParams T.par) (L' : R)
    (h' : logProb W (setAll T p) = .ok (.fin L')) : L' ≤ L ∧ (L' = L ↔ Best W (setAll T p)) := by
  obtain ⟨q, hq, ⟨L0, h1, h2⟩, h3⟩ := h
  rw [h3] at h1
  cases h1
  obtain ⟨L1, h4, h5⟩ := h2 p (by rw [setAll_length]; exact hp)
  rw [setAll_setAll _ _ _ hp, h'] at h4
  cases h4
  refine ⟨h5, fun e => ?_, fun hb => ?_⟩
  · subst e
    refine ⟨_, h', fun x hx => ?_⟩
    rw [setAll_length] at hx
    obtain ⟨L2, h6, h7⟩ := h2 x (by rw [setAll_length]; exact hx)
    rw [setAll_setAll _ _ _ hx] at h6
    exact ⟨L2, by rw [setAll_setAll _ _ _ hx]; exact h6, h7⟩
  · obtain ⟨L2, h6, h7⟩ := hb
    rw [h'] at h6
    cases h6
    obtain ⟨L3, h8, h9⟩ := h7 q (by rw [setAll_length]; exact hq)
    rw [setAll_setAll _ _ _ hq, h3] at h8
    cases h8
    exact le_antisymm h5 h9

omit [IsStrictOrderedRing R] in
/-- Turns one after the other. -/
theorem turns_append (S : Solver R) (W : World R M) (hooks : Tractor R M → Nat → Nat → Option (List (Deriv R))) (o : Opts) (alphas : List R)
    (gs gs' : List Group) (T T' : Tractor R M) (h : turns S W hooks o alphas gs T = (T', .ok ())) :
    turns S W hooks o alphas (gs ++ gs') T = turns S W hooks o alphas gs' T' := by
  induction gs generalizing T with
  | nil =>
    unfold turns at h
    injection h with h1 h2
    rw [h1]
    rfl
  | cons g gs ih =>
    rw [List.cons_append, turns]
    rw [turns] at h
    generalize turn S W hooks o alphas g T = z at h ⊢
    obtain ⟨T1, r⟩ := z
    cases r with
    | error e => cases (congrArg Prod.snd h)
    | ok v => exact ih T1 h

omit [Field R] [LinearOrder R] [IsStrictOrderedRing R] in
theorem picks_all {α : Type} (n : α → Nat) (l : List (Bool × α)) (b : Bool) (h : b ∈ picks n (fun _ => true) l) : b = true := by
  induction l with
  | nil => cases h
  | cons x l ih =>
    obtain ⟨c, x⟩ := x
    simp only [picks, List.mem_append] at h
    rcases h with h | h
    · cases c with
      | false => simp at h
      | true =>
        simp only [if_true] at h
        exact (List.mem_replicate.1 h).2
    · exact ih h

omit [Field R] [LinearOrder R] [IsStrictOrderedRing R] in
theorem members_all (T : Tractor R M) (b : Bool) (h : b ∈ members ⟨fun _ => true, fun _ => true⟩ T) : b = true := by
  unfold members at h
  rw [List.mem_append] at h
  rcases h with h | h
  · split at h
    · exact picks_all _ _ _ h
    · cases h
  · split at h
    · exact picks_all _ _ _ h
    · cases h

omit [IsStrictOrderedRing R] in
theorem best_all {W : World R M} {T : Tractor R M} (g : Group) (h : Best W T) : ∀ p : List R, p.length = numberOfParams T.par →
    (∀ k : Nat, (members g T)[k]? = some false → p[k]? = (getParams T.par)[k]?) →
      ∀ L0 L1, logProb W T = .ok (.fin L0) → logProb W (setAll T p) = .ok (.fin L1) → L1 ≤ L0 := by
  intro p hp _ L0 L1 g0 g1
  obtain ⟨L, t1, t2⟩ := h
  rw [g0] at t1
  cases t1
  obtain ⟨L', t3, t4⟩ := t2 p hp
  rw [g1] at t3
  cases t3
  exact t4

/-- At the best fit nothing pulls. -/
theorem best_pulls (W : World R M) (hooks : Tractor R M → Nat → Nat → Option (List (Deriv R))) (T : Tractor R M) (f : List R → Nat → R)
    (hr : ∀ p : List R, p.length = numberOfParams T.par → Ready W hooks (setAll T p))
    (f1 : ∀ p : List R, p.length = numberOfParams T.par → ∀ g, Best W (focus g (setAll T p)) → ∀ k : Nat, (members g T)[k]? = some true → f p k = 0)
    (q : List R) (hq : q.length = numberOfParams T.par) (hb : Best W (setAll T q)) (k : Nat) (hk : k < numberOfParams T.par) : f q k = 0 := by
  refine f1 q hq ⟨fun _ => true, fun _ => true⟩ ((best_focus (hr q hq) _).2 (best_all _ hb)) k ?_
  have hk' : k < (members ⟨fun _ => true, fun _ => true⟩ T).length := by rw [members_length]; exact hk
  rw [List.getElem?_eq_getElem hk']
  congr 1
  exact members_all T _ (List.getElem_mem hk')

/-- What is missing to the best fit before a pass is at most a constant times what the pass gains. -/
theorem pass_bound (S : Solver R) (hsq : Lsq.SqrtOK S.sqrt) (hS : Lsq.Solves S.lsqr) (W : World R M)
    (hooks : Tractor R M → Nat → Nat → Option (List (Deriv R))) (o : Opts) (T : Tractor R M) (base : Nat → Nat → Nat → R) (D : Nat → Nat → Nat → Nat → R)
    (hr : ∀ p : List R, p.length = numberOfParams T.par → Ready W hooks (setAll T p)) (hl : Linear W hooks T base D)
    (gs : List Group) (hc : Covers gs T) (hf : ∀ g ∈ gs, Fits S W hooks o T g) (A B : List R) (hA : ∀ a ∈ A, 0 ≤ a) (hs : (A ++ [1]).Pairwise (· ≤ ·))
    (Lb : R) (hb : Peak W T Lb) :
    ∃ H : R, 0 ≤ H ∧ ∀ p : List R, p.length = numberOfParams T.par → ∃ p' L0 L1,
      turns S W hooks o (A ++ 1 :: B) gs (setAll T p) = (setAll T p', .ok ()) ∧ p'.length = numberOfParams T.par ∧
      logProb W (setAll T p) = .ok (.fin L0) ∧ logProb W (setAll T p') = .ok (.fin L1) ∧ L0 ≤ L1 ∧ Lb - L0 ≤ H * (L1 - L0) := by
  obtain ⟨f, es, C, -, hlp, hfp, f1, -, -⟩ := pulls W hooks T base D hr hl
  let F : List R → R := fun p => squares (obs T es) (range (numberOfParams T.par)) (weight T es) (seen (own T) es) (const base) (slopes D es) (fun k => p.getD k 0)
  have hF : ∀ p : List R, p.length = numberOfParams T.par → logProb W (setAll T p) = .ok (.fin (C - (1 / 2) * F p)) := hlp
  let nrm : Nat → R := fun k => ∑ π ∈ obs T es, (weight T es π * slopes D es π k) * (weight T es π * slopes D es π k)
  have hn : ∀ k, 0 ≤ nrm k := fun k => sum_nonneg (fun _ _ => mul_self_nonneg _)
  have hgain : ∀ p p' : List R, p.length = numberOfParams T.par → p'.length = numberOfParams T.par →
      (∀ l < numberOfParams T.par, p'.getD l 0 ≠ p.getD l 0 → f p' l = 0) → ∀ k, (f p k - f p' k) ^ 2 ≤ (F p - F p') * nrm k := by
    intro p p' _ _ h k
    rw [hfp, hfp]
    exact pull_gain _ _ _ _ _ _ _ _ (fun l hl hne => by rw [← hfp]; exact h l (mem_range.1 hl) hne) k
  have key : ∀ (gs : List Group), (∀ g ∈ gs, Fits S W hooks o T g) → ∀ p : List R, p.length = numberOfParams T.par →
      ∃ p', turns S W hooks o (A ++ 1 :: B) gs (setAll T p) = (setAll T p', .ok ()) ∧ p'.length = numberOfParams T.par ∧ F p' ≤ F p ∧
        ∀ g ∈ gs, ∀ k : Nat, (members g T)[k]? = some true → f p k ^ 2 ≤ 2 ^ gs.length * (F p - F p') * nrm k := by
    intro gs
    induction gs with
    | nil => exact fun _ p hp => ⟨p, rfl, hp, le_refl _, fun g hg => by cases hg⟩
    | cons g gs ih =>
      intro hf p hp
      have hfg : Fits S W hooks o (setAll T p) g := by
        intro q hq
        rw [setAll_length] at hq
        rw [setAll_setAll T p q hq]
        exact hf g List.mem_cons_self q hq
      obtain ⟨q, r, l0, l1, e1, e2, e3, e4, e5, e6, -, e8, -⟩ := C161_turn S hsq hS W hooks o (setAll T p) g hfg A B hA hs
      rw [setAll_length] at e2
      rw [setAll_setAll T p q e2] at e1 e4 e6
      rw [members_setAll g T p hp, getParams_setAll T p hp] at e3
      rw [hF p hp] at e5
      rw [hF q e2] at e6
      cases e5; cases e6
      have h1 : F q ≤ F p := by linarith
      obtain ⟨p', d1, d2, d3, d4⟩ := ih (fun g hg => hf g (List.mem_cons_of_mem _ hg)) q e2
      have hz : ∀ l < numberOfParams T.par, q.getD l 0 ≠ p.getD l 0 → f q l = 0 := by
        intro l hl hne
        refine f1 q e2 g e4 l ?_
        have hl' : l < (members g T).length := by rw [members_length]; exact hl
        rw [List.getElem?_eq_getElem hl']
        cases hm : (members g T)[l]'hl' with
        | true => rfl
        | false => exact absurd (by rw [List.getD_eq_getElem?_getD, List.getD_eq_getElem?_getD, e3 l (by rw [List.getElem?_eq_getElem hl', hm])]) hne
      have hg := hgain p q hp e2 hz
      refine ⟨p', ?_, d2, by linarith, fun g' hg' k hk => ?_⟩
      · unfold turns
        rw [e1]
        exact d1
      · have hpow : (1 : R) ≤ 2 ^ gs.length := one_le_pow₀ (by norm_num)
        have hnk := hn k
        have hgk := hg k
        have a1 : 0 ≤ (F p - F q) * nrm k := mul_nonneg (by linarith) hnk
        have a2 : 0 ≤ (F q - F p') * nrm k := mul_nonneg (by linarith) hnk
        have e : (2 : R) ^ (g :: gs).length * (F p - F p') * nrm k =
            2 * (2 ^ gs.length * ((F q - F p') * nrm k)) + 2 * (2 ^ gs.length * ((F p - F q) * nrm k)) := by
          rw [List.length_cons, pow_succ]
          ring
        have b1 := mul_le_mul_of_nonneg_right hpow a1
        have b2 := mul_le_mul_of_nonneg_right hpow a2
        rw [e]
        rcases List.mem_cons.1 hg' with rfl | hg'
        · rw [f1 q e2 g' e4 k hk, sub_zero] at hgk
          linarith
        · have := d4 g' hg' k hk
          have h3 : f p k ^ 2 ≤ 2 * f q k ^ 2 + 2 * (f p k - f q k) ^ 2 := by nlinarith [sq_nonneg (f p k - 2 * f q k)]
          rw [mul_assoc] at this
          linarith
  obtain ⟨K, hK, hbound⟩ := pull_bound (obs T es) (numberOfParams T.par) (weight T es) (seen (own T) es) (const base) (slopes D es)
  obtain ⟨q, hq, hbq, hLb⟩ := hb
  rw [hF q hq] at hLb
  have hLb : C - (1 / 2) * F q = Lb := by injection hLb with h; injection h
  have hall := best_pulls W hooks T f hr f1 q hq hbq
  refine ⟨K * ∑ k ∈ range (numberOfParams T.par), 2 ^ gs.length * nrm k, mul_nonneg hK (sum_nonneg (fun k _ => mul_nonneg (by positivity) (hn k))), fun p hp => ?_⟩
  obtain ⟨p', d1, d2, d3, d4⟩ := key gs hf p hp
  refine ⟨p', _, _, d1, d2, hF p hp, hF p' d2, by linarith, ?_⟩
  have h1 := hbound (fun k => p.getD k 0) (fun k => q.getD k 0) (fun k hk => by rw [← hfp]; exact hall k (mem_range.1 hk))
  have h2 : ∑ k ∈ range (numberOfParams T.par), pull (obs T es) (range (numberOfParams T.par)) (weight T es) (seen (own T) es) (const base) (slopes D es)
      (fun k => p.getD k 0) k ^ 2 ≤ (∑ k ∈ range (numberOfParams T.par), 2 ^ gs.length * nrm k) * (F p - F p') := by
    rw [sum_mul]
    refine sum_le_sum (fun k hk => ?_)
    obtain ⟨g, g1, g2⟩ := hc.member k (mem_range.1 hk)
    have := d4 g g1 k g2
    rw [hfp] at this
    linarith
  have h3 := mul_le_mul_of_nonneg_left h2 hK
  have h4 : F p - F q ≤ K * ((∑ k ∈ range (numberOfParams T.par), 2 ^ gs.length * nrm k) * (F p - F p')) := le_trans h1 h3
  rw [← hLb]
  nlinarith [h4]

/-- If the parameters can be told from the model, their distance from the best ones is bounded by what is missing in log-probability. -/
theorem params_bound (W : World R M) (hooks : Tractor R M → Nat → Nat → Option (List (Deriv R))) (T : Tractor R M) (base : Nat → Nat → Nat → R)
    (D : Nat → Nat → Nat → Nat → R) (hr : ∀ p : List R, p.length = numberOfParams T.par → Ready W hooks (setAll T p)) (hl : Linear W hooks T base D)
    (hid : Identifiable W T) : ∃ H : R, 0 ≤ H ∧ ∀ (p q : List R), p.length = numberOfParams T.par → q.length = numberOfParams T.par → Best W (setAll T q) →
      ∀ L Lb, logProb W (setAll T p) = .ok (.fin L) → logProb W (setAll T q) = .ok (.fin Lb) →
        ∑ k ∈ range (numberOfParams T.par), (p.getD k 0 - q.getD k 0) ^ 2 ≤ H * (Lb - L) := by
  have hr0 := hr (getParams T.par) (getParams_length _)
  rw [setAll_self] at hr0
  obtain ⟨f, es, C, hes, hlp, hfp, f1, -, -⟩ := pulls W hooks T base D hr hl
  have hinj : ∀ z : Fin (numberOfParams T.par) → R, (∀ π ∈ obs T es, ∑ k, z k * (weight T es π * slopes D es π k) = 0) → z = 0 := by
    intro z hz
    have hlist : ∀ k : Fin (numberOfParams T.par), (List.ofFn z).getD k 0 = z k := by
      intro k
      rw [List.getD_eq_getElem?_getD, List.getElem?_ofFn]
      simp
    have hsame : ∀ π ∈ obs T es, weight T es π ≠ 0 → ∑ k ∈ range (numberOfParams T.par), (List.ofFn z).getD k 0 * slopes D es π k = 0 := by
      intro π hπ hw
      have h1 := hz π hπ
      have h2 : ∑ k : Fin (numberOfParams T.par), z k * (weight T es π * slopes D es π k) =
          weight T es π * ∑ k ∈ range (numberOfParams T.par), (List.ofFn z).getD k 0 * slopes D es π k := by
        rw [sum_range, mul_sum]
        exact sum_congr rfl (fun k _ => by rw [hlist]; ring)
      rw [h2] at h1
      exact (mul_eq_zero.1 h1).resolve_left hw
    have hzero : ∀ k : Nat, (List.replicate (numberOfParams T.par) (0 : R)).getD k 0 = 0 := by
      intro k
      rw [List.getD_eq_getElem?_getD, List.getElem?_replicate]
      split <;> rfl
    have hp : (List.ofFn z).length = numberOfParams T.par := by simp
    have hq : (List.replicate (numberOfParams T.par) (0 : R)).length = numberOfParams T.par := by simp
    have h := hid (List.ofFn z) (List.replicate _ 0) hp hq (fun i b im y x h1 h2 h3 h4 => ?_) (fun k v h1 h2 => ?_)
    · funext k
      have := hlist k
      rw [h, hzero] at this
      exact this.symm
    · rw [pixel_linear hl hr0 _ hp i y x b im h1 h2 h3, pixel_linear hl hr0 _ hq i y x b im h1 h2 h3]
      congr 1
      have hw : weight T es (.inl ⟨i, y, x⟩) = im.inverr.px y x := by simp [weight, h1]
      have := hsame (.inl ⟨i, y, x⟩) (inl_mem_disjSum.2 ((mem_pixels T i y x).2 ⟨b, im, h1, h2, h3⟩)) (by rw [hw]; exact h4)
      simp only [hzero, zero_mul, sum_const_zero]
      exact this
    · obtain ⟨e, he, rfl⟩ := entry_exists T.par es hes k v h1 h2
      obtain ⟨l, hlt, rfl⟩ := List.getElem_of_mem he
      obtain ⟨e1, e2, -⟩ := entry_data T.par hr0.prior es hes es[l] (List.getElem_mem hlt)
      have hw : weight T es (.inr l) = es[l].val := by simp [weight, List.getElem?_eq_getElem hlt]
      have := hsame (.inr l) (inr_mem_disjSum.2 (mem_range.2 hlt)) (by rw [hw]; exact e2)
      have hs : ∀ f : Nat → R, ∑ k ∈ range (numberOfParams T.par), f k * slopes D es (.inr l) k = f es[l].col := by
        intro f
        rw [sum_eq_single es[l].col]
        · simp [slopes, List.getElem?_eq_getElem hlt]
        · intro k _ hk
          simp [slopes, List.getElem?_eq_getElem hlt, Ne.symm hk]
        · intro h; exact absurd (mem_range.2 e1) h
      rw [hs] at this
      rw [hzero]
      exact this
  obtain ⟨H, hH, hbound⟩ := coefficient_bound (obs T es) (fun (k : Fin (numberOfParams T.par)) π => weight T es π * slopes D es π k) hinj
  refine ⟨2 * H, by linarith, fun p q hp hq hbq L Lb hL hLb => ?_⟩
  have hall := best_pulls W hooks T f hr f1 q hq hbq
  have h1 := squares_shift (obs T es) (range (numberOfParams T.par)) (weight T es) (seen (own T) es) (const base) (slopes D es) (fun k => p.getD k 0)
    (fun k => q.getD k 0) (fun l hl _ => by rw [← hfp]; exact hall l (mem_range.1 hl))
  have h2 := hbound (fun k => q.getD k 0 - p.getD k 0)
  have h3 : ∀ π, ∑ k : Fin (numberOfParams T.par), (q.getD k 0 - p.getD k 0) * (weight T es π * slopes D es π k) =
      shift (range (numberOfParams T.par)) (weight T es) (slopes D es) (fun k => p.getD k 0) (fun k => q.getD k 0) π := by
    intro π
    unfold shift
    rw [sum_range]
  simp only [h3] at h2
  rw [hlp p hp] at hL
  rw [hlp q hq] at hLb
  have hL : C - 1 / 2 * squares (obs T es) (range (numberOfParams T.par)) (weight T es) (seen (own T) es) (const base) (slopes D es) (fun k => p.getD k 0) = L := by
    injection hL with h; injection h
  have hLb : C - 1 / 2 * squares (obs T es) (range (numberOfParams T.par)) (weight T es) (seen (own T) es) (const base) (slopes D es) (fun k => q.getD k 0) = Lb := by
    injection hLb with h; injection h
  have h4 : ∑ k ∈ range (numberOfParams T.par), (p.getD k 0 - q.getD k 0) ^ 2 = ∑ k : Fin (numberOfParams T.par), (q.getD k 0 - p.getD k 0) ^ 2 := by
    rw [sum_range]
    exact sum_congr rfl (fun k _ => by ring)
  rw [h4]
  refine h2.trans (le_of_eq ?_)
  rw [show 2 * H * (Lb - L) = H * (2 * (Lb - L)) by ring]
  congr 1
  linarith

end Verif.Fit

