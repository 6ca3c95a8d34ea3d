import Verif.Fit.Turns
import Verif.Fit.PropsOrder

/-!
# Fitting groups of objects in turns (C161): more lemmas
-/

namespace Verif.Fit

open Verif Params Patches Engine Finset

variable {R M : Type} [Field R] [LinearOrder R]

omit [Field R] [LinearOrder R] in
theorem picks_setL {α : Type} (n : α → Nat) (set : α → List R → α) (hn : ∀ x p, n (set x p) = n x) (s : Nat → Bool) (l : List (Bool × α)) (p : List R) :
    picks n s (setL n set l p) = picks n s l := by
  induction l generalizing s p with
  | nil => rfl
  | cons x l ih =>
    obtain ⟨b, x⟩ := x
    cases b <;> simp only [setL, picks, ih, hn]

omit [Field R] [LinearOrder R] in
theorem imgSet_n (x : Image R) (p : List R) : imgN (imgSet x p) = imgN x := numberOfParams_setParamsSubs _ _

omit [Field R] [LinearOrder R] in
theorem srcSet_n (x : Option (Source R)) (p : List R) : srcN (srcSet x p) = srcN x := by
  cases x with
  | none => rfl
  | some s => exact numberOfParams_setParams _ _

omit [Field R] [LinearOrder R] in
theorem members_setAll (g : Group) (T : Tractor R M) (p : List R) (hp : p.length = numberOfParams T.par) : members g (setAll T p) = members g T := by
  rw [nParams] at hp
  have e : p = p.take (nImgs T) ++ p.drop (nImgs T) := (List.take_append_drop _ _).symm
  have e1 : (p.take (nImgs T)).length = nImgs T := by rw [List.length_take]; omega
  have e2 : (p.drop (nImgs T)).length = nSrcs T := by rw [List.length_drop]; omega
  rw [e, setAll_parts T _ _ e1 e2]
  unfold members parts
  dsimp only
  cases h1 : T.imagesThawed <;> cases h2 : T.catalogThawed <;>
    simp [setImgs_eq, setSrcs_eq, picks_setL imgN imgSet imgSet_n, picks_setL srcN srcSet srcSet_n]

omit [Field R] [LinearOrder R] in
theorem reflag_other {α : Type} (n : α → Nat) (set : α → List R → α) (s : Nat → Bool) (l : List (Bool × α)) (q : List R) (i : Nat) (h : s i = false) :
    (reflag l (setL n set (narrow s l) q))[i]? = l[i]? := by
  induction l generalizing s q i with
  | nil => rfl
  | cons x l ih =>
    obtain ⟨b, x⟩ := x
    cases i with
    | zero => cases b <;> simp [narrow, h, setL, reflag]
    | succ i =>
      cases b with
      | false => simp only [narrow, Bool.false_and, setL, reflag, List.getElem?_cons_succ]; exact ih _ _ i h
      | true => cases h0 : s 0 <;> (simp only [narrow, h0, Bool.and_true, Bool.and_false, setL, reflag, List.getElem?_cons_succ]; exact ih _ _ i h)

omit [Field R] [LinearOrder R] in
/-- The objects that are not in the group are not changed. -/
theorem restore_other (g : Group) (T : Tractor R M) (q : List R) (hq : q.length = numberOfParams (focus g T).par) :
    (∀ i, g.images i = false → (restore T (setAll (focus g T) q)).images[i]? = T.images[i]?) ∧
    ∀ j, g.sources j = false → (restore T (setAll (focus g T) q)).catalog[j]? = T.catalog[j]? := by
  rw [nParams] at hq
  have e : q = q.take (nImgs (focus g T)) ++ q.drop (nImgs (focus g T)) := (List.take_append_drop _ _).symm
  have e1 : (q.take (nImgs (focus g T))).length = nImgs (focus g T) := by rw [List.length_take]; omega
  have e2 : (q.drop (nImgs (focus g T))).length = nSrcs (focus g T) := by rw [List.length_drop]; omega
  rw [e, setAll_parts _ _ _ e1 e2]
  unfold restore parts focus
  dsimp only
  constructor
  · intro i hi
    cases T.imagesThawed with
    | false => simp only [Bool.false_eq_true, if_false, reflag_narrow]
    | true => simp only [if_true, setImgs_eq]; exact reflag_other _ _ _ _ _ _ hi
  · intro i hi
    cases T.catalogThawed with
    | false => simp only [Bool.false_eq_true, if_false, reflag_narrow]
    | true => simp only [if_true, setSrcs_eq]; exact reflag_other _ _ _ _ _ _ hi

variable [IsStrictOrderedRing R]

/-- The log-probability of a tractor in order is finite. -/
theorem logProb_finite {W : World R M} {hooks : Tractor R M → Nat → Nat → Option (List (Deriv R))} {T : Tractor R M} (hr : Ready W hooks T) (p : List R)
    (hp : p.length = numberOfParams T.par) : ∃ P L, getLogPrior (setAll T p).par = .ok P ∧ logProb W (setAll T p) = .ok (.fin L) := by
  obtain ⟨P, hP⟩ := logprior_ok T hr.prior p hp
  exact ⟨P, _, by rw [(setAll_ok T p).2]; exact hP, logProb_pixels W T hr.mask hr.shape p P hP⟩

/-- The change with frozen objects is that of the whole. -/
theorem focus_change {W : World R M} {hooks : Tractor R M → Nat → Nat → Option (List (Deriv R))} {T : Tractor R M} (hr : Ready W hooks T) (g : Group)
    (q : List R) (hq : q.length = numberOfParams (focus g T).par) :
    ∃ L0 L1 u0 u1, logProb W T = .ok (.fin L0) ∧ logProb W (setAll T (mix (members g T) (getParams T.par) q)) = .ok (.fin L1) ∧
      logProb W (focus g T) = .ok (.fin u0) ∧ logProb W (setAll (focus g T) q) = .ok (.fin u1) ∧ L1 - L0 = u1 - u0 := by
  have hlen : (mix (members g T) (getParams T.par) q).length = numberOfParams T.par := by
    rw [mix_length _ _ _ (by rw [getParams_length, members_length]) (by rw [members_count, hq]), members_length]
  obtain ⟨P0, L0, a1, a2⟩ := logProb_finite hr (getParams T.par) (getParams_length _)
  rw [setAll_self] at a1 a2
  obtain ⟨P1, L1, b1, b2⟩ := logProb_finite hr _ hlen
  have e := (restore_setAll g T q hq).1
  obtain ⟨u0, u1, c1, c2, c3⟩ := focus_logProb W g T q hq L0 L1 P0 P1 a1 (by rw [e]; exact b1) a2 (by rw [e]; exact b2)
  exact ⟨L0, L1, u0, u1, a2, b2, c1, c2, c3⟩

/-- What it means that a group is best. -/
theorem best_focus {W : World R M} {hooks : Tractor R M → Nat → Nat → Option (List (Deriv R))} {T : Tractor R M} (hr : Ready W hooks T) (g : Group) :
    Best W (focus g T) ↔ ∀ p : List R, p.length = numberOfParams T.par → (∀ k : Nat, (members g T)[k]? = some false → p[k]? = (getParams T.par)[k]?) →
      ∀ L0 L1, logProb W T = .ok (.fin L0) → logProb W (setAll T p) = .ok (.fin L1) → L1 ≤ L0 := by
  constructor
  · rintro ⟨u, h1, h2⟩ p hp ho L0 L1 e0 e1
    obtain ⟨q, q1, q2⟩ := mix_exists (members g T) (getParams T.par) p (by rw [getParams_length, members_length]) (by rw [hp, members_length]) ho
    rw [members_count] at q1
    obtain ⟨L0', L1', u0, u1, c1, c2, c3, c4, c5⟩ := focus_change hr g q q1
    rw [q2, e1] at c2
    rw [e0] at c1
    rw [h1] at c3
    obtain ⟨u', d1, d2⟩ := h2 q q1
    rw [c4] at d1
    cases c1; cases c2; cases c3; cases d1
    linarith
  · intro h
    have hq0 : (getParams (focus g T).par).length = numberOfParams (focus g T).par := getParams_length _
    obtain ⟨L0, -, u0, -, c1, -, c3, -, -⟩ := focus_change hr g _ hq0
    refine ⟨u0, c3, fun q hq => ?_⟩
    obtain ⟨L0', L1, u0', u1, d1, d2, d3, d4, d5⟩ := focus_change hr g q hq
    have := h (mix (members g T) (getParams T.par) q)
      (by rw [mix_length _ _ _ (by rw [getParams_length, members_length]) (by rw [members_count, hq]), members_length])
      (fun k hk => mix_other _ _ _ (by rw [getParams_length, members_length]) (by rw [members_count, hq]) k hk) L0' L1 d1 d2
    rw [c3] at d3
    cases d3
    exact ⟨u1, d4, by linarith⟩

/-! ### The quadratic -/

section quad
variable {ι : Type}

/-- The slope of half the sum of squares with respect to a parameter (with the sign changed). -/
def pull (P : Finset ι) (K : Finset ℕ) (w d c : ι → R) (A : ι → ℕ → R) (θ : ℕ → R) (k : ℕ) : R :=
  ∑ π ∈ P, Fpfit.resid K w d c A θ π * (w π * A π k)

theorem pull_line (P : Finset ι) (K : Finset ℕ) (w d c : ι → R) (A : ι → ℕ → R) (θ v : ℕ → R)
    (h : ∀ ε : R, ∑ π ∈ P, Fpfit.resid K w d c A θ π * Fpfit.resid K w d c A θ π ≤
      ∑ π ∈ P, Fpfit.resid K w d c A (fun k => θ k + ε * v k) π * Fpfit.resid K w d c A (fun k => θ k + ε * v k) π) :
    ∑ π ∈ P, Fpfit.resid K w d c A θ π * (w π * ∑ k ∈ K, v k * A π k) = 0 := by
  have e : ∀ (ε : R) π, Fpfit.resid {0} w d (fun π => c π + ∑ k ∈ K, θ k * A π k) (fun π _ => ∑ k ∈ K, v k * A π k) (fun _ => ε) π =
      Fpfit.resid K w d c A (fun k => θ k + ε * v k) π := by
    intro ε π
    unfold Fpfit.resid
    rw [sum_singleton, mul_sum, add_assoc, ← sum_add_distrib]
    congr 3
    exact sum_congr rfl (fun k _ => by ring)
  have e' : ∀ (θ' : ℕ → R) π, Fpfit.resid {0} w d (fun π => c π + ∑ k ∈ K, θ k * A π k) (fun π _ => ∑ k ∈ K, v k * A π k) θ' π =
      Fpfit.resid K w d c A (fun k => θ k + θ' 0 * v k) π := by
    intro θ' π
    rw [← e]
    unfold Fpfit.resid
    rw [sum_singleton, sum_singleton]
  have e0 : ∀ π, Fpfit.resid K w d c A (fun k => θ k + 0 * v k) π = Fpfit.resid K w d c A θ π := by
    intro π
    simp only [zero_mul, add_zero]
  have := Fpfit.resid_normal P {0} w d (fun π => c π + ∑ k ∈ K, θ k * A π k) (fun π _ => ∑ k ∈ K, v k * A π k) (fun _ => 0) (fun θ' => by
    simp only [e', e0]
    exact h (θ' 0)) (fun _ => 1)
  simp only [e', e0, sum_singleton, one_mul] at this
  exact this

omit [LinearOrder R] [IsStrictOrderedRing R] in
theorem pull_sum (P : Finset ι) (K : Finset ℕ) (w d c : ι → R) (A : ι → ℕ → R) (θ v : ℕ → R) :
    ∑ π ∈ P, Fpfit.resid K w d c A θ π * (w π * ∑ k ∈ K, v k * A π k) = ∑ k ∈ K, v k * pull P K w d c A θ k := by
  unfold pull
  simp only [mul_sum]
  rw [sum_comm]
  exact sum_congr rfl (fun k _ => sum_congr rfl (fun π _ => by ring))

/-- Where nothing pulls the sum of squares is smallest. -/
theorem pull_best (P : Finset ι) (K : Finset ℕ) (w d c : ι → R) (A : ι → ℕ → R) (θ θ' : ℕ → R) (h : ∀ k ∈ K, pull P K w d c A θ k = 0) :
    ∑ π ∈ P, Fpfit.resid K w d c A θ π * Fpfit.resid K w d c A θ π ≤ ∑ π ∈ P, Fpfit.resid K w d c A θ' π * Fpfit.resid K w d c A θ' π := by
  have h0 := pull_sum P K w d c A θ (fun k => θ' k - θ k)
  have hz : ∑ k ∈ K, (θ' k - θ k) * pull P K w d c A θ k = 0 := sum_eq_zero (fun k hk => by rw [h k hk, mul_zero])
  rw [hz] at h0
  have e : ∀ π, Fpfit.resid K w d c A θ' π = Fpfit.resid K w d c A θ π - w π * ∑ k ∈ K, (θ' k - θ k) * A π k := by
    intro π
    have : ∑ k ∈ K, (θ' k - θ k) * A π k = ∑ k ∈ K, θ' k * A π k - ∑ k ∈ K, θ k * A π k := by
      rw [← sum_sub_distrib]
      exact sum_congr rfl (fun k _ => by ring)
    unfold Fpfit.resid
    rw [this]
    ring
  have e2 : ∑ π ∈ P, Fpfit.resid K w d c A θ' π * Fpfit.resid K w d c A θ' π = ∑ π ∈ P, Fpfit.resid K w d c A θ π * Fpfit.resid K w d c A θ π -
      2 * ∑ π ∈ P, Fpfit.resid K w d c A θ π * (w π * ∑ k ∈ K, (θ' k - θ k) * A π k) +
      ∑ π ∈ P, (w π * ∑ k ∈ K, (θ' k - θ k) * A π k) * (w π * ∑ k ∈ K, (θ' k - θ k) * A π k) := by
    rw [mul_sum, ← sum_sub_distrib, ← sum_add_distrib]
    exact sum_congr rfl (fun π _ => by rw [e]; ring)
  rw [e2, h0]
  have : 0 ≤ ∑ π ∈ P, (w π * ∑ k ∈ K, (θ' k - θ k) * A π k) * (w π * ∑ k ∈ K, (θ' k - θ k) * A π k) := sum_nonneg (fun _ _ => mul_self_nonneg _)
  linarith

omit [LinearOrder R] [IsStrictOrderedRing R] in
/-- A change of parameters that share no observation with `k` does not change its pull. -/
theorem pull_apart (P : Finset ι) (K : Finset ℕ) (w d c : ι → R) (A : ι → ℕ → R) (θ θ' : ℕ → R) (k : ℕ)
    (h : ∀ l ∈ K, θ' l ≠ θ l → ∀ π ∈ P, (w π * A π k) * A π l = 0) : pull P K w d c A θ' k = pull P K w d c A θ k := by
  unfold pull
  refine sum_congr rfl (fun π hπ => ?_)
  unfold Fpfit.resid
  have : (w π * A π k) * ∑ l ∈ K, θ' l * A π l = (w π * A π k) * ∑ l ∈ K, θ l * A π l := by
    rw [mul_sum, mul_sum]
    refine sum_congr rfl (fun l hl => ?_)
    by_cases hne : θ' l = θ l
    · rw [hne]
    · have := h l hl hne π hπ
      linear_combination (θ' l - θ l) * this
  linear_combination (- w π) * this

end quad

end Verif.Fit
