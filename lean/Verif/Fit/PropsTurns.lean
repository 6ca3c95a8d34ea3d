import Verif.Fit.Turns2
import Verif.Fit.PropsDamped

/-!
# C161: fitting the objects of a tractor in turns

Spec: freezing all but some objects, `optimize`, and thawing them again changes only these objects and never makes the fit of the whole worse.  For linear
models turns that cover all objects improve the fit of the whole unless it is the best one; if the groups share no pixels one turn each reaches it.
-/

namespace Verif.Fit

open Verif Params Patches Engine Finset

variable {R M : Type} [Field R] [LinearOrder R] [IsStrictOrderedRing R]

/-- A turn, given what `optimize` does with the group. -/
theorem turn_ok {W : World R M} {hooks : Tractor R M → Nat → Nat → Option (List (Deriv R))} {T : Tractor R M} (hr : Ready W hooks T) (S : Solver R) (o : Opts)
    (alphas : List R) (g : Group) (q : List R) (hq : q.length = numberOfParams (focus g T).par) (r : Num R × R) (u0 u1 : R)
    (ho : optimize S W hooks o alphas (focus g T) = (setAll (focus g T) q, .ok r)) (hu0 : logProb W (focus g T) = .ok (.fin u0))
    (hu1 : logProb W (setAll (focus g T) q) = .ok (.fin u1)) (hr1 : r.1 = .fin (u1 - u0)) :
    ∃ p L0 L1, turn S W hooks o alphas g T = (setAll T p, .ok r) ∧ p.length = numberOfParams T.par ∧
      (∀ k : Nat, (members g T)[k]? = some false → p[k]? = (getParams T.par)[k]?) ∧ focus g (setAll T p) = setAll (focus g T) q ∧
      (∀ i, g.images i = false → (setAll T p).images[i]? = T.images[i]?) ∧ (∀ j, g.sources j = false → (setAll T p).catalog[j]? = T.catalog[j]?) ∧
      logProb W T = .ok (.fin L0) ∧ logProb W (setAll T p) = .ok (.fin L1) ∧ r.1 = .fin (L1 - L0) := by
  obtain ⟨L0, L1, u0', u1', c1, c2, c3, c4, c5⟩ := focus_change hr g q hq
  rw [hu0] at c3
  rw [hu1] at c4
  cases c3; cases c4
  obtain ⟨e1, e2⟩ := restore_setAll g T q hq
  obtain ⟨f1, f2⟩ := restore_other g T q hq
  have l1 : (getParams T.par).length = (members g T).length := by rw [getParams_length, members_length]
  have l2 : q.length = (members g T).count true := by rw [members_count, hq]
  rw [e1] at e2 f1 f2
  refine ⟨mix (members g T) (getParams T.par) q, L0, L1, ?_, by rw [mix_length _ _ _ l1 l2, members_length], fun k hk => mix_other _ _ _ l1 l2 k hk, e2, f1, f2,
    c1, c2, by rw [hr1, c5]⟩
  unfold turn
  rw [ho]
  dsimp only
  rw [e1]

/-- `optimize` never makes the fit worse, with any reported derivatives. -/
theorem optimize_never_worse (S : Solver R) (hsq : Lsq.SqrtOK S.sqrt) (hS : Lsq.Solves S.lsqr) (W : World R M)
    (hooks : Tractor R M → Nat → Nat → Option (List (Deriv R))) (o : Opts) (T : Tractor R M) (D : Nat → Nat → Nat → Nat → R) (hr : Ready W hooks T)
    (hl : Reported W hooks T D) (ho : Options S o T D) (alphas : List R) :
    ∃ q r L0 L1, optimize S W hooks o alphas T = (setAll T q, .ok r) ∧ q.length = numberOfParams T.par ∧ logProb W T = .ok (.fin L0) ∧
      logProb W (setAll T q) = .ok (.fin L1) ∧ r.1 = .fin (L1 - L0) ∧ L0 ≤ L1 := by
  obtain ⟨P, L, a1, a2⟩ := logProb_finite hr (getParams T.par) (getParams_length _)
  rw [setAll_self] at a2
  have stay : ∀ a : R, ∃ q r L0 L1, ((T, .ok (.fin 0, a)) : Tractor R M × Except PyErr (Num R × R)) = (setAll T q, .ok r) ∧ q.length = numberOfParams T.par ∧
      logProb W T = .ok (.fin L0) ∧ logProb W (setAll T q) = .ok (.fin L1) ∧ r.1 = .fin (L1 - L0) ∧ L0 ≤ L1 := fun a =>
    ⟨getParams T.par, (.fin 0, a), L, L, by rw [setAll_self], getParams_length _, a2, by rw [setAll_self]; exact a2, by rw [sub_self], le_refl _⟩
  obtain ⟨F, es, C, K, -, -, h⟩ := direction_pixels S hsq hS W hooks o T D hr hl ho
  unfold optimize
  rcases h with ⟨h, -⟩ | ⟨X, h, hX⟩
  · rw [h]
    exact stay 0
  · rw [h]
    cases X with
    | nil => exact stay 0
    | cons x X =>
      dsimp only
      obtain ⟨t', d, a, pre, post, e1, -, e3, -⟩ := Opt.C33_tryUpdates (lnp W T) T.par (x :: X) alphas hX.1
      rw [e1]
      rcases e3 with ⟨rfl, rfl, rfl⟩ | ⟨-, rfl, f1, f2, rfl⟩
      · dsimp only
        rw [withPar_self]
        exact stay 0
      · obtain ⟨q, hq1, hq2⟩ : ∃ q : List R, q.length = numberOfParams T.par ∧ withPar T (Opt.moved T.par (x :: X) a) = setAll T q := by
          refine ⟨List.zipWith (fun p d => p + a * d) (getParams T.par) (x :: X), ?_, rfl⟩
          rw [List.length_zipWith, getParams_length, hX.1, Nat.min_self]
        obtain ⟨P', L', b1, b2⟩ := logProb_finite hr q hq1
        have g1 : lnp W T (Opt.moved T.par (x :: X) a) = .fin L' := by unfold lnp; rw [hq2, b2]
        have g0 : lnp W T T.par = .fin L := by unfold lnp; rw [withPar_self, a2]
        rw [g1, g0] at f1
        simp only [Num.lt, decide_eq_true_eq] at f1
        refine ⟨q, _, L, L', by dsimp only; rw [hq2], hq1, a2, b2, ?_, le_of_lt f1⟩
        rw [g1, g0]
        simp [Num.sub, Num.add, Num.neg, sub_eq_add_neg]

/-- **C161, never worse.** Any models and any reported derivatives: a turn ends normally; it changes only the objects of the group; the returned number is the
change of the log-probability of the whole tractor, and is not negative. -/
theorem C161_never_worse (S : Solver R) (hsq : Lsq.SqrtOK S.sqrt) (hS : Lsq.Solves S.lsqr) (W : World R M)
    (hooks : Tractor R M → Nat → Nat → Option (List (Deriv R))) (o : Opts) (T : Tractor R M) (hr : Ready W hooks T) (g : Group)
    (D : Nat → Nat → Nat → Nat → R) (hg : Ready W hooks (focus g T)) (hl : Reported W hooks (focus g T) D) (ho : Options S o (focus g T) D) (alphas : List R) :
    ∃ p r L0 L1, turn S W hooks o alphas g T = (setAll T p, .ok r) ∧ p.length = numberOfParams T.par ∧
      (∀ i, g.images i = false → (setAll T p).images[i]? = T.images[i]?) ∧ (∀ j, g.sources j = false → (setAll T p).catalog[j]? = T.catalog[j]?) ∧
      logProb W T = .ok (.fin L0) ∧ logProb W (setAll T p) = .ok (.fin L1) ∧ r.1 = .fin (L1 - L0) ∧ L0 ≤ L1 := by
  obtain ⟨q, r, u0, u1, h1, h2, h3, h4, h5, h6⟩ := optimize_never_worse S hsq hS W hooks o (focus g T) D hg hl ho alphas
  obtain ⟨p, L0, L1, e1, e2, e3, e4, e5, e6, e7, e8, e9⟩ := turn_ok hr S o alphas g q h2 r u0 u1 h1 h3 h4 h5
  refine ⟨p, r, L0, L1, e1, e2, e5, e6, e7, e8, e9, ?_⟩
  rw [h5] at e9
  injection e9 with e9
  linarith

/-- The group can be optimized from any values: the tractor with the others frozen is in order and linear (as in C143). -/
def Fits (S : Solver R) (W : World R M) (hooks : Tractor R M → Nat → Nat → Option (List (Deriv R))) (o : Opts) (T : Tractor R M) (g : Group) : Prop :=
  ∀ p : List R, p.length = numberOfParams T.par → Ready W hooks (setAll T p) ∧ ∃ base D, Ready W hooks (focus g (setAll T p)) ∧
    Linear W hooks (focus g (setAll T p)) base D ∧ Options S o (focus g (setAll T p)) D

/-- **C161, a turn.** Linear models: afterwards no values of the parameters of the group, with the others as they are, give a larger log-probability.  If
it is no larger than before, nothing was changed. -/
theorem C161_turn (S : Solver R) (hsq : Lsq.SqrtOK S.sqrt) (hS : Lsq.Solves S.lsqr) (W : World R M)
    (hooks : Tractor R M → Nat → Nat → Option (List (Deriv R))) (o : Opts) (T : Tractor R M) (g : Group) (hf : Fits S W hooks o T g) (A B : List R)
    (hA : ∀ a ∈ A, 0 ≤ a) (hs : (A ++ [1]).Pairwise (· ≤ ·)) :
    ∃ p r L0 L1, turn S W hooks o (A ++ 1 :: B) g T = (setAll T p, .ok r) ∧ p.length = numberOfParams T.par ∧
      (∀ k : Nat, (members g T)[k]? = some false → p[k]? = (getParams T.par)[k]?) ∧ Best W (focus g (setAll T p)) ∧
      logProb W T = .ok (.fin L0) ∧ logProb W (setAll T p) = .ok (.fin L1) ∧ r.1 = .fin (L1 - L0) ∧ L0 ≤ L1 ∧ (L0 = L1 → setAll T p = T) := by
  obtain ⟨hr, base, D, h1, h2, h3⟩ := hf (getParams T.par) (getParams_length _)
  rw [setAll_self] at hr h1 h2 h3
  obtain ⟨T', r, q, b1, b2, rfl, b4, ⟨u0, u1, c0, c1, c2⟩, b5⟩ := optimize_best S hsq hS W hooks o (focus g T) base D h1 h2 h3 A B hA hs
  obtain ⟨p, L0, L1, e1, e2, e3, e4, -, -, e7, e8, e9⟩ := turn_ok hr S o _ g q b2 r u0 u1 b1 c0 c1 c2
  have hd : u1 - u0 = L1 - L0 := by rw [c2] at e9; injection e9
  have hle : u0 ≤ u1 := by
    obtain ⟨L, d1, d2⟩ := b4
    obtain ⟨L', d3, d4⟩ := d2 (getParams (focus g T).par) (by rw [setAll_length]; exact getParams_length _)
    rw [setAll_setAll _ _ _ (getParams_length _), setAll_self, c0] at d3
    rw [c1] at d1
    cases d1; cases d3
    exact d4
  refine ⟨p, r, L0, L1, e1, e2, e3, by rw [e4]; exact b4, e7, e8, e9, by linarith, fun heq => ?_⟩
  have hbest : Best W (focus g T) := by
    obtain ⟨L, d1, d2⟩ := b4
    rw [c1] at d1
    cases d1
    refine ⟨u0, c0, fun x hx => ?_⟩
    obtain ⟨L', d3, d4⟩ := d2 x (by rw [setAll_length]; exact hx)
    rw [setAll_setAll _ _ _ hx] at d3
    exact ⟨L', d3, by linarith⟩
  have e := (restore_setAll g T q b2).1
  have hT : turn S W hooks o (A ++ 1 :: B) g T = (T, .ok r) := by
    unfold turn
    rw [b1, b5 hbest]
    dsimp only
    rw [restore_focus]
  rw [hT] at e1
  exact (congrArg Prod.fst e1).symm

/-- Every thawed image and source with parameters is in one of the groups. -/
structure Covers (gs : List Group) (T : Tractor R M) : Prop where
  images : T.imagesThawed = true → ∀ i im, T.images[i]? = some (true, im) → numberOfParamsSubs im.par ≠ 0 → ∃ g ∈ gs, g.images i = true
  sources : T.catalogThawed = true → ∀ j s, T.catalog[j]? = some (true, some s) → numberOfParams s.par ≠ 0 → ∃ g ∈ gs, g.sources j = true

omit [Field R] [LinearOrder R] [IsStrictOrderedRing R] in
theorem picks_covered {α : Type} (n : α → Nat) (ss : List (Nat → Bool)) (l : List (Bool × α))
    (h : ∀ (i : Nat) x, l[i]? = some (true, x) → n x ≠ 0 → ∃ s ∈ ss, s i = true) (k : Nat) (hk : k < sizeL n l) : ∃ s ∈ ss, (picks n s l)[k]? = some true := by
  induction l generalizing ss k with
  | nil => simp [sizeL] at hk
  | cons x l ih =>
    obtain ⟨b, x⟩ := x
    have hrest : ∀ k, k < sizeL n l → ∃ s ∈ ss, (picks n (fun i => s (i + 1)) l)[k]? = some true := by
      intro k hk
      obtain ⟨s', h1, h2⟩ := ih (ss.map (fun s i => s (i + 1))) (fun i y hy hne => by
        obtain ⟨s, h1, h2⟩ := h (i + 1) y hy hne
        exact ⟨_, List.mem_map_of_mem h1, h2⟩) k hk
      obtain ⟨s, h3, rfl⟩ := List.mem_map.1 h1
      exact ⟨s, h3, h2⟩
    cases b with
    | false =>
      simp only [sizeL, Bool.false_eq_true, if_false, Nat.zero_add] at hk
      obtain ⟨s, h1, h2⟩ := hrest k hk
      exact ⟨s, h1, by simpa [picks] using h2⟩
    | true =>
      simp only [sizeL, if_true] at hk
      by_cases hkn : k < n x
      · obtain ⟨s, h1, h2⟩ := h 0 x rfl (by omega)
        refine ⟨s, h1, ?_⟩
        simp only [picks, if_true, h2]
        rw [List.getElem?_append_left (by simpa using hkn), List.getElem?_replicate, if_pos hkn]
      · obtain ⟨s, h1, h2⟩ := hrest (k - n x) (by omega)
        refine ⟨s, h1, ?_⟩
        simp only [picks, if_true]
        rw [List.getElem?_append_right (by simp; omega), List.length_replicate]
        exact h2

omit [Field R] [LinearOrder R] [IsStrictOrderedRing R] in
theorem Covers.member {gs : List Group} {T : Tractor R M} (h : Covers gs T) (k : Nat) (hk : k < numberOfParams T.par) :
    ∃ g ∈ gs, (members g T)[k]? = some true := by
  rw [nParams] at hk
  have hlen : ∀ g : Group, (if T.imagesThawed then picks imgN g.images T.images else []).length = nImgs T := by
    intro g
    unfold nImgs
    split <;> simp [picks_length, sizeImgs]
  by_cases h1 : k < nImgs T
  · have hi : T.imagesThawed = true := by
      by_contra hc
      unfold nImgs at h1
      rw [if_neg hc] at h1
      omega
    obtain ⟨s, s1, s2⟩ := picks_covered imgN (gs.map (·.images)) T.images (fun i x hx hne => by
      obtain ⟨g, g1, g2⟩ := h.images hi i x hx hne
      exact ⟨_, List.mem_map_of_mem g1, g2⟩) k (by unfold nImgs at h1; rw [if_pos hi, sizeImgs] at h1; exact h1)
    obtain ⟨g, g1, rfl⟩ := List.mem_map.1 s1
    refine ⟨g, g1, ?_⟩
    unfold members
    rw [List.getElem?_append_left (by rw [hlen]; exact h1), if_pos hi]
    exact s2
  · have hc : T.catalogThawed = true := by
      by_contra hc
      unfold nSrcs at hk
      rw [if_neg hc] at hk
      omega
    obtain ⟨s, s1, s2⟩ := picks_covered srcN (gs.map (·.sources)) T.catalog (fun i x hx hne => by
      cases x with
      | none => exact absurd rfl hne
      | some x =>
        obtain ⟨g, g1, g2⟩ := h.sources hc i x hx hne
        exact ⟨_, List.mem_map_of_mem g1, g2⟩) (k - nImgs T) (by unfold nSrcs at hk; rw [if_pos hc, sizeSrcs] at hk; omega)
    obtain ⟨g, g1, rfl⟩ := List.mem_map.1 s1
    refine ⟨g, g1, ?_⟩
    unfold members
    rw [List.getElem?_append_right (by rw [hlen]; omega), hlen, if_pos hc]
    exact s2

/-- The log-probability of a linear tractor, and what pulls at its parameters. -/
theorem pulls (W : World R M) (hooks : Tractor R M → Nat → Nat → Option (List (Deriv R))) (T : Tractor R M) (base : Nat → Nat → Nat → R)
    (D : Nat → Nat → Nat → Nat → R) (hr : ∀ p : List R, p.length = numberOfParams T.par → Ready W hooks (setAll T p)) (hl : Linear W hooks T base D) :
    ∃ (f : List R → Nat → R) (es : List (Entry R)) (C : R), ColSpec es (thawedPriors T.par) ∧
      (∀ p : List R, p.length = numberOfParams T.par → logProb W (setAll T p) = .ok (.fin (C - (1 / 2) * ∑ π ∈ obs T es,
        Fpfit.resid (range (numberOfParams T.par)) (weight T es) (seen (own T) es) (const base) (slopes D es) (fun k => p.getD k 0) π *
        Fpfit.resid (range (numberOfParams T.par)) (weight T es) (seen (own T) es) (const base) (slopes D es) (fun k => p.getD k 0) π))) ∧
      (∀ p k, f p k = pull (obs T es) (range (numberOfParams T.par)) (weight T es) (seen (own T) es) (const base) (slopes D es) (fun k => p.getD k 0) k) ∧
      (∀ p : List R, p.length = numberOfParams T.par → ∀ g, Best W (focus g (setAll T p)) → ∀ k : Nat, (members g T)[k]? = some true → f p k = 0) ∧
      (∀ p : List R, p.length = numberOfParams T.par → (∀ k, k < numberOfParams T.par → f p k = 0) → Best W (setAll T p)) ∧
      ∀ p p' : List R, p.length = numberOfParams T.par → p'.length = numberOfParams T.par → ∀ k,
        (∀ l, l < numberOfParams T.par → p'.getD l 0 ≠ p.getD l 0 → k ≠ l ∧ ∀ i b im y x, T.images[i]? = some (b, im) → y < im.data.h → x < im.data.w →
          im.inverr.px y x = 0 ∨ D k i y x = 0 ∨ D l i y x = 0) → f p' k = f p k := by
  have hr0 := hr (getParams T.par) (getParams_length _)
  rw [setAll_self] at hr0
  obtain ⟨es, C, hes, hall⟩ := logProb_run T hr0.prior
  have hrun : setAll (withData T (own T)) (getParams T.par) = T := by rw [withData_own, setAll_self]
  have hlp := hall W hooks base D (own T) (getParams T.par) (by rw [hrun]; exact hr0) (by rw [hrun]; exact hl)
  rw [withData_own] at hlp
  have getD_range : ∀ (f : Nat → R) (n k : Nat), k < n → ((List.range n).map f).getD k 0 = f k := by
    intro f n k hk
    rw [List.getD, List.getElem?_map, List.getElem?_range hk]; rfl
  refine ⟨fun p k => pull (obs T es) (range (numberOfParams T.par)) (weight T es) (seen (own T) es) (const base) (slopes D es) (fun k => p.getD k 0) k,
    es, C, hes, hlp, fun _ _ => rfl, ?_, ?_, ?_⟩
  · intro p hp g hb k hk
    have hkn : k < numberOfParams T.par := by
      rw [← members_length g]
      exact (List.getElem?_eq_some_iff.1 hk).1
    rw [best_focus (hr p hp), setAll_length, members_setAll g T p hp, getParams_setAll T p hp] at hb
    have hline := pull_line (obs T es) (range (numberOfParams T.par)) (weight T es) (seen (own T) es) (const base) (slopes D es) (fun k => p.getD k 0)
      (fun l => if l = k then 1 else 0) (fun ε => by
        have hq : (p.set k (p.getD k 0 + ε)).length = numberOfParams T.par := by rw [List.length_set, hp]
        have := hb (p.set k (p.getD k 0 + ε)) hq (fun l hl => by
            rw [List.getElem?_set_ne]
            rintro rfl
            rw [hk] at hl
            cases hl) _ _ (hlp p hp) (by rw [setAll_setAll T p _ hq]; exact hlp _ hq)
        have e : ∀ π, Fpfit.resid (range (numberOfParams T.par)) (weight T es) (seen (own T) es) (const base) (slopes D es)
            (fun l => (p.set k (p.getD k 0 + ε)).getD l 0) π =
            Fpfit.resid (range (numberOfParams T.par)) (weight T es) (seen (own T) es) (const base) (slopes D es)
              (fun l => p.getD l 0 + ε * if l = k then 1 else 0) π := by
          intro π
          unfold Fpfit.resid
          congr 3
          refine sum_congr rfl (fun l hl => ?_)
          beta_reduce
          congr 1
          by_cases hlk : l = k
          · subst hlk
            rw [if_pos rfl, mul_one, List.getD_eq_getElem?_getD, List.getElem?_set_self (by rw [hp]; exact hkn)]
            rfl
          · rw [if_neg hlk, mul_zero, add_zero, List.getD_eq_getElem?_getD, List.getElem?_set_ne (Ne.symm hlk), ← List.getD_eq_getElem?_getD]
        simp only [e] at this
        linarith)
    rw [pull_sum, sum_eq_single k] at hline
    · simpa using hline
    · intro l _ hlk
      rw [if_neg hlk, zero_mul]
    · intro h
      exact absurd (mem_range.2 hkn) h
  · intro p hp h
    refine ⟨_, hlp p hp, fun q hq => ?_⟩
    rw [setAll_length] at hq
    refine ⟨_, by rw [setAll_setAll T p q hq]; exact hlp q hq, ?_⟩
    have := pull_best (obs T es) (range (numberOfParams T.par)) (weight T es) (seen (own T) es) (const base) (slopes D es) (fun k => p.getD k 0)
      (fun k => q.getD k 0) (fun k hk => h k (mem_range.1 hk))
    linarith
  · intro p p' hp hp' k h
    refine pull_apart _ _ _ _ _ _ _ _ k (fun l hl hne π hπ => ?_)
    obtain ⟨hkl, h⟩ := h l (mem_range.1 hl) hne
    cases π with
    | inl π =>
      obtain ⟨i, y, x⟩ := π
      obtain ⟨b, im, h1, h2, h3⟩ := (mem_pixels T i y x).1 (inl_mem_disjSum.1 hπ)
      have hw : weight T es (.inl ⟨i, y, x⟩) = im.inverr.px y x := by simp [weight, h1]
      rw [hw]
      rcases h i b im y x h1 h2 h3 with h | h | h <;> simp [slopes, h]
    | inr e =>
      simp only [slopes]
      by_cases h1 : ((es[e]?).map (·.col)).getD 0 = k
      · rw [if_neg (show ¬ ((es[e]?).map (·.col)).getD 0 = l by rw [h1]; exact hkl), mul_zero]
      · rw [if_neg h1, mul_zero, zero_mul]

/-- **C161, nothing left to gain.** Linear models: if no group that takes part can be improved, with the other objects as they are, and the groups cover
all thawed objects, the tractor is at the maximum of the log-probability. -/
theorem C161_stationary (W : World R M) (hooks : Tractor R M → Nat → Nat → Option (List (Deriv R))) (T : Tractor R M) (base : Nat → Nat → Nat → R)
    (D : Nat → Nat → Nat → Nat → R) (hr : ∀ p : List R, p.length = numberOfParams T.par → Ready W hooks (setAll T p)) (hl : Linear W hooks T base D)
    (gs : List Group) (hc : Covers gs T) (h : ∀ g ∈ gs, Best W (focus g T)) : Best W T := by
  obtain ⟨f, -, -, -, -, -, f1, f2, -⟩ := pulls W hooks T base D hr hl
  have := f2 (getParams T.par) (getParams_length _) (fun k hk => by
    obtain ⟨g, g1, g2⟩ := hc.member k hk
    exact f1 _ (getParams_length _) g (by rw [setAll_self]; exact h g g1) k g2)
  rwa [setAll_self] at this

/-- Turns, with what is kept from turn to turn. -/
theorem turns_ok (S : Solver R) (hsq : Lsq.SqrtOK S.sqrt) (hS : Lsq.Solves S.lsqr) (W : World R M)
    (hooks : Tractor R M → Nat → Nat → Option (List (Deriv R))) (o : Opts) (A B : List R) (hA : ∀ a ∈ A, 0 ≤ a) (hs : (A ++ [1]).Pairwise (· ≤ ·))
    (T : Tractor R M) (gs : List Group) (hf : ∀ g ∈ gs, Fits S W hooks o T g) (p : List R) (hp : p.length = numberOfParams T.par) (L0 : R)
    (h0 : logProb W (setAll T p) = .ok (.fin L0)) :
    ∃ p' L1, turns S W hooks o (A ++ 1 :: B) gs (setAll T p) = (setAll T p', .ok ()) ∧ p'.length = numberOfParams T.par ∧
      logProb W (setAll T p') = .ok (.fin L1) ∧ L0 ≤ L1 ∧ (L0 = L1 → setAll T p' = setAll T p ∧ ∀ g ∈ gs, Best W (focus g (setAll T p))) := by
  induction gs generalizing p L0 with
  | nil => exact ⟨p, L0, rfl, hp, h0, le_refl _, fun _ => ⟨rfl, fun _ h => by cases h⟩⟩
  | cons g gs ih =>
    have hfg : Fits S W hooks o (setAll T p) g := by
      intro q hq
      rw [setAll_length] at hq
      rw [setAll_setAll T p q hq]
      exact hf g List.mem_cons_self q hq
    obtain ⟨q, r, l0, l1, e1, e2, e3, e4, e5, e6, e7, e8, e9⟩ := C161_turn S hsq hS W hooks o (setAll T p) g hfg A B hA hs
    rw [setAll_length] at e2
    rw [setAll_setAll T p q e2] at e1 e4 e6 e9
    rw [h0] at e5
    cases e5
    obtain ⟨p', L1, d1, d2, d3, d4, d5⟩ := ih (fun g hg => hf g (List.mem_cons_of_mem _ hg)) q e2 l1 e6
    refine ⟨p', L1, ?_, d2, d3, by linarith, fun heq => ?_⟩
    · unfold turns
      rw [e1]
      exact d1
    · have h1 := e9 (by linarith)
      obtain ⟨h2, h3⟩ := d5 (by linarith)
      rw [h1] at h2 h3 e4
      exact ⟨h2, fun g' hg' => by
        rcases List.mem_cons.1 hg' with rfl | hg'
        · exact e4
        · exact h3 g' hg'⟩

/-- **C161, a pass.** Linear models, groups that cover all thawed objects: one turn for each group ends normally, with a larger log-probability, unless it
was the largest already; then nothing is changed. -/
theorem C161_pass (S : Solver R) (hsq : Lsq.SqrtOK S.sqrt) (hS : Lsq.Solves S.lsqr) (W : World R M)
    (hooks : Tractor R M → Nat → Nat → Option (List (Deriv R))) (o : Opts) (T : Tractor R M) (base : Nat → Nat → Nat → R) (D : Nat → Nat → Nat → Nat → R)
    (hr : ∀ p : List R, p.length = numberOfParams T.par → Ready W hooks (setAll T p)) (hl : Linear W hooks T base D)
    (gs : List Group) (hc : Covers gs T) (hf : ∀ g ∈ gs, Fits S W hooks o T g) (A B : List R) (hA : ∀ a ∈ A, 0 ≤ a) (hs : (A ++ [1]).Pairwise (· ≤ ·)) :
    ∃ p L0 L1, turns S W hooks o (A ++ 1 :: B) gs T = (setAll T p, .ok ()) ∧ p.length = numberOfParams T.par ∧ logProb W T = .ok (.fin L0) ∧
      logProb W (setAll T p) = .ok (.fin L1) ∧ L0 ≤ L1 ∧ (Best W T → setAll T p = T) ∧ (¬ Best W T → L0 < L1) := by
  have hr0 := hr (getParams T.par) (getParams_length _)
  rw [setAll_self] at hr0
  obtain ⟨P, L0, a1, a2⟩ := logProb_finite hr0 (getParams T.par) (getParams_length _)
  obtain ⟨p, L1, e1, e2, e3, e4, e5⟩ := turns_ok S hsq hS W hooks o A B hA hs T gs hf (getParams T.par) (getParams_length _) L0 a2
  rw [setAll_self] at e1 e5 a2
  refine ⟨p, L0, L1, e1, e2, a2, e3, e4, fun hb => ?_, fun hb => ?_⟩
  · obtain ⟨L, b1, b2⟩ := hb
    rw [a2] at b1
    cases b1
    obtain ⟨L', c1, c2⟩ := b2 p e2
    rw [e3] at c1
    cases c1
    exact (e5 (le_antisymm e4 c2)).1
  · refine lt_of_le_of_ne e4 (fun heq => hb ?_)
    exact C161_stationary W hooks T base D hr hl gs hc (e5 heq).2

/-- Two groups share no pixel that counts: where a parameter of the one and another of the other both have an effect the inverse error is zero. -/
def Apart (T : Tractor R M) (D : Nat → Nat → Nat → Nat → R) (g g' : Group) : Prop :=
  ∀ k k' : Nat, (members g T)[k]? = some true → (members g' T)[k']? = some true → k ≠ k' → ∀ i b im y x, T.images[i]? = some (b, im) → y < im.data.h →
    x < im.data.w → im.inverr.px y x = 0 ∨ D k i y x = 0 ∨ D k' i y x = 0

/-- **C161, groups that share no pixels.** Linear models: if the groups cover all thawed objects and no two of them share pixels (with non-zero inverse error),
one turn for each reaches the maximum of the log-probability of the whole. -/
theorem C161_apart (S : Solver R) (hsq : Lsq.SqrtOK S.sqrt) (hS : Lsq.Solves S.lsqr) (W : World R M)
    (hooks : Tractor R M → Nat → Nat → Option (List (Deriv R))) (o : Opts) (T : Tractor R M) (base : Nat → Nat → Nat → R) (D : Nat → Nat → Nat → Nat → R)
    (hr : ∀ p : List R, p.length = numberOfParams T.par → Ready W hooks (setAll T p)) (hl : Linear W hooks T base D)
    (gs : List Group) (hc : Covers gs T) (hf : ∀ g ∈ gs, Fits S W hooks o T g) (ha : gs.Pairwise (Apart T D)) (A B : List R) (hA : ∀ a ∈ A, 0 ≤ a)
    (hs : (A ++ [1]).Pairwise (· ≤ ·)) :
    ∃ p, turns S W hooks o (A ++ 1 :: B) gs T = (setAll T p, .ok ()) ∧ p.length = numberOfParams T.par ∧ Best W (setAll T p) := by
  obtain ⟨f, -, -, -, -, -, f1, f2, f3⟩ := pulls W hooks T base D hr hl
  have key : ∀ (gs : List Group), (∀ g ∈ gs, Fits S W hooks o T g) → gs.Pairwise (Apart T D) → ∀ (Z : Nat → Prop) (p : List R),
      p.length = numberOfParams T.par → (∀ k, Z k → f p k = 0) →
      (∀ k, Z k → ∀ g ∈ gs, ∀ l : Nat, (members g T)[l]? = some true → k ≠ l → ∀ i b im y x, T.images[i]? = some (b, im) → y < im.data.h → x < im.data.w →
        im.inverr.px y x = 0 ∨ D k i y x = 0 ∨ D l i y x = 0) →
      ∃ p', turns S W hooks o (A ++ 1 :: B) gs (setAll T p) = (setAll T p', .ok ()) ∧ p'.length = numberOfParams T.par ∧
        ∀ k, (Z k ∨ ∃ g ∈ gs, (members g T)[k]? = some true) → f p' k = 0 := by
    intro gs
    induction gs with
    | nil =>
      intro _ _ Z p hp hz _
      exact ⟨p, rfl, hp, fun k hk => by
        rcases hk with hk | ⟨g, hg, -⟩
        · exact hz k hk
        · cases hg⟩
    | cons g gs ih =>
      intro hf ha Z p hp hz hza
      have hfg : Fits S W hooks o (setAll T p) g := by
        intro q hq
        rw [setAll_length] at hq
        rw [setAll_setAll T p q hq]
        exact hf g List.mem_cons_self q hq
      obtain ⟨q, r, l0, l1, e1, e2, e3, e4, -⟩ := C161_turn S hsq hS W hooks o (setAll T p) g hfg A B hA hs
      rw [setAll_length] at e2
      rw [setAll_setAll T p q e2] at e1 e4
      rw [members_setAll g T p hp, getParams_setAll T p hp] at e3
      rw [List.pairwise_cons] at ha
      have hmem : ∀ k : Nat, k < numberOfParams T.par → (members g T)[k]? = some true ∨ (members g T)[k]? = some false := by
        intro k hk
        have hk' : k < (members g T).length := by rw [members_length]; exact hk
        rw [List.getElem?_eq_getElem hk']
        cases (members g T)[k]'hk' <;> simp
      obtain ⟨p', d1, d2, d3⟩ := ih (fun g hg => hf g (List.mem_cons_of_mem _ hg)) ha.2 (fun k => Z k ∨ (members g T)[k]? = some true) q e2 (fun k hk => by
        by_cases hkg : (members g T)[k]? = some true
        · exact f1 q e2 g e4 k hkg
        · have hz' := hk.resolve_right hkg
          rw [f3 p q hp e2 k (fun l hl hne => ?_), hz k hz']
          have hlg : (members g T)[l]? = some true := by
            rcases hmem l hl with h | h
            · exact h
            · exact absurd (by rw [List.getD_eq_getElem?_getD, List.getD_eq_getElem?_getD, e3 l h]) hne
          have hkl : k ≠ l := by rintro rfl; exact hkg hlg
          exact ⟨hkl, hza k hz' g List.mem_cons_self l hlg hkl⟩) (fun k hk g' hg' l hl hkl => by
        rcases hk with hk | hk
        · exact hza k hk g' (List.mem_cons_of_mem _ hg') l hl hkl
        · exact ha.1 g' hg' k l hk hl hkl)
      refine ⟨p', ?_, d2, fun k hk => d3 k ?_⟩
      · unfold turns
        rw [e1]
        exact d1
      · rcases hk with hk | ⟨g', hg', hk⟩
        · exact .inl (.inl hk)
        · rcases List.mem_cons.1 hg' with rfl | hg'
          · exact .inl (.inr hk)
          · exact .inr ⟨g', hg', hk⟩
  obtain ⟨p, e1, e2, e3⟩ := key gs hf ha (fun _ => False) (getParams T.par) (getParams_length _) (fun _ h => h.elim) (fun _ h => h.elim)
  rw [setAll_self] at e1
  exact ⟨p, e1, e2, f2 p e2 (fun k hk => e3 k (.inr (hc.member k hk)))⟩

/-! ### Examples: one image of two pixels and two sources with one parameter each: the first adds to the first pixel, the second to the second and, `c`
times, to the first. -/

def exTwCol (c : ℚ) (j x : Nat) : ℚ := if j = 0 then (if x = 0 then 1 else 0) else if j = 1 then (if x = 0 then c else 1) else 0

def exTwIm : Image ℚ := ⟨0, .nil, Arr.ofLists [[5, 2]] 2, Arr.ofLists [[1, 1]] 2⟩

def exTwWorld (c : ℚ) : World ℚ Unit where
  render s _ _ := some ⟨0, 0, some ⟨1, 2, fun _ x => (getParams s.par).getD 0 0 * exTwCol c (s.id - 10) x⟩⟩
  sky _ := .null
  srcDerivs s _ _ := [some ⟨0, 0, some ⟨1, 2, fun _ x => exTwCol c (s.id - 10) x⟩⟩]

def exTw (t u : Bool) (a b : ℚ) : Tractor ℚ Unit :=
  ⟨true, [(false, exTwIm)], true, [(t, some ⟨10, exDampPar a⟩), (u, some ⟨11, exDampPar b⟩)], none, false⟩

def exTwD (c : ℚ) (t : Bool) (k _i _y x : Nat) : ℚ := exTwCol c (if t then k else k + 1) x

def exTwBase (c : ℚ) (t u : Bool) (a b : ℚ) (_i _y x : Nat) : ℚ := (if t then 0 else a * exTwCol c 0 x) + (if u then 0 else b * exTwCol c 1 x)

def exTwG (j : Nat) : Group := ⟨fun _ => false, fun j' => j' == j⟩

theorem exTwFocus (g : Group) (a b : ℚ) : focus g (exTw true true a b) = exTw (g.sources 0) (g.sources 1) a b := rfl

theorem exTwSet (a b a' b' : ℚ) : setAll (exTw true true a b) [a', b'] = exTw true true a' b' := rfl

theorem exTwList (p : List ℚ) (hp : p.length = 2) : ∃ a b, p = [a, b] := by
  match p, hp with
  | [a, b], _ => exact ⟨a, b, rfl⟩

theorem exTwImages (t u : Bool) (a b : ℚ) (i : Nat) (s : Bool) (im : Image ℚ) (h : (exTw t u a b).images[i]? = some (s, im)) :
    i = 0 ∧ s = false ∧ im = exTwIm := by
  match i, h with
  | 0, h => simp [exTw] at h; exact ⟨rfl, h.1, h.2.symm⟩
  | n + 1, h => simp [exTw] at h

theorem exTwModel (c : ℚ) (t u : Bool) (a b : ℚ) : ∃ A, getModelImage (exTwWorld c) (exTw t u a b) exTwIm none true = .ok A ∧
    ∀ x < 2, A.px 0 x = a * exTwCol c 0 x + b * exTwCol c 1 x := by
  obtain ⟨-, h⟩ := C29_model_image (exTwWorld c) (exTw t u a b) exTwIm (by intro masks h; cases h) none
  obtain ⟨r, g1, -, -, g2⟩ := h [some ⟨0, 0, some ⟨1, 2, fun _ x => a * exTwCol c 0 x⟩⟩, some ⟨0, 0, some ⟨1, 2, fun _ x => b * exTwCol c 1 x⟩⟩]
    (.cons ⟨none, .nomasks rfl, rfl⟩ (.cons ⟨none, .nomasks rfl, rfl⟩ .nil)) true
  refine ⟨r, g1, fun x hx => ?_⟩
  rw [g2 0 x Nat.one_pos hx]
  interval_cases x <;> simp [exTwWorld, Sky.at, patchAt, Patch.at]

theorem exTwReady (c : ℚ) (t u : Bool) (a b : ℚ) : Ready (exTwWorld c) exHooks (exTw t u a b) := by
  refine ⟨fun x _ masks (h : none = some masks) => (by cases h), ?_, ?_, ?_, ?_, ?_⟩
  · intro x hx
    simp only [exTw, List.mem_cons, List.not_mem_nil, or_false] at hx
    subst hx
    exact ⟨rfl, rfl, by show 2 * 1 < 2 ^ 31; norm_num⟩
  · cases t <;> cases u <;> simp [exTw, exTwIm, Tractor.par, PriorsOK, PriorsOKSubs, imagesSubs, catalogSubs, exDampPar]
  · intro i x _ _ y _ _ l hl
    cases hl
  · intro x hx _
    simp only [exTw, List.mem_cons, List.not_mem_nil, or_false] at hx
    subst hx
    rfl
  · intro src hs x _ ds hds
    simp only [exTw, List.mem_cons, List.not_mem_nil, or_false, Prod.mk.injEq, Option.some.injEq] at hs
    obtain ⟨mask, -, rfl⟩ := hds
    split
    · simp
    · rcases hs with ⟨-, rfl⟩ | ⟨-, rfl⟩ <;> exact Nat.le_refl 1

theorem exTwLoc (t u : Bool) (a b : ℚ) (k o j : Nat) (h : Located (exTw t u a b) k o j) :
    (t = true ∧ o = 1 ∧ k = 0 ∧ j = 0) ∨ (u = true ∧ o = 2 ∧ k = (if t then 1 else 0) ∧ j = 0) := by
  obtain ⟨n, h1, h2, h3⟩ := h
  have hb : blocks (exTw t u a b) = [0, if t then 1 else 0, if u then 1 else 0] := by cases t <;> cases u <;> rfl
  rw [hb] at h1 h3
  match o with
  | 0 => simp at h1; omega
  | 1 => cases t <;> simp at h1 h3 <;> simp <;> omega
  | 2 => cases t <;> cases u <;> simp at h1 h3 <;> simp <;> omega
  | o + 3 => simp at h1

theorem exTwLinear (c : ℚ) (t u : Bool) (a b : ℚ) : Linear (exTwWorld c) exHooks (exTw t u a b) (exTwBase c t u a b) (exTwD c t) := by
  refine ⟨?_, ?_, ?_⟩
  · intro p hp i s im hi A hA y x hy hx
    have key : ∃ a' b', setAll (exTw t u a b) p = exTw t u a' b' ∧ ∀ x < 2, a' * exTwCol c 0 x + b' * exTwCol c 1 x =
        exTwBase c t u a b i y x + ∑ k ∈ range (numberOfParams (exTw t u a b).par), p.getD k 0 * exTwD c t k i y x := by
      cases t <;> cases u
      · obtain rfl : p = [] := List.eq_nil_of_length_eq_zero hp
        exact ⟨a, b, rfl, fun x _ => by rw [show numberOfParams (exTw false false a b).par = 0 from rfl]; simp [exTwBase]⟩
      · obtain ⟨b', rfl⟩ := exDampList p hp
        exact ⟨a, b', rfl, fun x _ => by rw [show numberOfParams (exTw false true a b).par = 1 from rfl]; simp [exTwBase, exTwD]⟩
      · obtain ⟨a', rfl⟩ := exDampList p hp
        exact ⟨a', b, rfl, fun x _ => by rw [show numberOfParams (exTw true false a b).par = 1 from rfl]; simp [exTwBase, exTwD]; ring⟩
      · obtain ⟨a', b', rfl⟩ := exTwList p hp
        exact ⟨a', b', rfl, fun x _ => by rw [show numberOfParams (exTw true true a b).par = 2 from rfl]; simp [exTwBase, exTwD, sum_range_succ]⟩
    obtain ⟨a', b', e, key⟩ := key
    rw [e] at hi hA
    obtain ⟨rfl, rfl, rfl⟩ := exTwImages t u a' b' i s im hi
    obtain ⟨A', e1, e2⟩ := exTwModel c t u a' b'
    rw [hA] at e1
    cases e1
    have hy : y < 1 := hy
    obtain rfl : y = 0 := by omega
    rw [e2 x hx, key x hx]
  · intro k o' j s src hloc hc i s' im hi ds hds y x hy hx
    obtain ⟨rfl, rfl, rfl⟩ := exTwImages t u a b i s' im hi
    have hy : y < 1 := hy
    have hx : x < 2 := hx
    obtain rfl : y = 0 := by omega
    obtain ⟨mask, -, rfl⟩ := hds
    rw [if_neg (by simp [exTw])]
    have hl : (exTw t u a b).images.length = 1 := rfl
    rw [hl] at hloc
    rcases exTwLoc t u a b k _ j hloc with ⟨rfl, h2, rfl, rfl⟩ | ⟨rfl, h2, rfl, rfl⟩
    · obtain rfl : o' = 0 := by omega
      simp [exTw] at hc
      obtain ⟨-, rfl⟩ := hc
      interval_cases x <;> simp [exTwWorld, patchAt, Patch.at, exTwD]
    · obtain rfl : o' = 1 := by omega
      simp [exTw] at hc
      obtain ⟨-, rfl⟩ := hc
      cases t <;> interval_cases x <;> simp [exTwWorld, patchAt, Patch.at, exTwD]
  · intro k o j s im hloc ho
    rcases exTwLoc t u a b k o j hloc with ⟨-, rfl, -⟩ | ⟨-, rfl, -⟩ <;> simp [exTw] at ho

theorem exTwLogProb (c a b : ℚ) : logProb (exTwWorld c) (exTw true true a b) = .ok (.fin (-(1 / 2) * ((5 - (a + b * c)) ^ 2 + (2 - b) ^ 2))) := by
  have hP : getLogPrior (setParams (exTw true true a b).par [a, b]).1 = .ok 0 := by
    have e : (setParams (exTw true true a b).par [a, b]).1 = (exTw true true a b).par := rfl
    rw [e]
    simp [exTw, exTwIm, exDampPar, Tractor.par, imagesSubs, catalogSubs, getLogPrior, getLogPriorSubs, gaussianLogPrior, gaussianChisq, Except.map]
  have h := logProb_pixels (exTwWorld c) (exTw true true a b) (exTwReady c true true a b).mask (exTwReady c true true a b).shape [a, b] _ hP
  rw [exTwSet] at h
  obtain ⟨A, e1, e2⟩ := exTwModel c true true a b
  have hpix : ∀ x < 2, pixel (exTwWorld c) (exTw true true a b) 0 0 x = a * exTwCol c 0 x + b * exTwCol c 1 x := by
    intro x hx
    unfold pixel
    rw [show (exTw true true a b).images[0]? = some (false, exTwIm) from rfl]
    dsimp only
    rw [e1]
    exact e2 x hx
  rw [h, sum_pixels]
  have h0 := hpix 0 (by norm_num)
  have h1 := hpix 1 (by norm_num)
  simp [exTw, exTwIm, sum_range_succ, valueAt, weightAt, Arr.ofLists, exTwCol] at h0 h1 ⊢
  rw [h0, h1]

theorem exTwFits (S : Solver ℚ) (c a b : ℚ) (g : Group) : Fits S (exTwWorld c) exHooks ⟨false, false, true⟩ (exTw true true a b) g := by
  intro p hp
  obtain ⟨a', b', rfl⟩ := exTwList p hp
  rw [exTwSet, exTwFocus]
  exact ⟨exTwReady c _ _ _ _, _, _, exTwReady c _ _ _ _, exTwLinear c _ _ _ _, .inl rfl, by simp, by simp⟩

theorem exTwAll (c a b : ℚ) (p : List ℚ) (hp : p.length = numberOfParams (exTw true true a b).par) :
    Ready (exTwWorld c) exHooks (setAll (exTw true true a b) p) := by
  obtain ⟨a', b', rfl⟩ := exTwList p hp
  exact exTwReady c _ _ _ _

theorem exTwCovers (a b : ℚ) : Covers [exTwG 0, exTwG 1] (exTw true true a b) := by
  refine ⟨fun _ i im h _ => ?_, fun _ j s h _ => ?_⟩
  · obtain ⟨-, h, -⟩ := exTwImages true true a b i true im h
    cases h
  · match j, h with
    | 0, _ => exact ⟨exTwG 0, by simp, rfl⟩
    | 1, _ => exact ⟨exTwG 1, by simp, rfl⟩
    | j + 2, h => simp [exTw] at h

theorem exTwBest (c a b : ℚ) : Best (exTwWorld c) (exTw true true a b) ↔ b = 2 ∧ a = 5 - 2 * c := by
  constructor
  · rintro ⟨L, h1, h2⟩
    rw [exTwLogProb] at h1
    cases h1
    obtain ⟨L', h3, h4⟩ := h2 [5 - 2 * c, 2] rfl
    rw [exTwSet, exTwLogProb] at h3
    cases h3
    have e : (5 - (5 - 2 * c + 2 * c) : ℚ) = 0 := by ring
    rw [e] at h4
    have hb : (2 - b) ^ 2 = 0 := by nlinarith [sq_nonneg (2 - b), sq_nonneg (5 - (a + b * c))]
    have ha : (5 - (a + b * c)) ^ 2 = 0 := by nlinarith [sq_nonneg (2 - b), sq_nonneg (5 - (a + b * c))]
    have hb := pow_eq_zero_iff (two_ne_zero) |>.1 hb
    have ha := pow_eq_zero_iff (two_ne_zero) |>.1 ha
    obtain rfl : b = 2 := by linarith
    exact ⟨rfl, by linarith⟩
  · rintro ⟨rfl, rfl⟩
    refine ⟨_, exTwLogProb _ _ _, fun q hq => ?_⟩
    obtain ⟨a, b, rfl⟩ := exTwList q hq
    refine ⟨_, by rw [exTwSet]; exact exTwLogProb _ _ _, ?_⟩
    have e : (5 - (5 - 2 * c + 2 * c) : ℚ) = 0 := by ring
    rw [e]
    nlinarith [sq_nonneg (2 - b), sq_nonneg (5 - (a + b * c))]

/-- What the two turns do from (0, 0): the first source takes all of the first pixel, the second then has to share. -/
theorem exTwTurns (lsqr : Lsq.Problem ℚ → List ℚ) (hl : Lsq.Solves lsqr) (c : ℚ) : ∃ b, b * (1 + c ^ 2) = 2 ∧
    turns ⟨fun _ => 1, 0, lsqr⟩ (exTwWorld c) exHooks ⟨false, false, true⟩ [1 / 2, 1] [exTwG 0, exTwG 1] (exTw true true 0 0) = (exTw true true 5 b, .ok ()) := by
  have hA : ∀ a ∈ [(1 / 2 : ℚ)], 0 ≤ a := by simp
  have hs : ([(1 / 2 : ℚ)] ++ [1]).Pairwise (· ≤ ·) := by simp; norm_num
  obtain ⟨p, r, L0, L1, e1, e2, e3, e4, -, e6, -⟩ := C161_turn ⟨fun _ => 1, 0, lsqr⟩ (fun _ _ => one_pos) hl (exTwWorld c) exHooks ⟨false, false, true⟩
    (exTw true true 0 0) (exTwG 0) (exTwFits _ c 0 0 _) [1 / 2] [] hA hs
  obtain ⟨a, b, rfl⟩ := exTwList p e2
  have hb := e3 1 rfl
  rw [exTwSet] at e1 e4 e6
  obtain rfl : b = 0 := by simpa [show getParams (exTw true true 0 0).par = [0, 0] from rfl] using hb
  rw [best_focus (exTwReady c _ _ _ _)] at e4
  have h5 := e4 [5, 0] rfl (fun k hk => by
    match k, hk with
    | 0, hk => cases hk
    | 1, _ => rfl
    | k + 2, hk => cases hk) _ _ (exTwLogProb c a 0) (exTwLogProb c 5 0)
  obtain rfl : a = 5 := by
    have : (5 - a) ^ 2 = 0 := by nlinarith [sq_nonneg (5 - a)]
    have := pow_eq_zero_iff (two_ne_zero) |>.1 this
    linarith
  obtain ⟨p, r', L0', L1', d1, d2, d3, d4, -⟩ := C161_turn ⟨fun _ => 1, 0, lsqr⟩ (fun _ _ => one_pos) hl (exTwWorld c) exHooks ⟨false, false, true⟩
    (exTw true true 5 0) (exTwG 1) (exTwFits _ c 5 0 _) [1 / 2] [] hA hs
  obtain ⟨a, b, rfl⟩ := exTwList p d2
  have ha := d3 0 rfl
  rw [exTwSet] at d1 d4
  obtain rfl : a = 5 := by simpa [show getParams (exTw true true 5 0).par = [5, 0] from rfl] using ha
  rw [best_focus (exTwReady c _ _ _ _)] at d4
  have hpos : (0 : ℚ) < 1 + c ^ 2 := by positivity
  refine ⟨b, ?_, ?_⟩
  · have h := d4 [5, 2 / (1 + c ^ 2)] rfl (fun k hk => by
      match k, hk with
      | 0, _ => rfl
      | 1, hk => cases hk
      | k + 2, hk => cases hk) _ _ (exTwLogProb c 5 b) (exTwLogProb c 5 _)
    generalize hz : 2 / (1 + c ^ 2) = z at h
    have hz' : z * (1 + c ^ 2) = 2 := by rw [← hz]; field_simp
    have h0 : (1 + c ^ 2) * (b - z) ^ 2 ≤ 0 := by
      have e : (1 + c ^ 2) * (b - z) ^ 2 = (1 + c ^ 2) * b ^ 2 - 2 * b * (z * (1 + c ^ 2)) + z * (z * (1 + c ^ 2)) := by ring
      have e' : (1 + c ^ 2) * z ^ 2 = z * (z * (1 + c ^ 2)) := by ring
      rw [hz'] at e e'
      nlinarith [h, e, e']
    have h1 : (b - z) ^ 2 = 0 := by
      rcases (mul_nonpos_iff.1 h0) with h | h
      · exact le_antisymm h.2 (sq_nonneg _)
      · linarith [h.1]
    have h1 := pow_eq_zero_iff (two_ne_zero) |>.1 h1
    rw [show b = z by linarith, hz']
  · unfold turns
    rw [show ([1 / 2, 1] : List ℚ) = [1 / 2] ++ 1 :: [] from rfl, e1]
    dsimp only
    unfold turns
    rw [d1]
    rfl

/-- **C161, blends need more turns.** Two overlapping sources, with all the conditions but the one on shared pixels: after one turn each the fit is not the
best one. -/
theorem C161_blend_false : ∃ (S : Solver ℚ) (W : World ℚ Unit) (T T' : Tractor ℚ Unit) (gs : List Group) (base : Nat → Nat → Nat → ℚ)
    (D : Nat → Nat → Nat → Nat → ℚ), Lsq.SqrtOK S.sqrt ∧ Lsq.Solves S.lsqr ∧ (∀ p : List ℚ, p.length = numberOfParams T.par → Ready W exHooks (setAll T p)) ∧
      Linear W exHooks T base D ∧ Covers gs T ∧ (∀ g ∈ gs, Fits S W exHooks ⟨false, false, true⟩ T g) ∧
      turns S W exHooks ⟨false, false, true⟩ [1 / 2, 1] gs T = (T', .ok ()) ∧ ¬ Best W T' := by
  obtain ⟨lsqr, hl⟩ := Lsq.solver_exists (R := ℚ)
  obtain ⟨b, h1, h2⟩ := exTwTurns lsqr hl 1
  refine ⟨⟨fun _ => 1, 0, lsqr⟩, exTwWorld 1, exTw true true 0 0, _, _, _, _, fun _ _ => one_pos, hl, exTwAll 1 0 0, exTwLinear 1 true true 0 0, exTwCovers 0 0,
    fun g _ => exTwFits _ 1 0 0 g, h2, ?_⟩
  rw [exTwBest]
  rintro ⟨rfl, -⟩
  norm_num at h1

/-- Overlapping sources: a pass makes the fit better. -/
example (lsqr : Lsq.Problem ℚ → List ℚ) (hl : Lsq.Solves lsqr) : ∃ p L0 L1,
    turns ⟨fun _ => 1, 0, lsqr⟩ (exTwWorld 1) exHooks ⟨false, false, true⟩ [1 / 2, 1] [exTwG 0, exTwG 1] (exTw true true 0 0) =
      (setAll (exTw true true 0 0) p, .ok ()) ∧ logProb (exTwWorld 1) (exTw true true 0 0) = .ok (.fin L0) ∧
    logProb (exTwWorld 1) (setAll (exTw true true 0 0) p) = .ok (.fin L1) ∧ L0 < L1 := by
  obtain ⟨p, L0, L1, h1, -, h3, h4, -, -, h6⟩ := C161_pass ⟨fun _ => 1, 0, lsqr⟩ (fun _ _ => one_pos) hl (exTwWorld 1) exHooks ⟨false, false, true⟩
    (exTw true true 0 0) _ _ (exTwAll 1 0 0) (exTwLinear 1 true true 0 0) _ (exTwCovers 0 0) (fun g _ => exTwFits _ 1 0 0 g) [1 / 2] [] (by simp)
    (by simp; norm_num)
  exact ⟨p, L0, L1, h1, h3, h4, h6 (by rw [exTwBest]; norm_num)⟩

/-- The sources do not overlap (`c` is zero): one turn each, and the fit is the best one. -/
example (lsqr : Lsq.Problem ℚ → List ℚ) (hl : Lsq.Solves lsqr) :
    turns ⟨fun _ => 1, 0, lsqr⟩ (exTwWorld 0) exHooks ⟨false, false, true⟩ [1 / 2, 1] [exTwG 0, exTwG 1] (exTw true true 0 0) = (exTw true true 5 2, .ok ()) := by
  have ha : [exTwG 0, exTwG 1].Pairwise (Apart (exTw true true 0 0) (exTwD 0 true)) := by
    refine List.pairwise_pair.2 (fun k k' hk hk' _ i b im y x _ _ _ => ?_)
    match k, k', hk, hk' with
    | 0, 0, _, hk' => cases hk'
    | 0, 1, _, _ => by_cases hx : x = 0 <;> simp [exTwD, exTwCol, hx]
    | 0, k' + 2, _, hk' => cases hk'
    | 1, _, hk, _ => cases hk
    | k + 2, _, hk, _ => cases hk
  obtain ⟨p, h1, h2, h3⟩ := C161_apart ⟨fun _ => 1, 0, lsqr⟩ (fun _ _ => one_pos) hl (exTwWorld 0) exHooks ⟨false, false, true⟩
    (exTw true true 0 0) _ _ (exTwAll 0 0 0) (exTwLinear 0 true true 0 0) _ (exTwCovers 0 0) (fun g _ => exTwFits _ 0 0 0 g) ha [1 / 2] [] (by simp)
    (by simp; norm_num)
  obtain ⟨a, b, rfl⟩ := exTwList p h2
  rw [exTwSet] at h1 h3
  rw [exTwBest] at h3
  rw [List.singleton_append] at h1
  rw [h1, h3.1, h3.2]
  norm_num

/-- The second source alone, the first at 1: it is left at 3, halfway between what the two pixels ask for; the first source is not changed. -/
example (lsqr : Lsq.Problem ℚ → List ℚ) (hl : Lsq.Solves lsqr) : ∃ r,
    turn ⟨fun _ => 1, 0, lsqr⟩ (exTwWorld 1) exHooks ⟨false, false, true⟩ [1 / 2, 1] (exTwG 1) (exTw true true 1 0) = (exTw true true 1 3, .ok r) := by
  obtain ⟨p, r, L0, L1, e1, e2, e3, e4, -⟩ := C161_turn ⟨fun _ => 1, 0, lsqr⟩ (fun _ _ => one_pos) hl (exTwWorld 1) exHooks ⟨false, false, true⟩
    (exTw true true 1 0) (exTwG 1) (exTwFits _ 1 1 0 _) [1 / 2] [] (by simp) (by simp; norm_num)
  obtain ⟨a, b, rfl⟩ := exTwList p e2
  have ha := e3 0 rfl
  rw [exTwSet] at e1 e4
  obtain rfl : a = 1 := by simpa [show getParams (exTw true true 1 0).par = [1, 0] from rfl] using ha
  rw [best_focus (exTwReady 1 _ _ _ _)] at e4
  have h := e4 [1, 3] rfl (fun k hk => by
    match k, hk with
    | 0, _ => rfl
    | 1, hk => cases hk
    | k + 2, hk => cases hk) _ _ (exTwLogProb 1 1 b) (exTwLogProb 1 1 3)
  obtain rfl : b = 3 := by
    have : (b - 3) ^ 2 = 0 := by nlinarith [sq_nonneg (b - 3)]
    have := pow_eq_zero_iff (two_ne_zero) |>.1 this
    linarith
  exact ⟨r, e1⟩

/-- At the best fit of every source by itself, and so of all. -/
example : Best (exTwWorld 1) (exTw true true 3 2) := by
  refine C161_stationary (exTwWorld 1) exHooks _ _ _ (exTwAll 1 3 2) (exTwLinear 1 true true 3 2) [exTwG 0, exTwG 1] (exTwCovers 3 2) (fun g _ => ?_)
  rw [best_focus (exTwReady 1 _ _ _ _)]
  intro p hp _ l0 l1 h0 h1
  obtain ⟨a, b, rfl⟩ := exTwList p hp
  rw [exTwLogProb] at h0
  rw [exTwSet, exTwLogProb] at h1
  cases h0; cases h1
  norm_num
  nlinarith [sq_nonneg (5 - (a + b)), sq_nonneg (2 - b)]

/-- The first source alone: the second is not changed. -/
example (lsqr : Lsq.Problem ℚ → List ℚ) (hl : Lsq.Solves lsqr) (alphas : List ℚ) : ∃ a r,
    turn ⟨fun _ => 1, 0, lsqr⟩ (exTwWorld 1) exHooks ⟨false, false, true⟩ alphas (exTwG 0) (exTw true true 1 7) = (exTw true true a 7, .ok r) := by
  obtain ⟨p, r, L0, L1, e1, e2, -, e4, -⟩ := C161_never_worse ⟨fun _ => 1, 0, lsqr⟩ (fun _ _ => one_pos) hl (exTwWorld 1) exHooks ⟨false, false, true⟩
    (exTw true true 1 7) (exTwReady 1 _ _ _ _) (exTwG 0) (exTwD 1 true) (exTwReady 1 true false _ _) (reported_linear (exTwLinear 1 true false 1 7) (exTwReady 1 _ _ _ _))
    ⟨.inl rfl, by simp, by simp⟩ alphas
  obtain ⟨a, b, rfl⟩ := exTwList p e2
  have hb := e4 1 rfl
  rw [exTwSet] at e1 hb
  obtain rfl : b = 7 := by simpa [exTw, exDampPar] using hb
  exact ⟨a, r, e1⟩

end Verif.Fit
