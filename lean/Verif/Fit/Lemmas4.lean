import Verif.Fit.Lemmas3

/-!
# Lemmas: the search direction and the line search
-/

namespace Verif.Fit

open Verif Params Patches Engine Finset

variable {R M : Type} [Field R] [LinearOrder R] [IsStrictOrderedRing R]

/-! ### A quadratic along a line -/

omit [LinearOrder R] [IsStrictOrderedRing R] in
theorem change_smul (imgs : Nat → Lsq.Img R) (ds : Lsq.Derivs R) (X : List R) (a : R) (i y x : Nat) :
    Lsq.change imgs ds (X.map (a * ·)) i y x = a * Lsq.change imgs ds X i y x := by
  unfold Lsq.change
  induction ds generalizing X with
  | nil => simp
  | cons d ds ih =>
    cases X with
    | nil => simp
    | cons v X =>
      rw [List.map_cons, List.zipWith_cons_cons, List.zipWith_cons_cons, List.sum_cons, List.sum_cons, ih]
      ring

/-- The linearised chi-squared along a line. -/
theorem quadratic (imgs : Nat → Lsq.Img R) (ds : Lsq.Derivs R) (pr : Option (PriorDerivs R)) (es : List (Entry R)) (n : Nat)
    (hes : Lsq.PriorOK n pr es) (X : List R) :
    ∃ α β γ : R, 0 ≤ γ ∧ ∀ a, Lsq.linearised imgs ds pr (X.map (a * ·)) = α - 2 * a * β + a ^ 2 * γ := by
  refine ⟨(∑ i ∈ Lsq.usedImages ds, ∑ y ∈ range (imgs i).h, ∑ x ∈ range (imgs i).w, (imgs i).chi.px y x ^ 2) + (es.map (fun e => e.b ^ 2)).sum,
    (∑ i ∈ Lsq.usedImages ds, ∑ y ∈ range (imgs i).h, ∑ x ∈ range (imgs i).w, (imgs i).chi.px y x * Lsq.change imgs ds X i y x) +
      (es.map (fun e => e.b * (e.val * (X[e.col]?).getD 0))).sum,
    (∑ i ∈ Lsq.usedImages ds, ∑ y ∈ range (imgs i).h, ∑ x ∈ range (imgs i).w, Lsq.change imgs ds X i y x ^ 2) +
      (es.map (fun e => (e.val * (X[e.col]?).getD 0) ^ 2)).sum, ?_, fun a => ?_⟩
  · refine add_nonneg (sum_nonneg (fun i _ => sum_nonneg (fun y _ => sum_nonneg (fun x _ => sq_nonneg _)))) (List.sum_nonneg ?_)
    intro v hv
    obtain ⟨e, -, rfl⟩ := List.mem_map.1 hv
    exact sq_nonneg _
  · have e1 : linearChi pr (X.map (a * ·)) = (es.map (fun e => e.b ^ 2)).sum - 2 * a * (es.map (fun e => e.b * (e.val * (X[e.col]?).getD 0))).sum +
        a ^ 2 * (es.map (fun e => (e.val * (X[e.col]?).getD 0) ^ 2)).sum := by
      rw [linearChi_rep pr es hes.1 hes.2.1]
      unfold entryChi
      have hx : ∀ k : Nat, ((X.map (a * ·))[k]?).getD 0 = a * (X[k]?).getD 0 := by
        intro k
        rw [List.getElem?_map]
        cases X[k]? <;> simp
      simp only [hx]
      clear hes
      induction es with
      | nil => simp
      | cons e es ih => simp only [List.map_cons, List.sum_cons, ih]; ring
    unfold Lsq.linearised
    rw [e1]
    simp only [change_smul]
    have e2 : ∀ i y x, ((imgs i).chi.px y x - a * Lsq.change imgs ds X i y x) ^ 2 =
        (imgs i).chi.px y x ^ 2 + -(2 * a) * ((imgs i).chi.px y x * Lsq.change imgs ds X i y x) + a ^ 2 * Lsq.change imgs ds X i y x ^ 2 := by
      intro i y x; ring
    simp only [e2, sum_add_distrib, ← mul_sum]
    ring

/-- A quadratic that is smallest at 1. -/
theorem quadratic_min (α β γ : R) (hγ : 0 ≤ γ) (h : ∀ a : R, α - 2 * 1 * β + 1 ^ 2 * γ ≤ α - 2 * a * β + a ^ 2 * γ) : β = γ := by
  have hd : γ - β = 0 := by
    rcases hγ.eq_or_lt with h0 | h0
    · have := h (1 - (γ - β))
      rw [← h0] at this ⊢
      have h2 : (0 - β) * (0 - β) ≤ 0 := by nlinarith
      exact mul_self_eq_zero.1 (le_antisymm h2 (mul_self_nonneg _))
    · have := h (1 - (γ - β) / γ)
      have e : α - 2 * (1 - (γ - β) / γ) * β + (1 - (γ - β) / γ) ^ 2 * γ = α - 2 * 1 * β + 1 ^ 2 * γ - (γ - β) ^ 2 / γ := by
        field_simp
        ring
      rw [e] at this
      have h2 : (γ - β) ^ 2 / γ ≤ 0 := by linarith
      have h3 : (γ - β) ^ 2 ≤ 0 := by
        rw [div_le_iff₀ h0] at h2
        linarith
      exact pow_eq_zero_iff (two_ne_zero) |>.1 (le_antisymm h3 (sq_nonneg _))
  linarith

/-- A quadratic that is smallest at 1 decreases up to 1. -/
theorem quadratic_decreases (α β γ : R) (hγ : 0 ≤ γ) (h : ∀ a : R, α - 2 * 1 * β + 1 ^ 2 * γ ≤ α - 2 * a * β + a ^ 2 * γ) (a b : R) (hab : a ≤ b)
    (hb : b ≤ 1) : α - 2 * b * β + b ^ 2 * γ ≤ α - 2 * a * β + a ^ 2 * γ := by
  have hβ : β = γ := quadratic_min α β γ hγ h
  subst hβ
  nlinarith [mul_nonneg hγ (mul_nonneg (sub_nonneg.2 hab) (by linarith : (0 : R) ≤ 2 - a - b))]

/-! ### The direction -/

omit [IsStrictOrderedRing R] in
/-- Without shared values the index map is that of a store with separate cells. -/
theorem indexMap_eq (t : Par R) :
    indexMap t = (Lsq.sharedMap (⟨List.range (numberOfParams t), fun c => (c : R)⟩ : Lsq.Store R)).1 := by
  unfold indexMap Lsq.sharedMap
  dsimp only
  rw [(setParams_get t _ (by simp)).2]
  congr 1
  have hg : (Lsq.Store.getParams (⟨List.range (numberOfParams t), fun c => (c : R)⟩ : Lsq.Store R)) =
      (List.range (numberOfParams t)).map (fun c : Nat => (c : R)) := rfl
  rw [hg, List.length_map, List.length_range]
  unfold Lsq.Store.setParams Lsq.Store.getParams
  dsimp only
  have key : ∀ (l : List Nat) (v : Nat → R), (∀ c, v c = c) →
      (l.zip (l.map (fun i : Nat => (i : R)))).foldl (fun v e => fun c => if c = e.1 then e.2 else v c) v = fun c : Nat => (c : R) := by
    intro l
    induction l with
    | nil => intro v hv; exact funext hv
    | cons a l ih =>
      intro v hv
      rw [List.map_cons, List.zip_cons_cons, List.foldl_cons]
      apply ih
      intro c
      dsimp only
      split
      · rename_i h; rw [h]
      · exact hv c
  rw [key _ _ (fun c => rfl)]

/-- The direction is best for the linearised problem; or nothing has an effect. -/
theorem direction_best (S : Solver R) (hsq : Lsq.SqrtOK S.sqrt) (hS : Lsq.Solves S.lsqr) (imgs : Nat → Lsq.Img R) (ds : Lsq.Derivs R)
    (hI : Lsq.ImagesOK imgs ds) (pr : Option (PriorDerivs R)) (es : List (Entry R)) (hes : Lsq.PriorOK ds.length pr es) (scale shared : Bool)
    (ht : scale = true → Lsq.NoTiny S.sqrt S.tiny imgs ds es) (t : Par R) (hn : ds.length = numberOfParams t)
    (hlast : shared = true → 0 < ds.length → Lsq.columnNorm imgs ds es (ds.length - 1) ≠ 0) :
    (Lsq.getUpdateDirection S.sqrt S.tiny S.lsqr imgs ds pr scale (if shared then some (indexMap t) else none) = .ok none ∧
      ∀ X Y : List R, X.length = ds.length → Y.length = ds.length → Lsq.linearised imgs ds pr X = Lsq.linearised imgs ds pr Y) ∨
    ∃ X, Lsq.getUpdateDirection S.sqrt S.tiny S.lsqr imgs ds pr scale (if shared then some (indexMap t) else none) = .ok (some X) ∧
      Lsq.Minimises ds.length (Lsq.linearised imgs ds pr) X := by
  cases shared with
  | false =>
    rcases Lsq.direction_ok S.sqrt hsq S.tiny S.lsqr hS imgs ds hI pr es hes scale ht none (by simp) (by
      intro _ c c' _ _ h; simp only [Lsq.mergeInto] at h; rw [h]) with ⟨h1, h2, -⟩ | ⟨-, h, -⟩ | ⟨X, h1, -, h2, -, h3⟩
    · exact .inl ⟨h1, h2⟩
    · exact absurd rfl h
    · refine .inr ⟨X, h1, h2, fun Y hY => h3 Y hY ?_⟩
      intro c c' _ _ h
      simp only [Lsq.mergeInto] at h
      rw [h]
  | true =>
    have hinj : ∀ c c', c < ds.length → c' < ds.length →
        (List.range (numberOfParams t))[c]? = (List.range (numberOfParams t))[c']? → c = c' := by
      intro c c' h1 h2 h
      rw [List.getElem?_range (by omega), List.getElem?_range (by omega)] at h
      exact Option.some.inj h
    simp only [if_true]
    rw [indexMap_eq]
    by_cases h0 : 0 < ds.length
    · obtain ⟨X, h1, h2, -, h3⟩ := Lsq.C38_update_partial S.sqrt hsq S.tiny S.lsqr hS imgs ds hI pr es hes scale ht
        ⟨List.range (numberOfParams t), fun c => (c : R)⟩ (by simp [hn]) (fun _ c c' hc hc' h => by rw [hinj c c' hc hc' h])
        ⟨ds.length - 1, by omega, rfl, hlast rfl h0⟩
      refine .inr ⟨X, h1, h2, fun Y hY => h3 Y hY (fun c c' hc hc' h => by rw [hinj c c' hc hc' h])⟩
    · have hnil : ds = [] := List.eq_nil_of_length_eq_zero (by omega)
      subst hnil
      rcases Lsq.direction_ok S.sqrt hsq S.tiny S.lsqr hS imgs [] hI pr es hes scale ht
        (some (Lsq.sharedMap (⟨List.range (numberOfParams t), fun c => (c : R)⟩ : Lsq.Store R)).1)
        (fun m hm => by
          simp only [Option.some.injEq] at hm
          rw [← hm, (Lsq.C38_detects _).1, List.length_range, ← hn]) (by simp) with ⟨h1, h2, -⟩ | ⟨-, -, c, hc, -⟩ | ⟨X, h1, -, h2, -, h3⟩
      · exact .inl ⟨h1, h2⟩
      · simp at hc
      · exact .inr ⟨X, h1, h2, fun Y hY => h3 Y hY (by simp)⟩

/-! ### The line search -/

/-- The line search with an objective that does not decrease up to 1: at the end it is not smaller than at 1. -/
theorem search_climb (lp : Par R → Num R) (t : Par R) (X A B : List R) (hX : X.length = numberOfParams t) (h : R → R) (h0 : lp t = .fin (h 0))
    (hm : ∀ a, lp (Opt.moved t X a) = .fin (h a)) (hinc : ∀ a b, a ≤ b → b ≤ 1 → h a ≤ h b)
    (hA : ∀ a ∈ A, 0 ≤ a) (hs : (A ++ [1]).Pairwise (· ≤ ·)) :
    ∃ t' d a c, Opt.tryUpdates lp t X (A ++ 1 :: B) = (t', .ok (d, a)) ∧ lp t' = .fin (h c) ∧ h 1 ≤ h c ∧ (t' = t ∨ t' = Opt.moved t X a ∧ a ∈ A ++ 1 :: B) ∧
      d = .fin (h c - h 0) ∧ (h c ≤ h 0 → t' = t) := by
  obtain ⟨t', d, a, pre, post, e1, e2, e3, e4, e5⟩ := Opt.C33_tryUpdates lp t X (A ++ 1 :: B) hX
  obtain ⟨c, hv, hle1⟩ : ∃ c, lp t' = .fin (h c) ∧ h 1 ≤ h c := by
    obtain ⟨c, hc, hct⟩ : ∃ c, lp t' = .fin (h c) ∧ (c = 0 ∨ c ∈ pre) := by
      rcases e3 with ⟨rfl, -, -⟩ | ⟨ha, rfl, -⟩
      · exact ⟨0, h0, .inl rfl⟩
      · exact ⟨a, hm a, .inr ha⟩
    have h1 : (1 : R) ∈ pre := by
      rcases e5 with rfl | ⟨b, post', rfl, hb⟩
      · rw [List.append_nil] at e2
        rw [← e2]; simp
      · by_contra h1
        -- `pre ++ [b]` is a prefix of `A ++ [1]`
        have hpre : ∃ r, A ++ [1] = pre ++ b :: r := by
          have hl : pre.length ≤ A.length := by
            by_contra hlt
            apply h1
            have hg : (pre ++ b :: post')[A.length]? = some 1 := by rw [← e2, List.getElem?_append_right (Nat.le_refl _)]; simp
            rw [List.getElem?_append_left (by omega)] at hg
            exact List.mem_of_getElem? hg
          have hsub : (A ++ [1]) = (A ++ 1 :: B).take (A.length + 1) := by
            rw [List.take_append]; simp
          rw [hsub, e2, List.take_append]
          rw [List.take_of_length_le (by omega)]
          obtain ⟨m, hm⟩ : ∃ m, A.length + 1 - pre.length = m + 1 := ⟨A.length - pre.length, by omega⟩
          rw [hm, List.take_succ_cons]
          exact ⟨_, rfl⟩
        obtain ⟨r, hr⟩ := hpre
        have hb1 : b ≤ 1 := by
          rcases List.eq_nil_or_concat r with rfl | ⟨r', z, rfl⟩
          · have := congrArg List.getLast? hr
            simp at this
            exact le_of_eq this.symm
          · have hz := congrArg List.getLast? hr
            rw [List.getLast?_append, List.getLast?_append, List.concat_eq_append, ← List.cons_append, List.getLast?_append] at hz
            simp only [List.getLast?_singleton, Option.some_or, Option.some.injEq] at hz
            rw [hr] at hs
            have := (List.pairwise_append.1 hs).2.1
            rw [List.pairwise_cons] at this
            have := this.1 z (by simp)
            rw [hz]; exact this
        have hcb : c ≤ b := by
          rcases hct with rfl | hct
          · have hbm : b ∈ A ++ [1] := by rw [hr]; simp
            rcases List.mem_append.1 hbm with hbm | hbm
            · exact hA b hbm
            · simp only [List.mem_singleton] at hbm
              rw [hbm]; exact zero_le_one
          · rw [hr] at hs
            exact (List.pairwise_append.1 hs).2.2 c hct b (by simp)
        have hle := hinc c b hcb hb1
        rcases hb with hb | hb
        · rw [hm b] at hb; cases hb
        · rw [hm b, hc] at hb
          simp only [Num.sub, Num.add, Num.neg, Num.lt, decide_eq_true_eq] at hb
          linarith
    have h2 := (e4 1 h1).2
    rw [hc, hm 1] at h2
    simp only [Num.lt, decide_eq_false_iff_not, not_lt] at h2
    exact ⟨c, hc, h2⟩
  refine ⟨t', d, a, c, e1, hv, hle1, ?_, ?_, ?_⟩
  · rcases e3 with ⟨rfl, -, -⟩ | ⟨ha, ht, -⟩
    · exact .inl rfl
    · exact .inr ⟨ht, by rw [e2]; exact List.mem_append_left _ ha⟩
  · rcases e3 with ⟨rfl, rfl, -⟩ | ⟨-, -, -, -, rfl⟩
    · rw [h0] at hv
      injection hv with hv
      rw [hv, sub_self]
    · rw [hv, h0]
      simp only [Num.sub, Num.add, Num.neg, sub_eq_add_neg]
  · intro hle
    rcases e3 with ⟨rfl, -, -⟩ | ⟨-, -, hlt, -⟩
    · rfl
    · rw [hv, h0] at hlt
      simp only [Num.lt, decide_eq_true_eq] at hlt
      exact absurd hle (not_le.2 hlt)

/-- The line search with an objective that does not decrease up to 1 and is nowhere larger than there. -/
theorem search_ok (lp : Par R → Num R) (t : Par R) (X A B : List R) (hX : X.length = numberOfParams t) (h : R → R) (h0 : lp t = .fin (h 0))
    (hm : ∀ a, lp (Opt.moved t X a) = .fin (h a)) (hinc : ∀ a b, a ≤ b → b ≤ 1 → h a ≤ h b) (hmax : ∀ a, h a ≤ h 1)
    (hA : ∀ a ∈ A, 0 ≤ a) (hs : (A ++ [1]).Pairwise (· ≤ ·)) :
    ∃ t' d a, Opt.tryUpdates lp t X (A ++ 1 :: B) = (t', .ok (d, a)) ∧ lp t' = .fin (h 1) ∧ (t' = t ∨ t' = Opt.moved t X a) ∧
      d = .fin (h 1 - h 0) ∧ (h 1 ≤ h 0 → t' = t) := by
  obtain ⟨t', d, a, c, e1, e2, e3, e4, e5, e6⟩ := search_climb lp t X A B hX h h0 hm hinc hA hs
  have hc : h c = h 1 := le_antisymm (hmax c) e3
  rw [hc] at e2 e5 e6
  exact ⟨t', d, a, e1, e2, e4.imp id And.left, e5, e6⟩

/-! ### One round -/

omit [Field R] [LinearOrder R] [IsStrictOrderedRing R] in
theorem setAll_setAll (T : Tractor R M) (p q : List R) (hq : q.length = numberOfParams T.par) : setAll (setAll T p) q = setAll T q := by
  obtain ⟨s1, e1⟩ := setAll_ok T p
  obtain ⟨s2, e2⟩ := setAll_ok (setAll T p) q
  have h := withPar_par (s1.trans s2)
  rw [e2, e1, Opt.setParams_set T.par p q hq] at h
  exact h.symm

theorem optimize_best (S : Solver R) (hsq : Lsq.SqrtOK S.sqrt) (hS : Lsq.Solves S.lsqr) (W : World R M)
    (hooks : Tractor R M → Nat → Nat → Option (List (Deriv R))) (o : Opts) (T : Tractor R M) (base : Nat → Nat → Nat → R)
    (D : Nat → Nat → Nat → Nat → R) (hr : Ready W hooks T) (hl : Linear W hooks T base D) (ho : Options S o T D) (A B : List R)
    (hA : ∀ a ∈ A, 0 ≤ a) (hs : (A ++ [1]).Pairwise (· ≤ ·)) :
    ∃ T' r p, optimize S W hooks o (A ++ 1 :: B) T = (T', .ok r) ∧ p.length = numberOfParams T.par ∧ T' = setAll T p ∧ Best W T' ∧
      (∃ L0 L1, logProb W T = .ok (.fin L0) ∧ logProb W T' = .ok (.fin L1) ∧ r.1 = .fin (L1 - L0)) ∧ (Best W T → T' = T) := by
  obtain ⟨out, l, ds, pr, es, C, h1, h2, h3, h4, h5, h6, h7, h8, h9⟩ := problem_ok hl hr o ho.prior
  have hp0 : (getParams T.par).length = numberOfParams T.par := getParams_length _
  have hdiff : ∀ q : List R, q.length = numberOfParams T.par → ∃ X : List R, X.length = ds.length ∧ List.zipWith (· + ·) (getParams T.par) X = q := by
    intro q hq
    refine ⟨List.zipWith (fun a b => a - b) q (getParams T.par), by rw [List.length_zipWith, hq, hp0, Nat.min_self, h3], ?_⟩
    apply List.ext_getElem
    · simp [hq, hp0]
    · intro i i1 i2
      simp
  -- what it means to be best
  have best : ∀ (X : List R), Lsq.Minimises ds.length (Lsq.linearised (lsqImgs l) ds pr) X → ∀ (T' : Tractor R M) (p : List R),
      T' = setAll T p → logProb W T' = .ok (.fin (C - (1 / 2) * Lsq.linearised (lsqImgs l) ds pr X)) → Best W T' := by
    rintro X ⟨hX, hmin⟩ T' p rfl hL
    refine ⟨_, hL, fun q hq => ?_⟩
    rw [setAll_length] at hq
    obtain ⟨Y, y1, y2⟩ := hdiff q hq
    refine ⟨_, by rw [setAll_setAll T p q hq, ← y2, h8 Y y1], ?_⟩
    have := hmin Y y1
    linarith
  have hzero : ∀ X : List R, X.length = ds.length → List.zipWith (· + ·) (getParams T.par) (X.map ((0 : R) * ·)) = getParams T.par := by
    intro X hX
    apply List.ext_getElem
    · simp [hX, hp0, h3]
    · intro i i1 i2
      simp
  have hT0 : ∀ X : List R, X.length = ds.length →
      logProb W T = .ok (.fin (C - (1 / 2) * Lsq.linearised (lsqImgs l) ds pr (X.map ((0 : R) * ·)))) := by
    intro X hX
    rw [← h8 _ (by rw [List.length_map, hX]), hzero X hX, setAll_self]
  have hnt : o.scale = true → Lsq.NoTiny S.sqrt S.tiny (lsqImgs l) ds es := by
    intro hsc k v hv
    obtain ⟨k1, k2, k3⟩ := h7 k v hv
    rw [h6 k k1]
    exact ho.scale hsc k v k2 k3
  have hlast : o.shared = true → 0 < ds.length → Lsq.columnNorm (lsqImgs l) ds es (ds.length - 1) ≠ 0 := by
    intro hsh hpos
    rw [h6 _ (by omega), h3]
    exact ho.shared hsh (by omega)
  have hdir : ∀ r, Lsq.getUpdateDirection S.sqrt S.tiny S.lsqr (lsqImgs l) ds pr o.scale (if o.shared then some (indexMap T.par) else none) = r →
      direction S W hooks o T = (T, r) := by
    intro r hrr
    unfold direction
    rw [h1]
    simp only [h2, hrr]
  rcases direction_best S hsq hS (lsqImgs l) ds h5 pr es h4 o.scale o.shared hnt T.par h3 hlast with ⟨e1, e2⟩ | ⟨X, e1, e2⟩
  · -- nothing has an effect
    refine ⟨T, (.fin 0, 0), getParams T.par, by unfold optimize; rw [hdir _ e1], hp0, (setAll_self T).symm, ?_,
      ⟨_, _, hT0 _ (by rw [hp0, h3]), hT0 (getParams T.par) (by rw [hp0, h3]), by rw [sub_self]⟩, fun _ => rfl⟩
    exact best (getParams T.par |>.map ((0 : R) * ·)) ⟨by rw [List.length_map, hp0, h3], fun Y hY => le_of_eq (e2 _ _ (by
      rw [List.length_map, hp0, h3]) hY)⟩ T (getParams T.par) (setAll_self T).symm (hT0 _ (by rw [hp0, h3]))
  · cases X with
    | nil =>
      refine ⟨T, (.fin 0, 0), getParams T.par, by unfold optimize; rw [hdir _ e1], hp0, (setAll_self T).symm, ?_,
        ⟨_, _, hT0 [] e2.1, hT0 [] e2.1, by rw [sub_self]⟩, fun _ => rfl⟩
      have hd0 : (0 : Nat) = ds.length := e2.1
      exact best [] e2 T (getParams T.par) (setAll_self T).symm (hT0 [] hd0)
    | cons x0 X0 =>
      generalize hXX : x0 :: X0 = X at e1 e2
      obtain ⟨α, β, γ, hγ, hq⟩ := quadratic (lsqImgs l) ds pr es ds.length h4 X
      have hone : X.map ((1 : R) * ·) = X := by simp
      have hX := e2.1
      have hq1 : ∀ a : R, α - 2 * 1 * β + 1 ^ 2 * γ ≤ α - 2 * a * β + a ^ 2 * γ := by
        intro a
        rw [← hq 1, ← hq a, hone]
        exact e2.2 _ (by rw [List.length_map, hX])
      have hmoved : ∀ a : R, withPar T (Opt.moved T.par X a) = setAll T (List.zipWith (· + ·) (getParams T.par) (X.map (a * ·))) := by
        intro a
        unfold setAll Opt.moved
        rw [List.zipWith_map_right]
      have hlm : ∀ a : R, lnp W T (Opt.moved T.par X a) = .fin (C - (1 / 2) * (α - 2 * a * β + a ^ 2 * γ)) := by
        intro a
        unfold lnp
        rw [hmoved, h8 _ (by rw [List.length_map, hX]), hq]
      have hl0 : lnp W T T.par = .fin (C - (1 / 2) * (α - 2 * 0 * β + 0 ^ 2 * γ)) := by
        unfold lnp
        rw [withPar_self, hT0 X hX, hq]
      obtain ⟨t', d, a, f1, f2, f3, f4, f5⟩ := search_ok (lnp W T) T.par X A B (by rw [hX, h3]) (fun a => C - (1 / 2) * (α - 2 * a * β + a ^ 2 * γ)) hl0 hlm
        (fun a b hab hb => by
          have := quadratic_decreases α β γ hγ hq1 a b hab hb
          linarith)
        (fun a => by
          have := hq1 a
          linarith) hA hs
      obtain ⟨p, hpl, hp⟩ : ∃ p : List R, p.length = numberOfParams T.par ∧ withPar T t' = setAll T p := by
        rcases f3 with rfl | rfl
        · exact ⟨getParams T.par, hp0, by rw [withPar_self, setAll_self]⟩
        · exact ⟨_, by rw [List.length_zipWith, hp0, List.length_map, hX, h3, Nat.min_self], hmoved a⟩
      have hf2 : logProb W (withPar T t') = .ok (.fin (C - (1 / 2) * Lsq.linearised (lsqImgs l) ds pr X)) := by
        rw [← hq 1, hone] at f2
        unfold lnp at f2
        cases hL : logProb W (withPar T t') with
        | error e => rw [hL] at f2; cases f2
        | ok v => rw [hL] at f2; dsimp only at f2; rw [f2]
      refine ⟨withPar T t', (d, a), p, ?_, hpl, hp, best X e2 _ p hp hf2, ⟨_, _, hT0 X hX, hf2, ?_⟩, ?_⟩
      · unfold optimize
        rw [hdir _ e1, ← hXX]
        dsimp only
        rw [hXX, f1]
      · dsimp only
        rw [f4, hq 0, ← hone, hq 1]
      · rintro ⟨L, hL, hb⟩
        rw [hT0 X hX, hq 0] at hL
        injection hL with hL
        injection hL with hL
        obtain ⟨L', b1, b2⟩ := hb _ (by rw [List.length_zipWith, hp0, List.length_map, hX, h3, Nat.min_self] :
          (List.zipWith (· + ·) (getParams T.par) (X.map ((1 : R) * ·))).length = numberOfParams T.par)
        rw [h8 _ (by rw [List.length_map, hX]), hq 1] at b1
        injection b1 with b1
        injection b1 with b1
        rw [f5 (by rw [b1, hL]; exact b2), withPar_self]

omit [IsStrictOrderedRing R] in
/-- The log-likelihood from the pixels of the model images. -/
theorem likelihood_pixel (W : World R M) (T : Tractor R M) (hm : ∀ x ∈ T.images, MasksOK T x.2)
    (hs : ∀ x ∈ T.images, x.2.inverr.h = x.2.data.h ∧ x.2.inverr.w = x.2.data.w ∧ x.2.data.w * x.2.data.h < 2 ^ 31) (p : List R) :
    getLogLikelihood W (setAll T p) = .ok (-(1 / 2) * ∑ i ∈ range T.images.length, residual T (pixel W (setAll T p)) i) := by
  have hsh := (setAll_ok T p).1
  obtain ⟨mods, h1, h2⟩ := C30_loglikelihood W (setAll T p) (hsh.masks hm) (by
    intro x hx
    obtain ⟨i, hi⟩ := List.getElem?_of_mem hx
    have hlt : i < T.images.length := by rw [hsh.images.length_eq]; exact (List.getElem?_eq_some_iff.1 hi).1
    obtain ⟨x', a1, a2⟩ := hsh.image i _ (List.getElem?_eq_getElem hlt)
    rw [hi] at a1
    injection a1 with a1
    subst a1
    obtain ⟨b1, b2, -⟩ := hs _ (List.getElem_mem hlt)
    rw [a2.2.2.1, a2.2.2.2]
    exact ⟨b1, b2⟩)
  rw [h2, sum_getElem]
  have hlen : ((setAll T p).images.zip mods).length = T.images.length := by rw [List.length_zip, ← h1.length_eq, Nat.min_self, hsh.images.length_eq]
  rw [hlen]
  congr 2
  refine sum_congr rfl (fun i hi => ?_)
  have hi := mem_range.1 hi
  have hT : T.images[i]? = some T.images[i] := List.getElem?_eq_getElem hi
  obtain ⟨x', a1, a2⟩ := hsh.image i _ hT
  have hi' := (List.getElem?_eq_some_iff.1 a1).1
  have him : i < mods.length := by rw [← h1.length_eq]; exact hi'
  have hmod := h1.get hi' him
  simp only [List.get_eq_getElem, (List.getElem?_eq_some_iff.1 a1).2] at hmod
  have hz : ((setAll T p).images.zip mods)[i]? = some (x', mods[i]) := by
    rw [List.getElem?_eq_getElem (by rw [hlen]; exact hi), List.getElem_zip, (List.getElem?_eq_some_iff.1 a1).2]
  rw [hz, Option.map_some, Option.getD_some, residual, hT]
  dsimp only
  rw [a2.2.2.1, a2.2.2.2]
  refine sum_congr rfl (fun y hy => sum_congr rfl (fun x hx => ?_))
  have : pixel W (setAll T p) i y x = mods[i].px y x := by
    unfold pixel
    rw [a1]
    dsimp only
    rw [hmod]
  rw [this]

end Verif.Fit
