import Verif.Cons.Lemmas
import Verif.Lsq.PropsSmarter

/-!
# Lemmas: one round of an optimization with limits
-/

namespace Verif.Cons

open Verif Params Patches Engine Fit Opt

variable {R M : Type} [Field R] [LinearOrder R] [IsStrictOrderedRing R]

/-- What is found: nothing (then the tractor is at the maximum), or a direction to the maximum along which the log-probability is `h`. -/
def Found (W : World R M) (T : Tractor R M) (r : Option (List R)) : Prop :=
  ((r = none ∨ r = some []) ∧ Best W T) ∨
  ∃ X, r = some X ∧ X ≠ [] ∧ X.length = numberOfParams T.par ∧ Best W (setAll T (List.zipWith (· + ·) (getParams T.par) X)) ∧
    ∃ h : R → R, lnp W T T.par = .fin (h 0) ∧ (∀ a, lnp W T (moved T.par X a) = .fin (h a)) ∧ (∀ a b, a ≤ b → b ≤ 1 → h a ≤ h b) ∧
      ∀ a, h a ≤ h 1

omit [IsStrictOrderedRing R] in
theorem logProb_of_lnp {W : World R M} {T : Tractor R M} {t : Par R} {v : R} (h : lnp W T t = .fin v) : logProb W (withPar T t) = .ok (.fin v) := by
  unfold lnp at h
  cases hL : logProb W (withPar T t) with
  | error e => rw [hL] at h; cases h
  | ok v => rw [hL] at h; dsimp only at h; rw [h]

omit [LinearOrder R] [IsStrictOrderedRing R] in
theorem withPar_moved (T : Tractor R M) (X : List R) (a : R) :
    withPar T (moved T.par X a) = setAll T (List.zipWith (· + ·) (getParams T.par) (X.map (a * ·))) := by
  unfold setAll moved
  rw [List.zipWith_map_right]

omit [IsStrictOrderedRing R] in
theorem prior_rows (W : World R M) (o : Opts) (T : Tractor R M) (out : List (List (DerivEntry R))) (l : List (Lsq.Img R)) (ds : Lsq.Derivs R)
    (pr : Option (PriorDerivs R)) (h : inputs W o T out = .ok (l, ds, pr)) : ∀ d, pr = some d → d.rows ≠ [] := by
  rintro d rfl
  have hst : ∀ xs : List (Nat × Option (PriorDerivs R)), stack xs = some d → d.rows ≠ [] := by
    intro xs hx
    unfold stack at hx
    dsimp only at hx
    split at hx
    · cases hx
    · injection hx with hx
      subst hx
      assumption
  have hpar : ∃ subs, T.par = .multi subs := ⟨_, rfl⟩
  obtain ⟨subs, hs⟩ := hpar
  unfold inputs at h
  rw [hs] at h
  cases h1 : derivsOf out with
  | error e => rw [h1] at h; cases h
  | ok ds' =>
    rw [h1] at h
    dsimp only at h
    cases hp : o.priors with
    | false =>
      rw [hp] at h
      simp only [Bool.false_eq_true, if_false] at h
      cases h2 : lsqList W T T.images with
      | error e => rw [h2] at h; cases h
      | ok l' =>
        rw [h2] at h
        simp [Except.map] at h
    | true =>
      rw [hp] at h
      simp only [if_true, getLogPriorDerivatives] at h
      cases h3 : subDerivs subs with
      | error e => rw [h3] at h; simp [Except.map] at h
      | ok xs =>
        rw [h3] at h
        simp only [Except.map] at h
        cases h2 : lsqList W T T.images with
        | error e => rw [h2] at h; cases h
        | ok l' =>
          rw [h2] at h
          simp only [Except.ok.injEq, Prod.mk.injEq] at h
          exact hst xs h.2.2

theorem found (m : Method R) (W : World R M) (hooks : Tractor R M → Nat → Nat → Option (List (Deriv R))) (o : Opts) (T : Tractor R M)
    (base : Nat → Nat → Nat → R) (D : Nat → Nat → Nat → Nat → R) (hr : Ready W hooks T) (hl : Linear W hooks T base D) (hm : MethodOK m W hooks o T D) :
    ∃ r, directionM m W hooks o T = (T, .ok r) ∧ Found W T r := by
  have hprior : o.priors = true ∨ ∀ x ∈ thawedPriors T.par, x.2 = [] := by
    cases m with
    | sparse S => exact hm.2.2.prior
    | dense sqrt lstsq => exact hm.2.2.2.2
    | smarter sqrt lstsq => exact hm.2.2.2.2.1
  obtain ⟨out, l, ds, pr, es, C, h1, h2, h3, h4, h5, h6, h7, h8, h9⟩ := problem_ok hl hr o hprior
  have hp0 : (getParams T.par).length = numberOfParams T.par := getParams_length _
  have hdiff : ∀ q : List R, q.length = numberOfParams T.par → ∃ X : List R, X.length = ds.length ∧ List.zipWith (· + ·) (getParams T.par) X = q := by
    intro q hq
    refine ⟨List.zipWith (fun a b => a - b) q (getParams T.par), by rw [List.length_zipWith, hq, hp0, Nat.min_self, h3], ?_⟩
    apply List.ext_getElem
    · simp [hq, hp0]
    · intro i i1 i2
      simp
  have best : ∀ (X : List R), Lsq.Minimises ds.length (Lsq.linearised (lsqImgs l) ds pr) X → ∀ (T' : Tractor R M) (p : List R),
      T' = setAll T p → logProb W T' = .ok (.fin (C - (1 / 2) * Lsq.linearised (lsqImgs l) ds pr X)) → Best W T' := by
    rintro X ⟨hX, hmin⟩ T' p rfl hL
    refine ⟨_, hL, fun q hq => ?_⟩
    rw [setAll_length] at hq
    obtain ⟨Y, y1, y2⟩ := hdiff q hq
    refine ⟨_, by rw [setAll_setAll T p q hq, ← y2, h8 Y y1], ?_⟩
    have := hmin Y y1
    linarith
  have hT0 : ∀ X : List R, X.length = ds.length →
      logProb W T = .ok (.fin (C - (1 / 2) * Lsq.linearised (lsqImgs l) ds pr (X.map ((0 : R) * ·)))) := by
    intro X hX
    have hz : List.zipWith (· + ·) (getParams T.par) (X.map ((0 : R) * ·)) = getParams T.par := by
      apply List.ext_getElem
      · simp [hX, hp0, h3]
      · intro i i1 i2
        simp
    rw [← h8 _ (by rw [List.length_map, hX]), hz, setAll_self]
  -- the direction is best for the linearised problem
  obtain ⟨r, hdir, hcase⟩ : ∃ r, directionM m W hooks o T = (T, .ok r) ∧
      ((r = none ∧ ∀ X Y : List R, X.length = ds.length → Y.length = ds.length →
        Lsq.linearised (lsqImgs l) ds pr X = Lsq.linearised (lsqImgs l) ds pr Y) ∨
      ∃ X, r = some X ∧ Lsq.Minimises ds.length (Lsq.linearised (lsqImgs l) ds pr) X) := by
    cases m with
    | sparse S =>
      obtain ⟨m1, m2, m3⟩ := hm
      have hnt : o.scale = true → Lsq.NoTiny S.sqrt S.tiny (lsqImgs l) ds es := by
        intro hsc k v hv
        obtain ⟨k1, k2, k3⟩ := h7 k v hv
        rw [h6 k k1]
        exact m3.scale hsc k v k2 k3
      have hlast : o.shared = true → 0 < ds.length → Lsq.columnNorm (lsqImgs l) ds es (ds.length - 1) ≠ 0 := by
        intro hsh hpos
        rw [h6 _ (by omega), h3]
        exact m3.shared hsh (by omega)
      have hdir : ∀ r, Lsq.getUpdateDirection S.sqrt S.tiny S.lsqr (lsqImgs l) ds pr o.scale (if o.shared then some (indexMap T.par) else none) = r →
          directionM (.sparse S) W hooks o T = (T, r) := by
        intro r hrr
        unfold directionM direction
        dsimp only
        rw [h1]
        simp only [h2, hrr]
      rcases direction_best S m1 m2 (lsqImgs l) ds h5 pr es h4 o.scale o.shared hnt T.par h3 hlast with ⟨e1, e2⟩ | ⟨X, e1, e2⟩
      · exact ⟨none, hdir _ e1, .inl ⟨rfl, e2⟩⟩
      · exact ⟨some X, hdir _ e1, .inr ⟨X, rfl, e2⟩⟩
    | dense sqrt lstsq =>
      obtain ⟨m1, m2, m3, m4, -⟩ := hm
      have hdir : ∀ r, Lsq.denseUpdateDirection sqrt lstsq (lsqImgs l) ds pr o.scale = r →
          directionM (.dense sqrt lstsq) W hooks o T = (T, r) := by
        intro r hrr
        unfold directionM denseDirection
        dsimp only
        rw [h1]
        simp only [h2, hrr, m4, Bool.false_eq_true, if_false]
      rcases Lsq.C40_dense_minimises_partial sqrt m1 m2 lstsq m3 (lsqImgs l) ds h5 h9 pr es h4 o.scale with ⟨e1, e2⟩ | ⟨X, e1, e2⟩
      · exact ⟨none, hdir _ e1, .inl ⟨rfl, fun X Y hX hY => by rw [e2 X hX, e2 Y hY]⟩⟩
      · exact ⟨some X, hdir _ e1, .inr ⟨X, rfl, e2⟩⟩
    | smarter sqrt lstsq =>
      obtain ⟨m1, m2, m3, m4, -, m6⟩ := hm
      obtain ⟨box, hbox⟩ := m6 out l ds pr h1 h2
      have hdir : ∀ r, Lsq.smartUpdateDirection sqrt lstsq (lsqImgs l) ds pr o.scale = r →
          directionM (.smarter sqrt lstsq) W hooks o T = (T, r) := by
        intro r hrr
        unfold directionM smarterDirection
        dsimp only
        rw [h1]
        simp only [h2, hrr, m4, Bool.false_eq_true, if_false]
      rcases Lsq.C91_minimises_partial sqrt m1 m2 lstsq m3 (lsqImgs l) ds box hbox h5 h9 pr es h4 (prior_rows W o T out l ds pr h2) o.scale with
        ⟨e1, e2⟩ | ⟨X, e1, e2, -⟩
      · exact ⟨none, hdir _ e1, .inl ⟨rfl, fun X Y hX hY => by rw [e2 X hX, e2 Y hY]⟩⟩
      · exact ⟨some X, hdir _ e1, .inr ⟨X, rfl, e2⟩⟩
  refine ⟨r, hdir, ?_⟩
  rcases hcase with ⟨rfl, e2⟩ | ⟨X, rfl, e2⟩
  · refine .inl ⟨.inl rfl, ?_⟩
    exact best (getParams T.par |>.map ((0 : R) * ·)) ⟨by rw [List.length_map, hp0, h3], fun Y hY => le_of_eq (e2 _ _ (by
      rw [List.length_map, hp0, h3]) hY)⟩ T (getParams T.par) (setAll_self T).symm (hT0 _ (by rw [hp0, h3]))
  · have hX := e2.1
    by_cases hnil : X = []
    · subst hnil
      exact .inl ⟨.inr rfl, best [] e2 T (getParams T.par) (setAll_self T).symm (hT0 [] hX)⟩
    · obtain ⟨α, β, γ, hγ, hq⟩ := quadratic (lsqImgs l) ds pr es ds.length h4 X
      have hone : X.map ((1 : R) * ·) = X := by simp
      have hq1 : ∀ a : R, α - 2 * 1 * β + 1 ^ 2 * γ ≤ α - 2 * a * β + a ^ 2 * γ := by
        intro a
        rw [← hq 1, ← hq a, hone]
        exact e2.2 _ (by rw [List.length_map, hX])
      refine .inr ⟨X, rfl, hnil, by rw [hX, h3], best X e2 _ _ rfl (h8 X hX), fun a => C - (1 / 2) * (α - 2 * a * β + a ^ 2 * γ), ?_, ?_, ?_, ?_⟩
      · unfold lnp
        rw [withPar_self, hT0 X hX, hq]
      · intro a
        unfold lnp
        rw [withPar_moved, h8 _ (by rw [List.length_map, hX]), hq]
      · intro a b hab hb
        have := quadratic_decreases α β γ hγ hq1 a b hab hb
        linarith
      · intro a
        have := hq1 a
        linarith

omit [IsStrictOrderedRing R] in
theorem par_setAll (T : Tractor R M) (p : List R) : (setAll T p).par = (setParams T.par p).1 := (setAll_ok T p).2

theorem allowed_self {T : Tractor R M} (hL : Legal T.par) : Allowed T (getParams T.par) := by
  refine ⟨fun i x l u h1 h2 h3 => hL.start i x l u h1 h2 h3, fun i x p m h1 h2 h3 => ?_⟩
  rw [h1] at h2
  injection h2 with h2
  rw [h2, sub_self, abs_zero]
  exact hL.nonneg _ (List.mem_of_getElem? h3) m rfl

omit [IsStrictOrderedRing R] in
theorem allowed_step (T : Tractor R M) (X : List R) (hX : X.length = numberOfParams T.par) (b : R) :
    Allowed T (List.zipWith (· + ·) (getParams T.par) (X.map (b * ·))) ↔
      Feasible (getParams T.par) (getMaxStep T.par) (getLowerBounds T.par) (getUpperBounds T.par) X b := by
  have hp0 : (getParams T.par).length = numberOfParams T.par := getParams_length _
  constructor
  · intro hal
    refine ⟨fun i mx dx i1 i2 => ?_, fun i pp lo up dx i1 i2 i3 i4 => ?_⟩
    · have hi : i < (getParams T.par).length := by rw [hp0, ← hX]; exact (List.getElem?_eq_some_iff.1 i2).1
      have := hal.2 i ((getParams T.par)[i] + b * dx) _ mx (by simp [List.getElem?_zipWith, i2, List.getElem?_eq_getElem hi])
        (List.getElem?_eq_getElem hi) i1
      rwa [add_sub_cancel_left] at this
    · exact hal.1 i (pp + b * dx) lo up (by simp [List.getElem?_zipWith, i1, i4]) i2 i3
  · intro hf
    have get : ∀ (i : Nat) x, (List.zipWith (· + ·) (getParams T.par) (X.map (b * ·)))[i]? = some x →
        ∃ p d, (getParams T.par)[i]? = some p ∧ X[i]? = some d ∧ x = p + b * d := by
      intro i x hx
      rw [List.getElem?_zipWith, List.getElem?_map] at hx
      cases h1 : (getParams T.par)[i]? with
      | none => rw [h1] at hx; simp at hx
      | some p =>
        cases h2 : X[i]? with
        | none => rw [h1, h2] at hx; simp at hx
        | some d => rw [h1, h2] at hx; simp at hx; exact ⟨p, d, rfl, rfl, hx.symm⟩
    refine ⟨fun i x l u h1 h2 h3 => ?_, fun i x p mx h1 h2 h3 => ?_⟩
    · obtain ⟨p, d, q1, q2, rfl⟩ := get i x h1
      exact hf.2 i p l u d q1 h2 h3 q2
    · obtain ⟨p', d, q1, q2, rfl⟩ := get i x h1
      rw [q1] at h2
      injection h2 with h2
      rw [← h2, add_sub_cancel_left]
      exact hf.1 i mx d h3 q2

/-- One round. -/
theorem optimize_ok (m : Method R) (tiny : R) (htiny : 0 < tiny) (ht1 : tiny ≤ 1) (W : World R M)
    (hooks : Tractor R M → Nat → Nat → Option (List (Deriv R))) (o : Opts) (T : Tractor R M) (hL : Legal T.par)
    (hfound : ∃ r, directionM m W hooks o T = (T, .ok r) ∧ Found W T r) (A B : List R) (hA : ∀ a ∈ A, tiny ≤ a)
    (hs : (A ++ 1 :: B).Pairwise (· < ·)) (fl : OptFlags) :
    ∃ T' fl' r p, optimize m tiny W hooks o (A ++ 1 :: B) fl T = (T', fl', .ok r) ∧ p.length = numberOfParams T.par ∧ T' = setAll T p ∧
      Legal T'.par ∧ Allowed T p ∧
      ∃ q L0 L1, q.length = numberOfParams T.par ∧ Best W (setAll T q) ∧ logProb W T = .ok (.fin L0) ∧ logProb W T' = .ok (.fin L1) ∧
        r.1 = .fin (L1 - L0) ∧ L0 ≤ L1 ∧ (Best W T → T' = T) ∧
        ∀ b, tiny ≤ b → b ≤ 1 → Allowed T (between T q b) → ∃ L', logProb W (setAll T (between T q b)) = .ok (.fin L') ∧ L' ≤ L1 := by
  obtain ⟨r, hdir, hf⟩ := hfound
  have hp0 : (getParams T.par).length = numberOfParams T.par := getParams_length _
  have stay : (r = none ∨ r = some []) → Best W T → optimize m tiny W hooks o (A ++ 1 :: B) fl T = (T, fl, .ok (.fin 0, 0)) := by
    intro h _
    unfold optimize
    rw [hdir]
    rcases h with rfl | rfl <;> rfl
  rcases hf with ⟨h1, h2⟩ | ⟨X, rfl, hne, hX, hbest, h, g0, g1, g2, g3⟩
  · obtain ⟨L, hL', hb⟩ := h2
    refine ⟨T, fl, (.fin 0, 0), getParams T.par, stay h1 ⟨L, hL', hb⟩, hp0, (setAll_self T).symm, hL, allowed_self hL, getParams T.par, L, L, hp0,
      by rw [setAll_self]; exact ⟨L, hL', hb⟩, hL', hL', by rw [sub_self], le_refl _, fun _ => rfl, fun b _ _ _ => ?_⟩
    exact hb _ (by simp [between, hp0])
  · obtain ⟨t', fl', d, a, e1, e2, e3, c, e4, e5, e6, e7, e8⟩ := searchC_ok tiny htiny (lnp W T) fl T.par hL X A B hX h g0 g1 g2 g3 hA ht1 hs
    obtain ⟨p, hpl, hp, hpp, hpa⟩ : ∃ p : List R, p.length = numberOfParams T.par ∧ withPar T t' = setAll T p ∧ t' = (setParams T.par p).1 ∧
        Allowed T p := by
      rcases e3 with rfl | ⟨rfl, hfe⟩
      · refine ⟨getParams T.par, hp0, by rw [withPar_self, setAll_self], ?_, allowed_self hL⟩
        rw [← par_setAll, setAll_self]
      · refine ⟨_, ?_, withPar_moved T X a, ?_, (allowed_step T X hX a).2 hfe⟩
        · rw [List.length_zipWith, hp0, List.length_map, hX, Nat.min_self]
        · unfold moved; rw [List.zipWith_map_right]
    have hseg : ∀ b : R, between T (List.zipWith (· + ·) (getParams T.par) X) b = List.zipWith (· + ·) (getParams T.par) (X.map (b * ·)) := by
      intro b
      apply List.ext_getElem
      · simp [between]
      · intro i i1 i2
        simp [between]
    refine ⟨withPar T t', fl', (d, a), p, ?_, hpl, hp, ?_, hpa, List.zipWith (· + ·) (getParams T.par) X, h 0, h c, ?_, hbest, ?_,
      logProb_of_lnp e4, e5, e6, ?_, ?_⟩
    · unfold optimize
      rw [hdir]
      cases X with
      | nil => exact absurd rfl hne
      | cons x X => dsimp only; rw [e1]
    · rw [hp, par_setAll, ← hpp]; exact e2
    · rw [List.length_zipWith, hp0, hX, Nat.min_self]
    · have := logProb_of_lnp g0
      rwa [withPar_self] at this
    · rintro ⟨L, hL1, hL2⟩
      have e0 := logProb_of_lnp g0
      rw [withPar_self, hL1] at e0
      injection e0 with e0
      injection e0 with e0
      obtain ⟨L', b1, b2⟩ := hL2 (List.zipWith (· + ·) (getParams T.par) (X.map ((1 : R) * ·))) (by
        rw [List.length_zipWith, hp0, List.length_map, hX, Nat.min_self])
      rw [← withPar_moved, logProb_of_lnp (g1 1)] at b1
      injection b1 with b1
      injection b1 with b1
      rw [e7 (by rw [b1, ← e0]; exact b2), withPar_self]
    · intro b hb hb1 hal
      rw [hseg] at hal ⊢
      exact ⟨h b, by rw [← withPar_moved]; exact logProb_of_lnp (g1 b), e8 b hb hb1 ((allowed_step T X hX b).1 hal)⟩

end Verif.Cons
