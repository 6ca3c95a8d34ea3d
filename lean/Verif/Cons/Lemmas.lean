import Verif.Cons.Spec
import Verif.Fit.Lemmas4
import Verif.Opt.Props

/-!
# Lemmas: the line search with limits
-/

namespace Verif.Cons

open Verif Params Patches Engine Fit Opt

variable {R M : Type} [Field R] [LinearOrder R] [IsStrictOrderedRing R]

/-- A smaller fraction of an allowed step is allowed. -/
theorem feasible_down {p0 : List R} {mx lo up : List (Option R)} {X : List R} (h0 : StartOK p0 lo up) {a b : R} (h : Feasible p0 mx lo up X a)
    (hb : 0 ≤ b) (hba : b ≤ a) : Feasible p0 mx lo up X b := by
  refine ⟨fun i m d h1 h2 => le_trans ?_ (h.1 i m d h1 h2), fun i p l u d h1 h2 h3 h4 => (h0 i p l u h1 h2 h3).between (h.2 i p l u d h1 h2 h3 h4) hb hba⟩
  rw [abs_mul, abs_mul, abs_of_nonneg hb, abs_of_nonneg (le_trans hb hba)]
  exact mul_le_mul_of_nonneg_right hba (abs_nonneg d)

omit [Field R] [IsStrictOrderedRing R] in
theorem pairwise_of_increasing : ∀ (l : List R), increasing l = true → l.Pairwise (· < ·)
  | [], _ => .nil
  | [a], _ => by simp
  | a :: b :: l, h => by
    simp only [increasing, Bool.and_eq_true, decide_eq_true_eq] at h
    have ih := pairwise_of_increasing (b :: l) h.2
    refine List.pairwise_cons.2 ⟨fun c hc => ?_, ih⟩
    rcases List.mem_cons.1 hc with rfl | hc
    · exact h.1
    · exact lt_trans h.1 ((List.pairwise_cons.1 ih).1 c hc)

omit [Field R] [IsStrictOrderedRing R] in
theorem increasing_of_pairwise : ∀ (l : List R), l.Pairwise (· < ·) → increasing l = true
  | [], _ => rfl
  | [a], _ => rfl
  | a :: b :: l, h => by
    simp only [increasing, Bool.and_eq_true, decide_eq_true_eq]
    exact ⟨(List.pairwise_cons.1 h).1 b (by simp), increasing_of_pairwise _ (List.pairwise_cons.1 h).2⟩

/-- The line search with limits along a line on which the objective does not decrease up to 1 and is nowhere larger than there. -/
theorem searchC_ok (tiny : R) (htiny : 0 < tiny) (lp : Par R → Num R) (fl : OptFlags) (t : Par R) (ht : Legal t) (X A B : List R)
    (hX : X.length = numberOfParams t) (h : R → R) (h0 : lp t = .fin (h 0)) (hm : ∀ a, lp (moved t X a) = .fin (h a))
    (hinc : ∀ a b, a ≤ b → b ≤ 1 → h a ≤ h b) (hmax : ∀ a, h a ≤ h 1) (hA : ∀ a ∈ A, tiny ≤ a) (ht1 : tiny ≤ 1)
    (hs : (A ++ 1 :: B).Pairwise (· < ·)) :
    ∃ t' fl' d a, tryUpdatesC tiny lp none fl t X (A ++ 1 :: B) = (t', fl', .ok (d, a)) ∧ Legal t' ∧
      (t' = t ∨ t' = moved t X a ∧ Feasible (getParams t) (getMaxStep t) (getLowerBounds t) (getUpperBounds t) X a) ∧
      ∃ c, lp t' = .fin (h c) ∧ d = .fin (h c - h 0) ∧ h 0 ≤ h c ∧ (h 1 ≤ h 0 → t' = t) ∧
        ∀ b, tiny ≤ b → b ≤ 1 → Feasible (getParams t) (getMaxStep t) (getLowerBounds t) (getUpperBounds t) X b → h b ≤ h c := by
  have hincr := increasing_of_pairwise _ hs
  obtain ⟨t', fl', d, a, b, pre, post, e1, e2, e3, e4, e5, e6⟩ := C35_tryUpdates tiny htiny lp none fl t ht X (A ++ 1 :: B) hX hincr
  obtain ⟨b', cs, g1, g2, g3, g4, g5⟩ := getParameterSteps_ok tiny htiny t ht X (A ++ 1 :: B) hX hincr
  rw [e2] at g1
  simp only [Prod.mk.injEq, Except.ok.injEq] at g1
  obtain ⟨rfl, rfl⟩ := g1
  have hlen1 : (A ++ 1 :: B).length = A.length + 1 + B.length := by simp; omega
  have hAt : (A ++ 1 :: B)[A.length]? = some 1 := by simp
  have hle : ∀ (i j : Nat) (x y : R), (A ++ 1 :: B)[i]? = some x → (A ++ 1 :: B)[j]? = some y → i ≤ j → x ≤ y := by
    intro i j x y hx hy hij
    rcases hij.eq_or_lt with rfl | hlt
    · rw [hx] at hy; injection hy with hy; exact le_of_eq hy
    · obtain ⟨k1, rfl⟩ := List.getElem?_eq_some_iff.1 hx
      obtain ⟨k2, rfl⟩ := List.getElem?_eq_some_iff.1 hy
      exact (List.pairwise_iff_getElem.1 hs i j k1 k2 hlt).le
  -- where the search ends
  obtain ⟨c, hc, hcd, hcc⟩ : ∃ c, lp t' = .fin (h c) ∧ d = .fin (h c - h 0) ∧
      ((c = 0 ∧ t' = t) ∨ ∃ (k : Nat) (e : Cand R), k < pre.length ∧ (pre ++ post)[k]? = some e ∧ e.alpha = c) := by
    rcases e3 with ⟨r1, r2, r3⟩ | ⟨⟨e, he, ha, -⟩, r2, r3, r4, r5⟩
    · exact ⟨0, by rw [r1]; exact h0, by rw [r2, sub_self], .inl ⟨rfl, r1⟩⟩
    · refine ⟨a, by rw [r2]; exact hm a, by rw [r5, r2, hm a, h0]; simp [Num.sub, Num.add, Num.neg, sub_eq_add_neg], .inr ?_⟩
      obtain ⟨k, hk⟩ := List.getElem?_of_mem he
      have hkl := (List.getElem?_eq_some_iff.1 hk).1
      exact ⟨k, e, hkl, by rw [List.getElem?_append_left hkl]; exact hk, ha.symm⟩
  have h0c : h 0 ≤ h c := by
    rcases e3 with ⟨r1, -, -⟩ | ⟨-, r2, r3, -⟩
    · rw [r1, h0] at hc
      injection hc with hc
      exact le_of_eq hc
    · rw [hc, h0] at r3
      simp only [Num.lt, decide_eq_true_eq] at r3
      exact r3.le
  refine ⟨t', fl', d, a, e1, e4, ?_, c, hc, hcd, h0c, ?_, ?_⟩
  · rcases e3 with ⟨r1, -⟩ | ⟨⟨e, he, ha, -⟩, r2, -⟩
    · exact .inl r1
    · refine .inr ⟨r2, ?_⟩
      rw [ha]
      obtain ⟨k, hk⟩ := List.getElem?_of_mem he
      have hkl := (List.getElem?_eq_some_iff.1 hk).1
      obtain ⟨a0, -, -, -, -, q5, -⟩ := g3 k e (by rw [List.getElem?_append_left hkl]; exact hk)
      exact q5
  · intro h10
    rcases e3 with ⟨r1, -, -⟩ | ⟨-, r2, r3, -⟩
    · exact r1
    · rw [hc, h0] at r3
      simp only [Num.lt, decide_eq_true_eq] at r3
      exact absurd (le_trans (hmax c) h10) (not_le.2 r3)
  · intro b hb hb1 hbf
    -- a candidate that is at least as far
    obtain ⟨k, e, hk, hke, hbe, he1⟩ : ∃ (k : Nat) (e : Cand R), k ≤ A.length ∧ (pre ++ post)[k]? = some e ∧ b ≤ e.alpha ∧ e.alpha ≤ 1 := by
      by_cases hl : A.length < (pre ++ post).length
      · obtain ⟨a0, q1, q2, q3, q4, q5, q6, q7⟩ := g3 A.length _ (List.getElem?_eq_getElem hl)
        rw [hAt] at q1
        injection q1 with q1
        subst q1
        refine ⟨A.length, _, Nat.le_refl _, List.getElem?_eq_getElem hl, ?_, q3⟩
        by_contra hlt
        exact q6 b (not_le.1 hlt) hb1 hbf
      · rcases g4 (by omega) with ⟨e, q1, q2⟩ | ⟨a0, q1, q2⟩
        · have hne : (pre ++ post).length ≠ 0 := by
            intro h0
            rw [List.eq_nil_of_length_eq_zero h0] at q1
            simp at q1
          have hk : (pre ++ post)[(pre ++ post).length - 1]? = some e := by rw [← List.getLast?_eq_getElem?]; exact q1
          obtain ⟨a0, s1, s2, s3, s4, s5, s6, s7⟩ := g3 _ _ hk
          have ha01 : a0 ≤ 1 := hle _ _ _ _ s1 hAt (by omega)
          refine ⟨_, e, by omega, hk, ?_, le_trans s3 ha01⟩
          by_contra hlt
          have hlt := not_le.1 hlt
          have hlt' := s7.2 q2
          exact s6 (min b a0) (lt_min hlt hlt') (min_le_right _ _) (feasible_down ht.start hbf
            (le_min (le_trans htiny.le hb) (le_trans (le_trans htiny.le s2) s3)) (min_le_left _ _))
        · have hta : tiny ≤ a0 := by
            have hi : (pre ++ post).length ≤ A.length := by omega
            rcases hi.eq_or_lt with hi | hi
            · rw [hi, hAt] at q1
              injection q1 with q1
              rw [← q1]; exact ht1
            · rw [List.getElem?_append_left hi] at q1
              exact hA a0 (List.mem_of_getElem? q1)
          exact absurd (feasible_down ht.start hbf htiny.le hb) (q2 tiny (le_refl _) hta)
    refine le_trans (hinc b e.alpha hbe he1) ?_
    by_cases hkp : k < pre.length
    · have hmem : e ∈ pre := by
        rw [List.getElem?_append_left hkp] at hke
        exact List.mem_of_getElem? hke
      have := (e5 e hmem).2.1
      rw [hc, hm] at this
      simpa [Num.lt] using this
    · -- the search ended earlier, which it does not on the way up
      exfalso
      have hkl : k < (pre ++ post).length := (List.getElem?_eq_some_iff.1 hke).1
      rcases e6 with rfl | ⟨f, post', rfl, hf⟩
      · simp at hkl; omega
      · have hfk : (pre ++ f :: post')[pre.length]? = some f := by simp
        obtain ⟨a0, s1, s2, s3, s4, s5, s6, s7⟩ := g3 _ _ hfk
        have ha01 : a0 ≤ 1 := hle _ _ _ _ s1 hAt (by omega)
        have hcf : c ≤ f.alpha := by
          rcases hcc with ⟨rfl, -⟩ | ⟨k', e', v1, v2, rfl⟩
          · exact le_trans htiny.le s2
          · obtain ⟨a0', w1, w2, w3, w4, w5, w6, w7⟩ := g3 _ _ v2
            by_contra hlt
            exact s6 e'.alpha (not_le.1 hlt) (le_trans w3 (hle _ _ _ _ w1 s1 (by omega))) w5
        have := hinc c f.alpha hcf (le_trans s3 ha01)
        rcases hf with hf | hf | ⟨_, hf, -⟩
        · rw [hm] at hf; cases hf
        · rw [hm, hc] at hf
          simp only [Num.sub, Num.add, Num.neg, Num.lt, decide_eq_true_eq] at hf
          linarith
        · cases hf

end Verif.Cons
