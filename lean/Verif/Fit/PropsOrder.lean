import Verif.Fit.Order
import Verif.Fit.PropsTruth

/-!
# C155: the order of the images and of the sources does not matter

Spec: a tractor with the same images and the same sources in another order has the same log-probability; and optimizing it gives every image and every
source the same parameters.
-/

namespace Verif.Fit

open Verif Params Patches Engine Finset

variable {R M : Type} [Field R] [LinearOrder R]

/-- **C155, log-probability.** The log-probability (and the log-likelihood) do not depend on the order of the images and of the sources. -/
theorem C155_logprob [IsStrictOrderedRing R] (W : World R M) (hooks : Tractor R M → Nat → Nat → Option (List (Deriv R))) (T T' : Tractor R M)
    (h : Reordered T T') (hr : Ready W hooks T) (hm : ∀ x ∈ T'.images, MasksOK T' x.2) :
    logProb W T' = logProb W T ∧ getLogLikelihood W T' = getLogLikelihood W T := by
  obtain ⟨X, es, -, -, -, -, L, h5, -⟩ := logPrior_step T.par hr.prior
  exact ⟨logProb_reordered W T T' h hr.mask hm (fun x hx => ⟨(hr.shape x hx).1, (hr.shape x hx).2.1⟩) L h5,
    (likelihood_reordered W T T' h hr.mask hm (fun x hx => ⟨(hr.shape x hx).1, (hr.shape x hx).2.1⟩)).symm⟩

/-- The log-probability after the same values were given to the same objects. -/
theorem logProb_set [IsStrictOrderedRing R] {W : World R M} {hooks : Tractor R M → Nat → Nat → Option (List (Deriv R))} {T T' : Tractor R M}
    (hr : Ready W hooks T) (hr' : Ready W hooks T') (p p' : List R) (hp : p.length = numberOfParams T.par) (h : Reordered (setAll T p) (setAll T' p')) :
    logProb W (setAll T' p') = logProb W (setAll T p) := by
  obtain ⟨X, es, -, -, -, -, L, h5, -, h6⟩ := logPrior_step T.par hr.prior
  have hp0 : (getParams T.par).length = numberOfParams T.par := getParams_length _
  have := h6 (List.zipWith (fun a b => a - b) p (getParams T.par)) (by rw [List.length_zipWith, hp, hp0, Nat.min_self])
  have e : List.zipWith (· + ·) (getParams T.par) (List.zipWith (fun a b => a - b) p (getParams T.par)) = p := by
    apply List.ext_getElem
    · simp [hp, hp0]
    · intro i i1 i2
      simp
  rw [e, ← (setAll_ok T p).2] at this
  refine logProb_reordered W _ _ h ((setAll_ok T p).1.masks hr.mask) ((setAll_ok T' p').1.masks hr'.mask) (fun x hx => ?_) _ this
  obtain ⟨i, hi⟩ := List.getElem?_of_mem hx
  obtain ⟨im', a1, a2, a3⟩ := setAll_pixels T p i x.1 x.2 hi
  obtain ⟨c1, c2, -⟩ := hr.shape _ (List.mem_of_getElem? a1)
  rw [a2, a3]
  exact ⟨c1, c2⟩

theorem best_one [IsStrictOrderedRing R] {W : World R M} {hooks : Tractor R M → Nat → Nat → Option (List (Deriv R))} {T T' : Tractor R M}
    (hr : Ready W hooks T) (hr' : Ready W hooks T') (h : Reordered T T') (p p' : List R) (hp : p.length = numberOfParams T.par)
    (hp' : p'.length = numberOfParams T'.par)
    (hpp : Reordered (setAll T p) (setAll T' p')) (hb : Best W (setAll T p)) : Best W (setAll T' p') := by
  obtain ⟨L, h1, h2⟩ := hb
  refine ⟨L, by rw [logProb_set hr hr' p p' hp hpp, h1], fun q hq => ?_⟩
  rw [setAll_length] at hq
  obtain ⟨q', g1, g2⟩ := h.symm.setAll q hq
  obtain ⟨L', k1, k2⟩ := h2 q' (by rw [setAll_length]; exact g1)
  rw [setAll_setAll T p q' g1] at k1
  exact ⟨L', by rw [setAll_setAll T' p' q hq, logProb_set hr hr' q' q g1 g2.symm, k1], k2⟩

/-- **C155, maxima.** The values of the parameters with the largest log-probability are the same for the same objects. -/
theorem C155_best [IsStrictOrderedRing R] (W : World R M) (hooks : Tractor R M → Nat → Nat → Option (List (Deriv R))) (T T' : Tractor R M)
    (h : Reordered T T') (hr : Ready W hooks T) (hr' : Ready W hooks T') : Best W T ↔ Best W T' := by
  have a := best_one hr hr' h (getParams T.par) (getParams T'.par) (getParams_length _) (getParams_length _) (by rw [setAll_self, setAll_self]; exact h)
  have b := best_one hr' hr h.symm (getParams T'.par) (getParams T.par) (getParams_length _) (getParams_length _)
    (by rw [setAll_self, setAll_self]; exact h.symm)
  rw [setAll_self, setAll_self] at a b
  exact ⟨a, b⟩

/-- **C155, one maximum.** If the parameters of a linear tractor can be told from the model, only one set of values has the largest log-probability. -/
theorem C155_unique [IsStrictOrderedRing R] (W : World R M) (hooks : Tractor R M → Nat → Nat → Option (List (Deriv R))) (T : Tractor R M)
    (base : Nat → Nat → Nat → R) (D : Nat → Nat → Nat → Nat → R) (hr : Ready W hooks T) (hl : Linear W hooks T base D) (hid : Identifiable W T)
    (p q : List R) (hp : p.length = numberOfParams T.par) (hq : q.length = numberOfParams T.par) (hbp : Best W (setAll T p))
    (hbq : Best W (setAll T q)) : p = q := by
  obtain ⟨es, C, hes, hall⟩ := logProb_run T hr.prior
  have hrun : setAll (withData T (own T)) (getParams T.par) = T := by rw [withData_own, setAll_self]
  have hlp := hall W hooks base D (own T) (getParams T.par) (by rw [hrun]; exact hr) (by rw [hrun]; exact hl)
  rw [withData_own] at hlp
  have getD_range : ∀ (f : Nat → R) (n k : Nat), k < n → ((List.range n).map f).getD k 0 = f k := by
    intro f n k hk
    rw [List.getD, List.getElem?_map, List.getElem?_range hk]; rfl
  have hmin : ∀ p : List R, p.length = numberOfParams T.par → Best W (setAll T p) → ∀ φ : Nat → R,
      ∑ π ∈ obs T es, Fpfit.resid (range (numberOfParams T.par)) (weight T es) (seen (own T) es) (const base) (slopes D es) (fun k => p.getD k 0) π *
        Fpfit.resid (range (numberOfParams T.par)) (weight T es) (seen (own T) es) (const base) (slopes D es) (fun k => p.getD k 0) π ≤
      ∑ π ∈ obs T es, Fpfit.resid (range (numberOfParams T.par)) (weight T es) (seen (own T) es) (const base) (slopes D es) φ π *
        Fpfit.resid (range (numberOfParams T.par)) (weight T es) (seen (own T) es) (const base) (slopes D es) φ π := by
    rintro p hp ⟨L, h2, h3⟩ φ
    obtain ⟨L', h4, h5⟩ := h3 ((List.range (numberOfParams T.par)).map φ) (by rw [setAll_length]; simp)
    rw [setAll_setAll _ _ _ (by simp)] at h4
    rw [hlp _ hp] at h2
    rw [hlp _ (by simp)] at h4
    injection h2 with h2; injection h2 with h2
    injection h4 with h4; injection h4 with h4
    have e : ∀ π, Fpfit.resid (range (numberOfParams T.par)) (weight T es) (seen (own T) es) (const base) (slopes D es)
        (fun k => ((List.range (numberOfParams T.par)).map φ).getD k 0) π =
        Fpfit.resid (range (numberOfParams T.par)) (weight T es) (seen (own T) es) (const base) (slopes D es) φ π := by
      intro π
      unfold Fpfit.resid
      congr 3
      exact sum_congr rfl (fun k hk => by beta_reduce; rw [getD_range φ _ k (mem_range.1 hk)])
    simp only [e] at h4
    rw [← h2, ← h4] at h5
    linarith
  have hsame := minima_same (obs T es) (range (numberOfParams T.par)) (weight T es) (seen (own T) es) (const base) (slopes D es) (fun k => p.getD k 0)
    (fun k => q.getD k 0) (hmin p hp hbp) (hmin q hq hbq)
  refine hid p q hp hq (fun i b im y x h1 h2 h3 h4 => ?_) (fun k v h1 h2 => ?_)
  · rw [pixel_linear hl hr _ hp i y x b im h1 h2 h3, pixel_linear hl hr _ hq i y x b im h1 h2 h3]
    congr 1
    have hw : weight T es (.inl ⟨i, y, x⟩) = im.inverr.px y x := by simp [weight, h1]
    exact hsame (.inl ⟨i, y, x⟩) (inl_mem_disjSum.2 ((mem_pixels T i y x).2 ⟨b, im, h1, h2, h3⟩)) (by rw [hw]; exact h4)
  · obtain ⟨e, he, rfl⟩ := entry_exists T.par es hes k v h1 h2
    obtain ⟨l, hlt, rfl⟩ := List.getElem_of_mem he
    obtain ⟨e1, e2, -⟩ := entry_data T.par hr.prior es hes es[l] (List.getElem_mem hlt)
    have hw : weight T es (.inr l) = es[l].val := by simp [weight, List.getElem?_eq_getElem hlt]
    have := hsame (.inr l) (inr_mem_disjSum.2 (mem_range.2 hlt)) (by rw [hw]; exact e2)
    have hs : ∀ f : Nat → R, ∑ k ∈ range (numberOfParams T.par), f k * slopes D es (.inr l) k = f es[l].col := by
      intro f
      rw [sum_eq_single es[l].col]
      · simp [slopes, List.getElem?_eq_getElem hlt]
      · intro k _ hk
        simp [slopes, List.getElem?_eq_getElem hlt, Ne.symm hk]
      · intro h; exact absurd (mem_range.2 e1) h
    rwa [hs, hs] at this

/-- **C155, optimization.** `optimize` of a linear tractor whose parameters can be told from the model, and of the same with images and sources in
another order, with other start values `s`, other options, step lengths and solver: every image and every source has the same parameters afterwards. -/
theorem C155_optimize [IsStrictOrderedRing R] (S S' : Solver R) (hsq : Lsq.SqrtOK S.sqrt) (hS : Lsq.Solves S.lsqr) (hsq' : Lsq.SqrtOK S'.sqrt)
    (hS' : Lsq.Solves S'.lsqr) (W : World R M) (hooks : Tractor R M → Nat → Nat → Option (List (Deriv R))) (o o' : Opts) (T T' : Tractor R M)
    (s : List R) (hord : Reordered (setAll T s) T') (hrs : Ready W hooks (setAll T s))
    (base base' : Nat → Nat → Nat → R) (D D' : Nat → Nat → Nat → Nat → R) (hr : Ready W hooks T) (hl : Linear W hooks T base D) (ho : Options S o T D)
    (hid : Identifiable W T) (hr' : Ready W hooks T') (hl' : Linear W hooks T' base' D') (ho' : Options S' o' T' D') (A B A' B' : List R)
    (hA : ∀ a ∈ A, 0 ≤ a) (hs : (A ++ [1]).Pairwise (· ≤ ·)) (hA' : ∀ a ∈ A', 0 ≤ a) (hs' : (A' ++ [1]).Pairwise (· ≤ ·)) :
    ∃ T1 T2 r r', optimize S W hooks o (A ++ 1 :: B) T = (T1, .ok r) ∧ optimize S' W hooks o' (A' ++ 1 :: B') T' = (T2, .ok r') ∧ Reordered T1 T2 := by
  obtain ⟨T1, r, p, h1, h2, h3, h4, -⟩ := C143_best_partial S hsq hS W hooks o T base D hr hl ho A B hA hs
  obtain ⟨T2, r', p', g1, g2, g3, g4, -⟩ := C143_best_partial S' hsq' hS' W hooks o' T' base' D' hr' hl' ho' A' B' hA' hs'
  refine ⟨T1, T2, r, r', h1, g1, ?_⟩
  subst h3 g3
  obtain ⟨q, q1, q2⟩ := hord.symm.setAll p' g2
  have hb := best_one hr' hrs hord.symm p' q g2 q1 q2 g4
  rw [setAll_length] at q1
  rw [setAll_setAll T s q q1] at hb q2
  rw [C155_unique W hooks T base D hr hl hid p q h2 q1 h4 hb]
  exact q2.symm

/-! Example: the tractor of C143 with its images and sources in another order. -/

def exTo (s a b : ℚ) : Tractor ℚ Unit :=
  ⟨true, [(false, exI 1 4), (true, exI 0 s)], true, [(true, none), (false, some ⟨11, exPar 5 6⟩), (true, some ⟨10, exPar a b⟩)], none, false⟩

theorem exOrder (s a b : ℚ) : Reordered (exTr s a b) (exTo s a b) := by
  refine ⟨rfl, rfl, rfl, .swap _ _ _, ?_, fun _ _ _ _ im src _ _ mask => ?_⟩
  · exact (List.Perm.swap _ _ _).trans ((List.Perm.swap _ _ _).cons _)
  · constructor <;> (intro h; cases h with
      | nomasks h => exact .nomasks rfl
      | entry masks h => cases h
      | missing masks h => cases h)

theorem exMaskO (s a b : ℚ) (im : Image ℚ) : MasksOK (exTo s a b) im := by
  intro masks h
  cases h

theorem exReadyO (s a b : ℚ) : Ready exWorld exHooks (exTo s a b) := by
  have hr := exReady s a b
  refine ⟨fun x _ => exMaskO s a b x.2, fun x hx => hr.shape x ((exOrder s a b).images.mem_iff.2 hx), ?_, fun i x _ _ y _ _ l hl => (by cases hl),
    fun x hx => hr.steps x ((exOrder s a b).images.mem_iff.2 hx), ?_⟩
  · simp [exTo, Tractor.par, PriorsOK, PriorsOKSubs, imagesSubs, catalogSubs, exI, exPar]
  · intro src hsrc x hx ds hds
    refine hr.derivs src ((exOrder s a b).catalog.mem_iff.2 hsrc) x ((exOrder s a b).images.mem_iff.2 hx) ds ?_
    obtain ⟨mask, h1, h2⟩ := hds
    cases h1 with
    | nomasks h => exact ⟨none, .nomasks rfl, h2⟩
    | entry masks h => cases h
    | missing masks h => cases h

/-- The log-probabilities of the two orders. -/
example : logProb exWorld (exTo 3 1 2) = logProb exWorld (exTr 3 1 2) :=
  (C155_logprob exWorld exHooks (exTr 3 1 2) (exTo 3 1 2) (exOrder 3 1 2) (exReady 3 1 2) (fun x _ => exMaskO 3 1 2 x.2)).1

/-- Where the maximum is. -/
example (s a b : ℚ) : Best exWorld (exTr s a b) ↔ Best exWorld (exTo s a b) :=
  C155_best exWorld exHooks _ _ (exOrder s a b) (exReady s a b) (exReadyO s a b)

/-- There is one maximum, and only one. -/
example : ∃ p : List ℚ, p.length = 3 ∧ Best exWorld (setAll (exTr 3 1 2) p) ∧ ∀ q, q.length = 3 → Best exWorld (setAll (exTr 3 1 2) q) → p = q := by
  obtain ⟨lsqr, hl⟩ := Lsq.solver_exists (R := ℚ)
  obtain ⟨T', r, p, -, h2, rfl, h4, -⟩ := C143_best_partial ⟨id, 0, lsqr⟩ (fun x hx => hx) hl exWorld exHooks ⟨false, true, true⟩ (exTr 3 1 2) exBase exD
    (exReady _ _ _) (exLinear _ _ _) (exOptions _ _ _ _) [] [] (by simp) (by simp)
  exact ⟨p, h2, h4, fun q hq hb => C155_unique exWorld exHooks (exTr 3 1 2) exBase exD (exReady _ _ _) (exLinear _ _ _) (exIdent _ _ _) p q h2 hq h4 hb⟩

/-- The images of the other order are numbered 1 and 0. -/
theorem exFlip (s a b : ℚ) (i : Nat) (x : Bool × Image ℚ) (h : (exTo s a b).images[i]? = some x) : i < 2 ∧ (exTr s a b).images[1 - i]? = some x := by
  match i, h with
  | 0, h => exact ⟨by omega, h⟩
  | 1, h => exact ⟨by omega, h⟩
  | n + 2, h => cases h

theorem exSetO (s a b s' a' b' : ℚ) : setAll (exTo s a b) [s', a', b'] = exTo s' a' b' := rfl

theorem exNO (s a b : ℚ) : numberOfParams (exTo s a b).par = 3 := rfl

theorem exLocO (s a b : ℚ) (k o j : Nat) (h : Located (exTo s a b) k o j) : (k = 0 ∧ o = 1 ∧ j = 0) ∨ (o = 4 ∧ k = 1 + j ∧ j < 2) := by
  obtain ⟨n, h1, h2, h3⟩ := h
  have hb : blocks (exTo s a b) = [0, 1, 0, 0, 2] := rfl
  rw [hb] at h1 h3
  match o with
  | 0 => simp at h1; omega
  | 1 => simp at h1 h3; omega
  | 2 => simp at h1; omega
  | 3 => simp at h1; omega
  | 4 => simp at h1 h3; omega
  | o + 5 => simp at h1

theorem exLinearO (s a b : ℚ) : Linear exWorld exHooks (exTo s a b) (fun i => exBase (1 - i)) (fun k i => exD k (1 - i)) := by
  refine ⟨?_, ?_, ?_⟩
  · intro p hp i c im hi A hA y x hy hx
    rw [exNO] at hp ⊢
    obtain ⟨s', a', b', rfl⟩ := exList p hp
    rw [exSetO] at hi hA
    obtain ⟨-, h1⟩ := exFlip s' a' b' i _ hi
    obtain ⟨B, B', e1, e2, e3⟩ := model_reordered exWorld _ _ (exOrder s' a' b') (c, im) (List.mem_of_getElem? h1) (exMask _ _ _ _) (exMaskO _ _ _ _)
    rw [hA] at e2
    injection e2 with e2
    subst e2
    rw [← e3 y x hy hx, exModel s' a' b' (1 - i) c im h1 B e1 y x hy hx]
    simp [Finset.sum_range_succ]
  · intro k o' j c src hloc hc i c' im hi ds hds y x hy hx
    rcases exLocO s a b _ _ _ hloc with ⟨-, h, -⟩ | ⟨h, rfl, hj⟩
    · simp [exTo] at h
      omega
    · obtain ⟨mask, -, rfl⟩ := hds
      rw [if_neg (by simp [exTo])]
      have hyx : y < 2 ∧ x < 2 := by
        match i, hi with
        | 0, hi => simp [exTo] at hi; obtain ⟨-, rfl⟩ := hi; exact ⟨hy, hx⟩
        | 1, hi => simp [exTo] at hi; obtain ⟨-, rfl⟩ := hi; exact ⟨hy, hx⟩
        | n + 2, hi => simp [exTo] at hi
      obtain ⟨hy2, hx2⟩ := hyx
      interval_cases j <;> interval_cases y <;> interval_cases x <;> simp [exWorld, patchAt, Patch.at, exD]
  · intro k o j c im hloc ho d hd
    left
    rcases exLocO s a b _ _ _ hloc with ⟨rfl, rfl, rfl⟩ | ⟨rfl, -, -⟩
    · simp [exTo] at ho
      obtain ⟨-, rfl⟩ := ho
      have : reported (exHooks (exTo s a b) 1) (exI 0 s).par = [.false] := rfl
      rw [this] at hd
      simp at hd
      refine ⟨hd.symm, ?_⟩
      have : (getStepSizes (exTo s a b).par)[0]? = some (1 / 2) := rfl
      rw [this]
      simp
    · simp [exTo] at ho

theorem exOptionsO (S : Solver ℚ) (s a b : ℚ) : Options S ⟨false, true, true⟩ (exTo s a b) (fun k i => exD k (1 - i)) := by
  refine ⟨.inl rfl, by simp, fun _ _ => ?_⟩
  rw [exNO]
  have : effect ⟨false, true, true⟩ (exTo s a b) (fun k i => exD k (1 - i)) 2 = 18 := by
    have hw : widths ⟨false, true, true⟩ (exTo s a b) 2 = [] := rfl
    rw [effect, hw]
    simp [exTo, exI, List.zipIdx, Finset.sum_range_succ, exD, Arr.ofLists]
    norm_num
  rw [this]
  norm_num

/-- The two orders, from different start values and with different step lengths. -/
example : ∃ (lsqr : Lsq.Problem ℚ → List ℚ) (T1 T2 : Tractor ℚ Unit) (r r' : Num ℚ × ℚ),
    optimize ⟨id, 0, lsqr⟩ exWorld exHooks ⟨false, true, true⟩ [1 / 4, 1 / 2, 1, 2] (exTr 3 1 2) = (T1, .ok r) ∧
    optimize ⟨id, 0, lsqr⟩ exWorld exHooks ⟨false, true, true⟩ [1 / 3, 1] (exTo (-5) 7 0) = (T2, .ok r') ∧ Reordered T1 T2 := by
  obtain ⟨lsqr, hl⟩ := Lsq.solver_exists (R := ℚ)
  have := C155_optimize ⟨id, 0, lsqr⟩ ⟨id, 0, lsqr⟩ (fun x hx => hx) hl (fun x hx => hx) hl exWorld exHooks ⟨false, true, true⟩ ⟨false, true, true⟩
    (exTr 3 1 2) (exTo (-5) 7 0) [-5, 7, 0] (by rw [exSet]; exact exOrder _ _ _) (by rw [exSet]; exact exReady _ _ _) exBase _ exD _ (exReady _ _ _)
    (exLinear _ _ _) (exOptions _ _ _ _) (exIdent _ _ _) (exReadyO _ _ _) (exLinearO _ _ _) (exOptionsO _ _ _ _) [1 / 4, 1 / 2] [2] [1 / 3] []
    (by intro a ha; simp at ha; rcases ha with rfl | rfl <;> norm_num) (by simp [List.pairwise_cons]; norm_num)
    (by intro a ha; simp at ha; subst ha; norm_num) (by simp [List.pairwise_cons]; norm_num)
  exact ⟨lsqr, this⟩

end Verif.Fit
