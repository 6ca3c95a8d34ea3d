import Verif.Fit.Lemmas4
import Mathlib.Tactic.IntervalCases

/-!
# Properties of a whole optimization (C143)
-/

namespace Verif.Fit

open Verif Params Patches Engine Finset

variable {R M : Type} [Field R] [LinearOrder R] [IsStrictOrderedRing R]

/-- **C143.** A tractor whose model images are linear in the thawed parameters (fluxes, sky levels), any masks, frozen objects and Gaussian priors, with
an exact solver: one call of `optimize` ends normally, changes only the values of thawed parameters, and no other values of these give a larger
log-probability.  The returned change of the log-probability is the change; a tractor that is at the maximum stays as it is.  The list of step
fractions may be any that increases to 1 (as the default does) and goes on in any way. -/
theorem C143_best_partial (S : Solver R) (hsq : Lsq.SqrtOK S.sqrt) (hS : Lsq.Solves S.lsqr) (W : World R M)
    (hooks : Tractor R M → Nat → Nat → Option (List (Deriv R))) (o : Opts) (T : Tractor R M) (base : Nat → Nat → Nat → R)
    (D : Nat → Nat → Nat → Nat → R) (hr : Ready W hooks T) (hl : Linear W hooks T base D) (ho : Options S o T D) (A B : List R)
    (hA : ∀ a ∈ A, 0 ≤ a) (hs : (A ++ [1]).Pairwise (· ≤ ·)) :
    ∃ T' r p, optimize S W hooks o (A ++ 1 :: B) T = (T', .ok r) ∧ p.length = numberOfParams T.par ∧ T' = setAll T p ∧ Best W T' ∧
      (∃ L0 L1, logProb W T = .ok (.fin L0) ∧ logProb W T' = .ok (.fin L1) ∧ r.1 = .fin (L1 - L0)) ∧ (Best W T → T' = T) :=
  optimize_best S hsq hS W hooks o T base D hr hl ho A B hA hs

omit [IsStrictOrderedRing R] in
/-- **C143, any start.** Optimizations of a tractor from different values that end at the maximum end with the same log-probability. -/
theorem C143_any_start (W : World R M) (T : Tractor R M) (p q : List R) (hp : p.length = numberOfParams T.par)
    (hq : q.length = numberOfParams T.par) (hb : Best W (setAll T p)) (hb' : Best W (setAll T q)) : logProb W (setAll T p) = logProb W (setAll T q) := by
  obtain ⟨L, h1, h2⟩ := hb
  obtain ⟨L', h1', h2'⟩ := hb'
  obtain ⟨l, g1, g2⟩ := h2 q (by rw [setAll_length]; exact hq)
  obtain ⟨l', g1', g2'⟩ := h2' p (by rw [setAll_length]; exact hp)
  rw [setAll_setAll T p q hq, h1'] at g1
  rw [setAll_setAll T q p hp, h1] at g1'
  cases g1
  cases g1'
  rw [h1, h1', le_antisymm g2' g2]

/-- **C143, loop.** `optimize_loop` of such a tractor (in order at all values of the parameters), any number of steps but 0: it ends normally at the
maximum; if `dchisq` is not negative, in the second round at the latest. -/
theorem C143_loop_partial (S : Solver R) (hsq : Lsq.SqrtOK S.sqrt) (hS : Lsq.Solves S.lsqr) (W : World R M)
    (hooks : Tractor R M → Nat → Nat → Option (List (Deriv R))) (o : Opts) (T : Tractor R M)
    (h : ∀ p : List R, p.length = numberOfParams T.par → ∃ base D, Ready W hooks (setAll T p) ∧ Linear W hooks (setAll T p) base D ∧
      Options S o (setAll T p) D) (A B : List R)
    (hA : ∀ a ∈ A, 0 ≤ a) (hs : (A ++ [1]).Pairwise (· ≤ ·)) (dchisq : R) (steps : Nat) (hst : 0 < steps) :
    ∃ T' n p, optimizeLoop S W hooks o (A ++ 1 :: B) dchisq steps T = (T', .ok n) ∧ p.length = numberOfParams T.par ∧ T' = setAll T p ∧ Best W T' ∧
      n < steps ∧ (0 ≤ dchisq → n ≤ 1) := by
  have key : ∀ n step p, p.length = numberOfParams T.par →
      ∃ T' m p', loopFrom S W hooks o (A ++ 1 :: B) dchisq n step (setAll T p) = (T', .ok m) ∧ p'.length = numberOfParams T.par ∧ T' = setAll T p' ∧
        Best W T' ∧ m ≤ step + n ∧ (0 ≤ dchisq → m ≤ step + 1) ∧ (0 ≤ dchisq → Best W (setAll T p) → m ≤ step) := by
    intro n
    induction n with
    | zero =>
      intro step p hp
      obtain ⟨base, D, a1, a2, a3⟩ := h p hp
      obtain ⟨T', r, q, b1, b2, b3, b4, -⟩ := optimize_best S hsq hS W hooks o _ base D a1 a2 a3 A B hA hs
      rw [setAll_length] at b2
      rw [setAll_setAll T p q b2] at b3
      refine ⟨T', step, q, ?_, b2, b3, b4, by omega, fun _ => by omega, fun _ _ => by omega⟩
      unfold loopFrom
      rw [b1]
      dsimp only
      split <;> rfl
    | succ n ih =>
      intro step p hp
      obtain ⟨base, D, a1, a2, a3⟩ := h p hp
      obtain ⟨T', r, q, b1, b2, b3, b4, ⟨L0, L1, c1, c2, c3⟩, b6⟩ := optimize_best S hsq hS W hooks o _ base D a1 a2 a3 A B hA hs
      rw [setAll_length] at b2
      rw [setAll_setAll T p q b2] at b3
      by_cases hd : r.1.le (.fin dchisq) = true
      · refine ⟨T', step, q, ?_, b2, b3, b4, by omega, fun _ => by omega, fun _ _ => by omega⟩
        unfold loopFrom
        rw [b1]
        dsimp only
        rw [if_pos hd]
      · obtain ⟨T'', m, q', d1, d2, d3, d4, d5, d6, d7⟩ := ih (step + 1) q b2
        refine ⟨T'', m, q', ?_, d2, d3, d4, by omega, fun h0 => d7 h0 (b3 ▸ b4), fun h0 hb => ?_⟩
        · unfold loopFrom
          rw [b1]
          dsimp only
          rw [if_neg hd, b3]
          exact d1
        · exfalso
          rw [b6 hb, c1] at c2
          cases c2
          apply hd
          rw [c3, sub_self]
          simp only [Num.le, decide_eq_true_eq]
          exact h0
  obtain ⟨n, rfl⟩ : ∃ n, steps = n + 1 := ⟨steps - 1, by omega⟩
  obtain ⟨T', m, p', e1, e2, e3, e4, e5, e6, -⟩ := key n 0 (getParams T.par) (getParams_length _)
  rw [setAll_self] at e1
  exact ⟨T', m, p', e1, e2, e3, e4, by omega, fun h0 => by have := e6 h0; omega⟩

/-- **C143 is false with `shared_params=True` (the default) if the last thawed parameter has no effect** (for example a source outside all images at the
end of the catalog) while another has: `optimize` raises IndexError, the tractor stays where it was. -/
theorem C143_no_effect_false (S : Solver R) (hsq : Lsq.SqrtOK S.sqrt) (hS : Lsq.Solves S.lsqr) (W : World R M)
    (hooks : Tractor R M → Nat → Nat → Option (List (Deriv R))) (o : Opts) (T : Tractor R M) (base : Nat → Nat → Nat → R)
    (D : Nat → Nat → Nat → Nat → R) (hr : Ready W hooks T) (hl : Linear W hooks T base D)
    (hp : o.priors = true ∨ ∀ x ∈ thawedPriors T.par, x.2 = []) (hsc : o.scale = true → NoTiny S o T D) (hsh : o.shared = true)
    (h0 : effect o T D (numberOfParams T.par - 1) = 0) (k : Nat) (hk : k < numberOfParams T.par) (hne : effect o T D k ≠ 0) (alphas : List R) :
    optimize S W hooks o alphas T = (T, .error .index) := by
  obtain ⟨out, l, ds, pr, es, C, h1, h2, h3, h4, h5, h6, h7, h8, h9⟩ := problem_ok hl hr o hp
  have hinj : ∀ c c', c < ds.length → c' < ds.length →
      (List.range (numberOfParams T.par))[c]? = (List.range (numberOfParams T.par))[c']? → c = c' := by
    intro c c' h1 h2 h
    rw [List.getElem?_range (by omega), List.getElem?_range (by omega)] at h
    exact Option.some.inj h
  have e := Lsq.C38_no_effect_false S.sqrt hsq S.tiny S.lsqr hS (lsqImgs l) ds h5 pr es h4 o.scale
    (fun hs k v hv => by
      obtain ⟨k1, k2, k3⟩ := h7 k v hv
      rw [h6 k k1]
      exact hsc hs k v k2 k3)
    ⟨List.range (numberOfParams T.par), fun c => (c : R)⟩ (by simp [h3]) (fun _ c c' hc hc' h => by rw [hinj c c' hc hc' h])
    (fun c hc h => by
      rw [hinj c _ hc (by omega) h, h6 _ (by omega), h3]
      exact h0)
    ⟨k, by omega, by rw [h6 k (by omega)]; exact hne⟩
  unfold optimize direction
  rw [h1]
  simp only [h2]
  rw [hsh, if_pos rfl, indexMap_eq, e]

omit [IsStrictOrderedRing R] in
/-- **C143, no rounds**: `optimize_loop(steps=0)` raises UnboundLocalError. -/
theorem C143_no_rounds_false (S : Solver R) (W : World R M) (hooks : Tractor R M → Nat → Nat → Option (List (Deriv R))) (o : Opts) (alphas : List R)
    (dchisq : R) (T : Tractor R M) : optimizeLoop S W hooks o alphas dchisq 0 T = (T, .error .nameErr) := rfl

/-! Example: two images, the sky level of the first thawed; a source with two pixels as parameters, one with a prior; a missing and a frozen source. -/

def exS (v : ℚ) : Scalar ℚ := ⟨"S", v, none, none, none, 1 / 2, none⟩

def exI (id : Nat) (sky : ℚ) : Image ℚ :=
  ⟨id, .cons ["sky"] true (.scalar (exS sky)) .nil, Arr.ofLists [[5, 6], [7, 8]] 2, Arr.ofLists [[1, 3], [2, 1]] 2⟩

/-- Two pixel values, a Gaussian prior on the first: mean 3, width 2. -/
def exPar (a b : ℚ) : Par ℚ := .plist ⟨[⟨["a"], true, a⟩, ⟨["b"], true, b⟩], [none, none], [none, none], [none, none], none, [(0, 3, 2)]⟩

def exSky (im : Image ℚ) : ℚ :=
  match im.par with
  | .cons _ _ (.scalar s) _ => s.val
  | _ => 0

def exWorld : World ℚ Unit where
  render s _ _ := some ⟨0, 0, some ⟨1, 2, fun _ c => ((getParams s.par)[c]?).getD 0⟩⟩
  sky im := .constant (exSky im)
  srcDerivs _ _ _ := [some ⟨0, 0, some ⟨1, 1, fun _ _ => 1⟩⟩, some ⟨1, 0, some ⟨1, 1, fun _ _ => 1⟩⟩]

def exTr (s a b : ℚ) : Tractor ℚ Unit :=
  ⟨true, [(true, exI 0 s), (false, exI 1 4)], true, [(true, some ⟨10, exPar a b⟩), (true, none), (false, some ⟨11, exPar 5 6⟩)], none, false⟩

/-- The derivative images. -/
def exD (k i y x : Nat) : ℚ :=
  if k = 0 then (if i = 0 then 1 else 0) else if y = 0 ∧ x + 1 = k then 1 else 0

/-- The rest. -/
def exBase (i y x : Nat) : ℚ := (if i = 1 then 4 else 0) + (if y = 0 then (if x = 0 then 5 else 6) else 0)

theorem exSet (s a b s' a' b' : ℚ) : setAll (exTr s a b) [s', a', b'] = exTr s' a' b' := rfl

theorem exN (s a b : ℚ) : numberOfParams (exTr s a b).par = 3 := rfl

theorem exList (p : List ℚ) (hp : p.length = 3) : ∃ a b c, p = [a, b, c] := by
  match p, hp with
  | [a, b, c], _ => exact ⟨a, b, c, rfl⟩

theorem exMask (s a b : ℚ) (im : Image ℚ) : MasksOK (exTr s a b) im := by
  intro masks h
  cases h

theorem exModel (s a b : ℚ) (i : Nat) (c : Bool) (im : Image ℚ) (hi : (exTr s a b).images[i]? = some (c, im)) (A : Arr ℚ)
    (hA : getModelImage exWorld (exTr s a b) im none true = .ok A) (y x : Nat) (hy : y < im.data.h) (hx : x < im.data.w) :
    A.px y x = exBase i y x + (s * exD 0 i y x + a * exD 1 i y x + b * exD 2 i y x) := by
  obtain ⟨-, h⟩ := C29_model_image exWorld (exTr s a b) im (exMask s a b im) none
  obtain ⟨r, g1, -, -, g2⟩ := h [some ⟨0, 0, some ⟨1, 2, fun _ c => (([a, b] : List ℚ)[c]?).getD 0⟩⟩, none,
    some ⟨0, 0, some ⟨1, 2, fun _ c => (([5, 6] : List ℚ)[c]?).getD 0⟩⟩]
    (.cons ⟨none, .nomasks rfl, rfl⟩ (.cons rfl (.cons ⟨none, .nomasks rfl, rfl⟩ .nil))) true
  rw [hA] at g1
  injection g1 with g1
  subst g1
  rw [g2 y x hy hx]
  have hcase : (i = 0 ∧ im = exI 0 s) ∨ (i = 1 ∧ im = exI 1 4) := by
    match i, hi with
    | 0, hi => simp [exTr] at hi; exact .inl ⟨rfl, hi.2.symm⟩
    | 1, hi => simp [exTr] at hi; exact .inr ⟨rfl, hi.2.symm⟩
    | n + 2, hi => simp [exTr] at hi
  rcases hcase with ⟨rfl, rfl⟩ | ⟨rfl, rfl⟩
  · have hy : y < 2 := hy
    have hx : x < 2 := hx
    interval_cases y <;> interval_cases x <;> simp [exWorld, exI, exSky, exS, Sky.at, patchAt, Patch.at, exBase, exD] <;> ring
  · have hy : y < 2 := hy
    have hx : x < 2 := hx
    interval_cases y <;> interval_cases x <;> simp [exWorld, exI, exSky, exS, Sky.at, patchAt, Patch.at, exBase, exD] <;> ring

def exHooks : Tractor ℚ Unit → Nat → Nat → Option (List (Deriv ℚ)) := fun _ _ _ => none

theorem exReady (s a b : ℚ) : Ready exWorld exHooks (exTr s a b) := by
  refine ⟨fun x _ => exMask s a b x.2, ?_, ?_, ?_, ?_, ?_⟩
  · intro x hx
    simp only [exTr, List.mem_cons, List.not_mem_nil, or_false] at hx
    rcases hx with rfl | rfl <;> exact ⟨rfl, rfl, by show 2 * 2 < 2 ^ 31; norm_num⟩
  · simp [exTr, Tractor.par, PriorsOK, PriorsOKSubs, imagesSubs, catalogSubs, exI, exPar]
  · intro i x _ _ y _ _ l hl
    cases hl
  · intro x hx _
    simp only [exTr, List.mem_cons, List.not_mem_nil, or_false] at hx
    rcases hx with rfl | rfl <;> rfl
  · intro src hs x _ ds hds
    have : src = ⟨10, exPar a b⟩ := by simpa [exTr] using hs
    subst this
    obtain ⟨mask, -, rfl⟩ := hds
    split
    · simp
    · exact Nat.le_refl 2

theorem exLoc (s a b : ℚ) (k o j : Nat) (h : Located (exTr s a b) k o j) : (k = 0 ∧ o = 0 ∧ j = 0) ∨ (o = 2 ∧ k = 1 + j ∧ j < 2) := by
  obtain ⟨n, h1, h2, h3⟩ := h
  have hb : blocks (exTr s a b) = [1, 0, 2, 0, 0] := rfl
  rw [hb] at h1 h3
  match o with
  | 0 => simp at h1 h3; omega
  | 1 => simp at h1; omega
  | 2 => simp at h1 h3; omega
  | 3 => simp at h1; omega
  | 4 => simp at h1; omega
  | o + 5 => simp at h1

theorem exLinear (s a b : ℚ) : Linear exWorld exHooks (exTr s a b) exBase exD := by
  refine ⟨?_, ?_, ?_⟩
  · intro p hp i c im hi A hA y x hy hx
    rw [exN] at hp ⊢
    obtain ⟨s', a', b', rfl⟩ := exList p hp
    rw [exSet] at hi hA
    rw [exModel s' a' b' i c im hi A hA y x hy hx]
    simp [Finset.sum_range_succ]
  · intro k o' j c src hloc hc i c' im hi ds hds y x hy hx
    rcases exLoc s a b _ _ _ hloc with ⟨-, h, -⟩ | ⟨h, rfl, hj⟩
    · simp [exTr] at h
    · obtain ⟨mask, -, rfl⟩ := hds
      rw [if_neg (by simp [exTr])]
      have hyx : y < 2 ∧ x < 2 := by
        match i, hi with
        | 0, hi => simp [exTr] at hi; obtain ⟨-, rfl⟩ := hi; exact ⟨hy, hx⟩
        | 1, hi => simp [exTr] at hi; obtain ⟨-, rfl⟩ := hi; exact ⟨hy, hx⟩
        | n + 2, hi => simp [exTr] at hi
      obtain ⟨hy2, hx2⟩ := hyx
      interval_cases j <;> interval_cases y <;> interval_cases x <;> simp [exWorld, patchAt, Patch.at, exD]
  · intro k o j c im hloc ho d hd
    left
    rcases exLoc s a b _ _ _ hloc with ⟨rfl, rfl, rfl⟩ | ⟨rfl, -, -⟩
    · simp [exTr] at ho
      obtain ⟨-, rfl⟩ := ho
      have : reported (exHooks (exTr s a b) 0) (exI 0 s).par = [.false] := rfl
      rw [this] at hd
      simp at hd
      refine ⟨hd.symm, ?_⟩
      have : (getStepSizes (exTr s a b).par)[0]? = some (1 / 2) := rfl
      rw [this]
      simp
    · simp [exTr] at ho

theorem exOptions (S : Solver ℚ) (s a b : ℚ) : Options S ⟨false, true, true⟩ (exTr s a b) exD := by
  refine ⟨.inl rfl, by simp, fun _ _ => ?_⟩
  rw [exN]
  have : effect ⟨false, true, true⟩ (exTr s a b) exD 2 = 18 := by
    have hw : widths ⟨false, true, true⟩ (exTr s a b) 2 = [] := rfl
    rw [effect, hw]
    simp [exTr, exI, List.zipIdx, Finset.sum_range_succ, exD, Arr.ofLists]
    norm_num
  rw [this]
  norm_num

/-- The optimization from sky 3, pixels 1 and 2: one call reaches the maximum, and does not stay where it was. -/
example : ∃ (lsqr : Lsq.Problem ℚ → List ℚ) (T' : Tractor ℚ Unit) (r : Num ℚ × ℚ),
    optimize ⟨id, 0, lsqr⟩ exWorld exHooks ⟨false, true, true⟩ [1 / 4, 1 / 2, 1, 2] (exTr 3 1 2) = (T', .ok r) ∧ Best exWorld T' ∧ T' ≠ exTr 3 1 2 := by
  obtain ⟨lsqr, hl⟩ := Lsq.solver_exists (R := ℚ)
  obtain ⟨T', r, p, h1, -, -, h4, -⟩ := C143_best_partial ⟨id, 0, lsqr⟩ (fun x hx => hx) hl exWorld exHooks ⟨false, true, true⟩ (exTr 3 1 2) exBase exD
    (exReady 3 1 2) (exLinear 3 1 2) (exOptions _ 3 1 2) [1 / 4, 1 / 2] [2] (by intro a ha; simp at ha; rcases ha with rfl | rfl <;> norm_num)
    (by simp [List.pairwise_cons]; norm_num)
  refine ⟨lsqr, T', r, h1, h4, ?_⟩
  rintro rfl
  obtain ⟨L, l1, l2⟩ := h4
  obtain ⟨L', l3, l4⟩ := l2 [3, 0, 0] rfl
  rw [exSet] at l3
  have e1 : (logProb exWorld (exTr 3 1 2)).toOption = some (.fin L) := by rw [l1]; rfl
  have e2 : (logProb exWorld (exTr 3 0 0)).toOption = some (.fin L') := by rw [l3]; rfl
  have f : (match (logProb exWorld (exTr 3 0 0)).toOption, (logProb exWorld (exTr 3 1 2)).toOption with
    | some (.fin x), some (.fin y) => decide (y < x)
    | _, _ => false) = true := by decide +kernel
  rw [e1, e2] at f
  simp only [decide_eq_true_eq] at f
  linarith

/-- The loop: at most two rounds. -/
example : ∃ (lsqr : Lsq.Problem ℚ → List ℚ) (T' : Tractor ℚ Unit) (n : Nat),
    optimizeLoop ⟨id, 0, lsqr⟩ exWorld exHooks ⟨false, true, true⟩ [1 / 4, 1 / 2, 1, 2] 0 50 (exTr 3 1 2) = (T', .ok n) ∧ Best exWorld T' ∧ n ≤ 1 := by
  obtain ⟨lsqr, hl⟩ := Lsq.solver_exists (R := ℚ)
  obtain ⟨T', n, p, h1, -, -, h4, -, h5⟩ := C143_loop_partial ⟨id, 0, lsqr⟩ (fun x hx => hx) hl exWorld exHooks ⟨false, true, true⟩ (exTr 3 1 2)
    (fun p hp => by
      obtain ⟨s, a, b, rfl⟩ := exList p hp
      rw [exSet]
      exact ⟨exBase, exD, exReady s a b, exLinear s a b, exOptions _ s a b⟩)
    [1 / 4, 1 / 2] [2] (by intro a ha; simp at ha; rcases ha with rfl | rfl <;> norm_num) (by simp [List.pairwise_cons]; norm_num) 0 50 (by norm_num)
  exact ⟨lsqr, T', n, h1, h4, h5 (le_refl _)⟩

/-- Two starts, the same log-probability reached. -/
example : ∃ (lsqr : Lsq.Problem ℚ → List ℚ) (T1 T2 : Tractor ℚ Unit) (r1 r2 : Num ℚ × ℚ),
    optimize ⟨id, 0, lsqr⟩ exWorld exHooks ⟨false, true, true⟩ [1 / 4, 1 / 2, 1, 2] (exTr 3 1 2) = (T1, .ok r1) ∧
    optimize ⟨id, 0, lsqr⟩ exWorld exHooks ⟨false, true, true⟩ [1] (exTr (-7) 100 0) = (T2, .ok r2) ∧ logProb exWorld T1 = logProb exWorld T2 := by
  obtain ⟨lsqr, hl⟩ := Lsq.solver_exists (R := ℚ)
  obtain ⟨T1, r1, p1, h1, h2, rfl, h4, -⟩ := C143_best_partial ⟨id, 0, lsqr⟩ (fun x hx => hx) hl exWorld exHooks ⟨false, true, true⟩ (exTr 3 1 2) exBase
    exD (exReady 3 1 2) (exLinear 3 1 2) (exOptions _ 3 1 2) [1 / 4, 1 / 2] [2] (by intro a ha; simp at ha; rcases ha with rfl | rfl <;> norm_num)
    (by simp [List.pairwise_cons]; norm_num)
  obtain ⟨T2, r2, p2, g1, g2, rfl, g4, -⟩ := C143_best_partial ⟨id, 0, lsqr⟩ (fun x hx => hx) hl exWorld exHooks ⟨false, true, true⟩ (exTr (-7) 100 0)
    exBase exD (exReady _ _ _) (exLinear _ _ _) (exOptions _ _ _ _) [] [] (by simp) (by simp)
  have e : exTr (-7) 100 0 = setAll (exTr 3 1 2) [-7, 100, 0] := rfl
  refine ⟨lsqr, _, _, r1, r2, h1, g1, ?_⟩
  rw [e, setAll_setAll _ _ _ (by rw [exN] at g2 ⊢; exact g2)] at g4 ⊢
  exact C143_any_start exWorld (exTr 3 1 2) p1 p2 h2 (by rw [exN] at g2 ⊢; exact g2) h4 g4

/-- The tractor of the example with a mask that leaves out the second pixel of the source: IndexError. -/
def exBad : Tractor ℚ Unit := { exTr 3 1 2 with images := [(true, { exI 0 3 with inverr := Arr.ofLists [[1, 0], [2, 1]] 2 })] }

example : ∃ lsqr : Lsq.Problem ℚ → List ℚ,
    optimize ⟨id, 0, lsqr⟩ exWorld exHooks ⟨false, true, true⟩ [1 / 4, 1 / 2, 1, 2] exBad = (exBad, .error .index) := by
  obtain ⟨lsqr, hl⟩ := Lsq.solver_exists (R := ℚ)
  have hmask : ∀ im, MasksOK exBad im := by
    intro im masks h
    cases h
  have hloc : ∀ k o j, Located exBad k o j → (k = 0 ∧ o = 0 ∧ j = 0) ∨ (o = 1 ∧ k = 1 + j ∧ j < 2) := by
    rintro k o j ⟨n, h1, h2, h3⟩
    have hb : blocks exBad = [1, 2, 0, 0] := rfl
    rw [hb] at h1 h3
    match o with
    | 0 => simp at h1 h3; omega
    | 1 => simp at h1 h3; omega
    | 2 => simp at h1; omega
    | 3 => simp at h1; omega
    | o + 4 => simp at h1
  have hset : ∀ s a b : ℚ, (setAll exBad [s, a, b]).catalog = (exTr s a b).catalog ∧
      (setAll exBad [s, a, b]).images = [(true, { exI 0 s with inverr := Arr.ofLists [[1, 0], [2, 1]] 2 })] ∧
      (setAll exBad [s, a, b]).modelMasks = none ∧ (setAll exBad [s, a, b]).expectModelMasks = false := fun _ _ _ => ⟨rfl, rfl, rfl, rfl⟩
  have hready : Ready exWorld exHooks exBad := by
    refine ⟨fun x _ => hmask x.2, ?_, ?_, ?_, ?_, ?_⟩
    · intro x hx
      simp only [exBad, List.mem_cons, List.not_mem_nil, or_false] at hx
      rcases hx with rfl
      exact ⟨rfl, rfl, by show 2 * 2 < 2 ^ 31; norm_num⟩
    · simp [exBad, exTr, Tractor.par, PriorsOK, PriorsOKSubs, imagesSubs, catalogSubs, exI, exPar]
    · intro i x _ _ y _ _ l hl
      cases hl
    · intro x hx _
      simp only [exBad, List.mem_cons, List.not_mem_nil, or_false] at hx
      rcases hx with rfl
      rfl
    · intro src hs x _ ds hds
      have : src = ⟨10, exPar 1 2⟩ := by simpa [exBad, exTr] using hs
      subst this
      obtain ⟨mask, -, rfl⟩ := hds
      split
      · simp
      · exact Nat.le_refl 2
  have hlin : Linear exWorld exHooks exBad exBase exD := by
    refine ⟨?_, ?_, ?_⟩
    · intro p hp i c im hi A hA y x hy hx
      obtain ⟨s, a, b, rfl⟩ := exList p hp
      obtain ⟨c1, c2, c3, c4⟩ := hset s a b
      have hn : numberOfParams exBad.par = 3 := rfl
      have hA' : getModelImage exWorld (exTr s a b) { im with inverr := (exI 0 s).inverr } none true = .ok A := hA
      rw [c2] at hi
      have hi0 : i = 0 := by
        match i, hi with
        | 0, _ => rfl
        | n + 1, hi => simp at hi
      subst hi0
      simp only [List.getElem?_cons_zero, Option.some.injEq, Prod.mk.injEq] at hi
      obtain ⟨-, rfl⟩ := hi
      rw [hn, exModel s a b 0 true (exI 0 s) rfl A hA' y x hy hx]
      simp [Finset.sum_range_succ]
    · intro k o' j c src hlo hc i c' im hi ds hds y x hy hx
      rcases hloc _ _ _ hlo with ⟨-, h, -⟩ | ⟨h, rfl, hj⟩
      · simp [exBad] at h
      · obtain ⟨mask, -, rfl⟩ := hds
        rw [if_neg (by simp [exBad, exTr])]
        have hyx : y < 2 ∧ x < 2 := by
          match i, hi with
          | 0, hi => simp [exBad] at hi; obtain ⟨-, rfl⟩ := hi; exact ⟨hy, hx⟩
          | n + 1, hi => simp [exBad] at hi
        obtain ⟨hy2, hx2⟩ := hyx
        interval_cases j <;> interval_cases y <;> interval_cases x <;> simp [exWorld, patchAt, Patch.at, exD]
    · intro k o j c im hlo ho d hd
      left
      rcases hloc _ _ _ hlo with ⟨rfl, rfl, rfl⟩ | ⟨rfl, -, -⟩
      · simp [exBad] at ho
        obtain ⟨-, rfl⟩ := ho
        have : reported (exHooks exBad 0) (exI 0 3).par = [.false] := rfl
        rw [this] at hd
        simp at hd
        refine ⟨hd.symm, ?_⟩
        have : (getStepSizes exBad.par)[0]? = some (1 / 2) := rfl
        rw [this]
        simp
      · simp [exBad] at ho
  have heff : effect ⟨false, true, true⟩ exBad exD 2 = 0 ∧ effect ⟨false, true, true⟩ exBad exD 0 = 6 := by
    have hw : widths ⟨false, true, true⟩ exBad 2 = [] := rfl
    have hw0 : widths ⟨false, true, true⟩ exBad 0 = [] := rfl
    rw [effect, effect, hw, hw0]
    simp [exBad, exI, Finset.sum_range_succ, exD, Arr.ofLists]
    norm_num
  exact ⟨lsqr, C143_no_effect_false ⟨id, 0, lsqr⟩ (fun x hx => hx) hl exWorld exHooks ⟨false, true, true⟩ exBad exBase exD hready hlin (.inl rfl)
    (by simp) rfl heff.1 0 (by decide) (by rw [heff.2]; norm_num) _⟩

/-- **C143 is false if a calibration of an image reports None for one of its parameters** (`getParamDerivatives`): `optimize` raises AttributeError,
whatever the solver. -/
theorem C143_none_false (S : Solver ℚ) (alphas : List ℚ) :
    optimize S exWorld (fun _ _ _ => some [.none]) ⟨true, true, true⟩ alphas (exTr 3 1 2) = (exTr 3 1 2, .error .attribute) := rfl

end Verif.Fit
