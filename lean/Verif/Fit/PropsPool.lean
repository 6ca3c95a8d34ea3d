import Verif.Fit.Pool
import Verif.Fit.Props

/-!
# C158: adding up exposures, cutting images and rearranging pixels

Spec: two tractors, and a map from the pixels of one to the pixels of the other such that the models are the same, inverse variances add up and values
are averaged with these weights.
-/

namespace Verif.Fit

open Verif Params Patches Engine Finset

variable {R M M' : Type} [Field R] [LinearOrder R] [IsStrictOrderedRing R]

/-- **C158, log-probability.** For all values of the thawed parameters the log-probability with the pooled pixels is that with the single pixels plus half
the chi-squared of the single pixels about the pooled ones, a number that does not depend on the parameters and is not negative. -/
theorem C158_logprob (W : World R M) (T : Tractor R M) (W' : World R M') (T' : Tractor R M') (g : Pixel → Pixel) (h : Pools W T W' T' g)
    (hooks : Tractor R M → Nat → Nat → Option (List (Deriv R))) (hooks' : Tractor R M' → Nat → Nat → Option (List (Deriv R)))
    (hr : Ready W hooks T) (hr' : Ready W' hooks' T') (p : List R) (hp : p.length = numberOfParams T.par) :
    ∃ L, logProb W (setAll T p) = .ok (.fin L) ∧
      logProb W' (setAll T' p) = .ok (.fin (L + 1 / 2 * ∑ q ∈ pixelsOf T, ((valueAt T q - valueAt T' (g q)) * weightAt T q) ^ 2)) ∧
      0 ≤ 1 / 2 * ∑ q ∈ pixelsOf T, ((valueAt T q - valueAt T' (g q)) * weightAt T q) ^ 2 := by
  obtain ⟨L, h1, h2⟩ := pools_logProb h hr.mask hr.shape hr.prior hr'.mask hr'.shape p hp
  exact ⟨L, h1, h2, mul_nonneg (by norm_num) (sum_nonneg (fun _ _ => sq_nonneg _))⟩

/-- **C158, best values.** The same values of the thawed parameters are best. -/
theorem C158_best (W : World R M) (T : Tractor R M) (W' : World R M') (T' : Tractor R M') (g : Pixel → Pixel) (h : Pools W T W' T' g)
    (hooks : Tractor R M → Nat → Nat → Option (List (Deriv R))) (hooks' : Tractor R M' → Nat → Nat → Option (List (Deriv R)))
    (hr : Ready W hooks T) (hr' : Ready W' hooks' T') (p : List R) (hp : p.length = numberOfParams T.par) : Best W' (setAll T' p) ↔ Best W (setAll T p) := by
  have hlp := fun p hp => pools_logProb h hr.mask hr.shape hr.prior hr'.mask hr'.shape p hp
  have hp' : p.length = numberOfParams T'.par := hp.trans h.count.symm
  obtain ⟨L0, a1, a2⟩ := hlp p hp
  constructor
  · rintro ⟨L, b1, b2⟩
    refine ⟨L0, a1, fun q hq => ?_⟩
    rw [setAll_length] at hq
    obtain ⟨L1, c1, c2⟩ := hlp q hq
    obtain ⟨L', d1, d2⟩ := b2 q (by rw [setAll_length, h.count]; exact hq)
    rw [setAll_setAll _ _ _ (hq.trans h.count.symm), c2] at d1
    rw [a2] at b1
    cases d1
    cases b1
    exact ⟨L1, by rw [setAll_setAll _ _ _ hq]; exact c1, by linarith⟩
  · rintro ⟨L, b1, b2⟩
    refine ⟨_, a2, fun q hq => ?_⟩
    rw [setAll_length, h.count] at hq
    obtain ⟨L1, c1, c2⟩ := hlp q hq
    obtain ⟨L', d1, d2⟩ := b2 q (by rw [setAll_length]; exact hq)
    rw [setAll_setAll _ _ _ hq, c1] at d1
    rw [a1] at b1
    cases d1
    cases b1
    exact ⟨_, by rw [setAll_setAll _ _ _ (hq.trans h.count.symm)]; exact c2, by linarith⟩

/-- **C158, optimize.** If the derivatives (right or not) of the two are the same in pixels that matter and determine the update, `optimize` from the same
values ends at the same values and returns the same, with any two exact solvers, options and any step fractions.  The models need not be linear. -/
theorem C158_optimize (W : World R M) (T : Tractor R M) (W' : World R M') (T' : Tractor R M') (g : Pixel → Pixel) (h : Pools W T W' T' g)
    (hg : getParams T'.par = getParams T.par)
    (S S' : Solver R) (hsq : Lsq.SqrtOK S.sqrt) (hS : Lsq.Solves S.lsqr) (hsq' : Lsq.SqrtOK S'.sqrt) (hS' : Lsq.Solves S'.lsqr)
    (hooks : Tractor R M → Nat → Nat → Option (List (Deriv R))) (hooks' : Tractor R M' → Nat → Nat → Option (List (Deriv R))) (o o' : Opts)
    (D D' : Nat → Nat → Nat → Nat → R) (hr : Ready W hooks T) (hr' : Ready W' hooks' T') (hl : Reported W hooks T D) (hl' : Reported W' hooks' T' D')
    (ho : Options S o T D) (ho' : Options S' o' T' D') (hD : SameDerivs T g D D') (hi : Separate T D) (alphas : List R) :
    ∃ (v : List R) (r : Num R × R), v.length = numberOfParams T.par ∧ optimize S W hooks o alphas T = (setAll T v, .ok r) ∧
      optimize S' W' hooks' o' alphas T' = (setAll T' v, .ok r) :=
  optimize_pooled h hg S S' hsq hS hsq' hS' hooks hooks' o o' D D' hr hr' hl hl' ho ho' hD hi alphas

/-- **C158, optimize_loop.** So do the loops, if this is so at all values: the same number of rounds. -/
theorem C158_loop (W : World R M) (T : Tractor R M) (W' : World R M') (T' : Tractor R M') (g : Pixel → Pixel) (h : Pools W T W' T' g)
    (hg : getParams T'.par = getParams T.par)
    (S S' : Solver R) (hsq : Lsq.SqrtOK S.sqrt) (hS : Lsq.Solves S.lsqr) (hsq' : Lsq.SqrtOK S'.sqrt) (hS' : Lsq.Solves S'.lsqr)
    (hooks : Tractor R M → Nat → Nat → Option (List (Deriv R))) (hooks' : Tractor R M' → Nat → Nat → Option (List (Deriv R))) (o o' : Opts)
    (hall : ∀ p : List R, p.length = numberOfParams T.par → ∃ D D' : Nat → Nat → Nat → Nat → R, Ready W hooks (setAll T p) ∧ Ready W' hooks' (setAll T' p) ∧
      Reported W hooks (setAll T p) D ∧ Reported W' hooks' (setAll T' p) D' ∧ Options S o (setAll T p) D ∧ Options S' o' (setAll T' p) D' ∧
      SameDerivs T g D D' ∧ Separate T D) (alphas : List R) (dchisq : R) (steps : Nat) (hs : 0 < steps) :
    ∃ (v : List R) (s : Nat), v.length = numberOfParams T.par ∧ optimizeLoop S W hooks o alphas dchisq steps T = (setAll T v, .ok s) ∧
      optimizeLoop S' W' hooks' o' alphas dchisq steps T' = (setAll T' v, .ok s) := by
  obtain ⟨n, rfl⟩ : ∃ n, steps = n + 1 := ⟨steps - 1, by omega⟩
  exact loop_pooled S S' hsq hS hsq' hS' hooks hooks' o o' alphas dchisq n 0 T T' h hg hall

/-- **C158, variances.** The variances of `optimize(variance=True)` for linear models are the same. -/
theorem C158_variance (W : World R M) (T : Tractor R M) (W' : World R M') (T' : Tractor R M') (g : Pixel → Pixel) (h : Pools W T W' T' g)
    (S S' : Solver R) (hsq : Lsq.SqrtOK S.sqrt) (hS : Lsq.Solves S.lsqr) (hsq' : Lsq.SqrtOK S'.sqrt) (hS' : Lsq.Solves S'.lsqr)
    (hooks : Tractor R M → Nat → Nat → Option (List (Deriv R))) (hooks' : Tractor R M' → Nat → Nat → Option (List (Deriv R))) (shared priors : Bool)
    (base base' : Nat → Nat → Nat → R) (D D' : Nat → Nat → Nat → Nat → R) (hr : Ready W hooks T) (hr' : Ready W' hooks' T')
    (hl : Linear W hooks T base D) (hl' : Linear W' hooks' T' base' D') (ho : Options S ⟨true, shared, priors⟩ T D)
    (ho' : Options S' ⟨true, shared, priors⟩ T' D') (hD : SameDerivs T g D D')
    (hw : ∀ k, k < numberOfParams T.par → widths ⟨true, shared, priors⟩ T' k = widths ⟨true, shared, priors⟩ T k)
    (hne : ∃ k, k < numberOfParams T.par ∧ effect ⟨true, shared, priors⟩ T D k ≠ 0) (alphas : List R) :
    ∃ var : List R, var.length = numberOfParams T.par ∧ optimizeVar S W hooks shared priors true alphas T = (T, .ok (none, some var)) ∧
      optimizeVar S' W' hooks' shared priors true alphas T' = (T', .ok (none, some var)) := by
  have he : ∀ k, k < numberOfParams T.par → effect ⟨true, shared, priors⟩ T' D' k = effect ⟨true, shared, priors⟩ T D k :=
    fun k hk => pools_effect h _ D D' hD k hk (hw k hk)
  obtain ⟨k, hk, hek⟩ := hne
  obtain ⟨v, v1, v2, -⟩ := optimizeVar_ok S hsq hS W hooks shared priors T base D hr hl ho ⟨k, hk, hek⟩ alphas
  obtain ⟨v', v1', v2', -⟩ := optimizeVar_ok S' hsq' hS' W' hooks' shared priors T' base' D' hr' hl' ho' ⟨k, by rw [h.count]; exact hk, by rw [he k hk]; exact hek⟩ alphas
  have : v' = v := by
    rw [v1, v1', h.count]
    apply List.map_congr_left
    intro k hk
    rw [he k (List.mem_range.1 hk)]
  subst this
  exact ⟨v', by rw [v1]; simp, v2, v2'⟩

/-! ### Examples: two exposures and their sum -/

def exPoolIm (d v : List (List ℚ)) : Image ℚ := ⟨0, .cons ["sky"] true (.scalar (exS 3)) .nil, Arr.ofLists d 2, Arr.ofLists v 2⟩

def exPoolT (l : List (List (List ℚ) × List (List ℚ))) (a b : ℚ) : Tractor ℚ Unit :=
  ⟨true, l.map (fun z => (false, exPoolIm z.1 z.2)), true, [(true, some ⟨10, exPar a b⟩)], none, false⟩

/-- Two exposures, the second deeper; a pixel of the first one is masked. -/
def exPoolTwo : List (List (List ℚ) × List (List ℚ)) := [([[6, 3], [7, 8]], [[3, 3], [6, 0]]), ([[6, 28], [5, 1]], [[4, 4], [8, 5]])]

/-- Their sum. -/
def exPoolSum : List (List (List ℚ) × List (List ℚ)) := [([[6, 19], [143 / 25, 1]], [[5, 5], [10, 5]])]

/-- Their mean, without weights. -/
def exPoolMean : List (List (List ℚ) × List (List ℚ)) := [([[6, 31 / 2], [6, 9 / 2]], [[5, 5], [10, 5]])]

def exPoolG (q : Pixel) : Pixel := ⟨0, q.2⟩

def exPoolD (k _i y x : Nat) : ℚ := if y = 0 ∧ x = k then 1 else 0

def exPoolBase (_i _y _x : Nat) : ℚ := 3

inductive ExPool : List (List (List ℚ) × List (List ℚ)) → Prop
  | two : ExPool exPoolTwo
  | sum : ExPool exPoolSum
  | mean : ExPool exPoolMean

theorem exPoolSet {l : List (List (List ℚ) × List (List ℚ))} (hl : ExPool l) (a b a' b' : ℚ) : setAll (exPoolT l a b) [a', b'] = exPoolT l a' b' := by
  cases hl <;> rfl

theorem exPoolN {l : List (List (List ℚ) × List (List ℚ))} (hl : ExPool l) (a b : ℚ) : numberOfParams (exPoolT l a b).par = 2 := by
  cases hl <;> rfl

theorem exPoolList (p : List ℚ) (hp : p.length = 2) : ∃ a b, p = [a, b] := by
  match p, hp with
  | [a, b], _ => exact ⟨a, b, rfl⟩

theorem exPoolMask (l : List (List (List ℚ) × List (List ℚ))) (a b : ℚ) (im : Image ℚ) : MasksOK (exPoolT l a b) im := by
  intro masks h
  cases h

/-- The images. -/
theorem exPoolImages {l : List (List (List ℚ) × List (List ℚ))} (hl : ExPool l) (a b : ℚ) (i : Nat) (c : Bool) (im : Image ℚ)
    (hi : (exPoolT l a b).images[i]? = some (c, im)) : c = false ∧ im.data.h = 2 ∧ im.data.w = 2 ∧ im.inverr.h = 2 ∧ im.inverr.w = 2 ∧ exSky im = 3 := by
  have hm : (c, im) ∈ (exPoolT l a b).images := List.mem_of_getElem? hi
  cases hl <;> simp [exPoolT, exPoolTwo, exPoolSum, exPoolMean] at hm
  · rcases hm with ⟨rfl, rfl⟩ | ⟨rfl, rfl⟩ <;> exact ⟨rfl, rfl, rfl, rfl, rfl, rfl⟩
  · rcases hm with ⟨rfl, rfl⟩; exact ⟨rfl, rfl, rfl, rfl, rfl, rfl⟩
  · rcases hm with ⟨rfl, rfl⟩; exact ⟨rfl, rfl, rfl, rfl, rfl, rfl⟩

theorem exPoolModel {l : List (List (List ℚ) × List (List ℚ))} (hl : ExPool l) (a b : ℚ) (i : Nat) (c : Bool) (im : Image ℚ)
    (hi : (exPoolT l a b).images[i]? = some (c, im)) (A : Arr ℚ)
    (hA : getModelImage exWorld (exPoolT l a b) im none true = .ok A) (y x : Nat) (hy : y < im.data.h) (hx : x < im.data.w) :
    A.px y x = exPoolBase i y x + (a * exPoolD 0 i y x + b * exPoolD 1 i y x) := by
  obtain ⟨-, h⟩ := C29_model_image exWorld (exPoolT l a b) im (exPoolMask l a b im) none
  obtain ⟨r, g1, -, -, g2⟩ := h [some ⟨0, 0, some ⟨1, 2, fun _ c => (([a, b] : List ℚ)[c]?).getD 0⟩⟩]
    (.cons ⟨none, .nomasks rfl, rfl⟩ .nil) true
  rw [hA] at g1
  injection g1 with g1
  subst g1
  rw [g2 y x hy hx]
  obtain ⟨-, e1, e2, -, -, e3⟩ := exPoolImages hl a b i c im hi
  rw [e1] at hy
  rw [e2] at hx
  interval_cases y <;> interval_cases x <;> simp [exWorld, e3, Sky.at, patchAt, Patch.at, exPoolBase, exPoolD]

theorem exPoolPixel {l : List (List (List ℚ) × List (List ℚ))} (hl : ExPool l) (a b : ℚ) (q : Pixel) (hq : q ∈ pixelsOf (exPoolT l a b)) :
    pixel exWorld (exPoolT l a b) q.1 q.2.1 q.2.2 = 3 + (a * exPoolD 0 0 q.2.1 q.2.2 + b * exPoolD 1 0 q.2.1 q.2.2) := by
  obtain ⟨i, y, x⟩ := q
  simp only [pixelsOf, mem_sigma, mem_product, mem_range] at hq
  obtain ⟨h1, h2, h3⟩ := hq
  have hi := List.getElem?_eq_getElem h1
  rw [hi] at h2 h3
  simp only [Option.map_some, Option.getD_some] at h2 h3
  generalize hz : (exPoolT l a b).images[i] = z at *
  obtain ⟨c, im⟩ := z
  dsimp only at *
  obtain ⟨-, h⟩ := C29_model_image exWorld (exPoolT l a b) im (exPoolMask l a b im) none
  obtain ⟨A, g1, -, -, -⟩ := h [some ⟨0, 0, some ⟨1, 2, fun _ c => (([a, b] : List ℚ)[c]?).getD 0⟩⟩]
    (.cons ⟨none, .nomasks rfl, rfl⟩ .nil) true
  have := exPoolModel hl a b i c im hi A g1 y x h2 h3
  unfold pixel
  rw [hi]
  dsimp only
  rw [g1]
  exact this

theorem exPoolReady {l : List (List (List ℚ) × List (List ℚ))} (hl : ExPool l) (a b : ℚ) : Ready exWorld exHooks (exPoolT l a b) := by
  refine ⟨fun x _ => exPoolMask l a b x.2, ?_, ?_, ?_, ?_, ?_⟩
  · rintro ⟨c, im⟩ hx
    obtain ⟨i, hi⟩ := List.getElem?_of_mem hx
    obtain ⟨-, e1, e2, e3, e4, -⟩ := exPoolImages hl a b i c im hi
    dsimp only
    rw [e1, e2, e3, e4]
    norm_num
  · cases hl <;> simp [exPoolT, exPoolTwo, exPoolSum, exPoolMean, exPoolIm, Tractor.par, PriorsOK, PriorsOKSubs, imagesSubs, catalogSubs, exPar]
  · intro i x _ _ y _ _ l hl
    cases hl
  · rintro ⟨c, im⟩ hx hc
    obtain ⟨i, hi⟩ := List.getElem?_of_mem hx
    obtain ⟨e0, -⟩ := exPoolImages hl a b i c im hi
    dsimp only at hc
    rw [e0] at hc
    cases hc
  · intro src hs x _ ds hds
    have : src = ⟨10, exPar a b⟩ := by simpa [exPoolT] using hs
    subst this
    obtain ⟨mask, -, rfl⟩ := hds
    split
    · simp
    · exact Nat.le_refl 2

theorem exPoolLoc {l : List (List (List ℚ) × List (List ℚ))} (hl : ExPool l) (a b : ℚ) (k o j : Nat) (h : Located (exPoolT l a b) k o j) :
    o = (exPoolT l a b).images.length ∧ k = j ∧ j < 2 := by
  obtain ⟨n, h1, h2, h3⟩ := h
  cases hl with
  | two =>
    have hb : blocks (exPoolT exPoolTwo a b) = [0, 0, 2] := rfl
    have hn : (exPoolT exPoolTwo a b).images.length = 2 := rfl
    rw [hb] at h1 h3
    rw [hn]
    match o with
    | 0 => simp at h1; omega
    | 1 => simp at h1; omega
    | 2 => simp at h1 h3; omega
    | o + 3 => simp at h1
  | sum =>
    have hb : blocks (exPoolT exPoolSum a b) = [0, 2] := rfl
    have hn : (exPoolT exPoolSum a b).images.length = 1 := rfl
    rw [hb] at h1 h3
    rw [hn]
    match o with
    | 0 => simp at h1; omega
    | 1 => simp at h1 h3; omega
    | o + 2 => simp at h1
  | mean =>
    have hb : blocks (exPoolT exPoolMean a b) = [0, 2] := rfl
    have hn : (exPoolT exPoolMean a b).images.length = 1 := rfl
    rw [hb] at h1 h3
    rw [hn]
    match o with
    | 0 => simp at h1; omega
    | 1 => simp at h1 h3; omega
    | o + 2 => simp at h1

theorem exPoolLinear {l : List (List (List ℚ) × List (List ℚ))} (hl : ExPool l) (a b : ℚ) : Linear exWorld exHooks (exPoolT l a b) exPoolBase exPoolD := by
  refine ⟨?_, ?_, ?_⟩
  · intro p hp i c im hi A hA y x hy hx
    rw [exPoolN hl] at hp ⊢
    obtain ⟨a', b', rfl⟩ := exPoolList p hp
    rw [exPoolSet hl] at hi hA
    rw [exPoolModel hl a' b' i c im hi A hA y x hy hx]
    simp [Finset.sum_range_succ]
  · intro k o' j c src hloc hc i c' im hi ds hds y x hy hx
    obtain ⟨-, rfl, hj⟩ := exPoolLoc hl a b _ _ _ hloc
    obtain ⟨mask, -, rfl⟩ := hds
    rw [if_neg (by simp [exPoolT])]
    obtain ⟨-, e1, e2, -⟩ := exPoolImages hl a b i c' im hi
    rw [e1] at hy
    rw [e2] at hx
    interval_cases k <;> interval_cases y <;> interval_cases x <;> simp [exWorld, patchAt, Patch.at, exPoolD]
  · intro k o j c im hloc ho d hd
    obtain ⟨rfl, -, -⟩ := exPoolLoc hl a b _ _ _ hloc
    simp at ho

theorem exPoolReported {l : List (List (List ℚ) × List (List ℚ))} (hl : ExPool l) (a b : ℚ) : Reported exWorld exHooks (exPoolT l a b) exPoolD := by
  refine ⟨(exPoolLinear hl a b).source, ?_, ?_⟩
  · intro k o j c im hloc ho d hd
    obtain ⟨rfl, -, -⟩ := exPoolLoc hl a b _ _ _ hloc
    simp at ho
  · intro k o j c im hloc ho
    obtain ⟨rfl, -, -⟩ := exPoolLoc hl a b _ _ _ hloc
    simp at ho

theorem exPoolOptions (S : Solver ℚ) {l : List (List (List ℚ) × List (List ℚ))} (hl : ExPool l) (a b : ℚ) :
    Options S ⟨false, false, true⟩ (exPoolT l a b) exPoolD :=
  ⟨.inl rfl, by simp, by simp⟩

theorem exPoolAligned {l : List (List (List ℚ) × List (List ℚ))} (hl : l = exPoolSum ∨ l = exPoolMean) (a b : ℚ) :
    Aligned exWorld (exPoolT exPoolTwo a b) exWorld (exPoolT l a b) exPoolG := by
  have hl' : ExPool l := by
    rcases hl with rfl | rfl
    · exact .sum
    · exact .mean
  have hm : ∀ (a b : ℚ), ∀ q ∈ pixelsOf (exPoolT exPoolTwo a b), exPoolG q ∈ pixelsOf (exPoolT l a b) := by
    intro a b
    have : ∀ q ∈ pixelsOf (exPoolT exPoolTwo 0 0), exPoolG q ∈ pixelsOf (exPoolT l 0 0) := by
      rcases hl with rfl | rfl <;> decide +kernel
    exact this
  refine ⟨by rw [exPoolN hl', exPoolN .two], ?_, fun q hq _ => hm a b q hq, ?_, ?_⟩
  · intro p hp
    rw [exPoolN .two] at hp
    obtain ⟨a', b', rfl⟩ := exPoolList p hp
    rcases hl with rfl | rfl <;> rfl
  · intro p hp q hq _
    rw [exPoolN .two] at hp
    obtain ⟨a', b', rfl⟩ := exPoolList p hp
    rw [exPoolSet hl', exPoolSet .two, exPoolPixel .two a' b' q hq, exPoolPixel hl' a' b' (exPoolG q) (hm a' b' q hq)]
    rfl
  · have : ∀ q' ∈ pixelsOf (exPoolT l 0 0), weightAt (exPoolT l 0 0) q' ^ 2 = ∑ q ∈ pixelsOf (exPoolT exPoolTwo 0 0) with exPoolG q = q',
        weightAt (exPoolT exPoolTwo 0 0) q ^ 2 := by
      rcases hl with rfl | rfl <;> decide +kernel
    exact this

theorem exPools (a b : ℚ) : Pools exWorld (exPoolT exPoolTwo a b) exWorld (exPoolT exPoolSum a b) exPoolG := by
  refine ⟨exPoolAligned (.inl rfl) a b, ?_⟩
  have : ∀ q' ∈ pixelsOf (exPoolT exPoolSum 0 0), weightAt (exPoolT exPoolSum 0 0) q' ^ 2 * valueAt (exPoolT exPoolSum 0 0) q' =
      ∑ q ∈ pixelsOf (exPoolT exPoolTwo 0 0) with exPoolG q = q', weightAt (exPoolT exPoolTwo 0 0) q ^ 2 * valueAt (exPoolT exPoolTwo 0 0) q := by
    decide +kernel
  exact this

theorem exPoolSeparate (a b : ℚ) : Separate (exPoolT exPoolTwo a b) exPoolD := by
  intro X hX h k
  rw [exPoolN .two] at hX h
  obtain ⟨u, v, rfl⟩ := exPoolList X hX
  have h0 := h ⟨0, 0, 0⟩ (by have : (⟨0, 0, 0⟩ : Pixel) ∈ pixelsOf (exPoolT exPoolTwo 0 0) := by decide +kernel
                             exact this)
    (by have : weightAt (exPoolT exPoolTwo 0 0) ⟨0, 0, 0⟩ ≠ 0 := by decide +kernel
        exact this)
  have h1 := h ⟨0, 0, 1⟩ (by have : (⟨0, 0, 1⟩ : Pixel) ∈ pixelsOf (exPoolT exPoolTwo 0 0) := by decide +kernel
                             exact this)
    (by have : weightAt (exPoolT exPoolTwo 0 0) ⟨0, 0, 1⟩ ≠ 0 := by decide +kernel
        exact this)
  simp [sum_range_succ, exPoolD] at h0 h1
  subst h0 h1
  match k with
  | 0 => rfl
  | 1 => rfl
  | k + 2 => rfl

/-- The log-probabilities differ by the scatter of the exposures about their sum, whatever the parameters. -/
example (a b : ℚ) : ∃ L, logProb exWorld (exPoolT exPoolTwo a b) = .ok (.fin L) ∧ logProb exWorld (exPoolT exPoolSum a b) = .ok (.fin (L + 46152 / 25)) := by
  obtain ⟨L, h1, h2, -⟩ := C158_logprob exWorld (exPoolT exPoolTwo a b) exWorld (exPoolT exPoolSum a b) exPoolG (exPools a b) exHooks exHooks (exPoolReady .two a b)
    (exPoolReady .sum a b) [a, b] rfl
  rw [exPoolSet .two] at h1
  rw [exPoolSet .sum] at h2
  refine ⟨L, h1, ?_⟩
  rw [h2]
  have : (1 / 2 * ∑ q ∈ pixelsOf (exPoolT exPoolTwo 0 0), ((valueAt (exPoolT exPoolTwo 0 0) q - valueAt (exPoolT exPoolSum 0 0) (exPoolG q)) *
    weightAt (exPoolT exPoolTwo 0 0) q) ^ 2 : ℚ) = 46152 / 25 := by decide +kernel
  congr 3

/-- Optimizing the sum ends at the same values as optimizing the exposures. -/
example : ∃ (lsqr : Lsq.Problem ℚ → List ℚ) (v : List ℚ) (r : Num ℚ × ℚ),
    optimize ⟨id, 0, lsqr⟩ exWorld exHooks ⟨false, false, true⟩ [1 / 4, 1, 2] (exPoolT exPoolTwo 1 2) = (setAll (exPoolT exPoolTwo 1 2) v, .ok r) ∧
    optimize ⟨id, 0, lsqr⟩ exWorld exHooks ⟨false, false, true⟩ [1 / 4, 1, 2] (exPoolT exPoolSum 1 2) = (setAll (exPoolT exPoolSum 1 2) v, .ok r) := by
  obtain ⟨lsqr, hl⟩ := Lsq.solver_exists (R := ℚ)
  obtain ⟨v, r, -, h1, h2⟩ := C158_optimize exWorld (exPoolT exPoolTwo 1 2) exWorld (exPoolT exPoolSum 1 2) exPoolG (exPools 1 2) rfl ⟨id, 0, lsqr⟩ ⟨id, 0, lsqr⟩
    (fun x hx => hx) hl (fun x hx => hx) hl exHooks exHooks ⟨false, false, true⟩ ⟨false, false, true⟩ exPoolD exPoolD (exPoolReady .two 1 2)
    (exPoolReady .sum 1 2) (exPoolReported .two 1 2) (exPoolReported .sum 1 2) (exPoolOptions _ .two 1 2) (exPoolOptions _ .sum 1 2)
    (fun k _ q _ _ => rfl) (exPoolSeparate 1 2) [1 / 4, 1, 2]
  exact ⟨lsqr, v, r, h1, h2⟩

/-- The loops. -/
example : ∃ (lsqr : Lsq.Problem ℚ → List ℚ) (v : List ℚ) (n : Nat),
    optimizeLoop ⟨id, 0, lsqr⟩ exWorld exHooks ⟨false, false, true⟩ [1 / 4, 1 / 2] (1 / 100) 7 (exPoolT exPoolTwo 1 2) = (setAll (exPoolT exPoolTwo 1 2) v, .ok n) ∧
    optimizeLoop ⟨id, 0, lsqr⟩ exWorld exHooks ⟨false, false, true⟩ [1 / 4, 1 / 2] (1 / 100) 7 (exPoolT exPoolSum 1 2) = (setAll (exPoolT exPoolSum 1 2) v, .ok n) := by
  obtain ⟨lsqr, hl⟩ := Lsq.solver_exists (R := ℚ)
  obtain ⟨v, n, -, h1, h2⟩ := C158_loop exWorld (exPoolT exPoolTwo 1 2) exWorld (exPoolT exPoolSum 1 2) exPoolG (exPools 1 2) rfl ⟨id, 0, lsqr⟩ ⟨id, 0, lsqr⟩
    (fun x hx => hx) hl (fun x hx => hx) hl exHooks exHooks ⟨false, false, true⟩ ⟨false, false, true⟩ (fun p hp => by
      obtain ⟨a, b, rfl⟩ := exPoolList p hp
      rw [exPoolSet .two, exPoolSet .sum]
      exact ⟨exPoolD, exPoolD, exPoolReady .two a b, exPoolReady .sum a b, exPoolReported .two a b, exPoolReported .sum a b, exPoolOptions _ .two a b,
        exPoolOptions _ .sum a b, fun k _ q _ _ => rfl, exPoolSeparate 1 2⟩) [1 / 4, 1 / 2] (1 / 100) 7 (by norm_num)
  exact ⟨lsqr, v, n, h1, h2⟩

/-- The log-probability of the examples. -/
theorem exPoolLogProb (a b : ℚ) : logProb exWorld (exPoolT exPoolTwo a b) = .ok (.fin (-(1 / 2) * ((a - 3) ^ 2 / 4 + 25 * (a - 3) ^ 2 + 9 * b ^ 2 + 16 * (b - 25) ^ 2 + 932))) ∧
    logProb exWorld (exPoolT exPoolMean a b) = .ok (.fin (-(1 / 2) * ((a - 3) ^ 2 / 4 + 25 * (a - 3) ^ 2 + 25 * (b - 25 / 2) ^ 2 + 3825 / 4))) := by
  have hP : ∀ l, ExPool l → getLogPrior (setParams (exPoolT l a b).par [a, b]).1 = .ok (-(1 / 2) * ((a - 3) ^ 2 / 4)) := by
    intro l hl
    have e : (setParams (exPoolT l a b).par [a, b]).1 = (exPoolT l a b).par := by cases hl <;> rfl
    rw [e]
    cases hl <;> simp [exPoolT, exPoolTwo, exPoolSum, exPoolMean, exPoolIm, Tractor.par, imagesSubs, catalogSubs, exPar, exS, getLogPrior, getLogPriorSubs, gaussianLogPrior, gaussianChisq, Except.map, vals] <;> ring
  have hL : ∀ l, ExPool l → logProb exWorld (exPoolT l a b) = .ok (.fin (-(1 / 2) * ((a - 3) ^ 2 / 4) + -(1 / 2) * ∑ q ∈ pixelsOf (exPoolT l a b),
      ((valueAt (exPoolT l a b) q - (3 + (a * exPoolD 0 0 q.2.1 q.2.2 + b * exPoolD 1 0 q.2.1 q.2.2))) * weightAt (exPoolT l a b) q) ^ 2)) := by
    intro l hl
    have := logProb_pixels exWorld (exPoolT l a b) (exPoolReady hl a b).mask (exPoolReady hl a b).shape [a, b] _ (hP l hl)
    rw [exPoolSet hl] at this
    rw [this]
    congr 4
    exact sum_congr rfl (fun q hq => by rw [exPoolPixel hl a b q hq])
  constructor
  · rw [hL _ .two, sum_pixels]
    simp [exPoolT, exPoolTwo, exPoolIm, sum_range_succ, valueAt, weightAt, exPoolD, Arr.ofLists]
    ring
  · rw [hL _ .mean, sum_pixels]
    simp [exPoolT, exPoolMean, exPoolIm, sum_range_succ, valueAt, weightAt, exPoolD, Arr.ofLists]
    ring

theorem exPoolBest : Best exWorld (exPoolT exPoolTwo 3 16) := by
  refine ⟨_, (exPoolLogProb 3 16).1, fun q hq => ?_⟩
  obtain ⟨a, b, rfl⟩ := exPoolList q hq
  rw [exPoolSet .two]
  refine ⟨_, (exPoolLogProb a b).1, ?_⟩
  nlinarith [sq_nonneg (a - 3), sq_nonneg (b - 16)]

/-- The best values are best for the sum too. -/
example : Best exWorld (exPoolT exPoolSum 3 16) := by
  have := (C158_best exWorld (exPoolT exPoolTwo 1 2) exWorld (exPoolT exPoolSum 1 2) exPoolG (exPools 1 2) exHooks exHooks (exPoolReady .two 1 2)
    (exPoolReady .sum 1 2) [3, 16] rfl).2
  rw [exPoolSet .two, exPoolSet .sum] at this
  exact this exPoolBest

/-- The variances. -/
example : ∃ (lsqr : Lsq.Problem ℚ → List ℚ) (var : List ℚ),
    optimizeVar ⟨fun _ => 1, 0, lsqr⟩ exWorld exHooks false true true [1] (exPoolT exPoolTwo 1 2) = (exPoolT exPoolTwo 1 2, .ok (none, some var)) ∧
    optimizeVar ⟨fun _ => 1, 0, lsqr⟩ exWorld exHooks false true true [1] (exPoolT exPoolSum 1 2) = (exPoolT exPoolSum 1 2, .ok (none, some var)) := by
  obtain ⟨lsqr, hl⟩ := Lsq.solver_exists (R := ℚ)
  have ho : ∀ l, Options ⟨fun _ => 1, 0, lsqr⟩ ⟨true, false, true⟩ (exPoolT l 1 2) exPoolD := fun l => ⟨.inl rfl, fun _ k v hv _ => by simpa using hv, by simp⟩
  obtain ⟨var, -, h1, h2⟩ := C158_variance exWorld (exPoolT exPoolTwo 1 2) exWorld (exPoolT exPoolSum 1 2) exPoolG (exPools 1 2) ⟨fun _ => 1, 0, lsqr⟩
    ⟨fun _ => 1, 0, lsqr⟩ (fun _ _ => one_pos) hl (fun _ _ => one_pos) hl exHooks exHooks false true exPoolBase exPoolBase exPoolD exPoolD (exPoolReady .two 1 2)
    (exPoolReady .sum 1 2) (exPoolLinear .two 1 2) (exPoolLinear .sum 1 2) (ho _) (ho _) (fun k _ q _ _ => rfl) (fun k _ => rfl) ⟨1, by rw [exPoolN .two]; norm_num, by
      have hw : widths ⟨true, false, true⟩ (exPoolT exPoolTwo 1 2) 1 = [] := rfl
      rw [effect, hw]
      simp [exPoolT, exPoolTwo, exPoolIm, List.zipIdx, sum_range_succ, exPoolD, Arr.ofLists]
      norm_num⟩ [1]
  exact ⟨lsqr, var, h1, h2⟩

/-- **C158, means without weights.** If the exposures are averaged without weights (the inverse variances still added up) the values found are other
ones. -/
theorem C158_mean_false : ∃ (W : World ℚ Unit) (hooks : Tractor ℚ Unit → Nat → Nat → Option (List (Deriv ℚ))) (T T' : Tractor ℚ Unit) (g : Pixel → Pixel) (p : List ℚ),
    Ready W hooks T ∧ Ready W hooks T' ∧ Aligned W T W T' g ∧ p.length = numberOfParams T.par ∧
    (∀ q' ∈ pixelsOf T', (∑ q ∈ pixelsOf T with g q = q', 1) * valueAt T' q' = ∑ q ∈ pixelsOf T with g q = q', valueAt T q) ∧
    Best W (setAll T p) ∧ ¬ Best W (setAll T' p) := by
  refine ⟨exWorld, exHooks, exPoolT exPoolTwo 1 2, exPoolT exPoolMean 1 2, exPoolG, [3, 16], exPoolReady .two 1 2, exPoolReady .mean 1 2,
    exPoolAligned (.inr rfl) 1 2, rfl, ?_, ?_, ?_⟩
  · have : ∀ q' ∈ pixelsOf (exPoolT exPoolMean 0 0), (∑ q ∈ pixelsOf (exPoolT exPoolTwo 0 0) with exPoolG q = q', 1) * valueAt (exPoolT exPoolMean 0 0) q' =
        ∑ q ∈ pixelsOf (exPoolT exPoolTwo 0 0) with exPoolG q = q', valueAt (exPoolT exPoolTwo 0 0) q := by decide +kernel
    exact this
  · rw [exPoolSet .two]
    exact exPoolBest
  · rw [exPoolSet .mean]
    rintro ⟨L, h1, h2⟩
    obtain ⟨L', h3, h4⟩ := h2 [3, 25 / 2] rfl
    rw [exPoolSet .mean, (exPoolLogProb 3 (25 / 2)).2] at h3
    rw [(exPoolLogProb 3 16).2] at h1
    cases h1
    cases h3
    norm_num at h4

end Verif.Fit
