import Verif.Fit.Recast
import Verif.Fit.PropsDamped
import Verif.Fit.PropsPool

/-!
# C159: units and linear changes of the parameters

Spec: two tractors, the data and models of one those of the other times a factor for each image; the parameters of one an invertible matrix times those of
the other, plus a constant.
-/

namespace Verif.Fit

open Verif Params Patches Engine Finset

variable {R M M' : Type} [Field R] [LinearOrder R] [IsStrictOrderedRing R]

/-- **C159, log-probability.** The log-probabilities at corresponding values of the parameters differ by the constant of the priors only. -/
theorem C159_logprob (W : World R M) (T : Tractor R M) (W' : World R M') (T' : Tractor R M') (c : Nat → R) (B : Nat → Nat → R) (b : Nat → R) (C : R)
    (h : Recast W T W' T' c B b C)
    (hooks : Tractor R M → Nat → Nat → Option (List (Deriv R))) (hooks' : Tractor R M' → Nat → Nat → Option (List (Deriv R)))
    (hr : Ready W hooks T) (hr' : Ready W' hooks' T') (p : List R) (hp : p.length = numberOfParams T.par) :
    ∃ L, logProb W (setAll T (affine (numberOfParams T.par) B b p)) = .ok (.fin L) ∧ logProb W' (setAll T' p) = .ok (.fin (L + C)) :=
  h.logProb hr.mask hr.shape hr.prior hr'.mask hr'.shape p hp

/-- **C159, optimize.** If the derivatives (right or not) are related by the chain rule and determine the update, `optimize` from corresponding values ends at
corresponding values and returns the same change of the log-probability and the same fraction, with any two exact solvers, options and any step fractions.
The models need not be linear. -/
theorem C159_optimize (W : World R M) (T : Tractor R M) (W' : World R M') (T' : Tractor R M') (c : Nat → R) (B : Nat → Nat → R) (b : Nat → R) (C : R)
    (h : Recast W T W' T' c B b C) (hg : getParams T.par = affine (numberOfParams T.par) B b (getParams T'.par))
    (S S' : Solver R) (hsq : Lsq.SqrtOK S.sqrt) (hS : Lsq.Solves S.lsqr) (hsq' : Lsq.SqrtOK S'.sqrt) (hS' : Lsq.Solves S'.lsqr)
    (hooks : Tractor R M → Nat → Nat → Option (List (Deriv R))) (hooks' : Tractor R M' → Nat → Nat → Option (List (Deriv R))) (o o' : Opts)
    (D D' : Nat → Nat → Nat → Nat → R) (hr : Ready W hooks T) (hr' : Ready W' hooks' T') (hl : Reported W hooks T D) (hl' : Reported W' hooks' T' D')
    (ho : Options S o T D) (ho' : Options S' o' T' D') (hD : Chain T c B D D') (hi : Separate T D) (alphas : List R) :
    ∃ (v : List R) (r : Num R × R), v.length = numberOfParams T.par ∧
      optimize S W hooks o alphas T = (setAll T (affine (numberOfParams T.par) B b v), .ok r) ∧
      optimize S' W' hooks' o' alphas T' = (setAll T' v, .ok r) :=
  optimize_recast h hg S S' hsq hS hsq' hS' hooks hooks' o o' D D' hr hr' hl hl' ho ho' hD hi alphas

/-- **C159, optimize_loop.** So do the loops, if this is so at all values: the same number of rounds. -/
theorem C159_loop (W : World R M) (T : Tractor R M) (W' : World R M') (T' : Tractor R M') (c : Nat → R) (B : Nat → Nat → R) (b : Nat → R) (C : R)
    (h : Recast W T W' T' c B b C) (hg : getParams T.par = affine (numberOfParams T.par) B b (getParams T'.par))
    (S S' : Solver R) (hsq : Lsq.SqrtOK S.sqrt) (hS : Lsq.Solves S.lsqr) (hsq' : Lsq.SqrtOK S'.sqrt) (hS' : Lsq.Solves S'.lsqr)
    (hooks : Tractor R M → Nat → Nat → Option (List (Deriv R))) (hooks' : Tractor R M' → Nat → Nat → Option (List (Deriv R))) (o o' : Opts)
    (hall : ∀ p : List R, p.length = numberOfParams T.par → ∃ D D' : Nat → Nat → Nat → Nat → R,
      Ready W hooks (setAll T (affine (numberOfParams T.par) B b p)) ∧ Ready W' hooks' (setAll T' p) ∧
      Reported W hooks (setAll T (affine (numberOfParams T.par) B b p)) D ∧ Reported W' hooks' (setAll T' p) D' ∧
      Options S o (setAll T (affine (numberOfParams T.par) B b p)) D ∧ Options S' o' (setAll T' p) D' ∧ Chain T c B D D' ∧ Separate T D)
    (alphas : List R) (dchisq : R) (steps : Nat) (hs : 0 < steps) :
    ∃ (v : List R) (s : Nat), v.length = numberOfParams T.par ∧
      optimizeLoop S W hooks o alphas dchisq steps T = (setAll T (affine (numberOfParams T.par) B b v), .ok s) ∧
      optimizeLoop S' W' hooks' o' alphas dchisq steps T' = (setAll T' v, .ok s) := by
  obtain ⟨n, rfl⟩ : ∃ n, steps = n + 1 := ⟨steps - 1, by omega⟩
  exact loop_recast S S' hsq hS hsq' hS' hooks hooks' o o' alphas dchisq n 0 T T' h hg hall

/-- **C159, variances.** If only the units of the parameters are changed (parameter `k` of `T` is `B k k` times that of `T'`, plus a constant), the variances of
`optimize(variance=True)` for linear models are divided by the squares of these factors. -/
theorem C159_variance (W : World R M) (T : Tractor R M) (W' : World R M') (T' : Tractor R M') (c : Nat → R) (B : Nat → Nat → R) (b : Nat → R) (C : R)
    (h : Recast W T W' T' c B b C) (hB : ∀ j k, j ≠ k → B j k = 0)
    (S S' : Solver R) (hsq : Lsq.SqrtOK S.sqrt) (hS : Lsq.Solves S.lsqr) (hsq' : Lsq.SqrtOK S'.sqrt) (hS' : Lsq.Solves S'.lsqr)
    (hooks : Tractor R M → Nat → Nat → Option (List (Deriv R))) (hooks' : Tractor R M' → Nat → Nat → Option (List (Deriv R))) (shared priors : Bool)
    (base base' : Nat → Nat → Nat → R) (D D' : Nat → Nat → Nat → Nat → R) (hr : Ready W hooks T) (hr' : Ready W' hooks' T')
    (hl : Linear W hooks T base D) (hl' : Linear W' hooks' T' base' D') (ho : Options S ⟨true, shared, priors⟩ T D)
    (ho' : Options S' ⟨true, shared, priors⟩ T' D') (hD : Chain T c B D D')
    (hw : ∀ k, k < numberOfParams T.par → widths ⟨true, shared, priors⟩ T' k = (widths ⟨true, shared, priors⟩ T k).map (fun s => s / B k k))
    (hne : ∃ k, k < numberOfParams T.par ∧ effect ⟨true, shared, priors⟩ T D k ≠ 0) (alphas : List R) :
    ∃ var var' : List R, var.length = numberOfParams T.par ∧ var' = var.zipIdx.map (fun x => x.1 / B x.2 x.2 ^ 2) ∧
      optimizeVar S W hooks shared priors true alphas T = (T, .ok (none, some var)) ∧
      optimizeVar S' W' hooks' shared priors true alphas T' = (T', .ok (none, some var')) := by
  have hBk : ∀ k, k < numberOfParams T.par → B k k ≠ 0 := by
    intro k hk h0
    obtain ⟨B', hB'⟩ := h.invertible
    have := hB' k k hk hk
    rw [if_pos rfl, sum_eq_zero] at this
    · exact zero_ne_one this
    · intro l _
      by_cases hkl : k = l
      · subst hkl
        rw [h0, zero_mul]
      · rw [hB k l hkl, zero_mul]
  have he : ∀ k, k < numberOfParams T.par → effect ⟨true, shared, priors⟩ T' D' k = B k k ^ 2 * effect ⟨true, shared, priors⟩ T D k := by
    intro k hk
    have e : ∀ {N : Type} (U : Tractor R N) (E : Nat → Nat → Nat → Nat → R), (U.images.zipIdx.map (fun x => ∑ r ∈ range x.1.2.data.h, ∑ c ∈ range x.1.2.data.w,
        (E k x.2 r c * x.1.2.inverr.px r c) ^ 2)).sum = ∑ q ∈ pixelsOf U, (E k q.1 q.2.1 q.2.2 * weightAt U q) ^ 2 := by
      intro N U E
      rw [sum_getElem, List.length_zipIdx, sum_pixels]
      refine sum_congr rfl (fun i hi => ?_)
      have hT := List.getElem?_eq_getElem (mem_range.1 hi)
      have hz : U.images.zipIdx[i]? = some (U.images[i]'(mem_range.1 hi), i) := by rw [List.getElem?_zipIdx, hT]; simp
      unfold weightAt
      simp only [hT, hz, Option.map_some, Option.getD_some]
    unfold effect
    rw [hw k hk, e, e, h.pixels, mul_add, mul_sum]
    congr 1
    · refine sum_congr rfl (fun q hq => ?_)
      have hwt := h.weights q hq
      by_cases h0 : weightAt T q = 0
      · rw [h0] at hwt
        rcases mul_eq_zero.1 hwt with hc | hz
        · exact absurd hc (h.unit _)
        · rw [h0, hz]; ring
      · rw [hD k hk q hq h0, sum_eq_single_of_mem k (mem_range.2 hk) (fun j _ hj => by rw [hB j k hj, zero_mul]), ← hwt]
        ring
    · rw [List.map_map, ← List.sum_map_mul_left]
      congr 1
      apply List.map_congr_left
      intro s _
      have := hBk k hk
      simp only [Function.comp]
      by_cases hs : s = 0
      · simp [hs]
      · field_simp
  obtain ⟨k, hk, hek⟩ := hne
  obtain ⟨v, v1, v2, -⟩ := optimizeVar_ok S hsq hS W hooks shared priors T base D hr hl ho ⟨k, hk, hek⟩ alphas
  obtain ⟨v', v1', v2', -⟩ := optimizeVar_ok S' hsq' hS' W' hooks' shared priors T' base' D' hr' hl' ho'
    ⟨k, by rw [h.count]; exact hk, by rw [he k hk]; exact mul_ne_zero (pow_ne_zero 2 (hBk k hk)) hek⟩ alphas
  refine ⟨v, v', by rw [v1]; simp, ?_, v2, v2'⟩
  rw [v1, v1', h.count]
  apply List.ext_getElem
  · simp
  · intro i h1 h2
    simp only [List.getElem_map, List.getElem_range, List.getElem_zipIdx, zero_add]
    have hi : i < numberOfParams T.par := by simpa using h1
    rw [he i hi, div_div, mul_comm]

/-! ### Example: two images in other units, two parameters mixed -/

/-- The units of the images. -/
def exRecC (new : Bool) (i : Nat) : ℚ := if new then (if i = 0 then 2 else 1 / 3) else 1

/-- What is seen of the source: with new parameters 10 a and m a + b + 5. -/
def exRecVal (new : Bool) (m a b : ℚ) (x : Nat) : ℚ :=
  if x = 0 then (if new then 10 * a else a) else if x = 1 then (if new then m * a + b + 5 else b) else 0

def exRecIm (new : Bool) (i : Nat) : Image ℚ :=
  ⟨i, .cons ["sky"] true (.scalar (exS (exRecC new i * 3))) .nil, ⟨2, 2, fun y x => exRecC new i * (5 + 2 * i + 7 * x - y)⟩, ⟨2, 2, fun y x => (1 + i + x * y) / exRecC new i⟩⟩

/-- The prior of the first parameter. -/
def exRecPar (new : Bool) (a b : ℚ) : Par ℚ :=
  .plist ⟨[⟨["a"], true, a⟩, ⟨["b"], true, b⟩], [none, none], [none, none], [none, none], none, [(0, if new then (3 / 10, 1 / 5) else (3, 2))]⟩

def exRecT (new : Bool) (a b : ℚ) : Tractor ℚ Unit :=
  ⟨true, [(false, exRecIm new 0), (false, exRecIm new 1)], true, [(true, some ⟨10, exRecPar new a b⟩)], none, false⟩

def exRecD (new : Bool) (m : ℚ) (k i y x : Nat) : ℚ :=
  if y = 0 then exRecC new i * (exRecVal new m (if k = 0 then 1 else 0) (if k = 1 then 1 else 0) x - exRecVal new m 0 0 x) else 0

def exRecBase (new : Bool) (m : ℚ) (i y x : Nat) : ℚ := exRecC new i * (3 + if y = 0 then exRecVal new m 0 0 x else 0)

def exRecWorld (new : Bool) (m : ℚ) : World ℚ Unit where
  render s im _ := some ⟨0, 0, some ⟨1, 2, fun _ x => exRecC new im.id * exRecVal new m ((getParams s.par).getD 0 0) ((getParams s.par).getD 1 0) x⟩⟩
  sky im := .constant (exSky im)
  srcDerivs _ im _ := [some ⟨0, 0, some ⟨1, 2, fun _ x => exRecD new m 0 im.id 0 x⟩⟩, some ⟨0, 0, some ⟨1, 2, fun _ x => exRecD new m 1 im.id 0 x⟩⟩]

/-- The first parameter is 10 times the new one, the second a sum. -/
def exRecB (m : ℚ) (j k : Nat) : ℚ := if j = 0 ∧ k = 0 then 10 else if j = 1 ∧ k = 0 then m else if j = 1 ∧ k = 1 then 1 else 0

def exRecb (j : Nat) : ℚ := if j = 1 then 5 else 0

theorem exRecSet (new : Bool) (a b a' b' : ℚ) : setAll (exRecT new a b) [a', b'] = exRecT new a' b' := rfl

theorem exRecN (new : Bool) (a b : ℚ) : numberOfParams (exRecT new a b).par = 2 := rfl

theorem exRecAffine (m a b : ℚ) : affine 2 (exRecB m) exRecb [a, b] = [10 * a, 5 + (m * a + b)] := by
  simp [affine, List.range_succ, sum_range_succ, exRecB, exRecb]

theorem exRecMask (new : Bool) (a b : ℚ) (im : Image ℚ) : MasksOK (exRecT new a b) im := by
  intro masks h
  cases h

theorem exRecImages (new : Bool) (a b : ℚ) (i : Nat) (c : Bool) (im : Image ℚ) (hi : (exRecT new a b).images[i]? = some (c, im)) :
    c = false ∧ i < 2 ∧ im = exRecIm new i := by
  match i, hi with
  | 0, hi => simp [exRecT] at hi; exact ⟨hi.1.symm ▸ rfl, by omega, hi.2.symm⟩
  | 1, hi => simp [exRecT] at hi; exact ⟨hi.1.symm ▸ rfl, by omega, hi.2.symm⟩
  | n + 2, hi => simp [exRecT] at hi

theorem exRecModel (new : Bool) (m a b : ℚ) (i : Nat) : ∃ A, getModelImage (exRecWorld new m) (exRecT new a b) (exRecIm new i) none true = .ok A ∧
    ∀ y x, y < 2 → x < 2 → A.px y x = exRecC new i * (3 + if y = 0 then exRecVal new m a b x else 0) := by
  obtain ⟨-, h⟩ := C29_model_image (exRecWorld new m) (exRecT new a b) (exRecIm new i) (exRecMask new a b _) none
  obtain ⟨r, g1, -, -, g2⟩ := h [some ⟨0, 0, some ⟨1, 2, fun _ x => exRecC new i * exRecVal new m a b x⟩⟩]
    (.cons ⟨none, .nomasks rfl, rfl⟩ .nil) true
  refine ⟨r, g1, fun y x hy hx => ?_⟩
  rw [g2 y x hy hx]
  interval_cases y <;> interval_cases x <;> simp [exRecWorld, exRecIm, exSky, exS, Sky.at, patchAt, Patch.at] <;> ring

theorem exRecPixel (new : Bool) (m a b : ℚ) (i y x : Nat) (hi : i < 2) (hy : y < 2) (hx : x < 2) :
    pixel (exRecWorld new m) (exRecT new a b) i y x = exRecC new i * (3 + if y = 0 then exRecVal new m a b x else 0) := by
  have him : (exRecT new a b).images[i]? = some (false, exRecIm new i) := by interval_cases i <;> rfl
  obtain ⟨A, h1, h2⟩ := exRecModel new m a b i
  unfold pixel
  rw [him]
  dsimp only
  rw [h1]
  exact h2 y x hy hx

theorem exRecReady (new : Bool) (m a b : ℚ) : Ready (exRecWorld new m) exHooks (exRecT new a b) := by
  refine ⟨fun x _ => exRecMask new a b x.2, ?_, ?_, ?_, ?_, ?_⟩
  · rintro ⟨c, im⟩ hx
    obtain ⟨i, hi⟩ := List.getElem?_of_mem hx
    obtain ⟨-, -, rfl⟩ := exRecImages new a b i c im hi
    exact ⟨rfl, rfl, by show 2 * 2 < 2 ^ 31; norm_num⟩
  · cases new <;> simp [exRecT, exRecIm, Tractor.par, PriorsOK, PriorsOKSubs, imagesSubs, catalogSubs, exRecPar]
  · intro i x _ _ y _ _ l hl
    cases hl
  · rintro ⟨c, im⟩ hx hc
    obtain ⟨i, hi⟩ := List.getElem?_of_mem hx
    obtain ⟨rfl, -⟩ := exRecImages new a b i c im hi
    cases hc
  · intro src hs x _ ds hds
    have : src = ⟨10, exRecPar new a b⟩ := by simpa [exRecT] using hs
    subst this
    obtain ⟨mask, -, rfl⟩ := hds
    split
    · simp
    · exact Nat.le_refl 2

theorem exRecLoc (new : Bool) (a b : ℚ) (k o j : Nat) (h : Located (exRecT new a b) k o j) : o = 2 ∧ k = j ∧ j < 2 := by
  obtain ⟨n, h1, h2, h3⟩ := h
  have hb : blocks (exRecT new a b) = [0, 0, 2] := rfl
  rw [hb] at h1 h3
  match o with
  | 0 => simp at h1; omega
  | 1 => simp at h1; omega
  | 2 => simp at h1 h3; omega
  | o + 3 => simp at h1

theorem exRecLinear (new : Bool) (m a b : ℚ) : Linear (exRecWorld new m) exHooks (exRecT new a b) (exRecBase new m) (exRecD new m) := by
  refine ⟨?_, ?_, ?_⟩
  · intro p hp i c im hi A hA y x hy hx
    rw [exRecN] at hp ⊢
    obtain ⟨a', b', rfl⟩ := exPoolList p hp
    rw [exRecSet] at hi hA
    obtain ⟨-, -, rfl⟩ := exRecImages new a' b' i c im hi
    obtain ⟨A', h1, h2⟩ := exRecModel new m a' b' i
    rw [hA] at h1
    cases h1
    rw [h2 y x hy hx]
    have hy : y < 2 := hy
    have hx : x < 2 := hx
    cases new <;> interval_cases y <;> interval_cases x <;> simp [sum_range_succ, exRecD, exRecBase, exRecVal] <;> ring
  · intro k o' j c src hloc hc i c' im hi ds hds y x hy hx
    obtain ⟨-, rfl, hj⟩ := exRecLoc new a b _ _ _ hloc
    obtain ⟨-, -, rfl⟩ := exRecImages new a b i c' im hi
    obtain ⟨mask, -, rfl⟩ := hds
    rw [if_neg (by simp [exRecT])]
    have hy : y < 2 := hy
    have hx : x < 2 := hx
    interval_cases k <;> interval_cases y <;> interval_cases x <;> simp [exRecWorld, patchAt, Patch.at, exRecD, exRecIm]
  · intro k o j c im hloc ho d hd
    obtain ⟨rfl, -, -⟩ := exRecLoc new a b _ _ _ hloc
    simp [exRecT] at ho

theorem exRecReported (new : Bool) (m a b : ℚ) : Reported (exRecWorld new m) exHooks (exRecT new a b) (exRecD new m) := by
  refine ⟨(exRecLinear new m a b).source, ?_, ?_⟩
  · intro k o j c im hloc ho d hd
    obtain ⟨rfl, -, -⟩ := exRecLoc new a b _ _ _ hloc
    simp [exRecT] at ho
  · intro k o j c im hloc ho
    obtain ⟨rfl, -, -⟩ := exRecLoc new a b _ _ _ hloc
    simp [exRecT] at ho

theorem exRecMem (new : Bool) (a b : ℚ) (q : Pixel) (hq : q ∈ pixelsOf (exRecT new a b)) : q.1 < 2 ∧ q.2.1 < 2 ∧ q.2.2 < 2 := by
  obtain ⟨i, y, x⟩ := q
  simp only [pixelsOf, mem_sigma, mem_product, mem_range] at hq
  obtain ⟨h1, h2, h3⟩ := hq
  have h1 : i < 2 := h1
  interval_cases i
  · exact ⟨by omega, h2, h3⟩
  · exact ⟨by omega, h2, h3⟩

theorem exRecC_ne (new : Bool) (i : Nat) : exRecC new i ≠ 0 := by
  unfold exRecC
  cases new
  · simp
  · by_cases h : i = 0 <;> simp [h]

theorem exRecast (m a b a' b' : ℚ) : Recast (exRecWorld false m) (exRecT false a b) (exRecWorld true m) (exRecT true a' b') (exRecC true) (exRecB m) exRecb 0 := by
  refine ⟨rfl, exRecC_ne true, rfl, ?_, ?_, ?_, ?_, ?_⟩
  · intro q hq
    obtain ⟨h1, -, -⟩ := exRecMem false a b q hq
    obtain ⟨i, y, x⟩ := q
    dsimp only at h1
    interval_cases i <;> simp [valueAt, exRecT, exRecIm, exRecC]
  · intro q hq
    obtain ⟨h1, -, -⟩ := exRecMem false a b q hq
    obtain ⟨i, y, x⟩ := q
    dsimp only at h1
    interval_cases i <;> simp [weightAt, exRecT, exRecIm, exRecC] <;> ring
  · refine ⟨fun j k => if j = 0 ∧ k = 0 then 1 / 10 else if j = 1 ∧ k = 0 then -m / 10 else if j = 1 ∧ k = 1 then 1 else 0, fun j l hj hl => ?_⟩
    rw [exRecN] at *
    interval_cases j <;> interval_cases l <;> simp [sum_range_succ, exRecB]
    ring
  · intro p hp P hP
    rw [exRecN] at hp hP
    obtain ⟨u, v, rfl⟩ := exPoolList p hp
    rw [exRecAffine] at hP
    have e1 : (setParams (exRecT false a b).par [10 * u, 5 + (m * u + v)]).1 = (exRecT false (10 * u) (5 + (m * u + v))).par := rfl
    have e2 : (setParams (exRecT true a' b').par [u, v]).1 = (exRecT true u v).par := rfl
    rw [e1] at hP
    rw [e2, add_zero, ← hP]
    simp [exRecT, exRecIm, Tractor.par, imagesSubs, catalogSubs, exRecPar, exS, getLogPrior, getLogPriorSubs, gaussianLogPrior, gaussianChisq, Except.map, vals]
    ring
  · intro p hp q hq _
    rw [exRecN] at hp ⊢
    obtain ⟨h1, h2, h3⟩ := exRecMem false a b q hq
    obtain ⟨u, v, rfl⟩ := exPoolList p hp
    rw [exRecAffine, exRecSet, exRecSet, exRecPixel _ _ _ _ _ _ _ h1 h2 h3, exRecPixel _ _ _ _ _ _ _ h1 h2 h3]
    generalize q.2.2 = x at *
    generalize q.2.1 = y at *
    interval_cases y <;> interval_cases x <;> simp [exRecC, exRecVal]
    ring

theorem exRecChain (m a b : ℚ) : Chain (exRecT false a b) (exRecC true) (exRecB m) (exRecD false m) (exRecD true m) := by
  intro k hk q hq _
  rw [exRecN] at *
  obtain ⟨h1, h2, h3⟩ := exRecMem false a b q hq
  generalize q.2.2 = x at *
  generalize q.2.1 = y at *
  interval_cases k <;> interval_cases y <;> interval_cases x <;> simp [sum_range_succ, exRecD, exRecVal, exRecB] <;> simp [exRecC]

theorem exRecSeparate (m a b : ℚ) : Separate (exRecT false a b) (exRecD false m) := by
  intro X hX h k
  rw [exRecN] at hX h
  obtain ⟨u, v, rfl⟩ := exPoolList X hX
  have h0 := h ⟨0, 0, 0⟩ (by simp [pixelsOf, exRecT, exRecIm]) (by simp [weightAt, exRecT, exRecIm, exRecC])
  have h1 := h ⟨0, 0, 1⟩ (by simp [pixelsOf, exRecT, exRecIm]) (by simp [weightAt, exRecT, exRecIm, exRecC])
  simp [sum_range_succ, exRecD, exRecVal, exRecC] at h0 h1
  subst h0 h1
  match k with
  | 0 => rfl
  | 1 => rfl
  | k + 2 => rfl

theorem exRecOptions (S : Solver ℚ) (new : Bool) (m a b : ℚ) : Options S ⟨false, false, true⟩ (exRecT new a b) (exRecD new m) :=
  ⟨.inl rfl, by simp, by simp⟩

/-- The log-probability. -/
example (u v : ℚ) : ∃ L, logProb (exRecWorld false 1) (exRecT false (10 * u) (5 + (u + v))) = .ok (.fin L) ∧ logProb (exRecWorld true 1) (exRecT true u v) = .ok (.fin L) := by
  obtain ⟨L, h1, h2⟩ := C159_logprob (exRecWorld false 1) (exRecT false 0 0) (exRecWorld true 1) (exRecT true 0 0) (exRecC true) (exRecB 1) exRecb 0
    (exRecast 1 0 0 0 0) exHooks exHooks (exRecReady ..) (exRecReady ..) [u, v] rfl
  rw [exRecN, exRecAffine, exRecSet, one_mul] at h1
  rw [exRecSet, add_zero] at h2
  exact ⟨L, h1, h2⟩

/-- The fits from a = 20, b = 9, that is from a' = 2, b' = 2. -/
example : ∃ (lsqr : Lsq.Problem ℚ → List ℚ) (u v : ℚ) (r : Num ℚ × ℚ),
    optimize ⟨id, 0, lsqr⟩ (exRecWorld false 1) exHooks ⟨false, false, true⟩ [1 / 4, 1, 2] (exRecT false 20 9) = (exRecT false (10 * u) (5 + (u + v)), .ok r) ∧
    optimize ⟨id, 0, lsqr⟩ (exRecWorld true 1) exHooks ⟨false, false, true⟩ [1 / 4, 1, 2] (exRecT true 2 2) = (exRecT true u v, .ok r) := by
  obtain ⟨lsqr, hl⟩ := Lsq.solver_exists (R := ℚ)
  obtain ⟨w, r, h0, h1, h2⟩ := C159_optimize (exRecWorld false 1) (exRecT false 20 9) (exRecWorld true 1) (exRecT true 2 2) (exRecC true) (exRecB 1) exRecb 0
    (exRecast 1 20 9 2 2) (by
      have e1 : getParams (exRecT false 20 9).par = [20, 9] := rfl
      have e2 : getParams (exRecT true 2 2).par = [2, 2] := rfl
      rw [exRecN, e1, e2, exRecAffine]; norm_num) ⟨id, 0, lsqr⟩ ⟨id, 0, lsqr⟩
    (fun x hx => hx) hl (fun x hx => hx) hl exHooks exHooks ⟨false, false, true⟩ ⟨false, false, true⟩ (exRecD false 1) (exRecD true 1) (exRecReady ..)
    (exRecReady ..) (exRecReported ..) (exRecReported ..) (exRecOptions ..) (exRecOptions ..) (exRecChain 1 20 9) (exRecSeparate 1 20 9) [1 / 4, 1, 2]
  rw [exRecN] at h0 h1
  obtain ⟨u, v, rfl⟩ := exPoolList w h0
  rw [exRecAffine, exRecSet, one_mul] at h1
  rw [exRecSet] at h2
  exact ⟨lsqr, u, v, r, h1, h2⟩

/-- The loops. -/
example : ∃ (lsqr : Lsq.Problem ℚ → List ℚ) (u v : ℚ) (n : Nat),
    optimizeLoop ⟨id, 0, lsqr⟩ (exRecWorld false 1) exHooks ⟨false, false, true⟩ [1 / 4, 1 / 2] (1 / 100) 7 (exRecT false 20 9) = (exRecT false (10 * u) (5 + (u + v)), .ok n) ∧
    optimizeLoop ⟨id, 0, lsqr⟩ (exRecWorld true 1) exHooks ⟨false, false, true⟩ [1 / 4, 1 / 2] (1 / 100) 7 (exRecT true 2 2) = (exRecT true u v, .ok n) := by
  obtain ⟨lsqr, hl⟩ := Lsq.solver_exists (R := ℚ)
  obtain ⟨w, n, h0, h1, h2⟩ := C159_loop (exRecWorld false 1) (exRecT false 20 9) (exRecWorld true 1) (exRecT true 2 2) (exRecC true) (exRecB 1) exRecb 0
    (exRecast 1 20 9 2 2) (by
      have e1 : getParams (exRecT false 20 9).par = [20, 9] := rfl
      have e2 : getParams (exRecT true 2 2).par = [2, 2] := rfl
      rw [exRecN, e1, e2, exRecAffine]; norm_num) ⟨id, 0, lsqr⟩ ⟨id, 0, lsqr⟩
    (fun x hx => hx) hl (fun x hx => hx) hl exHooks exHooks ⟨false, false, true⟩ ⟨false, false, true⟩ (fun p hp => by
      obtain ⟨u, v, rfl⟩ := exPoolList p hp
      rw [exRecN, exRecAffine, exRecSet, exRecSet]
      exact ⟨exRecD false 1, exRecD true 1, exRecReady .., exRecReady .., exRecReported .., exRecReported .., exRecOptions .., exRecOptions ..,
        exRecChain 1 20 9, exRecSeparate 1 20 9⟩) [1 / 4, 1 / 2] (1 / 100) 7 (by norm_num)
  rw [exRecN] at h0 h1
  obtain ⟨u, v, rfl⟩ := exPoolList w h0
  rw [exRecAffine, exRecSet, one_mul] at h1
  rw [exRecSet] at h2
  exact ⟨lsqr, u, v, n, h1, h2⟩

/-- The variances, with the parameters only scaled. -/
example : ∃ (lsqr : Lsq.Problem ℚ → List ℚ) (u v : ℚ),
    optimizeVar ⟨fun _ => 1, 0, lsqr⟩ (exRecWorld false 0) exHooks false true true [1] (exRecT false 20 9) = (exRecT false 20 9, .ok (none, some [u, v])) ∧
    optimizeVar ⟨fun _ => 1, 0, lsqr⟩ (exRecWorld true 0) exHooks false true true [1] (exRecT true 2 4) = (exRecT true 2 4, .ok (none, some [u / 100, v])) := by
  obtain ⟨lsqr, hl⟩ := Lsq.solver_exists (R := ℚ)
  have ho : ∀ new, Options ⟨fun _ => 1, 0, lsqr⟩ ⟨true, false, true⟩ (exRecT new (if new then 2 else 20) (if new then 4 else 9)) (exRecD new 0) :=
    fun new => ⟨.inl rfl, fun _ k v hv _ => by simpa using hv, by simp⟩
  obtain ⟨w, w', h0, hw, h1, h2⟩ := C159_variance (exRecWorld false 0) (exRecT false 20 9) (exRecWorld true 0) (exRecT true 2 4) (exRecC true) (exRecB 0) exRecb 0
    (exRecast 0 20 9 2 4) (fun j k hjk => by unfold exRecB; split_ifs <;> first | rfl | omega) ⟨fun _ => 1, 0, lsqr⟩ ⟨fun _ => 1, 0, lsqr⟩
    (fun _ _ => one_pos) hl (fun _ _ => one_pos) hl exHooks exHooks false true (exRecBase false 0) (exRecBase true 0) (exRecD false 0) (exRecD true 0) (exRecReady ..)
    (exRecReady ..) (exRecLinear ..) (exRecLinear ..) (ho false) (ho true) (exRecChain 0 20 9) (fun k hk => by
      rw [exRecN] at hk
      interval_cases k
      · have e1 : widths ⟨true, false, true⟩ (exRecT true 2 4) 0 = [1 / 5] := rfl
        have e2 : widths ⟨true, false, true⟩ (exRecT false 20 9) 0 = [2] := rfl
        rw [e1, e2]; simp [exRecB]; norm_num
      · have e1 : widths ⟨true, false, true⟩ (exRecT true 2 4) 1 = [] := rfl
        have e2 : widths ⟨true, false, true⟩ (exRecT false 20 9) 1 = [] := rfl
        rw [e1, e2]; rfl) ⟨1, by rw [exRecN]; norm_num, by
      have hw : widths ⟨true, false, true⟩ (exRecT false 20 9) 1 = [] := rfl
      rw [effect, hw]
      simp [exRecT, exRecIm, List.zipIdx, sum_range_succ, exRecD, exRecVal, exRecC]
      norm_num⟩ [1]
  obtain ⟨u, v, rfl⟩ := exPoolList w h0
  refine ⟨lsqr, u, v, h1, ?_⟩
  rw [h2, hw]
  simp [List.zipIdx, exRecB]
  norm_num

/-! ### Changes of parameters that are not linear -/

/-- The source of the example of C157, with the square root of its flux as parameter. -/
def exRootWorld : World ℚ Unit where
  render s _ _ := some ⟨0, 0, some ⟨1, 1, fun _ _ => (getParams s.par).getD 0 0 ^ 2⟩⟩
  sky im := .constant (exSky im)
  srcDerivs s _ _ := [some ⟨0, 0, some ⟨1, 1, fun _ _ => 2 * (getParams s.par).getD 0 0⟩⟩]

theorem exRootModel (a : ℚ) : ∃ A, getModelImage exRootWorld (exDampT a) exDampIm none true = .ok A ∧ A.px 0 0 = a ^ 2 := by
  obtain ⟨-, h⟩ := C29_model_image exRootWorld (exDampT a) exDampIm (by intro masks h; cases h) none
  obtain ⟨r, g1, -, -, g2⟩ := h [some ⟨0, 0, some ⟨1, 1, fun _ _ => a ^ 2⟩⟩] (.cons ⟨none, .nomasks rfl, rfl⟩ .nil) true
  refine ⟨r, g1, ?_⟩
  rw [g2 0 0 Nat.one_pos Nat.one_pos]
  simp [exRootWorld, exDampIm, exSky, exS, Sky.at, patchAt, Patch.at]

theorem exRootPixel (a : ℚ) : pixel exRootWorld (exDampT a) 0 0 0 = a ^ 2 := by
  obtain ⟨A, h1, h2⟩ := exRootModel a
  unfold pixel
  have : (exDampT a).images[0]? = some (false, exDampIm) := rfl
  rw [this]
  dsimp only
  rw [h1]
  exact h2

theorem exDampPixel (a : ℚ) : pixel exDampWorld (exDampT a) 0 0 0 = a := by
  obtain ⟨-, h⟩ := C29_model_image exDampWorld (exDampT a) exDampIm (by intro masks h; cases h) none
  obtain ⟨r, g1, -, -, -⟩ := h [some ⟨0, 0, some ⟨1, 1, fun _ _ => a⟩⟩] (.cons ⟨none, .nomasks rfl, rfl⟩ .nil) true
  unfold pixel
  have : (exDampT a).images[0]? = some (false, exDampIm) := rfl
  rw [this]
  dsimp only
  rw [g1]
  exact exDampModel a r g1

theorem exRootReady (a : ℚ) : Ready exRootWorld exHooks (exDampT a) := by
  refine ⟨(exDampReady a).mask, (exDampReady a).shape, (exDampReady a).prior, (exDampReady a).hook, (exDampReady a).steps, ?_⟩
  intro src hs x _ ds hds
  have : src = ⟨10, exDampPar a⟩ := by simpa [exDampT] using hs
  subst this
  obtain ⟨mask, -, rfl⟩ := hds
  split
  · simp
  · exact Nat.le_refl 1

def exRootD (_k _i _y _x : Nat) : ℚ := 2

theorem exRootReported : Reported exRootWorld exHooks (exDampT 1) exRootD := by
  refine ⟨?_, ?_, ?_⟩
  · intro k o' j b s hloc hs i c im hi ds hds y x hy hx
    obtain ⟨h1, rfl, rfl⟩ := exDampLoc 1 _ _ _ hloc
    obtain ⟨rfl, rfl, rfl⟩ := exDampImage 1 i c im hi
    have hy : y < 1 := hy
    have hx : x < 1 := hx
    obtain rfl : y = 0 := by omega
    obtain rfl : x = 0 := by omega
    have : s = ⟨10, exDampPar 1⟩ := by
      have : o' = 0 := by
        have : (exDampT 1).images.length = 1 := rfl
        omega
      subst this
      simp [exDampT] at hs
      exact hs.2.symm
    subst this
    obtain ⟨mask, -, rfl⟩ := hds
    rw [if_neg (by simp [exDampT])]
    have : getParams (exDampPar 1) = [1] := rfl
    simp [exRootWorld, patchAt, Patch.at, exRootD, this]
  · intro k o j b im hloc ho
    obtain ⟨rfl, -, -⟩ := exDampLoc 1 _ _ _ hloc
    simp [exDampT] at ho
  · intro k o j b im hloc ho
    obtain ⟨rfl, -, -⟩ := exDampLoc 1 _ _ _ hloc
    simp [exDampT] at ho

theorem exDampSum (a : ℚ) (f : Pixel → ℚ) : ∑ q ∈ pixelsOf (exDampT a), f q = f ⟨0, 0, 0⟩ := by
  rw [sum_pixels]
  simp [exDampT, exDampIm]

theorem exDampPrior (a : ℚ) : getLogPrior (exDampT a).par = .ok 0 := by
  simp [exDampT, exDampIm, Tractor.par, imagesSubs, catalogSubs, exDampPar, exS, getLogPrior, getLogPriorSubs, gaussianLogPrior, gaussianChisq, Except.map, vals]

theorem exRootLogProb (a : ℚ) : logProb exRootWorld (exDampT a) = .ok (.fin (-(1 / 2) * (9 - a ^ 2) ^ 2)) := by
  have := logProb_pixels exRootWorld (exDampT a) (exDampReady a).mask (exDampReady a).shape [a] 0 (exDampPrior a)
  rw [exDampSet, exDampSum, exRootPixel] at this
  rw [this]
  simp [valueAt, weightAt, exDampT, exDampIm]

/-- The update from 1 is 4 (to 5, where the flux is 25). -/
theorem exRootDirection (lsqr : Lsq.Problem ℚ → List ℚ) (hl : Lsq.Solves lsqr) :
    direction ⟨id, 0, lsqr⟩ exRootWorld exHooks ⟨false, false, true⟩ (exDampT 1) = (exDampT 1, .ok (some [4])) := by
  obtain ⟨F, es, C, K, h1, h2, h3⟩ := direction_pixels ⟨id, 0, lsqr⟩ (fun x hx => hx) hl exRootWorld exHooks ⟨false, false, true⟩ (exDampT 1) exRootD (exRootReady 1)
    exRootReported ⟨.inl rfl, by simp, by simp⟩
  rw [exDampN] at h1 h2 h3
  have hes : ∀ d : ℚ, entryChi es [d] = 2 * C := by
    intro d
    have := h2 [d] rfl
    have e : getLogPrior (setParams (exDampT 1).par (List.zipWith (· + ·) (getParams (exDampT 1).par) [d])).1 = .ok 0 := exDampPrior (1 + d)
    rw [e] at this
    injection this with this
    linarith
  have hF : ∀ d : ℚ, (9 - (1 + d * 2)) ^ 2 + 2 * C = F [d] + K := by
    intro d
    have := h1 [d] rfl
    rw [exDampSum, exRootPixel, hes] at this
    rw [← this]
    simp [valueAt, weightAt, exDampT, exDampIm, exRootD]
  rcases h3 with ⟨-, h⟩ | ⟨X, h, hX⟩
  · have := h [4] [0] rfl rfl
    have a1 := hF 4
    have a2 := hF 0
    rw [this] at a1
    linarith
  · obtain ⟨d, rfl⟩ := exDampList X hX.1
    have a0 := hX.2 [4] rfl
    have a1 := hF 4
    have a2 := hF d
    have : (8 - 2 * d) ^ 2 ≤ 0 := by nlinarith
    have : d = 4 := by
      have := pow_eq_zero_iff (two_ne_zero) |>.1 (le_antisymm this (sq_nonneg _))
      linarith
    rw [h, this]

/-- **C159, other changes of the parameters.** If the parameter of one model is the square of that of the other (with right derivatives), `optimize` from the same
model may reach the best value with one and, with the other, not move at all. -/
theorem C159_nonlinear_false : ∃ (W W' : World ℚ Unit) (hooks : Tractor ℚ Unit → Nat → Nat → Option (List (Deriv ℚ))) (T : Tractor ℚ Unit)
    (D D' : Nat → Nat → Nat → Nat → ℚ) (lsqr : Lsq.Problem ℚ → List ℚ), Lsq.Solves lsqr ∧ getParams T.par = [1] ∧
    Ready W hooks T ∧ Ready W' hooks T ∧ Reported W hooks T D ∧ Reported W' hooks T D' ∧ Separate T D ∧
    (∀ a q, q ∈ pixelsOf T → pixel W' (setAll T [a]) q.1 q.2.1 q.2.2 = pixel W (setAll T [a ^ 2]) q.1 q.2.1 q.2.2) ∧
    (∀ k i y x, D' k i y x = 2 * 1 * D k i y x) ∧
    Best W (optimize ⟨id, 0, lsqr⟩ W hooks ⟨false, false, true⟩ [1] T).1 ∧
    optimize ⟨id, 0, lsqr⟩ W' hooks ⟨false, false, true⟩ [1] T = (T, .ok (.fin 0, 0)) ∧ ¬ Best W' T := by
  obtain ⟨lsqr, hl⟩ := Lsq.solver_exists (R := ℚ)
  have hrep : Reported exDampWorld exHooks (exDampT 1) exDampD := by
    refine ⟨(exDampLinear 1).source, ?_, ?_⟩
    · intro k o j b im hloc ho
      obtain ⟨rfl, -, -⟩ := exDampLoc 1 _ _ _ hloc
      simp [exDampT] at ho
    · intro k o j b im hloc ho
      obtain ⟨rfl, -, -⟩ := exDampLoc 1 _ _ _ hloc
      simp [exDampT] at ho
  have hmem : ∀ q ∈ pixelsOf (exDampT 1), q = ⟨0, 0, 0⟩ := by
    have : ∀ q ∈ pixelsOf (exDampT 1), q = ⟨0, 0, 0⟩ := by decide +kernel
    exact this
  refine ⟨exDampWorld, exRootWorld, exHooks, exDampT 1, exDampD, exRootD, lsqr, hl, rfl, exDampReady 1, exRootReady 1, hrep, exRootReported, ?_, ?_, ?_, ?_, ?_, ?_⟩
  · intro X hX h k
    obtain ⟨x, rfl⟩ := exDampList X hX
    have := h ⟨0, 0, 0⟩ (by simp [pixelsOf, exDampT, exDampIm]) (by simp [weightAt, exDampT, exDampIm])
    rw [exDampN] at this
    simp [exDampD] at this
    subst this
    match k with
    | 0 => rfl
    | k + 1 => rfl
  · intro a q hq
    rw [hmem q hq, exDampSet, exDampSet]
    exact (exRootPixel a).trans (exDampPixel (a ^ 2)).symm
  · intro k i y x
    norm_num [exRootD, exDampD]
  · obtain ⟨T', r, p, h1, -, -, h4, -⟩ := C143_best_partial ⟨id, 0, lsqr⟩ (fun x hx => hx) hl exDampWorld exHooks ⟨false, false, true⟩ (exDampT 1) exDampBase exDampD
      (exDampReady 1) (exDampLinear 1) ⟨.inl rfl, by simp, by simp⟩ [] [] (by simp) (by simp)
    rw [List.nil_append] at h1
    rw [h1]
    exact h4
  · have hd := exRootDirection lsqr hl
    have hlp : ∀ a, lnp exRootWorld (exDampT 1) (exDampT a).par = .fin (-(1 / 2) * (9 - a ^ 2) ^ 2) := by
      intro a
      unfold lnp
      have : withPar (exDampT 1) (exDampT a).par = exDampT a := rfl
      rw [this, exRootLogProb]
    unfold optimize
    rw [hd]
    dsimp only
    have s1 : setParams (exDampT 1).par (Opt.stepTo (getParams (exDampT 1).par) [4] 1) = ((exDampT (1 + 1 * 4)).par, none) := rfl
    have s2 : setParams (exDampT (1 + 1 * 4)).par (getParams (exDampT 1).par) = ((exDampT 1).par, none) := rfl
    have ht : Opt.tryUpdates (lnp exRootWorld (exDampT 1)) (exDampT 1).par [4] [1] = ((exDampT 1).par, .ok (.fin 0, 0)) := by
      unfold Opt.tryUpdates Opt.tryLoop
      dsimp only
      rw [s1]
      dsimp only
      rw [hlp, hlp]
      rw [if_neg (by simp [Num.isFinite]), if_pos (by simp [Num.lt, Num.sub, Num.add, Num.neg]; norm_num)]
      dsimp only
      rw [s2]
    rw [ht]
    rfl
  · rintro ⟨L, h1, h2⟩
    obtain ⟨L', h3, h4⟩ := h2 [3] rfl
    rw [exDampSet, exRootLogProb] at h3
    rw [exRootLogProb] at h1
    cases h1
    cases h3
    norm_num at h4

end Verif.Fit
