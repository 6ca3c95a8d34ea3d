import Verif.Fit.Var
import Verif.Fit.PropsPasses
import Verif.Fit.PropsVar

/-!
# Lemmas for fits that are passed on as priors
-/

namespace Verif.Fit

open Verif Params Patches Engine Finset

variable {R M : Type} [Field R] [LinearOrder R]

omit [LinearOrder R] in
/-- A sum over the entries, column by column. -/
theorem entry_sum (es : List (Entry R)) (n : Nat) (h : ∀ e ∈ es, e.col < n) (g : Entry R → R) :
    (es.map g).sum = ∑ k ∈ range n, ((es.filter (fun e => e.col = k)).map g).sum := by
  induction es with
  | nil => simp
  | cons e es ih =>
    rw [List.map_cons, List.sum_cons, ih (fun e' he' => h e' (List.mem_cons_of_mem _ he'))]
    have : ∀ k ∈ range n, (((e :: es).filter (fun e => e.col = k)).map g).sum =
        (if k = e.col then g e else 0) + ((es.filter (fun e => e.col = k)).map g).sum := by
      intro k _
      by_cases hk : e.col = k
      · rw [List.filter_cons_of_pos (by simpa using hk), List.map_cons, List.sum_cons, if_pos hk.symm]
      · rw [List.filter_cons_of_neg (by simpa using hk), if_neg (fun h => hk h.symm), zero_add]
    rw [sum_congr rfl this, sum_add_distrib, sum_ite_eq' (range n) e.col (fun _ => g e), if_pos (mem_range.2 (h e (by simp)))]

/-- The sum of the squares of the deviations of parameter `k` from its priors, in units of their widths. -/
def priorChi (t : Par R) (p : List R) (k : Nat) : R :=
  (((thawedPriors t)[k]?).map (fun x => (x.2.map (fun ms => ((p.getD k 0 - ms.1) / ms.2) ^ 2)).sum)).getD 0

omit [LinearOrder R] in
theorem col_sum (t : Par R) (es : List (Entry R)) (hes : ColSpec es (thawedPriors t)) (F : Nat → R × R × R → R) (k : Nat) :
    ((es.filter (fun e => e.col = k)).map (fun e => F e.col (Entry.dat e))).sum =
      (((thawedPriors t)[k]?).map (fun x => (x.2.map (fun ms => F k (ms.1, 1 / ms.2, -(x.1 - ms.1) / ms.2))).sum)).getD 0 := by
  have e : (es.filter (fun e => e.col = k)).map (fun e => F e.col (Entry.dat e)) = ((es.filter (fun e => e.col = k)).map Entry.dat).map (F k) := by
    rw [List.map_map]
    refine List.map_congr_left (fun e he => ?_)
    have : e.col = k := by simpa using (List.mem_filter.1 he).2
    rw [Function.comp, this]
  rw [e, hes k]
  cases (thawedPriors t)[k]? with
  | none => simp
  | some x =>
    simp only [Option.map_some, Option.getD_some, expected, List.map_map]
    rfl

/-- The log-prior, up to a constant. -/
theorem logPrior_form [IsStrictOrderedRing R] (t : Par R) (h : PriorsOK t) :
    ∃ C, ∀ p : List R, p.length = numberOfParams t → getLogPrior (setParams t p).1 = .ok (C - (1 / 2) * ∑ k ∈ range (numberOfParams t), priorChi t p k) := by
  obtain ⟨X, es, -, -, -, h4, L, -, -, h6⟩ := logPrior_step t h
  refine ⟨L + (1 / 2) * entryChi es (List.replicate (numberOfParams t) 0), fun p hp => ?_⟩
  have e : List.zipWith (· + ·) (getParams t) (List.zipWith (fun a b => a - b) p (getParams t)) = p := by
    apply List.ext_getElem
    · simp [hp, getParams_length]
    · intro i i1 i2
      simp
  have h7 := h6 (List.zipWith (fun a b => a - b) p (getParams t)) (by simp [hp, getParams_length])
  rw [e] at h7
  rw [h7]
  congr 3
  unfold entryChi
  have hlt : ∀ e ∈ es, e.col < numberOfParams t := by
    intro e he
    have := h4.lt e he
    rwa [thawedPriors_length] at this
  have hc := fun k => col_sum t es h4 (fun c d => (d.2.2 - d.2.1 * ((List.zipWith (fun a b => a - b) p (getParams t))[c]?).getD 0) ^ 2) k
  simp only [Entry.dat] at hc
  rw [entry_sum es _ hlt]
  refine sum_congr rfl (fun k hk => ?_)
  rw [hc k]
  unfold priorChi
  have hk' : k < (thawedPriors t).length := by rw [thawedPriors_length]; exact mem_range.1 hk
  have hx := List.getElem?_eq_getElem hk'
  generalize (thawedPriors t)[k] = x at hx
  rw [hx]
  simp only [Option.map_some, Option.getD_some]
  congr 1
  refine List.map_congr_left (fun ms hms => ?_)
  have hs := thawed_nz t h _ x hx ms hms
  have hg : (getParams t)[k]? = some x.1 := by rw [← thawedPriors_vals, List.getElem?_map, hx]; rfl
  have hp' : k < p.length := by rw [hp]; exact mem_range.1 hk
  have hz : ((List.zipWith (fun a b => a - b) p (getParams t))[k]?).getD 0 = p.getD k 0 - x.1 := by
    rw [List.getElem?_zipWith, hg, List.getElem?_eq_getElem hp', List.getD, List.getElem?_eq_getElem hp']
    rfl
  rw [hz]
  field_simp
  ring

section
variable [IsStrictOrderedRing R]

omit [IsStrictOrderedRing R] in
/-- The effect of a parameter as a sum over all observations. -/
theorem effect_obs (o : Opts) (ho : o.priors = true) (T : Tractor R M) (D : Nat → Nat → Nat → Nat → R) (es : List (Entry R))
    (hes : ColSpec es (thawedPriors T.par)) (k : Nat) : effect o T D k = ∑ π ∈ obs T es, (weight T es π * slopes D es π k) ^ 2 := by
  unfold effect obs
  rw [sum_disjSum]
  congr 1
  · rw [sum_getElem, List.length_zipIdx]
    unfold pixels
    rw [sum_sigma]
    refine sum_congr rfl (fun i hi => ?_)
    have hi := mem_range.1 hi
    have hT : T.images[i]? = some T.images[i] := List.getElem?_eq_getElem hi
    have hz : T.images.zipIdx[i]? = some (T.images[i], i) := by rw [List.getElem?_zipIdx, hT]; simp
    rw [hz, Option.map_some, Option.getD_some, sum_sigma]
    unfold hgt wid
    rw [hT]
    simp only [Option.map_some, Option.getD_some]
    refine sum_congr rfl (fun y _ => sum_congr rfl (fun x _ => ?_))
    simp only [weight, slopes, hT, Option.map_some, Option.getD_some]
    ring
  · have hlt : ∀ e ∈ es, e.col < numberOfParams T.par := by
      intro e he
      have := hes.lt e he
      rwa [thawedPriors_length] at this
    have e1 : ∑ l ∈ range es.length, (weight T es (.inr l) * slopes D es (.inr l) k) ^ 2 =
        (es.map (fun e => if e.col = k then e.val ^ 2 else 0)).sum := by
      rw [sum_getElem]
      refine sum_congr rfl (fun l hl => ?_)
      have hl := List.getElem?_eq_getElem (mem_range.1 hl)
      simp only [weight, slopes, hl, Option.map_some, Option.getD_some]
      split <;> simp
    rw [e1]
    have e2 : (es.map (fun e => if e.col = k then e.val ^ 2 else 0)).sum = (((es.filter (fun e => e.col = k)).map (·.val)).map (fun v => v ^ 2)).sum := by
      clear hes hlt e1
      induction es with
      | nil => rfl
      | cons e es ih =>
        by_cases hk : e.col = k
        · rw [List.filter_cons_of_pos (by simpa using hk), List.map_cons, List.sum_cons, ih, if_pos hk]; rfl
        · rw [List.filter_cons_of_neg (by simpa using hk), List.map_cons, List.sum_cons, ih, if_neg hk, zero_add]
    rw [e2, col_vals es _ hes, widths, if_pos ho, List.map_map]
    rfl

/-- A parameter that has a pixel to itself does not share the derivatives there. -/
theorem isolated_derivs {W : World R M} {hooks : Tractor R M → Nat → Nat → Option (List (Deriv R))} {T : Tractor R M} {base : Nat → Nat → Nat → R}
    {D : Nat → Nat → Nat → Nat → R} (hl : Linear W hooks T base D) (hr : Ready W hooks T) (k l : Nat) (hk : k < numberOfParams T.par)
    (hl' : l < numberOfParams T.par) (hne : l ≠ k) (hiso : Isolated W T k) (i y x : Nat) (b : Bool) (im : Image R) (h : T.images[i]? = some (b, im))
    (hy : y < im.data.h) (hx : x < im.data.w) (hw : im.inverr.px y x ≠ 0) : D k i y x = 0 ∨ D l i y x = 0 := by
  have key : ∀ m, m < numberOfParams T.par → (∀ (p : List R) (v : R), p.length = numberOfParams T.par →
      pixel W (setAll T (p.set m v)) i y x = pixel W (setAll T p) i y x) → D m i y x = 0 := by
    intro m hm h0
    have := h0 (List.replicate (numberOfParams T.par) 0) 1 (by simp)
    rw [pixel_linear hl hr _ (by simp) i y x b im h hy hx, pixel_linear hl hr _ (by simp) i y x b im h hy hx] at this
    have e := add_left_cancel this
    rw [sum_set _ _ m 1 (fun k => D k i y x) (by simp) hm] at e
    simpa [List.getD, hm] using e
  rcases hiso i y x b im h hy hx hw with h0 | h0
  · exact .inl (key k hk h0)
  · exact .inr (key l hl' (h0 l hne))

/-- About the best fit, the log-probability is quadratic, without mixed terms if no parameters share pixels. -/
theorem isolated_form (W : World R M) (hooks : Tractor R M → Nat → Nat → Option (List (Deriv R))) (o : Opts) (ho : o.priors = true) (T : Tractor R M)
    (base : Nat → Nat → Nat → R) (D : Nat → Nat → Nat → Nat → R) (hr : ∀ p : List R, p.length = numberOfParams T.par → Ready W hooks (setAll T p))
    (hl : Linear W hooks T base D) (hiso : ∀ k, k < numberOfParams T.par → Isolated W T k) (m : List R) (hm : m.length = numberOfParams T.par)
    (hb : Best W (setAll T m)) (L : R) (hL : logProb W (setAll T m) = .ok (.fin L)) (p : List R) (hp : p.length = numberOfParams T.par) :
    logProb W (setAll T p) = .ok (.fin (L - (1 / 2) * ∑ k ∈ range (numberOfParams T.par), effect o T D k * (p.getD k 0 - m.getD k 0) ^ 2)) := by
  have hr0 := hr (getParams T.par) (getParams_length _)
  rw [setAll_self] at hr0
  obtain ⟨f, es, C, hes, hlp, hfp, f1, -, -⟩ := pulls W hooks T base D hr hl
  have h0 := best_pulls W hooks T f hr f1 m hm hb
  have hsq := squares_shift (obs T es) (range (numberOfParams T.par)) (weight T es) (seen (own T) es) (const base) (slopes D es) (fun k => p.getD k 0)
    (fun k => m.getD k 0) (fun l hl' _ => by rw [← hfp]; exact h0 l (mem_range.1 hl'))
  rw [hlp m hm] at hL
  injection hL with hL
  injection hL with hL
  rw [hlp p hp, ← hL]
  unfold squares at hsq
  rw [hsq]
  have e : ∑ π ∈ obs T es, shift (range (numberOfParams T.par)) (weight T es) (slopes D es) (fun k => p.getD k 0) (fun k => m.getD k 0) π *
        shift (range (numberOfParams T.par)) (weight T es) (slopes D es) (fun k => p.getD k 0) (fun k => m.getD k 0) π =
      ∑ k ∈ range (numberOfParams T.par), effect o T D k * (p.getD k 0 - m.getD k 0) ^ 2 := by
    have e1 : ∀ π ∈ obs T es, shift (range (numberOfParams T.par)) (weight T es) (slopes D es) (fun k => p.getD k 0) (fun k => m.getD k 0) π *
        shift (range (numberOfParams T.par)) (weight T es) (slopes D es) (fun k => p.getD k 0) (fun k => m.getD k 0) π =
        ∑ k ∈ range (numberOfParams T.par), (weight T es π * slopes D es π k) ^ 2 * (p.getD k 0 - m.getD k 0) ^ 2 := by
      intro π hπ
      unfold shift
      rw [sum_mul_sum]
      refine sum_congr rfl (fun k hk => ?_)
      rw [sum_eq_single k]
      · ring
      · intro l hl' hne
        have : weight T es π * slopes D es π k * (weight T es π * slopes D es π l) = 0 := by
          have hk := mem_range.1 hk
          have hl' := mem_range.1 hl'
          rcases π with ⟨i, y, x⟩ | j
          · unfold obs at hπ
            rw [inl_mem_disjSum] at hπ
            obtain ⟨b, im, ht, hy, hx⟩ := (mem_pixels T i y x).1 hπ
            simp only [weight, slopes, ht, Option.map_some, Option.getD_some]
            by_cases hw : im.inverr.px y x = 0
            · rw [hw]; ring
            · rcases isolated_derivs hl hr0 k l hk hl' hne (hiso k hk) i y x b im ht hy hx hw with h | h <;> rw [h] <;> ring
          · simp only [slopes]
            by_cases hc : ((es[j]?).map (·.col)).getD 0 = k
            · have hc' : ¬ ((es[j]?).map (·.col)).getD 0 = l := fun h => hne (h.symm.trans hc)
              rw [if_neg hc']; ring
            · rw [if_neg hc]; ring
        linear_combination (m.getD k 0 - p.getD k 0) * (m.getD l 0 - p.getD l 0) * this
      · intro h
        exact absurd hk h
    rw [sum_congr rfl e1, sum_comm]
    refine sum_congr rfl (fun k _ => ?_)
    rw [effect_obs o ho T D es hes k, sum_mul]
  rw [e]
  congr 2
  ring

/-! ### Two sets of images together -/

/-- `TJ` has the images of `TA` and those of `TB`, the same thawed parameters, and the priors of `TA`.  The model images are the same. -/
structure Together (W : World R M) (TA TB TJ : Tractor R M) : Prop where
  countA : numberOfParams TA.par = numberOfParams TJ.par
  countB : numberOfParams TB.par = numberOfParams TJ.par
  images : TJ.images.map (fun x => (x.2.data, x.2.inverr)) = (TA.images ++ TB.images).map (fun x => (x.2.data, x.2.inverr))
  prior : (thawedPriors TJ.par).map (·.2) = (thawedPriors TA.par).map (·.2)
  modelA : ∀ p : List R, p.length = numberOfParams TJ.par → ∀ i b im, TA.images[i]? = some (b, im) → ∀ y x, y < im.data.h → x < im.data.w →
    pixel W (setAll TJ p) i y x = pixel W (setAll TA p) i y x
  modelB : ∀ p : List R, p.length = numberOfParams TJ.par → ∀ i b im, TB.images[i]? = some (b, im) → ∀ y x, y < im.data.h → x < im.data.w →
    pixel W (setAll TJ p) (TA.images.length + i) y x = pixel W (setAll TB p) i y x

omit [Field R] [LinearOrder R] [IsStrictOrderedRing R] in
theorem together_get {l la lb : List (Bool × Image R)}
    (h : l.map (fun x => (x.2.data, x.2.inverr)) = (la ++ lb).map (fun x => (x.2.data, x.2.inverr))) :
    l.length = la.length + lb.length ∧
    (∀ i, i < la.length → (l[i]?).map (fun x => (x.2.data, x.2.inverr)) = (la[i]?).map (fun x => (x.2.data, x.2.inverr))) ∧
    ∀ i, i < lb.length → (l[la.length + i]?).map (fun x => (x.2.data, x.2.inverr)) = (lb[i]?).map (fun x => (x.2.data, x.2.inverr)) := by
  refine ⟨by simpa using congrArg List.length h, fun i hi => ?_, fun i _ => ?_⟩
  · rw [← List.getElem?_map, h, List.getElem?_map, List.getElem?_append_left hi]
  · rw [← List.getElem?_map, h, List.getElem?_map, List.getElem?_append_right (by omega), Nat.add_sub_cancel_left]

omit [LinearOrder R] [IsStrictOrderedRing R] in
theorem residual_congr (T T' : Tractor R M) (f f' : Nat → Nat → Nat → R) (i i' : Nat)
    (h : (T.images[i]?).map (fun x => (x.2.data, x.2.inverr)) = (T'.images[i']?).map (fun x => (x.2.data, x.2.inverr))) 
    (hf : ∀ b im, T'.images[i']? = some (b, im) → ∀ y x, y < im.data.h → x < im.data.w → f i y x = f' i' y x) :
    residual T f i = residual T' f' i' := by
  unfold residual
  cases h1 : T.images[i]? with
  | none =>
    rw [h1] at h
    cases h2 : T'.images[i']? with
    | none => rfl
    | some z => rw [h2] at h; cases h
  | some z =>
    rw [h1] at h
    cases h2 : T'.images[i']? with
    | none => rw [h2] at h; cases h
    | some z' =>
      rw [h2] at h
      simp only [Option.map_some, Option.some.injEq, Prod.mk.injEq] at h
      simp only [h.1, h.2]
      exact sum_congr rfl (fun y hy => sum_congr rfl (fun x hx => by rw [hf z'.1 z'.2 h2 y x (mem_range.1 hy) (mem_range.1 hx)]))

omit [IsStrictOrderedRing R] in
theorem together_chi {W : World R M} {TA TB TJ : Tractor R M} (h : Together W TA TB TJ) (p : List R) (hp : p.length = numberOfParams TJ.par) :
    ∑ q ∈ pixelsOf TJ, ((valueAt TJ q - pixel W (setAll TJ p) q.1 q.2.1 q.2.2) * weightAt TJ q) ^ 2 =
      ∑ q ∈ pixelsOf TA, ((valueAt TA q - pixel W (setAll TA p) q.1 q.2.1 q.2.2) * weightAt TA q) ^ 2 +
      ∑ q ∈ pixelsOf TB, ((valueAt TB q - pixel W (setAll TB p) q.1 q.2.1 q.2.2) * weightAt TB q) ^ 2 := by
  obtain ⟨h1, h2, h3⟩ := together_get h.images
  rw [← residual_pixels TJ (fun i y x => pixel W (setAll TJ p) i y x), ← residual_pixels TA (fun i y x => pixel W (setAll TA p) i y x),
    ← residual_pixels TB (fun i y x => pixel W (setAll TB p) i y x), h1, sum_range_add]
  congr 1
  · exact sum_congr rfl (fun i hi => residual_congr _ _ _ _ _ _ (h2 i (mem_range.1 hi)) (h.modelA p hp i))
  · exact sum_congr rfl (fun i hi => residual_congr _ _ _ _ _ _ (h3 i (mem_range.1 hi)) (h.modelB p hp i))

omit [LinearOrder R] [IsStrictOrderedRing R] in
theorem priorChi_congr (t t' : Par R) (h : (thawedPriors t).map (·.2) = (thawedPriors t').map (·.2)) (p : List R) (k : Nat) :
    priorChi t p k = priorChi t' p k := by
  have e : ∀ s : Par R, priorChi s p k = ((((thawedPriors s).map (·.2))[k]?).map (fun x => (x.map (fun ms => ((p.getD k 0 - ms.1) / ms.2) ^ 2)).sum)).getD 0 := by
    intro s
    unfold priorChi
    rw [List.getElem?_map, Option.map_map]
    rfl
  rw [e, e, h]

/-- Parameter `k` of `T` has one prior, with mean `m[k]` and width `s[k]`. -/
def PassedOn (T : Tractor R M) (m s : List R) : Prop :=
  ∀ k, k < numberOfParams T.par → ((thawedPriors T.par)[k]?).map (·.2) = some [(m.getD k 0, s.getD k 0)]

/-- The log-probabilities differ by a constant. -/
theorem chain_form (W : World R M) (hooks : Tractor R M → Nat → Nat → Option (List (Deriv R))) (o : Opts) (ho : o.priors = true) (TA TB TJ : Tractor R M)
    (h : Together W TA TB TJ) (base : Nat → Nat → Nat → R) (D : Nat → Nat → Nat → Nat → R)
    (hr : ∀ p : List R, p.length = numberOfParams TA.par → Ready W hooks (setAll TA p)) (hl : Linear W hooks TA base D)
    (hrB : Ready W hooks TB) (hrJ : Ready W hooks TJ)
    (hiso : ∀ k, k < numberOfParams TA.par → Isolated W TA k) (m s : List R) (hm : m.length = numberOfParams TA.par)
    (hb : Best W (setAll TA m)) (hpass : PassedOn TB m s) (hs : ∀ k, k < numberOfParams TA.par → effect o TA D k * s.getD k 0 ^ 2 = 1) :
    ∃ C, ∀ p : List R, p.length = numberOfParams TJ.par →
      ∃ L, logProb W (setAll TB p) = .ok (.fin L) ∧ logProb W (setAll TJ p) = .ok (.fin (L + C)) := by
  have hr0 := hr (getParams TA.par) (getParams_length _)
  rw [setAll_self] at hr0
  obtain ⟨L0, hL0, -⟩ := id hb
  have hA := isolated_form W hooks o ho TA base D hr hl hiso m hm hb L0 hL0
  obtain ⟨CA, hCA⟩ := logPrior_form TA.par hr0.prior
  obtain ⟨CB, hCB⟩ := logPrior_form TB.par hrB.prior
  obtain ⟨CJ, hCJ⟩ := logPrior_form TJ.par hrJ.prior
  refine ⟨CJ - CA + L0 - CB, fun p hp => ⟨_, logProb_pixels W TB hrB.mask hrB.shape p _ (hCB p (hp.trans h.countB.symm)), ?_⟩⟩
  rw [logProb_pixels W TJ hrJ.mask hrJ.shape p _ (hCJ p hp), together_chi h p hp]
  have hA1 := hA p (hp.trans h.countA.symm)
  rw [logProb_pixels W TA hr0.mask hr0.shape p _ (hCA p (hp.trans h.countA.symm))] at hA1
  injection hA1 with hA1
  injection hA1 with hA1
  have e1 : ∑ k ∈ range (numberOfParams TJ.par), priorChi TJ.par p k = ∑ k ∈ range (numberOfParams TA.par), priorChi TA.par p k := by
    rw [h.countA]
    exact sum_congr rfl (fun k _ => priorChi_congr _ _ h.prior p k)
  have e2 : ∑ k ∈ range (numberOfParams TB.par), priorChi TB.par p k =
      ∑ k ∈ range (numberOfParams TA.par), effect o TA D k * (p.getD k 0 - m.getD k 0) ^ 2 := by
    rw [h.countB, ← h.countA]
    refine sum_congr rfl (fun k hk => ?_)
    have hk := mem_range.1 hk
    have hp1 := hpass k (by rw [h.countB, ← h.countA]; exact hk)
    unfold priorChi
    cases hx : (thawedPriors TB.par)[k]? with
    | none => rw [hx] at hp1; cases hp1
    | some x =>
      rw [hx] at hp1
      simp only [Option.map_some, Option.some.injEq] at hp1
      simp only [Option.map_some, Option.getD_some, hp1, List.map_cons, List.map_nil, List.sum_cons, List.sum_nil, add_zero]
      have h1 := hs k hk
      have h0 : s.getD k 0 ≠ 0 := by
        intro h0
        rw [h0] at h1
        simp at h1
      rw [div_pow, eq_comm, eq_div_iff (pow_ne_zero 2 h0)]
      linear_combination (p.getD k 0 - m.getD k 0) ^ 2 * h1
  rw [e1, e2]
  congr 2
  linarith

/-- Equal model images have equal derivatives. -/
theorem derivs_same {W : World R M} {hooks : Tractor R M → Nat → Nat → Option (List (Deriv R))} {T T' : Tractor R M} {base base' : Nat → Nat → Nat → R}
    {D D' : Nat → Nat → Nat → Nat → R} (hl : Linear W hooks T base D) (hr : Ready W hooks T) (hl' : Linear W hooks T' base' D') (hr' : Ready W hooks T')
    (hn : numberOfParams T.par = numberOfParams T'.par) (i i' y x : Nat) (b b' : Bool) (im im' : Image R) (h : T.images[i]? = some (b, im))
    (h' : T'.images[i']? = some (b', im')) (hy : y < im.data.h) (hx : x < im.data.w) (hy' : y < im'.data.h) (hx' : x < im'.data.w)
    (he : ∀ p : List R, p.length = numberOfParams T'.par → pixel W (setAll T p) i y x = pixel W (setAll T' p) i' y x) (k : Nat)
    (hk : k < numberOfParams T'.par) : D k i y x = D' k i' y x := by
  have key : ∀ p : List R, p.length = numberOfParams T'.par → base i y x + ∑ k ∈ range (numberOfParams T'.par), p.getD k 0 * D k i y x =
      base' i' y x + ∑ k ∈ range (numberOfParams T'.par), p.getD k 0 * D' k i' y x := by
    intro p hp
    rw [← pixel_linear hl' hr' p hp i' y x b' im' h' hy' hx', ← he p hp, pixel_linear hl hr p (hp.trans hn.symm) i y x b im h hy hx, hn]
  have h0 := key (List.replicate (numberOfParams T'.par) 0) (by simp)
  have h1 := key ((List.replicate (numberOfParams T'.par) 0).set k 1) (by simp)
  rw [sum_set _ _ k 1 (fun k => D k i y x) (by simp) hk, sum_set _ _ k 1 (fun k => D' k i' y x) (by simp) hk] at h1
  have hz : (List.replicate (numberOfParams T'.par) (0 : R)).getD k 0 = 0 := by simp [List.getD, hk]
  rw [hz] at h1
  linarith

omit [IsStrictOrderedRing R] in
/-- The effect in the pixels of an image. -/
theorem effect_images (o : Opts) (T : Tractor R M) (D : Nat → Nat → Nat → Nat → R) (k : Nat) :
    effect o T D k = ∑ i ∈ range T.images.length, (((T.images[i]?).map (fun x => (x.2.data, x.2.inverr))).map (fun z =>
      ∑ r ∈ range z.1.h, ∑ c ∈ range z.1.w, (D k i r c * z.2.px r c) ^ 2)).getD 0 + ((widths o T k).map (fun s => (1 / s) ^ 2)).sum := by
  unfold effect
  rw [sum_getElem, List.length_zipIdx]
  congr 1
  refine sum_congr rfl (fun i hi => ?_)
  have hi := mem_range.1 hi
  have hT : T.images[i]? = some T.images[i] := List.getElem?_eq_getElem hi
  have hz : T.images.zipIdx[i]? = some (T.images[i], i) := by rw [List.getElem?_zipIdx, hT]; simp
  rw [hz, hT]
  rfl

/-- What is known of a parameter afterwards is what is known of it from all images. -/
theorem chain_effect (W : World R M) (hooks : Tractor R M → Nat → Nat → Option (List (Deriv R))) (o : Opts) (ho : o.priors = true) (TA TB TJ : Tractor R M)
    (h : Together W TA TB TJ) (bA bB bJ : Nat → Nat → Nat → R) (DA DB DJ : Nat → Nat → Nat → Nat → R) (hrA : Ready W hooks TA)
    (hlA : Linear W hooks TA bA DA) (hrB : Ready W hooks TB) (hlB : Linear W hooks TB bB DB) (hrJ : Ready W hooks TJ) (hlJ : Linear W hooks TJ bJ DJ)
    (m s : List R) (hpass : PassedOn TB m s) (k : Nat) (hk : k < numberOfParams TJ.par) (hs : effect o TA DA k * s.getD k 0 ^ 2 = 1) :
    effect o TB DB k = effect o TJ DJ k := by
  obtain ⟨h1, h2, h3⟩ := together_get h.images
  have hw : widths o TJ k = widths o TA k := by
    have e : ∀ T : Tractor R M, widths o T k = ((((thawedPriors T.par).map (·.2))[k]?).map (fun x => x.map (·.2))).getD [] := by
      intro T
      unfold widths
      rw [if_pos ho, List.getElem?_map, Option.map_map]
      rfl
    rw [e, e, h.prior]
  have hwB : widths o TB k = [s.getD k 0] := by
    unfold widths
    rw [if_pos ho]
    have hp1 := hpass k (by rw [h.countB]; exact hk)
    cases hx : (thawedPriors TB.par)[k]? with
    | none => rw [hx] at hp1; cases hp1
    | some x =>
      rw [hx] at hp1
      simp only [Option.map_some, Option.some.injEq] at hp1
      simp [hp1]
  have h0 : s.getD k 0 ≠ 0 := by
    intro h0
    rw [h0] at hs
    simp at hs
  have hs' : (1 / s.getD k 0) ^ 2 = effect o TA DA k := by
    rw [div_pow, one_pow, eq_comm, eq_div_iff (pow_ne_zero 2 h0)]
    exact hs
  have part : ∀ (T : Tractor R M) (b : Nat → Nat → Nat → R) (D : Nat → Nat → Nat → Nat → R), Ready W hooks T → Linear W hooks T b D →
      numberOfParams T.par = numberOfParams TJ.par → ∀ i j, i < T.images.length →
      (TJ.images[j]?).map (fun x => (x.2.data, x.2.inverr)) = (T.images[i]?).map (fun x => (x.2.data, x.2.inverr)) →
      (∀ p : List R, p.length = numberOfParams TJ.par → ∀ b im, T.images[i]? = some (b, im) → ∀ y x, y < im.data.h → x < im.data.w →
        pixel W (setAll TJ p) j y x = pixel W (setAll T p) i y x) →
      (((TJ.images[j]?).map (fun x => (x.2.data, x.2.inverr))).map (fun z => ∑ r ∈ range z.1.h, ∑ c ∈ range z.1.w, (DJ k j r c * z.2.px r c) ^ 2)).getD 0 =
      (((T.images[i]?).map (fun x => (x.2.data, x.2.inverr))).map (fun z => ∑ r ∈ range z.1.h, ∑ c ∈ range z.1.w, (D k i r c * z.2.px r c) ^ 2)).getD 0 := by
    intro T b D hr hl hn i j hi hget hpix
    have hT : T.images[i]? = some (T.images[i].1, T.images[i].2) := List.getElem?_eq_getElem hi
    generalize T.images[i].1 = b1 at hT
    generalize T.images[i].2 = im at hT
    cases hJ : TJ.images[j]? with
    | none => rw [hJ, hT] at hget; cases hget
    | some z =>
      obtain ⟨b2, im2⟩ := z
      rw [hJ, hT] at hget
      simp only [Option.map_some, Option.some.injEq, Prod.mk.injEq] at hget
      rw [hT]
      simp only [Option.map_some, Option.getD_some, hget.1, hget.2]
      refine sum_congr rfl (fun r hr' => sum_congr rfl (fun c hc => ?_))
      have hr' := mem_range.1 hr'
      have hc := mem_range.1 hc
      rw [derivs_same hl hr hlJ hrJ hn i j r c _ _ _ _ hT hJ hr' hc (by rw [hget.1]; exact hr') (by rw [hget.1]; exact hc)
        (fun p hp => (hpix p hp _ _ hT r c hr' hc).symm) k hk]
  rw [effect_images o TB, effect_images o TJ, hwB, hw, h1, sum_range_add]
  rw [effect_images o TA] at hs'
  simp only [List.map_cons, List.map_nil, List.sum_cons, List.sum_nil, add_zero, hs']
  rw [sum_congr rfl (fun i hi => part TA bA DA hrA hlA h.countA i i (mem_range.1 hi) (h2 i (mem_range.1 hi))
      (fun p hp => h.modelA p hp i)),
    sum_congr rfl (fun i hi => part TB bB DB hrB hlB h.countB i (TA.images.length + i) (mem_range.1 hi) (h3 i (mem_range.1 hi))
      (fun p hp => h.modelB p hp i))]
  ring

/-- `addGaussianPrior(name, mu, sigma)`, utils.py 146-147 with `_GaussianPriors.add`, 83-90: the name is looked up, KeyError if there is none, and the term
appended; the name in the term is not kept (as in `PList`).  Scalars and containers have no such method (AttributeError). -/
def addPrior (n : String) (mu sigma : R) : Par R → Except PyErr (Par R)
  | .plist l =>
    match nameIndex n (.plist l) with
    | none => .error .key
    | some i => .ok (.plist { l with priors := l.priors ++ [(i, mu, sigma)] })
  | _ => .error .attribute

/-! ### Several nights -/

/-- A user's loop over nights, not code of the repository: the tractor of a night is optimized with variances; the values found and the roots of the
variances are given to the tractor of the next night as Gaussian priors by `install` (`addGaussianPrior`, utils.py 83-90 and 146-147). -/
def chain (S : Solver R) (W : World R M) (hooks : Tractor R M → Nat → Nat → Option (List (Deriv R))) (shared : Bool) (alphas : List R) (root : R → R)
    (install : Tractor R M → List R → List R → Tractor R M) : Tractor R M → List (Tractor R M) → Tractor R M × Except PyErr (Option (Num R × R) × Option (List R))
  | T, [] => optimizeVar S W hooks shared true false alphas T
  | T, E :: l =>
    match optimizeVar S W hooks shared true false alphas T with
    | (T', .ok (_, some var)) => chain S W hooks shared alphas root install (install E (getParams T'.par) (var.map root)) l
    | z => z

/-- A tractor in order, with linear model images, where all parameters have an effect. -/
structure Fine (S : Solver R) (W : World R M) (hooks : Tractor R M → Nat → Nat → Option (List (Deriv R))) (shared : Bool) (T : Tractor R M)
    (base : Nat → Nat → Nat → R) (D : Nat → Nat → Nat → Nat → R) : Prop where
  ready : ∀ p : List R, p.length = numberOfParams T.par → Ready W hooks (setAll T p)
  linear : Linear W hooks T base D
  options : Options S ⟨true, shared, true⟩ T D
  nonempty : 0 < numberOfParams T.par
  seen : ∀ k, k < numberOfParams T.par → effect ⟨true, shared, true⟩ T D k ≠ 0

/-- A night: the tractor with its images, and the one with the images of all nights up to then. -/
structure Night (R M : Type) where
  own : Tractor R M
  all : Tractor R M
  base : Nat → Nat → Nat → R
  D : Nat → Nat → Nat → Nat → R

/-- What is asked of the nights. -/
def Nights (S : Solver R) (W : World R M) (hooks : Tractor R M → Nat → Nat → Option (List (Deriv R))) (shared : Bool) (root : R → R)
    (install : Tractor R M → List R → List R → Tractor R M) : Night R M → List (Night R M) → Prop
  | _, [] => True
  | J, N :: l =>
    (∀ k, k < numberOfParams J.all.par → root (1 / effect ⟨true, shared, true⟩ J.all J.D k) ^ 2 = 1 / effect ⟨true, shared, true⟩ J.all J.D k) ∧
    Fine S W hooks shared N.all N.base N.D ∧ (∀ k, k < numberOfParams N.all.par → Isolated W N.all k) ∧
    (∀ m s : List R, m.length = numberOfParams J.all.par → s.length = numberOfParams J.all.par →
      (∀ k, k < numberOfParams J.all.par → s.getD k 0 ^ 2 = 1 / effect ⟨true, shared, true⟩ J.all J.D k) →
      PassedOn (install N.own m s) m s ∧ Together W J.all (install N.own m s) N.all ∧ ∃ b D, Fine S W hooks shared (install N.own m s) b D) ∧
    Nights S W hooks shared root install N l

omit [IsStrictOrderedRing R] in
theorem Fine.ready0 {S : Solver R} {W : World R M} {hooks : Tractor R M → Nat → Nat → Option (List (Deriv R))} {shared : Bool} {T : Tractor R M}
    {base : Nat → Nat → Nat → R} {D : Nat → Nat → Nat → Nat → R} (h : Fine S W hooks shared T base D) : Ready W hooks T := by
  have := h.ready (getParams T.par) (getParams_length _)
  rwa [setAll_self] at this

/-- There is only one best fit. -/
theorem Fine.unique {S : Solver R} {W : World R M} {hooks : Tractor R M → Nat → Nat → Option (List (Deriv R))} {shared : Bool} {T : Tractor R M}
    {base : Nat → Nat → Nat → R} {D : Nat → Nat → Nat → Nat → R} (h : Fine S W hooks shared T base D)
    (hiso : ∀ k, k < numberOfParams T.par → Isolated W T k) (m m' : List R) (hm : m.length = numberOfParams T.par) (hm' : m'.length = numberOfParams T.par)
    (hb : Best W (setAll T m)) (hb' : Best W (setAll T m')) : m' = m := by
  obtain ⟨L, hL, hmax⟩ := id hb
  obtain ⟨L', hL', hmax'⟩ := id hb'
  have hf := isolated_form W hooks ⟨true, shared, true⟩ rfl T base D h.ready h.linear hiso m hm hb L hL m' hm'
  obtain ⟨L1, h1, h2⟩ := hmax' m (by rw [setAll_length]; exact hm)
  rw [setAll_setAll _ _ _ hm, hL] at h1
  cases h1
  rw [hL'] at hf
  injection hf with hf
  injection hf with hf
  have hnn : ∀ k ∈ range (numberOfParams T.par), 0 ≤ effect ⟨true, shared, true⟩ T D k * (m'.getD k 0 - m.getD k 0) ^ 2 := by
    intro k _
    refine mul_nonneg ?_ (sq_nonneg _)
    unfold effect
    refine add_nonneg (List.sum_nonneg (fun x hx => ?_)) (List.sum_nonneg (fun x hx => ?_))
    · obtain ⟨z, -, rfl⟩ := List.mem_map.1 hx
      exact sum_nonneg (fun _ _ => sum_nonneg (fun _ _ => sq_nonneg _))
    · obtain ⟨z, -, rfl⟩ := List.mem_map.1 hx
      exact sq_nonneg _
  have h0 := (sum_eq_zero_iff_of_nonneg hnn).1 (le_antisymm (by linarith) (sum_nonneg hnn))
  apply List.ext_getElem
  · rw [hm, hm']
  · intro k k1 k2
    have hk : k < numberOfParams T.par := by omega
    have := (mul_eq_zero.1 (h0 k (mem_range.2 hk))).resolve_left (h.seen k hk)
    have := sub_eq_zero.1 (pow_eq_zero_iff (two_ne_zero)|>.1 this)
    simpa [List.getD, k1, k2] using this

/-- What a fit with variances returns. -/
theorem Fine.run {S : Solver R} (hsq : Lsq.SqrtOK S.sqrt) (hS : Lsq.Solves S.lsqr) {W : World R M}
    {hooks : Tractor R M → Nat → Nat → Option (List (Deriv R))} {shared : Bool} {T : Tractor R M} {base : Nat → Nat → Nat → R}
    {D : Nat → Nat → Nat → Nat → R} (h : Fine S W hooks shared T base D) (A B : List R) (hA : ∀ a ∈ A, 0 ≤ a) (hs : (A ++ [1]).Pairwise (· ≤ ·)) :
    ∃ q r, optimizeVar S W hooks shared true false (A ++ 1 :: B) T =
        (setAll T q, .ok (some r, some ((List.range (numberOfParams T.par)).map (fun k => 1 / effect ⟨true, shared, true⟩ T D k)))) ∧
      q.length = numberOfParams T.par ∧ Best W (setAll T q) := by
  obtain ⟨T', r, q, b1, b2, rfl, b4, -, -⟩ := optimize_best S hsq hS W hooks ⟨true, shared, true⟩ T base D h.ready0 h.linear h.options A B hA hs
  obtain ⟨var, rfl, -, h3⟩ := optimizeVar_ok S hsq hS W hooks shared true T base D h.ready0 h.linear h.options ⟨0, h.nonempty, h.seen 0 h.nonempty⟩ (A ++ 1 :: B)
  rw [b1] at h3
  exact ⟨q, r, h3, b2, b4⟩

/-- A constant does not matter for the best fit. -/
theorem best_constant {W : World R M} {T T' : Tractor R M} (hn : numberOfParams T.par = numberOfParams T'.par) (C : R)
    (h : ∀ p : List R, p.length = numberOfParams T'.par → ∃ L, logProb W (setAll T p) = .ok (.fin L) ∧ logProb W (setAll T' p) = .ok (.fin (L + C)))
    (q : List R) (hq : q.length = numberOfParams T'.par) (hb : Best W (setAll T q)) : Best W (setAll T' q) := by
  obtain ⟨L, h1, h2⟩ := hb
  obtain ⟨L1, h3, h4⟩ := h q hq
  rw [h1] at h3
  cases h3
  refine ⟨L + C, h4, fun p hp => ?_⟩
  rw [setAll_length] at hp
  obtain ⟨L2, h5, h6⟩ := h p hp
  obtain ⟨L3, h7, h8⟩ := h2 p (by rw [setAll_length, hn]; exact hp)
  rw [setAll_setAll _ _ _ (hp.trans hn.symm), h5] at h7
  cases h7
  exact ⟨L2 + C, by rw [setAll_setAll _ _ _ hp]; exact h6, by linarith⟩

theorem chain_core {S : Solver R} (hsq : Lsq.SqrtOK S.sqrt) (hS : Lsq.Solves S.lsqr) (W : World R M)
    (hooks : Tractor R M → Nat → Nat → Option (List (Deriv R))) (shared : Bool) (root : R → R) (install : Tractor R M → List R → List R → Tractor R M)
    (A B : List R) (hA : ∀ a ∈ A, 0 ≤ a) (hs : (A ++ [1]).Pairwise (· ≤ ·)) (l : List (Night R M)) :
    ∀ (J : Night R M) (T : Tractor R M) (b : Nat → Nat → Nat → R) (D : Nat → Nat → Nat → Nat → R), Fine S W hooks shared J.all J.base J.D →
      (∀ k, k < numberOfParams J.all.par → Isolated W J.all k) → Nights S W hooks shared root install J l → Fine S W hooks shared T b D →
      numberOfParams T.par = numberOfParams J.all.par → (∀ q : List R, q.length = numberOfParams J.all.par → Best W (setAll T q) → Best W (setAll J.all q)) →
      (∀ k, k < numberOfParams J.all.par → effect ⟨true, shared, true⟩ T D k = effect ⟨true, shared, true⟩ J.all J.D k) →
      ∃ T' J' r r' var, chain S W hooks shared (A ++ 1 :: B) root install T (l.map (·.own)) = (T', .ok (some r, some var)) ∧
        optimizeVar S W hooks shared true false (A ++ 1 :: B) (l.getLastD J).all = (J', .ok (some r', some var)) ∧ getParams T'.par = getParams J'.par := by
  induction l with
  | nil =>
    intro J T b D hJ hiso _ hT hn hbest heff
    obtain ⟨q, r, e1, e2, e3⟩ := hT.run hsq hS A B hA hs
    obtain ⟨q', r', f1, f2, f3⟩ := hJ.run hsq hS A B hA hs
    have hq : q = q' := hJ.unique hiso q' q f2 (e2.trans hn) f3 (hbest q (e2.trans hn) e3)
    have hv : (List.range (numberOfParams T.par)).map (fun k => 1 / effect ⟨true, shared, true⟩ T D k) =
        (List.range (numberOfParams J.all.par)).map (fun k => 1 / effect ⟨true, shared, true⟩ J.all J.D k) := by
      rw [hn]
      exact List.map_congr_left (fun k hk => by rw [heff k (List.mem_range.1 hk)])
    rw [hv] at e1
    refine ⟨_, _, r, r', _, e1, f1, ?_⟩
    rw [getParams_setAll _ _ e2, getParams_setAll _ _ f2, hq]
  | cons N l ih =>
    intro J T b D hJ hiso hN hT hn hbest heff
    obtain ⟨n1, n2, n3, n4, n5⟩ := hN
    obtain ⟨q, r, e1, e2, e3⟩ := hT.run hsq hS A B hA hs
    have hv : (List.range (numberOfParams T.par)).map (fun k => 1 / effect ⟨true, shared, true⟩ T D k) =
        (List.range (numberOfParams J.all.par)).map (fun k => 1 / effect ⟨true, shared, true⟩ J.all J.D k) := by
      rw [hn]
      exact List.map_congr_left (fun k hk => by rw [heff k (List.mem_range.1 hk)])
    rw [hv] at e1
    have hroot : ∀ k, k < numberOfParams J.all.par →
        (((List.range (numberOfParams J.all.par)).map (fun k => 1 / effect ⟨true, shared, true⟩ J.all J.D k)).map root).getD k 0 ^ 2 =
          1 / effect ⟨true, shared, true⟩ J.all J.D k := by
      intro k hk
      rw [List.map_map, getD_map_range _ _ k hk]
      exact n1 k hk
    have hgq := getParams_setAll T q e2
    obtain ⟨p1, p2, b', D', p3⟩ := n4 q (((List.range (numberOfParams J.all.par)).map (fun k => 1 / effect ⟨true, shared, true⟩ J.all J.D k)).map root)
      (e2.trans hn) (by simp) hroot
    have hprod : ∀ k, k < numberOfParams J.all.par → effect ⟨true, shared, true⟩ J.all J.D k *
        (((List.range (numberOfParams J.all.par)).map (fun k => 1 / effect ⟨true, shared, true⟩ J.all J.D k)).map root).getD k 0 ^ 2 = 1 := by
      intro k hk
      rw [hroot k hk]
      exact mul_one_div_cancel (hJ.seen k hk)
    obtain ⟨C, hC⟩ := chain_form W hooks ⟨true, shared, true⟩ rfl J.all _ N.all p2 J.base J.D hJ.ready hJ.linear p3.ready0 n2.ready0 hiso q _ (e2.trans hn)
      (hbest q (e2.trans hn) e3) p1 hprod
    obtain ⟨T', J', r1, r2, var, g1, g2, g3⟩ := ih N _ b' D' n2 n3 n5 p3 p2.countB (fun p hp hb => best_constant p2.countB C hC p hp hb)
      (fun k hk => chain_effect W hooks ⟨true, shared, true⟩ rfl J.all _ N.all p2 J.base b' N.base J.D D' N.D hJ.ready0 hJ.linear p3.ready0 p3.linear
        n2.ready0 n2.linear q _ p1 k hk (hprod k (by rw [p2.countA]; exact hk)))
    refine ⟨T', J', r1, r2, var, ?_, ?_, g3⟩
    · rw [List.map_cons, chain, e1]
      dsimp only
      rw [hgq]
      exact g1
    · rw [List.getLastD_cons]
      exact g2

end

end Verif.Fit
