import Verif.Engine.Lemmas3
import Mathlib.Algebra.Order.Ring.Rat
import Mathlib.Algebra.Order.Field.Rat
import Mathlib.Algebra.Order.BigOperators.Group.Finset
import Mathlib.Algebra.Order.BigOperators.Group.List
import Mathlib.Tactic.Positivity
import Mathlib.Tactic.Linarith

/-!
# Properties of model images, likelihood, posterior and derivative lists (C29-C32)
-/

namespace Verif.Engine

open Verif Verif.Params Verif.Patches

variable {R M : Type}

/-! Example objects: two images (the second frozen, sky level thawed in both), a catalog with a thawed
source, a missing one and a frozen one. -/

def exScalar (v : ℚ) : Scalar ℚ := ⟨"S", v, none, none, none, 1 / 2, none⟩

def exImg (id : Nat) (sky : ℚ) : Image ℚ :=
  ⟨id, .cons ["psf"] false (.scalar (exScalar 9)) (.cons ["sky"] true (.scalar (exScalar sky)) .nil),
    Arr.ofLists [[5, 6], [7, 8]] 2, Arr.ofLists [[1, 0], [2, 1]] 2⟩

def exSrc (id : Nat) (a b : ℚ) : Source ℚ :=
  ⟨id, .multi (.cons ["pos"] true (.scalar (exScalar a)) (.cons ["flux"] true (.scalar (exScalar b)) .nil))⟩

/-- The sky parameter of an example image. -/
def exSkyOf (im : Image ℚ) : ℚ :=
  match im.par with
  | .cons _ _ _ (.cons _ _ (.scalar s) _) => s.val
  | _ => 0

/-- A source is rendered as two pixels (its parameters) at column 0, masked to `mask` rows. -/
def exW : World ℚ Nat where
  render s _ mask := some ⟨0, 0, some ⟨mask.getD 1, 2, fun _ c => ((getParams s.par)[c]?).getD 0⟩⟩
  sky im := .constant (exSkyOf im)
  srcDerivs _ im _ := [some ⟨0, im.id, some ⟨1, 1, fun _ _ => 1⟩⟩, if im.id = 0 then none else some ⟨1, 0, none⟩]

def exT : Tractor ℚ Nat :=
  ⟨true, [(true, exImg 0 3), (false, exImg 1 4)], true,
    [(true, some (exSrc 10 1 2)), (true, none), (false, some (exSrc 11 5 6))],
    some [[(10, 2)], [(11, 1), (10, 1)]], true⟩

/-! ## C29 -/

/-- **C29.** The model image has the shape of the data, and each pixel is the sky level (if asked for)
plus the sum of what the sources contribute there: the pixel of the patch the source renders with its
own mask, zero outside the patch, for a None patch, a missing source, and a source without mask if masks
are expected.  Without a source list the whole catalog is used, frozen or not. -/
theorem C29_model_image [CommRing R] [DecidableEq R] (W : World R M) (T : Tractor R M) (img : Image R)
    (h : MasksOK T img) (srcs : Option (List (Option (Source R)))) :
    (∃ ps, Contributions W T img (srcs.getD (T.catalog.map (·.2))) ps) ∧
    ∀ ps, Contributions W T img (srcs.getD (T.catalog.map (·.2))) ps → ∀ sky : Bool,
      ∃ r, getModelImage W T img srcs sky = .ok r ∧ r.h = img.data.h ∧ r.w = img.data.w ∧
        ∀ y x : Nat, y < img.data.h → x < img.data.w →
          r.px y x = (if sky then (W.sky img).at x y else 0) +
            (ps.map (fun p => patchAt p x y)).sum := by
  obtain ⟨ps, h1, h2⟩ := getModelImage_ok W T img h srcs
  refine ⟨⟨ps, h1⟩, fun qs hq => ?_⟩
  rw [← h1.unique hq]
  exact h2

example : MasksOK exT (exImg 0 3) := by
  intro masks h
  cases h
  exact ⟨rfl, (true, exImg 0 3), by simp [exT], rfl⟩
-- the frozen source 11 has no mask in image 0 and contributes nothing there; image 1 gets both
example : (getModelImage exW exT (exImg 0 3) none true).toOption.map Arr.toLists =
      some [[4, 5], [4, 5]] ∧
    (getModelImage exW exT (exImg 1 4) none true).toOption.map Arr.toLists =
      some [[10, 12], [4, 4]] ∧
    (getModelImage exW exT (exImg 1 4) (some [some (exSrc 11 5 6)]) false).toOption.map Arr.toLists =
      some [[5, 6], [0, 0]] := by decide +kernel

/-- **C29.** Rendering two lists of sources without sky and adding the images is the same as rendering
the concatenated list; with sky, the sky is added once. -/
theorem C29_additive [CommRing R] [DecidableEq R] (W : World R M) (T : Tractor R M) (img : Image R)
    (h : MasksOK T img) (as bs : List (Option (Source R))) :
    ∃ A B C D : Arr R, getModelImage W T img (some as) false = .ok A ∧
      getModelImage W T img (some bs) false = .ok B ∧
      getModelImage W T img (some (as ++ bs)) false = .ok C ∧
      getModelImage W T img (some (as ++ bs)) true = .ok D ∧
      ∀ y x : Nat, y < img.data.h → x < img.data.w →
        C.px y x = A.px y x + B.px y x ∧ D.px y x = (W.sky img).at x y + A.px y x + B.px y x := by
  obtain ⟨ps, h1, h2⟩ := getModelImage_ok W T img h (some as)
  obtain ⟨qs, h3, h4⟩ := getModelImage_ok W T img h (some bs)
  obtain ⟨rs, h5, h6⟩ := getModelImage_ok W T img h (some (as ++ bs))
  have hrs : rs = ps ++ qs := h5.unique (by
    simp only [Option.getD_some] at h1 h3 ⊢
    exact List.rel_append h1 h3)
  subst hrs
  obtain ⟨A, a1, -, -, a4⟩ := h2 false
  obtain ⟨B, b1, -, -, b4⟩ := h4 false
  obtain ⟨C, c1, -, -, c4⟩ := h6 false
  obtain ⟨D, d1, -, -, d4⟩ := h6 true
  refine ⟨A, B, C, D, a1, b1, c1, d1, fun y x hy hx => ?_⟩
  rw [a4 y x hy hx, b4 y x hy hx, c4 y x hy hx, d4 y x hy hx, List.map_append, List.sum_append]
  simp only [Bool.false_eq_true, if_false, if_true]
  constructor <;> ring

/-- **C29.** The order of the sources does not matter. -/
theorem C29_order [CommRing R] [DecidableEq R] (W : World R M) (T : Tractor R M) (img : Image R)
    (h : MasksOK T img) (as bs : List (Option (Source R))) (hp : as.Perm bs) (sky : Bool) :
    ∃ A B : Arr R, getModelImage W T img (some as) sky = .ok A ∧
      getModelImage W T img (some bs) sky = .ok B ∧ SameArr A B := by
  have key : ∀ (as bs : List (Option (Source R))), as.Perm bs → ∀ ps, Contributions W T img as ps →
      ∃ qs, Contributions W T img bs qs ∧ ps.Perm qs := by
    intro as bs hp
    induction hp with
    | nil => intro ps hps; exact ⟨ps, hps, .refl _⟩
    | cons a _ ih =>
      intro ps hps
      cases hps with
      | cons h1 h2 =>
        obtain ⟨qs, h3, h4⟩ := ih _ h2
        exact ⟨_ :: qs, .cons h1 h3, .cons _ h4⟩
    | swap a b l =>
      intro ps hps
      cases hps with
      | cons h1 h2 =>
        cases h2 with
        | cons h3 h4 => exact ⟨_, .cons h3 (.cons h1 h4), .swap _ _ _⟩
    | trans _ _ ih1 ih2 =>
      intro ps hps
      obtain ⟨qs, h1, h2⟩ := ih1 ps hps
      obtain ⟨rs, h3, h4⟩ := ih2 qs h1
      exact ⟨rs, h3, h2.trans h4⟩
  obtain ⟨ps, h1, h2⟩ := getModelImage_ok W T img h (some as)
  obtain ⟨qs, h3, h4⟩ := getModelImage_ok W T img h (some bs)
  obtain ⟨qs', h5, h6⟩ := key as bs hp ps h1
  have : qs' = qs := h5.unique h3
  subst this
  obtain ⟨A, a1, a2, a3, a4⟩ := h2 sky
  obtain ⟨B, b1, b2, b3, b4⟩ := h4 sky
  refine ⟨A, B, a1, b1, by rw [a2, b2], by rw [a3, b3], fun y x hy hx => ?_⟩
  rw [a2] at hy
  rw [a3] at hx
  rw [a4 y x hy hx, b4 y x hy hx, (h6.map (fun p => patchAt p x y)).sum_eq]

example : [some (exSrc 11 5 6), some (exSrc 10 1 2)].Perm
    [some (exSrc 10 1 2), some (exSrc 11 5 6)] := .swap _ _ _

/-- **C29.** `setModelMasks` with one dictionary per image makes every mask lookup of these images
work, and None removes the masks. -/
theorem C29_setModelMasks (T : Tractor R M) (l : List (List (Nat × M))) (assume : Bool)
    (h : l.length = T.images.length) :
    (∃ T', setModelMasks T (some l) assume = (T', none) ∧ T'.modelMasks = some l ∧
      T'.expectModelMasks = assume ∧ T'.par = T.par ∧ ∀ x ∈ T.images, MasksOK T' x.2) ∧
    (∃ T', setModelMasks T none assume = (T', none) ∧ T'.modelMasks = none ∧
      T'.expectModelMasks = false ∧ T'.par = T.par ∧ ∀ img, MasksOK T' img) := by
  constructor
  · refine ⟨{ T with modelMasks := some l, expectModelMasks := assume }, by simp [setModelMasks, h], rfl,
      rfl, rfl, ?_⟩
    intro x hx masks hm
    cases hm
    exact ⟨h, x, hx, rfl⟩
  · refine ⟨{ T with modelMasks := none, expectModelMasks := false }, by simp [setModelMasks], rfl, rfl,
      rfl, ?_⟩
    intro img masks hm
    cases hm

/-- **C29.** With masks set, rendering a source into an image that does not belong to the tractor raises
ValueError. -/
theorem C29_foreign_image [CommRing R] [DecidableEq R] (W : World R M) (T : Tractor R M) (img : Image R)
    (masks : List (List (Nat × M))) (hm : T.modelMasks = some masks)
    (hno : ∀ x ∈ T.images, x.2.id ≠ img.id) (src : Source R) (srcs : List (Option (Source R))) (sky : Bool) :
    getModelImage W T img (some (some src :: srcs)) sky = .error .value := by
  have : T.images.findIdx? (fun x => x.2.id = img.id) = none := by
    rw [List.findIdx?_eq_none_iff]
    intro x hx
    simpa using hno x hx
  simp [getModelImage, addSources, getModelPatch, maskFor, hm, this]

example : ∀ x ∈ exT.images, x.2.id ≠ (exImg 7 0).id := by decide +kernel

/-- **C29, false part.** A `setModelMasks` call rejected for a wrong number of dictionaries has already
replaced the masks: afterwards rendering raises IndexError. -/
theorem C29_rejected_masks_stay :
    (setModelMasks exT (some [[]]) false).2 = some .assertion ∧
    (getModelImage exW (setModelMasks exT (some [[]]) false).1 (exImg 1 4) none true).toOption.isNone = true ∧
    (getModelImage exW exT (exImg 1 4) none true).toOption.isNone = false := by
  decide +kernel

/-! ## C30 -/

/-- **C30.** The log-likelihood is -1/2 times the sum over all images (frozen or not) and all pixels of
((data - model) * inverse error) squared, where model is the image `getModelImage` returns. -/
theorem C30_loglikelihood [Field R] [DecidableEq R] (W : World R M) (T : Tractor R M)
    (hmask : ∀ x ∈ T.images, MasksOK T x.2)
    (hie : ∀ x ∈ T.images, x.2.inverr.h = x.2.data.h ∧ x.2.inverr.w = x.2.data.w) :
    ∃ mods : List (Arr R),
      List.Forall₂ (fun x m => getModelImage W T x.2 none true = .ok m) T.images mods ∧
      getLogLikelihood W T = .ok (-(1 / 2) * ((T.images.zip mods).map (fun p =>
        ∑ y ∈ Finset.range p.1.2.data.h, ∑ x ∈ Finset.range p.1.2.data.w,
          ((p.1.2.data.px y x - p.2.px y x) * p.1.2.inverr.px y x) ^ 2)).sum) := by
  obtain ⟨mods, h1, h2⟩ := chisqLoop_ok W T (T.images.map (·.2))
    (by intro x hx; obtain ⟨y, hy, rfl⟩ := List.mem_map.1 hx; exact hmask y hy)
    (by intro x hx; obtain ⟨y, hy, rfl⟩ := List.mem_map.1 hx; exact hie y hy)
  refine ⟨mods, ?_, ?_⟩
  · rwa [List.forall₂_map_left_iff] at h1
  · rw [getLogLikelihood, h2 0, zero_add, List.zip_map_left, List.map_map]
    rfl

example : (getLogLikelihood exW exT).toOption = some (-(1 / 2) * (1 ^ 2 + (3 * 2) ^ 2 + 3 ^ 2 +
    (5 ^ 2 + (3 * 2) ^ 2 + 4 ^ 2))) := by decide +kernel

/-- **C30.** The log-likelihood is never positive. -/
theorem C30_nonpos [Field R] [LinearOrder R] [IsStrictOrderedRing R] (W : World R M) (T : Tractor R M)
    (hmask : ∀ x ∈ T.images, MasksOK T x.2)
    (hie : ∀ x ∈ T.images, x.2.inverr.h = x.2.data.h ∧ x.2.inverr.w = x.2.data.w) (v : R)
    (h : getLogLikelihood W T = .ok v) : v ≤ 0 := by
  obtain ⟨mods, -, h2⟩ := C30_loglikelihood W T hmask hie
  rw [h] at h2
  cases h2
  have : 0 ≤ ((T.images.zip mods).map (fun p =>
        ∑ y ∈ Finset.range p.1.2.data.h, ∑ x ∈ Finset.range p.1.2.data.w,
          ((p.1.2.data.px y x - p.2.px y x) * p.1.2.inverr.px y x) ^ 2)).sum := by
    apply List.sum_nonneg
    intro a ha
    obtain ⟨p, -, rfl⟩ := List.mem_map.1 ha
    exact Finset.sum_nonneg (fun y _ => Finset.sum_nonneg (fun x _ => sq_nonneg _))
  linarith

/-- **C30.** The chi image is zero at pixels with zero inverse error, whatever the data and the model are
there. -/
theorem C30_masked_pixels [CommRing R] [DecidableEq R] (W : World R M) (T : Tractor R M) (img : Image R)
    (srcs : Option (List (Option (Source R)))) (chi : Arr R) (h : getChiImage W T img srcs = .ok chi)
    (y x : Nat) (h0 : img.inverr.px y x = 0) : chi.px y x = 0 := by
  unfold getChiImage at h
  split at h
  · cases h
  · unfold chiArr at h
    split at h
    · cases h; simp [h0]
    · cases h

example : (getChiImage exW exT (exImg 0 3) none).toOption.map Arr.toLists =
    some [[1, 0], [6, 3]] := by decide +kernel

/-- **C30.** If two tractors render the same model images, and their images differ only in data at
pixels of zero inverse error, then their log-likelihoods are equal. -/
theorem C30_insensitive [Field R] [DecidableEq R] (W : World R M) (T T' : Tractor R M)
    (hmask : ∀ x ∈ T.images, MasksOK T x.2) (hmask' : ∀ x ∈ T'.images, MasksOK T' x.2)
    (hie : ∀ x ∈ T.images, x.2.inverr.h = x.2.data.h ∧ x.2.inverr.w = x.2.data.w)
    (hsame : List.Forall₂ (fun x x' => x'.2.data.h = x.2.data.h ∧ x'.2.data.w = x.2.data.w ∧
        x'.2.inverr = x.2.inverr ∧
        (∀ y z, x.2.inverr.px y z ≠ 0 → x'.2.data.px y z = x.2.data.px y z) ∧
        getModelImage W T' x'.2 none true = getModelImage W T x.2 none true) T.images T'.images) :
    getLogLikelihood W T' = getLogLikelihood W T := by
  have hie' : ∀ x ∈ T'.images, x.2.inverr.h = x.2.data.h ∧ x.2.inverr.w = x.2.data.w := by
    intro x' hx'
    obtain ⟨n, hn⟩ := List.getElem?_of_mem hx'
    have hn' : n < T'.images.length := (List.getElem?_eq_some_iff.1 hn).1
    have hlt : n < T.images.length := by rw [hsame.length_eq]; exact hn'
    have := hsame.get hlt hn'
    have hx : x' = T'.images.get ⟨n, hn'⟩ := by
      rw [List.getElem?_eq_getElem hn'] at hn; cases hn; rfl
    rw [← hx] at this
    obtain ⟨a, b, c, -⟩ := this
    obtain ⟨d, e⟩ := hie _ (List.get_mem T.images ⟨n, hlt⟩)
    rw [c, a, b]
    exact ⟨d, e⟩
  obtain ⟨mods, h1, h2⟩ := C30_loglikelihood W T hmask hie
  obtain ⟨mods', h1', h2'⟩ := C30_loglikelihood W T' hmask' hie'
  rw [h2, h2']
  congr 2
  clear h2 h2' hie hie' hmask hmask'
  generalize T'.images = l' at *
  generalize T.images = l at *
  induction hsame generalizing mods mods' with
  | nil => simp
  | @cons w w' _ _ hx _ ih =>
    cases h1 with
    | cons m1 t1 =>
      cases h1' with
      | cons m1' t1' =>
        obtain ⟨a, b, c, d, e⟩ := hx
        rw [e, m1] at m1'
        cases m1'
        simp only [List.zip_cons_cons, List.map_cons, List.sum_cons]
        rw [ih _ _ t1' t1, a, b, c]
        congr 1
        apply Finset.sum_congr rfl
        intro y _
        apply Finset.sum_congr rfl
        intro z _
        by_cases h0 : w.2.inverr.px y z = 0
        · simp [h0]
        · rw [d y z h0]

/-! ## C31 -/

/-- **C31.** `getLogProb` never returns NaN; it is -inf, without evaluating the likelihood, if the prior
is -inf; it raises only if the likelihood raises; for other priors it is prior plus likelihood, or -inf
if that is NaN. -/
theorem C31_logprob [Add R] (prior : Num R) (like : Unit → Except PyErr (Num R)) :
    getLogProb prior like ≠ .ok .nan ∧
    (prior = .ninf → ∀ like', getLogProb prior like' = .ok .ninf) ∧
    (prior ≠ .ninf → (∀ e, getLogProb prior like = .error e ↔ like () = .error e) ∧
      ∀ lnl, like () = .ok lnl →
        (prior.add lnl = .nan → getLogProb prior like = .ok .ninf) ∧
        (prior.add lnl ≠ .nan → getLogProb prior like = .ok (prior.add lnl))) := by
  have hform : prior ≠ .ninf → getLogProb prior like = match like () with
      | .error e => .error e
      | .ok lnl => if (prior.add lnl).isNan then .ok .ninf else .ok (prior.add lnl) := by
    intro h
    cases prior with
    | ninf => exact absurd rfl h
    | nan => rfl
    | pinf => rfl
    | fin x => rfl
  have hnan : ∀ a : Num R, a.isNan = true ↔ a = .nan := by
    intro a; cases a <;> simp [Num.isNan]
  refine ⟨?_, ?_, ?_⟩
  · by_cases h : prior = .ninf
    · subst h; simp [getLogProb]
    · rw [hform h]
      cases like () with
      | error e => simp
      | ok lnl =>
        simp only
        split
        · simp
        · rename_i hn
          intro hc
          simp only [Except.ok.injEq] at hc
          exact hn ((hnan _).2 hc)
  · rintro rfl like'; rfl
  · intro h
    rw [hform h]
    constructor
    · intro e
      cases like () with
      | error e' => simp
      | ok lnl => simp only; split <;> simp
    · intro lnl hl
      rw [hl]
      constructor
      · intro hn; simp [(hnan _).2 hn]
      · intro hn
        simp only
        rw [if_neg (fun hc => hn ((hnan _).1 hc))]

/-- **C31.** With Gaussian priors and the model images of C30, the posterior is the finite number
log-prior + log-likelihood. -/
theorem C31_finite [Field R] [DecidableEq R] (W : World R M) (T : Tractor R M) (lp : R)
    (hmask : ∀ x ∈ T.images, MasksOK T x.2)
    (hie : ∀ x ∈ T.images, x.2.inverr.h = x.2.data.h ∧ x.2.inverr.w = x.2.data.w) :
    ∃ ll, getLogLikelihood W T = .ok ll ∧
      getLogProb (.fin lp) (fun _ => (getLogLikelihood W T).map .fin) = .ok (.fin (lp + ll)) := by
  obtain ⟨mods, -, h⟩ := C30_loglikelihood W T hmask hie
  exact ⟨_, h, by rw [h]; rfl⟩

example : getLogProb (.fin (1 : ℚ)) (fun _ => .ok .nan) = .ok .ninf ∧
    getLogProb .pinf (fun _ => .ok (.fin (2 : ℚ))) = .ok .pinf ∧
    getLogProb .nan (fun _ => .ok (.fin (2 : ℚ))) = .ok .ninf ∧
    getLogProb (.fin (1 : ℚ)) (fun _ => .error .value) = .error .value := ⟨rfl, rfl, rfl, rfl⟩

/-! ## C32 -/

/-- **C32.** `getDerivs` succeeds and leaves the tractor as it was.  The result has one list per thawed
parameter, in the order of `getParams()`: parameter `k` of the tractor is parameter `j` of object `o`
(images first, then sources) and

* for an image, entry `k` is the single pair of the derivative and the image: the one its calibration
  reports, or the finite difference of model images computed with parameter `k` at its value plus its
  step and all other parameters unchanged;
* for a source, entry `k` lists, image by image (all images, thawed or not), the derivative number `j` the
  source reports there with its own mask, leaving out None. -/
theorem C32_getDerivs [Field R] [DecidableEq R] (W : World R M)
    (hooks : Nat → Nat → Option (List (Deriv R))) (T : Tractor R M)
    (hmask : ∀ x ∈ T.images, MasksOK T x.2)
    (hhooks : ∀ (i : Nat) x, T.images[i]? = some x → x.1 = true → HooksOK (hooks i) x.2.par)
    (hs : ∀ x ∈ T.images, x.1 = true →
      (getStepSizes (.multi x.2.par)).length = (thawedValues (.multi x.2.par)).length)
    (hlen : ∀ s, (true, some s) ∈ T.catalog → ∀ x ∈ T.images, ∀ ds, Reports W T s x.2 ds →
      ds.length ≤ (thawedValues s.par).length) :
    ∃ out, getDerivs W (fun T img => getModelImage W T img none true) hooks T = (T, .ok out) ∧
      out.length = (thawedValues T.par).length ∧
      (∀ k, k < out.length → ∃ o j, Located T k o j) ∧
      ∀ k o j, Located T k o j →
      (∀ b im, T.images[o]? = some (b, im) →
        (getParams T.par)[k]? = (thawedValues (.multi im.par))[j]? ∧
        ∃ d e, (reported (hooks o) im.par)[j]? = some d ∧ out[k]? = some [(e, o)] ∧
          ImageEntry (fun T img => getModelImage W T img none true) T k o d e) ∧
      (∀ o' b s, o = T.images.length + o' → T.catalog[o']? = some (b, some s) →
        (getParams T.par)[k]? = (thawedValues s.par)[j]? ∧
        ∃ DD : List (List (Option (Patch R))),
          List.Forall₂ (fun x ds => Reports W T s x.2 ds) T.images DD ∧
          out[k]? = some (DD.zipIdx.flatMap (fun x => entryOf x.1 x.2 j))) := by
  have hv : ∀ t : Par R, thawedValues t = getParams t := fun t => (getParams_eq t).symm
  obtain ⟨out, h1, h2, h3⟩ := getDerivs_ok W hooks T hmask hhooks
    (by
      intro x hx hb
      have := hs x hx hb
      rwa [hv, getParams_length, getStepSizes, numberOfParams] at this) hlen
  refine ⟨out, h1, by rw [h2, hv, getParams_length], ?_, ?_⟩
  · intro k hk
    rw [h2, ← blocks_sum] at hk
    obtain ⟨o, j, n, g1, g2, g3⟩ := exists_block _ _ hk
    exact ⟨o, j, n, g1, g2, g3⟩
  · intro k o j hloc
    obtain ⟨g1, g2⟩ := h3 k o j hloc
    exact ⟨fun b im ho => by rw [hv]; exact g1 b im ho, fun o' b s hoo ho => by rw [hv]; exact g2 o' b s hoo ho⟩

/-- Origin and pixels of the patches of a derivative list. -/
def showDerivs (l : List (List (DerivEntry ℚ))) : List (List (Option (List ℚ) × Nat)) :=
  l.map (·.map (fun e =>
    (e.1.map (fun p => p.x0 :: p.y0 :: (p.patch.map Arr.ravel).getD []), e.2)))

-- the hypotheses hold for the example tractor
example : (∀ x ∈ exT.images, MasksOK exT x.2) ∧
    (∀ (i : Nat) x, exT.images[i]? = some x → x.1 = true →
      HooksOK ((fun _ _ => none : Nat → Nat → Option (List (Deriv ℚ))) i) x.2.par) ∧
    (∀ s, (true, some s) ∈ exT.catalog → ∀ x ∈ exT.images, ∀ ds, Reports exW exT s x.2 ds →
      ds.length ≤ (thawedValues s.par).length) := by
  refine ⟨?_, ?_, ?_⟩
  · intro x hx masks hm
    cases hm
    exact ⟨rfl, x, hx, rfl⟩
  · intro i x _ _ y _ _ l hl
    cases hl
  · intro s hs x _ ds hds
    have : s = exSrc 10 1 2 := by simpa [exT] using hs
    subst this
    obtain ⟨mask, -, rfl⟩ := hds
    split
    · simp
    · exact Nat.le_refl 2
-- three thawed parameters: sky of image 0 (finite difference), two of source 10
example : getParams exT.par = [3, 1, 2] ∧ blocks exT = [1, 0, 2, 0, 0] ∧
    (getDerivs exW (fun T img => getModelImage exW T img none true) (fun _ _ => none) exT).2.toOption.map
      showDerivs = some [[(some [0, 0, 1, 1, 1, 1], 0)],
        [(some [0, 0, 1], 0), (some [0, 1, 1], 1)],
        [(some [1, 0], 1)]] := by decide +kernel

/-- **C32.** A thawed calibration that reports a wrong number of derivatives is noticed: AssertionError,
parameters unchanged. -/
theorem C32_wrong_number [Field R] [DecidableEq R] (W : World R M)
    (model : Tractor R M → Image R → Except PyErr (Arr R))
    (hooks : Nat → Nat → Option (List (Deriv R))) (T : Tractor R M) (img : Image R)
    (rest : List (Bool × Image R)) (hth : T.imagesThawed = true) (hT : T.images = (true, img) :: rest)
    (nm : List String) (s : Par R) (more : Subs R) (hpar : img.par = .cons nm true s more)
    (l : List (Deriv R)) (hl : hooks 0 0 = some l) (hlen : l.length ≠ (thawedValues s).length) :
    getDerivs W model hooks T = (T, .error .assertion) := by
  rw [length_thawed, getParams_length] at hlen
  simp [getDerivs, hth, hT, thawedIndices, imagesLoop, hpar, imageDerivs, hl, hlen]

example : (getDerivs exW (fun T img => getModelImage exW T img none true)
    (fun _ k => if k = 1 then some [.none, .none] else none) exT).2.toOption.isNone = true := by
  decide +kernel

/-- **C32, false part.** A calibration may report None for a parameter (image.py 103-104: "None" is
allowed), but None is kept in the list: the entry is the pair (None, image), while for sources None
derivatives are left out. -/
theorem C32_image_none :
    (getDerivs exW (fun T img => getModelImage exW T img none true)
      (fun _ k => if k = 1 then some [.none] else none) exT).2.toOption.map
      (fun l => (showDerivs l)[0]?) = some (some [(none, 0)]) := by decide +kernel

end Verif.Engine
