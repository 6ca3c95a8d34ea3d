import Verif.Multi.Lemmas
import Verif.Engine.Lemmas3
import Verif.Multi.PropsPickle

/-!
# C57: derivatives with several processes
-/

namespace Verif.Multi

open Verif Verif.Params Verif.Patches Verif.Engine

variable {R M : Type}

/-- All names defined. -/
def repaired : Names := ⟨true, true, true, true⟩

/-- **C57, partial.** If the missing names were defined and the attribute `mp` set, the derivatives gathered from the workers
would be those of the serial loop, in the same order: for every number of images, sources and parameters.  Model masks must
be off, sources report finite derivatives for every parameter or None, and there must be a thawed source if some image
derivative is left to the tractor (variable `j`). -/
theorem C57_order_partial [Field R] [DecidableEq R] (W : World R M) (finite : Arr R → Bool)
    (hooks : Nat → Nat → Option (List (Deriv R))) (T : Tractor R M)
    (hmask : T.modelMasks = none) (hexp : T.expectModelMasks = false)
    (hhooks : ∀ (i : Nat) x, T.images[i]? = some x → x.1 = true → HooksOK (hooks i) x.2.par)
    (hs : ∀ x ∈ T.images, x.1 = true →
      (getStepSizes (.multi x.2.par)).length = (thawedValues (.multi x.2.par)).length)
    (hlen : ∀ s, (true, some s) ∈ T.catalog → ∀ x ∈ T.images, (W.srcDerivs s x.2 none).length = (thawedValues s.par).length)
    (hfin : ∀ s, (true, some s) ∈ T.catalog → ∀ x ∈ T.images, ∀ p, some p ∈ W.srcDerivs s x.2 none →
      ∃ a, p.patch = some a ∧ finite a = true)
    (hj : (T.catalogThawed = true ∧ ∃ s, (true, some s) ∈ T.catalog) ∨
      ∀ (i : Nat) x, T.images[i]? = some x → x.1 = true → ∀ d ∈ reported (hooks i) x.2.par, d ≠ .false) :
    ∃ out, getDerivs W (fun T img => getModelImage W T img none true) hooks T = (T, .ok out) ∧
      getDerivsMP true repaired finite W (fun T img => getModelImage W T img none true) hooks T = .ok out := by
  have hM : ∀ x ∈ T.images, MasksOK T x.2 := by intro x _ masks hm; rw [hmask] at hm; cases hm
  have hv : ∀ t : Par R, (thawedValues t).length = numberOfParams t := fun t => by rw [length_thawed, getParams_length]
  have hs' : ∀ x ∈ T.images, x.1 = true → (getStepSizesSubs x.2.par).length = numberOfParamsSubs x.2.par := by
    intro x hx hb
    have := hs x hx hb
    rwa [hv, getStepSizes, numberOfParams] at this
  have hok : ∀ (i : Nat) x, T.images[i]? = some x → x.1 = true → ImageOK (fullModel W) hooks T i x.2 := by
    intro i x hi hb
    exact imageOK W hooks T i x.1 x.2 hi (hM x (List.mem_of_getElem? hi)) (hhooks i x hi hb) (hs' x (List.mem_of_getElem? hi) hb)
  obtain ⟨out, h1, h2, -⟩ := getDerivs_ok W hooks T hM hhooks hs' (by
    intro s hsrc x hx ds hds
    obtain ⟨mask, hm, rfl⟩ := hds
    cases hm with
    | nomasks => simp only [hexp, Bool.false_eq_true, false_and, if_false]; exact (hlen s hsrc x hx).le
    | entry masks h => rw [hmask] at h; cases h
    | missing masks h => rw [hmask] at h; cases h)
  refine ⟨out, h1, ?_⟩
  obtain ⟨m0, m1, hw⟩ := workers_exist (fullModel W) hooks T hok
  -- the images
  generalize hsrcs : (if T.catalogThawed then thawedSources T else []) = srcs
  generalize hidxs : (if T.imagesThawed then Engine.thawedIndices 0 (T.images.map (·.1)) else []) = idxs
  have hidx : ∀ i ∈ idxs, ∃ img, T.images[i]? = some (true, img) := by
    intro i hi
    by_cases hth : T.imagesThawed = true
    · rw [if_pos hth] at hidxs
      subst hidxs
      have h := (mem_thawedIndices _ 0 i hi).2
      simp only [Nat.sub_zero, List.getElem?_map, Option.map_eq_some_iff] at h
      obtain ⟨⟨b, img⟩, ha, hb⟩ := h
      simp only at hb
      subst hb
      exact ⟨img, ha⟩
    · rw [if_neg hth] at hidxs
      subst hidxs
      simp at hi
  obtain ⟨xs, L, x1, x2, x3, -⟩ := mpImages_ok repaired rfl true [] (fullModel W) hooks T hok m0 m1 hw idxs hidx
  generalize hneed : xs.filter (fun x => !(needed 0 x.2.2).isEmpty) = need
  obtain ⟨xs', L', x1', x2', -, x4⟩ := mpImages_ok repaired rfl (!srcs.isEmpty)
    ((need.map (·.1)).zip ((need.map (·.1)).map m0)) (fullModel W) hooks T hok m0 m1 hw idxs hidx
  have hx : xs' = xs := by rw [x1] at x1'; injection x1' with h; exact h.symm
  have hL : L' = L := by rw [x2] at x2'; injection x2' with _ h; injection h with h; exact h.symm
  subst hx; subst hL
  have hneedmem : ∀ x ∈ need, x ∈ xs' ∧ needed 0 x.2.2 ≠ [] := by
    intro x hxn
    rw [← hneed, List.mem_filter] at hxn
    exact ⟨hxn.1, by simpa using hxn.2⟩
  obtain ⟨args, a1, a2, a3⟩ := steps_ok (fullModel W) T m0 m1 hw need (fun x hx => x3 x (hneedmem x hx).1)
  have hmod0 : need.mapM (fun x => modelAt (fullModel W) T x.1) = .ok ((need.map (·.1)).map m0) := by
    rw [List.map_map]
    apply mapM_ok
    intro x hx
    have := (x3 x (hneedmem x hx).1).1
    simp only [modelAt, this]
    exact hw.base _ _ _ this rfl
  have hmod1 : args.flatten.reverse.mapM (modelStep (fullModel W) T) =
      .ok ((xs'.flatMap (fun x => (needed 0 x.2.2).map (m1 x.1))).reverse) := by
    rw [mapM_ok _ _ (fun a => m1 a.1 a.2.1) (fun a ha => a2 a (List.mem_reverse.mp ha)), List.map_reverse, a3, ← hneed,
      flatMap_need]
  have himg := x4 [] (by
    intro x hx hne
    have hxn : x ∈ need := by rw [← hneed, List.mem_filter]; exact ⟨hx, by simpa using hne⟩
    refine ⟨?_, lookup_map_self _ m0 x.1 (List.mem_map.mpr ⟨x, hxn, rfl⟩)⟩
    rcases hj with ⟨ht, s, hsm⟩ | hnone
    · rw [if_pos ht] at hsrcs
      have : s ∈ srcs := by
        rw [← hsrcs]
        exact List.mem_filterMap.mpr ⟨(true, some s), hsm, by simp⟩
      cases srcs with
      | nil => simp at this
      | cons a b => rfl
    · exfalso
      apply hne
      obtain ⟨g1, g2, -⟩ := x3 x hx
      apply needed_nil
      -- the derivatives of this image are those reported
      have hds : imageDerivs (hooks x.1) 0 x.2.1.par = .ok x.2.2 := by
        have := (mapM_mem _ _ _ x1').1 x hx
        obtain ⟨i, -, hi⟩ := this
        unfold imDerivs at hi
        cases hT : T.images[i]? with
        | none => rw [hT] at hi; cases hi
        | some y =>
          obtain ⟨b, img⟩ := y
          rw [hT] at hi
          simp only at hi
          cases hd : imageDerivs (hooks i) 0 img.par with
          | error e => rw [hd] at hi; cases hi
          | ok ds =>
            rw [hd] at hi
            injection hi with hi
            subst hi
            exact hd
      obtain ⟨ds, d1, -, d3⟩ := imageDerivs_ok (hooks x.1) x.2.1.par 0 (hhooks x.1 _ g1 rfl)
      rw [hds] at d1
      injection d1 with d1
      intro d hd
      refine hnone x.1 _ g1 rfl d ?_
      have hr : reported (hooks x.1) x.2.1.par = ds := d3.symm
      simp only
      rw [hr, ← d1]
      exact hd)
  rw [List.nil_append] at himg
  -- the sources
  have hsub : ∀ s ∈ srcs, (true, some s) ∈ T.catalog := by
    intro s hs
    by_cases ht : T.catalogThawed = true
    · rw [if_pos ht] at hsrcs
      rw [← hsrcs] at hs
      obtain ⟨⟨b, o⟩, h1, h2⟩ := List.mem_filterMap.mp hs
      cases b with
      | false => simp at h2
      | true => simp only [if_true] at h2; subst h2; exact h1
    · rw [if_neg ht] at hsrcs
      rw [← hsrcs] at hs
      simp at hs
  obtain ⟨l', s1, s2⟩ := mpSources_ok repaired finite rfl W T hmask hexp srcs
    (fun s hs x hx => by rw [← hv]; exact hlen s (hsub s hs) x hx) (fun s hs => hfin s (hsub s hs))
  -- the serial result
  have hser : out = L' ++ l' := by
    have hr : (if T.imagesThawed then imagesLoop (fullModel W) hooks (Engine.thawedIndices 0 (T.images.map (·.1))) T
        else (T, .ok [])) = (T, .ok L') := by
      rw [← x2', ← hidxs]
      by_cases hth : T.imagesThawed = true
      · rw [if_pos hth, if_pos hth]
      · rw [if_neg hth, if_neg hth]; rfl
    unfold getDerivs at h1
    simp only [hsrcs, hr, s1] at h1
    by_cases hc : (L' ++ l').length = numberOfParams T.par
    · rw [if_pos hc] at h1
      injection h1 with _ h1
      injection h1 with h1
      exact h1.symm
    · rw [if_neg hc] at h1
      injection h1 with _ h1
      cases h1
  unfold getDerivsMP
  simp only [hsrcs, hidxs]
  have hN : repaired.logverb = true := rfl
  simp only [x1, hneed, a1, hmod0, hmod1, himg, s2, hmask, hN, Bool.not_true, Bool.false_eq_true, if_false,
    Option.isSome_none, bind, Except.bind, List.length_nil, ne_eq, not_true_eq_false]
  rw [if_pos (by rw [← hser]; exact h2), hser]

/-- A tractor without masks: two images (the second frozen), one thawed and one frozen source. -/
def mpT : Tractor ℚ Nat := { exT with modelMasks := none, expectModelMasks := false }

def mpW : World ℚ Nat := { exW with srcDerivs := fun s im _ =>
  [some ⟨0, im.id, some ⟨1, 1, fun _ _ => s.id⟩⟩, if im.id = 0 then none else some ⟨1, 0, some ⟨1, 1, fun _ _ => 7⟩⟩] }

-- two thawed images and sources: one derivative per sky and source parameter, in the order of the parameters
def mpT2 : Tractor ℚ Nat :=
  { mpT with images := [(true, exImg 0 3), (true, exImg 1 4)],
             catalog := [(true, some (exSrc 10 1 2)), (true, none), (true, some (exSrc 11 5 6))] }

example : (getDerivsMP true repaired (fun _ => true) mpW (fun T img => getModelImage mpW T img none true)
      (fun _ _ => none) mpT2).toOption.map showDerivs = some
      [[(some [0, 0, 1, 1, 1, 1], 0)], [(some [0, 0, 1, 1, 1, 1], 1)], [(some [0, 0, 10], 0), (some [0, 1, 10], 1)],
        [(some [1, 0, 7], 1)], [(some [0, 0, 11], 0), (some [0, 1, 11], 1)], [(some [1, 0, 7], 1)]] := by decide +kernel

-- the hypotheses hold for it
example : mpT2.modelMasks = none ∧ mpT2.expectModelMasks = false ∧
    (∀ (i : Nat) x, mpT2.images[i]? = some x → x.1 = true →
      HooksOK ((fun _ _ => none : Nat → Nat → Option (List (Deriv ℚ))) i) x.2.par) ∧
    (∀ x ∈ mpT2.images, x.1 = true → (getStepSizes (.multi x.2.par)).length = (thawedValues (.multi x.2.par)).length) ∧
    (∀ s, (true, some s) ∈ mpT2.catalog → ∀ x ∈ mpT2.images,
      (mpW.srcDerivs s x.2 none).length = (thawedValues s.par).length) ∧
    (∃ s, (true, some s) ∈ mpT2.catalog) := by
  refine ⟨rfl, rfl, ?_, ?_, ?_, exSrc 10 1 2, by simp [mpT2]⟩
  · intro i x _ _ y _ _ l hl
    cases hl
  · simp only [mpT2, List.mem_cons, List.not_mem_nil, or_false]
    rintro x (rfl | rfl) _ <;> decide +kernel
  · intro s hs x hx
    have : s = exSrc 10 1 2 ∨ s = exSrc 11 5 6 := by simpa [mpT2] using hs
    rcases this with rfl | rfl <;> rfl

/-- **C57 fails as shipped**: the constructor never sets `mp`, so that every call raises AttributeError; and were it set, the
names `logverb`, `Patch`, `np` are missing from the module: no call ever returns derivatives, whatever the tractor. -/
theorem C57_shipped_false [Field R] (finite : Arr R → Bool) (W : World R M)
    (model : Tractor R M → Image R → Except PyErr (Arr R)) (hooks : Nat → Nat → Option (List (Deriv R))) (T : Tractor R M) :
    (∀ N, getDerivsMP false N finite W model hooks T = .error .attribute) ∧
      ∃ e, getDerivsMP true shipped finite W model hooks T = .error e := by
  refine ⟨fun N => rfl, ?_⟩
  unfold getDerivsMP
  simp only [Bool.not_true, Bool.false_eq_true, if_false, bind, Except.bind, shipped, Bool.not_false, if_true]
  cases List.mapM (imDerivs hooks T)
    (if T.imagesThawed = true then Engine.thawedIndices 0 (T.images.map (·.1)) else []) with
  | error e => exact ⟨e, rfl⟩
  | ok x => exact ⟨_, rfl⟩

/-- The tractors on which the unmixed `getDerivs` works are not affected: the same example has derivatives. -/
example : (getDerivs mpW (fun T img => getModelImage mpW T img none true) (fun _ _ => none) mpT2).2.toOption.map
      showDerivs = (getDerivsMP true repaired (fun _ => true) mpW (fun T img => getModelImage mpW T img none true)
      (fun _ _ => none) mpT2).toOption.map showDerivs ∧
    (getDerivsMP true shipped (fun _ => true) mpW (fun T img => getModelImage mpW T img none true)
      (fun _ _ => none) mpT2 matches .error .nameErr) = true := by decide +kernel

/-- The model images a worker computes: it gets the tractor through a pickle. -/
def workerModel [Zero R] [One R] [Add R] [Mul R] [DecidableEq R] (f : Nat → Nat) (W : KwWorld R M) (T : Tractor R M)
    (img : Image R) : Except PyErr (Arr R) :=
  match reload f () (⟨T, (), (), some []⟩ : Obj R M Unit Unit) with
  | .error e => .error e
  | .ok o => kwModelImage W o (renImage f img) none true .none []

/-- **C57 fails with every name defined**: the workers of a pool get the tractor through a pickle, which loses the settings
(C60), so that no model image can be computed as soon as the catalog has a source.  For every tractor without masks with a
thawed image some of whose derivatives are left to the tractor, gathering raises AttributeError. -/
theorem C57_pickled_false [Field R] [DecidableEq R] (f : Nat → Nat) (hf : Function.Injective f) (W : KwWorld R M)
    (W' : World R M) (finite : Arr R → Bool) (hooks : Nat → Nat → Option (List (Deriv R))) (T : Tractor R M)
    (hmask : T.modelMasks = none) (hexp : T.expectModelMasks = false)
    (hhooks : ∀ (i : Nat) x, T.images[i]? = some x → x.1 = true → HooksOK (hooks i) x.2.par)
    (hs : ∀ x ∈ T.images, x.1 = true →
      (getStepSizes (.multi x.2.par)).length = (thawedValues (.multi x.2.par)).length)
    (hsrc : ∃ b s, (b, some s) ∈ T.catalog) (hth : T.imagesThawed = true)
    (hd : ∃ (i : Nat) (img : Image R), T.images[i]? = some (true, img) ∧ Deriv.false ∈ reported (hooks i) img.par) :
    getDerivsMP true repaired finite W' (workerModel f W) hooks T = .error .attribute := by
  have hM : ∀ x ∈ T.images, MasksOK T x.2 := by intro x _ masks hm; rw [hmask] at hm; cases hm
  have hs' : ∀ x ∈ T.images, x.1 = true → (getStepSizesSubs x.2.par).length = numberOfParamsSubs x.2.par := by
    intro x hx hb
    have := hs x hx hb
    rwa [length_thawed, getParams_length, getStepSizes, numberOfParams] at this
  have hok : ∀ (i : Nat) x, T.images[i]? = some x → x.1 = true → ImageOK (fullModel W') hooks T i x.2 := by
    intro i x hi hb
    exact imageOK W' hooks T i x.1 x.2 hi (hM x (List.mem_of_getElem? hi)) (hhooks i x hi hb) (hs' x (List.mem_of_getElem? hi) hb)
  obtain ⟨m0, m1, hw⟩ := workers_exist (fullModel W') hooks T hok
  generalize hidxs : Engine.thawedIndices 0 (T.images.map (·.1)) = idxs
  have hidx : ∀ i ∈ idxs, ∃ img, T.images[i]? = some (true, img) := by
    intro i hi
    subst hidxs
    have h := (mem_thawedIndices _ 0 i hi).2
    simp only [Nat.sub_zero, List.getElem?_map, Option.map_eq_some_iff] at h
    obtain ⟨⟨b, img⟩, ha, hb⟩ := h
    simp only at hb
    subst hb
    exact ⟨img, ha⟩
  obtain ⟨xs, L, x1, -, x3, -⟩ := mpImages_ok repaired rfl true [] (fullModel W') hooks T hok m0 m1 hw idxs hidx
  generalize hneed : xs.filter (fun x => !(needed 0 x.2.2).isEmpty) = need
  have hneedmem : ∀ x ∈ need, x ∈ xs := by
    intro x hxn
    rw [← hneed, List.mem_filter] at hxn
    exact hxn.1
  obtain ⟨args, a1, -, -⟩ := steps_ok (fullModel W') T m0 m1 hw need (fun x hx => x3 x (hneedmem x hx))
  have hne : need ≠ [] := by
    obtain ⟨i, img, hi, hf⟩ := hd
    have hmem : i ∈ idxs := by
      rw [← hidxs]
      have := thawedIndices_mem (T.images.map (·.1)) 0 i (by simp [hi])
      rwa [Nat.zero_add] at this
    obtain ⟨x, hx, hxi⟩ := (mapM_mem _ _ _ x1).2 i hmem
    obtain ⟨ds, d1, -, d3⟩ := imageDerivs_ok (hooks i) img.par 0 (hhooks i _ hi rfl)
    unfold imDerivs at hxi
    rw [hi] at hxi
    simp only [d1] at hxi
    injection hxi with hxi
    intro hnil
    have : x ∈ need := by
      rw [← hneed, List.mem_filter]
      refine ⟨hx, ?_⟩
      rw [← hxi]
      have hr : reported (hooks i) img.par = ds := d3.symm
      rw [hr] at hf
      simpa using needed_ne ds hf 0
    rw [hnil] at this
    simp at this
  have hmod0 : need.mapM (fun x => modelAt (workerModel f W) T x.1) = .error .attribute := by
    refine mapM_error _ _ _ (fun x hx => ?_) hne
    have hi := (x3 x (hneedmem x hx)).1
    simp only [modelAt, hi]
    obtain ⟨b, s, hbs⟩ := hsrc
    obtain ⟨o', ho', hr⟩ := C60_render_false f hf () (⟨T, (), (), some []⟩ : Obj R M Unit Unit) x.2.1
      (hM _ (List.mem_of_getElem? hi)) ⟨b, s, hbs, fun h => by rw [hexp] at h; cases h⟩
    unfold workerModel
    rw [ho']
    exact hr W true .none []
  have hN : repaired.logverb = true := rfl
  unfold getDerivsMP
  simp only [hth, if_true, hidxs]
  simp only [x1, hneed, a1, hmod0, hmask, hN, Bool.not_true, Bool.false_eq_true, if_false,
    Option.isSome_none, bind, Except.bind]

-- for the example, whatever the scale; with a catalog of missing sources only it would work
example : (getDerivsMP true repaired (fun _ => true) mpW (workerModel (· + 100) exKwW) (fun _ _ => none) mpT2 matches
      .error .attribute) = true ∧
    Deriv.false ∈ reported ((fun _ _ => none : Nat → Nat → Option (List (Deriv ℚ))) 1) (exImg 1 4).par := by
  refine ⟨by decide +kernel, ?_⟩
  have : reported ((fun _ _ => none : Nat → Nat → Option (List (Deriv ℚ))) 1) (exImg 1 4).par = [.false] := by rfl
  rw [this]
  simp

/-- **C57 fails without thawed sources**: with all names defined and workers that share memory, no derivatives are returned if
one of an image is left to the tractor and there is no thawed source, since its name is made with the loop variable of the
sources. -/
theorem C57_no_sources_false [Field R] (N : Names) (W : World R M) (finite : Arr R → Bool)
    (model : Tractor R M → Image R → Except PyErr (Arr R)) (hooks : Nat → Nat → Option (List (Deriv R))) (T : Tractor R M)
    (hsrc : T.catalogThawed = false ∨ ∀ s, (true, some s) ∉ T.catalog) (hth : T.imagesThawed = true)
    (i : Nat) (img : Image R) (hi : T.images[i]? = some (true, img)) (hhooks : HooksOK (hooks i) img.par)
    (hd : Deriv.false ∈ reported (hooks i) img.par) :
    ∃ e, getDerivsMP true N finite W model hooks T = .error e := by
  have hsrcs : (if T.catalogThawed then thawedSources T else []) = [] := by
    rcases hsrc with h | h
    · rw [h]; rfl
    · by_cases ht : T.catalogThawed = true
      · rw [if_pos ht]
        unfold thawedSources
        rw [List.filterMap_eq_nil_iff]
        rintro ⟨b, o⟩ hx
        cases b with
        | false => rfl
        | true =>
          cases o with
          | none => rfl
          | some s => exact absurd hx (h s)
      · rw [if_neg ht]
  have hmem : i ∈ Engine.thawedIndices 0 (T.images.map (·.1)) := by
    have := thawedIndices_mem (T.images.map (·.1)) 0 i (by simp [hi])
    rwa [Nat.zero_add] at this
  unfold getDerivsMP
  simp only [hsrcs, hth, if_true, Bool.not_true, Bool.false_eq_true, if_false, bind, Except.bind, List.isEmpty_nil]
  cases hx : List.mapM (imDerivs hooks T) (Engine.thawedIndices 0 (T.images.map (·.1))) with
  | error e => exact ⟨e, rfl⟩
  | ok xs =>
    obtain ⟨x, hxm, hxi⟩ := (mapM_mem _ _ _ hx).2 i hmem
    obtain ⟨ds, d1, -, d3⟩ := imageDerivs_ok (hooks i) img.par 0 hhooks
    unfold imDerivs at hxi
    rw [hi] at hxi
    simp only [d1] at hxi
    injection hxi with hxi
    have hr : reported (hooks i) img.par = ds := d3.symm
    rw [hr] at hd
    simp only
    by_cases hv : (!N.logverb) = true
    · rw [if_pos hv]; exact ⟨_, rfl⟩
    · rw [if_neg hv]
      generalize xs.filter (fun x => !(needed 0 x.2.2).isEmpty) = need
      cases need.mapM stepArgs with
      | error e => exact ⟨e, rfl⟩
      | ok args =>
        simp only
        by_cases hmk : T.modelMasks.isSome = true
        · rw [if_pos hmk]; exact ⟨_, rfl⟩
        · rw [if_neg hmk]
          cases need.mapM (fun x => modelAt model T x.1) with
          | error e => exact ⟨e, rfl⟩
          | ok mod0s =>
            simp only
            cases args.flatten.reverse.mapM (modelStep model T) with
            | error e => exact ⟨e, rfl⟩
            | ok mod1s =>
              simp only
              cases hmp : mpImages N false ((need.map (·.1)).zip mod0s) xs mod1s with
              | error e => exact ⟨e, rfl⟩
              | ok p =>
                exfalso
                have := mpImages_unbound N _ xs _ _ hmp x hxm
                rw [← hxi] at this
                exact this hd

-- the sky of an image with a frozen catalog
example : (getDerivsMP true repaired (fun _ => true) mpW (fun T img => getModelImage mpW T img none true) (fun _ _ => none)
      { mpT2 with catalogThawed := false } matches .error .nameErr) = true ∧
    (getDerivs mpW (fun T img => getModelImage mpW T img none true) (fun _ _ => none)
      { mpT2 with catalogThawed := false }).2.toOption.map showDerivs =
      some [[(some [0, 0, 1, 1, 1, 1], 0)], [(some [0, 0, 1, 1, 1, 1], 1)]] := by decide +kernel

/-- **C57 fails for model images**: `getModelImages` of the mixin raises NameError and returns nothing even if it works; were
the name defined, a worker that raises leaves the tractor without images. -/
theorem C57_model_images_false (model : Tractor R M → Image R → Except PyErr (Arr R)) (T : Tractor R M) :
    (∀ mp, getModelImagesMP mp shipped model T = (T, .error .nameErr)) ∧
      (getModelImagesMP false repaired model T).1.images = [] ∧
      ∀ e x, x ∈ T.images → (∀ y ∈ T.images, model { T with images := [] } y.2 = .error e) →
        (getModelImagesMP true repaired model T).1.images = [] := by
  refine ⟨fun mp => rfl, rfl, ?_⟩
  intro e x hx h
  have := mapM_error (T.images.map (·.2)) (model { T with images := [] }) e (by
    intro a ha
    obtain ⟨y, hy, rfl⟩ := List.mem_map.mp ha
    exact h y hy) (by
    intro hn
    rw [List.map_eq_nil_iff] at hn
    rw [hn] at hx
    simp at hx)
  unfold getModelImagesMP
  have hN : repaired.images = true := rfl
  simp only [hN, Bool.not_true, Bool.false_eq_true, if_false, this]

-- a tractor with masks: its images are not among those of the emptied tractor
example : ((getModelImagesMP true repaired (fun T img => getModelImage exW T img none true) exT).1.images.length,
    (getModelImagesMP true repaired (fun T img => getModelImage exW T img none true) mpT).1.images.length) = (0, 2) := by
  decide +kernel

end Verif.Multi
