import Verif.Engine.Lemmas2

/-!
# Lemmas: `getDerivs` as a whole, likelihood
-/

namespace Verif.Engine

open Verif Verif.Params Verif.Patches

variable {R M : Type}

/-- The model image `getDerivs` uses. -/
abbrev fullModel [Zero R] [One R] [Add R] [Mul R] [DecidableEq R] (W : World R M) :
    Tractor R M → Image R → Except PyErr (Arr R) :=
  fun T img => getModelImage W T img none true

theorem MasksOK.withImage {T : Tractor R M} {i : Nat} {b : Bool} {img img' : Image R}
    (hi : T.images[i]? = some (b, img)) (h : MasksOK T img) :
    MasksOK (withImage T i img') img' := by
  intro masks hm
  obtain ⟨h1, -⟩ := h masks hm
  refine ⟨by simpa [Engine.withImage] using h1, (b, img'), ?_, rfl⟩
  have : (Engine.withImage T i img').images[i]? = some (b, img') := by
    simp [Engine.withImage, hi]
  exact List.mem_of_getElem? this

theorem imageOK [Field R] [DecidableEq R] (W : World R M)
    (hooks : Nat → Nat → Option (List (Deriv R))) (T : Tractor R M) (i : Nat) (b : Bool)
    (img : Image R) (hi : T.images[i]? = some (b, img)) (hmask : MasksOK T img)
    (hh : HooksOK (hooks i) img.par)
    (hs : (getStepSizesSubs img.par).length = numberOfParamsSubs img.par) :
    ImageOK (fullModel W) hooks T i img := by
  obtain ⟨ps, -, h2⟩ := getModelImage_ok W T img hmask none
  obtain ⟨m0, g1, g2, g3, -⟩ := h2 true
  refine ⟨hh, hs, m0, g1, ?_⟩
  intro par
  obtain ⟨ps, -, k2⟩ := getModelImage_ok W (withImage T i { img with par := par })
    { img with par := par } (MasksOK.withImage hi hmask) none
  obtain ⟨m1, k3, k4, k5, -⟩ := k2 true
  exact ⟨m1, k3, by rw [k4, g2], by rw [k5, g3]⟩

theorem take_sum (T : Tractor R M) (hth : T.imagesThawed = true) (o : Nat) (ho : o ≤ T.images.length) :
    ((blocks T).take o).sum =
      ((T.images.take o).map (fun x => if x.1 then numberOfParamsSubs x.2.par else 0)).sum := by
  unfold blocks
  rw [List.take_append_of_le_length (by simpa using ho), ← List.map_take]
  congr 1
  apply List.map_congr_left
  intro x _
  simp [hth, length_thawed, getParams, getParamsSubs_length]

theorem steps_at [Field R] (T : Tractor R M) (hth : T.imagesThawed = true) (o j : Nat) (im : Image R)
    (ho : T.images[o]? = some (true, im)) (hj : j < numberOfParamsSubs im.par)
    (hs : ∀ x ∈ T.images, x.1 = true →
      (getStepSizesSubs x.2.par).length = numberOfParamsSubs x.2.par) :
    (getStepSizes T.par)[((T.images.take o).map
      (fun x => if x.1 then numberOfParamsSubs x.2.par else 0)).sum + j]? =
    (getStepSizesSubs im.par)[j]? := by
  simp only [Tractor.par, getStepSizes, getStepSizesSubs, hth, if_true, getStepSizesSubs_images]
  have hget : (T.images.map (fun x => if x.1 then getStepSizesSubs x.2.par else []))[o]? =
      some (getStepSizesSubs im.par) := by simp [ho]
  have hlt : j < (getStepSizesSubs im.par).length := by
    rw [hs _ (List.mem_of_getElem? ho) rfl]; exact hj
  have key := flatten_at _ o j _ hget hlt
  have e : (((T.images.map (fun x => if x.1 then getStepSizesSubs x.2.par else [])).take o).map
      List.length).sum = ((T.images.take o).map
      (fun x => if x.1 then numberOfParamsSubs x.2.par else 0)).sum := by
    rw [← List.map_take, List.map_map]
    congr 1
    apply List.map_congr_left
    intro x hx
    have hx' : x ∈ T.images := List.mem_of_mem_take hx
    simp only [Function.comp]
    split
    · rename_i h; exact hs x hx' h
    · rfl
  rw [e] at key
  rw [List.getElem?_append_left, key]
  have := (List.getElem?_eq_some_iff.1 (key.trans (List.getElem?_eq_getElem hlt))).1
  exact this

theorem params_at (T : Tractor R M) (k o j : Nat) (h : Located T k o j) :
    ∃ P, (paramBlocks T)[o]? = some P ∧ j < P.length ∧ (getParams T.par)[k]? = P[j]? := by
  obtain ⟨n, h1, h2, h3⟩ := h
  rw [blocks_eq, List.getElem?_map] at h1
  cases hP : (paramBlocks T)[o]? with
  | none => rw [hP] at h1; cases h1
  | some P =>
    rw [hP] at h1
    simp only [Option.map_some, Option.some.injEq] at h1
    refine ⟨P, rfl, by omega, ?_⟩
    rw [getParams_blocks, h3, blocks_eq, ← List.map_take]
    exact flatten_at _ o j P hP (by omega)

theorem localEntry_global [Field R] [DecidableEq R] (W : World R M) (T : Tractor R M)
    (hth : T.imagesThawed = true) (o j : Nat) (im : Image R)
    (ho : T.images[o]? = some (true, im)) (hj : j < numberOfParamsSubs im.par)
    (hmask : MasksOK T im)
    (hs : ∀ x ∈ T.images, x.1 = true →
      (getStepSizesSubs x.2.par).length = numberOfParamsSubs x.2.par)
    (k : Nat) (hk : k = ((blocks T).take o).sum + j)
    (hp : (getParams T.par)[k]? = (getParamsSubs im.par)[j]?) (d : Deriv R) (e : Option (Patch R))
    (h : LocalEntry (fullModel W) T im o j d e) : ImageEntry (fullModel W) T k o d e := by
  cases d with
  | patch p => exact h
  | none => exact h
  | false =>
    obtain ⟨p, st, m0, m1, h1, h2, h3, h4, h5⟩ := h
    have hol : o < T.images.length := (List.getElem?_eq_some_iff.1 ho).1
    have hk' : k = ((T.images.take o).map
        (fun x => if x.1 then numberOfParamsSubs x.2.par else 0)).sum + j := by
      rw [hk, take_sum T hth o (by omega)]
    obtain ⟨ps, -, g⟩ := getModelImage_ok W T im hmask none
    obtain ⟨m0', g1, g2, g3, -⟩ := g true
    have : m0' = m0 := by
      have h3' : getModelImage W T im none true = .ok m0 := h3
      rw [h3'] at g1; cases g1; rfl
    subst this
    refine ⟨_, h5, withImage T o { im with par := (setParamSubs im.par j (p + st)).1 }, true, im,
      { im with par := (setParamSubs im.par j (p + st)).1 }, p, st, m0', m1, _, ?_, ?_, ?_, rfl, rfl,
      ho, ?_, rfl, rfl, rfl, h3, h4, rfl, g2, g3, fun _ _ => rfl⟩
    · rw [hp, h1]
    · rw [hk', steps_at T hth o j im ho hj hs, h2]
    · rw [hk']; exact withImage_par T o j im (p + st) hth ho hj
    · simp [withImage, ho]

theorem getDerivs_local [Field R] [DecidableEq R] (W : World R M)
    (hooks : Nat → Nat → Option (List (Deriv R))) (T : Tractor R M)
    (hmask : ∀ x ∈ T.images, MasksOK T x.2)
    (hhooks : ∀ (i : Nat) x, T.images[i]? = some x → x.1 = true → HooksOK (hooks i) x.2.par)
    (hs : ∀ x ∈ T.images, x.1 = true →
      (getStepSizesSubs x.2.par).length = numberOfParamsSubs x.2.par)
    (hlen : ∀ s, (true, some s) ∈ T.catalog → ∀ x ∈ T.images, ∀ ds, Reports W T s x.2 ds →
      ds.length ≤ (thawedValues s.par).length) :
    ∃ out, getDerivs W (fullModel W) hooks T = (T, .ok out) ∧
      out.length = numberOfParams T.par ∧ ∀ k o j, Located T k o j →
      (∀ b im, T.images[o]? = some (b, im) →
        (getParams T.par)[k]? = (getParamsSubs im.par)[j]? ∧
        ∃ d e, (reported (hooks o) im.par)[j]? = some d ∧ out[k]? = some [(e, o)] ∧
          LocalEntry (fullModel W) T im o j d e ∧ T.imagesThawed = true ∧ b = true ∧
          j < numberOfParamsSubs im.par) ∧
      (∀ o' b s, o = T.images.length + o' → T.catalog[o']? = some (b, some s) →
        (getParams T.par)[k]? = (getParams s.par)[j]? ∧
        ∃ DD : List (List (Option (Patch R))),
          List.Forall₂ (fun x ds => Reports W T s x.2 ds) T.images DD ∧
          out[k]? = some (DD.zipIdx.flatMap (fun x => entryOf x.1 x.2 j))) := by
  -- the list of blocks
  have hI : ∃ LI : List (List (List (DerivEntry R))), LI.length = T.images.length ∧
      (if T.imagesThawed then
        imagesLoop (fullModel W) hooks (thawedIndices 0 (T.images.map (·.1))) T
        else (T, .ok [])) = (T, .ok LI.flatten) ∧
      ∀ (o : Nat) x, T.images[o]? = some x → ∃ l, LI[o]? = some l ∧
        (if T.imagesThawed && x.1 then ImageBlock (fullModel W) hooks T o x.2 l else l = []) := by
    cases hth : T.imagesThawed with
    | false =>
      refine ⟨T.images.map (fun _ => []), by simp, by simp, ?_⟩
      intro o x ho
      exact ⟨[], by rw [List.getElem?_map, ho]; rfl, by simp⟩
    | true =>
      obtain ⟨L, h1, h2, h3⟩ := imagesLoop_ok (fullModel W) hooks T
        (fun i x hi hx => imageOK W hooks T i x.1 x.2 hi (hmask x (List.mem_of_getElem? hi))
          (hhooks i x hi hx) (hs x (List.mem_of_getElem? hi) hx)) 0 T.images (by simp)
      refine ⟨L, h1, h2, ?_⟩
      intro o x ho
      obtain ⟨l, h4, h5⟩ := h3 o x ho
      exact ⟨l, h4, by simpa using h5⟩
  obtain ⟨LI, hI1, hI2, hI3⟩ := hI
  have hC : ∃ LC : List (List (List (DerivEntry R))), LC.length = T.catalog.length ∧
      sourcesLoop W T (if T.catalogThawed then thawedSources T else []) = .ok LC.flatten ∧
      ∀ (o : Nat) x, T.catalog[o]? = some x → ∃ l, LC[o]? = some l ∧
        (match T.catalogThawed, x with
        | true, (true, some s) => SourceBlock W T s l
        | _, _ => l = []) := by
    cases hth : T.catalogThawed with
    | false =>
      refine ⟨T.catalog.map (fun _ => []), by simp, by simp [sourcesLoop], ?_⟩
      intro o x ho
      exact ⟨[], by rw [List.getElem?_map, ho]; rfl, rfl⟩
    | true =>
      obtain ⟨L, h1, h2, h3⟩ := sourcesLoop_ok W T hmask T.catalog hlen
      refine ⟨L, h1, h2, ?_⟩
      intro o x ho
      obtain ⟨l, h4, h5⟩ := h3 o x ho
      refine ⟨l, h4, ?_⟩
      obtain ⟨b, s⟩ := x
      cases b <;> cases s <;> exact h5
  obtain ⟨LC, hC1, hC2, hC3⟩ := hC
  -- block sizes
  have hsizes : (LI ++ LC).map List.length = blocks T := by
    apply List.ext_getElem?
    intro o
    unfold blocks
    rw [List.map_append]
    by_cases hol : o < T.images.length
    · rw [List.getElem?_append_left (by simpa [hI1] using hol),
        List.getElem?_append_left (by simpa using hol)]
      have hget := List.getElem?_eq_getElem hol
      obtain ⟨l, h1, h2⟩ := hI3 o _ hget
      simp only [List.getElem?_map, h1, hget, Option.map_some, Option.some.injEq]
      split at h2
      · rename_i hc
        rw [if_pos hc, h2.1, length_thawed, getParams, getParamsSubs_length]
      · rename_i hc
        rw [if_neg hc, h2]; rfl
    · rw [List.getElem?_append_right (by simpa [hI1] using hol),
        List.getElem?_append_right (by simpa using hol)]
      simp only [List.length_map, hI1]
      cases hget : T.catalog[o - T.images.length]? with
      | none =>
        have : LC[o - T.images.length]? = none := by
          rw [List.getElem?_eq_none_iff] at hget ⊢; omega
        simp [hget, this]
      | some x =>
        obtain ⟨l, h1, h2⟩ := hC3 _ _ hget
        simp only [List.getElem?_map, h1, hget, Option.map_some, Option.some.injEq]
        obtain ⟨b, s⟩ := x
        cases hth : T.catalogThawed <;> cases b <;> cases s <;> simp only [hth] at h2 <;>
          first
          | (rw [h2]; rfl)
          | (rw [h2.1]; simp [length_thawed, getParams_length])
  have hout : ((LI ++ LC).flatten).length = numberOfParams T.par := by
    rw [List.length_flatten, hsizes, blocks_sum]
  refine ⟨(LI ++ LC).flatten, ?_, hout, ?_⟩
  · simp only [getDerivs, hI2, hC2]
    rw [List.flatten_append] at hout
    rw [if_pos hout, List.flatten_append]
  · intro k o j hloc
    obtain ⟨P, hP1, hP2, hP3⟩ := params_at T k o j hloc
    obtain ⟨n, hn1, hn2, hn3⟩ := hloc
    have hat : ∀ l, (LI ++ LC)[o]? = some l → j < l.length → (LI ++ LC).flatten[k]? = l[j]? := by
      intro l hl hj
      have := flatten_at (LI ++ LC) o j l hl hj
      rw [List.map_take, hsizes, ← hn3] at this
      exact this
    constructor
    · intro b im ho
      have hol : o < T.images.length := (List.getElem?_eq_some_iff.1 ho).1
      have hP : P = if T.imagesThawed && b then getParamsSubs im.par else [] := by
        unfold paramBlocks at hP1
        rw [List.getElem?_append_left (by simpa using hol)] at hP1
        simp only [List.getElem?_map, ho, Option.map_some, Option.some.injEq] at hP1
        exact hP1.symm
      have hc : (T.imagesThawed && b) = true := by
        by_contra hcon
        rw [if_neg hcon] at hP
        rw [hP] at hP2; simp at hP2
      rw [if_pos hc] at hP
      subst hP
      refine ⟨hP3, ?_⟩
      obtain ⟨l, h1, h2⟩ := hI3 o _ ho
      simp only [hc, if_true] at h2
      obtain ⟨h4, h5, h6⟩ := h2
      rw [getParamsSubs_length] at hP2
      have hd : ∃ d, (reported (hooks o) im.par)[j]? = some d :=
        ⟨_, List.getElem?_eq_getElem (by omega)⟩
      obtain ⟨d, hd⟩ := hd
      obtain ⟨e, h7, h8⟩ := h6 j d hd
      refine ⟨d, e, hd, ?_, ?_⟩
      · rw [hat l (by rw [List.getElem?_append_left (by omega)]; exact h1) (by omega), h7]
      · simp only [Bool.and_eq_true] at hc
        exact ⟨h8, hc.1, hc.2, hP2⟩
    · intro o' b s hoo ho
      have hge : T.images.length ≤ o := by omega
      have hsub : o - T.images.length = o' := by omega
      have hP : P = if T.catalogThawed then ofEntry getParams (b, some s) else [] := by
        unfold paramBlocks at hP1
        rw [List.getElem?_append_right (by simpa using hge)] at hP1
        simp only [List.length_map, hsub, List.getElem?_map, ho, Option.map_some,
          Option.some.injEq] at hP1
        exact hP1.symm
      cases hth : T.catalogThawed with
      | false => rw [hth] at hP; subst hP; simp at hP2
      | true =>
        cases b with
        | false => rw [hth] at hP; subst hP; simp [ofEntry] at hP2
        | true =>
          rw [hth] at hP
          simp only [if_true, ofEntry] at hP
          subst hP
          refine ⟨hP3, ?_⟩
          obtain ⟨l, h1, h2⟩ := hC3 o' _ ho
          simp only [hth] at h2
          obtain ⟨h3, DD, h4, h5⟩ := h2
          rw [getParams_length] at hP2
          refine ⟨DD, h4, ?_⟩
          rw [hat l (by rw [List.getElem?_append_right (by omega), hI1, hsub]; exact h1) (by omega),
            h5 j (by omega)]

theorem getDerivs_ok [Field R] [DecidableEq R] (W : World R M)
    (hooks : Nat → Nat → Option (List (Deriv R))) (T : Tractor R M)
    (hmask : ∀ x ∈ T.images, MasksOK T x.2)
    (hhooks : ∀ (i : Nat) x, T.images[i]? = some x → x.1 = true → HooksOK (hooks i) x.2.par)
    (hs : ∀ x ∈ T.images, x.1 = true →
      (getStepSizesSubs x.2.par).length = numberOfParamsSubs x.2.par)
    (hlen : ∀ s, (true, some s) ∈ T.catalog → ∀ x ∈ T.images, ∀ ds, Reports W T s x.2 ds →
      ds.length ≤ (thawedValues s.par).length) :
    ∃ out, getDerivs W (fullModel W) hooks T = (T, .ok out) ∧
      out.length = numberOfParams T.par ∧ ∀ k o j, Located T k o j →
      (∀ b im, T.images[o]? = some (b, im) →
        (getParams T.par)[k]? = (getParamsSubs im.par)[j]? ∧
        ∃ d e, (reported (hooks o) im.par)[j]? = some d ∧ out[k]? = some [(e, o)] ∧
          ImageEntry (fullModel W) T k o d e) ∧
      (∀ o' b s, o = T.images.length + o' → T.catalog[o']? = some (b, some s) →
        (getParams T.par)[k]? = (getParams s.par)[j]? ∧
        ∃ DD : List (List (Option (Patch R))),
          List.Forall₂ (fun x ds => Reports W T s x.2 ds) T.images DD ∧
          out[k]? = some (DD.zipIdx.flatMap (fun x => entryOf x.1 x.2 j))) := by
  obtain ⟨out, h1, h2, h3⟩ := getDerivs_local W hooks T hmask hhooks hs hlen
  refine ⟨out, h1, h2, fun k o j hloc => ?_⟩
  obtain ⟨g1, g2⟩ := h3 k o j hloc
  refine ⟨fun b im ho => ?_, g2⟩
  obtain ⟨hp, d, e, hd, he, hl, hth, rfl, hj⟩ := g1 b im ho
  obtain ⟨n, -, -, hk⟩ := hloc
  exact ⟨hp, d, e, hd, he,
    localEntry_global W T hth o j im ho hj (hmask _ (List.mem_of_getElem? ho)) hs k hk hp d e hl⟩

/-! Likelihood. -/

/-- Sum over the pixels of an array. -/
theorem chisqLoop_ok [CommRing R] [DecidableEq R] (W : World R M) (T : Tractor R M) (imgs : List (Image R))
    (hmask : ∀ x ∈ imgs, MasksOK T x) (hie : ∀ x ∈ imgs, x.inverr.h = x.data.h ∧ x.inverr.w = x.data.w) :
    ∃ mods : List (Arr R),
      List.Forall₂ (fun x m => getModelImage W T x none true = .ok m) imgs mods ∧
      ∀ acc, chisqLoop W T imgs acc = .ok (acc + ((imgs.zip mods).map (fun p =>
        ∑ y ∈ Finset.range p.1.data.h, ∑ x ∈ Finset.range p.1.data.w,
          ((p.1.data.px y x - p.2.px y x) * p.1.inverr.px y x) ^ 2)).sum) := by
  induction imgs with
  | nil => exact ⟨[], .nil, fun acc => by simp [chisqLoop]⟩
  | cons im imgs ih =>
    obtain ⟨mods, h1, h2⟩ := ih (fun x hx => hmask x (by simp [hx])) (fun x hx => hie x (by simp [hx]))
    obtain ⟨ps, -, g⟩ := getModelImage_ok W T im (hmask im (by simp)) none
    obtain ⟨m, g1, g2, g3, -⟩ := g true
    refine ⟨m :: mods, .cons g1 h1, ?_⟩
    intro acc
    obtain ⟨e1, e2⟩ := hie im (by simp)
    simp only [chisqLoop, getChiImage, g1, chiArr]
    rw [if_pos ⟨g2.symm, g3.symm, e1.symm, e2.symm⟩]
    simp only [h2]
    rw [ravel_sum]
    simp only [List.zip_cons_cons, List.map_cons, List.sum_cons]
    rw [add_assoc]

end Verif.Engine
