import Verif.Ceres.OneImageLemmas
import Verif.Engine.Props
import Verif.Psf.Lemmas

/-!
# Derivatives with respect to one image, for Ceres: property C58
-/

namespace Verif.Ceres

open Verif Verif.Params Verif.Patches Verif.Engine

variable {R M : Type}

/-! ### Sizes -/

theorem size_images (l : List (Bool × Image R)) : numberOfParamsSubs (imagesSubs l) = sizeOf' l := by
  induction l with
  | nil => rfl
  | cons x l ih =>
    obtain ⟨b, i⟩ := x
    simp only [imagesSubs, numberOfParamsSubs, ih, sizeOf', List.map_cons, List.sum_cons, numberOfParams]

theorem size_catalog (l : List (Bool × Option (Source R))) : numberOfParamsSubs (catalogSubs l) = sizeOfCat l := by
  induction l with
  | nil => rfl
  | cons x l ih =>
    obtain ⟨b, i⟩ := x
    cases b <;> cases i <;>
      simp [catalogSubs, numberOfParamsSubs, ih, sizeOfCat]

theorem size_tractor (T : Tractor R M) : numberOfParams T.par =
    (if T.imagesThawed then sizeOf' T.images else 0) + if T.catalogThawed then sizeOfCat T.catalog else 0 := by
  cases h1 : T.imagesThawed <;> cases h2 : T.catalogThawed <;>
    simp [Tractor.par, numberOfParams, numberOfParamsSubs, size_images, size_catalog, h1, h2]

theorem take_sum_cat (T : Tractor R M) (hth : T.catalogThawed = true) (o : Nat) :
    ((blocks T).take (T.images.length + o)).sum =
      (if T.imagesThawed then sizeOf' T.images else 0) + sizeOfCat (T.catalog.take o) := by
  unfold blocks
  rw [List.take_append, List.length_map, Nat.add_sub_cancel_left, List.take_of_length_le (by simp), List.sum_append,
    ← List.map_take]
  congr 1
  · cases hi : T.imagesThawed
    · induction T.images with
      | nil => rfl
      | cons x l ih => simp
    · simp [sizeOf', length_thawed, getParams, getParamsSubs_length]
  · rw [sizeOfCat]
    congr 1
    refine List.map_congr_left ?_
    rintro ⟨b, s⟩ -
    cases b <;> cases s <;> simp [hth, length_thawed, getParams_length]

theorem localEntry_unique [Field R] (model : Tractor R M → Image R → Except PyErr (Arr R)) (T : Tractor R M)
    (img : Image R) (i j : Nat) (d : Deriv R) (e e' : Option (Patch R)) (h : LocalEntry model T img i j d e)
    (h' : LocalEntry model T img i j d e') : e = e' := by
  cases d with
  | patch p => exact h.trans h'.symm
  | none => exact h.trans h'.symm
  | false =>
    obtain ⟨p, st, m0, m1, a1, a2, a3, a4, a5⟩ := h
    obtain ⟨p', st', m0', m1', b1, b2, b3, b4, b5⟩ := h'
    rw [a1] at b1; injection b1 with b1; subst b1
    rw [a2] at b2; injection b2 with b2; subst b2
    rw [a3] at b3; injection b3 with b3; subst b3
    rw [a4] at b4; injection b4 with b4; subst b4
    rw [a5, b5]

theorem imagesPart_ok [Field R] [DecidableEq R] (W : World R M)
    (hooks : Nat → Nat → Option (List (Deriv R))) (T : Tractor R M) (imgi : Nat)
    (hmask : ∀ x ∈ T.images, MasksOK T x.2)
    (hhooks : ∀ (i : Nat) x, T.images[i]? = some x → x.1 = true → HooksOK (hooks i) x.2.par)
    (hs : ∀ x ∈ T.images, x.1 = true →
      (getStepSizesSubs x.2.par).length = numberOfParamsSubs x.2.par) :
    ∃ l, imagesPart (fullModel W) hooks T imgi = (T, .ok (l, if T.imagesThawed then sizeOf' T.images else 0)) ∧
      (l.map (·.1)).Nodup ∧
      ∀ k p, (k, p) ∈ l ↔ ∃ img j d, T.imagesThawed = true ∧ T.images[imgi]? = some (true, img) ∧
        j < numberOfParamsSubs img.par ∧ k = sizeOf' (T.images.take imgi) + j ∧
        (reported (hooks imgi) img.par)[j]? = some d ∧ LocalEntry (fullModel W) T img imgi j d (some p) := by
  unfold imagesPart
  cases hth : T.imagesThawed with
  | false => exact ⟨[], rfl, by simp, by simp⟩
  | true =>
    obtain ⟨l, h1, h2, h3⟩ := imagePart_ok (fullModel W) hooks T imgi
      (fun i x hi hx => imageOK W hooks T i x.1 x.2 hi (hmask x (List.mem_of_getElem? hi))
          (hhooks i x hi hx) (hs x (List.mem_of_getElem? hi) hx)) 0 T.images (by simp) 0
    rw [Nat.zero_add] at h1
    refine ⟨l, ?_, h2, ?_⟩
    · simp only [if_true, h1, size_images]
    · intro k p
      rw [h3]
      constructor
      · rintro ⟨o, img, j, d, a1, a2, a3, a4, a5⟩
        rw [Nat.zero_add] at a2 a4
        subst a2
        exact ⟨img, j, d, rfl, a1, a3, a4, a5⟩
      · rintro ⟨img, j, d, -, a1, a3, a4, a5⟩
        exact ⟨imgi, img, j, d, a1, Nat.zero_add _, a3, by rw [Nat.zero_add]; exact a4, a5⟩

theorem chiDerivs_ok [Field R] (H W : Nat) (ie : Arr R) (hH : ie.h = H) (hW : ie.w = W) :
    ∀ l : List (Nat × Patch R), ∃ res, chiDerivs H W ie l = .ok res ∧
      List.Sublist (res.map (·.1)) (l.map (·.1)) ∧
      (∀ e ∈ res, ∃ p, (e.1, p) ∈ l ∧ 0 ≤ e.2.1 ∧ e.2.1 + e.2.2.2.w ≤ W ∧ 0 ≤ e.2.2.1 ∧ e.2.2.1 + e.2.2.2.h ≤ H ∧
        ∀ y x : Nat, y < H → x < W → Patch.at ⟨e.2.1, e.2.2.1, some e.2.2.2⟩ x y = -(p.at x y) * ie.px y x) ∧
      (∀ k p, (k, p) ∈ l → (∃ e ∈ res, e.1 = k) ∨ ∀ y x : Nat, y < H → x < W → p.at x y = 0)
  | [] => ⟨[], rfl, by simp, by simp, by simp⟩
  | (ind, d) :: rest => by
    obtain ⟨res, h1, h2, h3, h4⟩ := chiDerivs_ok H W ie hH hW rest
    obtain ⟨q, b, c1, c2, c3, c4⟩ := clipTo_ok d W H
    have hat : ∀ y x : Nat, y < H → x < W → q.at x y = d.at x y := fun y x hy hx =>
      c2.2 _ _ ⟨by omega, by exact_mod_cast hx, by omega, by exact_mod_cast hy⟩
    simp only [chiDerivs, c1]
    cases hq : q.patch with
    | none =>
      refine ⟨res, h1, ?_, ?_, ?_⟩
      · rw [List.map_cons]; exact h2.cons _
      · intro e he
        obtain ⟨p, a1, a2⟩ := h3 e he
        exact ⟨p, by simp [a1], a2⟩
      · intro k p hm
        rcases List.mem_cons.1 hm with hm | hm
        · right
          injection hm with e1 e2
          subst e2
          intro y x hy hx
          rw [← hat y x hy hx, Patch.at, hq]
        · exact h4 k p hm
    | some A =>
      have hr := clipTo_range d W H A (by rw [c1]; exact hq)
      rw [c1] at hr
      obtain ⟨r1, r2, r3, r4⟩ := hr
      simp only at r1 r2 r3 r4
      have ax : ∀ (n : Nat) (a : Int) (m : Nat), 0 ≤ a → a + m ≤ (n : Int) → Arr.axis n (some a) (some (a + m)) = (a.toNat, m) := by
        intro n a m h0 h1
        rw [Psf.axis_of n a (a + m) h0 (by omega)]
        simp only [Prod.mk.injEq]
        omega
      have hs : ie.slice (some q.y0) (some (q.y0 + A.h)) (some q.x0) (some (q.x0 + A.w)) =
          ⟨A.h, A.w, fun r c => ie.px (q.y0.toNat + r) (q.x0.toNat + c)⟩ := by
        simp only [Arr.slice]
        rw [ax ie.h q.y0 A.h r3 (by omega), ax ie.w q.x0 A.w r1 (by omega)]
      simp only [chiPatch, hs, and_self, if_true, h1]
      refine ⟨_, rfl, ?_, ?_, ?_⟩
      · simp only [List.map_cons]; exact h2.cons_cons _
      · intro e he
        rcases List.mem_cons.1 he with rfl | he
        · refine ⟨d, by simp, r1, r2, r3, r4, ?_⟩
          intro y x hy hx
          rw [← hat y x hy hx]
          simp only [Patch.at, hq]
          by_cases hin : q.x0 ≤ (x : Int) ∧ (x : Int) < q.x0 + A.w ∧ q.y0 ≤ (y : Int) ∧ (y : Int) < q.y0 + A.h
          · rw [if_pos hin, if_pos hin]
            rw [show q.y0.toNat + ((y : Int) - q.y0).toNat = y by omega,
              show q.x0.toNat + ((x : Int) - q.x0).toNat = x by omega, neg_one_mul]
          · rw [if_neg hin, if_neg hin]; simp
        · obtain ⟨p, a1, a2⟩ := h3 e he
          exact ⟨p, by simp [a1], a2⟩
      · intro k p hm
        rcases List.mem_cons.1 hm with hm | hm
        · left
          injection hm with e1 e2
          exact ⟨_, List.mem_cons_self .., e1.symm⟩
        · rcases h4 k p hm with ⟨e, he, e1⟩ | h
          · exact .inl ⟨e, by simp [he], e1⟩
          · exact .inr h

/-! ### Properties -/

/-- **C58.** With the catalog thawed, the list of derivatives gathered for image `imgi` contains exactly the derivatives
`getDerivs` (see C32) returns for that image, each tagged with the index of its parameter in the tractor's parameter
vector; every index occurs at most once, and the tractor is left as it was. -/
theorem C58_indices_partial [Field R] [DecidableEq R] (W : World R M)
    (hooks : Nat → Nat → Option (List (Deriv R))) (T : Tractor R M)
    (hmask : ∀ x ∈ T.images, MasksOK T x.2)
    (hhooks : ∀ (i : Nat) x, T.images[i]? = some x → x.1 = true → HooksOK (hooks i) x.2.par)
    (hs : ∀ x ∈ T.images, x.1 = true →
      (getStepSizes (.multi x.2.par)).length = (thawedValues (.multi x.2.par)).length)
    (hlen : ∀ s, (true, some s) ∈ T.catalog → ∀ x ∈ T.images, ∀ ds, Reports W T s x.2 ds →
      ds.length ≤ (thawedValues s.par).length)
    (hcat : T.catalogThawed = true) (imgi : Nat) (hi : imgi < T.images.length) :
    ∃ out l, getDerivs W (fun T img => getModelImage W T img none true) hooks T = (T, .ok out) ∧
      allDerivs W (fun T img => getModelImage W T img none true) hooks T imgi = (T, .ok l) ∧
      (l.map (·.1)).Nodup ∧
      ∀ k p, (k, p) ∈ l ↔ ∃ es, out[k]? = some es ∧ (some p, imgi) ∈ es := by
  have hs' : ∀ x ∈ T.images, x.1 = true →
      (getStepSizesSubs x.2.par).length = numberOfParamsSubs x.2.par := by
    intro x hx hb
    have := hs x hx hb
    rwa [length_thawed, getParams_length, getStepSizes, numberOfParams] at this
  obtain ⟨out, g1, g2, g3⟩ := getDerivs_local W hooks T hmask hhooks hs' hlen
  obtain ⟨l, i1, i2, i3⟩ := imagesPart_ok W hooks T imgi hmask hhooks hs'
  obtain ⟨img, him⟩ : ∃ x, T.images[imgi]? = some x := ⟨_, List.getElem?_eq_getElem hi⟩
  have himm := List.mem_of_getElem? him
  obtain ⟨l', s1, s2, s3, s4⟩ := sourcePart_ok W T img.2 (hmask _ himm) T.catalog (fun s hs ds hds => by
    have := hlen s hs _ himm ds hds
    rwa [length_thawed, getParams_length] at this) (if T.imagesThawed then sizeOf' T.images else 0)
  -- image parameters come before the sources'
  have himlt : ∀ k p, (k, p) ∈ l → k < if T.imagesThawed then sizeOf' T.images else 0 := by
    intro k p hk
    obtain ⟨im, j, d, hth, a1, a2, a3, -⟩ := (i3 k p).1 hk
    rw [hth, a3]
    simp only [if_true]
    have h1 : sizeOf' (T.images.take (imgi + 1)) = sizeOf' (T.images.take imgi) + numberOfParamsSubs im.par := by
      rw [List.take_add_one, a1]; simp [sizeOf']
    have h2 : sizeOf' T.images = sizeOf' (T.images.take (imgi + 1)) + sizeOf' (T.images.drop (imgi + 1)) := by
      conv_lhs => rw [← List.take_append_drop (imgi + 1) T.images]
      simp [sizeOf', -List.take_append_drop, List.map_append]
    omega
  have hloc : ∀ im j, T.imagesThawed = true → T.images[imgi]? = some (true, im) → j < numberOfParamsSubs im.par →
      Located T (sizeOf' (T.images.take imgi) + j) imgi j := by
    intro im j hth a1 a2
    refine ⟨numberOfParamsSubs im.par, ?_, a2, ?_⟩
    · unfold blocks
      rw [List.getElem?_append_left (by simpa using hi), List.getElem?_map, a1]
      simp [hth, length_thawed, getParams, getParamsSubs_length]
    · rw [take_sum T hth imgi (by omega)]; rfl
  have hlocS : ∀ o s j, T.catalog[o]? = some (true, some s) → j < numberOfParams s.par →
      Located T ((if T.imagesThawed then sizeOf' T.images else 0) + sizeOfCat (T.catalog.take o) + j) (T.images.length + o) j := by
    intro o s j a1 a2
    refine ⟨numberOfParams s.par, ?_, a2, ?_⟩
    · unfold blocks
      rw [List.getElem?_append_right (by simp), List.length_map, Nat.add_sub_cancel_left, List.getElem?_map, a1]
      simp [hcat, length_thawed, getParams_length]
    · rw [take_sum_cat T hcat]
  refine ⟨out, l ++ l', g1, ?_, ?_, ?_⟩
  · obtain ⟨b, im⟩ := img
    show allDerivs W (fullModel W) hooks T imgi = _
    simp only [allDerivs, i1, him, thawedSources, s1]
    rw [if_pos]
    rw [size_tractor, hcat]; rfl
  · rw [List.map_append, List.nodup_append]
    refine ⟨i2, s2, ?_⟩
    intro a ha c hc hac
    subst hac
    obtain ⟨⟨k, p⟩, a1, rfl⟩ := List.mem_map.1 ha
    obtain ⟨⟨k', p'⟩, b1, b2⟩ := List.mem_map.1 hc
    simp only at b2
    subst b2
    have := himlt _ _ a1
    have := s3 _ _ b1
    omega
  · intro k p
    rw [List.mem_append]
    constructor
    · rintro (h | h)
      · obtain ⟨im, j, d, hth, a1, a2, rfl, a4, a5⟩ := (i3 k p).1 h
        obtain ⟨-, d', e, b1, b2, b3, -⟩ := (g3 _ _ _ (hloc im j hth a1 a2)).1 true im a1
        rw [a4] at b1
        injection b1 with b1
        subst b1
        have := localEntry_unique _ _ _ _ _ _ _ _ b3 a5
        subst this
        exact ⟨_, b2, by simp⟩
      · obtain ⟨o, s, ds, j, a1, a2, a3, rfl⟩ := (s4 k p).1 h
        have hj : j < numberOfParams s.par := by
          have h1 := hlen s (List.mem_of_getElem? a1) _ himm ds a2
          rw [length_thawed, getParams_length] at h1
          have := (List.getElem?_eq_some_iff.1 a3).1
          omega
        obtain ⟨-, DD, b1, b2⟩ := (g3 _ _ _ (hlocS o s j a1 hj)).2 o true s rfl a1
        refine ⟨_, b2, ?_⟩
        rw [List.mem_flatMap]
        have hl := b1.length_eq
        refine ⟨(DD[imgi]'(by omega), imgi), List.mem_zipIdx_iff_getElem?.2 (List.getElem?_eq_getElem _), ?_⟩
        have hr := (List.forall₂_iff_get.1 b1).2 imgi hi (by omega)
        have e1 : T.images[imgi] = img := by
          have := him; rw [List.getElem?_eq_getElem hi] at this; injection this
        simp only [List.get_eq_getElem, e1] at hr
        obtain ⟨m, c1, c2⟩ := hr
        obtain ⟨m', d1, d2⟩ := a2
        have := c1.unique d1
        subst this
        rw [← d2] at c2
        simp only [entryOf]
        rw [c2, a3]
        simp
    · rintro ⟨es, h1, h2⟩
      have hk : k < (blocks T).sum := by
        rw [blocks_sum, ← g2]; exact (List.getElem?_eq_some_iff.1 h1).1
      obtain ⟨o, j, n, e1, e2, e3⟩ := exists_block _ _ hk
      have hL : Located T k o j := ⟨n, e1, e2, e3⟩
      by_cases ho : o < T.images.length
      · left
        obtain ⟨⟨b, im⟩, hx⟩ : ∃ x, T.images[o]? = some x := ⟨_, List.getElem?_eq_getElem ho⟩
        obtain ⟨-, d, e, b1, b2, b3, hth, rfl, hj⟩ := (g3 _ _ _ hL).1 b im hx
        rw [h1] at b2
        injection b2 with b2
        subst b2
        simp only [List.mem_singleton, Prod.mk.injEq] at h2
        obtain ⟨rfl, rfl⟩ := h2
        refine (i3 k p).2 ⟨im, j, d, hth, hx, hj, ?_, b1, b3⟩
        rw [e3, take_sum T hth imgi (by omega)]; rfl
      · right
        obtain ⟨o', rfl⟩ : ∃ o', o = T.images.length + o' := ⟨o - T.images.length, by omega⟩
        unfold blocks at e1
        rw [List.getElem?_append_right (by simp), List.length_map, Nat.add_sub_cancel_left, List.getElem?_map,
          Option.map_eq_some_iff] at e1
        obtain ⟨⟨b, s⟩, f1, f2⟩ := e1
        cases b with
        | false => simp at f2; omega
        | true =>
          cases s with
          | none => simp [hcat] at f2; omega
          | some s =>
            obtain ⟨-, DD, b1, b2⟩ := (g3 _ _ _ hL).2 o' true s rfl f1
            rw [h1] at b2
            injection b2 with b2
            subst b2
            obtain ⟨⟨ds, i⟩, c1, c2⟩ := List.mem_flatMap.1 h2
            have c1 := List.mem_zipIdx_iff_getElem?.1 c1
            simp only [entryOf] at c1 c2
            have hds : ds[j]? = some (some p) ∧ i = imgi := by
              revert c2
              split
              · rename_i q hq
                intro c2
                simp only [List.mem_singleton, Prod.mk.injEq, Option.some.injEq] at c2
                rw [hq, c2.1]; exact ⟨rfl, c2.2.symm⟩
              · intro c2; simp at c2
            obtain ⟨hds, rfl⟩ := hds
            have hl := b1.length_eq
            have hr := (List.forall₂_iff_get.1 b1).2 i hi (by omega)
            have e1 : T.images[i] = img := by
              have := him; rw [List.getElem?_eq_getElem hi] at this; injection this
            have e2 : DD[i]'(by omega) = ds := by
              rw [List.getElem?_eq_getElem (by omega)] at c1; injection c1
            simp only [List.get_eq_getElem, e1, e2] at hr
            refine (s4 k p).2 ⟨o', s, ds, j, f1, hr, hds, ?_⟩
            rw [e3, take_sum_cat T hcat]

/-- **C58.** What is handed to Ceres: arrays that lie inside the image and hold, at every pixel, minus the derivative of
that index times the inverse error; a derivative that is not handed over is zero in the whole image. -/
theorem C58_chi_partial [Field R] [DecidableEq R] (W : World R M)
    (hooks : Nat → Nat → Option (List (Deriv R))) (T : Tractor R M)
    (hmask : ∀ x ∈ T.images, MasksOK T x.2)
    (hhooks : ∀ (i : Nat) x, T.images[i]? = some x → x.1 = true → HooksOK (hooks i) x.2.par)
    (hs : ∀ x ∈ T.images, x.1 = true →
      (getStepSizes (.multi x.2.par)).length = (thawedValues (.multi x.2.par)).length)
    (hlen : ∀ s, (true, some s) ∈ T.catalog → ∀ x ∈ T.images, ∀ ds, Reports W T s x.2 ds →
      ds.length ≤ (thawedValues s.par).length)
    (hcat : T.catalogThawed = true) (imgi : Nat) (b : Bool) (img : Image R) (hi : T.images[imgi]? = some (b, img))
    (hH : img.inverr.h = img.data.h) (hW : img.inverr.w = img.data.w) :
    ∃ out res, getDerivs W (fun T img => getModelImage W T img none true) hooks T = (T, .ok out) ∧
      oneImageDerivs W (fun T img => getModelImage W T img none true) hooks T imgi = (T, .ok res) ∧
      (res.map (·.1)).Nodup ∧
      (∀ e ∈ res, 0 ≤ e.2.1 ∧ e.2.1 + e.2.2.2.w ≤ img.data.w ∧ 0 ≤ e.2.2.1 ∧ e.2.2.1 + e.2.2.2.h ≤ img.data.h ∧
        ∃ es p, out[e.1]? = some es ∧ (some p, imgi) ∈ es ∧ ∀ y x : Nat, y < img.data.h → x < img.data.w →
          Patch.at ⟨e.2.1, e.2.2.1, some e.2.2.2⟩ x y = -(p.at x y) * img.inverr.px y x) ∧
      (∀ k es p, out[k]? = some es → (some p, imgi) ∈ es →
        (∃ e ∈ res, e.1 = k) ∨ ∀ y x : Nat, y < img.data.h → x < img.data.w → p.at x y = 0) := by
  obtain ⟨out, l, h1, h2, h3, h4⟩ := C58_indices_partial W hooks T hmask hhooks hs hlen hcat imgi
    (List.getElem?_eq_some_iff.1 hi).1
  obtain ⟨res, r1, r2, r3, r4⟩ := chiDerivs_ok img.data.h img.data.w img.inverr hH hW l
  refine ⟨out, res, h1, by simp only [oneImageDerivs, h2, hi, r1], r2.nodup h3, ?_, ?_⟩
  · intro e he
    obtain ⟨p, a1, a2, a3, a4, a5, a6⟩ := r3 e he
    obtain ⟨es, b1, b2⟩ := (h4 _ _).1 a1
    exact ⟨a2, a3, a4, a5, es, p, b1, b2, a6⟩
  · intro k es p a1 a2
    exact r4 k p ((h4 k p).2 ⟨es, a1, a2⟩)

/-- **C58, false part.** If the catalog is frozen in the tractor but a source in it has thawed parameters, the call fails
with AssertionError. -/
theorem C58_frozen_catalog_false [Field R] [DecidableEq R] (W : World R M)
    (hooks : Nat → Nat → Option (List (Deriv R))) (T : Tractor R M)
    (hmask : ∀ x ∈ T.images, MasksOK T x.2)
    (hhooks : ∀ (i : Nat) x, T.images[i]? = some x → x.1 = true → HooksOK (hooks i) x.2.par)
    (hs : ∀ x ∈ T.images, x.1 = true →
      (getStepSizes (.multi x.2.par)).length = (thawedValues (.multi x.2.par)).length)
    (hlen : ∀ s, (true, some s) ∈ T.catalog → ∀ x ∈ T.images, ∀ ds, Reports W T s x.2 ds →
      ds.length ≤ (thawedValues s.par).length)
    (hcat : T.catalogThawed = false) (s : Source R) (hsrc : (true, some s) ∈ T.catalog) (hpar : thawedValues s.par ≠ [])
    (imgi : Nat) (hi : imgi < T.images.length) :
    oneImageDerivs W (fun T img => getModelImage W T img none true) hooks T imgi = (T, .error .assertion) := by
  have hs' : ∀ x ∈ T.images, x.1 = true →
      (getStepSizesSubs x.2.par).length = numberOfParamsSubs x.2.par := by
    intro x hx hb
    have := hs x hx hb
    rwa [length_thawed, getParams_length, getStepSizes, numberOfParams] at this
  obtain ⟨l, i1, i2, i3⟩ := imagesPart_ok W hooks T imgi hmask hhooks hs'
  obtain ⟨⟨b, img⟩, him⟩ : ∃ x, T.images[imgi]? = some x := ⟨_, List.getElem?_eq_getElem hi⟩
  have himm := List.mem_of_getElem? him
  obtain ⟨l', s1, s2, s3, s4⟩ := sourcePart_ok W T img (hmask _ himm) T.catalog (fun s hs ds hds => by
    have := hlen s hs _ himm ds hds
    rwa [length_thawed, getParams_length] at this) (if T.imagesThawed then sizeOf' T.images else 0)
  have hpos : 0 < sizeOfCat T.catalog := by
    obtain ⟨o, ho⟩ := List.mem_iff_getElem?.1 hsrc
    have hp : 0 < numberOfParams s.par := by
      rw [← getParams_length, ← length_thawed]; exact List.length_pos_iff.2 hpar
    have : numberOfParams s.par ≤ sizeOfCat T.catalog := by
      rw [sizeOfCat]
      exact List.single_le_sum (fun _ _ => Nat.zero_le _) _ (List.mem_map.2 ⟨_, hsrc, rfl⟩)
    omega
  have : allDerivs W (fullModel W) hooks T imgi = (T, .error .assertion) := by
    simp only [allDerivs, i1, him, thawedSources, s1]
    rw [if_neg]
    rw [size_tractor, hcat]
    simp only [Bool.false_eq_true, if_false]
    omega
  simp only [oneImageDerivs]
  rw [show allDerivs W (fun T img => getModelImage W T img none true) hooks T imgi = (T, .error .assertion) from this]

/-- The example tractor of C32, second image: its own sky is frozen, so only the source's two parameters (1 and 2)
occur; the derivative with respect to the first image's sky (0) is a finite difference. -/
def showOne (i : Nat) (T : Tractor ℚ Nat) : Option (List (Nat × List ℚ)) :=
  (oneImageDerivs exW (fun T img => getModelImage exW T img none true) (fun _ _ => none) T i).2.toOption.map
    (·.map (fun e => (e.1, e.2.1 :: e.2.2.1 :: e.2.2.2.ravel)))

example : showOne 0 exT = some [(0, [0, 0, -1, 0, -2, -1]), (1, [0, 0, -1])] := by decide +kernel

example : showOne 1 exT = some [(1, [0, 1, -2])] := by decide +kernel

example : showOne 1 { exT with catalogThawed := false } = none := by decide +kernel

end Verif.Ceres
