import Verif.Engine.Lemmas
import Verif.Params.Lemmas

/-!
# Lemmas: derivatives
-/

namespace Verif.Engine

open Verif Verif.Params Verif.Patches

variable {R M : Type}

theorem flatten_at {β : Type} (L : List (List β)) (o j : Nat) (l : List β) (ho : L[o]? = some l)
    (hj : j < l.length) : L.flatten[((L.take o).map List.length).sum + j]? = l[j]? := by
  induction L generalizing o with
  | nil => simp at ho
  | cons a L ih =>
    cases o with
    | zero =>
      simp only [List.getElem?_cons_zero, Option.some.injEq] at ho
      subst ho
      simp [List.getElem?_append_left hj]
    | succ o =>
      simp only [List.getElem?_cons_succ] at ho
      simp only [List.take_succ_cons, List.map_cons, List.sum_cons, List.flatten_cons]
      rw [List.getElem?_append_right (by omega), ← ih o ho]
      congr 1
      omega

theorem exists_block (bs : List Nat) (k : Nat) (h : k < bs.sum) :
    ∃ o j n, bs[o]? = some n ∧ j < n ∧ k = (bs.take o).sum + j := by
  induction bs generalizing k with
  | nil => simp at h
  | cons n bs ih =>
    by_cases hk : k < n
    · exact ⟨0, k, n, by simp, hk, by simp⟩
    · obtain ⟨o, j, m, h1, h2, h3⟩ := ih (k - n) (by simp only [List.sum_cons] at h; omega)
      exact ⟨o + 1, j, m, by simpa using h1, h2, by simp; omega⟩

theorem getParamsSubs_images (l : List (Bool × Image R)) :
    getParamsSubs (imagesSubs l) =
      (l.map (fun x => if x.1 then getParamsSubs x.2.par else [])).flatten := by
  induction l with
  | nil => rfl
  | cons x l ih =>
    obtain ⟨b, i⟩ := x
    simp [imagesSubs, getParamsSubs, getParams, ih]

theorem getStepSizesSubs_images [One R] (l : List (Bool × Image R)) :
    getStepSizesSubs (imagesSubs l) =
      (l.map (fun x => if x.1 then getStepSizesSubs x.2.par else [])).flatten := by
  induction l with
  | nil => rfl
  | cons x l ih =>
    obtain ⟨b, i⟩ := x
    simp [imagesSubs, getStepSizesSubs, getStepSizes, ih]

/-- What a catalog entry adds to a vector. -/
def ofEntry {β : Type} (f : Par R → List β) (x : Bool × Option (Source R)) : List β :=
  if x.1 then
    match x.2 with
    | some s => f s.par
    | none => []
  else []

theorem getParamsSubs_catalog (l : List (Bool × Option (Source R))) :
    getParamsSubs (catalogSubs l) = (l.map (ofEntry getParams)).flatten := by
  induction l with
  | nil => rfl
  | cons x l ih =>
    obtain ⟨b, s⟩ := x
    cases s <;> simp [catalogSubs, getParamsSubs, ofEntry, ih]

/-- The blocks of the parameter vector. -/
def paramBlocks (T : Tractor R M) : List (List R) :=
  T.images.map (fun x => if T.imagesThawed && x.1 then getParamsSubs x.2.par else []) ++
  T.catalog.map (fun x => if T.catalogThawed then ofEntry getParams x else [])

theorem getParams_blocks (T : Tractor R M) : getParams T.par = (paramBlocks T).flatten := by
  simp only [Tractor.par, getParams, getParamsSubs, getParamsSubs_images, getParamsSubs_catalog,
    paramBlocks, List.flatten_append, List.append_nil]
  cases T.imagesThawed <;> cases T.catalogThawed <;> simp

theorem length_thawed (t : Par R) : (thawedValues t).length = (getParams t).length := by
  rw [getParams_eq]; rfl

theorem blocks_eq (T : Tractor R M) : blocks T = (paramBlocks T).map List.length := by
  simp only [blocks, paramBlocks, List.map_append, List.map_map]
  congr 1
  · apply List.map_congr_left
    intro x _
    simp only [Function.comp, length_thawed, getParams]
    split <;> rfl
  · apply List.map_congr_left
    intro x _
    simp only [Function.comp, ofEntry, length_thawed]
    obtain ⟨b, s⟩ := x
    cases T.catalogThawed <;> cases b <;> cases s <;> rfl

theorem blocks_sum (T : Tractor R M) : (blocks T).sum = numberOfParams T.par := by
  rw [← getParams_length, getParams_blocks, blocks_eq, List.length_flatten]

/-! Changing one parameter of one image. -/

theorem setParamSubs_images (l : List (Bool × Image R)) (o j : Nat) (im : Image R) (v : R)
    (ho : l[o]? = some (true, im)) (hj : j < numberOfParamsSubs im.par) :
    (setParamSubs (imagesSubs l)
      (((((l.take o).map (fun x => if x.1 then numberOfParamsSubs x.2.par else 0)).sum + j : Nat)) : Int) v).1 =
    imagesSubs (l.modify o (fun x => (x.1, { im with par := (setParamSubs im.par j v).1 }))) := by
  induction l generalizing o with
  | nil => simp at ho
  | cons x l ih =>
    obtain ⟨b, i⟩ := x
    cases o with
    | zero =>
      simp only [List.getElem?_cons_zero, Option.some.injEq, Prod.mk.injEq] at ho
      obtain ⟨rfl, rfl⟩ := ho
      simp [imagesSubs, setParamSubs, setParam, numberOfParams, hj]
    | succ o =>
      simp only [List.getElem?_cons_succ] at ho
      have := ih o ho
      simp only [imagesSubs, setParamSubs, List.take_succ_cons, List.map_cons, List.sum_cons,
        List.modify_succ_cons]
      cases b with
      | false => simp only [Bool.false_eq_true, if_false, Nat.zero_add, this]
      | true =>
        simp only [if_true, numberOfParams]
        rw [if_neg (by omega)]
        have e : ((numberOfParamsSubs i.par + ((l.take o).map
            (fun x => if x.1 then numberOfParamsSubs x.2.par else 0)).sum + j : Nat) : Int)
            - (numberOfParamsSubs i.par : Int) = ((((l.take o).map
            (fun x => if x.1 then numberOfParamsSubs x.2.par else 0)).sum + j : Nat) : Int) := by
          omega
        rw [e, this]

theorem sum_take_lt (l : List (Bool × Image R)) (o j : Nat) (im : Image R)
    (ho : l[o]? = some (true, im)) (hj : j < numberOfParamsSubs im.par) :
    ((l.take o).map (fun x => if x.1 then numberOfParamsSubs x.2.par else 0)).sum + j <
      numberOfParamsSubs (imagesSubs l) := by
  induction l generalizing o with
  | nil => simp at ho
  | cons x l ih =>
    obtain ⟨b, i⟩ := x
    cases o with
    | zero =>
      simp only [List.getElem?_cons_zero, Option.some.injEq, Prod.mk.injEq] at ho
      obtain ⟨rfl, rfl⟩ := ho
      simp [imagesSubs, numberOfParamsSubs, numberOfParams]; omega
    | succ o =>
      simp only [List.getElem?_cons_succ] at ho
      have := ih o ho
      simp only [imagesSubs, numberOfParamsSubs, List.take_succ_cons, List.map_cons, List.sum_cons,
        numberOfParams]
      omega

theorem withImage_par (T : Tractor R M) (o j : Nat) (im : Image R) (v : R) (hth : T.imagesThawed = true)
    (ho : T.images[o]? = some (true, im)) (hj : j < numberOfParamsSubs im.par) :
    (withImage T o { im with par := (setParamSubs im.par j v).1 }).par =
      (setParam T.par (((((T.images.take o).map
        (fun x => if x.1 then numberOfParamsSubs x.2.par else 0)).sum + j : Nat)) : Int) v).1 := by
  have h1 := setParamSubs_images T.images o j im v ho hj
  have h2 := sum_take_lt T.images o j im ho hj
  simp only [Tractor.par, setParam, setParamSubs, hth, if_true, numberOfParams]
  have h3 : ((((T.images.take o).map
        (fun x => if x.1 then numberOfParamsSubs x.2.par else 0)).sum + j : Nat) : Int) <
      (numberOfParamsSubs (imagesSubs T.images) : Int) := by exact_mod_cast h2
  simp only [if_pos h3, h1, withImage, hth]

theorem withImage_same (T : Tractor R M) (i : Nat) (b : Bool) (im im1 : Image R)
    (h : T.images[i]? = some (b, im)) : withImage (withImage T i im1) i im = T := by
  have : (T.images.modify i (fun x => (x.1, im1))).modify i (fun x => (x.1, im)) = T.images := by
    apply List.ext_getElem?
    intro n
    simp only [List.getElem?_modify]
    by_cases hn : i = n
    · subst hn; simp [h]
    · simp [hn]
  simp [withImage, this]

/-! Image derivatives. -/

theorem imageDerivs_ok (hook : Nat → Option (List (Deriv R))) (par : Subs R) (k : Nat)
    (h : ∀ x ∈ calibs k par, x.2.1 = true → ∀ l, hook x.1 = some l →
      l.length = (thawedValues x.2.2).length) :
    ∃ ds, imageDerivs hook k par = .ok ds ∧ ds.length = numberOfParamsSubs par ∧
      ds = (calibs k par).flatMap (fun x =>
        if x.2.1 then (hook x.1).getD (List.replicate (thawedValues x.2.2).length .false) else []) := by
  match par with
  | .nil => exact ⟨[], rfl, rfl, rfl⟩
  | .missing nm l rest =>
    obtain ⟨ds, h1, h2, h3⟩ := imageDerivs_ok hook rest (k + 1) (by simpa [calibs] using h)
    exact ⟨ds, by simpa [imageDerivs] using h1, by simpa [numberOfParamsSubs] using h2,
      by simpa [calibs] using h3⟩
  | .cons nm l s rest =>
    simp only [calibs, List.mem_cons, forall_eq_or_imp] at h
    obtain ⟨h0, h⟩ := h
    obtain ⟨ds, h1, h2, h3⟩ := imageDerivs_ok hook rest (k + 1) h
    have hlen : (thawedValues s).length = numberOfParams s := by
      rw [length_thawed, getParams_length]
    cases l with
    | false =>
      refine ⟨ds, by simpa [imageDerivs] using h1, by simpa [numberOfParamsSubs] using h2, ?_⟩
      simpa [calibs] using h3
    | true =>
      simp only [imageDerivs, if_true, calibs, List.flatMap_cons, numberOfParamsSubs]
      cases hh : hook k with
      | some sd =>
        have := h0 rfl sd hh
        refine ⟨sd ++ ds, ?_, ?_, ?_⟩
        · simp only [hlen] at this
          simp only [if_pos this, h1]; rfl
        · rw [List.length_append, h2, this, hlen]
        · rw [h3]; rfl
      | none =>
        refine ⟨List.replicate (numberOfParams s) .false ++ ds, ?_, ?_, ?_⟩
        · simp only [h1]; rfl
        · simp [h2]
        · rw [h3]; simp [hlen]

/-- Local form of the entry for derivative number `j` of image `i`. -/
def LocalEntry [Field R] (model : Tractor R M → Image R → Except PyErr (Arr R)) (T : Tractor R M)
    (img : Image R) (i j : Nat) : Deriv R → Option (Patch R) → Prop
  | .patch p, e => e = some p
  | .none, e => e = none
  | .false, e => ∃ p h m0 m1, (getParamsSubs img.par)[j]? = some p ∧
      (getStepSizesSubs img.par)[j]? = some h ∧ model T img = .ok m0 ∧
      model (withImage T i { img with par := (setParamSubs img.par j (p + h)).1 })
        { img with par := (setParamSubs img.par j (p + h)).1 } = .ok m1 ∧
      e = some ⟨0, 0, some ⟨m0.h, m0.w, fun r c => (m1.px r c - m0.px r c) / h⟩⟩

theorem imageLoop_ok [Field R] (model : Tractor R M → Image R → Except PyErr (Arr R)) (i : Nat)
    (b : Bool) (T : Tractor R M) (img : Image R) (hi : T.images[i]? = some (b, img))
    (hsteps : (getStepSizesSubs img.par).length = numberOfParamsSubs img.par)
    (hm0 : ∃ m0, model T img = .ok m0 ∧ ∀ par, ∃ m1,
      model (withImage T i { img with par := par }) { img with par := par } = .ok m1 ∧
      m1.h = m0.h ∧ m1.w = m0.w)
    (di : Nat) (ds : List (Deriv R)) (hd : di + ds.length ≤ numberOfParamsSubs img.par) :
    ∃ out, imageLoop model i (getParamsSubs img.par) (getStepSizesSubs img.par) (model T img) di ds T img =
        (T, img, .ok out) ∧ out.length = ds.length ∧
      ∀ (j : Nat) (d : Deriv R), ds[j]? = some d →
        ∃ e, out[j]? = some [(e, i)] ∧ LocalEntry model T img i (di + j) d e := by
  induction ds generalizing di with
  | nil => exact ⟨[], rfl, rfl, by simp⟩
  | cons d ds ih =>
    simp only [List.length_cons] at hd
    obtain ⟨out, h1, h2, h3⟩ := ih (di + 1) (by omega)
    have fin : ∀ e, LocalEntry model T img i di d e →
        imageLoop model i (getParamsSubs img.par) (getStepSizesSubs img.par) (model T img) di (d :: ds) T img
          = (T, img, .ok ([(e, i)] :: out)) →
        ∃ out, imageLoop model i (getParamsSubs img.par) (getStepSizesSubs img.par) (model T img) di
            (d :: ds) T img = (T, img, .ok out) ∧ out.length = (d :: ds).length ∧
          ∀ (j : Nat) (d' : Deriv R), (d :: ds)[j]? = some d' →
            ∃ e, out[j]? = some [(e, i)] ∧ LocalEntry model T img i (di + j) d' e := by
      intro e he hrun
      refine ⟨_, hrun, by simp [h2], ?_⟩
      intro j d' hj
      cases j with
      | zero =>
        simp only [List.getElem?_cons_zero, Option.some.injEq] at hj
        subst hj
        exact ⟨e, by simp, he⟩
      | succ j =>
        simp only [List.getElem?_cons_succ] at hj
        obtain ⟨e', h4, h5⟩ := h3 j d' hj
        refine ⟨e', by simpa using h4, ?_⟩
        rw [show di + (j + 1) = di + 1 + j by omega]
        exact h5
    cases d with
    | patch p => exact fin (some p) rfl (by simp only [imageLoop, h1])
    | none => exact fin none rfl (by simp only [imageLoop, h1])
    | false =>
      obtain ⟨m0, hm0, hmod⟩ := hm0
      have hdi : di < numberOfParamsSubs img.par := by omega
      have hp : ∃ p, (getParamsSubs img.par)[di]? = some p :=
        ⟨_, List.getElem?_eq_getElem (by rw [getParamsSubs_length]; exact hdi)⟩
      have hh : ∃ h, (getStepSizesSubs img.par)[di]? = some h :=
        ⟨_, List.getElem?_eq_getElem (by rw [hsteps]; exact hdi)⟩
      obtain ⟨p, hp⟩ := hp
      obtain ⟨h, hh⟩ := hh
      obtain ⟨old, s1, s2, s3, s4⟩ := setParamSubs_ok img.par di (p + h) hdi
      obtain ⟨m1, g1, g2, g3⟩ := hmod (setParamSubs img.par di (p + h)).1
      refine fin _ ⟨p, h, m0, m1, hp, hh, hm0, g1, rfl⟩ ?_
      have hs : setParamSubs img.par di (p + h) =
          ((setParamSubs img.par di (p + h)).1, .ok old) := Prod.ext rfl s2
      rw [hm0] at h1
      simp only [imageLoop, hm0, hp, hh]
      rw [hs]
      simp only [g1, s4, g2, g3, and_self, if_true]
      have e1 : ({ img with par := img.par } : Image R) = img := rfl
      rw [withImage_same T i b img _ hi, h1]

/-- Everything `imagesLoop` needs to know about one image. -/
def ImageOK [Field R] (model : Tractor R M → Image R → Except PyErr (Arr R))
    (hooks : Nat → Nat → Option (List (Deriv R))) (T : Tractor R M) (i : Nat) (img : Image R) : Prop :=
  HooksOK (hooks i) img.par ∧ (getStepSizesSubs img.par).length = numberOfParamsSubs img.par ∧
  ∃ m0, model T img = .ok m0 ∧ ∀ par, ∃ m1,
      model (withImage T i { img with par := par }) { img with par := par } = .ok m1 ∧
      m1.h = m0.h ∧ m1.w = m0.w

/-- The block of derivative lists of one image. -/
def ImageBlock [Field R] (model : Tractor R M → Image R → Except PyErr (Arr R))
    (hooks : Nat → Nat → Option (List (Deriv R))) (T : Tractor R M) (i : Nat) (img : Image R)
    (l : List (List (DerivEntry R))) : Prop :=
  l.length = numberOfParamsSubs img.par ∧ (reported (hooks i) img.par).length = l.length ∧
  ∀ (j : Nat) (d : Deriv R), (reported (hooks i) img.par)[j]? = some d →
    ∃ e, l[j]? = some [(e, i)] ∧ LocalEntry model T img i j d e

theorem imagesLoop_ok [Field R] (model : Tractor R M → Image R → Except PyErr (Arr R))
    (hooks : Nat → Nat → Option (List (Deriv R))) (T : Tractor R M)
    (hok : ∀ (i : Nat) x, T.images[i]? = some x → x.1 = true → ImageOK model hooks T i x.2) (k : Nat)
    (suf : List (Bool × Image R)) (hsuf : T.images.drop k = suf) :
    ∃ L : List (List (List (DerivEntry R))), L.length = suf.length ∧
      imagesLoop model hooks (thawedIndices k (suf.map (·.1))) T = (T, .ok L.flatten) ∧
      ∀ (o : Nat) x, suf[o]? = some x → ∃ l, L[o]? = some l ∧
        (if x.1 then ImageBlock model hooks T (k + o) x.2 l else l = []) := by
  induction suf generalizing k with
  | nil => exact ⟨[], rfl, rfl, by simp⟩
  | cons x suf ih =>
    have hk : T.images[k]? = some x := by
      have := congrArg (fun l => l[0]?) hsuf
      simpa using this
    have hdrop : T.images.drop (k + 1) = suf := by
      have := congrArg (List.drop 1) hsuf
      simpa [Nat.add_comm] using this
    obtain ⟨L, h1, h2, h3⟩ := ih (k + 1) hdrop
    obtain ⟨b, img⟩ := x
    have step : ∀ l, (if b then ImageBlock model hooks T k img l else l = []) →
        ∀ (o : Nat) x, ((b, img) :: suf)[o]? = some x → ∃ l', (l :: L)[o]? = some l' ∧
          (if x.1 then ImageBlock model hooks T (k + o) x.2 l' else l' = []) := by
      intro l hl o x ho
      cases o with
      | zero =>
        simp only [List.getElem?_cons_zero, Option.some.injEq] at ho
        subst ho
        exact ⟨l, by simp, hl⟩
      | succ o =>
        simp only [List.getElem?_cons_succ] at ho
        obtain ⟨l', h4, h5⟩ := h3 o x ho
        refine ⟨l', by simpa using h4, ?_⟩
        rw [show k + (o + 1) = k + 1 + o by omega]
        exact h5
    cases b with
    | false =>
      refine ⟨[] :: L, by simp [h1], ?_, step [] rfl⟩
      simpa [thawedIndices] using h2
    | true =>
      obtain ⟨g1, g2, g3⟩ := hok k _ hk rfl
      obtain ⟨ds, d1, d2, d3⟩ := imageDerivs_ok (hooks k) img.par 0 g1
      obtain ⟨out, e1, e2, e3⟩ := imageLoop_ok model k true T img hk g2 g3 0 ds (by omega)
      refine ⟨out :: L, by simp [h1], ?_, step out ?_⟩
      · simp only [List.map_cons, thawedIndices, imagesLoop, hk, d1, e1, h2, List.flatten_cons]
      · simp only [if_true]
        have hrep : reported (hooks k) img.par = ds := d3.symm
        refine ⟨by omega, by rw [hrep, e2], ?_⟩
        intro j d hj
        rw [hrep] at hj
        simpa using e3 j d hj

/-! Source derivatives. -/

theorem sourceDerivs_ok (W : World R M) (T : Tractor R M) (src : Source R) (img : Image R)
    (h : MasksOK T img) : ∃ ds, sourceDerivs W T src img = .ok ds ∧ Reports W T src img ds := by
  obtain ⟨mask, h1, h2⟩ := maskFor_ok T img h src
  have hlen : (thawedValues src.par).length = numberOfParams src.par := by
    rw [length_thawed, getParams_length]
  simp only [sourceDerivs, h1]
  by_cases hc : T.expectModelMasks = true ∧ mask = none
  · refine ⟨_, ?_, mask, h2, by rw [if_pos hc]⟩
    rw [if_pos (by simp [hc]), hlen]
  · refine ⟨_, ?_, mask, h2, by rw [if_neg hc]⟩
    rw [if_neg]
    simpa using hc

theorem appendDerivs_ok (i k : Nat) (ds : List (Option (Patch R))) (acc : List (List (DerivEntry R)))
    (h : k + ds.length ≤ acc.length) :
    ∃ acc', appendDerivs i k ds acc = .ok acc' ∧ acc'.length = acc.length ∧
      ∀ (j : Nat) l, acc[j]? = some l →
        acc'[j]? = some (l ++ if j < k then [] else entryOf ds i (j - k)) := by
  induction ds generalizing k acc with
  | nil => exact ⟨acc, rfl, rfl, fun j l hj => by simp [hj, entryOf]⟩
  | cons d ds ih =>
    simp only [List.length_cons] at h
    have shift : ∀ j, k + 1 ≤ j → entryOf (d :: ds) i (j - k) = entryOf ds i (j - (k + 1)) := by
      intro j hj
      have : j - k = (j - (k + 1)) + 1 := by omega
      simp [entryOf, this]
    cases d with
    | none =>
      obtain ⟨acc', h1, h2, h3⟩ := ih (k + 1) acc (by omega)
      refine ⟨acc', by simpa [appendDerivs] using h1, h2, ?_⟩
      intro j l hj
      rw [h3 j l hj]
      by_cases hjk : j < k
      · rw [if_pos (by omega), if_pos hjk]
      · by_cases hjk' : j = k
        · subst hjk'; simp [entryOf]
        · rw [if_neg (by omega), if_neg hjk, shift j (by omega)]
    | some p =>
      obtain ⟨acc', h1, h2, h3⟩ := ih (k + 1) (acc.modify k (· ++ [(some p, i)])) (by simp; omega)
      refine ⟨acc', ?_, by simpa using h2, ?_⟩
      · simp only [appendDerivs]
        rw [if_pos (by omega)]; exact h1
      · intro j l hj
        by_cases hjk' : j = k
        · subst hjk'
          rw [h3 j (l ++ [(some p, i)]) (by simp [hj])]
          simp [entryOf]
        · rw [h3 j l (by simp [hj, show ¬ k = j by omega])]
          by_cases hjk : j < k
          · rw [if_pos (by omega), if_pos hjk]
          · rw [if_neg (by omega), if_neg hjk, shift j (by omega)]

theorem sourceLoop_ok (W : World R M) (T : Tractor R M) (src : Source R) (i : Nat)
    (imgs : List (Bool × Image R)) (acc : List (List (DerivEntry R)))
    (hmask : ∀ x ∈ imgs, MasksOK T x.2)
    (hlen : ∀ x ∈ imgs, ∀ ds, Reports W T src x.2 ds → ds.length ≤ acc.length) :
    ∃ (DD : List (List (Option (Patch R)))) (acc' : List (List (DerivEntry R))),
      List.Forall₂ (fun x ds => Reports W T src x.2 ds) imgs DD ∧
      sourceLoop W T src i imgs acc = .ok acc' ∧ acc'.length = acc.length ∧
      ∀ (j : Nat) l, acc[j]? = some l →
        acc'[j]? = some (l ++ (DD.zipIdx i).flatMap (fun x => entryOf x.1 x.2 j)) := by
  induction imgs generalizing i acc with
  | nil => exact ⟨[], acc, .nil, rfl, rfl, fun j l hj => by simp [hj]⟩
  | cons x imgs ih =>
    obtain ⟨ds, h1, h2⟩ := sourceDerivs_ok W T src x.2 (hmask x (by simp))
    obtain ⟨acc1, a1, a2, a3⟩ := appendDerivs_ok i 0 ds acc
      (by have := hlen x (by simp) ds h2; omega)
    obtain ⟨DD, acc', g1, g2, g3, g4⟩ := ih (i + 1) acc1 (fun y hy => hmask y (by simp [hy]))
      (fun y hy ds hds => by rw [a2]; exact hlen y (by simp [hy]) ds hds)
    refine ⟨ds :: DD, acc', .cons h2 g1, ?_, by rw [g3, a2], ?_⟩
    · obtain ⟨b, img⟩ := x
      simp only at h1
      simp only [sourceLoop, h1, a1, g2]
    · intro j l hj
      have := a3 j l hj
      rw [g4 j _ this]
      simp [List.zipIdx_cons]

/-- The block of derivative lists of one source. -/
def SourceBlock (W : World R M) (T : Tractor R M) (src : Source R)
    (l : List (List (DerivEntry R))) : Prop :=
  l.length = numberOfParams src.par ∧ ∃ DD : List (List (Option (Patch R))),
    List.Forall₂ (fun x ds => Reports W T src x.2 ds) T.images DD ∧
    ∀ j, j < l.length → l[j]? = some (DD.zipIdx.flatMap (fun x => entryOf x.1 x.2 j))

theorem sourcesLoop_ok (W : World R M) (T : Tractor R M) (hmask : ∀ x ∈ T.images, MasksOK T x.2)
    (cat : List (Bool × Option (Source R)))
    (hlen : ∀ s, (true, some s) ∈ cat → ∀ x ∈ T.images, ∀ ds, Reports W T s x.2 ds →
      ds.length ≤ (thawedValues s.par).length) :
    ∃ L : List (List (List (DerivEntry R))), L.length = cat.length ∧
      sourcesLoop W T (cat.filterMap (fun x => if x.1 then x.2 else none)) = .ok L.flatten ∧
      ∀ (o : Nat) x, cat[o]? = some x → ∃ l, L[o]? = some l ∧
        (match x with
        | (true, some s) => SourceBlock W T s l
        | _ => l = []) := by
  induction cat with
  | nil => exact ⟨[], rfl, rfl, by simp⟩
  | cons x cat ih =>
    obtain ⟨L, h1, h2, h3⟩ := ih (fun s hs => hlen s (by simp [hs]))
    have step : ∀ l, (match x with
        | (true, some s) => SourceBlock W T s l
        | _ => l = []) →
        ∀ (o : Nat) y, (x :: cat)[o]? = some y → ∃ l', (l :: L)[o]? = some l' ∧
          (match y with
          | (true, some s) => SourceBlock W T s l'
          | _ => l' = []) := by
      intro l hl o y ho
      cases o with
      | zero =>
        simp only [List.getElem?_cons_zero, Option.some.injEq] at ho
        subst ho
        exact ⟨l, by simp, hl⟩
      | succ o =>
        simp only [List.getElem?_cons_succ] at ho
        simpa using h3 o y ho
    obtain ⟨b, s⟩ := x
    cases b with
    | false => exact ⟨[] :: L, by simp [h1], by simpa using h2, step [] rfl⟩
    | true =>
      cases s with
      | none => exact ⟨[] :: L, by simp [h1], by simpa using h2, step [] rfl⟩
      | some s =>
        have hn : (thawedValues s.par).length = numberOfParams s.par := by
          rw [length_thawed, getParams_length]
        obtain ⟨DD, acc', g1, g2, g3, g4⟩ := sourceLoop_ok W T s 0 T.images
          (List.replicate (numberOfParams s.par) []) hmask (by
            intro y hy ds hds
            rw [List.length_replicate, ← hn]
            exact hlen s (by simp) y hy ds hds)
        refine ⟨acc' :: L, by simp [h1], ?_, step acc' ⟨by simpa using g3, DD, g1, ?_⟩⟩
        · simp only [List.filterMap_cons, if_true, sourcesLoop, g2, h2, List.flatten_cons]
          rfl
        · intro j hj
          rw [g3, List.length_replicate] at hj
          rw [g4 j [] (by simp [hj])]
          simp

end Verif.Engine
