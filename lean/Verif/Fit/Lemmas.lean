import Verif.Fit.Model
import Verif.Engine.Props
import Verif.Opt.Props
import Verif.Params.Lemmas5

/-!
# Lemmas about the tractor after its parameters were set
-/

namespace Verif.Fit

open Verif Params Patches Engine

variable {R M : Type}

/-- The same image but for the parameters. -/
def SameImage (x x' : Bool × Image R) : Prop := x'.1 = x.1 ∧ x'.2.id = x.2.id ∧ x'.2.data = x.2.data ∧ x'.2.inverr = x.2.inverr

/-- The same source but for the parameters. -/
def SameSource (x x' : Bool × Option (Source R)) : Prop := x'.1 = x.1 ∧ x'.2.map (·.id) = x.2.map (·.id)

/-- The same tractor but for the parameters. -/
structure Shell (T T' : Tractor R M) : Prop where
  it : T'.imagesThawed = T.imagesThawed
  ct : T'.catalogThawed = T.catalogThawed
  mm : T'.modelMasks = T.modelMasks
  em : T'.expectModelMasks = T.expectModelMasks
  images : List.Forall₂ SameImage T.images T'.images
  catalog : List.Forall₂ SameSource T.catalog T'.catalog

theorem imagesFrom_subs {l l' : List (Bool × Image R)} (h : List.Forall₂ SameImage l l') : imagesFrom l (imagesSubs l') = l' := by
  induction h with
  | nil => rfl
  | @cons a b l l' h1 h2 ih =>
    obtain ⟨b1, i1⟩ := a
    obtain ⟨b2, i2⟩ := b
    obtain ⟨e1, e2, e3, e4⟩ := h1
    dsimp only at e1 e2 e3 e4
    subst e1
    simp only [imagesSubs, imagesFrom, ih]
    cases i2
    dsimp only at e2 e3 e4
    subst e2 e3 e4
    rfl

theorem catalogFrom_subs {l l' : List (Bool × Option (Source R))} (h : List.Forall₂ SameSource l l') : catalogFrom l (catalogSubs l') = l' := by
  induction h with
  | nil => rfl
  | @cons a b l l' h1 h2 ih =>
    obtain ⟨b1, s1⟩ := a
    obtain ⟨b2, s2⟩ := b
    obtain ⟨e1, e2⟩ := h1
    dsimp only at e1 e2
    subst e1
    cases s1 with
    | none =>
      cases s2 with
      | none => simp only [catalogSubs, catalogFrom, ih]
      | some s2 => simp at e2
    | some s1 =>
      cases s2 with
      | none => simp at e2
      | some s2 =>
        simp only [Option.map_some, Option.some.injEq] at e2
        cases s2
        dsimp only at e2
        subst e2
        simp only [catalogSubs, catalogFrom, ih]

theorem withPar_par {T T' : Tractor R M} (h : Shell T T') : withPar T T'.par = T' := by
  obtain ⟨a1, a2, a3, a4, a5, a6⟩ := h
  cases T'
  dsimp only at a1 a2 a3 a4 a5 a6
  subst a1 a2 a3 a4
  simp only [Tractor.par, withPar, imagesFrom_subs a5, catalogFrom_subs a6]

theorem sameImage_refl (x : Bool × Image R) : SameImage x x := ⟨rfl, rfl, rfl, rfl⟩
theorem sameSource_refl (x : Bool × Option (Source R)) : SameSource x x := ⟨rfl, rfl⟩

theorem forall₂_refl {α : Type} {r : α → α → Prop} (h : ∀ a, r a a) : ∀ l : List α, List.Forall₂ r l l
  | [] => .nil
  | a :: l => .cons (h a) (forall₂_refl h l)

theorem Shell.refl (T : Tractor R M) : Shell T T := ⟨rfl, rfl, rfl, rfl, forall₂_refl sameImage_refl _, forall₂_refl sameSource_refl _⟩

theorem withPar_self (T : Tractor R M) : withPar T T.par = T := withPar_par (Shell.refl T)

theorem setImages (l : List (Bool × Image R)) (p : List R) :
    ∃ l', List.Forall₂ SameImage l l' ∧ (setParamsSubs (imagesSubs l) p).1 = imagesSubs l' := by
  induction l generalizing p with
  | nil => exact ⟨[], .nil, rfl⟩
  | cons x l ih =>
    obtain ⟨b, i⟩ := x
    cases b with
    | false =>
      obtain ⟨l', h1, h2⟩ := ih p
      exact ⟨(false, i) :: l', .cons (sameImage_refl _) h1, by simp [imagesSubs, setParamsSubs, h2]⟩
    | true =>
      simp only [imagesSubs, setParamsSubs, setParams, if_true]
      cases hr : (setParamsSubs i.par (p.take (numberOfParams (.multi i.par)))).2 with
      | some e =>
        exact ⟨(true, { i with par := (setParamsSubs i.par (p.take (numberOfParams (.multi i.par)))).1 }) :: l, .cons ⟨rfl, rfl, rfl, rfl⟩ (forall₂_refl sameImage_refl l), rfl⟩
      | none =>
        obtain ⟨l', h1, h2⟩ := ih (p.drop (numberOfParams (.multi i.par)))
        exact ⟨(true, { i with par := (setParamsSubs i.par (p.take (numberOfParams (.multi i.par)))).1 }) :: l', .cons ⟨rfl, rfl, rfl, rfl⟩ h1, by simp only [imagesSubs, h2]⟩

theorem setCatalog (l : List (Bool × Option (Source R))) (p : List R) :
    ∃ l', List.Forall₂ SameSource l l' ∧ (setParamsSubs (catalogSubs l) p).1 = catalogSubs l' := by
  induction l generalizing p with
  | nil => exact ⟨[], .nil, rfl⟩
  | cons x l ih =>
    obtain ⟨b, s⟩ := x
    cases s with
    | none =>
      obtain ⟨l', h1, h2⟩ := ih p
      exact ⟨(b, none) :: l', .cons (sameSource_refl _) h1, by simp [catalogSubs, setParamsSubs, h2]⟩
    | some s =>
      cases b with
      | false =>
        obtain ⟨l', h1, h2⟩ := ih p
        exact ⟨(false, some s) :: l', .cons (sameSource_refl _) h1, by simp [catalogSubs, setParamsSubs, h2]⟩
      | true =>
        simp only [catalogSubs, setParamsSubs, if_true]
        cases hr : (setParams s.par (p.take (numberOfParams s.par))).2 with
        | some e =>
          exact ⟨(true, some { s with par := (setParams s.par (p.take (numberOfParams s.par))).1 }) :: l, .cons ⟨rfl, rfl⟩ (forall₂_refl sameSource_refl l), rfl⟩
        | none =>
          obtain ⟨l', h1, h2⟩ := ih (p.drop (numberOfParams s.par))
          exact ⟨(true, some { s with par := (setParams s.par (p.take (numberOfParams s.par))).1 }) :: l', .cons ⟨rfl, rfl⟩ h1, by simp only [catalogSubs, h2]⟩

/-- Setting parameters gives a tractor with the same objects. -/
theorem setAll_ok (T : Tractor R M) (p : List R) : Shell T (setAll T p) ∧ (setAll T p).par = (setParams T.par p).1 := by
  obtain ⟨T', h1, h2⟩ : ∃ T' : Tractor R M, Shell T T' ∧ (setParams T.par p).1 = T'.par := by
    unfold Tractor.par
    cases hi : T.imagesThawed with
    | false =>
      simp only [setParams, setParamsSubs, Bool.false_eq_true, if_false]
      cases hc : T.catalogThawed with
      | false => exact ⟨T, Shell.refl T, by simp [setParamsSubs, hi, hc]⟩
      | true =>
        obtain ⟨lc, c1, c2⟩ := setCatalog T.catalog (p.take (numberOfParams (.multi (catalogSubs T.catalog))))
        refine ⟨{ T with catalog := lc }, ⟨rfl, rfl, rfl, rfl, forall₂_refl sameImage_refl _, c1⟩, ?_⟩
        simp only [setParamsSubs, if_true, setParams, hi, hc]
        cases hr : (setParamsSubs (catalogSubs T.catalog) (p.take (numberOfParams (.multi (catalogSubs T.catalog))))).2 <;> simp [setParamsSubs, c2]
    | true =>
      obtain ⟨li, i1, i2⟩ := setImages T.images (p.take (numberOfParams (.multi (imagesSubs T.images))))
      simp only [setParams, setParamsSubs, if_true]
      cases hr : (setParamsSubs (imagesSubs T.images) (p.take (numberOfParams (.multi (imagesSubs T.images))))).2 with
      | some e =>
        exact ⟨{ T with images := li }, ⟨rfl, rfl, rfl, rfl, i1, forall₂_refl sameSource_refl _⟩, by simp [i2, hi]⟩
      | none =>
        cases hc : T.catalogThawed with
        | false => exact ⟨{ T with images := li }, ⟨rfl, rfl, rfl, rfl, i1, forall₂_refl sameSource_refl _⟩, by simp [setParamsSubs, i2, hi, hc]⟩
        | true =>
          obtain ⟨lc, c1, c2⟩ := setCatalog T.catalog
            ((p.drop (numberOfParams (.multi (imagesSubs T.images)))).take (numberOfParams (.multi (catalogSubs T.catalog))))
          refine ⟨{ T with images := li, catalog := lc }, ⟨rfl, rfl, rfl, rfl, i1, c1⟩, ?_⟩
          simp only [setParamsSubs, if_true, hi, hc]
          cases hr : (setParamsSubs (catalogSubs T.catalog)
            ((p.drop (numberOfParams (.multi (imagesSubs T.images)))).take (numberOfParams (.multi (catalogSubs T.catalog))))).2 <;>
            simp [i2, c2]
  unfold setAll
  rw [h2, withPar_par h1]
  exact ⟨h1, rfl⟩

theorem sameImage_trans {a b c : Bool × Image R} (h : SameImage a b) (h' : SameImage b c) : SameImage a c :=
  ⟨h'.1.trans h.1, h'.2.1.trans h.2.1, h'.2.2.1.trans h.2.2.1, h'.2.2.2.trans h.2.2.2⟩

theorem sameSource_trans {a b c : Bool × Option (Source R)} (h : SameSource a b) (h' : SameSource b c) : SameSource a c :=
  ⟨h'.1.trans h.1, h'.2.trans h.2⟩

theorem forall₂_trans {α : Type} {r : α → α → Prop} (ht : ∀ a b c, r a b → r b c → r a c) {l1 l2 l3 : List α} (h : List.Forall₂ r l1 l2)
    (h' : List.Forall₂ r l2 l3) : List.Forall₂ r l1 l3 := by
  induction h generalizing l3 with
  | nil => cases h'; exact .nil
  | cons a b ih => cases h' with | cons c d => exact .cons (ht _ _ _ a c) (ih d)

theorem Shell.trans {T T' T'' : Tractor R M} (h : Shell T T') (h' : Shell T' T'') : Shell T T'' :=
  ⟨h'.it.trans h.it, h'.ct.trans h.ct, h'.mm.trans h.mm, h'.em.trans h.em, forall₂_trans (r := SameImage) (fun _ _ _ => sameImage_trans) h.images h'.images,
    forall₂_trans (r := SameSource) (fun _ _ _ => sameSource_trans) h.catalog h'.catalog⟩

theorem setAll_length (T : Tractor R M) (p : List R) : numberOfParams (setAll T p).par = numberOfParams T.par := by
  rw [(setAll_ok T p).2, numberOfParams_setParams]

theorem setAll_self (T : Tractor R M) : setAll T (getParams T.par) = T := by
  unfold setAll
  rw [setParams_id]
  exact withPar_self T

theorem getParams_setAll (T : Tractor R M) (p : List R) (h : p.length = numberOfParams T.par) : getParams (setAll T p).par = p := by
  rw [(setAll_ok T p).2]
  exact (setParams_get T.par p h).2

/-- Masks of the tractor and its images after setting parameters. -/
theorem Shell.masks {T T' : Tractor R M} (h : Shell T T') (hm : ∀ x ∈ T.images, MasksOK T x.2) : ∀ x ∈ T'.images, MasksOK T' x.2 := by
  intro x' hx' masks hmm
  rw [h.mm] at hmm
  refine ⟨?_, x', hx', rfl⟩
  rw [← h.images.length_eq]
  obtain ⟨n, hn⟩ := List.getElem?_of_mem hx'
  have hl : n < T.images.length := by rw [h.images.length_eq]; exact (List.getElem?_eq_some_iff.1 hn).1
  exact (hm _ (List.getElem_mem hl) masks hmm).1

/-- Image `i` of the two tractors. -/
theorem Shell.image {T T' : Tractor R M} (h : Shell T T') (i : Nat) (x : Bool × Image R) (hx : T.images[i]? = some x) :
    ∃ x', T'.images[i]? = some x' ∧ SameImage x x' := by
  obtain ⟨h1, h2⟩ := List.getElem?_eq_some_iff.1 hx
  have h3 : i < T'.images.length := by rw [← h.images.length_eq]; exact h1
  refine ⟨T'.images[i], List.getElem?_eq_getElem h3, ?_⟩
  have := h.images.get h1 h3
  simp only [List.get_eq_getElem] at this
  rwa [h2] at this

theorem Shell.ids {T T' : Tractor R M} (h : Shell T T') : T'.images.map (fun x => x.2.id) = T.images.map (fun x => x.2.id) := by
  have := h.images
  generalize T.images = l at this
  generalize T'.images = l' at this
  induction this with
  | nil => rfl
  | cons a _ ih => rw [List.map_cons, List.map_cons, a.2.1, ih]

/-! ### Model images of tractors with the same catalog -/

theorem findIdx_map (l : List (Bool × Image R)) (k : Nat) :
    l.findIdx? (fun x => x.2.id = k) = (l.map (fun x => x.2.id)).findIdx? (fun n => n = k) := by
  rw [List.findIdx?_map]; rfl

theorem model_congr [Zero R] [One R] [Add R] [Mul R] [DecidableEq R] (W : World R M) (T T' : Tractor R M) (im : Image R)
    (hi : T'.images.map (fun x => x.2.id) = T.images.map (fun x => x.2.id)) (hc : T'.catalog = T.catalog)
    (hm : T'.modelMasks = T.modelMasks) (he : T'.expectModelMasks = T.expectModelMasks) :
    getModelImage W T' im none true = getModelImage W T im none true := by
  have hmask : ∀ src, maskFor T' im src = maskFor T im src := by
    intro src
    unfold maskFor
    rw [hm, findIdx_map, findIdx_map, hi]
  have hp : ∀ src, getModelPatch W T' im src = getModelPatch W T im src := by
    intro src
    unfold getModelPatch
    rw [hmask, he]
  have ha : ∀ srcs mod, addSources W T' im srcs mod = addSources W T im srcs mod := by
    intro srcs
    induction srcs with
    | nil => intro mod; rfl
    | cons s srcs ih =>
      intro mod
      cases s with
      | none => exact ih mod
      | some s =>
        simp only [addSources, hp, ih]
  simp only [getModelImage, ha, hc]

/-! ### Changing one parameter of an image -/

theorem setSlots_set (ss : List (Slot R)) (ii : Nat) (s : Slot R) (v : R) (p : List R) (h : ss[ii]? = some s) (hl : s.liquid = true)
    (hp : p.length = countLiquid (ss.map (·.liquid))) :
    (setSlots (ss.set ii { s with val := v }) p).1 = (setSlots ss p).1 := by
  induction ss generalizing ii p with
  | nil => simp at h
  | cons a ss ih =>
    cases ii with
    | zero =>
      simp only [List.getElem?_cons_zero, Option.some.injEq] at h
      subst h
      simp only [List.set_cons_zero, setSlots, hl, if_true]
      cases p with
      | nil => simp [countLiquid, hl] at hp
      | cons x p => rfl
    | succ ii =>
      simp only [List.getElem?_cons_succ] at h
      simp only [List.set_cons_succ, setSlots]
      cases ha : a.liquid with
      | true =>
        simp only [if_true]
        cases p with
        | nil => simp [countLiquid, ha] at hp
        | cons x p =>
          simp only
          rw [ih ii p h (by simpa [countLiquid, ha] using hp)]
      | false =>
        simp only [Bool.false_eq_true, if_false]
        rw [ih ii p h (by simpa [countLiquid, ha] using hp)]

mutual
/-- Setting all parameters after one was set. -/
theorem setParams_setParam (t : Par R) (i : Nat) (v : R) (p : List R) (h : i < numberOfParams t) (hp : p.length = numberOfParams t) :
    (setParams (setParam t i v).1 p).1 = (setParams t p).1 := by
  match t with
  | .scalar s =>
    have : i = 0 := by simpa [numberOfParams] using h
    subst this
    have hx : ∃ x, p = [x] := List.length_eq_one_iff.1 (by simpa [numberOfParams] using hp)
    obtain ⟨x, rfl⟩ := hx
    simp [setParam, setParams]
  | .plist l =>
    obtain ⟨ii, s, hs, hsl, hc, heq⟩ := setParam_plist l i v (by simpa [numberOfParams] using h)
    rw [heq]
    simp only [setParams]
    rw [setSlots_set l.slots ii s v p hs hsl (by simpa [numberOfParams, flags] using hp)]
  | .multi subs =>
    simp only [setParam, setParams]
    rw [setParamsSubs_setParam subs i v p (by simpa [numberOfParams] using h) (by simpa [numberOfParams] using hp)]
theorem setParamsSubs_setParam (t : Subs R) (i : Nat) (v : R) (p : List R) (h : i < numberOfParamsSubs t) (hp : p.length = numberOfParamsSubs t) :
    (setParamsSubs (setParamSubs t i v).1 p).1 = (setParamsSubs t p).1 := by
  match t with
  | .nil => simp [numberOfParamsSubs] at h
  | .cons nm false s rest =>
    simp only [numberOfParamsSubs, Bool.false_eq_true, if_false, Nat.zero_add] at h hp
    simp only [setParamSubs, setParamsSubs, Bool.false_eq_true, if_false]
    rw [setParamsSubs_setParam rest i v p h hp]
  | .cons nm true s rest =>
    simp only [numberOfParamsSubs, if_true] at h hp
    simp only [setParamSubs, if_true]
    by_cases hi : i < numberOfParams s
    · rw [if_pos (by exact_mod_cast hi)]
      simp only [setParamsSubs, if_true]
      have e := setParams_setParam s i v (p.take (numberOfParams s)) hi (by rw [List.length_take]; omega)
      have n := numberOfParams_setParam s i v
      rw [n, e]
      have g1 := (setParams_get s (p.take (numberOfParams s)) (by rw [List.length_take]; omega)).1
      have g2 := (setParams_get (setParam s i v).1 (p.take (numberOfParams s)) (by rw [List.length_take, n]; omega)).1
      rw [g1, g2]
    · rw [if_neg (by exact_mod_cast hi)]
      simp only [setParamsSubs, if_true]
      have g1 := (setParams_get s (p.take (numberOfParams s)) (by rw [List.length_take]; omega)).1
      rw [g1]
      have e : (i : Int) - (numberOfParams s : Int) = ((i - numberOfParams s : Nat) : Int) := by omega
      have := setParamsSubs_setParam rest (i - numberOfParams s) v (p.drop (numberOfParams s)) (by omega) (by rw [List.length_drop]; omega)
      rw [e, this]
  | .missing nm l rest =>
    simp only [numberOfParamsSubs] at h hp
    simp only [setParamSubs, setParamsSubs]
    rw [setParamsSubs_setParam rest i v p h hp]
end

/-- Setting one parameter is setting all, the others to what they are. -/
theorem setParam_eq (t : Par R) (i : Nat) (v : R) (h : i < numberOfParams t) :
    (setParam t i v).1 = (setParams t ((getParams t).set i v)).1 := by
  obtain ⟨old, h1, h2, h3, h4⟩ := setParam_ok t i v h
  have := setParams_id (setParam t i v).1
  rw [h3] at this
  rw [← setParams_setParam t i v _ h (by rw [List.length_set, getParams_length]), this]

/-- The tractor with one changed image, as `setAll`. -/
theorem withImage_setAll (T : Tractor R M) (k o j : Nat) (im : Image R) (v : R) (hth : T.imagesThawed = true)
    (ho : T.images[o]? = some (true, im)) (hj : j < numberOfParamsSubs im.par) (hk : k = ((blocks T).take o).sum + j)
    (hlt : k < numberOfParams T.par) :
    withImage T o { im with par := (setParamSubs im.par j v).1 } = setAll T ((getParams T.par).set k v) := by
  have hol : o < T.images.length := (List.getElem?_eq_some_iff.1 ho).1
  have e := withImage_par T o j im v hth ho hj
  rw [← take_sum T hth o (by omega), ← hk, setParam_eq T.par k v hlt] at e
  unfold setAll
  rw [← e]
  refine (withPar_par (T := T) (T' := withImage T o { im with par := (setParamSubs im.par j v).1 }) ⟨rfl, rfl, rfl, rfl, ?_, forall₂_refl sameSource_refl T.catalog⟩).symm
  rw [List.forall₂_iff_get]
  refine ⟨by simp [withImage], fun i h1 h2 => ?_⟩
  simp only [List.get_eq_getElem, withImage, List.getElem_modify]
  by_cases hio : o = i
  · subst hio
    have : T.images[o] = (true, im) := (List.getElem?_eq_some_iff.1 ho).2
    simp [this, SameImage]
  · simp [hio, SameImage]

end Verif.Fit
