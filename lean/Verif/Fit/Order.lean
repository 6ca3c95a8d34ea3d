import Verif.Fit.Truth
import Mathlib.Data.List.Perm.Basic
import Mathlib.Algebra.BigOperators.Group.List.Lemmas

/-!
# The order of images and sources (C155): definitions and lemmas
-/

namespace Verif.Fit

open Verif Params Patches Engine Finset

variable {R M : Type}

/-- The same tractor but for the order of the images and of the sources: the same images and sources (with their flags and parameters), each source
with the same mask in each image. -/
structure Reordered (T T' : Tractor R M) : Prop where
  it : T'.imagesThawed = T.imagesThawed
  ct : T'.catalogThawed = T.catalogThawed
  em : T'.expectModelMasks = T.expectModelMasks
  images : T.images.Perm T'.images
  catalog : T.catalog.Perm T'.catalog
  masks : ∀ (n m : Nat), (∃ x ∈ T.images, x.2.id = n) → (∃ x ∈ T.catalog, x.2.map (·.id) = some m) → ∀ (im : Image R) (src : Source R), im.id = n → src.id = m →
    ∀ mask, HasMask T im src mask ↔ HasMask T' im src mask

theorem sameImage_perm {l l' : List (Bool × Image R)} (h : List.Forall₂ SameImage l l') (n : Nat) :
    (∃ x ∈ l', x.2.id = n) ↔ ∃ x ∈ l, x.2.id = n := by
  induction h with
  | nil => simp
  | @cons a b l l' h1 _ ih =>
    simp only [List.mem_cons, exists_eq_or_imp, ih, h1.2.1]

theorem sameSource_perm {l l' : List (Bool × Option (Source R))} (h : List.Forall₂ SameSource l l') (n : Nat) :
    (∃ x ∈ l', x.2.map (·.id) = some n) ↔ ∃ x ∈ l, x.2.map (·.id) = some n := by
  induction h with
  | nil => simp
  | @cons a b l l' h1 _ ih =>
    simp only [List.mem_cons, exists_eq_or_imp, ih, h1.2]

theorem Reordered.refl (T : Tractor R M) : Reordered T T := ⟨rfl, rfl, rfl, .refl _, .refl _, fun _ _ _ _ _ _ _ _ _ => Iff.rfl⟩

theorem Reordered.symm {T T' : Tractor R M} (h : Reordered T T') : Reordered T' T :=
  ⟨h.it.symm, h.ct.symm, h.em.symm, h.images.symm, h.catalog.symm, fun n m hn hm im src h1 h2 mask =>
    (h.masks n m (by obtain ⟨x, a, b⟩ := hn; exact ⟨x, h.images.mem_iff.2 a, b⟩) (by obtain ⟨x, a, b⟩ := hm; exact ⟨x, h.catalog.mem_iff.2 a, b⟩)
      im src h1 h2 mask).symm⟩

/-- Masks depend on the identities of the images only. -/
theorem hasMask_shell {T T' : Tractor R M} (h : Shell T T') (im : Image R) (src : Source R) (mask : Option M) (hm : HasMask T im src mask) :
    HasMask T' im src mask := by
  have back : ∀ (i : Nat) x', T'.images[i]? = some x' → ∃ x, T.images[i]? = some x ∧ x.2.id = x'.2.id := by
    intro i x' hx'
    have hi : i < T.images.length := by rw [h.images.length_eq]; exact (List.getElem?_eq_some_iff.1 hx').1
    obtain ⟨x'', a1, a2⟩ := h.image i _ (List.getElem?_eq_getElem hi)
    rw [hx'] at a1
    injection a1 with a1
    subst a1
    exact ⟨_, List.getElem?_eq_getElem hi, a2.2.1.symm⟩
  cases hm with
  | nomasks hn => exact .nomasks (h.mm.trans hn)
  | entry masks hn i b im0 hi him hfirst d hd pre post m hpre hsplit =>
    obtain ⟨⟨b', im'⟩, a1, a2⟩ := h.image i _ hi
    exact .entry masks (h.mm.trans hn) i b' im' a1 (a2.2.1.trans him) (fun j x hj hx => by
      obtain ⟨y, y1, y2⟩ := back j x hx
      rw [← y2]
      exact hfirst j y hj y1) d hd pre post m hpre hsplit
  | missing masks hn i b im0 hi him hfirst d hd hno =>
    obtain ⟨⟨b', im'⟩, a1, a2⟩ := h.image i _ hi
    exact .missing masks (h.mm.trans hn) i b' im' a1 (a2.2.1.trans him) (fun j x hj hx => by
      obtain ⟨y, y1, y2⟩ := back j x hx
      rw [← y2]
      exact hfirst j y hj y1) d hd hno

theorem sameImage_symm {a b : Bool × Image R} (h : SameImage a b) : SameImage b a := ⟨h.1.symm, h.2.1.symm, h.2.2.1.symm, h.2.2.2.symm⟩

theorem sameSource_symm {a b : Bool × Option (Source R)} (h : SameSource a b) : SameSource b a := ⟨h.1.symm, h.2.symm⟩

theorem Shell.symm {T T' : Tractor R M} (h : Shell T T') : Shell T' T := by
  refine ⟨h.it.symm, h.ct.symm, h.mm.symm, h.em.symm, ?_, ?_⟩
  · exact (h.images.imp (fun _ _ => sameImage_symm)).flip
  · exact (h.catalog.imp (fun _ _ => sameSource_symm)).flip

/-! ### Setting the parameters of the images and of the sources -/

/-- The images after their parameters were set, one after the other. -/
def setImgs : List (Bool × Image R) → List R → List (Bool × Image R)
  | [], _ => []
  | (true, i) :: l, p => (true, { i with par := (setParamsSubs i.par (p.take (numberOfParamsSubs i.par))).1 }) :: setImgs l (p.drop (numberOfParamsSubs i.par))
  | (false, i) :: l, p => (false, i) :: setImgs l p

/-- The sources after their parameters were set, one after the other. -/
def setSrcs : List (Bool × Option (Source R)) → List R → List (Bool × Option (Source R))
  | [], _ => []
  | (true, some s) :: l, p => (true, some { s with par := (setParams s.par (p.take (numberOfParams s.par))).1 }) :: setSrcs l (p.drop (numberOfParams s.par))
  | (b, s) :: l, p => (b, s) :: setSrcs l p

theorem setImgs_subs : ∀ (l : List (Bool × Image R)) (p : List R), p.length = numberOfParamsSubs (imagesSubs l) →
    setParamsSubs (imagesSubs l) p = (imagesSubs (setImgs l p), none) := by
  intro l
  induction l with
  | nil =>
    intro p hp
    have : p = [] := List.length_eq_zero_iff.1 hp
    subst this
    rfl
  | cons x l ih =>
    obtain ⟨b, i⟩ := x
    intro p hp
    cases b with
    | false =>
      simp only [imagesSubs, numberOfParamsSubs, Bool.false_eq_true, if_false, Nat.zero_add] at hp
      simp only [imagesSubs, setParamsSubs, Bool.false_eq_true, if_false, setImgs, ih p hp]
    | true =>
      simp only [imagesSubs, numberOfParamsSubs, if_true, numberOfParams] at hp
      have g := (setParamsSubs_get i.par (p.take (numberOfParamsSubs i.par)) (by rw [List.length_take]; omega)).1
      simp only [imagesSubs, setParamsSubs, if_true, setImgs, numberOfParams, setParams, g]
      rw [ih _ (by rw [List.length_drop]; omega)]

theorem setSrcs_subs : ∀ (l : List (Bool × Option (Source R))) (p : List R), p.length = numberOfParamsSubs (catalogSubs l) →
    setParamsSubs (catalogSubs l) p = (catalogSubs (setSrcs l p), none) := by
  intro l
  induction l with
  | nil =>
    intro p hp
    have : p = [] := List.length_eq_zero_iff.1 hp
    subst this
    rfl
  | cons x l ih =>
    obtain ⟨b, s⟩ := x
    intro p hp
    cases s with
    | none =>
      simp only [catalogSubs, numberOfParamsSubs] at hp
      simp only [catalogSubs, setParamsSubs, setSrcs, ih p hp]
    | some s =>
      cases b with
      | false =>
        simp only [catalogSubs, numberOfParamsSubs, Bool.false_eq_true, if_false, Nat.zero_add] at hp
        simp only [catalogSubs, setParamsSubs, Bool.false_eq_true, if_false, setSrcs, ih p hp]
      | true =>
        simp only [catalogSubs, numberOfParamsSubs, if_true] at hp
        have g := (setParams_get s.par (p.take (numberOfParams s.par)) (by rw [List.length_take]; omega)).1
        simp only [catalogSubs, setParamsSubs, if_true, setSrcs, g]
        rw [ih _ (by rw [List.length_drop]; omega)]

theorem setImgs_same : ∀ (l : List (Bool × Image R)) (p : List R), List.Forall₂ SameImage l (setImgs l p) := by
  intro l
  induction l with
  | nil => intro p; exact .nil
  | cons x l ih =>
    obtain ⟨b, i⟩ := x
    intro p
    cases b with
    | false => exact .cons (sameImage_refl _) (ih p)
    | true => exact .cons ⟨rfl, rfl, rfl, rfl⟩ (ih _)

theorem setSrcs_same : ∀ (l : List (Bool × Option (Source R))) (p : List R), List.Forall₂ SameSource l (setSrcs l p) := by
  intro l
  induction l with
  | nil => intro p; exact .nil
  | cons x l ih =>
    obtain ⟨b, s⟩ := x
    intro p
    cases s with
    | none => cases b <;> exact .cons (sameSource_refl _) (ih p)
    | some s =>
      cases b with
      | false => exact .cons (sameSource_refl _) (ih p)
      | true => exact .cons ⟨rfl, rfl⟩ (ih _)

/-- The same values for the same images, in another order. -/
theorem setImgs_perm {l l' : List (Bool × Image R)} (h : l.Perm l') : ∀ p : List R, p.length = numberOfParamsSubs (imagesSubs l) →
    ∃ p' : List R, p'.length = numberOfParamsSubs (imagesSubs l') ∧ (setImgs l p).Perm (setImgs l' p') := by
  induction h with
  | nil => intro p hp; exact ⟨p, hp, .refl _⟩
  | @cons x l l' h ih =>
    obtain ⟨b, i⟩ := x
    intro p hp
    cases b with
    | false =>
      simp only [imagesSubs, numberOfParamsSubs, Bool.false_eq_true, if_false, Nat.zero_add] at hp
      obtain ⟨p', h1, h2⟩ := ih p hp
      exact ⟨p', by simpa [imagesSubs, numberOfParamsSubs] using h1, h2.cons _⟩
    | true =>
      simp only [imagesSubs, numberOfParamsSubs, if_true, numberOfParams] at hp
      obtain ⟨p', h1, h2⟩ := ih (p.drop (numberOfParamsSubs i.par)) (by rw [List.length_drop]; omega)
      have hl : (p.take (numberOfParamsSubs i.par)).length = numberOfParamsSubs i.par := by rw [List.length_take]; omega
      refine ⟨p.take (numberOfParamsSubs i.par) ++ p', ?_, ?_⟩
      · simp only [imagesSubs, numberOfParamsSubs, if_true, numberOfParams, List.length_append, hl, h1]
      · simp only [setImgs]
        rw [List.take_left' hl, List.drop_left' hl]
        exact h2.cons _
  | @swap x y l =>
    obtain ⟨b, i⟩ := x
    obtain ⟨c, j⟩ := y
    intro p hp
    cases b <;> cases c
    · exact ⟨p, hp, .swap _ _ _⟩
    · exact ⟨p, by simpa [imagesSubs, numberOfParamsSubs] using hp, .swap _ _ _⟩
    · exact ⟨p, by simpa [imagesSubs, numberOfParamsSubs] using hp, .swap _ _ _⟩
    · simp only [imagesSubs, numberOfParamsSubs, if_true, numberOfParams] at hp
      generalize hm : numberOfParamsSubs j.par = m at hp
      generalize hn : numberOfParamsSubs i.par = n at hp
      generalize hk : numberOfParamsSubs (imagesSubs l) = k at hp
      have e : p = p.take m ++ ((p.drop m).take n ++ p.drop (m + n)) := by
        rw [show p.drop (m + n) = (p.drop m).drop n by rw [List.drop_drop], List.take_append_drop, List.take_append_drop]
      have e1 : (p.take m).length = m := by rw [List.length_take]; omega
      have e2 : ((p.drop m).take n).length = n := by rw [List.length_take, List.length_drop]; omega
      generalize p.take m = a at e e1
      generalize (p.drop m).take n = b at e e2
      generalize p.drop (m + n) = c at e
      subst e
      refine ⟨b ++ (a ++ c), ?_, ?_⟩
      · simp only [imagesSubs, numberOfParamsSubs, if_true, numberOfParams, hm, hn, hk]
        simp only [List.length_append] at hp ⊢
        omega
      · simp only [setImgs, hm, hn]
        rw [List.take_left' e1, List.drop_left' e1, List.take_left' e2, List.drop_left' e2, List.take_left' e2, List.drop_left' e2,
          List.take_left' e1, List.drop_left' e1]
        exact .swap _ _ _
  | trans _ _ ih1 ih2 =>
    intro p hp
    obtain ⟨p1, a1, a2⟩ := ih1 p hp
    obtain ⟨p2, b1, b2⟩ := ih2 p1 a1
    exact ⟨p2, b1, a2.trans b2⟩

/-- A parameter-less source. -/
theorem setSrcs_cons_none (x : Bool × Option (Source R)) (hx : ∀ s, x ≠ (true, some s)) (l : List (Bool × Option (Source R))) (p : List R) :
    setSrcs (x :: l) p = x :: setSrcs l p ∧ numberOfParamsSubs (catalogSubs (x :: l)) = numberOfParamsSubs (catalogSubs l) := by
  obtain ⟨b, s⟩ := x
  cases s with
  | none => cases b <;> exact ⟨rfl, by simp [catalogSubs, numberOfParamsSubs]⟩
  | some s =>
    cases b with
    | false => exact ⟨rfl, by simp [catalogSubs, numberOfParamsSubs]⟩
    | true => exact absurd rfl (hx s)

theorem source_cases (x : Bool × Option (Source R)) : (∃ s, x = (true, some s)) ∨ ∀ s, x ≠ (true, some s) := by
  by_cases h : ∃ s, x = (true, some s)
  · exact .inl h
  · exact .inr (fun s hs => h ⟨s, hs⟩)

/-- The same values for the same sources, in another order. -/
theorem setSrcs_perm {l l' : List (Bool × Option (Source R))} (h : l.Perm l') : ∀ p : List R, p.length = numberOfParamsSubs (catalogSubs l) →
    ∃ p' : List R, p'.length = numberOfParamsSubs (catalogSubs l') ∧ (setSrcs l p).Perm (setSrcs l' p') := by
  induction h with
  | nil => intro p hp; exact ⟨p, hp, .refl _⟩
  | @cons x l l' h ih =>
    intro p hp
    rcases source_cases x with ⟨i, rfl⟩ | hx
    · simp only [catalogSubs, numberOfParamsSubs, if_true] at hp
      obtain ⟨p', h1, h2⟩ := ih (p.drop (numberOfParams i.par)) (by rw [List.length_drop]; omega)
      have hl : (p.take (numberOfParams i.par)).length = numberOfParams i.par := by rw [List.length_take]; omega
      refine ⟨p.take (numberOfParams i.par) ++ p', ?_, ?_⟩
      · simp only [catalogSubs, numberOfParamsSubs, if_true, List.length_append, hl, h1]
      · simp only [setSrcs]
        rw [List.take_left' hl, List.drop_left' hl]
        exact h2.cons _
    · rw [(setSrcs_cons_none x hx l p).2] at hp
      obtain ⟨p', h1, h2⟩ := ih p hp
      refine ⟨p', by rw [(setSrcs_cons_none x hx l' p').2, h1], ?_⟩
      rw [(setSrcs_cons_none x hx l p).1, (setSrcs_cons_none x hx l' p').1]
      exact h2.cons _
  | @swap x y l =>
    intro p hp
    rcases source_cases x with ⟨i, rfl⟩ | hx
    · rcases source_cases y with ⟨j, rfl⟩ | hy
      · simp only [catalogSubs, numberOfParamsSubs, if_true] at hp
        generalize hm : numberOfParams j.par = m at hp
        generalize hn : numberOfParams i.par = n at hp
        generalize hk : numberOfParamsSubs (catalogSubs l) = k at hp
        have e : p = p.take m ++ ((p.drop m).take n ++ p.drop (m + n)) := by
          rw [show p.drop (m + n) = (p.drop m).drop n by rw [List.drop_drop], List.take_append_drop, List.take_append_drop]
        have e1 : (p.take m).length = m := by rw [List.length_take]; omega
        have e2 : ((p.drop m).take n).length = n := by rw [List.length_take, List.length_drop]; omega
        generalize p.take m = a at e e1
        generalize (p.drop m).take n = b at e e2
        generalize p.drop (m + n) = c at e
        subst e
        refine ⟨b ++ (a ++ c), ?_, ?_⟩
        · simp only [catalogSubs, numberOfParamsSubs, if_true, hm, hn, hk]
          simp only [List.length_append] at hp ⊢
          omega
        · simp only [setSrcs, hm, hn]
          rw [List.take_left' e1, List.drop_left' e1, List.take_left' e2, List.drop_left' e2, List.take_left' e2, List.drop_left' e2,
          List.take_left' e1, List.drop_left' e1]
          exact .swap _ _ _
      · refine ⟨p, ?_, ?_⟩
        · rw [(setSrcs_cons_none y hy _ p).2] at hp
          simp only [catalogSubs, numberOfParamsSubs, if_true] at hp
          simp only [catalogSubs, numberOfParamsSubs, if_true]
          rw [(setSrcs_cons_none y hy _ p).2, hp]
        · rw [(setSrcs_cons_none y hy _ p).1]
          simp only [setSrcs]
          rw [(setSrcs_cons_none y hy _ _).1]
          exact .swap _ _ _
    · refine ⟨p, ?_, ?_⟩
      · rw [(setSrcs_cons_none x hx _ p).2]
        rcases source_cases y with ⟨j, rfl⟩ | hy
        · simp only [catalogSubs, numberOfParamsSubs, if_true] at hp ⊢
          rw [hp, (setSrcs_cons_none x hx _ p).2]
        · rw [(setSrcs_cons_none y hy _ p).2, (setSrcs_cons_none x hx _ p).2] at hp
          rw [(setSrcs_cons_none y hy _ p).2, hp]
      · rw [(setSrcs_cons_none x hx _ p).1]
        rcases source_cases y with ⟨j, rfl⟩ | hy
        · simp only [setSrcs]
          rw [(setSrcs_cons_none x hx _ _).1]
          exact .swap _ _ _
        · rw [(setSrcs_cons_none y hy _ p).1, (setSrcs_cons_none x hx _ p).1, (setSrcs_cons_none y hy _ p).1]
          exact .swap _ _ _
  | trans _ _ ih1 ih2 =>
    intro p hp
    obtain ⟨p1, a1, a2⟩ := ih1 p hp
    obtain ⟨p2, b1, b2⟩ := ih2 p1 a1
    exact ⟨p2, b1, a2.trans b2⟩

/-- The number of parameters of the images and of the sources that take part. -/
def nImgs (T : Tractor R M) : Nat := if T.imagesThawed then numberOfParamsSubs (imagesSubs T.images) else 0
def nSrcs (T : Tractor R M) : Nat := if T.catalogThawed then numberOfParamsSubs (catalogSubs T.catalog) else 0

theorem nParams (T : Tractor R M) : numberOfParams T.par = nImgs T + nSrcs T := by
  simp only [Tractor.par, numberOfParams, numberOfParamsSubs, nImgs, nSrcs]
  omega

/-- The tractor with its images and its sources set. -/
def parts (T : Tractor R M) (a b : List R) : Tractor R M :=
  { T with images := (if T.imagesThawed then setImgs T.images a else T.images), catalog := (if T.catalogThawed then setSrcs T.catalog b else T.catalog) }

/-- Setting the parameters of a tractor spelled out. -/
theorem setAll_parts (T : Tractor R M) (a b : List R) (ha : a.length = nImgs T) (hb : b.length = nSrcs T) :
    setAll T (a ++ b) = parts T a b := by
  unfold nImgs at ha
  unfold nSrcs at hb
  have h : (setParams T.par (a ++ b)).1 = Tractor.par (parts T a b) := by
    unfold Tractor.par parts
    cases hi : T.imagesThawed with
    | false =>
      rw [hi] at ha
      simp only [Bool.false_eq_true, if_false] at ha
      have : a = [] := List.length_eq_zero_iff.1 ha
      subst this
      cases hc : T.catalogThawed with
      | false =>
        rw [hc] at hb
        simp only [Bool.false_eq_true, if_false] at hb
        have : b = [] := List.length_eq_zero_iff.1 hb
        subst this
        simp [setParams, setParamsSubs, hi, hc]
      | true =>
        rw [hc] at hb
        simp only [if_true] at hb
        simp only [setParams, setParamsSubs, Bool.false_eq_true, if_false, if_true, numberOfParams, List.nil_append, List.take_of_length_le (le_of_eq hb),
          setSrcs_subs _ b hb, hi, hc]
    | true =>
      rw [hi] at ha
      simp only [if_true] at ha
      cases hc : T.catalogThawed with
      | false =>
        rw [hc] at hb
        simp only [Bool.false_eq_true, if_false] at hb
        have : b = [] := List.length_eq_zero_iff.1 hb
        subst this
        simp only [setParams, setParamsSubs, Bool.false_eq_true, if_false, if_true, numberOfParams, List.append_nil, List.take_of_length_le (le_of_eq ha),
          setImgs_subs _ a ha, hi, hc]
      | true =>
        rw [hc] at hb
        simp only [if_true] at hb
        simp only [setParams, setParamsSubs, if_true, numberOfParams, List.take_left' ha, List.drop_left' ha,
          setImgs_subs _ a ha, List.take_of_length_le (le_of_eq hb), setSrcs_subs _ b hb, hi, hc]
  unfold setAll
  rw [h]
  refine withPar_par ⟨rfl, rfl, rfl, rfl, ?_, ?_⟩
  · dsimp only [parts]
    split
    · exact setImgs_same _ _
    · exact forall₂_refl sameImage_refl _
  · dsimp only [parts]
    split
    · exact setSrcs_same _ _
    · exact forall₂_refl sameSource_refl _

/-- The same values for the same objects, in another order. -/
theorem Reordered.setAll {T T' : Tractor R M} (h : Reordered T T') (p : List R) (hp : p.length = numberOfParams T.par) :
    ∃ p' : List R, p'.length = numberOfParams T'.par ∧ Reordered (Fit.setAll T p) (Fit.setAll T' p') := by
  rw [nParams] at hp
  have e : p = p.take (nImgs T) ++ p.drop (nImgs T) := (List.take_append_drop _ _).symm
  have e1 : (p.take (nImgs T)).length = nImgs T := by rw [List.length_take]; omega
  have e2 : (p.drop (nImgs T)).length = nSrcs T := by rw [List.length_drop]; omega
  generalize p.take (nImgs T) = a at e e1
  generalize p.drop (nImgs T) = b at e e2
  subst e
  obtain ⟨a', a1, a2⟩ : ∃ a' : List R, a'.length = nImgs T' ∧ (if T.imagesThawed then setImgs T.images a else T.images).Perm
      (if T'.imagesThawed then setImgs T'.images a' else T'.images) := by
    unfold nImgs at e1 ⊢
    rw [h.it]
    cases hi : T.imagesThawed with
    | false => exact ⟨[], rfl, h.images⟩
    | true =>
      rw [hi] at e1
      exact setImgs_perm h.images a e1
  obtain ⟨b', b1, b2⟩ : ∃ b' : List R, b'.length = nSrcs T' ∧ (if T.catalogThawed then setSrcs T.catalog b else T.catalog).Perm
      (if T'.catalogThawed then setSrcs T'.catalog b' else T'.catalog) := by
    unfold nSrcs at e2 ⊢
    rw [h.ct]
    cases hi : T.catalogThawed with
    | false => exact ⟨[], rfl, h.catalog⟩
    | true =>
      rw [hi] at e2
      exact setSrcs_perm h.catalog b e2
  refine ⟨a' ++ b', by rw [List.length_append, nParams, a1, b1], ?_⟩
  have s1 := (setAll_ok T (a ++ b)).1
  have s2 := (setAll_ok T' (a' ++ b')).1
  refine ⟨by rw [s1.it, s2.it, h.it], by rw [s1.ct, s2.ct, h.ct], by rw [s1.em, s2.em, h.em], ?_, ?_, fun n m hn hm im src h1 h2 mask => ?_⟩
  · rw [setAll_parts T a b e1 e2, setAll_parts T' a' b' a1 b1]
    exact a2
  · rw [setAll_parts T a b e1 e2, setAll_parts T' a' b' a1 b1]
    exact b2
  · have := h.masks n m ((sameImage_perm s1.images n).1 hn) ((sameSource_perm s1.catalog m).1 hm) im src h1 h2 mask
    exact ⟨fun g => hasMask_shell s2 _ _ _ (this.1 (hasMask_shell s1.symm _ _ _ g)), fun g => hasMask_shell s1 _ _ _ (this.2 (hasMask_shell s2.symm _ _ _ g))⟩

/-! ### Log-probability -/

theorem contributions_congr (W : World R M) (T T' : Tractor R M) (im : Image R) (he : T'.expectModelMasks = T.expectModelMasks) :
    ∀ (l : List (Option (Source R))) (ps : List (Option (Patch R))), (∀ src, some src ∈ l → ∀ mask, HasMask T im src mask ↔ HasMask T' im src mask) →
      Contributions W T im l ps → Contributions W T' im l ps := by
  intro l ps h hc
  unfold Contributions at hc ⊢
  induction hc with
  | nil => exact .nil
  | @cons s p l ps h1 _ ih =>
    refine .cons ?_ (ih (fun src hs => h src (List.mem_cons_of_mem _ hs)))
    cases s with
    | none => exact h1
    | some src =>
      obtain ⟨mask, m1, m2⟩ := h1
      exact ⟨mask, (h src List.mem_cons_self mask).1 m1, by rw [he]; exact m2⟩

theorem model_reordered [CommRing R] [DecidableEq R] (W : World R M) (T T' : Tractor R M) (h : Reordered T T') (x : Bool × Image R)
    (hx : x ∈ T.images) (hm : MasksOK T x.2) (hm' : MasksOK T' x.2) :
    ∃ A A', getModelImage W T x.2 none true = .ok A ∧ getModelImage W T' x.2 none true = .ok A' ∧
      ∀ r c : Nat, r < x.2.data.h → c < x.2.data.w → A.px r c = A'.px r c := by
  obtain ⟨⟨ps, h1⟩, h2⟩ := C29_model_image W T x.2 hm none
  obtain ⟨-, h2'⟩ := C29_model_image W T' x.2 hm' none
  simp only [Option.getD_none] at h1 h2 h2'
  have hc := contributions_congr W T T' x.2 h.em _ ps (fun src hs mask => by
    obtain ⟨y, y1, y2⟩ := List.mem_map.1 hs
    exact h.masks x.2.id src.id ⟨x, hx, rfl⟩ ⟨y, y1, by rw [y2]; rfl⟩ _ _ rfl rfl mask) h1
  obtain ⟨qs, q1, q2⟩ := List.perm_comp_forall₂ (h.catalog.map (fun x : Bool × Option (Source R) => x.2)).symm hc
  obtain ⟨A, a1, -, -, a2⟩ := h2 ps h1 true
  obtain ⟨A', b1, -, -, b2⟩ := h2' qs q1 true
  refine ⟨A, A', a1, b1, fun r c hr hc => ?_⟩
  rw [a2 r c hr hc, b2 r c hr hc, (q2.map (fun p => patchAt p c r)).sum_eq]

section
variable [Field R] [LinearOrder R]

/-- The contribution of an image to the log-likelihood. -/
def share (W : World R M) (T : Tractor R M) (x : Bool × Image R) : R :=
  match getModelImage W T x.2 none true with
  | .error _ => 0
  | .ok A => ∑ r ∈ range x.2.data.h, ∑ c ∈ range x.2.data.w, ((x.2.data.px r c - A.px r c) * x.2.inverr.px r c) ^ 2

theorem likelihood_share (W : World R M) (T : Tractor R M) (hm : ∀ x ∈ T.images, MasksOK T x.2)
    (hs : ∀ x ∈ T.images, x.2.inverr.h = x.2.data.h ∧ x.2.inverr.w = x.2.data.w) :
    getLogLikelihood W T = .ok (-(1 / 2) * (T.images.map (share W T)).sum) := by
  obtain ⟨mods, h1, h2⟩ := C30_loglikelihood W T hm hs
  rw [h2]
  congr 3
  clear h2 hm hs
  generalize T.images = l at h1
  induction h1 with
  | nil => rfl
  | cons a _ ih => simp only [List.zip_cons_cons, List.map_cons, ih, share, a]

theorem likelihood_reordered (W : World R M) (T T' : Tractor R M) (h : Reordered T T') (hm : ∀ x ∈ T.images, MasksOK T x.2)
    (hm' : ∀ x ∈ T'.images, MasksOK T' x.2) (hs : ∀ x ∈ T.images, x.2.inverr.h = x.2.data.h ∧ x.2.inverr.w = x.2.data.w) :
    getLogLikelihood W T = getLogLikelihood W T' := by
  rw [likelihood_share W T hm hs, likelihood_share W T' hm' (fun x hx => hs x (h.images.mem_iff.2 hx)), ← (h.images.map (share W T')).sum_eq]
  congr 3
  refine List.map_congr_left (fun x hx => ?_)
  obtain ⟨A, A', a1, a2, a3⟩ := model_reordered W T T' h x hx (hm x hx) (hm' x (h.images.mem_iff.1 hx))
  unfold share
  rw [a1, a2]
  exact sum_congr rfl (fun r hr => sum_congr rfl (fun c hc => by rw [a3 r c (mem_range.1 hr) (mem_range.1 hc)]))

omit [LinearOrder R] in
/-- The prior of one more object. -/
theorem prior_cons (s : Par R) (b : Bool) (nm : List String) (t : Subs R) (v : R) : getLogPriorSubs (.cons nm b s t) = .ok v ↔
    (b = false ∧ getLogPriorSubs t = .ok v) ∨ (b = true ∧ ∃ x y, getLogPrior s = .ok x ∧ getLogPriorSubs t = .ok y ∧ v = x + y) := by
  cases b with
  | false => simp [getLogPriorSubs]
  | true =>
    simp only [getLogPriorSubs, if_true]
    cases h1 : getLogPrior s with
    | error e => simp
    | ok x =>
      cases h2 : getLogPriorSubs t with
      | error e => simp
      | ok y =>
        simp only [Except.ok.injEq, reduceCtorEq, false_and, true_and, false_or]
        constructor
        · intro h; exact ⟨x, y, rfl, rfl, h.symm⟩
        · rintro ⟨a, b, rfl, rfl, rfl⟩; rfl

theorem prior_images {l l' : List (Bool × Image R)} (h : l.Perm l') : ∀ v, getLogPriorSubs (imagesSubs l) = .ok v → getLogPriorSubs (imagesSubs l') = .ok v := by
  induction h with
  | nil => exact fun _ h => h
  | @cons x l l' _ ih =>
    obtain ⟨b, i⟩ := x
    intro v hv
    simp only [imagesSubs, prior_cons] at hv ⊢
    rcases hv with ⟨h1, h2⟩ | ⟨h1, a, c, h2, h3, h4⟩
    · exact .inl ⟨h1, ih v h2⟩
    · exact .inr ⟨h1, a, c, h2, ih c h3, h4⟩
  | @swap x y l =>
    obtain ⟨b, i⟩ := x
    obtain ⟨c, j⟩ := y
    intro v hv
    simp only [imagesSubs, prior_cons] at hv ⊢
    rcases hv with ⟨h1, ⟨h2, h3⟩ | ⟨h2, p, q, h3, h4, h5⟩⟩ | ⟨h1, a, d, h2, ⟨h3, h4⟩ | ⟨h3, p, q, h4, h5, h6⟩, h7⟩
    · exact .inl ⟨h2, .inl ⟨h1, h3⟩⟩
    · exact .inr ⟨h2, p, q, h3, .inl ⟨h1, h4⟩, h5⟩
    · exact .inl ⟨h3, .inr ⟨h1, a, d, h2, h4, h7⟩⟩
    · exact .inr ⟨h3, p, a + q, h4, .inr ⟨h1, a, q, h2, h5, rfl⟩, by rw [h7, h6]; ring⟩
  | trans _ _ ih1 ih2 => exact fun v hv => ih2 v (ih1 v hv)

/-- The prior of a source. -/
def priorOf : Bool × Option (Source R) → Except PyErr R
  | (true, some s) => getLogPrior s.par
  | _ => .ok 0

theorem prior_catalog (x : Bool × Option (Source R)) (l : List (Bool × Option (Source R))) (v : R) : getLogPriorSubs (catalogSubs (x :: l)) = .ok v ↔
    ∃ a c, priorOf x = .ok a ∧ getLogPriorSubs (catalogSubs l) = .ok c ∧ v = a + c := by
  obtain ⟨b, s⟩ := x
  have triv : getLogPriorSubs (catalogSubs l) = .ok v ↔ ∃ a c, (.ok 0 : Except PyErr R) = .ok a ∧ getLogPriorSubs (catalogSubs l) = .ok c ∧ v = a + c := by
    constructor
    · intro h; exact ⟨0, v, rfl, h, (zero_add v).symm⟩
    · rintro ⟨a, c, h1, h2, h3⟩
      injection h1 with h1
      rw [h2, h3, ← h1, zero_add]
  cases s with
  | none => cases b <;> exact triv
  | some s =>
    cases b with
    | false =>
      simp only [catalogSubs, prior_cons, priorOf, reduceCtorEq, false_and, true_and, or_false]
      exact triv
    | true => simp only [catalogSubs, prior_cons, priorOf, reduceCtorEq, false_and, true_and, false_or]

theorem prior_sources {l l' : List (Bool × Option (Source R))} (h : l.Perm l') :
    ∀ v, getLogPriorSubs (catalogSubs l) = .ok v → getLogPriorSubs (catalogSubs l') = .ok v := by
  induction h with
  | nil => exact fun _ h => h
  | @cons x l l' _ ih =>
    intro v hv
    obtain ⟨a, c, h1, h2, h3⟩ := (prior_catalog _ _ _).1 hv
    exact (prior_catalog _ _ _).2 ⟨a, c, h1, ih c h2, h3⟩
  | @swap x y l =>
    intro v hv
    obtain ⟨a, c, h1, h2, h3⟩ := (prior_catalog _ _ _).1 hv
    obtain ⟨a', c', h1', h2', h3'⟩ := (prior_catalog _ _ _).1 h2
    exact (prior_catalog _ _ _).2 ⟨a', a + c', h1', (prior_catalog _ _ _).2 ⟨a, c', h1, h2', rfl⟩, by rw [h3, h3']; ring⟩
  | trans _ _ ih1 ih2 => exact fun v hv => ih2 v (ih1 v hv)

theorem prior_reordered {T T' : Tractor R M} (h : Reordered T T') (v : R) (hv : getLogPrior T.par = .ok v) : getLogPrior T'.par = .ok v := by
  unfold Tractor.par at hv ⊢
  rw [h.it, h.ct]
  simp only [getLogPrior, prior_cons] at hv ⊢
  rcases hv with ⟨h1, ⟨h2, h3⟩ | ⟨h2, p, q, h3, h4, h5⟩⟩ | ⟨h1, a, d, h2, ⟨h3, h4⟩ | ⟨h3, p, q, h4, h5, h6⟩, h7⟩
  · exact .inl ⟨h1, .inl ⟨h2, h3⟩⟩
  · exact .inl ⟨h1, .inr ⟨h2, p, q, prior_sources h.catalog p h3, h4, h5⟩⟩
  · exact .inr ⟨h1, a, d, prior_images h.images a h2, .inl ⟨h3, h4⟩, h7⟩
  · exact .inr ⟨h1, a, d, prior_images h.images a h2, .inr ⟨h3, p, q, prior_sources h.catalog p h4, h5, h6⟩, h7⟩

theorem logProb_reordered (W : World R M) (T T' : Tractor R M) (h : Reordered T T') (hm : ∀ x ∈ T.images, MasksOK T x.2)
    (hm' : ∀ x ∈ T'.images, MasksOK T' x.2) (hs : ∀ x ∈ T.images, x.2.inverr.h = x.2.data.h ∧ x.2.inverr.w = x.2.data.w) (v : R)
    (hv : getLogPrior T.par = .ok v) : logProb W T' = logProb W T := by
  unfold logProb
  rw [hv, prior_reordered h v hv, likelihood_reordered W T T' h hm hm' hs]

/-! ### Only one set of values is best -/

/-- The pixels of the images of a tractor. -/
def own (T : Tractor R M) (i y x : Nat) : R := ((T.images[i]?).map (fun z => z.2.data.px y x)).getD 0

omit [LinearOrder R] in
theorem withData_own (T : Tractor R M) : withData T (own T) = T := by
  have : (withData T (own T)).images = T.images := by
    apply List.ext_getElem?
    intro i
    rw [withData_get]
    cases h : T.images[i]? with
    | none => rfl
    | some z =>
      obtain ⟨b, im⟩ := z
      have : own T i = im.data.px := by
        funext y x
        rw [own, h]
        rfl
      simp only [Option.map_some, this]
  change { T with images := (withData T (own T)).images } = T
  rw [this]

/-- Two minima of a sum of squares give the same models. -/
theorem minima_same {ι : Type} [IsStrictOrderedRing R] (P : Finset ι) (K : Finset ℕ) (w d c : ι → R) (A : ι → ℕ → R) (θ θ' : ℕ → R)
    (h : ∀ φ, ∑ π ∈ P, Fpfit.resid K w d c A θ π * Fpfit.resid K w d c A θ π ≤ ∑ π ∈ P, Fpfit.resid K w d c A φ π * Fpfit.resid K w d c A φ π)
    (h' : ∀ φ, ∑ π ∈ P, Fpfit.resid K w d c A θ' π * Fpfit.resid K w d c A θ' π ≤ ∑ π ∈ P, Fpfit.resid K w d c A φ π * Fpfit.resid K w d c A φ π) :
    ∀ π ∈ P, w π ≠ 0 → ∑ k ∈ K, θ k * A π k = ∑ k ∈ K, θ' k * A π k := by
  have e1 := Fpfit.resid_normal P K w d c A θ h (fun k => θ' k - θ k)
  have e2 := Fpfit.resid_normal P K w d c A θ' h' (fun k => θ' k - θ k)
  have e : ∑ π ∈ P, (w π * ∑ k ∈ K, (θ' k - θ k) * A π k) * (w π * ∑ k ∈ K, (θ' k - θ k) * A π k) = 0 := by
    rw [← sub_eq_zero.2 (e1.trans e2.symm), ← sum_sub_distrib]
    refine sum_congr rfl (fun π _ => ?_)
    have : ∑ k ∈ K, (θ' k - θ k) * A π k = ∑ k ∈ K, θ' k * A π k - ∑ k ∈ K, θ k * A π k := by
      rw [← sum_sub_distrib]
      exact sum_congr rfl (fun k _ => by ring)
    unfold Fpfit.resid
    rw [this]
    ring
  intro π hπ hne
  have := (sum_eq_zero_iff_of_nonneg (fun π _ => mul_self_nonneg _)).1 e π hπ
  have := (mul_eq_zero.1 (mul_self_eq_zero.1 this)).resolve_left hne
  have h2 : ∑ k ∈ K, (θ' k - θ k) * A π k = ∑ k ∈ K, θ' k * A π k - ∑ k ∈ K, θ k * A π k := by
    rw [← sum_sub_distrib]
    exact sum_congr rfl (fun k _ => by ring)
  rw [h2] at this
  exact (sub_eq_zero.1 this).symm

end

end Verif.Fit
