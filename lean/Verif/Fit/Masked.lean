import Verif.Fit.Var
import Verif.Cons.Model

/-!
# Pixels with zero inverse error (C156): definitions and lemmas
-/

namespace Verif.Fit

open Verif Params Patches Engine

variable {R M : Type}

/-- The same image but for the values of pixels with zero inverse error. -/
structure AlikeIm [Zero R] (im im' : Image R) : Prop where
  id : im'.id = im.id
  par : im'.par = im.par
  h : im'.data.h = im.data.h
  w : im'.data.w = im.data.w
  inverr : im'.inverr = im.inverr
  px : ∀ r c, r < im.data.h → c < im.data.w → im.inverr.px r c ≠ 0 → im'.data.px r c = im.data.px r c

/-- The same tractor but for the values of pixels with zero inverse error. -/
structure Alike [Zero R] (T T' : Tractor R M) : Prop where
  it : T'.imagesThawed = T.imagesThawed
  ct : T'.catalogThawed = T.catalogThawed
  mm : T'.modelMasks = T.modelMasks
  em : T'.expectModelMasks = T.expectModelMasks
  catalog : T'.catalog = T.catalog
  images : List.Forall₂ (fun x x' : Bool × Image R => x'.1 = x.1 ∧ AlikeIm x.2 x'.2) T.images T'.images

/-- Sources and skies are rendered, and derivatives computed, without looking at pixels with zero inverse error. -/
structure Blind [Zero R] (W : World R M) (hooks : Tractor R M → Nat → Nat → Option (List (Deriv R))) : Prop where
  render : ∀ im im', AlikeIm im im' → ∀ s m, W.render s im' m = W.render s im m
  sky : ∀ im im', AlikeIm im im' → W.sky im' = W.sky im
  derivs : ∀ im im', AlikeIm im im' → ∀ s m, W.srcDerivs s im' m = W.srcDerivs s im m
  hooks : ∀ T T', Alike T T' → hooks T' = hooks T

section
variable [Zero R]

theorem Alike.refl (T : Tractor R M) : Alike T T :=
  ⟨rfl, rfl, rfl, rfl, rfl, forall₂_refl (fun _ => ⟨rfl, rfl, rfl, rfl, rfl, rfl, fun _ _ _ _ _ => rfl⟩) _⟩

theorem Alike.ids {T T' : Tractor R M} (h : Alike T T') : T'.images.map (fun x => x.2.id) = T.images.map (fun x => x.2.id) := by
  have := h.images
  generalize T.images = l at this
  generalize T'.images = l' at this
  induction this with
  | nil => rfl
  | cons a _ ih => rw [List.map_cons, List.map_cons, a.2.id, ih]

theorem Alike.mask {T T' : Tractor R M} (h : Alike T T') {im im' : Image R} (hi : AlikeIm im im') (s : Source R) : maskFor T' im' s = maskFor T im s := by
  unfold maskFor
  rw [h.mm, findIdx_map, findIdx_map, h.ids, hi.id]

theorem Alike.par {T T' : Tractor R M} (h : Alike T T') : T'.par = T.par := by
  unfold Tractor.par
  rw [h.it, h.ct, h.catalog, imagesSubs_congr T.images T'.images (h.images.imp (fun _ _ a => ⟨a.1, a.2.par⟩))]

theorem Alike.thawed {T T' : Tractor R M} (h : Alike T T') : T'.images.map (·.1) = T.images.map (fun x => x.1) := by
  have := h.images
  generalize T.images = l at this
  generalize T'.images = l' at this
  induction this with
  | nil => rfl
  | cons a _ ih => rw [List.map_cons, List.map_cons, a.1, ih]

/-- Image `i` of the two. -/
theorem Alike.get {T T' : Tractor R M} (h : Alike T T') (i : Nat) :
    (T.images[i]? = none ∧ T'.images[i]? = none) ∨
      ∃ b im im', T.images[i]? = some (b, im) ∧ T'.images[i]? = some (b, im') ∧ AlikeIm im im' := by
  by_cases hi : i < T.images.length
  · right
    have hi' : i < T'.images.length := by rw [← h.images.length_eq]; exact hi
    have := h.images.get hi hi'
    simp only [List.get_eq_getElem] at this
    exact ⟨T.images[i].1, T.images[i].2, T'.images[i].2, List.getElem?_eq_getElem hi,
      by rw [List.getElem?_eq_getElem hi']; exact congrArg some (Prod.ext this.1 rfl), this.2⟩
  · left
    rw [List.getElem?_eq_none (by omega), List.getElem?_eq_none (by rw [← h.images.length_eq]; omega)]
    exact ⟨rfl, rfl⟩

theorem Alike.withImage {T T' : Tractor R M} (h : Alike T T') (i : Nat) {im im' : Image R} (hi : AlikeIm im im') :
    Alike (withImage T i im) (withImage T' i im') := by
  refine ⟨h.it, h.ct, h.mm, h.em, h.catalog, ?_⟩
  unfold Engine.withImage
  dsimp only
  have := h.images
  generalize T.images = l at this
  generalize T'.images = l' at this
  induction this generalizing i with
  | nil => cases i <;> exact .nil
  | cons a b ih =>
    cases i with
    | zero => exact .cons ⟨a.1, hi⟩ b
    | succ i => exact .cons a (ih i)

theorem AlikeIm.withPar {im im' : Image R} (h : AlikeIm im im') (p : Subs R) : AlikeIm { im with par := p } { im' with par := p } :=
  ⟨h.id, rfl, h.h, h.w, h.inverr, h.px⟩

theorem alike_imagesFrom {l l' : List (Bool × Image R)} (h : List.Forall₂ (fun x x' : Bool × Image R => x'.1 = x.1 ∧ AlikeIm x.2 x'.2) l l') :
    ∀ t : Subs R, List.Forall₂ (fun x x' : Bool × Image R => x'.1 = x.1 ∧ AlikeIm x.2 x'.2) (imagesFrom l t) (imagesFrom l' t) := by
  induction h with
  | nil => intro t; exact .nil
  | @cons a b l l' h1 h2 ih =>
    intro t
    obtain ⟨c, i⟩ := a
    obtain ⟨c', i'⟩ := b
    match t with
    | .cons _ _ (.multi s) rest => exact .cons ⟨h1.1, h1.2.withPar s⟩ (ih rest)
    | .cons _ _ (.scalar _) _ => exact .cons h1 h2
    | .cons _ _ (.plist _) _ => exact .cons h1 h2
    | .nil => exact .cons h1 h2
    | .missing _ _ _ => exact .cons h1 h2

theorem Alike.withPar {T T' : Tractor R M} (h : Alike T T') (t : Par R) : Alike (withPar T t) (withPar T' t) := by
  unfold Fit.withPar
  split
  · exact ⟨h.it, h.ct, h.mm, h.em, by dsimp only; rw [h.catalog], alike_imagesFrom h.images _⟩
  · exact h

end

section
variable [Field R] [LinearOrder R]

theorem Alike.model {W : World R M} {hooks : Tractor R M → Nat → Nat → Option (List (Deriv R))} (hW : Blind W hooks) {T T' : Tractor R M} (h : Alike T T')
    {im im' : Image R} (hi : AlikeIm im im') : getModelImage W T' im' none true = getModelImage W T im none true := by
  have hp : ∀ src, getModelPatch W T' im' src = getModelPatch W T im src := by
    intro src
    unfold getModelPatch
    rw [h.mask hi, h.em]
    simp only [hW.render im im' hi]
  have ha : ∀ srcs mod, addSources W T' im' srcs mod = addSources W T im srcs mod := by
    intro srcs
    induction srcs with
    | nil => intro mod; rfl
    | cons s srcs ih =>
      intro mod
      cases s with
      | none => exact ih mod
      | some s => simp only [addSources, hp, ih]
  simp only [getModelImage, ha, h.catalog, hi.h, hi.w, hW.sky im im' hi]

/-- The same array, as far as it goes. -/
structure SameArr (A A' : Arr R) : Prop where
  h : A'.h = A.h
  w : A'.w = A.w
  px : ∀ r c, r < A.h → c < A.w → A'.px r c = A.px r c

omit [Field R] [LinearOrder R] in
theorem SameArr.ravel {A A' : Arr R} (h : SameArr A A') : A'.ravel = A.ravel := by
  unfold Arr.ravel
  rw [h.h, h.w]
  exact List.flatMap_congr (fun r hr => List.map_congr_left (fun c hc => h.px r c (List.mem_range.1 hr) (List.mem_range.1 hc)))

omit [Field R] [LinearOrder R] in
theorem axis_le (n : Nat) (a b : Option Int) : (Arr.axis n a b).1 + (Arr.axis n a b).2 ≤ n ∨ (Arr.axis n a b).2 = 0 := by
  have hb : ∀ i, Arr.bound n i ≤ n := by
    intro i
    unfold Arr.bound
    split <;> omega
  have hj : (b.map (Arr.bound n)).getD n ≤ n := by
    cases b with
    | none => exact Nat.le_refl n
    | some i => exact hb i
  unfold Arr.axis
  dsimp only
  omega

omit [Field R] [LinearOrder R] in
theorem SameArr.slice {A A' : Arr R} (h : SameArr A A') (a b c d : Option Int) : SameArr (A.slice a b c d) (A'.slice a b c d) := by
  unfold Arr.slice
  rw [h.h, h.w]
  refine ⟨rfl, rfl, fun y x hy hx => ?_⟩
  have h1 := axis_le A.h a b
  have h2 := axis_le A.w c d
  dsimp only at hy hx ⊢
  exact h.px _ _ (by omega) (by omega)

/-- The residuals of the two. -/
theorem Alike.chi {W : World R M} {hooks : Tractor R M → Nat → Nat → Option (List (Deriv R))} (hW : Blind W hooks) {T T' : Tractor R M} (h : Alike T T')
    {im im' : Image R} (hi : AlikeIm im im') :
    (∃ e, getChiImage W T im none = .error e ∧ getChiImage W T' im' none = .error e) ∨
      ∃ A A', getChiImage W T im none = .ok A ∧ getChiImage W T' im' none = .ok A' ∧ SameArr A A' := by
  unfold getChiImage
  rw [h.model hW hi]
  cases getModelImage W T im none true with
  | error e => exact .inl ⟨e, rfl, rfl⟩
  | ok mod =>
    dsimp only
    unfold chiArr
    rw [hi.h, hi.w, hi.inverr]
    by_cases hs : im.data.h = mod.h ∧ im.data.w = mod.w ∧ im.data.h = im.inverr.h ∧ im.data.w = im.inverr.w
    · rw [if_pos hs, if_pos hs]
      refine .inr ⟨_, _, rfl, rfl, rfl, rfl, fun r c hr hc => ?_⟩
      dsimp only
      by_cases h0 : im.inverr.px r c = 0
      · rw [h0, mul_zero, mul_zero]
      · rw [hi.px r c hr hc h0]
    · rw [if_neg hs, if_neg hs]
      exact .inl ⟨_, rfl, rfl⟩

/-! ### Derivatives -/

theorem alike_imageLoop {W : World R M} {hooks : Tractor R M → Nat → Nat → Option (List (Deriv R))} (hW : Blind W hooks) (i : Nat) (p0 steps : List R)
    (mod0 : Except PyErr (Arr R)) : ∀ (ds : List (Deriv R)) (di : Nat) (T T' : Tractor R M) (im im' : Image R), Alike T T' → AlikeIm im im' →
      Alike (imageLoop (fun T img => getModelImage W T img none true) i p0 steps mod0 di ds T im).1
        (imageLoop (fun T img => getModelImage W T img none true) i p0 steps mod0 di ds T' im').1 ∧
      (imageLoop (fun T img => getModelImage W T img none true) i p0 steps mod0 di ds T' im').2.2 =
        (imageLoop (fun T img => getModelImage W T img none true) i p0 steps mod0 di ds T im).2.2 := by
  intro ds
  induction ds with
  | nil => intro di T T' im im' hT _; exact ⟨hT, rfl⟩
  | cons d ds ih =>
    intro di T T' im im' hT hi
    -- the rest of the loop
    have rest : ∀ (q : Option (Patch R)) (U U' : Tractor R M) (im1 im1' : Image R), Alike U U' → AlikeIm im1 im1' →
        Alike (match imageLoop (fun T img => getModelImage W T img none true) i p0 steps mod0 (di + 1) ds U im1 with
          | (T'', img'', .error e) => (T'', img'', .error e)
          | (T'', img'', .ok rest) => (T'', img'', .ok ([(q, i)] :: rest)) : Tractor R M × Image R × Except PyErr (List (List (DerivEntry R)))).1
          (match imageLoop (fun T img => getModelImage W T img none true) i p0 steps mod0 (di + 1) ds U' im1' with
          | (T'', img'', .error e) => (T'', img'', .error e)
          | (T'', img'', .ok rest) => (T'', img'', .ok ([(q, i)] :: rest)) : Tractor R M × Image R × Except PyErr (List (List (DerivEntry R)))).1 ∧
        (match imageLoop (fun T img => getModelImage W T img none true) i p0 steps mod0 (di + 1) ds U' im1' with
          | (T'', img'', .error e) => (T'', img'', .error e)
          | (T'', img'', .ok rest) => (T'', img'', .ok ([(q, i)] :: rest)) : Tractor R M × Image R × Except PyErr (List (List (DerivEntry R)))).2.2 =
        (match imageLoop (fun T img => getModelImage W T img none true) i p0 steps mod0 (di + 1) ds U im1 with
          | (T'', img'', .error e) => (T'', img'', .error e)
          | (T'', img'', .ok rest) => (T'', img'', .ok ([(q, i)] :: rest)) : Tractor R M × Image R × Except PyErr (List (List (DerivEntry R)))).2.2 := by
      intro q U U' im1 im1' hU h1
      obtain ⟨a, b⟩ := ih (di + 1) U U' im1 im1' hU h1
      generalize imageLoop (fun T img => getModelImage W T img none true) i p0 steps mod0 (di + 1) ds U im1 = r at a b
      generalize imageLoop (fun T img => getModelImage W T img none true) i p0 steps mod0 (di + 1) ds U' im1' = r' at a b
      obtain ⟨r1, r2, r3⟩ := r
      obtain ⟨r1', r2', r3'⟩ := r'
      dsimp only at a b
      subst b
      cases r3' with
      | error e => exact ⟨a, rfl⟩
      | ok l => exact ⟨a, rfl⟩
    cases d with
    | patch p => exact rest (some p) T T' im im' hT hi
    | none => exact rest none T T' im im' hT hi
    | false =>
      unfold imageLoop
      dsimp only
      cases mod0 with
      | error e => exact ⟨hT, rfl⟩
      | ok m0 =>
        cases hp : p0[di]? with
        | none => exact ⟨hT, rfl⟩
        | some p =>
          cases hst : steps[di]? with
          | none => exact ⟨hT, rfl⟩
          | some h =>
            dsimp only
            rw [hi.par]
            rcases hset : setParamSubs im.par di (p + h) with ⟨par1, res⟩
            have h1 := hi.withPar par1
            have hT1 := hT.withImage i h1
            cases res with
            | error e => exact ⟨hT1, rfl⟩
            | ok oldval =>
              dsimp only
              rw [hT1.model hW h1]
              cases getModelImage W (Engine.withImage T i { im with par := par1 }) { im with par := par1 } none true with
              | error e => exact ⟨hT1, rfl⟩
              | ok m1 =>
                dsimp only
                rcases setParamSubs par1 di oldval with ⟨par2, res2⟩
                have h2 := hi.withPar par2
                have hT2 := hT1.withImage i h2
                cases res2 with
                | error e => exact ⟨hT2, rfl⟩
                | ok v =>
                  dsimp only
                  by_cases hs : m1.h = m0.h ∧ m1.w = m0.w
                  · rw [if_pos hs]
                    exact rest _ _ _ _ _ hT2 h2
                  · rw [if_neg hs]
                    exact ⟨hT2, rfl⟩

theorem alike_imagesLoop {W : World R M} {hooks : Tractor R M → Nat → Nat → Option (List (Deriv R))} (hW : Blind W hooks)
    (hk : Nat → Nat → Option (List (Deriv R))) : ∀ (is : List Nat) (T T' : Tractor R M), Alike T T' →
      Alike (imagesLoop (fun T img => getModelImage W T img none true) hk is T).1 (imagesLoop (fun T img => getModelImage W T img none true) hk is T').1 ∧
      (imagesLoop (fun T img => getModelImage W T img none true) hk is T').2 = (imagesLoop (fun T img => getModelImage W T img none true) hk is T).2 := by
  intro is
  induction is with
  | nil => intro T T' hT; exact ⟨hT, rfl⟩
  | cons i is ih =>
    intro T T' hT
    unfold imagesLoop
    rcases hT.get i with ⟨h1, h2⟩ | ⟨b, im, im', h1, h2, hi⟩
    · rw [h1, h2]
      exact ⟨hT, rfl⟩
    · rw [h1, h2]
      dsimp only
      rw [hi.par]
      cases imageDerivs (hk i) 0 im.par with
      | error e => exact ⟨hT, rfl⟩
      | ok ds =>
        dsimp only
        rw [hT.model hW hi]
        obtain ⟨a, c⟩ := alike_imageLoop hW i (getParamsSubs im.par) (getStepSizesSubs im.par) (getModelImage W T im none true) ds 0 T T' im im' hT hi
        generalize imageLoop (fun T img => getModelImage W T img none true) i (getParamsSubs im.par) (getStepSizesSubs im.par)
          (getModelImage W T im none true) 0 ds T im = r at a c
        generalize imageLoop (fun T img => getModelImage W T img none true) i (getParamsSubs im.par) (getStepSizesSubs im.par)
          (getModelImage W T im none true) 0 ds T' im' = r' at a c
        obtain ⟨r1, r2, r3⟩ := r
        obtain ⟨r1', r2', r3'⟩ := r'
        dsimp only at a c
        subst c
        cases r3' with
        | error e => exact ⟨a, rfl⟩
        | ok l =>
          dsimp only
          obtain ⟨a', c'⟩ := ih r1 r1' a
          generalize imagesLoop (fun T img => getModelImage W T img none true) hk is r1 = q at a' c'
          generalize imagesLoop (fun T img => getModelImage W T img none true) hk is r1' = q' at a' c'
          obtain ⟨q1, q2⟩ := q
          obtain ⟨q1', q2'⟩ := q'
          dsimp only at a' c'
          subst c'
          cases q2' with
          | error e => exact ⟨a', rfl⟩
          | ok l => exact ⟨a', rfl⟩

omit [LinearOrder R] in
theorem alike_sourceDerivs {W : World R M} {hooks : Tractor R M → Nat → Nat → Option (List (Deriv R))} (hW : Blind W hooks) {T T' : Tractor R M}
    (h : Alike T T') {im im' : Image R} (hi : AlikeIm im im') (s : Source R) : sourceDerivs W T' s im' = sourceDerivs W T s im := by
  unfold sourceDerivs
  rw [h.mask hi, h.em]
  simp only [hW.derivs im im' hi]

theorem alike_sourceLoop {W : World R M} {hooks : Tractor R M → Nat → Nat → Option (List (Deriv R))} (hW : Blind W hooks) {T T' : Tractor R M}
    (h : Alike T T') (s : Source R) (l l' : List (Bool × Image R)) (hl : List.Forall₂ (fun x x' : Bool × Image R => x'.1 = x.1 ∧ AlikeIm x.2 x'.2) l l') :
    ∀ i acc, sourceLoop W T' s i l' acc = sourceLoop W T s i l acc := by
  induction hl with
  | nil => intro i acc; rfl
  | @cons a b l l' h1 _ ih =>
    intro i acc
    obtain ⟨c, im⟩ := a
    obtain ⟨c', im'⟩ := b
    simp only [sourceLoop, alike_sourceDerivs hW h h1.2, ih]

theorem alike_sourcesLoop {W : World R M} {hooks : Tractor R M → Nat → Nat → Option (List (Deriv R))} (hW : Blind W hooks) {T T' : Tractor R M}
    (h : Alike T T') : ∀ l, sourcesLoop W T' l = sourcesLoop W T l := by
  intro l
  induction l with
  | nil => rfl
  | cons s l ih => simp only [sourcesLoop, alike_sourceLoop hW h s _ _ h.images, ih]

theorem alike_getDerivs {W : World R M} {hooks : Tractor R M → Nat → Nat → Option (List (Deriv R))} (hW : Blind W hooks) {T T' : Tractor R M}
    (h : Alike T T') (hk : Nat → Nat → Option (List (Deriv R))) :
    Alike (getDerivs W (fun T img => getModelImage W T img none true) hk T).1 (getDerivs W (fun T img => getModelImage W T img none true) hk T').1 ∧
      (getDerivs W (fun T img => getModelImage W T img none true) hk T').2 = (getDerivs W (fun T img => getModelImage W T img none true) hk T).2 := by
  unfold getDerivs
  dsimp only
  rw [h.it, h.ct, h.thawed, show thawedSources T' = thawedSources T by unfold thawedSources; rw [h.catalog]]
  obtain ⟨a, c⟩ : Alike (if T.imagesThawed then imagesLoop (fun T img => getModelImage W T img none true) hk (Engine.thawedIndices 0 (T.images.map (fun x => x.1))) T
        else (T, .ok [])).1
      (if T.imagesThawed then imagesLoop (fun T img => getModelImage W T img none true) hk (Engine.thawedIndices 0 (T.images.map (fun x => x.1))) T' else (T', .ok [])).1 ∧
      (if T.imagesThawed then imagesLoop (fun T img => getModelImage W T img none true) hk (Engine.thawedIndices 0 (T.images.map (fun x => x.1))) T' else (T', .ok [])).2 =
      (if T.imagesThawed then imagesLoop (fun T img => getModelImage W T img none true) hk (Engine.thawedIndices 0 (T.images.map (fun x => x.1))) T else (T, .ok [])).2 := by
    cases T.imagesThawed with
    | false => exact ⟨h, rfl⟩
    | true => exact alike_imagesLoop hW hk _ T T' h
  generalize (if T.imagesThawed then imagesLoop (fun T img => getModelImage W T img none true) hk (Engine.thawedIndices 0 (T.images.map (fun x => x.1))) T
        else (T, .ok [])) = r at a c
  generalize (if T.imagesThawed then imagesLoop (fun T img => getModelImage W T img none true) hk (Engine.thawedIndices 0 (T.images.map (fun x => x.1))) T'
        else (T', .ok [])) = r' at a c
  obtain ⟨r1, r2⟩ := r
  obtain ⟨r1', r2'⟩ := r'
  dsimp only at a c
  subst c
  cases r2' with
  | error e => exact ⟨a, rfl⟩
  | ok l =>
    dsimp only
    rw [alike_sourcesLoop hW a, a.par]
    cases sourcesLoop W r1 (if T.catalogThawed then thawedSources T else []) with
    | error e => exact ⟨a, rfl⟩
    | ok l' =>
      dsimp only
      split
      · exact ⟨a, rfl⟩
      · exact ⟨a, rfl⟩

/-! ### The linear problem -/

/-- What is used of the image of a linear problem is the same. -/
structure SameIm (x x' : Lsq.Img R) : Prop where
  h : x'.h = x.h
  w : x'.w = x.w
  inverr : x'.inverr = x.inverr
  chi : SameArr x.chi x'.chi

theorem alike_lsqList {W : World R M} {hooks : Tractor R M → Nat → Nat → Option (List (Deriv R))} (hW : Blind W hooks) {T T' : Tractor R M}
    (h : Alike T T') (l l' : List (Bool × Image R)) (hl : List.Forall₂ (fun x x' : Bool × Image R => x'.1 = x.1 ∧ AlikeIm x.2 x'.2) l l') :
    (∃ e, lsqList W T l = .error e ∧ lsqList W T' l' = .error e) ∨
      ∃ x x', lsqList W T l = .ok x ∧ lsqList W T' l' = .ok x' ∧ List.Forall₂ SameIm x x' := by
  induction hl with
  | nil => exact .inr ⟨[], [], rfl, rfl, .nil⟩
  | @cons a b l l' h1 _ ih =>
    obtain ⟨c, im⟩ := a
    obtain ⟨c', im'⟩ := b
    unfold lsqList
    rcases h.chi hW h1.2 with ⟨e, e1, e2⟩ | ⟨A, A', e1, e2, e3⟩
    · dsimp only at e1 e2
      rw [e1, e2]
      exact .inl ⟨e, rfl, rfl⟩
    · dsimp only at e1 e2
      rw [e1, e2]
      dsimp only
      rcases ih with ⟨e, f1, f2⟩ | ⟨x, x', f1, f2, f3⟩
      · rw [f1, f2]
        exact .inl ⟨e, rfl, rfl⟩
      · rw [f1, f2]
        exact .inr ⟨_, _, rfl, rfl, .cons ⟨h1.2.h, h1.2.w, h1.2.inverr, e3⟩ f3⟩

omit [LinearOrder R] in
theorem sameIm_imgs {l l' : List (Lsq.Img R)} (h : List.Forall₂ SameIm l l') (i : Nat) : SameIm (lsqImgs l i) (lsqImgs l' i) := by
  unfold lsqImgs
  induction h generalizing i with
  | nil => exact ⟨rfl, rfl, rfl, rfl, rfl, fun _ _ _ _ => rfl⟩
  | cons a _ ih =>
    cases i with
    | zero => exact a
    | succ i => exact ih i

theorem same_derivBlock {x x' : Lsq.Img R} (h : SameIm x x') (row0 col : Nat) (d : Patch R) : Lsq.derivBlock x' row0 col d = Lsq.derivBlock x row0 col d := by
  obtain ⟨a, b, c, e⟩ := x
  obtain ⟨a', b', c', e'⟩ := x'
  obtain ⟨h1, h2, h3, -⟩ := h
  dsimp only at h1 h2 h3
  subst h1 h2 h3
  rfl

theorem same_blocks {f f' : Nat → Lsq.Img R} (h : ∀ i, SameIm (f i) (f' i)) (offs : List (Nat × Nat)) :
    ∀ (ds : Lsq.Derivs R) (col : Nat), Lsq.allBlocks f' offs col ds = Lsq.allBlocks f offs col ds := by
  have hp : ∀ (l : List (Patch R × Nat)) (col : Nat), Lsq.paramBlocks f' offs col l = Lsq.paramBlocks f offs col l := by
    intro l
    induction l with
    | nil => intro col; rfl
    | cons x l ih =>
      intro col
      obtain ⟨d, i⟩ := x
      simp only [Lsq.paramBlocks, same_derivBlock (h i), ih]
  intro ds
  induction ds with
  | nil => intro col; rfl
  | cons x ds ih => intro col; simp only [Lsq.allBlocks, hp, ih]

theorem same_assemble {f f' : Nat → Lsq.Img R} (h : ∀ i, SameIm (f i) (f' i)) (ds : Lsq.Derivs R) (pr : Option (PriorDerivs R)) :
    Lsq.assemble f' ds pr = Lsq.assemble f ds pr := by
  have hn : (fun i => (f' i).npix) = fun i => (f i).npix := by
    funext i
    unfold Lsq.Img.npix
    rw [(h i).h, (h i).w]
  unfold Lsq.assemble
  simp only [hn, same_blocks h]

omit [LinearOrder R] in
theorem same_fill {f f' : Nat → Lsq.Img R} (h : ∀ i, SameIm (f i) (f' i)) : ∀ (offs : List (Nat × Nat)) (B : Nat → R),
    Lsq.fillChi f' offs B = Lsq.fillChi f offs B := by
  intro offs
  induction offs with
  | nil => intro B; rfl
  | cons e offs ih =>
    intro B
    unfold Lsq.fillChi
    rw [ih]
    congr 1
    funext r
    rw [(h e.1).chi.ravel]
    unfold Lsq.Img.npix
    rw [(h e.1).h, (h e.1).w]

theorem same_direction {f f' : Nat → Lsq.Img R} (h : ∀ i, SameIm (f i) (f' i)) (sqrt : R → R) (tiny : R) (lsqr : Lsq.Problem R → List R)
    (ds : Lsq.Derivs R) (pr : Option (PriorDerivs R)) (sc : Bool) (map : Option (List Nat)) :
    Lsq.getUpdateDirection sqrt tiny lsqr f' ds pr sc map = Lsq.getUpdateDirection sqrt tiny lsqr f ds pr sc map := by
  unfold Lsq.getUpdateDirection Lsq.rhsVector
  simp only [same_assemble h, same_fill h]

theorem same_variance {f f' : Nat → Lsq.Img R} (h : ∀ i, SameIm (f i) (f' i)) (ds : Lsq.Derivs R) (pr : Option (PriorDerivs R))
    (map : Option (List Nat)) : Lsq.updateVariance f' ds pr map = Lsq.updateVariance f ds pr map := by
  unfold Lsq.updateVariance
  rw [same_assemble h]

theorem alike_inputs {W : World R M} {hooks : Tractor R M → Nat → Nat → Option (List (Deriv R))} (hW : Blind W hooks) {T T' : Tractor R M}
    (h : Alike T T') (o : Opts) (out : List (List (DerivEntry R))) :
    (∃ e, inputs W o T out = .error e ∧ inputs W o T' out = .error e) ∨
      ∃ l l' ds pr, inputs W o T out = .ok (l, ds, pr) ∧ inputs W o T' out = .ok (l', ds, pr) ∧ ∀ i, SameIm (lsqImgs l i) (lsqImgs l' i) := by
  unfold inputs
  rw [h.par]
  cases derivsOf out with
  | error e => exact .inl ⟨e, rfl, rfl⟩
  | ok ds =>
    dsimp only
    cases (if o.priors then getLogPriorDerivatives T.par else .ok none) with
    | error e => exact .inl ⟨e, rfl, rfl⟩
    | ok pr =>
      dsimp only
      rcases alike_lsqList hW h _ _ h.images with ⟨e, e1, e2⟩ | ⟨x, x', e1, e2, e3⟩
      · rw [e1, e2]; exact .inl ⟨e, rfl, rfl⟩
      · rw [e1, e2]; exact .inr ⟨x, x', ds, pr, rfl, rfl, sameIm_imgs e3⟩

theorem alike_direction {W : World R M} {hooks : Tractor R M → Nat → Nat → Option (List (Deriv R))} (hW : Blind W hooks) {T T' : Tractor R M}
    (h : Alike T T') (S : Solver R) (o : Opts) :
    Alike (direction S W hooks o T).1 (direction S W hooks o T').1 ∧ (direction S W hooks o T').2 = (direction S W hooks o T).2 := by
  unfold direction
  rw [hW.hooks T T' h]
  obtain ⟨a, c⟩ := alike_getDerivs hW h (hooks T)
  generalize getDerivs W (fun T img => getModelImage W T img none true) (hooks T) T = r at a c
  generalize getDerivs W (fun T img => getModelImage W T img none true) (hooks T) T' = r' at a c
  obtain ⟨r1, r2⟩ := r
  obtain ⟨r1', r2'⟩ := r'
  dsimp only at a c
  subst c
  cases r2' with
  | error e => exact ⟨a, rfl⟩
  | ok out =>
    dsimp only
    rcases alike_inputs hW a o out with ⟨e, e1, e2⟩ | ⟨l, l', ds, pr, e1, e2, e3⟩
    · rw [e1, e2]; exact ⟨a, rfl⟩
    · rw [e1, e2]
      dsimp only
      rw [same_direction e3, a.par]
      exact ⟨a, rfl⟩

/-! ### Log-probability and the line search -/

theorem alike_chisqLoop {W : World R M} {hooks : Tractor R M → Nat → Nat → Option (List (Deriv R))} (hW : Blind W hooks) {T T' : Tractor R M}
    (h : Alike T T') (l l' : List (Bool × Image R)) (hl : List.Forall₂ (fun x x' : Bool × Image R => x'.1 = x.1 ∧ AlikeIm x.2 x'.2) l l') :
    ∀ acc, chisqLoop W T' (l'.map (·.2)) acc = chisqLoop W T (l.map (·.2)) acc := by
  induction hl with
  | nil => intro acc; rfl
  | @cons a b l l' h1 _ ih =>
    intro acc
    simp only [List.map_cons, chisqLoop]
    rcases h.chi hW h1.2 with ⟨e, e1, e2⟩ | ⟨A, A', e1, e2, e3⟩
    · rw [e1, e2]
    · rw [e1, e2]
      dsimp only
      rw [e3.ravel, ih]

theorem alike_logLike {W : World R M} {hooks : Tractor R M → Nat → Nat → Option (List (Deriv R))} (hW : Blind W hooks) {T T' : Tractor R M}
    (h : Alike T T') : getLogLikelihood W T' = getLogLikelihood W T := by
  unfold getLogLikelihood
  rw [alike_chisqLoop hW h _ _ h.images]

theorem alike_logProb {W : World R M} {hooks : Tractor R M → Nat → Nat → Option (List (Deriv R))} (hW : Blind W hooks) {T T' : Tractor R M}
    (h : Alike T T') : logProb W T' = logProb W T := by
  unfold logProb
  rw [h.par, alike_logLike hW h]

theorem alike_lnp {W : World R M} {hooks : Tractor R M → Nat → Nat → Option (List (Deriv R))} (hW : Blind W hooks) {T T' : Tractor R M}
    (h : Alike T T') : lnp W T' = lnp W T := by
  funext t
  unfold lnp
  rw [alike_logProb hW (h.withPar t)]

/-- A line search that depends on the log-probability only leaves them alike. -/
theorem alike_optimize {W : World R M} {hooks : Tractor R M → Nat → Nat → Option (List (Deriv R))} (hW : Blind W hooks) {T T' : Tractor R M}
    (h : Alike T T') (S : Solver R) (o : Opts) (alphas : List R) :
    Alike (optimize S W hooks o alphas T).1 (optimize S W hooks o alphas T').1 ∧
      (optimize S W hooks o alphas T').2 = (optimize S W hooks o alphas T).2 := by
  unfold optimize
  obtain ⟨a, c⟩ := alike_direction hW h S o
  generalize direction S W hooks o T = r at a c
  generalize direction S W hooks o T' = r' at a c
  obtain ⟨r1, r2⟩ := r
  obtain ⟨r1', r2'⟩ := r'
  dsimp only at a c
  subst c
  match r2' with
  | .error e => exact ⟨a, rfl⟩
  | .ok none => exact ⟨a, rfl⟩
  | .ok (some []) => exact ⟨a, rfl⟩
  | .ok (some (x :: X)) =>
    dsimp only
    rw [alike_lnp hW a, a.par]
    exact ⟨a.withPar _, rfl⟩

theorem alike_loopFrom {W : World R M} {hooks : Tractor R M → Nat → Nat → Option (List (Deriv R))} (hW : Blind W hooks)
    (S : Solver R) (o : Opts) (alphas : List R) (dchisq : R) : ∀ (n step : Nat) (T T' : Tractor R M), Alike T T' →
    Alike (loopFrom S W hooks o alphas dchisq n step T).1 (loopFrom S W hooks o alphas dchisq n step T').1 ∧
      (loopFrom S W hooks o alphas dchisq n step T').2 = (loopFrom S W hooks o alphas dchisq n step T).2 := by
  intro n
  induction n with
  | zero =>
    intro step T T' h
    unfold loopFrom
    obtain ⟨a, c⟩ := alike_optimize hW h S o alphas
    generalize optimize S W hooks o alphas T = r at a c
    generalize optimize S W hooks o alphas T' = r' at a c
    obtain ⟨r1, r2⟩ := r
    obtain ⟨r1', r2'⟩ := r'
    dsimp only at a c
    subst c
    match r2' with
    | .error e => exact ⟨a, rfl⟩
    | .ok (d, al) =>
      dsimp only
      split <;> exact ⟨a, rfl⟩
  | succ n ih =>
    intro step T T' h
    unfold loopFrom
    obtain ⟨a, c⟩ := alike_optimize hW h S o alphas
    generalize optimize S W hooks o alphas T = r at a c
    generalize optimize S W hooks o alphas T' = r' at a c
    obtain ⟨r1, r2⟩ := r
    obtain ⟨r1', r2'⟩ := r'
    dsimp only at a c
    subst c
    match r2' with
    | .error e => exact ⟨a, rfl⟩
    | .ok (d, al) =>
      dsimp only
      split
      · exact ⟨a, rfl⟩
      · exact ih (step + 1) r1 r1' a

theorem alike_optimizeVar {W : World R M} {hooks : Tractor R M → Nat → Nat → Option (List (Deriv R))} (hW : Blind W hooks) {T T' : Tractor R M}
    (h : Alike T T') (S : Solver R) (shared priors just : Bool) (alphas : List R) :
    Alike (optimizeVar S W hooks shared priors just alphas T).1 (optimizeVar S W hooks shared priors just alphas T').1 ∧
      (optimizeVar S W hooks shared priors just alphas T').2 = (optimizeVar S W hooks shared priors just alphas T).2 := by
  unfold optimizeVar
  rw [hW.hooks T T' h]
  obtain ⟨a, c⟩ := alike_getDerivs hW h (hooks T)
  generalize getDerivs W (fun T img => getModelImage W T img none true) (hooks T) T = r at a c
  generalize getDerivs W (fun T img => getModelImage W T img none true) (hooks T) T' = r' at a c
  obtain ⟨r1, r2⟩ := r
  obtain ⟨r1', r2'⟩ := r'
  dsimp only at a c
  subst c
  cases r2' with
  | error e => exact ⟨a, rfl⟩
  | ok out =>
    dsimp only
    rcases alike_inputs hW a ⟨true, shared, priors⟩ out with ⟨e, e1, e2⟩ | ⟨l, l', ds, pr, e1, e2, e3⟩
    · rw [e1, e2]; exact ⟨a, rfl⟩
    · rw [e1, e2]
      dsimp only
      rw [same_direction e3, same_variance e3, a.par, alike_lnp hW a]
      generalize Lsq.getUpdateDirection S.sqrt S.tiny S.lsqr (lsqImgs l) ds pr true (if shared then some (indexMap r1.par) else none) = g
      generalize Lsq.updateVariance (lsqImgs l) ds pr (if shared then some (indexMap r1.par) else none) = v
      match g with
      | .error e => exact ⟨a, rfl⟩
      | .ok none => exact ⟨a, rfl⟩
      | .ok (some X) =>
        match v with
        | .error e => exact ⟨a, rfl⟩
        | .ok none => exact ⟨a, rfl⟩
        | .ok (some var) =>
          dsimp only
          cases just with
          | true => exact ⟨a, rfl⟩
          | false =>
            cases X with
            | nil => exact ⟨a, rfl⟩
            | cons x X => exact ⟨a.withPar _, rfl⟩

/-! ### The constrained optimizers -/

theorem same_dense {f f' : Nat → Lsq.Img R} (h : ∀ i, SameIm (f i) (f' i)) (sqrt : R → R) (lstsq : Nat → Nat → Lsq.Dense R → (Nat → R) → List R)
    (ds : Lsq.Derivs R) (pr : Option (PriorDerivs R)) (sc : Bool) :
    Lsq.denseUpdateDirection sqrt lstsq f' ds pr sc = Lsq.denseUpdateDirection sqrt lstsq f ds pr sc := by
  have hn : (fun i => (f' i).npix) = fun i => (f i).npix := by
    funext i
    unfold Lsq.Img.npix
    rw [(h i).h, (h i).w]
  have hc : ∀ i d, Lsq.denseColumn (f' i) d = Lsq.denseColumn (f i) d := by
    intro i d
    unfold Lsq.denseColumn
    rw [(h i).h, (h i).w, (h i).inverr]
  have hp : ∀ offs col (l : List (Patch R × Nat)) A, Lsq.denseParam f' offs col l A = Lsq.denseParam f offs col l A := by
    intro offs col l
    induction l with
    | nil => intro A; rfl
    | cons x l ih =>
      intro A
      obtain ⟨d, i⟩ := x
      simp only [Lsq.denseParam, hc, ih]
  have ha : ∀ offs (ds : Lsq.Derivs R) col A, Lsq.denseAll f' offs col ds A = Lsq.denseAll f offs col ds A := by
    intro offs ds
    induction ds with
    | nil => intro col A; rfl
    | cons x ds ih => intro col A; simp only [Lsq.denseAll, hp, ih]
  unfold Lsq.denseUpdateDirection Lsq.denseProblem
  simp only [hn, ha, same_fill h]

theorem same_smart {f f' : Nat → Lsq.Img R} (h : ∀ i, SameIm (f i) (f' i)) (sqrt : R → R) (lstsq : Nat → Nat → Lsq.Dense R → (Nat → R) → List R)
    (ds : Lsq.Derivs R) (pr : Option (PriorDerivs R)) (sc : Bool) :
    Lsq.smartUpdateDirection sqrt lstsq f' ds pr sc = Lsq.smartUpdateDirection sqrt lstsq f ds pr sc := by
  have hcp : ∀ (l : List (Patch R × Nat)) b, Lsq.clipParam f' l b = Lsq.clipParam f l b := by
    intro l
    induction l with
    | nil => intro b; rfl
    | cons x l ih =>
      intro b
      obtain ⟨d, i⟩ := x
      simp only [Lsq.clipParam, (h i).h, (h i).w, ih]
  have hca : ∀ (ds : Lsq.Derivs R) b, Lsq.clipAll f' ds b = Lsq.clipAll f ds b := by
    intro ds
    induction ds with
    | nil => intro b; rfl
    | cons x ds ih => intro b; simp only [Lsq.clipAll, hcp, ih]
  have hsp : ∀ bo offs col (l : List (Patch R × Nat)) A, Lsq.smartParam f' bo offs col l A = Lsq.smartParam f bo offs col l A := by
    intro bo offs col l
    induction l with
    | nil => intro A; rfl
    | cons x l ih =>
      intro A
      obtain ⟨d, i⟩ := x
      simp only [Lsq.smartParam, (h i).inverr, ih]
  have hsa : ∀ bo offs (l : List (List (Patch R × Nat) × Bool)) col A, Lsq.smartAll f' bo offs col l A = Lsq.smartAll f bo offs col l A := by
    intro bo offs l
    induction l with
    | nil => intro col A; rfl
    | cons x l ih =>
      intro col A
      obtain ⟨d, i⟩ := x
      simp only [Lsq.smartAll, hsp, ih]
  have hch : ∀ bo (offs : List (Nat × Nat)) B, Lsq.smartChi f' bo offs B = Lsq.smartChi f bo offs B := by
    intro bo offs
    induction offs with
    | nil => intro B; rfl
    | cons e offs ih =>
      intro B
      have : ∀ b, (Lsq.cut (f' e.1).chi b).ravel = (Lsq.cut (f e.1).chi b).ravel := fun b => ((h e.1).chi.slice _ _ _ _).ravel
      simp only [Lsq.smartChi, this, ih]
  unfold Lsq.smartUpdateDirection Lsq.smartProblem
  simp only [hca, hsa, hch]

theorem alike_directionM {W : World R M} {hooks : Tractor R M → Nat → Nat → Option (List (Deriv R))} (hW : Blind W hooks) {T T' : Tractor R M}
    (h : Alike T T') (m : Cons.Method R) (o : Opts) :
    Alike (Cons.directionM m W hooks o T).1 (Cons.directionM m W hooks o T').1 ∧ (Cons.directionM m W hooks o T').2 = (Cons.directionM m W hooks o T).2 := by
  cases m with
  | sparse S => exact alike_direction hW h S o
  | dense sqrt lstsq =>
    unfold Cons.directionM Cons.denseDirection
    rw [hW.hooks T T' h]
    obtain ⟨a, c⟩ := alike_getDerivs hW h (hooks T)
    dsimp only
    generalize getDerivs W (fun T img => getModelImage W T img none true) (hooks T) T = r at a c
    generalize getDerivs W (fun T img => getModelImage W T img none true) (hooks T) T' = r' at a c
    obtain ⟨r1, r2⟩ := r
    obtain ⟨r1', r2'⟩ := r'
    dsimp only at a c
    subst c
    cases r2' with
    | error e => exact ⟨a, rfl⟩
    | ok out =>
      dsimp only
      cases o.shared with
      | true => exact ⟨a, rfl⟩
      | false =>
        rcases alike_inputs hW a o out with ⟨e, e1, e2⟩ | ⟨l, l', ds, pr, e1, e2, e3⟩
        · rw [e1, e2]; exact ⟨a, rfl⟩
        · rw [e1, e2]
          dsimp only
          rw [same_dense e3]
          exact ⟨a, rfl⟩
  | smarter sqrt lstsq =>
    unfold Cons.directionM Cons.smarterDirection
    rw [hW.hooks T T' h]
    obtain ⟨a, c⟩ := alike_getDerivs hW h (hooks T)
    dsimp only
    generalize getDerivs W (fun T img => getModelImage W T img none true) (hooks T) T = r at a c
    generalize getDerivs W (fun T img => getModelImage W T img none true) (hooks T) T' = r' at a c
    obtain ⟨r1, r2⟩ := r
    obtain ⟨r1', r2'⟩ := r'
    dsimp only at a c
    subst c
    cases r2' with
    | error e => exact ⟨a, rfl⟩
    | ok out =>
      dsimp only
      cases o.shared with
      | true => exact ⟨a, rfl⟩
      | false =>
        rcases alike_inputs hW a o out with ⟨e, e1, e2⟩ | ⟨l, l', ds, pr, e1, e2, e3⟩
        · rw [e1, e2]; exact ⟨a, rfl⟩
        · rw [e1, e2]
          dsimp only
          rw [same_smart e3]
          exact ⟨a, rfl⟩

theorem alike_optimizeC {W : World R M} {hooks : Tractor R M → Nat → Nat → Option (List (Deriv R))} (hW : Blind W hooks) {T T' : Tractor R M}
    (h : Alike T T') (m : Cons.Method R) (tiny : R) (o : Opts) (alphas : List R) (fl : Opt.OptFlags) :
    Alike (Cons.optimize m tiny W hooks o alphas fl T).1 (Cons.optimize m tiny W hooks o alphas fl T').1 ∧
      (Cons.optimize m tiny W hooks o alphas fl T').2 = (Cons.optimize m tiny W hooks o alphas fl T).2 := by
  unfold Cons.optimize
  obtain ⟨a, c⟩ := alike_directionM hW h m o
  generalize Cons.directionM m W hooks o T = r at a c
  generalize Cons.directionM m W hooks o T' = r' at a c
  obtain ⟨r1, r2⟩ := r
  obtain ⟨r1', r2'⟩ := r'
  dsimp only at a c
  subst c
  match r2' with
  | .error e => exact ⟨a, rfl⟩
  | .ok none => exact ⟨a, rfl⟩
  | .ok (some []) => exact ⟨a, rfl⟩
  | .ok (some (x :: X)) =>
    dsimp only
    rw [alike_lnp hW a, a.par]
    exact ⟨a.withPar _, rfl⟩

theorem alike_loopFromC {W : World R M} {hooks : Tractor R M → Nat → Nat → Option (List (Deriv R))} (hW : Blind W hooks)
    (m : Cons.Method R) (tiny : R) (o : Opts) (alphas : List R) (d1 d2 : R) : ∀ (n step : Nat) (fl : Opt.OptFlags) (T T' : Tractor R M), Alike T T' →
    Alike (Cons.loopFrom m tiny W hooks o alphas d1 d2 n step fl T).1 (Cons.loopFrom m tiny W hooks o alphas d1 d2 n step fl T').1 ∧
      (Cons.loopFrom m tiny W hooks o alphas d1 d2 n step fl T').2 = (Cons.loopFrom m tiny W hooks o alphas d1 d2 n step fl T).2 := by
  intro n
  induction n with
  | zero =>
    intro step fl T T' h
    unfold Cons.loopFrom
    obtain ⟨a, c⟩ := alike_optimizeC hW h m tiny o alphas { fl with stepLimited := false }
    generalize Cons.optimize m tiny W hooks o alphas { fl with stepLimited := false } T = r at a c
    generalize Cons.optimize m tiny W hooks o alphas { fl with stepLimited := false } T' = r' at a c
    obtain ⟨r1, r2⟩ := r
    obtain ⟨r1', r2'⟩ := r'
    dsimp only at a c
    subst c
    match r2' with
    | (fl', .error e) => exact ⟨a, rfl⟩
    | (fl', .ok (d, al)) =>
      dsimp only
      split
      · exact ⟨a, rfl⟩
      · split <;> exact ⟨a, rfl⟩
  | succ n ih =>
    intro step fl T T' h
    unfold Cons.loopFrom
    obtain ⟨a, c⟩ := alike_optimizeC hW h m tiny o alphas { fl with stepLimited := false }
    generalize Cons.optimize m tiny W hooks o alphas { fl with stepLimited := false } T = r at a c
    generalize Cons.optimize m tiny W hooks o alphas { fl with stepLimited := false } T' = r' at a c
    obtain ⟨r1, r2⟩ := r
    obtain ⟨r1', r2'⟩ := r'
    dsimp only at a c
    subst c
    match r2' with
    | (fl', .error e) => exact ⟨a, rfl⟩
    | (fl', .ok (d, al)) =>
      dsimp only
      split
      · exact ⟨a, rfl⟩
      · split
        · exact ⟨a, rfl⟩
        · exact ih (step + 1) fl' r1 r1' a

theorem alike_optimizeLoopC {W : World R M} {hooks : Tractor R M → Nat → Nat → Option (List (Deriv R))} (hW : Blind W hooks) {T T' : Tractor R M}
    (h : Alike T T') (m : Cons.Method R) (tiny : R) (o : Opts) (alphas : List R) (d1 d2 : R) (steps : Nat) (fl : Opt.OptFlags) :
    Alike (Cons.optimizeLoop m tiny W hooks o alphas d1 d2 steps fl T).1 (Cons.optimizeLoop m tiny W hooks o alphas d1 d2 steps fl T').1 ∧
      (Cons.optimizeLoop m tiny W hooks o alphas d1 d2 steps fl T').2 = (Cons.optimizeLoop m tiny W hooks o alphas d1 d2 steps fl T).2 := by
  unfold Cons.optimizeLoop
  match steps with
  | 0 => exact ⟨h, rfl⟩
  | n + 1 =>
    dsimp only
    obtain ⟨a, c⟩ := alike_loopFromC hW m tiny o alphas d1 d2 n 0 { fl with hitLimit := false, lastStepHitLimit := false } T T' h
    generalize Cons.loopFrom m tiny W hooks o alphas d1 d2 n 0 { fl with hitLimit := false, lastStepHitLimit := false } T = r at a c
    generalize Cons.loopFrom m tiny W hooks o alphas d1 d2 n 0 { fl with hitLimit := false, lastStepHitLimit := false } T' = r' at a c
    obtain ⟨r1, r2⟩ := r
    obtain ⟨r1', r2'⟩ := r'
    dsimp only at a c
    subst c
    match r2' with
    | (fl', .error e) => exact ⟨a, rfl⟩
    | (fl', .ok s) => exact ⟨a, rfl⟩

end

end Verif.Fit
