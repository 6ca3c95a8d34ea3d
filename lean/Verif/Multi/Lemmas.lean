import Verif.Multi.Model
import Verif.Engine.Lemmas2

/-! # Lemmas on derivatives with several processes -/

namespace Verif.Multi

open Verif Verif.Params Verif.Patches Verif.Engine

variable {R M : Type}

theorem pop_append {β : Type} (l : List β) (x : β) : pop (l ++ [x]) = .ok (x, l) := by simp [pop]

/-- A total loop. -/
theorem mapM_ok {β γ : Type} (l : List γ) (f : γ → Except PyErr β) (g : γ → β) (h : ∀ x ∈ l, f x = .ok (g x)) :
    l.mapM f = .ok (l.map g) := by
  induction l with
  | nil => rfl
  | cons x t ih =>
    rw [List.mapM_cons, h x (by simp), ih (fun y hy => h y (by simp [hy]))]
    rfl

/-- Entries are determined. -/
theorem localEntry_unique [Field R] (model : Tractor R M → Image R → Except PyErr (Arr R)) (T : Tractor R M) (img : Image R)
    (i j : Nat) (d : Deriv R) (e e' : Option (Patch R)) (h : LocalEntry model T img i j d e) (h' : LocalEntry model T img i j d e') :
    e = e' := by
  cases d with
  | patch p => exact h.trans h'.symm
  | none => exact h.trans h'.symm
  | false =>
    obtain ⟨p, s, m0, m1, a1, a2, a3, a4, rfl⟩ := h
    obtain ⟨p', s', m0', m1', b1, b2, b3, b4, rfl⟩ := h'
    rw [a1] at b1; injection b1 with b1; subst b1
    rw [a2] at b2; injection b2 with b2; subst b2
    rw [a3] at b3; injection b3 with b3; subst b3
    rw [a4] at b4; injection b4 with b4; subst b4
    rfl

theorem needed_lt (ds : List (Deriv R)) : ∀ k x, x ∈ needed k ds → k ≤ x ∧ x < k + ds.length := by
  induction ds with
  | nil => intro k x h; simp [needed] at h
  | cons d ds ih =>
    intro k x h
    have step : x ∈ needed (k + 1) ds → k ≤ x ∧ x < k + (d :: ds).length := by
      intro h; have := ih _ _ h; simp only [List.length_cons]; omega
    cases d with
    | patch p => exact step h
    | none => exact step h
    | false =>
      simp only [needed, List.mem_cons] at h
      rcases h with rfl | h
      · simp
      · exact step h

/-- One image: the stack holds the stepped models of the needed parameters in reverse, on top of the rest. -/
theorem mpImage_ok [Field R] (N : Names) (hN : N.patch = true) (j : Bool) (mod0s : List (Nat × Arr R))
    (model : Tractor R M → Image R → Except PyErr (Arr R)) (i : Nat) (T : Tractor R M) (img : Image R)
    (hsteps : (getStepSizesSubs img.par).length = numberOfParamsSubs img.par)
    (m0 : Arr R) (hm0 : model T img = .ok m0) (m1 : Nat → Arr R)
    (hm1 : ∀ (k : Nat) p h, (getParamsSubs img.par)[k]? = some p → (getStepSizesSubs img.par)[k]? = some h →
      model (withImage T i { img with par := (setParamSubs img.par k (p + h)).1 })
        { img with par := (setParamSubs img.par k (p + h)).1 } = .ok (m1 k) ∧ (m1 k).h = m0.h ∧ (m1 k).w = m0.w)
    (ds : List (Deriv R)) : ∀ (k : Nat) (rest : List (Arr R)), k + ds.length ≤ numberOfParamsSubs img.par →
      (needed k ds ≠ [] → j = true ∧ mod0s.lookup i = some m0) →
      ∃ out, mpImage N j mod0s i img k ds (rest ++ ((needed k ds).map m1).reverse) = .ok (out, rest) ∧ out.length = ds.length ∧
        ∀ (q : Nat) (d : Deriv R), ds[q]? = some d → ∃ e, out[q]? = some [(e, i)] ∧ LocalEntry model T img i (k + q) d e := by
  induction ds with
  | nil => intro k rest _ _; exact ⟨[], by simp [mpImage, needed], rfl, by simp⟩
  | cons d ds ih =>
    intro k rest hk hj
    simp only [List.length_cons] at hk
    have fin : ∀ (e : Option (Patch R)) (stack : List (Arr R)),
        mpEntry N j mod0s i img k d stack = .ok (e, rest ++ ((needed (k+1) ds).map m1).reverse) →
        (needed (k+1) ds ≠ [] → j = true ∧ mod0s.lookup i = some m0) → LocalEntry model T img i k d e →
        ∃ out, mpImage N j mod0s i img k (d :: ds) stack = .ok (out, rest) ∧ out.length = (d :: ds).length ∧
          ∀ (q : Nat) (d' : Deriv R), (d :: ds)[q]? = some d' → ∃ e, out[q]? = some [(e, i)] ∧
            LocalEntry model T img i (k + q) d' e := by
      intro e stack he hj' hl
      obtain ⟨out, h1, h2, h3⟩ := ih (k + 1) rest (by omega) hj'
      refine ⟨[(e, i)] :: out, by simp only [mpImage, he, h1], by simp [h2], fun q d' hq => ?_⟩
      cases q with
      | zero =>
        simp only [List.getElem?_cons_zero, Option.some.injEq] at hq
        subst hq
        exact ⟨e, by simp, hl⟩
      | succ q =>
        simp only [List.getElem?_cons_succ] at hq
        obtain ⟨e', h4, h5⟩ := h3 q d' hq
        exact ⟨e', by simpa using h4, by rw [show k + (q + 1) = k + 1 + q by omega]; exact h5⟩
    cases d with
    | patch p => exact fin (some p) _ rfl hj rfl
    | none => exact fin none _ rfl hj rfl
    | false =>
      obtain ⟨hj1, hj2⟩ := hj (by simp [needed])
      have hp : ∃ p, (getParamsSubs img.par)[k]? = some p :=
        ⟨_, List.getElem?_eq_getElem (by rw [getParamsSubs_length]; omega)⟩
      have hh : ∃ h, (getStepSizesSubs img.par)[k]? = some h := ⟨_, List.getElem?_eq_getElem (by rw [hsteps]; omega)⟩
      obtain ⟨p, hp⟩ := hp
      obtain ⟨h, hh⟩ := hh
      obtain ⟨g1, g2, g3⟩ := hm1 k p h hp hh
      refine fin _ _ ?_ (fun _ => ⟨hj1, hj2⟩) ⟨p, h, m0, m1 k, hp, hh, hm0, g1, rfl⟩
      have hst : rest ++ ((needed k (.false :: ds)).map m1).reverse =
          (rest ++ ((needed (k+1) ds).map m1).reverse) ++ [m1 k] := by simp [needed]
      rw [hst]
      simp only [mpEntry, hj2, hh, pop_append, hN, hj1, g2, g3]
      simp

theorem lookup_map_self (l : List Nat) (g : Nat → Arr R) (k : Nat) (h : k ∈ l) :
    (l.zip (l.map g)).lookup k = some (g k) := by
  induction l with
  | nil => simp at h
  | cons x t ih =>
    by_cases hk : k = x
    · subst hk; simp
    · have : (k == x) = false := by simpa using hk
      simp only [List.map_cons, List.zip_cons_cons, List.lookup, this]
      exact ih (by simpa [hk] using h)

theorem mem_thawedIndices (bs : List Bool) : ∀ k i, i ∈ Engine.thawedIndices k bs → k ≤ i ∧ bs[i - k]? = some true := by
  induction bs with
  | nil => intro k i h; simp [Engine.thawedIndices] at h
  | cons b bs ih =>
    intro k i h
    have step : i ∈ Engine.thawedIndices (k + 1) bs → k ≤ i ∧ (b :: bs)[i - k]? = some true := by
      intro h
      obtain ⟨h1, h2⟩ := ih _ _ h
      refine ⟨by omega, ?_⟩
      rw [show i - k = (i - (k + 1)) + 1 by omega]
      simpa using h2
    cases b with
    | false => exact step h
    | true =>
      simp only [Engine.thawedIndices, List.mem_cons] at h
      rcases h with rfl | h
      · simp
      · exact step h

/-- What the workers compute: the model of each image and the models with a stepped parameter. -/
structure Workers [Field R] (model : Tractor R M → Image R → Except PyErr (Arr R)) (T : Tractor R M) (m0 : Nat → Arr R)
    (m1 : Nat → Nat → Arr R) : Prop where
  base : ∀ i b img, T.images[i]? = some (b, img) → b = true → model T img = .ok (m0 i)
  step : ∀ i b img, T.images[i]? = some (b, img) → b = true → ∀ (k : Nat) p h, (getParamsSubs img.par)[k]? = some p →
    (getStepSizesSubs img.par)[k]? = some h →
      model (withImage T i { img with par := (setParamSubs img.par k (p + h)).1 })
        { img with par := (setParamSubs img.par k (p + h)).1 } = .ok (m1 i k) ∧ (m1 i k).h = (m0 i).h ∧ (m1 i k).w = (m0 i).w

theorem workers_exist [Field R] (model : Tractor R M → Image R → Except PyErr (Arr R))
    (hooks : Nat → Nat → Option (List (Deriv R))) (T : Tractor R M)
    (hok : ∀ (i : Nat) x, T.images[i]? = some x → x.1 = true → ImageOK model hooks T i x.2) :
    ∃ m0 m1, Workers model T m0 m1 := by
  let m0 : Nat → Arr R := fun i => ((T.images[i]?.map (fun x => model T x.2)).bind Except.toOption).getD ⟨0, 0, fun _ _ => 0⟩
  let m1 : Nat → Nat → Arr R := fun i k =>
    ((T.images[i]?.bind (fun x =>
      (getParamsSubs x.2.par)[k]?.bind (fun p => (getStepSizesSubs x.2.par)[k]?.map (fun h =>
        model (withImage T i { x.2 with par := (setParamSubs x.2.par k (p + h)).1 })
          { x.2 with par := (setParamSubs x.2.par k (p + h)).1 })))).bind Except.toOption).getD ⟨0, 0, fun _ _ => 0⟩
  have e0 : ∀ i b img, T.images[i]? = some (b, img) → b = true → model T img = .ok (m0 i) := by
    intro i b img hi hb
    obtain ⟨-, -, m, hm, -⟩ := hok i _ hi hb
    simp only at hm
    rw [hm]
    simp [m0, hi, hm, Except.toOption]
  refine ⟨m0, m1, e0, ?_⟩
  intro i b img hi hb k p h hp hh
  obtain ⟨-, -, m, hm, hst⟩ := hok i _ hi hb
  obtain ⟨m', h1, h2, h3⟩ := hst (setParamSubs img.par k (p + h)).1
  simp only at hm h1
  have em : m0 i = m := by
    have := e0 i b img hi hb
    rw [hm] at this
    injection this with this
    exact this.symm
  have e1 : m1 i k = m' := by
    simp only [m1, hi, Option.bind_some, hp, hh, Option.map_some, h1, Except.toOption, Option.getD_some]
  rw [e1, em]
  exact ⟨h1, h2, h3⟩

/-- All images: the serial loop and the unpacking of the workers' results agree. -/
theorem mpImages_ok [Field R] (N : Names) (hN : N.patch = true) (j : Bool) (mod0s : List (Nat × Arr R))
    (model : Tractor R M → Image R → Except PyErr (Arr R)) (hooks : Nat → Nat → Option (List (Deriv R))) (T : Tractor R M)
    (hok : ∀ (i : Nat) x, T.images[i]? = some x → x.1 = true → ImageOK model hooks T i x.2)
    (m0 : Nat → Arr R) (m1 : Nat → Nat → Arr R) (hw : Workers model T m0 m1) (idxs : List Nat)
    (hidx : ∀ i ∈ idxs, ∃ img, T.images[i]? = some (true, img)) :
    ∃ (xs : List (Nat × Image R × List (Deriv R))) (L : List (List (DerivEntry R))),
      idxs.mapM (imDerivs hooks T) = .ok xs ∧ imagesLoop model hooks idxs T = (T, .ok L) ∧
      (∀ x ∈ xs, T.images[x.1]? = some (true, x.2.1) ∧ x.2.2.length = numberOfParamsSubs x.2.1.par ∧
        (getStepSizesSubs x.2.1.par).length = numberOfParamsSubs x.2.1.par) ∧
      ∀ rest, (∀ x ∈ xs, needed 0 x.2.2 ≠ [] → j = true ∧ mod0s.lookup x.1 = some (m0 x.1)) →
        mpImages N j mod0s xs (rest ++ (xs.flatMap (fun x => (needed 0 x.2.2).map (m1 x.1))).reverse) = .ok (L, rest) := by
  induction idxs with
  | nil => exact ⟨[], [], rfl, rfl, by simp, fun rest _ => by simp [mpImages]⟩
  | cons i is ih =>
    obtain ⟨xs, L, h1, h2, h3, h4⟩ := ih (fun i hi => hidx i (by simp [hi]))
    obtain ⟨img, hi⟩ := hidx i (by simp)
    obtain ⟨g1, g2, g3⟩ := hok i _ hi rfl
    obtain ⟨ds, d1, d2, -⟩ := imageDerivs_ok (hooks i) img.par 0 g1
    obtain ⟨out, e1, e2, e3⟩ := imageLoop_ok model i true T img hi g2 g3 0 ds (by omega)
    refine ⟨(i, img, ds) :: xs, out ++ L, ?_, ?_, ?_, fun rest hr => ?_⟩
    · rw [List.mapM_cons]
      simp only [imDerivs, hi, d1, h1, Except.map]
      rfl
    · simp only [imagesLoop, hi, d1, e1, h2]
    · intro x hx
      rcases List.mem_cons.mp hx with rfl | hx
      · exact ⟨hi, d2, g2⟩
      · exact h3 x hx
    · obtain ⟨out', f1, f2, f3⟩ := mpImage_ok N hN j mod0s model i T img g2 (m0 i) (hw.base i _ _ hi rfl) (m1 i)
        (hw.step i _ _ hi rfl) ds 0 (rest ++ (xs.flatMap (fun x => (needed 0 x.2.2).map (m1 x.1))).reverse) (by omega)
        (fun hne => hr (i, img, ds) (by simp) hne)
      have heq : out' = out := by
        apply List.ext_getElem?
        intro q
        by_cases hq : q < ds.length
        · obtain ⟨e, a1, a2⟩ := f3 q _ (List.getElem?_eq_getElem hq)
          obtain ⟨e', b1, b2⟩ := e3 q _ (List.getElem?_eq_getElem hq)
          rw [a1, b1, localEntry_unique model T img i _ _ e e' a2 b2]
        · rw [List.getElem?_eq_none (by omega), List.getElem?_eq_none (by omega)]
      subst heq
      have hst : rest ++ (((i, img, ds) :: xs).flatMap (fun x => (needed 0 x.2.2).map (m1 x.1))).reverse =
          (rest ++ (xs.flatMap (fun x => (needed 0 x.2.2).map (m1 x.1))).reverse) ++ ((needed 0 ds).map (m1 i)).reverse := by
        simp
      rw [hst]
      simp only [mpImages, f1, h4 rest (fun x hx => hr x (by simp [hx]))]

/-- The stepped models in the order of the arguments. -/
theorem steps_ok [Field R] (model : Tractor R M → Image R → Except PyErr (Arr R)) (T : Tractor R M)
    (m0 : Nat → Arr R) (m1 : Nat → Nat → Arr R) (hw : Workers model T m0 m1) (xs : List (Nat × Image R × List (Deriv R)))
    (hxs : ∀ x ∈ xs, T.images[x.1]? = some (true, x.2.1) ∧ x.2.2.length = numberOfParamsSubs x.2.1.par ∧
        (getStepSizesSubs x.2.1.par).length = numberOfParamsSubs x.2.1.par) :
    ∃ args : List (List (Nat × Nat × R × R)), xs.mapM stepArgs = .ok args ∧
      (∀ a ∈ args.flatten, modelStep model T a = .ok (m1 a.1 a.2.1)) ∧
      args.flatten.map (fun a => m1 a.1 a.2.1) = xs.flatMap (fun x => (needed 0 x.2.2).map (m1 x.1)) := by
  induction xs with
  | nil => exact ⟨[], rfl, by simp, by simp⟩
  | cons x xs ih =>
    obtain ⟨args, h1, h2, h3⟩ := ih (fun y hy => hxs y (by simp [hy]))
    obtain ⟨a1, a2, a3⟩ := hxs x (by simp)
    have hval : ∀ k ∈ needed 0 x.2.2, ∃ p s, (getParamsSubs x.2.1.par)[k]? = some p ∧ (getStepSizesSubs x.2.1.par)[k]? = some s := by
      intro k hk
      have := needed_lt x.2.2 0 k hk
      exact ⟨_, _, List.getElem?_eq_getElem (by rw [getParamsSubs_length]; omega), List.getElem?_eq_getElem (by omega)⟩
    let g : Nat → Nat × Nat × R × R := fun k => (x.1, k, ((getParamsSubs x.2.1.par)[k]?).getD 0, ((getStepSizesSubs x.2.1.par)[k]?).getD 0)
    have hx : stepArgs x = .ok ((needed 0 x.2.2).map g) := by
      unfold stepArgs
      apply mapM_ok
      intro k hk
      obtain ⟨p, s, hp, hs⟩ := hval k hk
      simp [hp, hs, g]
    refine ⟨(needed 0 x.2.2).map g :: args, ?_, ?_, ?_⟩
    · rw [List.mapM_cons, hx, h1]; rfl
    · intro a ha
      rw [List.flatten_cons, List.mem_append] at ha
      rcases ha with ha | ha
      · obtain ⟨k, hk, rfl⟩ := List.mem_map.mp ha
        obtain ⟨p, s, hp, hs⟩ := hval k hk
        obtain ⟨w1, -, -⟩ := hw.step x.1 true x.2.1 a1 rfl k p s hp hs
        have hlt := needed_lt x.2.2 0 k hk
        obtain ⟨old, s1, s2, -, -⟩ := setParamSubs_ok x.2.1.par k (p + s) (by omega)
        have hset : setParamSubs x.2.1.par k (p + s) = ((setParamSubs x.2.1.par k (p + s)).1, .ok old) := Prod.ext rfl s2
        simp only [modelStep, g, a1, hp, hs, Option.getD_some]
        rw [hset]
        exact w1
      · exact h2 a ha
    · simp only [List.flatten_cons, List.map_append, List.map_map, List.flatMap_cons, h3]
      congr 1

/-- Sources: the stack holds what the sources report in reverse, on top of the rest. -/
theorem mpSource_ok (N : Names) (finite : Arr R → Bool) (hN : N.np = true) (W : World R M) (T : Tractor R M) (src : Source R)
    (hm : T.modelMasks = none) (he : T.expectModelMasks = false) (imgs : List (Bool × Image R))
    (hlen : ∀ x ∈ imgs, (W.srcDerivs src x.2 none).length = numberOfParams src.par)
    (hfin : ∀ x ∈ imgs, ∀ p, some p ∈ W.srcDerivs src x.2 none → ∃ a, p.patch = some a ∧ finite a = true) :
    ∀ (i : Nat) (acc : List (List (DerivEntry R))) (rest : List (List (Option (Patch R)))),
      acc.length = numberOfParams src.par →
      ∃ acc', sourceLoop W T src i imgs acc = .ok acc' ∧
        mpSource N finite src i imgs acc (rest ++ (imgs.map (fun x => W.srcDerivs src x.2 none)).reverse) = .ok (acc', rest) := by
  induction imgs with
  | nil => intro i acc rest _; exact ⟨acc, rfl, by simp [mpSource]⟩
  | cons x imgs ih =>
    intro i acc rest hacc
    have hl := hlen x (by simp)
    obtain ⟨acc1, a1, a2, -⟩ := appendDerivs_ok i 0 (W.srcDerivs src x.2 none) acc (by omega)
    obtain ⟨acc', g1, g2⟩ := ih (fun y hy => hlen y (by simp [hy])) (fun y hy => hfin y (by simp [hy])) (i + 1) acc1 rest (by omega)
    have hsd : sourceDerivs W T src x.2 = .ok (W.srcDerivs src x.2 none) := by
      simp [sourceDerivs, maskFor, hm, he]
    have hck : ∀ ds : List (Option (Patch R)), (∀ p, some p ∈ ds → ∃ a, p.patch = some a ∧ finite a = true) →
        checkDerivs N finite ds = .ok () := by
      intro ds
      induction ds with
      | nil => intro _; rfl
      | cons d ds ihd =>
        intro h
        cases d with
        | none => exact ihd (fun p hp => h p (by simp [hp]))
        | some p =>
          obtain ⟨a, h1, h2⟩ := h p (by simp)
          simp only [checkDerivs, hN, h1, h2, Bool.not_true, Bool.false_eq_true, if_false, if_true]
          exact ihd (fun p hp => h p (by simp [hp]))
    refine ⟨acc', ?_, ?_⟩
    · obtain ⟨b, img⟩ := x
      simp only at hsd a1
      simp only [sourceLoop, hsd, a1, g1]
    · rw [List.map_cons, List.reverse_cons, ← List.append_assoc]
      simp only [mpSource, pop_append, hl, ne_eq, not_true_eq_false, if_false, hck _ (hfin x (by simp)), a1, g2]

theorem mpSources_ok (N : Names) (finite : Arr R → Bool) (hN : N.np = true) (W : World R M) (T : Tractor R M)
    (hm : T.modelMasks = none) (he : T.expectModelMasks = false) (srcs : List (Source R))
    (hlen : ∀ s ∈ srcs, ∀ x ∈ T.images, (W.srcDerivs s x.2 none).length = numberOfParams s.par)
    (hfin : ∀ s ∈ srcs, ∀ x ∈ T.images, ∀ p, some p ∈ W.srcDerivs s x.2 none → ∃ a, p.patch = some a ∧ finite a = true) :
    ∃ l, sourcesLoop W T srcs = .ok l ∧
      mpSources N finite T.images srcs ((srcs.flatMap (fun src => T.images.map (fun x => (src, x.2)))).reverse.map
        (fun a => W.srcDerivs a.1 a.2 none)) = .ok l := by
  induction srcs with
  | nil => exact ⟨[], rfl, rfl⟩
  | cons s srcs ih =>
    obtain ⟨l, h1, h2⟩ := ih (fun y hy => hlen y (by simp [hy])) (fun y hy => hfin y (by simp [hy]))
    obtain ⟨acc', g1, g2⟩ := mpSource_ok N finite hN W T s hm he T.images (hlen s (by simp)) (hfin s (by simp)) 0
      (List.replicate (numberOfParams s.par) [])
      ((srcs.flatMap (fun src => T.images.map (fun x => (src, x.2)))).reverse.map (fun a => W.srcDerivs a.1 a.2 none)) (by simp)
    refine ⟨acc' ++ l, by simp only [sourcesLoop, g1, h1]; rfl, ?_⟩
    rw [List.flatMap_cons, List.reverse_append, List.map_append]
    have : (T.images.map (fun x => (s, x.2))).reverse.map (fun a : Source R × Image R => W.srcDerivs a.1 a.2 none) =
        (T.images.map (fun x => W.srcDerivs s x.2 none)).reverse := by
      rw [← List.map_reverse, List.map_map, ← List.map_reverse]; rfl
    rw [this]
    simp only [mpSources, g2, h2]
    rfl

theorem flatMap_need (xs : List (Nat × Image R × List (Deriv R))) (m1 : Nat → Nat → Arr R) :
    (xs.filter (fun x => !(needed 0 x.2.2).isEmpty)).flatMap (fun x => (needed 0 x.2.2).map (m1 x.1)) =
      xs.flatMap (fun x => (needed 0 x.2.2).map (m1 x.1)) := by
  induction xs with
  | nil => rfl
  | cons x xs ih =>
    by_cases h : needed 0 x.2.2 = []
    · simp [h, ih]
    · simp [h, ih]

theorem needed_nil (ds : List (Deriv R)) (h : ∀ d ∈ ds, d ≠ .false) : ∀ k, needed k ds = [] := by
  induction ds with
  | nil => intro k; rfl
  | cons d ds ih =>
    intro k
    cases d with
    | patch p => exact ih (fun d hd => h d (by simp [hd])) (k + 1)
    | none => exact ih (fun d hd => h d (by simp [hd])) (k + 1)
    | false => exact absurd rfl (h .false (by simp))

theorem mapM_mem {α β : Type} (g : α → Except PyErr β) (l : List α) (xs : List β) (h : l.mapM g = .ok xs) :
    (∀ x ∈ xs, ∃ a ∈ l, g a = .ok x) ∧ ∀ a ∈ l, ∃ x ∈ xs, g a = .ok x := by
  induction l generalizing xs with
  | nil => injection h with h; subst h; simp
  | cons i is ih =>
    rw [List.mapM_cons] at h
    cases hi : g i with
    | error e => rw [hi] at h; cases h
    | ok y =>
      rw [hi] at h
      cases hm : is.mapM g with
      | error e => rw [hm] at h; cases h
      | ok ys =>
        rw [hm] at h
        injection h with h
        subst h
        obtain ⟨g1, g2⟩ := ih ys hm
        constructor
        · intro x hx
          rcases List.mem_cons.mp hx with rfl | hx
          · exact ⟨i, by simp, hi⟩
          · obtain ⟨a, h1, h2⟩ := g1 x hx
            exact ⟨a, by simp [h1], h2⟩
        · intro a ha
          rcases List.mem_cons.mp ha with rfl | ha
          · exact ⟨y, by simp, hi⟩
          · obtain ⟨x, h1, h2⟩ := g2 a ha
            exact ⟨x, by simp [h1], h2⟩

theorem needed_ne (ds : List (Deriv R)) (h : Deriv.false ∈ ds) : ∀ k, needed k ds ≠ [] := by
  induction ds with
  | nil => simp at h
  | cons d ds ih =>
    intro k
    cases d with
    | patch p => exact ih (by simpa using h) (k + 1)
    | none => exact ih (by simpa using h) (k + 1)
    | false => simp [needed]

theorem thawedIndices_mem (l : List Bool) : ∀ (k i : Nat), l[i]? = some true → k + i ∈ Engine.thawedIndices k l := by
  induction l with
  | nil => intro k i h; simp at h
  | cons b l ih =>
    intro k i h
    cases i with
    | zero =>
      simp only [List.getElem?_cons_zero, Option.some.injEq] at h
      subst h
      simp [Engine.thawedIndices]
    | succ i =>
      have := ih (k + 1) i (by simpa using h)
      rw [show k + 1 + i = k + (i + 1) by omega] at this
      cases b with
      | true => simp [Engine.thawedIndices, this]
      | false => simpa [Engine.thawedIndices] using this

theorem mapM_error {α β : Type} (l : List α) (g : α → Except PyErr β) (e : PyErr) (h : ∀ a ∈ l, g a = .error e)
    (hne : l ≠ []) : l.mapM g = .error e := by
  cases l with
  | nil => exact absurd rfl hne
  | cons a l => rw [List.mapM_cons, h a (by simp)]; rfl

theorem mpImage_unbound [Field R] (N : Names) (mod0s : List (Nat × Arr R)) (i : Nat) (img : Image R) (ds : List (Deriv R)) :
    ∀ (k : Nat) (stack : List (Arr R)) r, mpImage N false mod0s i img k ds stack = .ok r → Deriv.false ∉ ds := by
  induction ds with
  | nil => intro k stack r _ h; simp at h
  | cons d ds ih =>
    intro k stack r h
    cases he : mpEntry N false mod0s i img k d stack with
    | error e => simp only [mpImage, he] at h; cases h
    | ok p =>
      cases hm : mpImage N false mod0s i img (k + 1) ds p.2 with
      | error e => simp only [mpImage, he, hm] at h; cases h
      | ok q =>
        have hds := ih _ _ _ hm
        intro hmem
        rcases List.mem_cons.mp hmem with hd | hd
        · subst hd
          unfold mpEntry at he
          simp only at he
          cases hl : mod0s.lookup i with
          | none => rw [hl] at he; cases he
          | some m0 =>
            rw [hl] at he
            cases hg : (getStepSizesSubs img.par)[k]? with
            | none => rw [hg] at he; cases he
            | some st =>
              rw [hg] at he
              simp only at he
              cases hp : pop stack with
              | error e => rw [hp] at he; cases he
              | ok y =>
                rw [hp] at he
                simp only at he
                by_cases c1 : (!N.patch) = true
                · rw [if_pos c1] at he; cases he
                · rw [if_neg c1] at he
                  by_cases c2 : (!decide (y.1.h = m0.h ∧ y.1.w = m0.w)) = true
                  · rw [if_pos c2] at he; cases he
                  · rw [if_neg c2] at he
                    cases he
        · exact hds hd

theorem mpImages_unbound [Field R] (N : Names) (mod0s : List (Nat × Arr R)) (xs : List (Nat × Image R × List (Deriv R))) :
    ∀ (stack : List (Arr R)) r, mpImages N false mod0s xs stack = .ok r → ∀ x ∈ xs, Deriv.false ∉ x.2.2 := by
  induction xs with
  | nil => intro stack r _ x hx; simp at hx
  | cons y xs ih =>
    intro stack r h
    cases he : mpImage N false mod0s y.1 y.2.1 0 y.2.2 stack with
    | error e => simp only [mpImages, he] at h; cases h
    | ok p =>
      cases hm : mpImages N false mod0s xs p.2 with
      | error e => simp only [mpImages, he, hm] at h; cases h
      | ok q =>
        intro x hx
        rcases List.mem_cons.mp hx with rfl | hx
        · exact mpImage_unbound N mod0s _ _ _ _ _ _ he
        · exact ih _ _ hm x hx

end Verif.Multi
