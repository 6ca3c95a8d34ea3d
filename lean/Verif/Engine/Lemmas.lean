import Verif.Engine.Spec
import Verif.Patch.Lemmas
import Mathlib.Tactic.Ring
import Mathlib.Data.List.Forall2
import Mathlib.Algebra.BigOperators.Intervals

/-!
# Lemmas: model images and likelihood
-/

namespace Verif.Engine

open Verif Verif.Params Verif.Patches

variable {R M : Type}

theorem find?_split {β : Type} (d : List (Nat × β)) (k : Nat) (m : β)
    (h : (d.find? (fun e => e.1 = k)).map (·.2) = some m) :
    ∃ pre post, (∀ e ∈ pre, e.1 ≠ k) ∧ d = pre ++ (k, m) :: post := by
  induction d with
  | nil => simp at h
  | cons e d ih =>
    by_cases he : e.1 = k
    · rw [List.find?_cons_of_pos (by simpa using he)] at h
      simp only [Option.map_some, Option.some.injEq] at h
      refine ⟨[], d, by simp, ?_⟩
      rw [← he, ← h]
      rfl
    · rw [List.find?_cons_of_neg (by simpa using he)] at h
      obtain ⟨pre, post, h1, h2⟩ := ih h
      refine ⟨e :: pre, post, ?_, by rw [h2]; rfl⟩
      intro x hx
      rcases List.mem_cons.1 hx with rfl | hx
      · exact he
      · exact h1 x hx

theorem maskFor_ok (T : Tractor R M) (img : Image R) (h : MasksOK T img) (src : Source R) :
    ∃ mask, maskFor T img src = .ok mask ∧ HasMask T img src mask := by
  unfold maskFor
  cases hm : T.modelMasks with
  | none => exact ⟨none, rfl, .nomasks hm⟩
  | some masks =>
    obtain ⟨hlen, x, hx, hxid⟩ := h masks hm
    simp only
    cases hf : T.images.findIdx? (fun x => x.2.id = img.id) with
    | none =>
      rw [List.findIdx?_eq_none_iff] at hf
      have := hf x hx
      simp [hxid] at this
    | some i =>
      obtain ⟨hi, hp, hfirst⟩ := List.findIdx?_eq_some_iff_getElem.1 hf
      have hi' : i < masks.length := by omega
      simp only [List.getElem?_eq_getElem hi']
      have hget : T.images[i]? = some (T.images[i].1, T.images[i].2) := by
        rw [List.getElem?_eq_getElem hi]
      have hno : ∀ (j : Nat) x, j < i → T.images[j]? = some x → x.2.id ≠ img.id := by
        intro j x hj hx
        have hj' : j < T.images.length := by omega
        rw [List.getElem?_eq_getElem hj'] at hx
        cases hx
        have := hfirst j hj
        simpa using this
      cases hd : (masks[i].find? (fun e => e.1 = src.id)).map (·.2) with
      | some m =>
        obtain ⟨pre, post, h1, h2⟩ := find?_split _ _ _ hd
        exact ⟨some m, rfl, .entry masks hm i _ _ hget (by simpa using hp) hno masks[i]
          (List.getElem?_eq_getElem hi') pre post m h1 h2⟩
      | none =>
        refine ⟨none, rfl, .missing masks hm i _ _ hget (by simpa using hp) hno masks[i]
          (List.getElem?_eq_getElem hi') ?_⟩
        simp only [Option.map_eq_none_iff, List.find?_eq_none] at hd
        intro e he
        simpa using hd e he

theorem getModelPatch_ok (W : World R M) (T : Tractor R M) (img : Image R) (h : MasksOK T img)
    (src : Source R) :
    ∃ p, getModelPatch W T img src = .ok p ∧ Contributes W T img src p := by
  obtain ⟨mask, h1, h2⟩ := maskFor_ok T img h src
  simp only [getModelPatch, h1]
  by_cases hc : T.expectModelMasks = true ∧ mask = none
  · refine ⟨none, ?_, mask, h2, by rw [if_pos hc]⟩
    rw [if_pos]
    simp [hc]
  · refine ⟨W.render src img mask, ?_, mask, h2, by rw [if_neg hc]⟩
    rw [if_neg]
    simpa using hc

theorem HasMask.unique {T : Tractor R M} {img : Image R} {src : Source R} {m m' : Option M}
    (h : HasMask T img src m) (h' : HasMask T img src m') : m = m' := by
  have key : ∀ (i i' : Nat) (b b' : Bool) (im im' : Image R), T.images[i]? = some (b, im) →
      im.id = img.id → (∀ (j : Nat) x, j < i → T.images[j]? = some x → x.2.id ≠ img.id) →
      T.images[i']? = some (b', im') → im'.id = img.id →
      (∀ (j : Nat) x, j < i' → T.images[j]? = some x → x.2.id ≠ img.id) → i = i' := by
    intro i i' b b' im im' h1 h2 h3 h4 h5 h6
    rcases Nat.lt_trichotomy i i' with hlt | heq | hgt
    · exact absurd h2 (h6 i _ hlt h1)
    · exact heq
    · exact absurd h5 (h3 i' _ hgt h4)
  cases h with
  | nomasks h =>
    cases h' with
    | nomasks _ => rfl
    | entry masks h2 => rw [h] at h2; cases h2
    | missing masks h2 => rfl
  | entry masks hm i b im hi him hfirst d hd pre post m hpre hsplit =>
    cases h' with
    | nomasks h => rw [h] at hm; cases hm
    | entry masks' hm' i' b' im' hi' him' hfirst' d' hd' pre' post' m' hpre' hsplit' =>
      have := key _ _ _ _ _ _ hi him hfirst hi' him' hfirst'
      subst this
      rw [hm] at hm'; cases hm'
      rw [hd] at hd'; cases hd'
      have e1 : d.find? (fun e => e.1 = src.id) = some (src.id, m) := by
        rw [hsplit, List.find?_append, List.find?_eq_none.2 (by simpa using hpre)]
        simp
      have e2 : d.find? (fun e => e.1 = src.id) = some (src.id, m') := by
        rw [hsplit', List.find?_append, List.find?_eq_none.2 (by simpa using hpre')]
        simp
      rw [e1] at e2
      simpa using e2
    | missing masks' hm' i' b' im' hi' him' hfirst' d' hd' hno =>
      have := key _ _ _ _ _ _ hi him hfirst hi' him' hfirst'
      subst this
      rw [hm] at hm'; cases hm'
      rw [hd] at hd'; cases hd'
      exact absurd rfl (hno (src.id, m) (by rw [hsplit]; simp))
  | missing masks hm i b im hi him hfirst d hd hno =>
    cases h' with
    | nomasks h => rfl
    | entry masks' hm' i' b' im' hi' him' hfirst' d' hd' pre' post' m' hpre' hsplit' =>
      have := key _ _ _ _ _ _ hi him hfirst hi' him' hfirst'
      subst this
      rw [hm] at hm'; cases hm'
      rw [hd] at hd'; cases hd'
      exact absurd rfl (hno (src.id, m') (by rw [hsplit']; simp))
    | missing => rfl

variable [CommRing R]

theorem addSources_ok (W : World R M) (T : Tractor R M) (img : Image R) (h : MasksOK T img)
    (srcs : List (Option (Source R))) :
    ∃ ps, Contributions W T img srcs ps ∧ ∀ mod : Arr R, ∃ r, addSources W T img srcs mod = .ok r ∧
      r.h = mod.h ∧ r.w = mod.w ∧ ∀ y x : Nat, y < mod.h → x < mod.w →
        r.px y x = mod.px y x + (ps.map (fun p => patchAt p x y)).sum := by
  induction srcs with
  | nil => exact ⟨[], .nil, fun mod => ⟨mod, rfl, rfl, rfl, by simp⟩⟩
  | cons s srcs ih =>
    obtain ⟨ps, hps, hrun⟩ := ih
    cases s with
    | none =>
      refine ⟨none :: ps, .cons rfl hps, fun mod => ?_⟩
      obtain ⟨r, h1, h2, h3, h4⟩ := hrun mod
      exact ⟨r, h1, h2, h3, fun y x hy hx => by rw [h4 y x hy hx]; simp [patchAt]⟩
    | some src =>
      obtain ⟨p, hp1, hp2⟩ := getModelPatch_ok W T img h src
      refine ⟨p :: ps, .cons hp2 hps, fun mod => ?_⟩
      cases p with
      | none =>
        obtain ⟨r, h1, h2, h3, h4⟩ := hrun mod
        refine ⟨r, ?_, h2, h3, fun y x hy hx => by rw [h4 y x hy hx]; simp [patchAt]⟩
        simp only [addSources, hp1, h1]
      | some p =>
        obtain ⟨m, g1, g2, g3, g4⟩ := addTo_ok p mod 1
        obtain ⟨r, h1, h2, h3, h4⟩ := hrun m
        refine ⟨r, ?_, by rw [h2, g2], by rw [h3, g3], ?_⟩
        · simp only [addSources, hp1, g1, h1]
        · intro y x hy hx
          rw [h4 y x (by rw [g2]; exact hy) (by rw [g3]; exact hx), g4 y x hy hx]
          simp only [List.map_cons, List.sum_cons, patchAt, mul_one]
          split
          · ring
          · rename_i hc
            have : p.at x y = 0 := by
              unfold Patch.at
              unfold Patch.covers at hc
              cases hpp : p.patch with
              | none => rfl
              | some A =>
                rw [hpp] at hc
                simp only at hc ⊢
                rw [if_neg hc]
            rw [this]; ring

theorem sky_ok [DecidableEq R] (s : Sky R) (h w : Nat) :
    (s.addTo (Arr.zeros h w)).h = h ∧ (s.addTo (Arr.zeros h w)).w = w ∧
    ∀ y x, (s.addTo (Arr.zeros h w)).px y x = s.at x y := by
  cases s with
  | null => exact ⟨rfl, rfl, fun _ _ => rfl⟩
  | constant v =>
    simp only [Sky.addTo]
    split
    · rename_i hv; subst hv; exact ⟨rfl, rfl, fun _ _ => rfl⟩
    · exact ⟨rfl, rfl, fun _ _ => by simp [Arr.map, Arr.zeros, Sky.at]⟩
  | field f => exact ⟨rfl, rfl, fun _ _ => by simp [Sky.addTo, Arr.zeros, Sky.at]⟩

theorem getModelImage_ok [DecidableEq R] (W : World R M) (T : Tractor R M) (img : Image R)
    (h : MasksOK T img) (srcs : Option (List (Option (Source R)))) :
    ∃ ps, Contributions W T img (srcs.getD (T.catalog.map (·.2))) ps ∧ ∀ sky : Bool,
      ∃ r, getModelImage W T img srcs sky = .ok r ∧ r.h = img.data.h ∧ r.w = img.data.w ∧
        ∀ y x : Nat, y < img.data.h → x < img.data.w →
          r.px y x = (if sky then (W.sky img).at x y else 0) +
            (ps.map (fun p => patchAt p x y)).sum := by
  obtain ⟨ps, h1, h2⟩ := addSources_ok W T img h (srcs.getD (T.catalog.map (·.2)))
  refine ⟨ps, h1, fun sky => ?_⟩
  cases sky with
  | false =>
    obtain ⟨r, g1, g2, g3, g4⟩ := h2 (Arr.zeros img.data.h img.data.w)
    exact ⟨r, g1, g2, g3, g4⟩
  | true =>
    obtain ⟨k1, k2, k3⟩ := sky_ok (W.sky img) img.data.h img.data.w
    obtain ⟨r, g1, g2, g3, g4⟩ := h2 ((W.sky img).addTo (Arr.zeros img.data.h img.data.w))
    refine ⟨r, g1, by rw [g2, k1], by rw [g3, k2], ?_⟩
    intro y x hy hx
    rw [g4 y x (by rw [k1]; exact hy) (by rw [k2]; exact hx), k3]
    rfl

omit [CommRing R] in
theorem Contributions.unique {W : World R M} {T : Tractor R M} {img : Image R}
    {srcs : List (Option (Source R))} {ps qs : List (Option (Patch R))}
    (h : Contributions W T img srcs ps) (h' : Contributions W T img srcs qs) : ps = qs := by
  unfold Contributions at *
  induction h generalizing qs with
  | nil => cases h'; rfl
  | @cons s p srcs ps h1 h2 ih =>
    cases h' with
    | @cons _ q _ qs h3 h4 =>
      rw [ih h4]
      congr 1
      cases s with
      | none => simp only at h1 h3; rw [h1, h3]
      | some src =>
        obtain ⟨m, a1, a2⟩ := h1
        obtain ⟨m', b1, b2⟩ := h3
        have := a1.unique b1
        subst this
        rw [a2, b2]

theorem ravel_sum (A : Arr R) (f : R → R) :
    (A.ravel.map f).sum = ∑ y ∈ Finset.range A.h, ∑ x ∈ Finset.range A.w, f (A.px y x) := by
  have h1 : ∀ (n : Nat) (g : Nat → R), ((List.range n).map g).sum = ∑ i ∈ Finset.range n, g i := by
    intro n g
    induction n with
    | zero => simp
    | succ n ih => rw [List.range_succ, Finset.sum_range_succ, ← ih]; simp
  have h2 : ∀ (l : List Nat), ((l.flatMap (fun r => (List.range A.w).map (fun c => A.px r c))).map f).sum =
      (l.map (fun y => ∑ x ∈ Finset.range A.w, f (A.px y x))).sum := by
    intro l
    induction l with
    | nil => rfl
    | cons a l ih =>
      rw [List.flatMap_cons, List.map_append, List.sum_append, ih, List.map_cons, List.sum_cons,
        List.map_map, ← h1]
      rfl
  rw [Arr.ravel, h2, h1]

end Verif.Engine
