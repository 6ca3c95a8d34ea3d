import Verif.Fit.Lemmas
import Verif.Fit.Spec
import Mathlib.Tactic.FieldSimp
import Mathlib.Tactic.Ring
import Mathlib.Algebra.BigOperators.Ring.Finset

/-!
# Lemmas: the derivatives of a tractor with linear model images
-/

namespace Verif.Fit

open Verif Params Patches Engine Finset

variable {R M : Type} [Field R] [LinearOrder R]

/-! ### Lists of derivatives -/

/-- The pairs (derivative, image) of a list of derivatives, None left out. -/
def pick (G : List (Option (Patch R))) (m : Nat) : List (Patch R × Nat) :=
  match G with
  | [] => []
  | none :: G => pick G (m + 1)
  | some p :: G => (p, m) :: pick G (m + 1)

omit [Field R] [LinearOrder R] in
theorem patchesOf_source (DD : List (List (Option (Patch R)))) (m j : Nat) :
    patchesOf ((DD.zipIdx m).flatMap (fun x => entryOf x.1 x.2 j)) = .ok (pick (DD.map (fun ds => (ds[j]?).getD none)) m) := by
  induction DD generalizing m with
  | nil => rfl
  | cons ds DD ih =>
    rw [List.zipIdx_cons, List.flatMap_cons, List.map_cons]
    cases h : ds[j]? with
    | none => simp only [entryOf, h, List.nil_append, Option.getD_none, pick]; exact ih (m + 1)
    | some e =>
      cases e with
      | none => simp only [entryOf, h, List.nil_append, Option.getD_some, pick]; exact ih (m + 1)
      | some p =>
        have e : entryOf ds m j = [(some p, m)] := by simp only [entryOf, h]
        dsimp only
        rw [e, List.cons_append, List.nil_append, patchesOf, ih (m + 1)]
        rfl

omit [Field R] [LinearOrder R] in
theorem pick_none (N m : Nat) : pick (List.replicate N (none : Option (Patch R))) m = [] := by
  induction N generalizing m with
  | zero => rfl
  | succ N ih => rw [List.replicate_succ, pick, ih]

omit [Field R] [LinearOrder R] in
theorem pick_one (N m o : Nat) (p : Patch R) (h : o < N) : pick ((List.replicate N none).set o (some p)) m = [(p, m + o)] := by
  induction N generalizing m o with
  | zero => omega
  | succ N ih =>
    rw [List.replicate_succ]
    cases o with
    | zero => rw [List.set_cons_zero, pick, pick_none]; rfl
    | succ o => rw [List.set_cons_succ, pick, ih (m + 1) o (by omega)]; congr 2; omega

omit [Field R] [LinearOrder R] in
theorem mem_pick (G : List (Option (Patch R))) (m : Nat) (e : Patch R × Nat) (h : e ∈ pick G m) :
    ∃ i, e.2 = m + i ∧ G[i]? = some (some e.1) := by
  induction G generalizing m with
  | nil => simp [pick] at h
  | cons a G ih =>
    cases a with
    | none =>
      obtain ⟨i, h1, h2⟩ := ih (m + 1) h
      exact ⟨i + 1, by omega, by simpa using h2⟩
    | some p =>
      rw [pick, List.mem_cons] at h
      rcases h with rfl | h
      · exact ⟨0, by simp, rfl⟩
      · obtain ⟨i, h1, h2⟩ := ih (m + 1) h
        exact ⟨i + 1, by omega, by simpa using h2⟩

omit [Field R] [LinearOrder R] in
theorem pick_nodup (G : List (Option (Patch R))) (m : Nat) : ((pick G m).map (·.2)).Nodup := by
  induction G generalizing m with
  | nil => exact List.nodup_nil
  | cons a G ih =>
    cases a with
    | none => exact ih (m + 1)
    | some p =>
      rw [pick, List.map_cons, List.nodup_cons]
      refine ⟨fun h => ?_, ih (m + 1)⟩
      obtain ⟨e, he, h1⟩ := List.mem_map.1 h
      obtain ⟨i, h2, -⟩ := mem_pick G (m + 1) e he
      dsimp only at h1
      omega

omit [LinearOrder R] in
theorem slope_pick (imgs : Nat → Lsq.Img R) (G : List (Option (Patch R))) (m i y x : Nat) :
    Lsq.slope imgs (pick G m) (m + i) y x = patchAt ((G[i]?).getD none) x y * (imgs (m + i)).inverr.px y x := by
  induction G generalizing m i with
  | nil => simp [pick, Lsq.slope, patchAt]
  | cons a G ih =>
    have hz : ∀ G : List (Option (Patch R)), Lsq.slope imgs (pick G (m + 1)) m y x = 0 := by
      intro G
      have : (pick G (m + 1)).filter (fun e => e.2 = m) = [] := by
        rw [List.filter_eq_nil_iff]
        intro e he
        obtain ⟨i, h1, -⟩ := mem_pick G (m + 1) e he
        simp only [decide_eq_true_eq]
        omega
      rw [Lsq.slope, this]; rfl
    cases i with
    | zero =>
      cases a with
      | none => simp only [pick, Nat.add_zero, hz, List.getElem?_cons_zero, Option.getD_some, patchAt, zero_mul]
      | some p =>
        have := hz G
        unfold Lsq.slope at this ⊢
        rw [pick, Nat.add_zero, List.filter_cons_of_pos (by simp), List.map_cons, List.sum_cons, this]
        simp [patchAt]
    | succ i =>
      have e : m + (i + 1) = m + 1 + i := by omega
      cases a with
      | none => rw [pick, e, ih, List.getElem?_cons_succ]
      | some p =>
        rw [pick, e, List.getElem?_cons_succ, ← ih (m + 1) i]
        unfold Lsq.slope
        rw [List.filter_cons_of_neg (by simp only [decide_eq_true_eq]; omega)]

omit [LinearOrder R] in
theorem energy_pick (imgs : Nat → Lsq.Img R) (G : List (Option (Patch R))) (m : Nat) :
    ((pick G m).map (Lsq.energy imgs)).sum = ((G.zipIdx m).map (fun z => ∑ y ∈ range (imgs z.2).h, ∑ x ∈ range (imgs z.2).w,
      (patchAt z.1 x y * (imgs z.2).inverr.px y x) ^ 2)).sum := by
  induction G generalizing m with
  | nil => rfl
  | cons a G ih =>
    rw [List.zipIdx_cons, List.map_cons, List.sum_cons]
    cases a with
    | none => rw [pick, ih]; simp [patchAt]
    | some p => rw [pick, List.map_cons, List.sum_cons, ih]; rfl

omit [Field R] [LinearOrder R] in
theorem derivsOf_ok (out : List (List (DerivEntry R))) (f : Nat → List (Patch R × Nat)) (h : ∀ k l, out[k]? = some l → patchesOf l = .ok (f k)) :
    derivsOf out = .ok ((List.range out.length).map f) := by
  induction out generalizing f with
  | nil => rfl
  | cons l out ih =>
    have h1 := ih (fun k => f (k + 1)) (fun k l hk => h (k + 1) l (by simpa using hk))
    rw [derivsOf, h 0 l rfl, h1, List.length_cons, List.range_succ_eq_map, List.map_cons, List.map_map]
    rfl

/-! ### The linear model -/

omit [LinearOrder R] in
theorem sum_set (p : List R) (n k : Nat) (v : R) (E : Nat → R) (hp : p.length = n) (hk : k < n) :
    ∑ l ∈ range n, (p.set k v).getD l 0 * E l = (∑ l ∈ range n, p.getD l 0 * E l) + (v - p.getD k 0) * E k := by
  have e : ∀ l ∈ range n, (p.set k v).getD l 0 * E l = p.getD l 0 * E l + (if l = k then (v - p.getD k 0) * E k else 0) := by
    intro l hl
    have hl := mem_range.1 hl
    rw [List.getD_eq_getElem?_getD, List.getElem?_set]
    by_cases hkl : k = l
    · subst hkl
      rw [if_pos rfl, if_pos (by omega), if_pos rfl]
      simp only [Option.getD_some]
      ring
    · rw [if_neg hkl, if_neg (fun h => hkl h.symm), add_zero, List.getD_eq_getElem?_getD]
  rw [sum_congr rfl e, sum_add_distrib, sum_ite_eq' (range n) k, if_pos (mem_range.2 hk)]

variable {W : World R M} {hooks : Tractor R M → Nat → Nat → Option (List (Deriv R))} {T : Tractor R M} {base : Nat → Nat → Nat → R}
  {D : Nat → Nat → Nat → Nat → R}

/-- A change of one parameter of image `o` (`k` of the tractor). -/
theorem change_image (hl : Linear W hooks T base D) (k o j : Nat) (im : Image R) (v : R) (hth : T.imagesThawed = true)
    (ho : T.images[o]? = some (true, im)) (hj : j < numberOfParamsSubs im.par) (hk : k = ((blocks T).take o).sum + j)
    (hlt : k < numberOfParams T.par) (i : Nat) (b : Bool) (im0 im1 : Image R) (h0 : T.images[i]? = some (b, im0))
    (h1 : (withImage T o { im with par := (setParamSubs im.par j v).1 }).images[i]? = some (b, im1)) (A0 A1 : Arr R)
    (hA0 : getModelImage W T im0 none true = .ok A0)
    (hA1 : getModelImage W (withImage T o { im with par := (setParamSubs im.par j v).1 }) im1 none true = .ok A1) (y x : Nat)
    (hy : y < im0.data.h) (hx : x < im0.data.w) :
    A1.px y x = A0.px y x + (v - (getParams T.par).getD k 0) * D k i y x := by
  have e := withImage_setAll T k o j im v hth ho hj hk hlt
  rw [e] at h1 hA1
  have hlen : (getParams T.par).length = numberOfParams T.par := getParams_length _
  obtain ⟨x', g1, g2⟩ := (setAll_ok T ((getParams T.par).set k v)).1.image i _ h0
  rw [h1] at g1
  injection g1 with g1
  subst g1
  have a1 := hl.model _ (by rw [List.length_set, hlen]) i b im1 h1 A1 hA1 y x (by rw [g2.2.2.1]; exact hy) (by rw [g2.2.2.1]; exact hx)
  have a0 := hl.model (getParams T.par) hlen i b im0 (by rw [setAll_self]; exact h0) A0 (by rw [setAll_self]; exact hA0) y x hy hx
  rw [a1, a0, sum_set _ _ k v (fun l => D l i y x) hlen hlt]
  ring

/-- A parameter of one image has no effect on the others. -/
theorem other_image (hl : Linear W hooks T base D) (hr : Ready W hooks T) (k o j : Nat) (im : Image R) (hth : T.imagesThawed = true)
    (ho : T.images[o]? = some (true, im)) (hj : j < numberOfParamsSubs im.par) (hk : k = ((blocks T).take o).sum + j)
    (hlt : k < numberOfParams T.par) (i : Nat) (b : Bool) (im0 : Image R) (h0 : T.images[i]? = some (b, im0)) (hio : o ≠ i) (y x : Nat)
    (hy : y < im0.data.h) (hx : x < im0.data.w) : D k i y x = 0 := by
  obtain ⟨ps, -, g⟩ := getModelImage_ok W T im0 (hr.mask _ (List.mem_of_getElem? h0)) none
  obtain ⟨A0, g1, -, -, -⟩ := g true
  have hids : (withImage T o { im with par := (setParamSubs im.par j ((getParams T.par).getD k 0 + 1)).1 }).images.map (fun x => x.2.id) =
      T.images.map (fun x => x.2.id) := by
    rw [withImage_setAll T k o j im _ hth ho hj hk hlt]
    exact (setAll_ok T _).1.ids
  have e := change_image hl k o j im ((getParams T.par).getD k 0 + 1) hth ho hj hk hlt i b im0 im0 h0
    (by simp only [withImage, List.getElem?_modify, if_neg hio]; simpa using h0) A0 A0 g1 (by rw [model_congr W T _ im0 hids rfl rfl rfl]; exact g1)
    y x hy hx
  have : (getParams T.par).getD k 0 + 1 - (getParams T.par).getD k 0 = 1 := by ring
  rw [this, one_mul] at e
  have := sub_eq_zero.2 e
  linear_combination -this

/-- Column `k` of the problem. -/
def IsColumn (T : Tractor R M) (D : Nat → Nat → Nat → Nat → R) (k : Nat) (G : List (Option (Patch R))) : Prop :=
  G.length = T.images.length ∧ ∀ i b im, T.images[i]? = some (b, im) → ∀ y x, y < im.data.h → x < im.data.w →
    patchAt ((G[i]?).getD none) x y = D k i y x

omit [LinearOrder R] in
theorem at_zero (A : Arr R) (y x : Nat) (hy : y < A.h) (hx : x < A.w) : Patch.at (⟨0, 0, some A⟩ : Patch R) x y = A.px y x := by
  unfold Patch.at
  dsimp only
  rw [if_pos (by omega)]
  congr 1

/-- What `getDerivs` gives. -/
theorem columns_reported (hl : Reported W hooks T D) (hr : Ready W hooks T) :
    ∃ (out : List (List (DerivEntry R))) (G : Nat → List (Option (Patch R))),
      getDerivs W (fun T img => getModelImage W T img none true) (hooks T) T = (T, .ok out) ∧
      derivsOf out = .ok ((List.range (numberOfParams T.par)).map (fun k => pick (G k) 0)) ∧
      ∀ k, k < numberOfParams T.par → IsColumn T D k (G k) := by
  have hv : ∀ t : Par R, thawedValues t = getParams t := fun t => (getParams_eq t).symm
  have hs : ∀ x ∈ T.images, x.1 = true → (getStepSizesSubs x.2.par).length = numberOfParamsSubs x.2.par := by
    intro x hx hb
    have := hr.steps x hx hb
    rwa [hv, getParams_length, getStepSizes, numberOfParams] at this
  obtain ⟨out, h1, h2, h3⟩ := getDerivs_local W (hooks T) T hr.mask hr.hook hs hr.derivs
  have key : ∀ k, k < numberOfParams T.par → ∃ G l, out[k]? = some l ∧ patchesOf l = .ok (pick G 0) ∧ IsColumn T D k G := by
    intro k hk
    have hk0 := hk
    rw [← blocks_sum] at hk
    obtain ⟨o, j, n, g1, g2, g3⟩ := exists_block _ _ hk
    have hloc : Located T k o j := ⟨n, g1, g2, g3⟩
    obtain ⟨f1, f2⟩ := h3 k o j hloc
    by_cases hol : o < T.images.length
    · obtain ⟨⟨b, im⟩, hx⟩ : ∃ z, T.images[o] = z := ⟨_, rfl⟩
      have ho : T.images[o]? = some (b, im) := by rw [List.getElem?_eq_getElem hol, hx]
      obtain ⟨e1, d, e, e2, e3, e4, e5, e6, e7⟩ := f1 b im ho
      subst e6
      have fin : ∀ p, e = some p → (∀ y x, y < im.data.h → x < im.data.w → p.at x y = D k o y x) →
          ∃ G l, out[k]? = some l ∧ patchesOf l = .ok (pick G 0) ∧ IsColumn T D k G := by
        intro p hp hpx
        subst hp
        refine ⟨(List.replicate T.images.length none).set o (some p), _, e3, ?_, by simp, ?_⟩
        · rw [pick_one _ _ _ _ hol, Nat.zero_add]; rfl
        · intro i b' im' hi y x hy hx'
          rw [List.getElem?_set]
          by_cases hoi : o = i
          · subst hoi
            rw [if_pos rfl, if_pos (by simpa using hol)]
            rw [ho] at hi
            injection hi with hi
            injection hi with _ hi
            subst hi
            exact hpx y x hy hx'
          · rw [if_neg hoi, List.getElem?_replicate, if_pos (List.getElem?_eq_some_iff.1 hi).1]
            exact (hl.other k o j _ im hloc ho i b' im' hi hoi y x hy hx').symm
      rcases hl.image k o j true im hloc ho d e2 with ⟨rfl, st', hst1, hst2, hst3⟩ | ⟨p, rfl, hp⟩
      · obtain ⟨p, st, m0, m1, q1, q2, q3, q4, q5⟩ := e4
        have hst : st = st' := by
          rw [g3, take_sum T e5 o (by omega), steps_at T e5 o j im ho e7 hs, q2] at hst1
          exact Option.some.inj hst1
        subst hst
        refine fin _ q5 (fun y x hy hx' => ?_)
        obtain ⟨ps, -, g⟩ := getModelImage_ok W T im (hr.mask _ (List.mem_of_getElem? ho)) none
        obtain ⟨m0', w1, w2, w3, -⟩ := g true
        have q3' : getModelImage W T im none true = .ok m0 := q3
        rw [q3'] at w1
        injection w1 with w1
        subst w1
        rw [at_zero _ y x (by rw [w2]; exact hy) (by rw [w3]; exact hx')]
        dsimp only
        have hp : (getParams T.par).getD k 0 = p := by rw [List.getD_eq_getElem?_getD, e1, q1]; rfl
        rw [hp, ← withImage_setAll T k o j im (p + st) e5 ho e7 g3 hk0] at hst3
        have e := hst3 { im with par := (setParamSubs im.par j (p + st)).1 } m0 m1 (by simp [withImage, ho]) q3' q4 y x hy hx'
        rw [e]
        field_simp
      · exact fin p e4 hp
    · obtain ⟨o', rfl⟩ := Nat.exists_eq_add_of_le (Nat.le_of_not_lt hol)
      have hc : ∃ b s, T.catalog[o']? = some (b, some s) := by
        unfold blocks at g1
        rw [List.getElem?_append_right (by simp)] at g1
        simp only [List.length_map, Nat.add_sub_cancel_left, List.getElem?_map] at g1
        cases hc : T.catalog[o']? with
        | none => rw [hc] at g1; cases g1
        | some x =>
          obtain ⟨b, s⟩ := x
          cases s with
          | some s => exact ⟨b, s, rfl⟩
          | none =>
            rw [hc] at g1
            simp at g1
            omega
      obtain ⟨b, s, hc⟩ := hc
      obtain ⟨-, DD, e1, e2⟩ := f2 o' b s rfl hc
      refine ⟨DD.map (fun ds => (ds[j]?).getD none), _, e2, patchesOf_source DD 0 j, by rw [List.length_map, e1.length_eq], ?_⟩
      intro i c im hi y x hy hx
      have hiT := (List.getElem?_eq_some_iff.1 hi).1
      have hiD : i < DD.length := by rw [← e1.length_eq]; exact hiT
      have hrep := e1.get hiT hiD
      simp only [List.get_eq_getElem, (List.getElem?_eq_some_iff.1 hi).2] at hrep
      have := hl.source k o' j b s hloc hc i c im hi _ hrep y x hy hx
      rw [List.getElem?_map, List.getElem?_eq_getElem hiD]
      exact this
  choose! G hG using key
  refine ⟨out, G, h1, ?_, fun k hk => ?_⟩
  · rw [← h2]
    apply derivsOf_ok
    intro k l hk
    have hk' : k < numberOfParams T.par := by rw [← h2]; exact (List.getElem?_eq_some_iff.1 hk).1
    obtain ⟨l', a1, a2, -⟩ := hG k hk'
    rw [hk] at a1
    injection a1 with a1
    subst a1
    exact a2
  · obtain ⟨-, -, -, a⟩ := hG k hk
    exact a

/-- Linear model images. -/
theorem reported_linear (hl : Linear W hooks T base D) (hr : Ready W hooks T) : Reported W hooks T D := by
  have hv : ∀ t : Par R, thawedValues t = getParams t := fun t => (getParams_eq t).symm
  have hs : ∀ x ∈ T.images, x.1 = true → (getStepSizesSubs x.2.par).length = numberOfParamsSubs x.2.par := by
    intro x hx hb
    have := hr.steps x hx hb
    rwa [hv, getParams_length, getStepSizes, numberOfParams] at this
  obtain ⟨out, h1, h2, h3⟩ := getDerivs_local W (hooks T) T hr.mask hr.hook hs hr.derivs
  have hlt : ∀ k o j, Located T k o j → k < numberOfParams T.par := by
    rintro k o j ⟨n, g1, g2, rfl⟩
    rw [← blocks_sum]
    have hol := (List.getElem?_eq_some_iff.1 g1).1
    have := congrArg List.sum (List.take_append_drop o (blocks T))
    rw [List.sum_append, List.drop_eq_getElem_cons hol, List.sum_cons, (List.getElem?_eq_some_iff.1 g1).2] at this
    omega
  refine ⟨hl.source, fun k o j b im hloc ho d hd => ?_, fun k o j b im hloc ho i b' im' hi hoi y x hy hx => ?_⟩
  · obtain ⟨e1, d', e, e2, e3, e4, e5, e6, e7⟩ := (h3 k o j hloc).1 b im ho
    subst e6
    rw [hd] at e2
    injection e2 with e2
    subst e2
    rcases hl.image k o j true im hloc ho d hd with ⟨rfl, hst⟩ | h
    · left
      obtain ⟨p, st, m0, m1, q1, q2, q3, q4, q5⟩ := e4
      obtain ⟨n, g1, g2, g3⟩ := id hloc
      have hk := hlt k o j hloc
      have hol := (List.getElem?_eq_some_iff.1 ho).1
      have hstk : (getStepSizes T.par)[k]? = some st := by rw [g3, take_sum T e5 o (by omega), steps_at T e5 o j im ho e7 hs, q2]
      refine ⟨rfl, st, hstk, fun h0 => hst (by rw [hstk, h0]), fun im1 A A' hi1 hA hA' y x hy hx => ?_⟩
      rw [← withImage_setAll T k o j im _ e5 ho e7 g3 hk] at hi1 hA'
      have e := change_image hl k o j im _ e5 ho e7 g3 hk o true im im1 ho hi1 A A' hA hA' y x hy hx
      rw [e]
      ring
    · exact .inr h
  · obtain ⟨n, g1, g2, g3⟩ := id hloc
    obtain ⟨e1, d', e, e2, e3, e4, e5, e6, e7⟩ := (h3 k o j hloc).1 b im ho
    subst e6
    exact other_image hl hr k o j im e5 ho e7 g3 (hlt k o j hloc) i b' im' hi hoi y x hy hx

theorem columns (hl : Linear W hooks T base D) (hr : Ready W hooks T) :
    ∃ (out : List (List (DerivEntry R))) (G : Nat → List (Option (Patch R))),
      getDerivs W (fun T img => getModelImage W T img none true) (hooks T) T = (T, .ok out) ∧
      derivsOf out = .ok ((List.range (numberOfParams T.par)).map (fun k => pick (G k) 0)) ∧
      ∀ k, k < numberOfParams T.par → IsColumn T D k (G k) := columns_reported (reported_linear hl hr) hr

end Verif.Fit
