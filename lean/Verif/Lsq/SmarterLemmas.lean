import Verif.Lsq.SmarterSpec
import Verif.Lsq.Lemmas7

/-!
# Lemmas: SmarterDenseOptimizer is the dense optimizer on the boxes
-/

set_option linter.unusedSectionVars false

namespace Verif.Lsq

open Verif Verif.Params Verif.Patches

variable {R : Type} [Field R] [LinearOrder R]

/-- The elements at the live places. -/
def keep {α : Type} : List Bool → List α → List α
  | true :: live, a :: l => a :: keep live l
  | false :: live, _ :: l => keep live l
  | _, _ => []

/-- The part of an image in its box. -/
def cropImg (imgs : Nat → Img R) (box : Nat → Box) (i : Nat) : Img R :=
  ⟨((box i).2.2.2 - (box i).2.2.1).toNat, ((box i).2.1 - (box i).1).toNat, cut (imgs i).inverr (box i),
    cut (imgs i).chi (box i)⟩

/-- A clipped derivative. -/
def clipOne (imgs : Nat → Img R) (e : Patch R × Nat) : Patch R × Nat :=
  ((e.1.clipTo (imgs e.2).w (imgs e.2).h).1, e.2)

/-- A clipped derivative, moved to the origin. -/
def cropOne (imgs : Nat → Img R) (e : Patch R × Nat) : Patch R × Nat :=
  (⟨0, 0, (e.1.clipTo (imgs e.2).w (imgs e.2).h).1.patch⟩, e.2)

theorem clip_outside (im : Img R) (d : Patch R) (h : Outside im d) :
    ∃ q, d.clipTo im.w im.h = (q, .ok false) ∧ q.patch = none ∧
      ∀ y x : Nat, y < im.h → x < im.w → d.at x y = 0 := by
  obtain ⟨q, b, hq, hcut, h1, h2⟩ := clipTo_ok d im.w im.h
  have hb : b = false := h1.2 h
  subst hb
  refine ⟨q, hq, h2.1 rfl, fun y x hy hx => ?_⟩
  rw [← hcut.2 x y (by omega), Patch.at, h2.1 rfl]

theorem clip_fills (im : Img R) (d : Patch R) (b : Box) (hb : FullBox im b) (h : Fills im d b) :
    ∃ q P, d.clipTo im.w im.h = (q, .ok true) ∧ q.patch = some P ∧ q.extent = b ∧
      P.h = (b.2.2.2 - b.2.2.1).toNat ∧ P.w = (b.2.1 - b.1).toNat ∧
      (∀ y x : Nat, y < P.h → x < P.w →
        P.px y x = d.at ((b.1.toNat + x : Nat) : Int) ((b.2.2.1.toNat + y : Nat) : Int)) ∧
      ∀ y x : Nat, y < im.h → x < im.w → ¬ inBox b x y → d.at x y = 0 := by
  obtain ⟨q, bb, hq, hcut, h1, h2⟩ := clipTo_ok d im.w im.h
  obtain ⟨x0, x1, y0, y1⟩ := b
  simp only [FullBox] at hb
  have hc : ∀ x y, q.covers x y ↔ inBox (x0, x1, y0, y1) x y := fun x y => (hcut.1 x y).trans (h x y)
  have h00 : q.covers x0 y0 := (hc _ _).2 (by simp only [inBox]; omega)
  cases hP : q.patch with
  | none => simp [Patch.covers, hP] at h00
  | some P =>
    have hbt : bb = true := by
      cases bb with
      | true => rfl
      | false => rw [h2.1 rfl] at hP; exact absurd hP (by simp)
    subst hbt
    simp only [Patch.covers, hP, inBox] at hc h00
    have h11 := (hc (x1 - 1) (y1 - 1)).2 (by omega)
    have ha := (hc q.x0 q.y0).1 (by omega)
    have hz := (hc (q.x0 + P.w - 1) (q.y0 + P.h - 1)).1 (by omega)
    have e1 : q.x0 = x0 := by omega
    have e2 : q.y0 = y0 := by omega
    have e3 : q.x0 + P.w = x1 := by omega
    have e4 : q.y0 + P.h = y1 := by omega
    refine ⟨q, P, hq, hP, ?_, by simp only; omega, by simp only; omega, ?_, ?_⟩
    · simp only [Patch.extent, Patch.shape, hP, Prod.mk.injEq]
      omega
    · intro y x hy hx
      simp only
      rw [← hcut.2 _ _ (by omega)]
      simp only [Patch.at, hP]
      rw [if_pos (by omega)]
      congr 1 <;> omega
    · intro y x hy hx hn
      rw [← hcut.2 x y (by omega)]
      simp only [Patch.at, hP]
      rw [if_neg]
      intro hh
      exact hn ((hc x y).1 hh)

/-! ### Bounds -/

/-- The recorded bounds are those of the boxes. -/
def BoundsOK (box : Nat → Box) (bounds : List (Nat × Box)) : Prop := ∀ e ∈ bounds, e.2 = box e.1

theorem join_self (b : Box) : Box.join b b = b := by simp [Box.join]

theorem widen_ok (box : Nat → Box) (bounds : List (Nat × Box)) (hB : BoundsOK box bounds) (i : Nat) :
    BoundsOK box (widen bounds i (box i)) ∧
      ∀ j, j ∈ (widen bounds i (box i)).map (·.1) ↔ j = i ∨ j ∈ bounds.map (·.1) := by
  unfold widen
  by_cases h : bounds.any (fun e => e.1 = i) = true
  · rw [if_pos h]
    have hid : bounds.map (fun e => if e.1 = i then (i, Box.join (box i) e.2) else e) = bounds := by
      conv_rhs => rw [← List.map_id bounds]
      apply List.map_congr_left
      intro e he
      by_cases hi : e.1 = i
      · rw [if_pos hi, hB e he, hi, join_self]
        exact Prod.ext hi.symm (by rw [← hi]; exact (hB e he).symm)
      · rw [if_neg hi]; rfl
    rw [hid]
    refine ⟨hB, fun j => ⟨Or.inr, ?_⟩⟩
    rintro (rfl | hj)
    · simp only [List.any_eq_true, decide_eq_true_eq] at h
      obtain ⟨e, he, rfl⟩ := h
      exact List.mem_map_of_mem he
    · exact hj
  · rw [if_neg h]
    refine ⟨?_, fun j => by simp [or_comm]⟩
    intro e he
    rcases List.mem_append.1 he with he | he
    · exact hB e he
    · simp only [List.mem_singleton] at he
      subst he; rfl

theorem boundOf_ok (box : Nat → Box) (bounds : List (Nat × Box)) (hB : BoundsOK box bounds) (i : Nat)
    (hi : i ∈ bounds.map (·.1)) : boundOf bounds i = some (box i) := by
  unfold boundOf
  cases hf : bounds.find? (fun e => decide (e.1 = i)) with
  | none =>
    obtain ⟨e, he, rfl⟩ := List.mem_map.1 hi
    simpa using List.find?_eq_none.1 hf e he
  | some e =>
    have h1 := List.mem_of_find?_eq_some hf
    have h2 : e.1 = i := by simpa using List.find?_some hf
    rw [Option.map_some, hB e h1, h2]

theorem clipParam_ok (imgs : Nat → Img R) (box : Nat → Box) (param : List (Patch R × Nat)) :
    (∀ e ∈ param, FullBox (imgs e.2) (box e.2) ∧
      (Outside (imgs e.2) e.1 ∨ Fills (imgs e.2) e.1 (box e.2))) →
    ∀ bounds, BoundsOK box bounds →
    ∃ bounds', clipParam imgs param bounds = .ok (param.map (clipOne imgs), bounds') ∧ BoundsOK box bounds' ∧
      (∀ j, j ∈ bounds.map (·.1) → j ∈ bounds'.map (·.1)) ∧
      ∀ e ∈ param, Fills (imgs e.2) e.1 (box e.2) → e.2 ∈ bounds'.map (·.1) := by
  induction param with
  | nil => intro _ bounds hB; exact ⟨bounds, rfl, hB, fun _ h => h, by simp⟩
  | cons p param ih =>
    intro h bounds hB
    obtain ⟨d, i⟩ := p
    obtain ⟨hb, hor⟩ := h (d, i) (by simp)
    simp only at hb hor
    have ih' := ih (fun e he => h e (by simp [he]))
    by_cases hf : Fills (imgs i) d (box i)
    · obtain ⟨q, P, hq, -, hext, -⟩ := clip_fills _ _ _ hb hf
      obtain ⟨hW, hWm⟩ := widen_ok box bounds hB i
      obtain ⟨bounds', g1, g2, g3, g4⟩ := ih' (widen bounds i (box i)) hW
      refine ⟨bounds', ?_, g2, fun j hj => g3 j ((hWm j).2 (Or.inr hj)), ?_⟩
      · simp only [clipParam, hq, hext, if_true, g1, List.map_cons, clipOne]
      · intro e he hfe
        rcases List.mem_cons.1 he with rfl | he
        · exact g3 i ((hWm i).2 (Or.inl rfl))
        · exact g4 e he hfe
    · obtain ⟨q, hq, -, -⟩ := clip_outside _ _ (hor.resolve_right hf)
      obtain ⟨bounds', g1, g2, g3, g4⟩ := ih' bounds hB
      refine ⟨bounds', ?_, g2, g3, ?_⟩
      · simp only [clipParam, hq, Bool.false_eq_true, if_false, g1, List.map_cons, clipOne]
      · intro e he hfe
        rcases List.mem_cons.1 he with rfl | he
        · exact absurd hfe hf
        · exact g4 e he hfe

theorem clipAll_ok (imgs : Nat → Img R) (box : Nat → Box) (ds : Derivs R) :
    (∀ param ∈ ds, ∀ e ∈ param, FullBox (imgs e.2) (box e.2) ∧
      (Outside (imgs e.2) e.1 ∨ Fills (imgs e.2) e.1 (box e.2))) →
    ∀ bounds, BoundsOK box bounds →
    ∃ bounds', clipAll imgs ds bounds = .ok (ds.map (List.map (clipOne imgs)), bounds') ∧ BoundsOK box bounds' ∧
      (∀ j, j ∈ bounds.map (·.1) → j ∈ bounds'.map (·.1)) ∧
      ∀ param ∈ ds, ∀ e ∈ param, Fills (imgs e.2) e.1 (box e.2) → e.2 ∈ bounds'.map (·.1) := by
  induction ds with
  | nil => intro _ bounds hB; exact ⟨bounds, rfl, hB, fun _ h => h, by simp⟩
  | cons p ds ih =>
    intro h bounds hB
    obtain ⟨b1, g1, g2, g3, g4⟩ := clipParam_ok imgs box p (h p (by simp)) bounds hB
    obtain ⟨b2, f1, f2, f3, f4⟩ := ih (fun q hq => h q (by simp [hq])) b1 g2
    refine ⟨b2, by simp only [clipAll, g1, f1, List.map_cons], f2, fun j hj => f3 j (g3 j hj), ?_⟩
    intro q hq e he hf
    rcases List.mem_cons.1 hq with rfl | hq
    · exact f3 _ (g4 e he hf)
    · exact f4 q hq e he hf

theorem smartOffsets_ok (box : Nat → Box) (bounds : List (Nat × Box)) (l : List Nat) :
    (∀ i ∈ l, boundOf bounds i = some (box i)) → ∀ acc,
    smartOffsets bounds l acc = .ok (l.foldl (offsetStep (fun i => (box i).npix)) acc) := by
  induction l with
  | nil => intro _ acc; rfl
  | cons i l ih =>
    intro h acc
    have ih' := ih (fun j hj => h j (by simp [hj]))
    simp only [smartOffsets, List.foldl_cons, offsetStep]
    by_cases ha : acc.1.any (fun e => decide (e.1 = i)) = true
    · rw [if_pos ha, if_pos ha, ih']
    · rw [if_neg ha, if_neg ha, h i (by simp)]
      exact ih' _

theorem cut_ok (A : Arr R) (im : Img R) (b : Box) (hb : FullBox im b) (h1 : A.h = im.h) (h2 : A.w = im.w) :
    cut A b = ⟨(b.2.2.2 - b.2.2.1).toNat, (b.2.1 - b.1).toNat, fun r c => A.px (b.2.2.1.toNat + r) (b.1.toNat + c)⟩ := by
  obtain ⟨x0, x1, y0, y1⟩ := b
  simp only [FullBox] at hb
  rw [cut, slice_range A y0 y1 x0 x1 (by omega) (by omega) (by omega) (by omega) (by omega) (by omega)]

theorem npix_crop (imgs : Nat → Img R) (box : Nat → Box) (i : Nat) (hb : FullBox (imgs i) (box i)) :
    (cropImg imgs box i).npix = (box i).npix := by
  simp only [cropImg, Img.npix, Box.npix, FullBox] at *
  rw [Int.toNat_mul (by omega) (by omega), Nat.mul_comm]

/-! ### The matrix -/

theorem smartParam_eq (imgs : Nat → Img R) (box : Nat → Box) (bounds : List (Nat × Box)) (offs : List (Nat × Nat))
    (col : Nat) (param : List (Patch R × Nat)) :
    (∀ e ∈ param, FullBox (imgs e.2) (box e.2) ∧ boundOf bounds e.2 = some (box e.2) ∧
      (imgs e.2).inverr.h = (imgs e.2).h ∧ (imgs e.2).inverr.w = (imgs e.2).w ∧
      (Outside (imgs e.2) e.1 ∨ Fills (imgs e.2) e.1 (box e.2))) →
    ∀ acc, smartParam imgs bounds offs col (param.map (clipOne imgs)) acc =
      denseParam (cropImg imgs box) offs col (param.map (cropOne imgs)) acc := by
  induction param with
  | nil => intro _ acc; rfl
  | cons p param ih =>
    intro h acc
    obtain ⟨d, i⟩ := p
    obtain ⟨A, s⟩ := acc
    obtain ⟨hb, hbd, h1, h2, hor⟩ := h (d, i) (by simp)
    simp only at hb hbd h1 h2 hor
    have ih' := ih (fun e he => h e (by simp [he]))
    by_cases hf : Fills (imgs i) d (box i)
    · obtain ⟨q, P, hq, hP, hext, hh, hw, -⟩ := clip_fills _ _ _ hb hf
      simp only [List.map_cons, clipOne, cropOne, smartParam, denseParam, denseColumn, hq, hP, hbd, hext, if_true]
      have e1 : P.h = (cropImg imgs box i).h ∧ P.w = (cropImg imgs box i).w := by
        simp only [cropImg]; exact ⟨hh, hw⟩
      have e2 : P.h = (cut (imgs i).inverr (box i)).h ∧ P.w = (cut (imgs i).inverr (box i)).w := by
        rw [cut_ok _ _ _ hb h1 h2]; exact ⟨hh, hw⟩
      rw [if_pos ⟨trivial, trivial, e1⟩]
      simp only []
      cases lookupOff offs i with
      | error e => rfl
      | ok row0 =>
        simp only []
        rw [if_pos e2]
        exact ih' _
    · obtain ⟨q, hq, hqn, -⟩ := clip_outside _ _ (hor.resolve_right hf)
      simp only [List.map_cons, clipOne, cropOne, smartParam, denseParam, denseColumn, hq, hqn]
      exact ih' _

theorem smartAll_eq (imgs : Nat → Img R) (box : Nat → Box) (bounds : List (Nat × Box)) (offs : List (Nat × Nat))
    (ds : Derivs R) :
    (∀ param ∈ ds, ∀ e ∈ param, FullBox (imgs e.2) (box e.2) ∧ boundOf bounds e.2 = some (box e.2) ∧
      (imgs e.2).inverr.h = (imgs e.2).h ∧ (imgs e.2).inverr.w = (imgs e.2).w ∧
      (Outside (imgs e.2) e.1 ∨ Fills (imgs e.2) e.1 (box e.2))) →
    ∀ (live : List Bool), live.length = ds.length → ∀ (col : Nat) (A : Dense R),
    smartAll imgs bounds offs col ((ds.map (List.map (clipOne imgs))).zip live) A =
      denseAll (cropImg imgs box) offs col (keep live (ds.map (List.map (cropOne imgs)))) A := by
  induction ds with
  | nil => intro _ live hl col A; cases live <;> simp_all [keep, smartAll, denseAll]
  | cons p ds ih =>
    intro h live hl col A
    have ih' := ih (fun q hq => h q (by simp [hq]))
    cases live with
    | nil => simp at hl
    | cons b live =>
      have hl' : live.length = ds.length := by simpa using hl
      cases b with
      | false =>
        simp only [List.map_cons, List.zip_cons_cons, smartAll, Bool.false_eq_true, if_false, keep]
        exact ih' live hl' col A
      | true =>
        simp only [List.map_cons, List.zip_cons_cons, smartAll, if_true, keep, denseAll]
        rw [smartParam_eq imgs box bounds offs col p (h p (by simp))]
        cases denseParam (cropImg imgs box) offs col (p.map (cropOne imgs)) (A, 0) with
        | error e => rfl
        | ok r =>
          simp only []
          rw [ih' live hl' (col + 1) r.1]

theorem smartChi_eq (imgs : Nat → Img R) (box : Nat → Box) (bounds : List (Nat × Box)) (offs : List (Nat × Nat)) :
    (∀ e ∈ offs, FullBox (imgs e.1) (box e.1) ∧ boundOf bounds e.1 = some (box e.1)) →
    ∀ B, smartChi imgs bounds offs B = fillChi (cropImg imgs box) offs B := by
  induction offs with
  | nil => intro _ B; rfl
  | cons e offs ih =>
    intro h B
    obtain ⟨hb, hbd⟩ := h e (by simp)
    simp only [smartChi, fillChi]
    rw [ih (fun e' he' => h e' (by simp [he']))]
    congr 1
    funext r
    rw [hbd, npix_crop imgs box e.1 hb]
    rfl

end Verif.Lsq
