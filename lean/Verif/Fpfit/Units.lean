import Verif.Fpfit.PropsGroups
import Mathlib.Algebra.BigOperators.Group.List.Basic

/-!
# Order and units of the images (C151): lemmas
-/

namespace Verif.Fpfit

open Verif Patches Forced Linmod Finset

variable {R M : Type} [Field R] [LinearOrder R]

/-- Chi-squared of an image. -/
def chi2 (minsb : R) (cat : List (Source R)) (t : Tim R M) : R :=
  ∑ y ∈ range t.data.h, ∑ x ∈ range t.data.w,
    ((t.data.px y x - (t.sky + light t minsb cat y x)) * t.ie.px y x) * ((t.data.px y x - (t.sky + light t minsb cat y x)) * t.ie.px y x)

/-- The log-likelihood is the sum over the images. -/
theorem logLike_list (minsb : R) (tims : List (Tim R M)) (cat : List (Source R)) (hs : ∀ t ∈ tims, t.ie.h = t.data.h ∧ t.ie.w = t.data.w) :
    logLike minsb tims cat = .ok (-(1 / 2) * (tims.map (chi2 minsb cat)).sum) := by
  have key : ∀ tims : List (Tim R M), (∀ t ∈ tims, t.ie.h = t.data.h ∧ t.ie.w = t.data.w) →
      ∃ As, chiImages minsb cat tims = .ok As ∧ chisqOf As = (tims.map (chi2 minsb cat)).sum := by
    intro tims
    induction tims with
    | nil => intro _; exact ⟨[], rfl, rfl⟩
    | cons t ts ih =>
      intro hs
      obtain ⟨As, h1, h2⟩ := ih (fun t h => hs t (List.mem_cons_of_mem _ h))
      obtain ⟨A, a1, a2, a3, a4⟩ := modelImage_ok t.W t.img minsb true cat
      obtain ⟨g1, g2⟩ := hs t List.mem_cons_self
      have ah : A.h = t.data.h := a2
      have aw : A.w = t.data.w := a3
      have e1 : bc (· - ·) t.data A = .ok ⟨t.data.h, t.data.w, fun r c => t.data.px r c - A.px r c⟩ := by
        unfold bc bcDim
        rw [ah, aw, if_pos rfl, if_pos rfl]
        dsimp only
        simp only [if_true]
      have e2 : bc (· * ·) (⟨t.data.h, t.data.w, fun r c => t.data.px r c - A.px r c⟩ : Arr R) t.ie =
          .ok ⟨t.data.h, t.data.w, fun r c => (t.data.px r c - A.px r c) * t.ie.px r c⟩ := by
        unfold bc bcDim
        rw [g1, g2, if_pos rfl, if_pos rfl]
        dsimp only
        simp only [if_true]
      have e3 : chiImage minsb cat t = .ok ⟨t.data.h, t.data.w, fun r c => (t.data.px r c - A.px r c) * t.ie.px r c⟩ := by
        unfold chiImage; rw [a1]; dsimp only; rw [e1]; dsimp only; rw [e2]
      refine ⟨_ :: As, by unfold chiImages; rw [e3, h1], ?_⟩
      have e4 : ∀ B : Arr R, chisqOf (B :: As) = sumSq B + chisqOf As := fun B => by unfold chisqOf; rw [List.map_cons, List.sum_cons]
      rw [e4, h2, List.map_cons, List.sum_cons]
      congr 1
      unfold chi2
      refine sumSq_of _ _ _ (fun y x => (t.data.px y x - (t.sky + light t minsb cat y x)) * t.ie.px y x) rfl rfl (fun y x hy hx => ?_)
      dsimp only
      rw [a4 y x hy hx]
      rfl
  obtain ⟨As, h1, h2⟩ := key tims hs
  unfold logLike
  rw [h1]
  dsimp only
  rw [h2]

/-- An image with no information adds nothing. -/
theorem chi2_masked (minsb : R) (cat : List (Source R)) (t : Tim R M) (h : ∀ y x : Nat, y < t.data.h → x < t.data.w → t.ie.px y x = 0) : chi2 minsb cat t = 0 := by
  unfold chi2
  refine sum_eq_zero (fun y hy => sum_eq_zero (fun x hx => ?_))
  rw [h y x (mem_range.1 hy) (mem_range.1 hx), mul_zero, mul_zero]

/-! ### Order -/

omit [Field R] [LinearOrder R] in
theorem setSky_zip : ∀ (tims : List (Tim R M)) (l : List R), l.length = tims.length →
    setSky tims l = (tims.zip l).map (fun p => { p.1 with sky := p.2 }) := by
  intro tims
  induction tims with
  | nil => intro l _; rfl
  | cons t ts ih =>
    intro l h
    cases l with
    | nil => simp at h
    | cons v l =>
      rw [setSky, List.zip_cons_cons, List.map_cons]
      congr 1
      exact ih l (by simpa using h)

omit [Field R] [LinearOrder R] in
/-- Sky levels follow their images. -/
theorem zip_perm {a b : List (Tim R M)} (h : a.Perm b) : ∀ l : List R, l.length = a.length → ∃ l' : List R, l'.length = b.length ∧ (a.zip l).Perm (b.zip l') := by
  induction h with
  | nil => intro l hl; exact ⟨l, hl, .refl _⟩
  | cons t h ih =>
    intro l hl
    cases l with
    | nil => simp at hl
    | cons v l =>
      obtain ⟨l', h1, h2⟩ := ih l (by simpa using hl)
      exact ⟨v :: l', by simp [h1], by simpa using h2.cons (t, v)⟩
  | swap t u a =>
    intro l hl
    match l, hl with
    | [], hl => simp at hl
    | [_], hl => simp at hl
    | v :: w :: l, hl => exact ⟨w :: v :: l, by simpa using hl, by simpa using List.Perm.swap _ _ _⟩
  | trans _ _ ih1 ih2 =>
    intro l hl
    obtain ⟨l1, h1, h2⟩ := ih1 l hl
    obtain ⟨l2, h3, h4⟩ := ih2 l1 h1
    exact ⟨l2, h3, h2.trans h4⟩

omit [Field R] [LinearOrder R] in
theorem setSky_append : ∀ (a b : List (Tim R M)) (l m : List R), l.length = a.length → setSky (a ++ b) (l ++ m) = setSky a l ++ setSky b m := by
  intro a
  induction a with
  | nil => intro b l m h; rw [List.length_nil, List.length_eq_zero_iff] at h; subst h; rfl
  | cons t a ih =>
    intro b l m h
    cases l with
    | nil => simp at h
    | cons v l =>
      rw [List.cons_append, List.cons_append, setSky, setSky, List.cons_append]
      congr 1
      exact ih b l m (by simpa using h)

omit [Field R] [LinearOrder R] in
theorem setSky_mem {tims : List (Tim R M)} {l : List R} {t : Tim R M} (h : t ∈ setSky tims l) : ∃ t0 ∈ tims, ∃ v, t = { t0 with sky := v } := by
  obtain ⟨i, hi⟩ := List.mem_iff_getElem?.1 h
  rw [setSky_get] at hi
  cases h0 : tims[i]? with
  | none => rw [h0] at hi; cases hi
  | some t0 =>
    rw [h0] at hi
    injection hi with hi
    exact ⟨t0, List.mem_of_getElem? h0, _, hi.symm⟩

/-- The images after the parameters have been set have the shapes they had. -/
theorem after_shape (sky : Bool) (tims : List (Tim R M)) (cat : List (Source R)) (q : St R) (hs : ∀ t ∈ tims, t.ie.h = t.data.h ∧ t.ie.w = t.data.w) :
    ∀ t ∈ (after sky tims cat q).1, t.ie.h = t.data.h ∧ t.ie.w = t.data.w := by
  intro t ht
  unfold after at ht
  cases sky with
  | false => exact hs t ht
  | true =>
    obtain ⟨t0, h0, v, rfl⟩ := setSky_mem (show t ∈ setSky tims q.sky from ht)
    exact hs t0 h0

/-! ### Units -/

/-- The image in other units: `a` times data, calibration, sky and `modelMinval`; errors to match. -/
def Tim.inUnits (t : Tim R M) (a : R) : Tim R M :=
  { t with data := t.data.map (a * ·), ie := t.ie.map (· / a), scale := a * t.scale, sky := a * t.sky, minval := a * t.minval }

theorem parts_units (W : World R M) (img img' : Img R) (a : R) (ha : a ≠ 0) (hb : img'.band = img.band) (hc : img'.scale = a * img.scale) (id : Nat) (m : R) (x y : Int) :
    ∀ (bs : List (Bright R)) (k : Nat), sumAt x y (modelParts W img' id (a * m) k bs) = a * sumAt x y (modelParts W img id m k bs) := by
  intro bs
  induction bs with
  | nil => intro k; simp [modelParts, sumAt]
  | cons b bs ih =>
    intro k
    have e : ∀ (o : Option (Patch R)) l, sumAt x y (o :: l) = valAt x y o + sumAt x y l := fun _ _ => rfl
    rw [modelParts, modelParts, e, e, ih]
    have ec : counts img' b = a * counts img b := by unfold counts; rw [hb, hc]; ring
    rw [ec, mul_add]
    congr 1
    by_cases h1 : (W.expect && (W.mask id).isNone) = true
    · rw [if_pos h1, if_pos h1]; simp [valAt]
    rw [if_neg h1, if_neg h1]
    by_cases h2 : counts img b = 0
    · rw [if_pos h2, if_pos (by rw [h2, mul_zero])]; simp [valAt]
    rw [if_neg h2, if_neg (mul_ne_zero ha h2), mul_div_mul_left _ _ ha]
    cases W.unit id k (m / counts img b) (W.mask id) with
    | none => simp [valAt]
    | some p =>
      change (p.mul (a * counts img b)).at x y = a * (p.mul (counts img b)).at x y
      rw [at_mul, at_mul]; ring

theorem light_units (t : Tim R M) (a v v' : R) (ha : a ≠ 0) (y x : Nat) : ∀ srcs : List (Source R),
    light { t.inUnits a with sky := v' } 0 srcs y x = a * light { t with sky := v } 0 srcs y x := by
  intro srcs
  induction srcs with
  | nil => simp [light, sumAt]
  | cons s l ih =>
    have hc : ∀ (t : Tim R M) l', light t 0 (s :: l') y x = sumAt x y (modelOf t.W t.img 0 s) + light t 0 l' y x := by
      intro t l'
      unfold light
      rw [List.map_cons, List.flatten_cons, sumAt_append]
    rw [hc, hc, ih, mul_add]
    congr 1
    have hm : partMinsb { t.inUnits a with sky := v' }.img s.parts.length 0 = a * partMinsb { t with sky := v }.img s.parts.length (0 : R) := by
      unfold partMinsb
      by_cases h : s.parts.length = 2
      · rw [if_pos h, if_pos h, if_pos rfl, if_pos rfl]; rfl
      · rw [if_neg h, if_neg h, mul_zero]
    unfold modelOf
    rw [hm]
    exact parts_units t.W { t with sky := v }.img { t.inUnits a with sky := v' }.img a ha rfl rfl s.id _ x y s.parts 0

theorem chi2_units (t : Tim R M) (a v : R) (ha : a ≠ 0) (cat : List (Source R)) :
    chi2 0 cat { t.inUnits a with sky := a * v } = chi2 0 cat { t with sky := v } := by
  unfold chi2
  refine sum_congr rfl (fun y _ => sum_congr rfl (fun x _ => ?_))
  rw [light_units t a v (a * v) ha]
  have e : ((a * t.data.px y x - (a * v + a * light { t with sky := v } 0 cat y x)) * (t.ie.px y x / a)) =
      (t.data.px y x - (v + light { t with sky := v } 0 cat y x)) * t.ie.px y x := by
    field_simp
  exact congrArg₂ (· * ·) e e

end Verif.Fpfit
