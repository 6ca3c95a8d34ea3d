import Verif.Linmod.Model
import Verif.Forced.PropsGetims

namespace Verif.Linmod

open Verif Patches Forced

variable {R M : Type} [Field R] [LinearOrder R]

/-- The value of a patch at a pixel. -/
def valAt (x y : Int) : Option (Patch R) → R
  | none => 0
  | some p => p.at x y

/-- The sum of patches at a pixel. -/
def sumAt (x y : Int) (l : List (Option (Patch R))) : R := (l.map (valAt x y)).sum

omit [LinearOrder R] in
theorem sumAt_append (x y : Int) (a b : List (Option (Patch R))) : sumAt x y (a ++ b) = sumAt x y a + sumAt x y b := by
  unfold sumAt; rw [List.map_append, List.sum_append]

omit [LinearOrder R] in
theorem covers_zero (p : Patch R) (x y : Int) (h : ¬ p.covers x y) : p.at x y = 0 := by
  unfold Patch.at
  unfold Patch.covers at h
  cases hp : p.patch with
  | none => rfl
  | some A =>
    rw [hp] at h
    simp only at h ⊢
    rw [if_neg h]

omit [LinearOrder R] in
theorem addPatches_ok : ∀ (l : List (Option (Patch R))) (m : Arr R),
    ∃ m', addPatches l m = .ok m' ∧ m'.h = m.h ∧ m'.w = m.w ∧
      ∀ y x : Nat, y < m.h → x < m.w → m'.px y x = m.px y x + sumAt x y l := by
  intro l
  induction l with
  | nil => intro m; exact ⟨m, rfl, rfl, rfl, fun y x _ _ => (add_zero _).symm⟩
  | cons a l ih =>
    intro m
    cases a with
    | none =>
      obtain ⟨m', h1, h2, h3, h4⟩ := ih m
      exact ⟨m', h1, h2, h3, fun y x hy hx => by rw [h4 y x hy hx]; simp [sumAt, valAt]⟩
    | some p =>
      obtain ⟨m1, g1, g2, g3, g4⟩ := addTo_ok p m 1
      obtain ⟨m', h1, h2, h3, h4⟩ := ih m1
      refine ⟨m', ?_, h2.trans g2, h3.trans g3, fun y x hy hx => ?_⟩
      · rw [addPatches, g1]; exact h1
      · rw [h4 y x (by omega) (by omega), g4 y x hy hx]
        have e : sumAt x y (some p :: l) = p.at x y + sumAt x y l := rfl
        rw [e]
        by_cases hc : p.covers x y
        · rw [if_pos hc]; ring
        · rw [if_neg hc, covers_zero p x y hc]; ring

theorem countsAt_cons (scale f : R) (um : Option (Patch R)) (l : List (R × Option (Patch R))) (x y : Int) :
    countsAt none scale x y ((f, um) :: l) = f * scale * valAt x y um + countsAt none scale x y l := by
  cases um with
  | none => simp [countsAt, valAt]
  | some p => rfl

/-- The model image at a pixel. -/
theorem modelImage_ok (W : World R M) (img : Img R) (minsb : R) (sky : Bool) (srcs : List (Source R)) :
    ∃ A, modelImage W img minsb sky srcs = .ok A ∧ A.h = img.h ∧ A.w = img.w ∧ ∀ y x : Nat, y < img.h → x < img.w →
      A.px y x = (if sky then img.sky else 0) + sumAt x y (srcs.map (modelOf W img minsb)).flatten := by
  obtain ⟨A, h1, h2, h3, h4⟩ := addPatches_ok (srcs.map (modelOf W img minsb)).flatten
    (if sky then addSky img (Arr.zeros img.h img.w) else Arr.zeros img.h img.w)
  have eh : (if sky then addSky img (Arr.zeros img.h img.w) else Arr.zeros img.h img.w).h = img.h := by cases sky <;> rfl
  have ew : (if sky then addSky img (Arr.zeros img.h img.w) else Arr.zeros img.h img.w).w = img.w := by cases sky <;> rfl
  refine ⟨A, h1, h2.trans eh, h3.trans ew, fun y x hy hx => ?_⟩
  rw [h4 y x (by omega) (by omega)]
  congr 1
  cases sky
  · rfl
  · simp [addSky, Arr.zeros, Arr.map]

/-- What is needed of a source: each part has the band of the image thawed and no other; the source is seen. -/
structure Fit (W : World R M) (img : Img R) (minsb : R) (s : Source R) : Prop where
  bands : ∀ b ∈ s.parts, b.thawed = [img.band]
  seen : W.expect = true → (W.mask s.id).isSome
  same : ∀ k c, c ≠ 0 → W.unit s.id k (partMinsb img s.parts.length minsb / c) (W.mask s.id) =
    W.unit s.id k (partMinval s.parts.length (fitMinval img minsb s)) (W.mask s.id)

theorem parts_sum (W : World R M) (img : Img R) (id : Nat) (mb mv : R) (hseen : W.expect = true → (W.mask id).isSome)
    (hsame : ∀ k c, c ≠ 0 → W.unit id k (mb / c) (W.mask id) = W.unit id k mv (W.mask id)) (x y : Int) (U : List (Option (Patch R))) :
    ∀ (bs : List (Bright R)) (k : Nat) (p : List R), (∀ b ∈ bs, b.thawed = [img.band]) → bs.length ≤ p.length →
      countsAt none img.scale x y (p.zip (unitParts W id mv k bs ++ U)) =
        sumAt x y (modelParts W img id mb k (setParts bs p).1) + countsAt none img.scale x y ((setParts bs p).2.zip U) ∧
      (setParts bs p).2.length = p.length - bs.length ∧ (setParts bs p).1.length = bs.length := by
  intro bs
  induction bs with
  | nil =>
    intro k p _ _
    refine ⟨?_, rfl, rfl⟩
    change _ = sumAt x y [] + _
    rw [show sumAt x y ([] : List (Option (Patch R))) = 0 from rfl, zero_add]; rfl
  | cons b bs ih =>
    intro k p hb hl
    cases p with
    | nil => simp at hl
    | cons f p =>
      obtain ⟨h1, h2, h3⟩ := ih (k + 1) p (fun b' hb' => hb b' (List.mem_cons_of_mem _ hb')) (by simpa using hl)
      have e : setParts (b :: bs) (f :: p) =
          ({ b with flux := fun c => if c = img.band then f else b.flux c } :: (setParts bs p).1, (setParts bs p).2) := by
        rw [setParts, hb b (List.mem_cons_self ..)]; rfl
      rw [e]
      refine ⟨?_, by rw [h2]; simp, by rw [List.length_cons, h3, List.length_cons]⟩
      rw [unitParts, List.cons_append, List.zip_cons_cons, countsAt_cons, h1, modelParts]
      have hexp : ¬ ((W.expect && (W.mask id).isNone) = true) := by
        cases he : W.expect with
        | false => simp
        | true =>
          have := hseen he
          cases hm : W.mask id with
          | none => rw [hm] at this; simp at this
          | some _ => simp
      rw [if_neg hexp]
      have ec : counts img { b with flux := fun c => if c = img.band then f else b.flux c } = f * img.scale := by
        unfold counts; simp
      rw [ec]
      have key : f * img.scale * valAt x y (W.unit id k mv (W.mask id)) =
          valAt x y (if f * img.scale = 0 then none else
            (W.unit id k (mb / (f * img.scale)) (W.mask id)).map (fun q => q.mul (f * img.scale))) := by
        by_cases h0 : f * img.scale = 0
        · rw [if_pos h0, h0, zero_mul]; rfl
        · rw [if_neg h0, hsame k _ h0]
          cases W.unit id k mv (W.mask id) with
          | none => exact mul_zero _
          | some q =>
            change _ = (q.mul (f * img.scale)).at x y
            rw [at_mul]
            change _ * q.at x y = _
            ring
      rw [key]
      have e2 : ∀ (a : Option (Patch R)) l, sumAt x y (a :: l) = valAt x y a + sumAt x y l := fun _ _ => rfl
      rw [e2]
      ring

omit [Field R] [LinearOrder R] in
/-- The number of parameters that are needed. -/
theorem numParams_cons (s : Source R) (cat : List (Source R)) :
    numParams (s :: cat) = (if s.thawed then (s.parts.map (fun b => b.thawed.length)).sum else 0) + numParams cat := by
  unfold numParams
  cases h : s.thawed
  · rw [List.filter_cons_of_neg (by simp [h])]; simp
  · rw [List.filter_cons_of_pos (by simp [h])]; simp

omit [Field R] [LinearOrder R] in
theorem parts_params {band : String} : ∀ (bs : List (Bright R)), (∀ b ∈ bs, b.thawed = [band]) → (bs.map (fun b => b.thawed.length)).sum = bs.length := by
  intro bs
  induction bs with
  | nil => intro _; rfl
  | cons b bs ih =>
    intro h
    rw [List.map_cons, List.sum_cons, ih (fun b' hb' => h b' (List.mem_cons_of_mem _ hb')), h b (List.mem_cons_self ..)]
    simp; omega

theorem catalog_sum (W : World R M) (img : Img R) (minsb : R) (x y : Int) :
    ∀ (cat : List (Source R)) (p : List R), (∀ s ∈ cat, s.thawed = true → Fit W img minsb s) → p.length = numParams cat →
      sumAt x y ((setParams cat p).map (modelOf W img minsb)).flatten =
        sumAt x y ((cat.filter (fun s => !s.thawed)).map (modelOf W img minsb)).flatten +
          countsAt none img.scale x y (p.zip (umods W img minsb cat)) := by
  intro cat
  induction cat with
  | nil => intro p _ _; simp [setParams, sumAt, umods, countsAt]
  | cons s cat ih =>
    intro p hf hl
    rw [numParams_cons] at hl
    have hf' : ∀ s ∈ cat, s.thawed = true → Fit W img minsb s := fun s' hs' => hf s' (List.mem_cons_of_mem _ hs')
    cases ht : s.thawed with
    | false =>
      rw [ht] at hl
      simp only [Bool.false_eq_true, if_false, zero_add] at hl
      have e : setParams (s :: cat) p = s :: setParams cat p := by rw [setParams, ht]; rfl
      rw [e, List.map_cons, List.flatten_cons, sumAt_append, ih p hf' hl, List.filter_cons_of_pos (by simp [ht]), List.map_cons,
        List.flatten_cons, sumAt_append]
      have e2 : umods W img minsb (s :: cat) = umods W img minsb cat := by
        unfold umods; rw [List.filter_cons_of_neg (by simp [ht])]
      rw [e2]
      ring
    | true =>
      obtain ⟨hb, hseen, hsame⟩ := hf s (List.mem_cons_self ..) ht
      rw [ht, parts_params s.parts hb] at hl
      simp only [if_true] at hl
      have e : setParams (s :: cat) p = { s with parts := (setParts s.parts p).1 } :: setParams cat (setParts s.parts p).2 := by
        rw [setParams, ht]; rfl
      have e2 : umods W img minsb (s :: cat) = umodsOf W img minsb s ++ umods W img minsb cat := by
        unfold umods; rw [List.filter_cons_of_pos (by simp [ht])]; rfl
      obtain ⟨h1, h2, h3⟩ := parts_sum W img s.id (partMinsb img s.parts.length minsb)
        (partMinval s.parts.length (fitMinval img minsb s)) hseen hsame x y (umods W img minsb cat) s.parts 0 p hb (by omega)
      rw [e, List.map_cons, List.flatten_cons, sumAt_append, ih _ hf' (by rw [h2]; omega), e2]
      rw [List.filter_cons_of_neg (by simp [ht])]
      unfold umodsOf
      rw [h1]
      have e3 : modelOf W img minsb { s with parts := (setParts s.parts p).1 } =
          modelParts W img s.id (partMinsb img s.parts.length minsb) 0 (setParts s.parts p).1 := by
        unfold modelOf; rw [h3]
      rw [e3]
      ring

omit [Field R] [LinearOrder R] in
theorem unitParts_length (W : World R M) (id : Nat) (mv : R) : ∀ (bs : List (Bright R)) (k : Nat), (unitParts W id mv k bs).length = bs.length := by
  intro bs
  induction bs with
  | nil => intro _; rfl
  | cons b bs ih => intro k; rw [unitParts, List.length_cons, ih, List.length_cons]

theorem umods_length (W : World R M) (img : Img R) (minsb : R) : ∀ (cat : List (Source R)),
    (∀ s ∈ cat, s.thawed = true → ∀ b ∈ s.parts, b.thawed = [img.band]) → (umods W img minsb cat).length = numParams cat := by
  intro cat
  induction cat with
  | nil => intro _; rfl
  | cons s cat ih =>
    intro h
    have ih' := ih (fun s' hs' => h s' (List.mem_cons_of_mem _ hs'))
    rw [numParams_cons]
    cases ht : s.thawed with
    | false =>
      have e2 : umods W img minsb (s :: cat) = umods W img minsb cat := by
        unfold umods; rw [List.filter_cons_of_neg (by simp [ht])]
      rw [e2, ih']; simp
    | true =>
      have e2 : umods W img minsb (s :: cat) = umodsOf W img minsb s ++ umods W img minsb cat := by
        unfold umods; rw [List.filter_cons_of_pos (by simp [ht])]; rfl
      rw [e2, List.length_append, ih', umodsOf, unitParts_length, parts_params s.parts (h s (List.mem_cons_self ..) ht)]
      simp

/-- The linear model is the model image. -/
theorem fitted_eq (W : World R M) (img : Img R) (minsb : R) (sky : Bool) (cat : List (Source R)) (p : List R)
    (hf : ∀ s ∈ cat, s.thawed = true → Fit W img minsb s) (hl : p.length = numParams cat) :
    ∃ A B, fitted W img minsb sky cat p = .ok A ∧ modelImage W img minsb true (setParams cat p) = .ok B ∧
      A.h = B.h ∧ A.w = B.w ∧ ∀ y x : Nat, y < A.h → x < A.w → A.px y x = B.px y x := by
  obtain ⟨B, b1, b2, b3, b4⟩ := modelImage_ok W img minsb true (setParams cat p)
  obtain ⟨m, m1, m2, m3, m4⟩ := modelImage_ok W img minsb (!sky) (cat.filter (fun s => !s.thawed))
  have hlen := umods_length W img minsb cat (fun s hs ht => (hf s hs ht).bands)
  have hp : prepare W img minsb sky cat = .ok (umods W img minsb cat, m) := by
    unfold prepare
    simp only
    rw [if_neg (by simp [hlen]), m1]
  obtain ⟨A, a1, a2, a3, a4⟩ := addModels_ok none img.scale (p.zip (umods W img minsb cat)) (if sky then addSky img m else m)
  have eh : (if sky then addSky img m else m).h = img.h := by cases sky <;> exact m2
  have ew : (if sky then addSky img m else m).w = img.w := by cases sky <;> exact m3
  refine ⟨A, B, ?_, b1, by omega, by omega, fun y x hy hx => ?_⟩
  · unfold fitted; rw [hp]; exact a1
  · rw [a4 y x (by omega) (by omega), b4 y x (by omega) (by omega), catalog_sum W img minsb x y cat p hf hl, ← add_assoc]
    congr 1
    cases sky
    · exact m4 y x (by omega) (by omega)
    · have := m4 y x (by omega) (by omega)
      simp only [Bool.not_true, Bool.false_eq_true, if_false, zero_add] at this
      change m.px y x + img.sky = _
      rw [this]; simp [add_comm]

/-! ### Setting parameters twice -/

omit [Field R] [LinearOrder R] in
theorem setParts_twice {band : String} : ∀ (bs : List (Bright R)) (q p : List R), (∀ b ∈ bs, b.thawed = [band]) → bs.length ≤ q.length →
    bs.length ≤ p.length → (setParts (setParts bs q).1 p).1 = (setParts bs p).1 ∧ (setParts (setParts bs q).1 p).2 = (setParts bs p).2 ∧
      (setParts bs q).2.length = q.length - bs.length ∧ (setParts bs q).1.length = bs.length ∧ (∀ b ∈ (setParts bs q).1, b.thawed = [band]) := by
  intro bs
  induction bs with
  | nil => intro q p _ _ _; exact ⟨rfl, rfl, rfl, rfl, by simp [setParts]⟩
  | cons b bs ih =>
    intro q p hb hq hp
    cases q with
    | nil => simp at hq
    | cons g q =>
      cases p with
      | nil => simp at hp
      | cons f p =>
        obtain ⟨h1, h2, h3, h4, h5⟩ := ih q p (fun b' hb' => hb b' (List.mem_cons_of_mem _ hb')) (by simpa using hq) (by simpa using hp)
        have hbb := hb b (List.mem_cons_self ..)
        have e : ∀ (b : Bright R) bs (f : R) p, b.thawed = [band] → setParts (b :: bs) (f :: p) =
            ({ b with flux := fun c => if c = band then f else b.flux c } :: (setParts bs p).1, (setParts bs p).2) := by
          intro b bs f p h; rw [setParts, h]; rfl
        rw [e b bs g q hbb, e b bs f p hbb]
        dsimp only
        rw [e ⟨fun c => if c = band then g else b.flux c, b.thawed⟩ _ f p hbb]
        refine ⟨?_, h2, by rw [h3]; simp, by rw [List.length_cons, h4, List.length_cons], ?_⟩
        · dsimp only
          rw [h1]
          congr 2
          funext c
          by_cases hc : c = band <;> simp [hc]
        · intro b' hb'
          rcases List.mem_cons.1 hb' with rfl | hb'
          · exact hbb
          · exact h5 b' hb'

omit [Field R] [LinearOrder R] in
theorem setParams_twice {band : String} : ∀ (cat : List (Source R)) (q p : List R),
    (∀ s ∈ cat, s.thawed = true → ∀ b ∈ s.parts, b.thawed = [band]) → q.length = numParams cat → p.length = numParams cat →
      setParams (setParams cat q) p = setParams cat p ∧ numParams (setParams cat q) = numParams cat ∧
      ∀ s' ∈ setParams cat q, ∃ s ∈ cat, s'.id = s.id ∧ s'.thawed = s.thawed ∧ (s.thawed = true → ∀ b ∈ s'.parts, b.thawed = [band]) := by
  intro cat
  induction cat with
  | nil => intro q p _ _ _; exact ⟨rfl, rfl, by simp [setParams]⟩
  | cons s cat ih =>
    intro q p hb hq hp
    rw [numParams_cons] at hq hp
    have hb' : ∀ s ∈ cat, s.thawed = true → ∀ b ∈ s.parts, b.thawed = [band] := fun s' hs' => hb s' (List.mem_cons_of_mem _ hs')
    have eT : ∀ (s : Source R) cat p, s.thawed = true → setParams (s :: cat) p =
        { s with parts := (setParts s.parts p).1 } :: setParams cat (setParts s.parts p).2 := by
      intro s cat p h; rw [setParams, h]; rfl
    have eF : ∀ (s : Source R) cat p, s.thawed = false → setParams (s :: cat) p = s :: setParams cat p := by
      intro s cat p h; rw [setParams, h]; rfl
    cases ht : s.thawed with
    | false =>
      rw [ht] at hq hp
      simp only [Bool.false_eq_true, if_false, zero_add] at hq hp
      obtain ⟨h1, h2, h3⟩ := ih q p hb' hq hp
      rw [eF s _ q ht, eF s _ p ht, eF s _ p ht, h1]
      refine ⟨rfl, by rw [numParams_cons, numParams_cons, h2], ?_⟩
      intro s' hs'
      rcases List.mem_cons.1 hs' with rfl | hs'
      · exact ⟨s', List.mem_cons_self .., rfl, rfl, fun h => by rw [ht] at h; cases h⟩
      · obtain ⟨t, a, b⟩ := h3 s' hs'
        exact ⟨t, List.mem_cons_of_mem _ a, b⟩
    | true =>
      have hbs := hb s (List.mem_cons_self ..) ht
      rw [ht, parts_params s.parts hbs] at hq hp
      simp only [if_true] at hq hp
      obtain ⟨g1, g2, g3, g4, g5⟩ := setParts_twice s.parts q p hbs (by omega) (by omega)
      have g3' := (setParts_twice s.parts p p hbs (by omega) (by omega)).2.2.1
      obtain ⟨h1, h2, h3⟩ := ih (setParts s.parts q).2 (setParts s.parts p).2 hb' (by rw [g3]; omega) (by rw [g3']; omega)
      rw [eT s _ q ht, eT s _ p ht, eT ⟨s.id, s.thawed, (setParts s.parts q).1⟩ _ p ht]
      dsimp only
      rw [g1, g2, h1]
      refine ⟨rfl, ?_, ?_⟩
      · rw [numParams_cons, numParams_cons, h2]
        dsimp only
        rw [parts_params _ g5, parts_params _ hbs, g4]
      · intro s' hs'
        rcases List.mem_cons.1 hs' with rfl | hs'
        · exact ⟨s, List.mem_cons_self .., rfl, rfl, fun _ => g5⟩
        · obtain ⟨t, a, b⟩ := h3 s' hs'
          exact ⟨t, List.mem_cons_of_mem _ a, b⟩

/-- Two ways in which the threshold does not matter. -/
theorem fit_of (W : World R M) (img : Img R) (minsb : R) (s : Source R) (hb : ∀ b ∈ s.parts, b.thawed = [img.band])
    (hs : W.expect = true → (W.mask s.id).isSome)
    (h : (∀ k a b, W.unit s.id k a (W.mask s.id) = W.unit s.id k b (W.mask s.id)) ∨
      (minsb = 0 ∧ 0 < (s.parts.map (counts img)).sum ∧ (s.parts.length = 2 → img.minval = 0))) : Fit W img minsb s := by
  refine ⟨hb, hs, fun k c hc => ?_⟩
  rcases h with h | ⟨h0, hp, h2⟩
  · exact h _ _ _
  · have e1 : partMinsb img s.parts.length minsb = 0 := by
      unfold partMinsb
      by_cases hh : s.parts.length = 2
      · rw [if_pos hh, if_pos h0, h2 hh]
      · rw [if_neg hh, h0]
    have e2 : fitMinval img minsb s = 0 := by
      unfold fitMinval
      simp only
      rw [if_neg (not_le.2 hp), h0, zero_div]
    have e3 : partMinval s.parts.length (0 : R) = 0 := by
      unfold partMinval
      split <;> simp
    rw [e1, e2, e3, zero_div]

end Verif.Linmod
