import Verif.Fpfit.Dir
import Verif.Fpfit.Lsq
import Verif.Lsq.Props

namespace Verif.Fpfit

open Verif Patches Forced Linmod Finset

variable {R M : Type} [Field R] [LinearOrder R]

/-! ### Slopes -/

omit [LinearOrder R] in
theorem slope_append (imgs : Nat → Lsq.Img R) (a b : List (Patch R × Nat)) (i y x : Nat) :
    Lsq.slope imgs (a ++ b) i y x = Lsq.slope imgs a i y x + Lsq.slope imgs b i y x := by
  unfold Lsq.slope; rw [List.filter_append, List.map_append, List.sum_append]

omit [LinearOrder R] in
theorem slope_one (imgs : Nat → Lsq.Img R) (p : Patch R) (j i y x : Nat) :
    Lsq.slope imgs [(p, j)] i y x = if j = i then p.at x y * (imgs i).inverr.px y x else 0 := by
  unfold Lsq.slope
  by_cases h : j = i
  · rw [if_pos h]; simp [h]
  · rw [if_neg h]; simp [h]

omit [LinearOrder R] in
theorem appendOne_cons (i : Nat) (scale : R) (u : Option (Patch R)) (us : List (Option (Patch R))) (d : List (Patch R × Nat)) (ds : Lsq.Derivs R) :
    appendOne i scale (u :: us) (d :: ds) = (match u with | none => d | some p => d ++ [(p.mul scale, i)]) :: appendOne i scale us ds := rfl

omit [LinearOrder R] in
theorem appendOne_length (i : Nat) (scale : R) : ∀ (us : List (Option (Patch R))) (ds : Lsq.Derivs R), (appendOne i scale us ds).length = ds.length := by
  intro us
  induction us with
  | nil => intro ds; cases ds <;> rfl
  | cons u us ih =>
    intro ds
    cases ds with
    | nil => rfl
    | cons d ds => rw [appendOne_cons, List.length_cons, ih, List.length_cons]

omit [LinearOrder R] in
/-- The slopes after one more image. -/
theorem appendOne_slope (imgs : Nat → Lsq.Img R) (j : Nat) (scale : R) (i y x : Nat) : ∀ (us : List (Option (Patch R))) (ds : Lsq.Derivs R) (k : Nat),
    us.length = ds.length → k < ds.length →
    Lsq.slope imgs ((appendOne j scale us ds).getD k []) i y x = Lsq.slope imgs (ds.getD k []) i y x +
      if j = i then scale * valAt x y (us.getD k none) * (imgs i).inverr.px y x else 0 := by
  intro us
  induction us with
  | nil => intro ds k h hk; rw [← h] at hk; simp at hk
  | cons u us ih =>
    intro ds k h hk
    cases ds with
    | nil => simp at hk
    | cons d ds =>
      cases k with
      | succ k =>
        have := ih ds k (by simpa using h) (by simpa using hk)
        rw [appendOne_cons, List.getD_cons_succ, List.getD_cons_succ, List.getD_cons_succ]
        exact this
      | zero =>
        rw [appendOne_cons]
        simp only [List.getD_cons_zero]
        cases u with
        | none => simp [valAt]
        | some p =>
          dsimp only
          rw [slope_append, slope_one, at_mul]
          congr 1
          by_cases hji : j = i
          · rw [if_pos hji, if_pos hji]; change _ = scale * p.at x y * _; ring
          · rw [if_neg hji, if_neg hji]

theorem fluxDerivs_length (minsb : R) (cat : List (Source R)) : ∀ (tims : List (Tim R M)) (i : Nat) (ds : Lsq.Derivs R),
    (fluxDerivs minsb cat i tims ds).length = ds.length := by
  intro tims
  induction tims with
  | nil => intro i ds; rfl
  | cons t ts ih => intro i ds; rw [fluxDerivs, ih, appendOne_length]

theorem fluxDerivs_slope (imgs : Nat → Lsq.Img R) (minsb : R) (cat : List (Source R)) (i y x k : Nat) : ∀ (tims : List (Tim R M)) (j : Nat)
    (ds : Lsq.Derivs R), (∀ t ∈ tims, (umods t.W t.img minsb cat).length = ds.length) → k < ds.length →
    Lsq.slope imgs ((fluxDerivs minsb cat j tims ds).getD k []) i y x = Lsq.slope imgs (ds.getD k []) i y x +
      if j ≤ i then
        match tims[i - j]? with
        | some t => t.scale * valAt x y ((umods t.W t.img minsb cat).getD k none) * (imgs i).inverr.px y x
        | none => 0
      else 0 := by
  intro tims
  induction tims with
  | nil => intro j ds _ _; simp [fluxDerivs]
  | cons t ts ih =>
    intro j ds hl hk
    have h1 := hl t (List.mem_cons_self ..)
    rw [fluxDerivs, ih (j + 1) _ (fun t' ht' => by rw [appendOne_length]; exact hl t' (List.mem_cons_of_mem _ ht'))
      (by rw [appendOne_length]; exact hk), appendOne_slope imgs j t.scale i y x _ ds k h1 hk, add_assoc]
    congr 1
    by_cases hji : j = i
    · subst hji
      simp
    · rw [if_neg hji, zero_add]
      by_cases hlt : j ≤ i
      · rw [if_pos hlt, if_pos (by omega)]
        have e : i - j = (i - (j + 1)) + 1 := by omega
        rw [e, List.getElem?_cons_succ]
      · rw [if_neg hlt, if_neg (by omega)]

omit [LinearOrder R] in
theorem skyDerivs_length : ∀ (tims : List (Tim R M)) (i : Nat), (skyDerivs i tims).length = tims.length := by
  intro tims
  induction tims with
  | nil => intro i; rfl
  | cons t ts ih => intro i; rw [skyDerivs, List.length_cons, ih, List.length_cons]

omit [LinearOrder R] in
theorem skyDerivs_getD : ∀ (tims : List (Tim R M)) (i k : Nat) (t : Tim R M), tims[k]? = some t →
    (skyDerivs i tims).getD k [] = [((⟨0, 0, some ⟨t.data.h, t.data.w, fun _ _ => 1⟩⟩ : Patch R), i + k)] := by
  intro tims
  induction tims with
  | nil => intro i k t h; simp at h
  | cons a ts ih =>
    intro i k t h
    cases k with
    | zero => simp at h; subst h; simp [skyDerivs]
    | succ k =>
      rw [List.getElem?_cons_succ] at h
      have := ih (i + 1) k t h
      rw [skyDerivs, List.getD_cons_succ, this]
      congr 2; omega

/-! ### The change of the chi images -/

omit [LinearOrder R] in
theorem zipWith_range (g : List (Patch R × Nat) → R) : ∀ (ds : Lsq.Derivs R) (X : List R), X.length = ds.length →
    (List.zipWith (fun param dx => g param * dx) ds X).sum = ∑ k ∈ range ds.length, g (ds.getD k []) * X.getD k 0 := by
  intro ds
  induction ds with
  | nil => intro X _; simp
  | cons d ds ih =>
    intro X hX
    cases X with
    | nil => simp at hX
    | cons a X =>
      rw [List.zipWith_cons_cons, List.sum_cons, ih X (by simpa using hX), List.length_cons, sum_range_succ']
      simp [add_comm]

omit [LinearOrder R] in
theorem change_range (imgs : Nat → Lsq.Img R) (ds : Lsq.Derivs R) (X : List R) (hX : X.length = ds.length) (i y x : Nat) :
    Lsq.change imgs ds X i y x = ∑ k ∈ range ds.length, Lsq.slope imgs (ds.getD k []) i y x * X.getD k 0 :=
  zipWith_range (fun param => Lsq.slope imgs param i y x) ds X hX

/-- The chi image as a formula. -/
theorem fitChi_px (minsb : R) (sky : Bool) (cat : List (Source R)) (t : Tim R M) (hr : Ready minsb cat t)
    (hh : t.ie.h = t.data.h) (hw : t.ie.w = t.data.w) :
    ∃ c0 : Nat → Nat → R, ∀ (p : List R) (v : R), p.length = numParams cat → ∃ A, fitChi minsb sky cat p t v = .ok A ∧ A.h = t.data.h ∧ A.w = t.data.w ∧
      ∀ y x : Nat, y < t.data.h → x < t.data.w → A.px y x = (t.data.px y x - (c0 y x + (if sky then v else 0) +
        ∑ k ∈ range (numParams cat), p.getD k 0 * (t.scale * valAt x y ((umods t.W t.img minsb cat).getD k none)))) * t.ie.px y x := by
  have hlen := umods_length t.W t.img minsb cat (fun s hs ht => (hr s hs ht).bands)
  obtain ⟨m, m1, m2, m3, m4⟩ := modelImage_ok t.W t.img minsb (!sky) (cat.filter (fun s => !s.thawed))
  have hp : prepare t.W t.img minsb sky cat = .ok (umods t.W t.img minsb cat, m) := by
    unfold prepare
    simp only
    rw [if_neg (by simp [hlen]), m1]
  refine ⟨m.px, fun p v hpl => ?_⟩
  obtain ⟨A, a1, a2, a3, a4⟩ := addModels_ok none t.scale (p.zip (umods t.W t.img minsb cat)) (if sky then addSky { t.img with sky := v } m else m)
  have eh : (if sky then addSky { t.img with sky := v } m else m).h = t.data.h := by cases sky <;> exact m2
  have ew : (if sky then addSky { t.img with sky := v } m else m).w = t.data.w := by cases sky <;> exact m3
  have bh : A.h = t.data.h := a2.trans eh
  have bw : A.w = t.data.w := a3.trans ew
  unfold fitChi
  rw [hp]
  dsimp only
  unfold getim
  rw [a1]
  dsimp only
  have e1 : bc (· - ·) t.data A = .ok ⟨t.data.h, t.data.w, fun r c => t.data.px r c - A.px r c⟩ := by
    unfold bc bcDim
    rw [bh, bw, if_pos rfl, if_pos rfl]
    dsimp only
    simp only [if_true]
  rw [e1]
  dsimp only
  have e2 : bc (· * ·) (⟨t.data.h, t.data.w, fun r c => t.data.px r c - A.px r c⟩ : Arr R) t.ie =
      .ok ⟨t.data.h, t.data.w, fun r c => (t.data.px r c - A.px r c) * t.ie.px r c⟩ := by
    unfold bc bcDim
    rw [hh, hw, if_pos rfl, if_pos rfl]
    dsimp only
    simp only [if_true]
  rw [e2]
  refine ⟨_, rfl, rfl, rfl, fun y x hy hx => ?_⟩
  dsimp only
  rw [a4 y x (by omega) (by omega)]
  have e3 : countsAt none t.scale x y (p.zip (umods t.W t.img minsb cat)) =
      ∑ k ∈ range (numParams cat), p.getD k 0 * (t.scale * valAt x y ((umods t.W t.img minsb cat).getD k none)) := by
    rw [← hpl, ← zip_range (fun u => t.scale * valAt x y u) p _ (hpl.trans hlen.symm)]
    generalize p.zip (umods t.W t.img minsb cat) = l
    induction l with
    | nil => rfl
    | cons s l ih => rw [countsAt_cons, ih, List.map_cons, List.sum_cons, mul_assoc]
  rw [e3]
  have e4 : (if sky then addSky { t.img with sky := v } m else m).px y x = m.px y x + (if sky then v else 0) := by
    cases sky
    · exact (add_zero _).symm
    · rfl
  rw [e4]

/-- The parts of a change: sky levels first. -/
def skyOf (sky : Bool) (n : Nat) (X : List R) : List R := if sky then X.take n else []
def fluxOf (sky : Bool) (n : Nat) (X : List R) : List R := if sky then X.drop n else X

theorem derivs_length (minsb : R) (sky : Bool) (tims : List (Tim R M)) (cat : List (Source R)) :
    (derivs minsb sky tims cat).length = (if sky then tims.length else 0) + numParams cat := by
  unfold derivs
  dsimp only
  cases sky
  · simp [fluxDerivs_length]
  · simp [fluxDerivs_length, skyDerivs_length]

omit [LinearOrder R] in
theorem getD_add (p X : List R) (k : Nat) (h : X.length = p.length) :
    (List.zipWith (· + ·) p X).getD k 0 = p.getD k 0 + X.getD k 0 := by
  simp only [List.getD_eq_getElem?_getD, List.getElem?_zipWith]
  by_cases hk : k < p.length
  · rw [List.getElem?_eq_getElem hk, List.getElem?_eq_getElem (by omega)]; rfl
  · rw [List.getElem?_eq_none (by omega), List.getElem?_eq_none (by omega)]; simp

/-- The part of the change that comes from the fluxes, and the one from the sky. -/
theorem change_eq (minsb : R) (sky : Bool) (tims : List (Tim R M)) (cat : List (Source R)) (chis : List (Arr R)) (hr : ∀ t ∈ tims, Ready minsb cat t)
    (X : List R) (hX : X.length = (derivs minsb sky tims cat).length) (i : Nat) (t : Tim R M) (ht : tims[i]? = some t) (hc : (chis[i]?).isSome)
    (y x : Nat) (hy : y < t.data.h) (hx : x < t.data.w) :
    Lsq.change (lsqImgs tims chis) (derivs minsb sky tims cat) X i y x =
      ((if sky then (skyOf sky tims.length X).getD i 0 else 0) + ∑ k ∈ range (numParams cat), (fluxOf sky tims.length X).getD k 0 *
        (t.scale * valAt x y ((umods t.W t.img minsb cat).getD k none))) * t.ie.px y x := by
  have hi : i < tims.length := by
    by_contra h
    rw [List.getElem?_eq_none (by omega)] at ht; cases ht
  have hie : (lsqImgs tims chis i).inverr = t.ie := by
    unfold lsqImgs
    rw [ht]
    cases hcc : chis[i]? with
    | none => rw [hcc] at hc; cases hc
    | some c => rfl
  have hum : ∀ t ∈ tims, (umods t.W t.img minsb cat).length = (List.replicate (numParams cat) ([] : List (Patch R × Nat))).length := by
    intro t ht
    rw [List.length_replicate]
    exact umods_length t.W t.img minsb cat (fun s hs h => (hr t ht s hs h).bands)
  have hflux : ∀ k, k < numParams cat → Lsq.slope (lsqImgs tims chis)
      ((fluxDerivs minsb cat 0 tims (List.replicate (numParams cat) [])).getD k []) i y x =
        t.scale * valAt x y ((umods t.W t.img minsb cat).getD k none) * t.ie.px y x := by
    intro k hk
    rw [fluxDerivs_slope _ minsb cat i y x k tims 0 _ hum (by simpa using hk)]
    have e : (List.replicate (numParams cat) ([] : List (Patch R × Nat))).getD k [] = [] := by
      simp [List.getD_eq_getElem?_getD, hk]
    rw [e, if_pos (Nat.zero_le _), Nat.sub_zero, ht, hie]
    simp [Lsq.slope]
  rw [change_range _ _ X hX]
  have hfl : (fluxDerivs minsb cat 0 tims (List.replicate (numParams cat) ([] : List (Patch R × Nat)))).length = numParams cat := by
    rw [fluxDerivs_length, List.length_replicate]
  cases sky with
  | false =>
    have ed : derivs minsb false tims cat = fluxDerivs minsb cat 0 tims (List.replicate (numParams cat) []) := rfl
    rw [ed, hfl]
    simp only [Bool.false_eq_true, if_false, zero_add, fluxOf]
    rw [sum_mul]
    refine sum_congr rfl (fun k hk => ?_)
    rw [hflux k (mem_range.1 hk)]
    ring
  | true =>
    have ed : derivs minsb true tims cat = skyDerivs 0 tims ++ fluxDerivs minsb cat 0 tims (List.replicate (numParams cat) []) := rfl
    rw [ed, List.length_append, skyDerivs_length, hfl, sum_range_add]
    simp only [if_true, skyOf, fluxOf]
    rw [add_mul]
    congr 1
    · rw [sum_eq_single i]
      · have e : (skyDerivs 0 tims ++ fluxDerivs minsb cat 0 tims (List.replicate (numParams cat) [])).getD i [] = (skyDerivs 0 tims).getD i [] := by
          simp only [List.getD_eq_getElem?_getD]; rw [List.getElem?_append_left (by rw [skyDerivs_length]; exact hi)]
        rw [e, skyDerivs_getD tims 0 i t ht, slope_one, if_pos (by omega), hie]
        have e2 : (⟨0, 0, some ⟨t.data.h, t.data.w, fun _ _ => 1⟩⟩ : Patch R).at x y = 1 := by
          unfold Patch.at
          dsimp only
          rw [if_pos (by omega)]
        rw [e2, one_mul]
        have e3 : (X.take tims.length).getD i 0 = X.getD i 0 := by
          simp [List.getD_eq_getElem?_getD, hi]
        rw [e3]
        ring
      · intro j hj hji
        have hj := mem_range.1 hj
        have e : (skyDerivs 0 tims ++ fluxDerivs minsb cat 0 tims (List.replicate (numParams cat) [])).getD j [] = (skyDerivs 0 tims).getD j [] := by
          simp only [List.getD_eq_getElem?_getD]; rw [List.getElem?_append_left (by rw [skyDerivs_length]; exact hj)]
        rw [e, skyDerivs_getD tims 0 j tims[j] (List.getElem?_eq_getElem hj), slope_one, if_neg (by omega), zero_mul]
      · intro h; exact (h (mem_range.2 hi)).elim
    · rw [sum_mul]
      refine sum_congr rfl (fun k hk => ?_)
      have e : (skyDerivs 0 tims ++ fluxDerivs minsb cat 0 tims (List.replicate (numParams cat) [])).getD (tims.length + k) [] =
          (fluxDerivs minsb cat 0 tims (List.replicate (numParams cat) [])).getD k [] := by
        simp only [List.getD_eq_getElem?_getD]
        rw [List.getElem?_append_right (by rw [skyDerivs_length]; omega), skyDerivs_length, Nat.add_sub_cancel_left]
      rw [e, hflux k (mem_range.1 hk)]
      have e3 : (X.drop tims.length).getD k 0 = X.getD (tims.length + k) 0 := by
        simp [List.getD_eq_getElem?_getD, List.getElem?_drop]
      rw [e3]
      ring

end Verif.Fpfit
