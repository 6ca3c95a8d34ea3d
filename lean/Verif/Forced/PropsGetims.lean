import Verif.Forced.Model
import Verif.Patch.Lemmas
import Mathlib.Algebra.Order.Ring.Rat
import Mathlib.Algebra.Field.Rat
import Mathlib.Tactic.Ring

/-!
# Properties of the chi images of forced photometry (C84)
-/

namespace Verif.Forced

open Verif Patches

variable {R : Type} [Field R] [LinearOrder R]

/-! ### C84: the chi images of forced photometry -/

/-- Spec: the flux that counts. -/
def raised (minFlux : Option R) (f : R) : R := match minFlux with | none => f | some m => if f < m then m else f

omit [Field R] in
theorem clampOne_eq (minFlux : Option R) (f : R) : clampOne minFlux f = raised minFlux f := by
  unfold clampOne raised
  cases minFlux with
  | none => rfl
  | some m =>
    simp only
    by_cases h : f < m
    · rw [if_pos h, max_eq_right (le_of_lt h)]
    · rw [if_neg h, max_eq_left (not_lt.mp h)]

/-- Spec: the expected counts of a list of (flux, unit-flux model) at a pixel. -/
def countsAt (minFlux : Option R) (scale : R) (x y : Int) : List (R × Option (Patch R)) → R
  | [] => 0
  | (f, um) :: l =>
    (match um with
      | none => 0
      | some p => raised minFlux f * scale * p.at x y) + countsAt minFlux scale x y l

omit [LinearOrder R] in
theorem at_none (p : Patch R) (h : p.patch = none) (x y : Int) : p.at x y = 0 := by
  unfold Patch.at
  rw [h]

omit [LinearOrder R] in
theorem at_mul (p : Patch R) (c : R) (x y : Int) : (p.mul c).at x y = p.at x y * c := by
  unfold Patch.at Patch.mul
  cases p.patch with
  | none => simp
  | some A =>
    simp only [Option.map_some, Arr.map]
    by_cases h : p.x0 ≤ x ∧ x < p.x0 + A.w ∧ p.y0 ≤ y ∧ y < p.y0 + A.h
    · rw [if_pos h, if_pos h]
    · rw [if_neg h, if_neg h, zero_mul]

omit [LinearOrder R] in
theorem at_uncovered (p : Patch R) (c : R) (x y : Int) (h : ¬ (p.mul c).covers x y) : p.at x y = 0 := by
  unfold Patch.at
  unfold Patch.covers Patch.mul at h
  cases hp : p.patch with
  | none => rfl
  | some A =>
    rw [hp] at h
    simp only [Option.map_some, Arr.map] at h ⊢
    rw [if_neg h]

theorem addModels_ok (mf : Option R) (scale : R) : ∀ (l : List (R × Option (Patch R))) (m : Arr R),
    ∃ m', addModels mf scale l m = .ok m' ∧ m'.h = m.h ∧ m'.w = m.w ∧
      ∀ y x : Nat, y < m.h → x < m.w → m'.px y x = m.px y x + countsAt mf scale x y l := by
  intro l
  induction l with
  | nil => intro m; exact ⟨m, rfl, rfl, rfl, fun y x _ _ => (add_zero _).symm⟩
  | cons a l ih =>
    obtain ⟨f, um⟩ := a
    intro m
    cases um with
    | none =>
      obtain ⟨m', h1, h2, h3, h4⟩ := ih m
      exact ⟨m', h1, h2, h3, fun y x hy hx => by rw [h4 y x hy hx]; simp [countsAt]⟩
    | some um =>
      unfold addModels
      by_cases hn : um.patch.isNone = true
      · rw [if_pos hn]
        obtain ⟨m', h1, h2, h3, h4⟩ := ih m
        refine ⟨m', h1, h2, h3, fun y x hy hx => ?_⟩
        rw [h4 y x hy hx]
        simp [countsAt, at_none um (by simpa using hn)]
      · rw [if_neg hn]
        simp only
        by_cases hc : clampOne mf f * scale = 0
        · rw [if_pos hc]
          obtain ⟨m', h1, h2, h3, h4⟩ := ih m
          refine ⟨m', h1, h2, h3, fun y x hy hx => ?_⟩
          rw [h4 y x hy hx]
          have : clampOne mf f * scale * um.at x y = 0 := by rw [hc, zero_mul]
          rw [clampOne_eq] at this
          simp only [countsAt]
          rw [this, zero_add]
        · rw [if_neg hc]
          obtain ⟨m1, g1, g2, g3, g4⟩ := addTo_ok (um.mul (clampOne mf f * scale)) m 1
          rw [g1]
          simp only
          obtain ⟨m', h1, h2, h3, h4⟩ := ih m1
          refine ⟨m', h1, h2.trans g2, h3.trans g3, fun y x hy hx => ?_⟩
          rw [h4 y x (by omega) (by omega), g4 y x hy hx]
          rw [at_mul]
          have : (if (um.mul (clampOne mf f * scale)).covers x y then m.px y x + um.at x y * (clampOne mf f * scale) * 1 else m.px y x) =
              m.px y x + clampOne mf f * scale * um.at x y := by
            by_cases hcov : (um.mul (clampOne mf f * scale)).covers x y
            · rw [if_pos hcov]; ring
            · rw [if_neg hcov, at_uncovered um _ x y hcov]; ring
          rw [this]
          rw [clampOne_eq]
          simp only [countsAt]
          ring

omit [Field R] [LinearOrder R] in
theorem bc_same (g : R → R → R) (A B : Arr R) (hh : A.h = B.h) (hw : A.w = B.w) :
    bc g A B = .ok ⟨A.h, A.w, fun r c => g (A.px r c) (B.px r c)⟩ := by
  unfold bc bcDim
  rw [if_pos hh, if_pos hw]
  simp [hh, hw]

/-- **C84.** Without a region of interest, for images whose inverse errors and frozen model have the shape of the data, the
model image is the frozen model (with the sky if it is fitted) plus, per source, the flux (raised to `minFlux`) times the
scale times the unit-flux model, and chi is (data − model) · inverse error, at every pixel. -/
theorem C84_chi_partial (minFlux : Option R) (sky : Arr R → Arr R) (fluxes : List R) (img ie mod0 : Arr R)
    (umods : List (Option (Patch R))) (scale : R) (hs : (sky mod0).h = img.h ∧ (sky mod0).w = img.w)
    (hie : ie.h = img.h ∧ ie.w = img.w) :
    ∃ mod chi, getim minFlux sky fluxes ⟨img, ie, none⟩ umods mod0 scale = .ok (mod, chi) ∧
      mod.h = img.h ∧ mod.w = img.w ∧ chi.h = img.h ∧ chi.w = img.w ∧
      ∀ y x : Nat, y < img.h → x < img.w →
        mod.px y x = (sky mod0).px y x + countsAt minFlux scale x y (fluxes.zip umods) ∧
        chi.px y x = (img.px y x - ((sky mod0).px y x + countsAt minFlux scale x y (fluxes.zip umods))) * ie.px y x := by
  obtain ⟨m, h1, h2, h3, h4⟩ := addModels_ok minFlux scale (fluxes.zip umods) (sky mod0)
  unfold getim
  rw [h1]
  simp only
  rw [bc_same _ img m (by omega) (by omega)]
  simp only
  rw [bc_same _ _ ie (by simp only; omega) (by simp only; omega)]
  refine ⟨m, _, rfl, by omega, by omega, rfl, rfl, fun y x hy hx => ?_⟩
  have := h4 y x (by omega) (by omega)
  refine ⟨this, ?_⟩
  simp only
  rw [this]

/-- Two sources (the second one negative, so raised to 0 by `minFlux`) on a 1×3 image. -/
example : (getim (some 0) id [2, -1] ⟨Arr.ofLists [[10, 20, 30]] 3, Arr.ofLists [[1, 2, 1]] 3, none⟩
    [some ⟨1, 0, some (Arr.ofLists [[1, 3]] 2)⟩, some ⟨0, 0, some (Arr.ofLists [[5]] 1)⟩] (Arr.ofLists [[1, 1, 1]] 3) 2).toOption.map
      (fun r => (r.1.toLists, r.2.toLists)) = some ([[1, 5, 13]], [[(9 : ℚ), 30, 17]]) := by
  decide +kernel

/-- **C84 (negation).** With a region of interest the data of the image do not enter chi at all: two images that differ in
nothing but their data give the same result, whatever the region is. -/
theorem C84_roi_data_false (minFlux : Option R) (sky : Arr R → Arr R) (fluxes : List R) (img1 img2 ie mod0 : Arr R)
    (umods : List (Option (Patch R))) (scale : R) (roi : Int × Int × Int × Int) :
    getim minFlux sky fluxes ⟨img1, ie, some roi⟩ umods mod0 scale =
      getim minFlux sky fluxes ⟨img2, ie, some roi⟩ umods mod0 scale := rfl

/-- **C84 (negation).** A perfect model (no source, frozen model equal to the data) of a 2×2 image with inverse errors 3:
without a region of interest chi is 0, with the region of interest that covers the image it is not. -/
theorem C84_roi_false :
    ∃ (img ie : Arr ℚ) (mod1 chi1 mod2 chi2 : Arr ℚ),
      getim none id [] ⟨img, ie, none⟩ [] img 1 = .ok (mod1, chi1) ∧
      getim none id [] ⟨img, ie, some (0, 2, 0, 2)⟩ [] img 1 = .ok (mod2, chi2) ∧
      chi1.toLists = [[0, 0], [0, 0]] ∧ chi2.toLists = [[-3, -6], [-9, -12]] :=
  ⟨(Arr.ofLists [[4, 5], [6, 7]] 2), (Arr.ofLists [[3, 3], [3, 3]] 2), _, _, _, _, rfl, rfl, by decide +kernel, by decide +kernel⟩

/-- **C84 (negation).** A region of rows 1 and 2 whose second cut has a single row: that row of inverse errors is silently
compared with both rows of the model. -/
theorem C84_roi_broadcast_false :
    ∃ (img ie mod0 mod chi : Arr ℚ), img.h = 4 ∧ mod0.h = 2 ∧
      getim none id [] ⟨img, ie, some (1, 3, 0, 1)⟩ [] mod0 1 = .ok (mod, chi) ∧ chi.toLists = [[3 * 2], [3 * 3]] :=
  ⟨Arr.zeros 4 1, Arr.ofLists [[1], [2], [3], [4]] 1, Arr.zeros 2 1, _, _, rfl, rfl, rfl, by decide +kernel⟩

/-- **C84 (negation).** A region of interest that does not begin at the origin: the second cut is empty or has another shape
than the model, and forced photometry ends with a ValueError. -/
theorem C84_roi_error_false :
    ∃ (img ie mod0 : Arr ℚ), mod0.h = 2 ∧ mod0.w = 2 ∧
      getim none id [] ⟨img, ie, some (2, 4, 2, 4)⟩ [] mod0 1 = .error .value :=
  ⟨Arr.zeros 6 6, Arr.zeros 6 6, Arr.zeros 2 2, rfl, rfl, rfl⟩

end Verif.Forced
