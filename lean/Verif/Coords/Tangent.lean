import Verif.Coords.Props
import Verif.Lsq.Props
import Verif.Patch.Spec
import Mathlib.Analysis.SpecialFunctions.Trigonometric.Deriv
import Mathlib.Analysis.SpecialFunctions.Trigonometric.Basic
import Mathlib.Analysis.Calculus.Deriv.Prod
import Mathlib.Analysis.Calculus.Deriv.Comp
import Mathlib.Analysis.Calculus.Deriv.Mul
import Mathlib.Analysis.Calculus.Deriv.Inv
import Mathlib.Analysis.Calculus.Deriv.Add

/-!
# The tangent projection

What a FITS header with projection TAN means (the library object wrapped by `ConstantFitsWcs`), over the real numbers, and what
becomes of a least-squares problem whose derivatives are off by factors.
-/

namespace Verif.Coords

open Verif Verif.Patches Verif.Lsq

/-- Degrees to radians. -/
noncomputable def rad (x : ℝ) : ℝ := x * (Real.pi / 180)

/-- Tangent-plane coordinates, in degrees, of the position (`ra`, `dec`) for the tangent point (`ra0`, `dec0`), in degrees: the gnomonic projection
of the FITS standard (what `radec2pixelxy` of the wrapped `Tan` computes before it applies the matrix). -/
noncomputable def plane (ra0 dec0 ra dec : ℝ) : ℝ × ℝ :=
  let D := Real.sin (rad dec) * Real.sin (rad dec0) + Real.cos (rad dec) * Real.cos (rad dec0) * Real.cos (rad (ra - ra0))
  (180 / Real.pi * (Real.cos (rad dec) * Real.sin (rad (ra - ra0)) / D),
   180 / Real.pi * ((Real.sin (rad dec) * Real.cos (rad dec0) - Real.cos (rad dec) * Real.sin (rad dec0) * Real.cos (rad (ra - ra0))) / D))

/-- The library object of a TAN header: `crval`, `crpix`, CD matrix; pixels are `crpix + CD⁻¹ (plane coordinates)`.  The way back does not
matter here and is left open. -/
noncomputable def tanExt (ra0 dec0 cx cy : ℝ) (cd : Mat ℝ) (sky : ℝ → ℝ → ℝ × ℝ) : Ext ℝ where
  toPix ra dec :=
    let q := plane ra0 dec0 ra dec
    let det := cd.a * cd.d - cd.b * cd.c
    (cx + (cd.d / det * q.1 + -cd.b / det * q.2), cy + (-cd.c / det * q.1 + cd.a / det * q.2))
  toSky := sky
  cd := cd
  cosd dec := Real.cos (rad dec)

theorem rad_deriv (a x : ℝ) : HasDerivAt (fun x => rad (x - a)) (Real.pi / 180) x := by
  have h := ((hasDerivAt_id x).sub_const a).mul_const (Real.pi / 180)
  simpa [rad, one_mul] using h

theorem rad_deriv' (x : ℝ) : HasDerivAt rad (Real.pi / 180) x := by
  have h := rad_deriv 0 x
  simpa using h

theorem pi_cancel : 180 / Real.pi * (Real.pi / 180) = 1 := by
  have := Real.pi_ne_zero
  field_simp

/-- By right ascension, at the tangent point: the first plane coordinate moves by the cosine of the declination, the second not. -/
theorem plane_ra (ra0 dec0 : ℝ) :
    HasDerivAt (fun ra => (plane ra0 dec0 ra dec0).1) (Real.cos (rad dec0)) ra0 ∧
    HasDerivAt (fun ra => (plane ra0 dec0 ra dec0).2) 0 ra0 := by
  have hs : HasDerivAt (fun ra => Real.sin (rad (ra - ra0))) (Real.pi / 180) ra0 := by
    have h := (rad_deriv ra0 ra0).sin
    simpa [rad] using h
  have hc : HasDerivAt (fun ra => Real.cos (rad (ra - ra0))) 0 ra0 := by
    have h := (rad_deriv ra0 ra0).cos
    simpa [rad] using h
  have h1 : Real.sin (rad dec0) * Real.sin (rad dec0) + Real.cos (rad dec0) * Real.cos (rad dec0) = 1 := by
    have := Real.sin_sq_add_cos_sq (rad dec0)
    nlinarith
  have hD := (hc.const_mul (Real.cos (rad dec0) * Real.cos (rad dec0))).const_add (Real.sin (rad dec0) * Real.sin (rad dec0))
  have hr0 : rad (ra0 - ra0) = 0 := by simp [rad]
  have hD1 : Real.sin (rad dec0) * Real.sin (rad dec0) + Real.cos (rad dec0) * Real.cos (rad dec0) * Real.cos (rad (ra0 - ra0)) = 1 := by
    rw [hr0, Real.cos_zero, mul_one, h1]
  have hne : Real.sin (rad dec0) * Real.sin (rad dec0) + Real.cos (rad dec0) * Real.cos (rad dec0) * Real.cos (rad (ra0 - ra0)) ≠ 0 := by
    rw [hD1]; exact one_ne_zero
  constructor
  · have h := ((hs.const_mul (Real.cos (rad dec0))).div hD hne).const_mul (180 / Real.pi)
    refine h.congr_deriv ?_
    rw [hD1, hr0, Real.sin_zero]
    have := pi_cancel
    linear_combination Real.cos (rad dec0) * this
  · have h := (((hc.const_mul (Real.cos (rad dec0) * Real.sin (rad dec0))).const_sub (Real.sin (rad dec0) * Real.cos (rad dec0))).div hD hne).const_mul
      (180 / Real.pi)
    refine h.congr_deriv ?_
    rw [hD1]
    simp

/-- By declination: the second plane coordinate moves as declination does. -/
theorem plane_dec (ra0 dec0 : ℝ) :
    HasDerivAt (fun dec => (plane ra0 dec0 ra0 dec).1) 0 dec0 ∧
    HasDerivAt (fun dec => (plane ra0 dec0 ra0 dec).2) 1 dec0 := by
  have hr0 : rad (ra0 - ra0) = 0 := by simp [rad]
  have hs : HasDerivAt (fun dec => Real.sin (rad dec)) (Real.cos (rad dec0) * (Real.pi / 180)) dec0 := (rad_deriv' dec0).sin
  have hc : HasDerivAt (fun dec => Real.cos (rad dec)) (-Real.sin (rad dec0) * (Real.pi / 180)) dec0 := (rad_deriv' dec0).cos
  have h1 : Real.sin (rad dec0) * Real.sin (rad dec0) + Real.cos (rad dec0) * Real.cos (rad dec0) * 1 = 1 := by
    have := Real.sin_sq_add_cos_sq (rad dec0)
    nlinarith
  have hD := (hs.mul_const (Real.sin (rad dec0))).add ((hc.mul_const (Real.cos (rad dec0))).mul_const 1)
  have hne : Real.sin (rad dec0) * Real.sin (rad dec0) + Real.cos (rad dec0) * Real.cos (rad dec0) * 1 ≠ 0 := by
    rw [h1]; exact one_ne_zero
  constructor
  · have e : (fun dec => (plane ra0 dec0 ra0 dec).1) = fun _ => 0 := by
      funext dec
      simp only [plane, hr0, Real.sin_zero, mul_zero, zero_div]
    rw [e]
    exact hasDerivAt_const _ _
  · have h := (((hs.mul_const (Real.cos (rad dec0))).sub ((hc.mul_const (Real.sin (rad dec0))).mul_const 1)).div hD hne).const_mul
      (180 / Real.pi)
    have e : (fun dec => (plane ra0 dec0 ra0 dec).2) = fun dec => 180 / Real.pi *
        ((Real.sin (rad dec) * Real.cos (rad dec0) - Real.cos (rad dec) * Real.sin (rad dec0) * 1) /
          (Real.sin (rad dec) * Real.sin (rad dec0) + Real.cos (rad dec) * Real.cos (rad dec0) * 1)) := by
      funext dec
      simp only [plane, hr0, Real.cos_zero]
    rw [e]
    refine h.congr_deriv ?_
    simp only [Pi.add_apply, Pi.sub_apply]
    rw [h1]
    have := pi_cancel
    have hsc : Real.sin (rad dec0) ^ 2 + Real.cos (rad dec0) ^ 2 = 1 := Real.sin_sq_add_cos_sq _
    linear_combination this + 180 / Real.pi * (Real.pi / 180) * hsc

/-- The derivatives of a least-squares problem multiplied by one factor per parameter. -/
def scaleDerivs {R : Type} [Mul R] (ks : List R) (ds : Derivs R) : Derivs R :=
  List.zipWith (fun k param => param.map (fun e => (e.1.mul k, e.2))) ks ds

section
variable {R : Type} [Field R] [LinearOrder R]

omit [LinearOrder R] in
theorem patch_at_mul (p : Patch R) (c : R) (x y : Int) : (p.mul c).at x y = p.at x y * c := by
  obtain ⟨x0, y0, A⟩ := p
  cases A with
  | none => simp [Patch.mul, Patch.at]
  | some A =>
    show (if x0 ≤ x ∧ x < x0 + A.w ∧ y0 ≤ y ∧ y < y0 + A.h then A.px (y - y0).toNat (x - x0).toNat * c else 0) =
      (if x0 ≤ x ∧ x < x0 + A.w ∧ y0 ≤ y ∧ y < y0 + A.h then A.px (y - y0).toNat (x - x0).toNat else 0) * c
    rw [ite_mul, zero_mul]

theorem slope_scaled (imgs : Nat → Img R) (param : List (Patch R × Nat)) (k : R) (i y x : Nat) :
    Lsq.slope imgs (param.map (fun e => (e.1.mul k, e.2))) i y x = Lsq.slope imgs param i y x * k := by
  unfold Lsq.slope
  induction param with
  | nil => simp
  | cons e rest ih =>
    by_cases h : e.2 = i
    · simp only [List.map_cons, List.filter_cons, h, decide_true, if_true, List.sum_cons] at ih ⊢
      rw [ih, patch_at_mul]; ring
    · simp only [List.map_cons, List.filter_cons, h, decide_false, if_false, Bool.false_eq_true] at ih ⊢
      exact ih

theorem change_scaled (imgs : Nat → Img R) (i y x : Nat) : ∀ (ks : List R) (ds : Derivs R) (X : List R),
    change imgs (scaleDerivs ks ds) X i y x = change imgs ds (List.zipWith (· * ·) ks X) i y x
  | [], ds, X => by simp [scaleDerivs, change]
  | k :: ks, [], X => by simp [scaleDerivs, change]
  | k :: ks, d :: ds, [] => by simp [scaleDerivs, change]
  | k :: ks, d :: ds, a :: X => by
    have ih := change_scaled imgs i y x ks ds X
    simp only [scaleDerivs, change, List.zipWith_cons_cons, List.sum_cons] at ih ⊢
    rw [ih, slope_scaled]; ring

omit [LinearOrder R] in
theorem used_scaled : ∀ (ks : List R) (ds : Derivs R), ks.length = ds.length → usedImages (scaleDerivs ks ds) = usedImages ds := by
  intro ks ds h
  have key : ∀ (ks : List R) (ds : Derivs R), ks.length = ds.length →
      (scaleDerivs ks ds).flatMap (fun param => param.map (·.2)) = ds.flatMap (fun param => param.map (·.2)) := by
    intro ks
    induction ks with
    | nil => intro ds h; cases ds with
      | nil => rfl
      | cons d ds => simp at h
    | cons k ks ih =>
      intro ds h
      cases ds with
      | nil => simp at h
      | cons d ds =>
        have := ih ds (by simpa using h)
        simp only [scaleDerivs, List.zipWith_cons_cons, List.flatMap_cons, List.map_map] at this ⊢
        rw [this]; rfl
  rw [usedImages, usedImages, key ks ds h]

theorem linearised_scaled (imgs : Nat → Img R) (ks : List R) (ds : Derivs R) (h : ks.length = ds.length) (X : List R) :
    linearised imgs (scaleDerivs ks ds) none X = linearised imgs ds none (List.zipWith (· * ·) ks X) := by
  simp only [linearised, used_scaled ks ds h, change_scaled, Params.linearChi]

omit [LinearOrder R] in
theorem norm_scaled (imgs : Nat → Img R) (ks : List R) (ds : Derivs R) (j : Nat) (k : R) (hk : ks[j]? = some k) :
    columnNorm imgs (scaleDerivs ks ds) [] j = k ^ 2 * columnNorm imgs ds [] j := by
  have e : (scaleDerivs ks ds)[j]? = (ds[j]?).map (fun param => param.map (fun e => (e.1.mul k, e.2))) := by
    rw [scaleDerivs, List.getElem?_zipWith, hk]
    cases ds[j]? <;> rfl
  simp only [columnNorm, e, List.filter_nil, List.map_nil, List.sum_nil, add_zero]
  cases ds[j]? with
  | none => simp
  | some param =>
    simp only [Option.map_some, Option.getD_some, List.map_map]
    rw [← List.sum_map_mul_left]
    congr 1
    refine List.map_congr_left (fun e _ => ?_)
    simp only [Function.comp_apply, energy, patch_at_mul]
    rw [Finset.mul_sum]
    refine Finset.sum_congr rfl (fun y _ => ?_)
    rw [Finset.mul_sum]
    refine Finset.sum_congr rfl (fun x _ => ?_)
    ring

end

end Verif.Coords
