import Verif.Coords.Tangent
import Mathlib.Analysis.SpecialFunctions.Trigonometric.Bounds

/-!
# C163: derivatives by right ascension

`ducks.WCS.pixelDerivsToPositionDerivs` with `ConstantFitsWcs` multiplies pixel derivatives by the inverse of the CD matrix.  For a tangent
projection that matrix is in degrees on the sky, not in degrees of right ascension.
-/

namespace Verif.Coords

open Verif Verif.Patches Verif.Lsq

/-- What a user takes the pixel of a position to be, with the derivatives (`xr`, `yr`) by right ascension and (`xd`, `yd`) by declination. -/
def Slopes (w : Wcs ℝ) (ra dec : ℝ) (xr yr xd yd : ℝ) : Prop :=
  ∃ P : ℝ → ℝ → ℝ × ℝ, (∀ r d, positionToPixel w (.radec r d) = .ok (P r d)) ∧
    HasDerivAt (fun r => (P r dec).1) xr ra ∧ HasDerivAt (fun r => (P r dec).2) yr ra ∧
    HasDerivAt (fun d => (P ra d).1) xd dec ∧ HasDerivAt (fun d => (P ra d).2) yd dec

theorem tan_inverse (ra0 dec0 cx cy x0 y0 : ℝ) (cd : Mat ℝ) (sky : ℝ → ℝ → ℝ × ℝ) (hdet : cd.a * cd.d - cd.b * cd.c ≠ 0) (p : ℝ × ℝ) :
    cdInverseAtPosition (.fits (tanExt ra0 dec0 cx cy cd sky) x0 y0) (.radec p.1 p.2) =
      .ok ⟨cd.d / (cd.a * cd.d - cd.b * cd.c), -cd.b / (cd.a * cd.d - cd.b * cd.c), -cd.c / (cd.a * cd.d - cd.b * cd.c),
        cd.a / (cd.a * cd.d - cd.b * cd.c)⟩ := by
  simp only [cdInverseAtPosition, positionToPixel, Mat.inv, tanExt]
  exact if_neg hdet

/-- **C163.** At the tangent point of a TAN projection the column of the matrix for declination is the derivative of the pixel by declination; the
derivative by right ascension is the other column times the cosine of the declination. -/
theorem C163_jacobian (ra0 dec0 cx cy x0 y0 : ℝ) (cd : Mat ℝ) (sky : ℝ → ℝ → ℝ × ℝ) (hdet : cd.a * cd.d - cd.b * cd.c ≠ 0) :
    ∃ m, cdInverseAtPosition (.fits (tanExt ra0 dec0 cx cy cd sky) x0 y0) (.radec ra0 dec0) = .ok m ∧
      Slopes (.fits (tanExt ra0 dec0 cx cy cd sky) x0 y0) ra0 dec0 (Real.cos (rad dec0) * m.a) (Real.cos (rad dec0) * m.c) m.b m.d := by
  refine ⟨_, tan_inverse ra0 dec0 cx cy x0 y0 cd sky hdet (ra0, dec0), _, fun r d => rfl, ?_, ?_, ?_, ?_⟩
  · have h := ((((plane_ra ra0 dec0).1.const_mul (cd.d / (cd.a * cd.d - cd.b * cd.c))).add
      ((plane_ra ra0 dec0).2.const_mul (-cd.b / (cd.a * cd.d - cd.b * cd.c)))).const_add cx).sub_const (1 : ℝ) |>.sub_const x0
    exact h.congr_deriv (by ring)
  · have h := ((((plane_ra ra0 dec0).1.const_mul (-cd.c / (cd.a * cd.d - cd.b * cd.c))).add
      ((plane_ra ra0 dec0).2.const_mul (cd.a / (cd.a * cd.d - cd.b * cd.c)))).const_add cy).sub_const (1 : ℝ) |>.sub_const y0
    exact h.congr_deriv (by ring)
  · have h := ((((plane_dec ra0 dec0).1.const_mul (cd.d / (cd.a * cd.d - cd.b * cd.c))).add
      ((plane_dec ra0 dec0).2.const_mul (-cd.b / (cd.a * cd.d - cd.b * cd.c)))).const_add cx).sub_const (1 : ℝ) |>.sub_const x0
    exact h.congr_deriv (by ring)
  · have h := ((((plane_dec ra0 dec0).1.const_mul (-cd.c / (cd.a * cd.d - cd.b * cd.c))).add
      ((plane_dec ra0 dec0).2.const_mul (cd.a / (cd.a * cd.d - cd.b * cd.c)))).const_add cy).sub_const (1 : ℝ) |>.sub_const y0
    exact h.congr_deriv (by ring)

/-- A header with one arcsecond per pixel at declination 60. -/
noncomputable def exHeader : Wcs ℝ := .fits (tanExt 30 60 100 200 ⟨-(1 / 3600), 0, 0, 1 / 3600⟩ (fun _ _ => (0, 0))) 5 7

theorem cos_sixty : Real.cos (rad 60) = 1 / 2 := by
  have : rad 60 = Real.pi / 3 := by rw [rad]; ring
  rw [this, Real.cos_pi_div_three]

/-- At declination 60 a degree of right ascension is 1800 pixels, not 3600. -/
example : cdInverseAtPosition exHeader (.radec 30 60) = .ok ⟨-3600, 0, 0, 3600⟩ ∧ Slopes exHeader 30 60 (-1800) 0 0 3600 := by
  have hdet : (-(1 / 3600) : ℝ) * (1 / 3600) - 0 * 0 ≠ 0 := by norm_num
  have h := tan_inverse 30 60 100 200 5 7 ⟨-(1 / 3600), 0, 0, 1 / 3600⟩ (fun _ _ => (0, 0)) hdet (30, 60)
  obtain ⟨m, hm, hs⟩ := C163_jacobian 30 60 100 200 5 7 ⟨-(1 / 3600), 0, 0, 1 / 3600⟩ (fun _ _ => (0, 0)) hdet
  rw [h] at hm
  have hm := Except.ok.inj hm
  subst hm
  rw [cos_sixty] at hs
  norm_num at h hs
  exact ⟨h, hs⟩

/-- **C163 (only on the equator).** The matrix used is the derivative of the pixel by right ascension exactly if the declination of the tangent
point is 0. -/
theorem C163_equator (ra0 dec0 cx cy x0 y0 : ℝ) (cd : Mat ℝ) (sky : ℝ → ℝ → ℝ × ℝ) (hdet : cd.a * cd.d - cd.b * cd.c ≠ 0)
    (hd : -90 ≤ dec0 ∧ dec0 ≤ 90) :
    ∃ m, cdInverseAtPosition (.fits (tanExt ra0 dec0 cx cy cd sky) x0 y0) (.radec ra0 dec0) = .ok m ∧
      (Slopes (.fits (tanExt ra0 dec0 cx cy cd sky) x0 y0) ra0 dec0 m.a m.c m.b m.d ↔ dec0 = 0) := by
  obtain ⟨m, hm, hs⟩ := C163_jacobian ra0 dec0 cx cy x0 y0 cd sky hdet
  refine ⟨m, hm, fun h => ?_, fun h => ?_⟩
  · obtain ⟨P, hP, h1, h2, _⟩ := h
    obtain ⟨Q, hQ, g1, g2, _⟩ := hs
    have hPQ : P = Q := by
      funext r d
      exact Except.ok.inj ((hP r d).symm.trans (hQ r d))
    subst hPQ
    have e1 := h1.unique g1
    have e2 := h2.unique g2
    have hm' := tan_inverse ra0 dec0 cx cy x0 y0 cd sky hdet (ra0, dec0)
    rw [hm] at hm'
    have hm' := Except.ok.inj hm'
    have hc : Real.cos (rad dec0) = 1 := by
      by_contra hne
      have f1 : (1 - Real.cos (rad dec0)) * m.a = 0 := by linear_combination e1
      have f2 : (1 - Real.cos (rad dec0)) * m.c = 0 := by linear_combination e2
      have hne' : 1 - Real.cos (rad dec0) ≠ 0 := fun h0 => hne (by linarith)
      have a0 : m.a = 0 := by simpa [hne'] using f1
      have c0 : m.c = 0 := by simpa [hne'] using f2
      rw [hm'] at a0 c0
      simp only [div_eq_zero_iff, hdet, or_false, neg_eq_zero] at a0 c0
      exact hdet (by rw [a0, c0]; ring)
    have hpi := Real.pi_pos
    have := (Real.cos_eq_one_iff_of_lt_of_lt (x := rad dec0) (by rw [rad]; nlinarith) (by rw [rad]; nlinarith)).1 hc
    rw [rad] at this
    rcases mul_eq_zero.1 this with h0 | h0
    · exact h0
    · exact absurd h0 (by positivity)
  · have : Real.cos (rad dec0) = 1 := by rw [h]; simp [rad]
    rw [this, one_mul, one_mul] at hs
    exact hs

/-- Off the equator it is not. -/
example : ∃ m, cdInverseAtPosition exHeader (.radec 30 60) = .ok m ∧ ¬ Slopes exHeader 30 60 m.a m.c m.b m.d := by
  obtain ⟨m, hm, hs⟩ := C163_equator 30 60 100 200 5 7 ⟨-(1 / 3600), 0, 0, 1 / 3600⟩ (fun _ _ => (0, 0)) (by norm_num) (by norm_num)
  exact ⟨m, hm, fun h => by have := hs.1 h; norm_num at this⟩

/-- **C163 (model images).** For any differentiable rendering of a source at the tangent point, with both coordinates thawed: the derivative
reported for declination is the derivative of the model image; that of the model image by right ascension is the one reported times the cosine of
the declination. -/
theorem C163_derivative {E : Type} [NormedAddCommGroup E] [NormedSpace ℝ E] (ra0 dec0 cx cy x0 y0 : ℝ) (cd : Mat ℝ)
    (sky : ℝ → ℝ → ℝ × ℝ) (hdet : cd.a * cd.d - cd.b * cd.c ≠ 0) (pos : Params.PList ℝ) (hpos : Params.flags pos = [true, true])
    (render : ℝ × ℝ → E) (L : ℝ × ℝ →L[ℝ] E) (counts : ℝ)
    (hL : ∀ q, positionToPixel (.fits (tanExt ra0 dec0 cx cy cd sky) x0 y0) (.radec ra0 dec0) = .ok q → HasFDerivAt render L q) :
    ∃ (m : Mat ℝ) (dra ddec : E) (P : ℝ → ℝ → ℝ × ℝ),
      cdInverseAtPosition (.fits (tanExt ra0 dec0 cx cy cd sky) x0 y0) (.radec ra0 dec0) = .ok m ∧
      Src.pixelDerivsToPositionDerivs ((m.a, m.b), (m.c, m.d)) pos counts (L (1, 0)) (L (0, 1)) = .ok [some dra, some ddec] ∧
      (∀ r d, positionToPixel (.fits (tanExt ra0 dec0 cx cy cd sky) x0 y0) (.radec r d) = .ok (P r d)) ∧
      HasDerivAt (fun r => counts • render (P r dec0)) (Real.cos (rad dec0) • dra) ra0 ∧
      HasDerivAt (fun d => counts • render (P ra0 d)) ddec dec0 := by
  obtain ⟨m, hm, P, hP, h1, h2, h3, h4⟩ := C163_jacobian ra0 dec0 cx cy x0 y0 cd sky hdet
  have hL' := hL _ (hP ra0 dec0)
  have lin : ∀ a b : ℝ, L (a, b) = a • L (1, 0) + b • L (0, 1) := by
    intro a b
    rw [← map_smul, ← map_smul, ← map_add]
    simp
  refine ⟨m, counts • (m.a • L (1, 0) + m.c • L (0, 1)), counts • (m.b • L (1, 0) + m.d • L (0, 1)), P, hm, ?_, hP, ?_, ?_⟩
  · rw [Src.pixelDerivsToPositionDerivs, hpos]
    rfl
  · have h := (hL'.comp_hasDerivAt ra0 (h1.prodMk h2)).const_smul counts
    refine h.congr_deriv ?_
    rw [lin, mul_smul, mul_smul, ← smul_add, smul_comm counts]
  · have h := (hL'.comp_hasDerivAt dec0 (h3.prodMk h4)).const_smul counts
    refine h.congr_deriv ?_
    rw [lin]

/-- A source whose model image grows by 2 per pixel to the right, with 10 counts, at declination 60: by right ascension the model changes by
-36000 per degree, and -72000 is reported. -/
example : ∃ P : ℝ → ℝ → ℝ × ℝ, (∀ r d, positionToPixel exHeader (.radec r d) = .ok (P r d)) ∧
    Src.pixelDerivsToPositionDerivs (R := ℝ) (M := ℝ) ((-3600, 0), (0, 3600)) ⟨[⟨["ra"], true, 30⟩, ⟨["dec"], true, 60⟩], [], [], [], none, []⟩ 10 2 0 =
      .ok [some (-72000), some 0] ∧
    HasDerivAt (fun r => (10 : ℝ) • (2 * (P r 60).1)) (-36000) 30 := by
  have hdet : (-(1 / 3600) : ℝ) * (1 / 3600) - 0 * 0 ≠ 0 := by norm_num
  have h := tan_inverse 30 60 100 200 5 7 ⟨-(1 / 3600), 0, 0, 1 / 3600⟩ (fun _ _ => (0, 0)) hdet (30, 60)
  obtain ⟨m, d0, d1, P, hm, hr, hP, hd, _⟩ := C163_derivative (E := ℝ) 30 60 100 200 5 7 ⟨-(1 / 3600), 0, 0, 1 / 3600⟩ (fun _ _ => (0, 0)) hdet
    ⟨[⟨["ra"], true, 30⟩, ⟨["dec"], true, 60⟩], [], [], [], none, []⟩ rfl (fun q => 2 * q.1) ((2 : ℝ) • ContinuousLinearMap.fst ℝ ℝ ℝ) 10
    (fun q _ => (hasFDerivAt_fst).const_mul 2)
  rw [h] at hm
  have hm := Except.ok.inj hm
  subst hm
  have e : Src.pixelDerivsToPositionDerivs (R := ℝ) (M := ℝ) ((-3600, 0), (0, 3600))
      ⟨[⟨["ra"], true, 30⟩, ⟨["dec"], true, 60⟩], [], [], [], none, []⟩ 10 2 0 = .ok [some (-72000), some 0] := by
    have : Src.pixelDerivsToPositionDerivs (R := ℝ) (M := ℝ) ((-3600, 0), (0, 3600))
      ⟨[⟨["ra"], true, 30⟩, ⟨["dec"], true, 60⟩], [], [], [], none, []⟩ 10 2 0 =
      .ok [some ((10 : ℝ) • ((-3600 : ℝ) • (2 : ℝ) + (0 : ℝ) • (0 : ℝ))), some ((10 : ℝ) • ((0 : ℝ) • (2 : ℝ) + (3600 : ℝ) • (0 : ℝ)))] := rfl
    rw [this]
    norm_num
  refine ⟨P, hP, e, ?_⟩
  norm_num at hr
  rw [e] at hr
  have h0 : d0 = -72000 := by
    have := Except.ok.inj hr
    simp only [List.cons.injEq, Option.some.injEq] at this
    exact this.1.symm
  rw [h0, cos_sixty] at hd
  norm_num at hd ⊢
  exact hd

section
variable {R : Type} [Field R] [LinearOrder R] [IsStrictOrderedRing R]

/-- **C163 (steps).** Whatever factors `ks` the derivatives are off by: the step computed, multiplied by the factors, is the least-squares step for
the derivatives without them.  With `1 / cos(dec)` for a right ascension the step made is `cos(dec)` times the one needed. -/
theorem C163_step (sqrt : R → R) (hsq : SqrtOK sqrt) (tiny : R) (lsqr : Problem R → List R) (hlsqr : Solves lsqr) (imgs : Nat → Img R)
    (ds : Derivs R) (hI : ImagesOK imgs ds) (ks : List R) (hk : ks.length = ds.length) (h0 : ∀ k ∈ ks, k ≠ 0) (scale : Bool)
    (ht : scale = true → NoTiny sqrt tiny imgs (scaleDerivs ks ds) []) (hne : ∃ c, c < ds.length ∧ columnNorm imgs ds [] c ≠ 0) :
    ∃ X, getUpdateDirection sqrt tiny lsqr imgs (scaleDerivs ks ds) none scale none = .ok (some X) ∧
      Minimises ds.length (linearised imgs ds none) (List.zipWith (· * ·) ks X) := by
  have hlen : (scaleDerivs ks ds).length = ds.length := by simp [scaleDerivs, hk]
  have hI' : ImagesOK imgs (scaleDerivs ks ds) := by
    intro i hi
    rw [used_scaled ks ds hk] at hi
    exact hI i hi
  obtain ⟨c, hc, hn⟩ := hne
  have hck : ks[c]? = some ks[c] := List.getElem?_eq_getElem (by omega)
  obtain ⟨X, hX, hmin⟩ := (C39_minimises sqrt hsq tiny lsqr hlsqr imgs (scaleDerivs ks ds) hI' none []
    ⟨by simp [Params.RepresentsOpt], by simp, by simp⟩ scale ht).1 ⟨c, by omega, by
      rw [norm_scaled imgs ks ds c _ hck]
      exact mul_ne_zero (pow_ne_zero 2 (h0 _ (List.getElem_mem _))) hn⟩
  refine ⟨X, hX, by simp [hk, hmin.1, hlen], fun Y hY => ?_⟩
  have e : List.zipWith (· * ·) ks (List.zipWith (fun k y => y / k) ks Y) = Y := by
    apply List.ext_getElem
    · simp [hk, hY]
    · intro i h1 h2
      have hi : i < ks.length := by omega
      have := h0 _ (List.getElem_mem hi)
      simp only [List.getElem_zipWith]
      field_simp
  have := hmin.2 (List.zipWith (fun k y => y / k) ks Y) (by simp [hk, hY, hlen])
  rw [linearised_scaled imgs ks ds hk, linearised_scaled imgs ks ds hk, e] at this
  exact this

/-- The solver's step for derivatives off by factors 2 and 1, in an example with two parameters. -/
example : ∃ (lsqr : Problem ℚ → List ℚ) (X : List ℚ), Solves lsqr ∧
    getUpdateDirection (fun x => x) 0 lsqr exImgs (scaleDerivs [2, 1] exDerivs) none false none = .ok (some X) ∧
    Minimises 2 (linearised exImgs exDerivs none) (List.zipWith (· * ·) [2, 1] X) := by
  obtain ⟨lsqr, hl⟩ := solver_exists (R := ℚ)
  obtain ⟨X, hX, hm⟩ := C163_step (fun x => x) (fun x h => h) 0 lsqr hl exImgs exDerivs (exImages_ok _) [2, 1] rfl (by simp) false (by simp)
    ⟨0, by decide, by decide +kernel⟩
  exact ⟨lsqr, X, hl, hX, hm⟩

/-- **C163 (variances).** The variance reported for a parameter is the one for the derivatives without the factors, divided by the squared factor:
with `1 / cos(dec)` it is `cos(dec)²` times the variance of the right ascension. -/
theorem C163_variance (imgs : Nat → Img R) (ds : Derivs R) (hI : ImagesOK imgs ds) (ks : List R) (hk : ks.length = ds.length)
    (h0 : ∀ k ∈ ks, k ≠ 0) (hne : ∃ c, c < ds.length ∧ columnNorm imgs ds [] c ≠ 0) :
    ∃ vs vs', updateVariance imgs ds none none = .ok (some vs) ∧ updateVariance imgs (scaleDerivs ks ds) none none = .ok (some vs') ∧
      vs'.length = vs.length ∧
      ∀ (j : Nat) v k, vs[j]? = some v → ks[j]? = some k → vs'[j]? = some (v / k ^ 2) := by
  have hlen : (scaleDerivs ks ds).length = ds.length := by simp [scaleDerivs, hk]
  have hI' : ImagesOK imgs (scaleDerivs ks ds) := by
    intro i hi
    rw [used_scaled ks ds hk] at hi
    exact hI i hi
  have hp : ∀ n, PriorOK (R := R) n none [] := fun n => ⟨by simp [Params.RepresentsOpt], by simp, by simp⟩
  obtain ⟨c, hc, hn⟩ := hne
  have hck : ks[c]? = some ks[c] := List.getElem?_eq_getElem (by omega)
  obtain ⟨vs, h1, h2, h3⟩ := C65_variance_partial imgs ds hI none [] (hp _) ⟨c, hc, hn⟩
  obtain ⟨vs', g1, g2, g3⟩ := C65_variance_partial imgs (scaleDerivs ks ds) hI' none [] (hp _) ⟨c, by omega, by
      rw [norm_scaled imgs ks ds c _ hck]
      exact mul_ne_zero (pow_ne_zero 2 (h0 _ (List.getElem_mem _))) hn⟩
  refine ⟨vs, vs', h1, g1, by omega, fun j v k hv hkj => ?_⟩
  have hj : j < ds.length := by
    have := (List.getElem?_eq_some_iff.1 hv).1
    omega
  have e := h3 j hj
  rw [hv] at e
  rw [g3 j (by omega), norm_scaled imgs ks ds j k hkj, Option.some.inj e, div_div, mul_comm]

/-- With the first derivative twice too large, a quarter of the variance is reported. -/
example : updateVariance exImgs exDerivs none none = .ok (some [1 / 69, 1 / 25]) ∧
    updateVariance exImgs (scaleDerivs [2, 1] exDerivs) none none = .ok (some [1 / 276, 1 / 25]) :=
  ⟨by decide +kernel, by decide +kernel⟩

end

end Verif.Coords
