import Verif.Star.MomentLemmas
import Verif.Star.PropsSeen
import Verif.Gauss.PropsConv
import Verif.Ell.Model

/-!
# C169: where the light of a mixture, of two convolved ones and of a galaxy is, and how far it is spread
-/

namespace Verif.Star

open Verif.Mog (Comp Mix Mat)
open Verif.Gauss

/-- Amplitude, mean and covariance of the components say how much light there is, where it is and how far it is spread. -/
theorem C169_mixture (m : Mix ℝ) (hm : ∀ c ∈ m, Proper c) (px py : ℝ) :
    allLight (densityMix m) = (m.map (·.amp)).sum ∧
    offX px (densityMix m) = (m.map (fun c => c.amp * (c.mx - px))).sum ∧
    offY py (densityMix m) = (m.map (fun c => c.amp * (c.my - py))).sum ∧
    spreadXX px (densityMix m) = (m.map (fun c => c.amp * ((c.mx - px) ^ 2 + c.vxx))).sum ∧
    spreadXY px py (densityMix m) = (m.map (fun c => c.amp * ((c.mx - px) * (c.my - py) + c.vxy))).sum ∧
    spreadYY py (densityMix m) = (m.map (fun c => c.amp * ((c.my - py) ^ 2 + c.vyy))).sum := by
  have key : ∀ (A B C D E F : ℝ) (q : ℝ → ℝ → ℝ) (g : Comp ℝ → ℝ),
      (∀ x y, q x y = A * x ^ 2 + B * (x * y) + C * y ^ 2 + D * x + E * y + F) →
      (∀ c, g c = c.amp * (A * (c.mx ^ 2 + c.vxx) + B * (c.mx * c.my + c.vxy) + C * (c.my ^ 2 + c.vyy) + D * c.mx + E * c.my + F)) →
      weighed q (densityMix m) = (m.map g).sum := by
    intro A B C D E F q g hq hg
    unfold weighed
    simp_rw [hq]
    rw [(mix_moments m hm A B C D E F).2.2]
    congr 1
    exact List.map_congr_left (fun c _ => (hg c).symm)
  refine ⟨key 0 0 0 0 0 1 _ _ (fun x y => by ring) (fun c => by ring), key 0 0 0 1 0 (-px) _ _ (fun x y => by ring) (fun c => by ring),
    key 0 0 0 0 1 (-py) _ _ (fun x y => by ring) (fun c => by ring),
    key 1 0 0 (-2 * px) 0 (px ^ 2) _ _ (fun x y => by ring) (fun c => by ring),
    key 0 1 0 (-py) (-px) (px * py) _ _ (fun x y => by ring) (fun c => by ring),
    key 0 0 1 0 (-2 * py) (py ^ 2) _ _ (fun x y => by ring) (fun c => by ring)⟩

/-- Convolved with another mixture: the light is multiplied, the displacements are added and the spreads about the two places `(px, py)` and `(qx, qy)`
too (with the products of the displacements from these, none if these are the centres). -/
theorem C169_convolve (a b : Mix ℝ) (ha : ∀ c ∈ a, Proper c) (hb : ∀ c ∈ b, Proper c) (px py qx qy : ℝ) :
    let f := densityMix (Mog.convolve a b)
    let A := densityMix a
    let B := densityMix b
    allLight f = allLight A * allLight B ∧
    offX (px + qx) f = offX px A * allLight B + allLight A * offX qx B ∧
    offY (py + qy) f = offY py A * allLight B + allLight A * offY qy B ∧
    spreadXX (px + qx) f = spreadXX px A * allLight B + 2 * (offX px A * offX qx B) + allLight A * spreadXX qx B ∧
    spreadXY (px + qx) (py + qy) f =
      spreadXY px py A * allLight B + (offX px A * offY qy B + offY py A * offX qx B) + allLight A * spreadXY qx qy B ∧
    spreadYY (py + qy) f = spreadYY py A * allLight B + 2 * (offY py A * offY qy B) + allLight A * spreadYY qy B := by
  dsimp only
  obtain ⟨f1, f2, f3, f4, f5, f6⟩ := C169_mixture _ (C101_proper a b ha hb) (px + qx) (py + qy)
  obtain ⟨a1, a2, a3, a4, a5, a6⟩ := C169_mixture a ha px py
  obtain ⟨b1, b2, b3, b4, b5, b6⟩ := C169_mixture b hb qx qy
  rw [f1, f2, f3, f4, f5, f6, a1, a2, a3, a4, a5, a6, b1, b2, b3, b4, b5, b6]
  exact conv_in a b px py qx qy

/-- The mixture of a galaxy at `(px, py)` in an image with a PSF of Gaussians: the light of the profile times that of the PSF; displaced from `(px, py)` as the
PSF is from its origin; spread as the PSF, and in quadrature as the profile stretched onto the image (`V` is the spread of the profile along an axis). -/
theorem C169_galaxy (profile : Mix ℝ) (hp : ∀ c ∈ profile, Round c) (cdinv basis : Mat ℝ) (px py : ℝ) (mix : Mix ℝ) (hm : ∀ c ∈ mix, Proper c) :
    let f := densityMix (Mog.convolve (Gal.hoggAffine profile cdinv basis px py) mix)
    let psf := densityMix mix
    let T := Gal.dot cdinv basis
    let L := (profile.map (·.amp)).sum
    let V := (profile.map (fun c => c.amp * c.vxx)).sum
    allLight f = L * allLight psf ∧ offX px f = L * offX 0 psf ∧ offY py f = L * offY 0 psf ∧
    spreadXX px f = L * spreadXX 0 psf + V * (T.xx ^ 2 + T.xy ^ 2) * allLight psf ∧
    spreadXY px py f = L * spreadXY 0 0 psf + V * (T.xx * T.yx + T.xy * T.yy) * allLight psf ∧
    spreadYY py f = L * spreadYY 0 psf + V * (T.yx ^ 2 + T.yy ^ 2) * allLight psf := by
  dsimp only
  unfold Gal.hoggAffine
  set T := Gal.dot cdinv basis
  obtain ⟨f1, f2, f3, f4, f5, f6⟩ := C169_mixture _ (affine_proper hp T hm px py) px py
  obtain ⟨b1, b2, b3, b4, b5, b6⟩ := C169_mixture mix hm 0 0
  obtain ⟨c1, c2, c3, c4, c5, c6⟩ := conv_in (Mog.applyAffine profile (px, py) T) mix px py 0 0
  obtain ⟨a1, a2, a3, a4, a5, a6⟩ := affine_in hp T px py
  rw [add_zero] at c2 c4 c5
  rw [add_zero] at c3 c5 c6
  rw [a1] at c1 c2 c3 c4 c5 c6
  rw [f1, f2, f3, f4, f5, f6, b1, b2, b3, b4, b5, b6]
  refine ⟨c1, c2.trans ?_, c3.trans ?_, c4.trans ?_, c5.trans ?_, c6.trans ?_⟩
  · rw [a2, zero_mul, zero_add]; rfl
  · rw [a3, zero_mul, zero_add]; rfl
  · rw [a2, a4, zero_mul, mul_zero, add_zero, add_comm]; rfl
  · rw [a2, a3, a5, zero_mul, zero_mul, add_zero, add_zero, add_comm]; rfl
  · rw [a3, a6, zero_mul, mul_zero, add_zero, add_comm]; rfl

/-- The matrix of a shape, as one of mixtures. -/
def ofEll (G : Ell.Mat) : Mat ℝ := ⟨G.a, G.b, G.c, G.d⟩

/-- Square pixels, `k` of them in a degree: the columns of the inverse of CD are perpendicular and of length `k`. -/
def Square (cdinv : Mat ℝ) (k : ℝ) : Prop :=
  cdinv.xx ^ 2 + cdinv.yx ^ 2 = k ^ 2 ∧ cdinv.xy ^ 2 + cdinv.yy ^ 2 = k ^ 2 ∧ cdinv.xx * cdinv.xy + cdinv.yx * cdinv.yy = 0

/-- With square pixels the mean square of the distance from the centre is that of the PSF and, in quadrature, `V` times the squares of the two half axes in
pixels: for a `GalaxyShape` (whose radius is at least a thirtieth of an arcsecond). -/
theorem C169_size (profile : Mix ℝ) (hp : ∀ c ∈ profile, Round c) (cdinv : Mat ℝ) (k : ℝ) (hk : Square cdinv k) (re ab phi px py : ℝ) (mix : Mix ℝ)
    (hm : ∀ c ∈ mix, Proper c) :
    let f := densityMix (Mog.convolve (Gal.hoggAffine profile cdinv (ofEll (Ell.shapeBasis re ab phi)) px py) mix)
    let psf := densityMix mix
    let r := max (1 / 30) re / 3600 * k
    spreadXX px f + spreadYY py f = (profile.map (·.amp)).sum * (spreadXX 0 psf + spreadYY 0 psf) +
      (profile.map (fun c => c.amp * c.vxx)).sum * (r ^ 2 + (ab * r) ^ 2) * allLight psf := by
  dsimp only
  obtain ⟨_, _, _, h4, _, h6⟩ := C169_galaxy profile hp cdinv (ofEll (Ell.shapeBasis re ab phi)) px py mix hm
  rw [h4, h6]
  obtain ⟨k1, k2, k3⟩ := hk
  have hcs := Real.sin_sq_add_cos_sq (Ell.radians (90 - phi))
  simp only [Gal.dot, ofEll, Ell.shapeBasis, Ell.Mat.smul]
  generalize Real.sin (Ell.radians (90 - phi)) = s at hcs
  generalize Real.cos (Ell.radians (90 - phi)) = c at hcs
  generalize max (1 / 30) re / 3600 = r
  generalize allLight (densityMix mix) = A
  generalize (profile.map (fun c => c.amp * c.vxx)).sum = V
  linear_combination (V * A * r ^ 2 * (c ^ 2 + (s * ab) ^ 2)) * k1 + (V * A * r ^ 2 * (s ^ 2 + (c * ab) ^ 2)) * k2 +
    (V * A * r ^ 2 * (2 * (-(c * s) + s * c * ab ^ 2))) * k3 + (V * A * r ^ 2 * k ^ 2 * (1 + ab ^ 2)) * hcs

/-- For an `EllipseE` the same, with its effective radius and its axis ratio; the galaxy is never taken to be thinner than 1 to 1000. -/
theorem C169_size_ellipse (profile : Mix ℝ) (hp : ∀ c ∈ profile, Round c) (cdinv : Mat ℝ) (k : ℝ) (hk : Square cdinv k) (E : Ell.EllE) (he : E.e < 1)
    (hb : 1 / 1000 ≤ E.ab) (px py : ℝ) (mix : Mix ℝ) (hm : ∀ c ∈ mix, Proper c) :
    let f := densityMix (Mog.convolve (Gal.hoggAffine profile cdinv (ofEll E.basis) px py) mix)
    let psf := densityMix mix
    let r := E.re / 3600 * k
    spreadXX px f + spreadYY py f = (profile.map (·.amp)).sum * (spreadXX 0 psf + spreadYY 0 psf) +
      (profile.map (fun c => c.amp * c.vxx)).sum * (r ^ 2 + (E.ab * r) ^ 2) * allLight psf := by
  dsimp only
  obtain ⟨_, _, _, h4, _, h6⟩ := C169_galaxy profile hp cdinv (ofEll E.basis) px py mix hm
  rw [h4, h6]
  obtain ⟨k1, k2, k3⟩ := hk
  have hcs := Real.sin_sq_add_cos_sq E.theta
  have he0 : 0 ≤ E.e := Real.sqrt_nonneg _
  have hab : (if E.e ≥ 1 then 1000 else min 1000 ((1 + E.e) / (1 - E.e))) = 1 / E.ab := by
    rw [if_neg (not_le.mpr he)]
    unfold Ell.EllE.ab Ell.abOf at hb ⊢
    rw [one_div_div, min_eq_right]
    rw [div_le_div_iff₀ (by norm_num) (by linarith)] at hb
    rw [div_le_iff₀ (by linarith)]
    linarith
  have hne : E.ab ≠ 0 := fun h => by rw [h] at hb; norm_num at hb
  unfold Ell.EllE.basis Ell.basis
  dsimp only
  rw [hab]
  simp only [Gal.dot, ofEll, Ell.Mat.smul, div_div_eq_mul_div, div_one]
  generalize Real.sin E.theta = s at hcs
  generalize Real.cos E.theta = c at hcs
  generalize E.re / 3600 = r
  generalize E.ab = ab
  generalize allLight (densityMix mix) = A
  generalize (profile.map (fun c => c.amp * c.vxx)).sum = V
  linear_combination (V * A * r ^ 2 * (s ^ 2 + (c * ab) ^ 2)) * k1 + (V * A * r ^ 2 * (c ^ 2 + (s * ab) ^ 2)) * k2 +
    (V * A * r ^ 2 * (2 * (c * s - s * c * ab ^ 2))) * k3 + (V * A * r ^ 2 * k ^ 2 * (1 + ab ^ 2)) * hcs

/-- The spread of a profile along an axis, in squares of the effective radius. -/
def spreadOf (k : Prof.Kind) : ℚ := ((Prof.profile k).map (fun c => c.amp * c.vxx)).sum

/-- What `V` and the light are for the classes of galaxies (an exponential disc that is not cut off has 1.065 instead of 0.950). -/
theorem C169_classes (k : Prof.Kind) :
    (((Prof.profile k).map Prof.real).map (·.amp)).sum = 1 ∧
    (((Prof.profile k).map Prof.real).map (fun c => c.amp * c.vxx)).sum = (spreadOf k : ℝ) ∧
    match k with
    | .gauss => spreadOf .gauss = 1
    | .exp => 0.9497 < spreadOf .exp ∧ spreadOf .exp < 0.9498
    | .dev => 2.6367 < spreadOf .dev ∧ spreadOf .dev < 2.6368 := by
  refine ⟨(C167_classes k).2.2, ?_, ?_⟩
  · unfold spreadOf
    generalize Prof.profile k = l
    induction l with
    | nil => simp
    | cons c l ih =>
      simp only [List.map_cons, List.sum_cons] at ih ⊢
      rw [ih]
      push_cast
      rfl
  · cases k <;> dsimp only <;> decide +kernel

/-- Two components off the origin, convolved with a round PSF: the light of both, displaced by their mean, spread by 1 more. -/
example : allLight (densityMix (Mog.convolve two exPsf.mog)) = 3 ∧ offX 0 (densityMix (Mog.convolve two exPsf.mog)) = 2 ∧
    spreadXY 0 0 (densityMix (Mog.convolve two exPsf.mog)) = 2 ∧
    spreadYY 0 (densityMix (Mog.convolve two exPsf.mog)) = 7 + 3 * 1 := by
  obtain ⟨h1, h2, _, _, h5, h6⟩ := C169_convolve two exPsf.mog two_proper exPsf_proper 0 0 0 0
  obtain ⟨a1, a2, a3, _, a5, a6⟩ := C169_mixture two two_proper 0 0
  obtain ⟨b1, b2, b3, _, b5, b6⟩ := C169_mixture exPsf.mog exPsf_proper 0 0
  rw [add_zero] at h2 h5 h6
  refine ⟨h1.trans ?_, h2.trans ?_, h5.trans ?_, h6.trans ?_⟩
  · rw [a1, b1]; norm_num [two, exPsf]
  · rw [a2, b1, b2, a1]; norm_num [two, exPsf]
  · rw [a5, b1, a2, b3, a3, b2, a1, b5]; norm_num [two, exPsf]
  · rw [a6, b1, a3, b3, a1, b6]; norm_num [two, exPsf]

/-- A point and a disc of the profile, half an arcsecond by a quarter, in pixels of a quarter of an arcsecond. -/
example : spreadXX 5 (densityMix (Mog.convolve (Gal.hoggAffine [⟨1, 0, 0, 0, 0, 0, 0⟩, ⟨2, 0, 0, 3, 0, 0, 3⟩] ⟨-14400, 0, 0, 14400⟩
        (ofEll (Ell.shapeBasis (1 / 2) (1 / 2) 30)) 5 6) exPsf.mog)) +
      spreadYY 6 (densityMix (Mog.convolve (Gal.hoggAffine [⟨1, 0, 0, 0, 0, 0, 0⟩, ⟨2, 0, 0, 3, 0, 0, 3⟩] ⟨-14400, 0, 0, 14400⟩
        (ofEll (Ell.shapeBasis (1 / 2) (1 / 2) 30)) 5 6) exPsf.mog)) = 3 * 2 + 6 * (2 ^ 2 + 1 ^ 2) := by
  have h := C169_size [⟨1, 0, 0, 0, 0, 0, 0⟩, ⟨2, 0, 0, 3, 0, 0, 3⟩] (by simp [Round]) ⟨-14400, 0, 0, 14400⟩ 14400
    (by refine ⟨?_, ?_, ?_⟩ <;> norm_num) (1 / 2) (1 / 2) 30 5 6 exPsf.mog exPsf_proper
  obtain ⟨b1, _, _, b4, _, b6⟩ := C169_mixture exPsf.mog exPsf_proper 0 0
  refine h.trans ?_
  rw [b1, b4, b6]
  norm_num [exPsf]

example : Ell.EllE.e ⟨1, 3 / 5, 0⟩ < 1 ∧ 1 / 1000 ≤ Ell.EllE.ab ⟨1, 3 / 5, 0⟩ := by
  have h : Ell.EllE.e ⟨1, 3 / 5, 0⟩ = 3 / 5 := by
    unfold Ell.EllE.e Ell.hypot
    rw [show ((3 : ℝ) / 5) ^ 2 + 0 ^ 2 = (3 / 5) ^ 2 by norm_num, Real.sqrt_sq (by norm_num)]
  unfold Ell.EllE.ab Ell.abOf
  rw [h]
  norm_num

end Verif.Star
