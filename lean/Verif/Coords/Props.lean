import Verif.Coords.Model
import Verif.Src.Spec
import Mathlib.Algebra.Field.Rat
import Mathlib.Tactic.Ring
import Mathlib.Tactic.FieldSimp
import Mathlib.Tactic.NormNum
import Mathlib.Algebra.CharP.Defs
import Mathlib.Algebra.CharZero.Defs

/-!
# C42, C66, C67, C68: coordinates
-/

namespace Verif.Coords

open Verif

variable {R : Type} [Field R]

/-! ## Specification -/

/-- The library object's conversions are inverse to each other. -/
def Ext.Inverse (e : Ext R) : Prop :=
  (∀ x y, e.toPix (e.toSky x y).1 (e.toSky x y).2 = (x, y)) ∧
  (∀ ra dec, e.toSky (e.toPix ra dec).1 (e.toPix ra dec).2 = (ra, dec))

/-- A WCS made of sky projections with mutually inverse conversions, shifted any number of times. -/
def SkyWcs : Wcs R → Prop
  | .null _ _ _ => False
  | .fits e _ _ => e.Inverse
  | .wcslib e _ _ => e.Inverse
  | .shifted w _ _ => SkyWcs w
  | .scaled _ _ => False

/-- `w'` is `w` for the subimage starting at pixel `(dx, dy)`: what is at `(x, y)` of the full image is at
`(x - dx, y - dy)` of the subimage; the same positions and CD matrices. -/
def SubimageOf (w w' : Wcs R) (dx dy : R) : Prop :=
  (∀ p, positionToPixel w' p = (positionToPixel w p).map (fun q => (q.1 - dx, q.2 - dy))) ∧
  (∀ x y, pixelToPosition w' x y = pixelToPosition w (x + dx) (y + dy)) ∧
  (∀ x y, cdAtPixel w' x y = cdAtPixel w (x + dx) (y + dy))

/-! ## C42 -/

/-- **C42 (inverse).** For every sky WCS, however often shifted or wrapped: going from pixel to position and
back gives the pixel, and from position to pixel and back gives the position. -/
theorem C42_inverse : ∀ (w : Wcs R), SkyWcs w →
    (∀ x y, ∃ ra dec, pixelToPosition w x y = .ok (.radec ra dec) ∧
      positionToPixel w (.radec ra dec) = .ok (x, y)) ∧
    (∀ ra dec, ∃ x y, positionToPixel w (.radec ra dec) = .ok (x, y) ∧
      pixelToPosition w x y = .ok (.radec ra dec))
  | .null _ _ _, h => h.elim
  | .scaled _ _, h => h.elim
  | .fits e x0 y0, h => by
    refine ⟨fun x y => ⟨_, _, rfl, ?_⟩, fun ra dec => ⟨_, _, rfl, ?_⟩⟩
    · simp only [positionToPixel, h.1]
      congr 2 <;> ring
    · simp only [pixelToPosition]
      have e1 : ∀ a b : R, a - 1 - b + 1 + b = a := fun a b => by ring
      rw [e1, e1, h.2]
  | .wcslib e x0 y0, h => by
    refine ⟨fun x y => ⟨_, _, rfl, ?_⟩, fun ra dec => ⟨_, _, rfl, ?_⟩⟩
    · simp only [positionToPixel, h.1]
      congr 2 <;> ring
    · simp only [pixelToPosition]
      have e1 : ∀ a b : R, a - 1 - b + 1 + b = a := fun a b => by ring
      rw [e1, e1, h.2]
  | .shifted w x0 y0, h => by
    obtain ⟨h1, h2⟩ := C42_inverse w h
    constructor
    · intro x y
      obtain ⟨ra, dec, ha, hb⟩ := h1 (x + x0) (y + y0)
      exact ⟨ra, dec, ha, by simp [positionToPixel, hb, Except.map]⟩
    · intro ra dec
      obtain ⟨x, y, ha, hb⟩ := h2 ra dec
      refine ⟨x - x0, y - y0, by simp [positionToPixel, ha, Except.map], ?_⟩
      simp [pixelToPosition, hb]

/-- The same for a WCS made to look like a library object (FITS pixels). -/
theorem C42_wrapper_inverse (w : Wcs R) (hw : SkyWcs w) (x0 y0 : R) :
    (∀ x y, ∃ ra dec, wrapperToSky w x0 y0 x y = .ok (ra, dec) ∧ wrapperToPix w x0 y0 ra dec = .ok (x, y)) ∧
    (∀ ra dec, ∃ x y, wrapperToPix w x0 y0 ra dec = .ok (x, y) ∧ wrapperToSky w x0 y0 x y = .ok (ra, dec)) := by
  obtain ⟨h1, h2⟩ := C42_inverse w hw
  constructor
  · intro x y
    obtain ⟨ra, dec, ha, hb⟩ := h1 (x + x0 - 1) (y + y0 - 1)
    refine ⟨ra, dec, by simp [wrapperToSky, ha], ?_⟩
    simp only [wrapperToPix, hb, Except.map]
    congr 2 <;> ring
  · intro ra dec
    obtain ⟨x, y, ha, hb⟩ := h2 ra dec
    refine ⟨x - x0 + 1, y - y0 + 1, by simp [wrapperToPix, ha, Except.map], ?_⟩
    have e1 : ∀ a b : R, a - b + 1 + b - 1 = a := fun a b => by ring
    simp only [wrapperToSky, e1, hb]

/-- **C42 (shift).** Wrapping in `ShiftedWcs` gives the WCS of the subimage. -/
theorem C42_wrapped_subimage (w : Wcs R) (dx dy : R) : SubimageOf w (.shifted w dx dy) dx dy :=
  ⟨fun _ => rfl, fun _ _ => rfl, fun _ _ => rfl⟩

/-- **C42 (shift, part).** `shifted(dx, dy)` of a FITS WCS gives the WCS of the subimage.  Missing: `NullWCS`
(false) and the classes without the method. -/
theorem C42_shifted_partial (e : Ext R) (x0 y0 dx dy : R) :
    ∃ w', shiftedBy (.fits e x0 y0) dx dy = .ok w' ∧ SubimageOf (.fits e x0 y0) w' dx dy := by
  refine ⟨_, rfl, ?_, ?_, fun _ _ => rfl⟩
  · intro p
    cases p <;> simp only [positionToPixel, Except.map]
    congr 2 <;> ring
  · intro x y
    have e1 : ∀ a b c : R, a + 1 + (b + c) = a + c + 1 + b := fun a b c => by ring
    simp only [pixelToPosition, e1]

/-- **C42 (composition).** Subimage of a subimage: the offsets add, whatever the two steps are (wrapping or
`shifted`). -/
theorem C42_compose (w w' w'' : Wcs R) (a b c d : R) (h : SubimageOf w w' a b) (h' : SubimageOf w' w'' c d) :
    SubimageOf w w'' (a + c) (b + d) := by
  refine ⟨fun p => ?_, fun x y => ?_, fun x y => ?_⟩
  · rw [h'.1, h.1]
    cases positionToPixel w p with
    | error e => rfl
    | ok q => simp [Except.map, sub_sub]
  · rw [h'.2.1, h.2.1]
    congr 1 <;> ring
  · rw [h'.2.2, h.2.2]
    congr 1 <;> ring

/-- `shifted` twice is `shifted` once by the sum. -/
theorem C42_shifted_twice (e : Ext R) (x0 y0 a b c d : R) :
    (shiftedBy (.fits e x0 y0) a b).bind (fun w => shiftedBy w c d) =
      shiftedBy (.fits e x0 y0) (a + c) (b + d) := by
  simp [shiftedBy, Except.bind, add_assoc]

/-- A projection for the examples: `ra = 2x + 7`, `dec = 3y`. -/
def exExt : Ext Rat where
  toPix ra dec := ((ra - 7) / 2, dec / 3)
  toSky x y := (2 * x + 7, 3 * y)
  cd := ⟨2, 0, 0, 3⟩
  cosd _ := 1

example : exExt.Inverse := by
  constructor
  · intro x y
    simp only [exExt]
    congr 1 <;> ring
  · intro x y
    simp only [exExt]
    congr 1 <;> ring

example : positionToPixel (.shifted (.fits exExt 10 20) 5 6) (.radec 107 90) = .ok (34, 3) ∧
    pixelToPosition (.shifted (.fits exExt 10 20) 5 6) 34 3 = .ok (.radec 107 90) ∧
    cdAtPixel (.shifted (.wcslib exExt 10 20) 5 6) 1 1 = ⟨2, 0, 0, 3⟩ ∧
    wrapperToPix (.fits exExt 10 20) 1 2 107 90 = .ok (39, 8) := by
  refine ⟨?_, ?_, ?_, ?_⟩ <;> decide +kernel

/-- **C42 is false for `NullWCS`**: the shifted WCS is the unshifted one (and forgets offset and pixel
scale), so positions land on the wrong pixels of a subimage; and what `pixelToPosition` returns is not
accepted by `positionToPixel`. -/
theorem C42_null_false :
    (∃ w' : Wcs Rat, shiftedBy (.null 1 0 0) 10 20 = .ok w' ∧
      positionToPixel w' (.pix 15 25) = .ok (15, 25) ∧ ¬ SubimageOf (.null 1 0 0) w' 10 20) ∧
    (∃ w' : Wcs Rat, shiftedBy (.null 2 3 4) 0 0 = .ok w' ∧ ¬ SubimageOf (.null 2 3 4) w' 0 0) ∧
    (∀ x y s dx dy : Rat, ∃ p, pixelToPosition (.null s dx dy) x y = .ok p ∧
      positionToPixel (.null s dx dy) p = .error .attribute) := by
  refine ⟨⟨_, rfl, by decide +kernel, fun h => ?_⟩, ⟨_, rfl, fun h => ?_⟩, fun x y s dx dy => ⟨_, rfl, rfl⟩⟩
  · have := h.1 (.pix 0 0)
    revert this; decide +kernel
  · have := h.1 (.pix 0 0)
    revert this; decide +kernel

/-! ## C66: position derivatives -/

/-- Moving a position by `h` in coordinate `j`. -/
def movePos : Pos R → Nat → R → Pos R
  | .pix x y, j, h => if j = 0 then .pix (x + h) y else .pix x (y + h)
  | .radec a d, j, h => if j = 0 then .radec (a + h) d else .radec a (d + h)
  | .tuple x y, _, _ => .tuple x y

/-- Matrix `m` is the Jacobian of `positionToPixel` at `p`, exactly (an affine WCS). -/
def JacobianAt (w : Wcs R) (p : Pos R) (m : Mat R) : Prop :=
  ∀ (j : Nat) (h x y : R), positionToPixel w p = .ok (x, y) →
    positionToPixel w (movePos p j h) =
      .ok (if j = 0 then (x + h * m.a, y + h * m.c) else (x + h * m.b, y + h * m.d))

/-- **C66 (part).** If the CD matrix of a FITS WCS is the Jacobian of the sky coordinates (an affine
projection; no factor cos(dec)), then the matrix used to convert pixel derivatives to position derivatives is
the Jacobian of `positionToPixel`.  Missing: projections with curvature, cos(dec); and `NullWCS`, for which
it is false unless the pixel scale is 3600. -/
theorem C66_jacobian_partial [DecidableEq R] (e : Ext R) (x0 y0 ra dec : R) (ra0 dec0 : R) (he : e.Inverse)
    (hcd : ∀ x y, e.toSky x y = (ra0 + e.cd.a * x + e.cd.b * y, dec0 + e.cd.c * x + e.cd.d * y))
    (hdet : e.cd.a * e.cd.d - e.cd.b * e.cd.c ≠ 0) :
    ∃ m, cdInverseAtPosition (.fits e x0 y0) (.radec ra dec) = .ok m ∧
      JacobianAt (.fits e x0 y0) (.radec ra dec) m := by
  refine ⟨⟨e.cd.d / (e.cd.a * e.cd.d - e.cd.b * e.cd.c), -e.cd.b / (e.cd.a * e.cd.d - e.cd.b * e.cd.c),
    -e.cd.c / (e.cd.a * e.cd.d - e.cd.b * e.cd.c), e.cd.a / (e.cd.a * e.cd.d - e.cd.b * e.cd.c)⟩, ?_, ?_⟩
  · simp only [cdInverseAtPosition, positionToPixel, Mat.inv]
    rw [if_neg hdet]
  -- `toPix` undoes a move of the sky coordinates
  have key : ∀ u v : R, e.toPix (ra + u) (dec + v) =
      ((e.toPix ra dec).1 + (e.cd.d * u - e.cd.b * v) / (e.cd.a * e.cd.d - e.cd.b * e.cd.c),
       (e.toPix ra dec).2 + (e.cd.a * v - e.cd.c * u) / (e.cd.a * e.cd.d - e.cd.b * e.cd.c)) := by
    intro u v
    have h0 := he.2 ra dec
    rw [hcd] at h0
    have ha : ra = ra0 + e.cd.a * (e.toPix ra dec).1 + e.cd.b * (e.toPix ra dec).2 := (Prod.ext_iff.1 h0).1.symm
    have hd : dec = dec0 + e.cd.c * (e.toPix ra dec).1 + e.cd.d * (e.toPix ra dec).2 := (Prod.ext_iff.1 h0).2.symm
    have h1 := he.1 ((e.toPix ra dec).1 + (e.cd.d * u - e.cd.b * v) / (e.cd.a * e.cd.d - e.cd.b * e.cd.c))
      ((e.toPix ra dec).2 + (e.cd.a * v - e.cd.c * u) / (e.cd.a * e.cd.d - e.cd.b * e.cd.c))
    rw [hcd] at h1
    have e1 : ∀ X Y D : R, D ≠ 0 → D = e.cd.a * e.cd.d - e.cd.b * e.cd.c →
        ra0 + e.cd.a * (X + (e.cd.d * u - e.cd.b * v) / D) + e.cd.b * (Y + (e.cd.a * v - e.cd.c * u) / D) =
        ra0 + e.cd.a * X + e.cd.b * Y + u := by
      intro X Y D hD hDe
      field_simp
      rw [hDe]; ring
    have e2 : ∀ X Y D : R, D ≠ 0 → D = e.cd.a * e.cd.d - e.cd.b * e.cd.c →
        dec0 + e.cd.c * (X + (e.cd.d * u - e.cd.b * v) / D) + e.cd.d * (Y + (e.cd.a * v - e.cd.c * u) / D) =
        dec0 + e.cd.c * X + e.cd.d * Y + v := by
      intro X Y D hD hDe
      field_simp
      rw [hDe]; ring
    simp only [e1 _ _ _ hdet rfl, e2 _ _ _ hdet rfl, ← ha, ← hd] at h1
    exact h1
  intro j h x y hxy
  simp only [positionToPixel, Except.ok.injEq, Prod.mk.injEq] at hxy
  obtain ⟨rfl, rfl⟩ := hxy
  simp only [movePos]
  by_cases hj : j = 0
  · simp only [hj, if_true, positionToPixel]
    have := key h 0
    rw [add_zero] at this
    rw [this]
    simp only [Except.ok.injEq, Prod.mk.injEq]
    constructor <;> ring
  · simp only [hj, if_false, positionToPixel]
    have := key 0 h
    rw [add_zero] at this
    rw [this]
    simp only [Except.ok.injEq, Prod.mk.injEq]
    constructor <;> ring

/-- Where the matrix used is the Jacobian, the position derivative of a source whose rendering is linear in
the pixel position (to first order, any rendering) is the difference quotient of its model image. -/
theorem C66_derivative {M : Type} [AddCommGroup M] [Module R M] (w : Wcs R) (p : Pos R) (m : Mat R)
    (hJ : JacobianAt w p m) (render : R × R → M) (dx dy : M) (x y : R) (hp : positionToPixel w p = .ok (x, y))
    (hr : ∀ u v, render (x + u, y + v) = render (x, y) + u • dx + v • dy) (counts : R) (j : Nat) (h : R)
    (hh : h ≠ 0) :
    ∃ q, positionToPixel w (movePos p j h) = .ok q ∧
      counts • ((Src.column ((m.a, m.b), (m.c, m.d)) j).1 • dx + (Src.column ((m.a, m.b), (m.c, m.d)) j).2 • dy) =
      h⁻¹ • (counts • render q - counts • render (x, y)) := by
  refine ⟨_, hJ j h x y hp, ?_⟩
  have key : ∀ a b : R, counts • (a • dx + b • dy) =
      h⁻¹ • (counts • render (x + h * a, y + h * b) - counts • render (x, y)) := by
    intro a b
    have hi : ∀ c : R, h⁻¹ * (h * c) = c := fun c => by rw [← mul_assoc, inv_mul_cancel₀ hh, one_mul]
    rw [← smul_sub, hr, add_assoc, add_sub_cancel_left, smul_comm h⁻¹ counts, smul_add h⁻¹, smul_smul h⁻¹,
      smul_smul h⁻¹, hi, hi]
  by_cases hj : j = 0
  · rw [if_pos hj, ← key, Src.column, if_pos hj]
  · rw [if_neg hj, ← key, Src.column, if_neg hj]

example : cdInverseAtPosition (.fits exExt 10 20) (.radec 107 90) = .ok ⟨1/2, 0, 0, 1/3⟩ ∧
    positionToPixel (.fits exExt 10 20) (.radec 107 90) = .ok (39, 9) ∧
    positionToPixel (.fits exExt 10 20) (.radec 109 90) = .ok (40, 9) := by
  refine ⟨?_, ?_, ?_⟩ <;> decide +kernel

/-- `NullWCS`: the matrix is the Jacobian only for a pixel scale of 3600; positions move one pixel per unit,
but derivatives are multiplied by `3600 / pixscale`. -/
theorem C66_null_iff [DecidableEq R] [CharZero R] (s dx dy px py : R) (hs : s ≠ 0) :
    JacobianAt (.null s dx dy) (.pix px py) ⟨1, 0, 0, 1⟩ ∧
    ∃ m, cdInverseAtPosition (.null s dx dy) (.pix px py) = .ok m ∧ m = ⟨3600 / s, 0, 0, 3600 / s⟩ ∧
      (JacobianAt (.null s dx dy) (.pix px py) m ↔ s = 3600) := by
  have hJ : JacobianAt (.null s dx dy) (.pix px py) ⟨1, 0, 0, 1⟩ := by
    intro j h x y hxy
    simp only [positionToPixel, Except.ok.injEq, Prod.mk.injEq] at hxy
    obtain ⟨rfl, rfl⟩ := hxy
    by_cases hj : j = 0
    · simp only [movePos, hj, if_true, positionToPixel, Except.ok.injEq, Prod.mk.injEq]
      constructor <;> ring
    · simp only [movePos, hj, if_false, positionToPixel, Except.ok.injEq, Prod.mk.injEq]
      constructor <;> ring
  have hm : (⟨1 / (s / 3600), 0, 0, 1 / (s / 3600)⟩ : Mat R) = ⟨3600 / s, 0, 0, 3600 / s⟩ := by
    rw [one_div_div]
  refine ⟨hJ, _, rfl, hm, ?_⟩
  rw [hm]
  constructor
  · intro h
    have h1 := h 0 1 _ _ rfl
    rw [hJ 0 1 _ _ rfl] at h1
    simp only [if_true, Except.ok.injEq, Prod.mk.injEq, one_mul, add_right_inj] at h1
    have := h1.1
    field_simp at this
    exact this
  · intro h
    subst h
    rw [div_self hs]
    exact hJ

/-- **C66 is false for `NullWCS`** with the default pixel scale: the derivative of a source position in
pixels is 3600 times too large. -/
theorem C66_null_false : ¬ JacobianAt (.null (1 : Rat) 0 0) (.pix 5 5) ⟨3600, 0, 0, 3600⟩ ∧
    cdInverseAtPosition (.null (1 : Rat) 0 0) (.pix 5 5) = .ok ⟨3600, 0, 0, 3600⟩ := by
  refine ⟨fun h => ?_, by decide +kernel⟩
  have := h 0 1 5 5 (by decide +kernel)
  revert this; decide +kernel

/-- Shifted and scaled wrappers have no such method: sources in their images cannot be differentiated with
respect to position. -/
theorem C66_wrappers_missing [DecidableEq R] (w : Wcs R) (x0 y0 f : R) (p : Pos R) :
    cdInverseAtPosition (.shifted w x0 y0) p = .error .attribute ∧
    cdInverseAtPosition (.scaled w f) p = .error .attribute := ⟨rfl, rfl⟩

/-! ## C67: scaled WCS -/

/-- **C67 (positions).** Scaling keeps the edge of the first pixel (-1/2) in place and multiplies distances;
scaling twice multiplies the factors. -/
theorem C67_positions (w : Wcs R) (f : R) (p : Pos R) (x y : R) (h : positionToPixel w p = .ok (x, y)) :
    ∃ x' y', positionToPixel (.scaled w f) p = .ok (x', y') ∧ x' + 1 / 2 = f * (x + 1 / 2) ∧
      y' + 1 / 2 = f * (y + 1 / 2) := by
  refine ⟨(x + 1 / 2) * f - 1 / 2, (y + 1 / 2) * f - 1 / 2, by simp [positionToPixel, h, Except.map], ?_, ?_⟩ <;> ring

theorem C67_compose (w : Wcs R) (f g : R) (p : Pos R) :
    positionToPixel (.scaled (.scaled w f) g) p = positionToPixel (.scaled w (f * g)) p := by
  simp only [positionToPixel]
  cases positionToPixel w p with
  | error e => rfl
  | ok q =>
    simp only [Except.map, Except.ok.injEq, Prod.mk.injEq]
    constructor <;> ring

/-- **C67 (CD matrix, part).** The CD matrix at the pixel of a position is that of the wrapped WCS divided by
the factor, if that matrix does not depend on y.  Missing: it does depend on y, where it is false. -/
theorem C67_cd_partial (w : Wcs R) (f : R) (hf : f ≠ 0) (p : Pos R) (x y x' y' : R)
    (hy : ∀ a b c, cdAtPixel w a b = cdAtPixel w a c) (h : positionToPixel w p = .ok (x, y))
    (h' : positionToPixel (.scaled w f) p = .ok (x', y')) :
    cdAtPixel (.scaled w f) x' y' = (cdAtPixel w x y).smul (1 / f) := by
  simp only [positionToPixel, h, Except.map, Except.ok.injEq, Prod.mk.injEq] at h'
  obtain ⟨rfl, rfl⟩ := h'
  simp only [cdAtPixel]
  rw [hy _ _ y]
  congr 2
  field_simp
  ring

example : cdAtPixel (.scaled (.fits exExt 10 20) 2) 4 4 = ⟨1, 0, 0, 3/2⟩ := by decide +kernel

/-- A projection whose scale in x depends on y. -/
def bentExt : Ext Rat where
  toPix ra dec := (ra / (1 + dec), dec)
  toSky x y := (x * (1 + y), y)
  cd := ⟨1, 0, 0, 1⟩
  cosd _ := 1

/-- **C67 (CD matrix) is false** where the matrix depends on y: the y coordinate is multiplied by the factor
instead of divided.  Position (0, 5): pixel 4 of the wrapped WCS with x scale 6, pixel 17/2 of the scaled one
with x scale 39/4 = 39/2 / 2 instead of 3. -/
theorem C67_cd_false :
    positionToPixel (.wcslib bentExt 0 0) (.radec 0 5) = .ok (-1, 4) ∧
    (cdAtPixel (.wcslib bentExt 0 0) (-1) 4).a = 6 ∧
    positionToPixel (.scaled (.wcslib bentExt 0 0) 2) (.radec 0 5) = .ok (-3/2, 17/2) ∧
    (cdAtPixel (.scaled (.wcslib bentExt 0 0) 2) (-3/2) (17/2)).a = 39/4 := by
  refine ⟨?_, ?_, ?_, ?_⟩ <;> decide +kernel

/-! ## C68: shifted PSF -/

/-- **C68.** A shifted PSF renders at `(px, py)` what the PSF renders at `(px + x0, py + y0)` of the full
image, moved by `(-x0, -y0)`; extents and `Patch` masks are moved along. -/
theorem C68_shifted_psf_partial {A : Type} (psf : Render R A) (x0 y0 px py : R)
    (extent : Option (R × R × R × R)) (mask : Option (R × R × A)) :
    shiftedPsf psf x0 y0 px py extent (mask.map (fun m => .patch m.1 m.2.1 m.2.2)) =
      (psf (px + x0) (py + y0) (extent.map (fun e => (e.1 + x0, e.2.1 + x0, e.2.2.1 + y0, e.2.2.2 + y0)))
        (mask.map (fun m => .patch (m.1 + x0) (m.2.1 + y0) m.2.2))).map
          (fun p => p.map (fun p => ⟨p.x0 - x0, p.y0 - y0, p.data⟩)) := by
  cases mask <;> simp only [shiftedPsf, Option.map_none, Option.map_some, add_comm x0, add_comm y0]

/-- Shifting twice adds the shifts. -/
theorem C68_compose {A : Type} (psf : Render R A) (a b c d : R) :
    shiftedPsf (shiftedPsf psf a b) c d = shiftedPsf psf (a + c) (b + d) := by
  have hs : ∀ (r : Except PyErr (Option (Stamp R A))),
      (r.map (fun p => p.map (fun p => (⟨p.x0 - a, p.y0 - b, p.data⟩ : Stamp R A)))).map
        (fun p => p.map (fun p => (⟨p.x0 - c, p.y0 - d, p.data⟩ : Stamp R A))) =
      r.map (fun p => p.map (fun p => ⟨p.x0 - (a + c), p.y0 - (b + d), p.data⟩)) := by
    intro r
    cases r with
    | error e => rfl
    | ok o => cases o <;> simp [Except.map, sub_sub]
  have he : ∀ (ex : Option (R × R × R × R)),
      (ex.map (fun e => (e.1 + c, e.2.1 + c, e.2.2.1 + d, e.2.2.2 + d))).map
        (fun e => (e.1 + a, e.2.1 + a, e.2.2.1 + b, e.2.2.2 + b)) =
      ex.map (fun e => (e.1 + (a + c), e.2.1 + (a + c), e.2.2.1 + (b + d), e.2.2.2 + (b + d))) := by
    intro ex
    cases ex with
    | none => rfl
    | some e => simp only [Option.map_some, add_assoc, add_comm c a, add_comm d b]
  funext px py extent mask
  cases mask with
  | none => simp only [shiftedPsf, hs, he, add_assoc]
  | some m =>
    cases m with
    | modelMask x y dd => rfl
    | patch x y dd =>
      simp only [shiftedPsf, hs, he, add_assoc]
      rw [add_comm c a, add_comm d b]

/-- A PSF whose stamp is its position. -/
def exPsf : Render Rat (Rat × Rat) := fun px py _ _ => .ok (some ⟨px - 2, py - 2, (px, py)⟩)

example : shiftedPsf exPsf 10 20 3 4 none none = .ok (some ⟨1, 2, (13, 24)⟩) := by decide +kernel

/-- **C68 is false for model masks**: a `ModelMask` has no attribute `patch`, so every rendering with one
raises AttributeError. -/
theorem C68_mask_false {A : Type} (psf : Render R A) (x0 y0 px py mx my : R) (m : A)
    (extent : Option (R × R × R × R)) :
    shiftedPsf psf x0 y0 px py extent (some (.modelMask mx my m)) = .error .attribute := rfl

end Verif.Coords
