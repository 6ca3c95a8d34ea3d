import Verif.Gal.CompositeLemmas
import Verif.Gal.PropsFree
import Mathlib.Analysis.SpecialFunctions.ExpDeriv
import Mathlib.Analysis.Calculus.Deriv.Inv

/-!
# C113: composite galaxies are the weighted sum of their parts
-/

namespace Verif.Gal

open Verif.Patches (Patch)
open Verif.Mog (Mix Comp Mat)

variable {R : Type} [Field R] [LinearOrder R] [IsStrictOrderedRing R]

theorem clipped_range (exp : R → R) (hexp : ∀ x, 0 < exp x) (f : Frac R) : 0 ≤ f.clipped exp ∧ f.clipped exp ≤ 1 := by
  cases f with
  | hard v => exact ⟨le_min (le_max_right _ _) zero_le_one, min_le_right _ _⟩
  | soft v =>
    have h := hexp (4 * (1 / 2 - v))
    unfold Frac.clipped
    simp only
    constructor
    · positivity
    · rw [div_le_one (by positivity)]; linarith

/-- **C113 (profile).** The fraction of a fixed composite galaxy is between 0 and 1, and with profiles of total amplitude one the
profile it is rendered from, placed or centred, never raises, has total amplitude one, and in every quantity that adds over Gaussians
(density in a point, Fourier transform) is the fraction times that of the de Vaucouleurs profile plus the rest times that of the
exponential profile, each in the shape of its own. -/
theorem C113_profile (P : Profiles R) (he : Mog.total P.exp = 1) (hd : Mog.total P.dev = 1) (exp : R → R)
    (hexp : ∀ x, 0 < exp x) (s : Fixed R) (cdinv : Mat R) (px py : R) :
    let f := s.frac.clipped exp
    (0 ≤ f ∧ f ≤ 1) ∧
    (∃ m, s.affine P exp cdinv px py = .ok m ∧ Mog.total m = 1 ∧
      ∀ {N : Type} [AddCommGroup N] [Module R N] (g : Kernel R N),
        ofMix g m = f • ofMix g (hoggAffine P.dev cdinv s.devBasis px py) +
          (1 - f) • ofMix g (hoggAffine P.exp cdinv s.expBasis px py)) ∧
    (∃ m, s.sheared P exp cdinv = .ok m ∧ Mog.total m = 1 ∧
      ∀ {N : Type} [AddCommGroup N] [Module R N] (g : Kernel R N),
        ofMix g m = f • ofMix g (hoggSheared P.dev cdinv s.devBasis) +
          (1 - f) • ofMix g (hoggSheared P.exp cdinv s.expBasis)) := by
  intro f
  obtain ⟨h0, h1⟩ := clipped_range exp hexp s.frac
  refine ⟨⟨h0, h1⟩, ?_, ?_⟩
  · exact join_parts f _ _ (by rw [total_affine, hd]) (by rw [total_affine, he]) h0 h1 zero_lt_one
  · exact join_parts f _ _ (by rw [total_shear, hd]) (by rw [total_shear, he]) h0 h1 zero_lt_one

omit [LinearOrder R] [IsStrictOrderedRing R] in
/-- **C113**, the shape of a part: every component of the profile, with its amplitude, moved to the position, and stretched first by the
shape and then by the inverse of the CD matrix: its variance along a direction is that of the profile along the direction taken back
through both. -/
theorem C113_shape (profile : Mix R) (cdinv basis : Mat R) (px py : R) :
    (hoggAffine profile cdinv basis px py).length = profile.length ∧ (hoggSheared profile cdinv basis).length = profile.length ∧
    ∀ (i : Nat) c, profile[i]? = some c →
      (∃ a, (hoggAffine profile cdinv basis px py)[i]? = some a ∧ a.amp = c.amp ∧ a.mx = c.mx + px ∧ a.my = c.my + py ∧
        ∀ p, varianceAlong a p = varianceAlong c (rowTimes (rowTimes p cdinv) basis)) ∧
      ∃ b, (hoggSheared profile cdinv basis)[i]? = some b ∧ b.amp = c.amp ∧ b.mx = c.mx ∧ b.my = c.my ∧
        ∀ p, varianceAlong b p = varianceAlong c (rowTimes (rowTimes p cdinv) basis) := by
  refine ⟨by simp [hoggAffine, Mog.applyAffine], by simp [hoggSheared, Mog.applyShear], ?_⟩
  intro i c hc
  constructor
  · refine ⟨{ Mog.sandwich (dot cdinv basis) c with mx := c.mx + px, my := c.my + py }, by simp [hoggAffine, Mog.applyAffine, hc], rfl, rfl,
      rfl, ?_⟩
    intro p
    simp only [varianceAlong, rowTimes, Mog.sandwich, dot]
    ring
  · refine ⟨Mog.sandwich (dot cdinv basis) c, by simp [hoggSheared, Mog.applyShear, hc], rfl, rfl, rfl, ?_⟩
    intro p
    simp only [varianceAlong, rowTimes, Mog.sandwich, dot]
    ring

example : hoggAffine [⟨(1 : ℚ), 0, 0, 1, 0, 0, 4⟩] ⟨1, 1, 0, 1⟩ ⟨0, -1, 1, 0⟩ 7 8 = [⟨1, 7, 8, 5, 1, 1, 1⟩] := by decide +kernel

def exProfiles : Profiles ℚ := ⟨[⟨1 / 4, 0, 0, 1, 0, 0, 1⟩, ⟨3 / 4, 0, 0, 4, 0, 0, 4⟩], 4, [⟨1, 0, 0, 9, 0, 0, 9⟩], 8⟩

def exFixed (f : ℚ) : Fixed ℚ := ⟨.hard f, ⟨1, 0, 0, 1⟩, ⟨2, 0, 0, 1⟩, 3, 1, none⟩

example : (exFixed (1 / 5)).affine exProfiles (fun _ => 1) ⟨1, 0, 0, 1⟩ 7 8 =
    .ok [⟨1 / 5, 7, 8, 36, 0, 0, 9⟩, ⟨1 / 5, 7, 8, 1, 0, 0, 1⟩, ⟨3 / 5, 7, 8, 4, 0, 0, 4⟩] := by decide +kernel

example : (exFixed (6 / 5)).sheared exProfiles (fun _ => 1) ⟨1, 0, 0, 1⟩ = .ok [⟨1, 0, 0, 36, 0, 0, 9⟩] := by decide +kernel

/-! ### The model image -/

/-- Counts as used: those that are not finite count for nothing. -/
def countsOf {B : Type} (V : View R B) (b : B) : R :=
  match V.counts b with
  | .fin c => if V.finite32 c then c else 0
  | _ => 0

omit [IsStrictOrderedRing R] in
theorem modelPatch_pixel {B K : Type} (V : View R B) (unit : Renderer R K) (b : B) (minsb : Option R) (mask : K)
    (u : Option (Patch R)) (hu : HasImage u)
    (h : unit (minsb.getD V.modelMinval / countsOf V b) mask = .ok u) :
    ∃ r, modelPatch V unit b minsb mask = .ok r ∧ HasImage r ∧ ∀ x y, pixel r x y = countsOf V b * pixel u x y := by
  unfold modelPatch countsOf at *
  cases hc : V.counts b with
  | fin c =>
    simp only [hc] at h ⊢
    by_cases h0 : c = 0
    · rw [if_pos h0]
      refine ⟨none, rfl, by rintro q ⟨⟩, fun x y => ?_⟩
      subst h0
      cases hv : V.finite32 0 <;> simp [pixel]
    · rw [if_neg h0]
      cases hv : V.finite32 c with
      | false =>
        rw [if_pos rfl]
        exact ⟨none, rfl, by rintro q ⟨⟩, fun x y => by simp [pixel]⟩
      | true =>
        rw [hv, if_pos rfl] at h
        rw [if_neg (by simp), h]
        cases u with
        | none => exact ⟨none, rfl, by rintro q ⟨⟩, fun x y => by simp [pixel]⟩
        | some u =>
          refine ⟨some (u.mul c), rfl, hasImage_mul u c hu, fun x y => ?_⟩
          simp only [pixel, at_mul, if_true]
          rw [mul_comm]
  | nan => exact ⟨none, rfl, by rintro q ⟨⟩, fun x y => by simp [pixel]⟩
  | pinf => exact ⟨none, rfl, by rintro q ⟨⟩, fun x y => by simp [pixel]⟩
  | ninf => exact ⟨none, rfl, by rintro q ⟨⟩, fun x y => by simp [pixel]⟩

omit [IsStrictOrderedRing R] in
/-- **C113 (forced photometry).** For a composite galaxy whose renderers do not depend on `minval` (any PSF with a model mask, any
pixelized PSF), the model image is, pixel by pixel, the sum over `getBrightnesses()` of the counts times the patches of
`getUnitFluxModelPatches()` in the same order, whatever the limits given; counts that are not finite contribute nothing. -/
theorem C113_forced {B K : Type} (V : View R B) (s : TwoPart R B K) (minsb minval : R) (mask : K)
    (pe pd : Option (Patch R)) (he : ∀ v, s.exp s.halfsize v mask = .ok pe) (hd : ∀ v, s.dev s.halfsize v mask = .ok pd)
    (hie : HasImage pe) (hid : HasImage pd) :
    ∃ us r, s.unitPatches minval mask = .ok us ∧ s.modelPatch V minsb mask = .ok r ∧ us.length = s.brightnesses.length ∧
      ∀ x y, pixel r x y = (List.zipWith (fun b u => countsOf V b * pixel u x y) s.brightnesses us).sum := by
  obtain ⟨re, h1, h2, h3⟩ := modelPatch_pixel V (s.exp s.halfsize) s.brightExp
    (if minsb ≠ 0 then some (minsb / 2) else none) mask pe hie (he _)
  obtain ⟨rd, h4, h5, h6⟩ := modelPatch_pixel V (s.dev s.halfsize) s.brightDev
    (if minsb ≠ 0 then some (minsb / 2) else none) mask pd hid (hd _)
  obtain ⟨r, h7, h8⟩ := addPatches_pixel re rd h2 h5
  refine ⟨[pe, pd], r, ?_, ?_, rfl, fun x y => ?_⟩
  · unfold TwoPart.unitPatches
    simp only [he, hd]
    rfl
  · unfold TwoPart.modelPatch TwoPart.modelPatches
    simp only [h1, h4]
    exact h7
  · rw [h8, h3, h6]
    simp [TwoPart.brightnesses]

def exView : View ℚ ℚ := ⟨fun b => if b = 99 then .nan else .fin b, fun _ => true, 1⟩

def stamp (x0 : Int) (l : List ℚ) : Option (Patch ℚ) := some ⟨x0, 0, some (Arr.ofLists [l] l.length)⟩

def rows (r : Except PyErr (Option (Patch ℚ))) : Except PyErr (Option (Int × List (List ℚ))) :=
  r.map (fun p => p.bind (fun p => p.patch.map (fun A => (p.x0, A.toLists))))

def exTwo (be bd : ℚ) : TwoPart ℚ ℚ Unit :=
  ⟨be, bd, fun _ _ _ => .ok (stamp 3 [1, 2]), fun _ _ _ => .ok (stamp 4 [5, 6]), none⟩

example : rows ((exTwo 10 100).modelPatch exView 0 ()) = .ok (some (3, [[10, 520, 600]])) ∧
    rows ((exTwo 99 100).modelPatch exView 0 ()) = .ok (some (4, [[500, 600]])) := by decide +kernel

/-- **C113 is false for `minsb`**: asked for a model without limit (`minsb=0.`, the default), a composite galaxy renders its parts with
the limit `modelMinval` of the image; here a renderer that leaves out pixels below the limit drops a pixel that the sum of the
unit-flux patches has. -/
theorem C113_minsb_false : ∃ (V : View ℚ ℚ) (s : TwoPart ℚ ℚ Unit),
    (∀ h m, s.exp h 0 m = .ok (stamp 3 [1, 2])) ∧ (∀ h m, s.dev h 0 m = .ok (stamp 4 [5, 6])) ∧
    rows (s.modelPatch V 0 ()) = .ok (some (3, [[0, 520, 600]])) ∧
    s.unitPatches 0 () = .ok [stamp 3 [1, 2], stamp 4 [5, 6]] := by
  refine ⟨⟨fun b => .fin b, fun _ => true, 15⟩, ⟨10, 100, fun _ v _ => .ok (if v ≤ 1 then stamp 3 [1, 2] else stamp 3 [0, 2]),
    fun _ _ _ => .ok (stamp 4 [5, 6]), none⟩, ?_, ?_, ?_, ?_⟩
  · intro h m; simp
  · intro h m; rfl
  · decide +kernel
  · simp [TwoPart.unitPatches]

/-! ### One brightness split in two -/

section
variable [FloorRing R]

omit [IsStrictOrderedRing R] in
theorem gauss_pixel (E : Env R) (hE : LinearEnv E) (S : Scene R) (mix : R → R → Mix R) (gf ge gd : Galaxy R) (a : Args R) (px py f : R)
    (m : ModelMask)
    (hg : ∀ g : Kernel R R, ofMix g (gf.affine px py) = f • ofMix g (gd.affine px py) + (1 - f) • ofMix g (ge.affine px py)) :
    ∃ pf pe pd, (∀ b, unitPatch E S (.gauss mix) gf { a with minval := b } px py (some m) = .ok pf) ∧
      (∀ b, unitPatch E S (.gauss mix) ge { a with minval := b } px py (some m) = .ok pe) ∧
      (∀ b, unitPatch E S (.gauss mix) gd { a with minval := b } px py (some m) = .ok pd) ∧
      HasImage pf ∧ HasImage pe ∧ HasImage pd ∧
      ∀ x y, pixel pf x y = f * pixel pd x y + (1 - f) * pixel pe x y := by
  have hrun : ∀ (g : Galaxy R) b, unitPatch E S (.gauss mix) g { a with minval := b } px py (some m) =
      .ok (some ⟨m.x0, m.y0, some (mogInMask E (Mog.convolve (g.affine px py) (mix px py)) m)⟩) := by
    intro g b
    unfold unitPatch
    simp [Patches.Patch.shape, mogInMask]
  have hlin : ∀ g0 : Kernel R R, ofMix g0 (Mog.convolve (gf.affine px py) (mix px py)) =
      f * ofMix g0 (Mog.convolve (gd.affine px py) (mix px py)) +
        (1 - f) * ofMix g0 (Mog.convolve (ge.affine px py) (mix px py)) := by
    intro g0
    obtain ⟨g', h⟩ := ofMix_convolve g0 (mix px py)
    rw [h, h, h, hg]
    rfl
  have hi : ∀ g : Galaxy R, HasImage (some (⟨m.x0, m.y0, some (mogInMask E (Mog.convolve (g.affine px py) (mix px py)) m)⟩ :
      Patch R)) := by
    rintro g q ⟨⟩; exact ⟨_, rfl⟩
  refine ⟨_, _, _, hrun gf, hrun ge, hrun gd, hi gf, hi ge, hi gd, fun x y => ?_⟩
  have hat : ∀ cm : Mix R, pixel (some (⟨m.x0, m.y0, some (mogInMask E cm m)⟩ : Patch R)) x y =
      if m.x0 ≤ x ∧ x < m.x0 + m.w ∧ m.y0 ≤ y ∧ y < m.y0 + m.h then
        (mogInMask E cm m).px (y - m.y0).toNat (x - m.x0).toNat else 0 := fun _ => rfl
  rw [hat, hat, hat]
  by_cases hb : m.x0 ≤ x ∧ x < m.x0 + m.w ∧ m.y0 ≤ y ∧ y < m.y0 + m.h
  · rw [if_pos hb, if_pos hb, if_pos hb]
    unfold mogInMask
    cases m.mask with
    | none =>
      obtain ⟨g0, h⟩ := hE.1 (m.y0 + (y - m.y0).toNat) (m.x0 + (x - m.x0).toNat)
      simp only [h, hlin g0]
    | some k =>
      simp only
      by_cases hk : k (y - m.y0).toNat (x - m.x0).toNat = true
      · rw [if_pos hk, if_pos hk, if_pos hk]
        obtain ⟨g0, h⟩ := hE.2 (m.y0 + (y - m.y0).toNat) (m.x0 + (x - m.x0).toNat)
        simp only [h, hlin g0]
      · rw [if_neg hk, if_neg hk, if_neg hk]; simp
  · rw [if_neg hb, if_neg hb, if_neg hb]; simp

/-- **C113 (one brightness split in two).** In a model mask and with a PSF that is a mixture of Gaussians, a fixed composite galaxy of
`c` counts and fraction `f` has, pixel by pixel, the model image of the composite galaxy of the same shapes with `(1 - f) c` counts for the exponential
and `f c` counts for the de Vaucouleurs part. -/
theorem C113_same {B : Type} (P : Profiles R) (he : Mog.total P.exp = 1) (hd : Mog.total P.dev = 1) (exp : R → R)
    (hexp : ∀ x, 0 < exp x) (E : Env R) (hE : LinearEnv E) (S : Scene R) (mix : R → R → Mix R) (s : Fixed R) (cdinv : Mat R)
    (gf ge gd : Galaxy R) (px py : R) (hgf : s.affine P exp cdinv px py = .ok (gf.affine px py))
    (hge : ge.affine px py = hoggAffine P.exp cdinv s.expBasis px py)
    (hgd : gd.affine px py = hoggAffine P.dev cdinv s.devBasis px py)
    (V : View R B) (b be bd : B) (hbe : countsOf V be = (1 - s.frac.clipped exp) * countsOf V b)
    (hbd : countsOf V bd = s.frac.clipped exp * countsOf V b) (m : ModelMask) (a : Args R) (minsb : Option R) (minsb' : R) :
    ∃ r r', modelPatch V (fun v k => unitPatch E S (.gauss mix) gf { a with minval := some v } px py (some k)) b minsb m = .ok r ∧
      TwoPart.modelPatch V ⟨be, bd, fun _ v k => unitPatch E S (.gauss mix) ge { a with minval := some v } px py (some k),
        fun _ v k => unitPatch E S (.gauss mix) gd { a with minval := some v } px py (some k), s.halfsize⟩ minsb' m = .ok r' ∧
      ∀ x y, pixel r x y = pixel r' x y := by
  obtain ⟨-, ⟨mm, h1, -, h2⟩, -⟩ := C113_profile P he hd exp hexp s cdinv px py
  rw [hgf] at h1
  cases h1
  obtain ⟨pf, pe, pd, r1, r2, r3, i1, i2, i3, hp⟩ := gauss_pixel E hE S mix gf ge gd a px py (s.frac.clipped exp) m
    (fun g => by rw [hge, hgd]; exact h2 g)
  obtain ⟨r, k1, -, k2⟩ := modelPatch_pixel V
    (fun v k => unitPatch E S (.gauss mix) gf { a with minval := some v } px py (some k)) b minsb m pf i1 (r1 (some _))
  obtain ⟨us, r', k3, k4, -, k5⟩ := C113_forced V ⟨be, bd,
      fun _ v k => unitPatch E S (.gauss mix) ge { a with minval := some v } px py (some k),
      fun _ v k => unitPatch E S (.gauss mix) gd { a with minval := some v } px py (some k), s.halfsize⟩ minsb' 0 m pe pd
      (fun v => r2 (some v)) (fun v => r3 (some v)) i2 i3
  refine ⟨r, r', k1, k4, fun x y => ?_⟩
  have : us = [pe, pd] := by
    unfold TwoPart.unitPatches at k3
    simp only [r2, r3] at k3
    cases k3; rfl
  rw [k2, hp, k5, this]
  simp only [TwoPart.brightnesses, List.zipWith_cons_cons, List.zipWith_nil_left, List.sum_cons, List.sum_nil, hbe, hbd]
  ring

/-- Mixtures evaluated by total amplitude. -/
def exLinear : Env ℚ :=
  { exEnv true with value := fun m y x => ofMix (fun _ _ a _ _ _ => a + y + x) m,
                    valueMasked := fun m y x => ofMix (fun _ _ a _ _ _ => a + y + x) m }

theorem exLinear_ok : LinearEnv exLinear :=
  ⟨fun y x => ⟨fun _ _ a _ _ _ => a + y + x, fun _ => rfl⟩, fun y x => ⟨fun _ _ a _ _ _ => a + y + x, fun _ => rfl⟩⟩

def exGalOf (m : Mix ℚ) : Galaxy ℚ := ⟨fun _ _ => m, fun _ _ => m, 3, fun _ _ => 3⟩

example : rows (modelPatch exView (fun v k => unitPatch exLinear exScene (.gauss fun _ _ => [⟨1, 0, 0, 1, 0, 0, 1⟩])
      (exGalOf [⟨1 / 5, 7, 8, 36, 0, 0, 9⟩, ⟨1 / 5, 7, 8, 1, 0, 0, 1⟩, ⟨3 / 5, 7, 8, 4, 0, 0, 4⟩]) ⟨none, false, some v⟩ 7 8 (some k)) 10
      none ⟨6, 8, 1, 3, some fun _ c => c ≠ 1⟩) = .ok (some (6, [[248, 0, 268]])) ∧
    rows (TwoPart.modelPatch exView ⟨8, 2,
      fun _ v k => unitPatch exLinear exScene (.gauss fun _ _ => [⟨1, 0, 0, 1, 0, 0, 1⟩])
        (exGalOf [⟨1 / 4, 7, 8, 1, 0, 0, 1⟩, ⟨3 / 4, 7, 8, 4, 0, 0, 4⟩]) ⟨none, false, some v⟩ 7 8 (some k),
      fun _ v k => unitPatch exLinear exScene (.gauss fun _ _ => [⟨1, 0, 0, 1, 0, 0, 1⟩])
        (exGalOf [⟨1, 7, 8, 36, 0, 0, 9⟩]) ⟨none, false, some v⟩ 7 8 (some k), none⟩ 0 ⟨6, 8, 1, 3, some fun _ c => c ≠ 1⟩) =
      .ok (some (6, [[248, 0, 268]])) := by decide +kernel

/-! ### The region rendered -/

/-- **C113 (region).** Without a mask, the region in which a fixed composite galaxy is rendered contains every pixel of the image within the radius of
each part that has a share in it, plus the radius of the PSF, of its centre. -/
theorem C113_region (P : Profiles R) (exp : R → R) (s : Fixed R) (hs : s.halfsize = none) (S : Scene R) (psfRadius px py rad : R)
    (hp : 0 < S.pixscale px py)
    (hr : (s.frac.clipped exp < 1 ∧ rad = P.expNre * s.expRe) ∨ (0 < s.frac.clipped exp ∧ rad = P.devNre * s.devRe))
    (x y : Int) (hn : Near S px py (rad / S.pixscale px py + psfRadius) x y) :
    ∃ x0 x1 y0 y1, freeBox S px py (s.patchSize P exp (S.pixscale px py) psfRadius) = some (x0, x1, y0, y1) ∧
      x0 ≤ x ∧ x < x1 ∧ y0 ≤ y ∧ y < y1 := by
  have hle : rad / S.pixscale px py + psfRadius ≤ s.patchSize P exp (S.pixscale px py) psfRadius := by
    unfold Fixed.patchSize
    rw [hs]
    simp only
    refine add_le_add (div_le_div_of_nonneg_right ?_ hp.le) le_rfl
    rcases hr with ⟨h, rfl⟩ | ⟨h, rfl⟩
    · rw [if_pos h]
      split
      · exact le_trans (le_max_right _ _) (le_max_left _ _)
      · exact le_max_right _ _
    · rw [if_pos h]
      exact le_trans (le_max_right _ _) (le_max_right _ _)
  generalize s.patchSize P exp (S.pixscale px py) psfRadius = h at *
  obtain ⟨⟨n1, n2, n3, n4⟩, n5, n6, n7, n8⟩ := hn
  cases e : freeBox S px py h with
  | none => exact absurd ⟨by linarith, by linarith, by linarith, by linarith⟩ (freeBox_none S px py h e x y n1 n2 n3 n4)
  | some b =>
    obtain ⟨x0, x1, y0, y1⟩ := b
    obtain ⟨rfl, rfl, rfl, rfl, -, -⟩ := freeBox_some S px py h x0 x1 y0 y1 e
    refine ⟨_, _, _, _, rfl, ?_, ?_, ?_, ?_⟩
    · refine max_le (Int.cast_le (R := R).1 (le_trans (Int.floor_le _) (by linarith))) n1
    · have : x ≤ ⌈px + h + 1⌉ := Int.cast_le (R := R).1 (le_trans (by linarith) (Int.le_ceil _))
      omega
    · refine max_le (Int.cast_le (R := R).1 (le_trans (Int.floor_le _) (by linarith))) n3
    · have : y ≤ ⌈py + h + 1⌉ := Int.cast_le (R := R).1 (le_trans (by linarith) (Int.le_ceil _))
      omega

example : (exFixed (1 / 5)).patchSize exProfiles (fun _ => 1) 1 2 = 14 ∧ (exFixed 1).patchSize exProfiles (fun _ => 1) 1 2 = 10 ∧
    freeBox exScene 7 8 14 = some (0, 23, 0, 20) := by decide +kernel

end

/-! ### The derivative with respect to the fraction -/

/-- **C113 (softened fractions).** A `SoftenedFracDev` is strictly between 0 and 1, increases strictly with its parameter, exchanges with its
complement when the parameter is reflected at one half, and `derivative()` is its derivative. -/
theorem C113_soft (v : ℝ) :
    let F := fun v => (Frac.soft v).clipped Real.exp
    (0 < F v ∧ F v < 1) ∧ (∀ w, v < w → F v < F w) ∧ F (1 - v) = 1 - F v ∧
    HasDerivAt F ((Frac.soft v).derivative Real.exp) v := by
  intro F
  have hpos : ∀ w : ℝ, 0 < Real.exp (4 * (1 / 2 - w)) := fun w => Real.exp_pos _
  refine ⟨⟨?_, ?_⟩, ?_, ?_, ?_⟩
  · have := hpos v
    simp only [F, Frac.clipped]; positivity
  · have := hpos v
    simp only [F, Frac.clipped]
    rw [div_lt_one (by positivity)]; linarith
  · intro w hw
    have h1 := hpos v
    have h2 := hpos w
    simp only [F, Frac.clipped]
    refine one_div_lt_one_div_of_lt (by positivity) ?_
    have : Real.exp (4 * (1 / 2 - w)) < Real.exp (4 * (1 / 2 - v)) := Real.exp_lt_exp.2 (by linarith)
    linarith
  · have h1 := hpos v
    simp only [F, Frac.clipped]
    rw [show 4 * (1 / 2 - (1 - v)) = -(4 * (1 / 2 - v)) by ring, Real.exp_neg]
    field_simp
    ring
  · have hd : HasDerivAt (fun w : ℝ => 1 + Real.exp (4 * (1 / 2 - w))) (Real.exp (4 * (1 / 2 - v)) * -4) v := by
      have h1 : HasDerivAt (fun w : ℝ => 4 * (1 / 2 - w)) (-4) v := by
        have := ((hasDerivAt_id v).const_sub (1 / 2 : ℝ)).const_mul (4 : ℝ)
        simpa using this
      exact (h1.exp).const_add 1
    have hne : 1 + Real.exp (4 * (1 / 2 - v)) ≠ 0 := by have := hpos v; positivity
    have := hd.inv hne
    have hF : F = (fun w : ℝ => 1 + Real.exp (4 * (1 / 2 - w)))⁻¹ := by
      funext w; simp [F, Frac.clipped]
    rw [hF]
    refine this.congr_deriv ?_
    simp only [Frac.derivative]
    rw [show -4 * v + 2 = 4 * (1 / 2 - v) by ring, add_comm (Real.exp _) 1]
    ring

/-- The model of a fixed composite galaxy in a pixel, as a function of the fraction. -/
def fixedPixel (exp : R → R) (c : R) (f : Frac R) (ue ud : R) : R := c * (f.clipped exp * ud + (1 - f.clipped exp) * ue)

theorem fracDeriv_pixel (exp : R → R) (c : R) (f : Frac R) (ue ud : Option (Patch R)) (he : HasImage ue) (hd : HasImage ud) :
    ∃ r, fracDeriv exp c f ue ud = .ok r ∧ ∀ x y, pixel r x y = f.derivative exp * (pixel ud x y - pixel ue x y) * c := by
  unfold fracDeriv
  by_cases hc : c = 0
  · rw [if_pos hc]
    exact ⟨none, rfl, fun x y => by simp [pixel, hc]⟩
  · rw [if_neg hc]
    have hm : ∀ (u : Option (Patch R)) (k : R), HasImage u → HasImage (u.map (·.mul k)) ∧
        ∀ x y, pixel (u.map (·.mul k)) x y = pixel u x y * k := by
      intro u k hu
      cases u with
      | none => exact ⟨by rintro q ⟨⟩, fun x y => by simp [pixel]⟩
      | some u => exact ⟨hasImage_mul u k hu, fun x y => at_mul u k x y⟩
    obtain ⟨a1, a2⟩ := hm ud (f.derivative exp) hd
    obtain ⟨b1, b2⟩ := hm ue (-f.derivative exp) he
    obtain ⟨r, r1, r2⟩ := addPatches_pixel _ _ a1 b1
    simp only [r1]
    cases r with
    | none =>
      refine ⟨none, rfl, fun x y => ?_⟩
      have := r2 x y
      rw [a2, b2] at this
      simp only [pixel] at this ⊢
      linear_combination c * this
    | some p =>
      refine ⟨some (p.mul c), rfl, fun x y => ?_⟩
      have := r2 x y
      rw [a2, b2] at this
      simp only [pixel] at this ⊢
      rw [at_mul, this]
      ring

/-- **C113 (derivative, partial).** The entry of `getParamDerivatives` for the fraction of a fixed composite galaxy is in every pixel the derivative of the model
with respect to the parameter, for a softened fraction of any value and for a `FracDev` strictly between 0 and 1 (the unit-flux patches
not depending on the fraction).  Missing: a `FracDev` outside (`C113_clip_false`). -/
theorem C113_deriv_partial (c v : ℝ) (soft : Bool) (hv : soft = false → 0 < v ∧ v < 1) (ue ud : Option (Patch ℝ)) (he : HasImage ue)
    (hd : HasImage ud) :
    let mk : ℝ → Frac ℝ := fun v => if soft then .soft v else .hard v
    ∃ r, fracDeriv Real.exp c (mk v) ue ud = .ok r ∧
      ∀ x y, HasDerivAt (fun w => fixedPixel Real.exp c (mk w) (pixel ue x y) (pixel ud x y)) (pixel r x y) v := by
  intro mk
  obtain ⟨r, h1, h2⟩ := fracDeriv_pixel Real.exp c (mk v) ue ud he hd
  refine ⟨r, h1, fun x y => ?_⟩
  have hF : HasDerivAt (fun w => (mk w).clipped Real.exp) ((mk v).derivative Real.exp) v := by
    cases soft with
    | true => exact (C113_soft v).2.2.2
    | false =>
      obtain ⟨v0, v1⟩ := hv rfl
      refine (hasDerivAt_id v).congr_of_eventuallyEq ?_
      filter_upwards [Ioo_mem_nhds v0 v1] with w hw
      show min (max w 0) 1 = w
      rw [max_eq_left hw.1.le, min_eq_left hw.2.le]
  rw [h2]
  have := ((hF.mul_const (pixel ud x y)).add (((hF.const_sub 1)).mul_const (pixel ue x y))).const_mul c
  refine this.congr_deriv ?_
  ring

/-- **The entry for a `FracDev` beyond 1 is false**: the model does not change with the fraction, the entry is not zero. -/
theorem C113_clip_false : ∃ (ue ud : Option (Patch ℝ)) (r : Option (Patch ℝ)),
    fracDeriv Real.exp 10 (.hard 2) ue ud = .ok r ∧ pixel r 0 0 = 40 ∧
    HasDerivAt (fun w => fixedPixel Real.exp 10 (.hard w) (pixel ue 0 0) (pixel ud 0 0)) 0 2 := by
  let p : ℝ → Option (Patch ℝ) := fun v => some ⟨0, 0, some ⟨1, 1, fun _ _ => v⟩⟩
  have hi : ∀ v, HasImage (p v) := by rintro v q ⟨⟩; exact ⟨_, rfl⟩
  obtain ⟨r, h1, h2⟩ := fracDeriv_pixel Real.exp 10 (.hard 2) (p 1) (p 5) (hi 1) (hi 5)
  refine ⟨p 1, p 5, r, h1, ?_, ?_⟩
  · rw [h2]
    simp [p, pixel, Patches.Patch.at, Frac.derivative]
    norm_num
  · refine (hasDerivAt_const (2 : ℝ) (fixedPixel Real.exp 10 (.hard 2) (pixel (p 1) 0 0) (pixel (p 5) 0 0))).congr_of_eventuallyEq ?_
    filter_upwards [Ioi_mem_nhds (show (1 : ℝ) < 2 by norm_num)] with w hw
    have hw' : (1 : ℝ) < w := hw
    unfold fixedPixel Frac.clipped
    simp only
    rw [max_eq_left (by linarith), min_eq_right hw'.le, max_eq_left (by norm_num), min_eq_right (by norm_num)]

example : rows (fracDeriv (fun _ => 1) 10 (.soft (1 / 2)) (stamp 3 [1, 2]) (stamp 4 [5, 6])) = .ok (some (3, [[-10, 30, 60]])) := by
  decide +kernel

end Verif.Gal
