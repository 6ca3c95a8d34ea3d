import Verif.Psf.OverLemmas
import Mathlib.Algebra.Order.Ring.Rat
import Mathlib.Algebra.Module.Prod

/-!
# C117: oversampled and normalised pixelized PSFs
-/

namespace Verif.Psf

variable {R V : Type} [Field R] [LinearOrder R]

/-- Examples: rounding, truncation, a shift that does nothing, interpolation by the pixel to the lower left, and a "transform" of two
numbers: the sum and the first pixel. -/
def exN : Numerics Rat (Rat × Rat) where
  rnd x := (x + 1 / 2).floor
  trunc x := x.num.tdiv x.den
  kern _ i := if i = 3 then 1 else 0
  interp A x y := ext A y.floor x.floor
  fft A := (sumPix A, ext A 0 0)
  dc f := f.1

/-- An example image. -/
def exImg : Arr Rat := Arr.ofLists [[1, 2, 1], [2, 4, 3], [1, 2, 2]] 3

/-- A second eigen-image, with weight `x`. -/
def exVary : Vary Rat := ⟨[exImg, Arr.ofLists [[0, 0, 0], [0, 0, 9], [0, 0, 0]] 3], fun x _ => [1, x]⟩

/-- One and a half native pixels for each pixel of the image. -/
def exPsf (normalized : Bool) (vary : Option (Vary Rat)) : PixPsf Rat (Rat × Rat) := ⟨exImg, 3 / 2, 5, 5, vary, normalized, []⟩

/-- The same without oversampling. -/
def exPlain (normalized : Bool) (vary : Option (Vary Rat)) : PixPsf Rat (Rat × Rat) := ⟨exImg, 1, 0, 0, vary, normalized, []⟩

/-- A patch of an example. -/
def showPatch : Except PyErr (Option (Stamp Rat)) → Option (Int × Int × List (List Rat))
  | .ok (some p) => some (p.x0, p.y0, p.pix.toLists)
  | _ => none

/-- A transform of an example. -/
def showFourier : Except PyErr (Fourier Rat (Rat × Rat)) → Option ((Rat × Rat) × Rat × Rat)
  | .ok f => some (f.fft, f.cx, f.cy)
  | _ => none

theorem exN_homogeneous : Homogeneous exN := by
  refine ⟨?_, ?_, ?_⟩
  · intro A c x y
    simp only [exN, ext, Arr.map]
    split <;> simp
  · intro A c
    have e : exN.fft (A.map (fun v => v * c)) = (sumPix A * c, ext A 0 0 * c) := by
      simp only [exN, sumPix_map, Prod.mk.injEq, true_and]
      simp only [ext, Arr.map]
      rw [ite_mul, zero_mul]; rfl
    rw [e]
    simp only [exN, Prod.smul_mk, smul_eq_mul, mul_comm c]
  · intro f c; rfl

theorem exN_additive : Additive exN := by
  constructor
  · intro h w f g
    simp only [exN, ext, Prod.mk_add_mk, Prod.mk.injEq]
    constructor
    · simp only [sumPix, Arr.ravel]
      induction List.range h with
      | nil => simp
      | cons r rs ih =>
        simp only [List.flatMap_cons, List.sum_append, ih, List.sum_map_add]
        ring
    · split <;> simp
  · intro h w
    simp only [exN, ext]
    rw [sumPix_zero _ (fun _ _ => rfl)]
    simp

/-! ## Point sources -/

/-- **C117**: a point source rendered with an oversampled pixelized PSF is the PSF image interpolated at the right distances from its
centre, in exactly the pixels of the mask, or of the stamp centred on the nearest pixel. -/
theorem C117_grid (N : Numerics R V) (s : PixPsf R V) (hs : s.sampling ≠ 1) (hn : s.normalized = false) (px py : R) (mask : Option Mask) :
    ∃ p, (pointPatch N s px py none mask).2 = .ok (some p) ∧ ∀ X Y : Int,
      (Covers p X Y ↔ match mask with
        | some m => InMask m X Y
        | none => InStamp s.nativeW (X - N.rnd px) ∧ InStamp s.nativeH (Y - N.rnd py)) ∧
      (Covers p X Y → valueAt p X Y = profile N.interp (getImage s px py).2 s.sampling px py X Y) := by
  simp only [pointPatch, if_pos hs]
  refine ⟨_, rfl, ?_⟩
  intro X Y
  cases mask with
  | some m =>
    simp only [overPatch, Covers, InMask, valueAt, sampleImage_h, sampleImage_w]
    refine ⟨by omega, ?_⟩
    intro h
    simp only [sampleImage, hn, Bool.false_eq_true, if_false, grid_px]
    congr 2 <;> omega
  | none =>
    simp only [overPatch, Covers, InStamp, valueAt, sampleImage_h, sampleImage_w]
    refine ⟨by omega, ?_⟩
    intro h
    simp only [sampleImage, hn, Bool.false_eq_true, if_false, grid_px]
    congr 2 <;> omega


example : showPatch (pointPatch exN (exPsf false none) (21 / 4) 7 none none).2 =
    some (3, 5, [[0, 0, 0, 0, 0], [0, 1, 1, 2, 1], [0, 2, 2, 4, 3], [0, 2, 2, 4, 3], [0, 1, 1, 2, 2]]) := by decide +kernel
example : showPatch (pointPatch exN (exPsf false none) (21 / 4) 7 none (some ⟨4, 7, 2, 4⟩)).2 =
    some (4, 7, [[2, 2, 4, 3], [2, 2, 4, 3]]) := by decide +kernel

/-- **C117**: the native stamp of a PSF made from an image is the smallest that is as wide and as high as the image; images must have odd
sizes. -/
theorem C117_size [IsStrictOrderedRing R] (N : Numerics R V) (ceil : R → Nat) (hceil : ∀ x, 0 ≤ x → x ≤ ceil x ∧ (ceil x : R) < x + 1)
    (normalized : Bool) (vary : Option (Vary R)) (img : Arr R) (sampling : R) (hpos : 0 < sampling) :
    (mkPix (V := V) ceil normalized vary img sampling = .error .assertion ↔ ¬ (img.h % 2 = 1 ∧ img.w % 2 = 1)) ∧
    ∀ s, mkPix ceil normalized vary img sampling = .ok s →
      s.img = img ∧ s.sampling = sampling ∧ s.vary = vary ∧ s.normalized = normalized ∧ s.cache = [] ∧
      (sampling ≠ 1 → ∀ px py p, (pointPatch N s px py none none).2 = .ok (some p) →
        img.w * sampling ≤ p.pix.w ∧ (p.pix.w : R) < img.w * sampling + 1 ∧
        img.h * sampling ≤ p.pix.h ∧ (p.pix.h : R) < img.h * sampling + 1) := by
  by_cases h1 : img.h % 2 = 1
  · by_cases h2 : img.w % 2 = 1
    · by_cases h3 : sampling = 1
      · unfold mkPix
        rw [if_neg (by omega), if_neg (by omega), if_neg (by simpa using h3)]
        refine ⟨by simp [h1, h2], ?_⟩
        intro s hs
        injection hs with hs
        subst hs
        exact ⟨rfl, rfl, rfl, rfl, rfl, fun h => absurd h3 h⟩
      · unfold mkPix
        rw [if_neg (by omega), if_neg (by omega), if_pos h3]
        refine ⟨by simp [h1, h2], ?_⟩
        intro s hs
        injection hs with hs
        subst hs
        refine ⟨rfl, rfl, rfl, rfl, rfl, ?_⟩
        intro _ px py p hp
        simp only [pointPatch, ne_eq, h3, not_false_eq_true, if_true, Except.ok.injEq, Option.some.injEq] at hp
        subst hp
        simp only [overPatch, sampleImage_h, sampleImage_w]
        have hw := hceil _ (mul_nonneg (Nat.cast_nonneg img.w) hpos.le)
        have hh := hceil _ (mul_nonneg (Nat.cast_nonneg img.h) hpos.le)
        exact ⟨hw.1, hw.2, hh.1, hh.2⟩
    · unfold mkPix
      rw [if_neg (by omega), if_pos (by omega)]
      exact ⟨by simp [h2], by simp⟩
  · unfold mkPix
    rw [if_pos (by omega)]
    exact ⟨by simp [h1], by simp⟩

example : (mkPix (V := Rat × Rat) (fun x : Rat => x.ceil.toNat) false none (Arr.zeros 3 5) (3 / 2)).toOption.map
    (fun s => (s.nativeW, s.nativeH)) = some (8, 5) := by decide +kernel

/-- **C117**, with a radius and no mask: the same pixels, those within the radius, except that the last row and the last column of the
stamp are always dropped. -/
theorem C117_radius_partial (N : Numerics R V) (s : PixPsf R V) (hs : s.sampling ≠ 1) (hn : s.normalized = false) (px py : R) (rad : Nat) :
    ∃ p, (pointPatch N s px py (some rad) none).2 = .ok (some p) ∧ ∀ X Y : Int,
      (Covers p X Y ↔ InStamp (s.nativeW) (X - N.rnd px) ∧ InStamp s.nativeH (Y - N.rnd py) ∧
        InStamp s.nativeW (X + 1 - N.rnd px) ∧ InStamp s.nativeH (Y + 1 - N.rnd py) ∧
        |X - N.rnd px| ≤ rad ∧ |Y - N.rnd py| ≤ rad) ∧
      (Covers p X Y → valueAt p X Y = profile N.interp (getImage s px py).2 s.sampling px py X Y) := by
  simp only [pointPatch, if_pos hs]
  refine ⟨_, rfl, ?_⟩
  intro X Y
  simp only [overPatch, Covers, InStamp, valueAt, sampleImage_h, sampleImage_w, abs_le]
  obtain ⟨h1, h2, h3⟩ := cut_form (sampleImage N s (getImage s px py).2 (px - N.rnd px) (py - N.rnd py) (-((s.nativeW / 2 : Nat) : Int))
    (-((s.nativeH / 2 : Nat) : Int)) s.nativeW s.nativeH) rad
  rw [h1, h2, h3]
  simp only [sampleImage_h, sampleImage_w]
  refine ⟨by omega, ?_⟩
  intro h
  simp only [sampleImage, hn, Bool.false_eq_true, if_false, grid_px]
  congr 2 <;> omega

example : showPatch (pointPatch exN (exPsf false none) (21 / 4) 7 (some 1) none).2 =
    some (4, 6, [[1, 1, 2], [2, 2, 4], [2, 2, 4]]) := by decide +kernel

/-- The negation of "a radius larger than the stamp changes nothing". -/
theorem C117_radius_false : ¬ ∀ (N : Numerics Rat (Rat × Rat)) (s : PixPsf Rat (Rat × Rat)) (px py : Rat) (rad : Nat), s.sampling ≠ 1 →
    s.img.h ≤ rad → s.img.w ≤ rad → s.nativeW ≤ rad → s.nativeH ≤ rad →
    showPatch (pointPatch N s px py (some rad) none).2 = showPatch (pointPatch N s px py none none).2 := by
  intro h
  have := h exN (exPsf false none) (21 / 4) 7 9 (by decide +kernel) (by decide +kernel) (by decide +kernel) (by decide +kernel)
    (by decide +kernel)
  revert this
  decide +kernel

section
variable [IsStrictOrderedRing R] [AddCommGroup V] [Module R V]

/-! ## Normalisation -/

/-- **C117**, normalised class: the point source is the one of the plain class divided by the sum of its pixels (those of the whole stamp,
when a radius is given); without a radius its pixels sum to one. -/
theorem C117_normalized (N : Numerics R V) (hN : Homogeneous N) (s : PixPsf R V) (hs : s.sampling ≠ 1) (hn : s.normalized = true)
    (px py : R) (rad : Option Nat) (mask : Option Mask) (full plain : Stamp R)
    (hfull : (pointPatch N { s with normalized := false } px py none mask).2 = .ok (some full))
    (hplain : (pointPatch N { s with normalized := false } px py rad mask).2 = .ok (some plain)) (h0 : sumPix full.pix ≠ 0) :
    ∃ p, (pointPatch N s px py rad mask).2 = .ok (some p) ∧
      (∀ X Y : Int, (Covers p X Y ↔ Covers plain X Y) ∧ valueAt p X Y = valueAt plain X Y / sumPix full.pix) ∧
      (rad = none → sumPix p.pix = 1) := by
  have hs' : ({ s with normalized := false } : PixPsf R V).sampling ≠ 1 := hs
  simp only [pointPatch, if_pos hs', Except.ok.injEq, Option.some.injEq] at hfull hplain
  simp only [pointPatch, if_pos hs]
  refine ⟨_, rfl, ?_⟩
  -- the image is a multiple of the plain one
  obtain ⟨k, hk, ek⟩ : ∃ k : R, k ≠ 0 ∧ (getImage s px py).2 = (getImage { s with normalized := false } px py).2.map (fun v => v * k) := by
    have gen : ∀ A : Arr R, ∃ k : R, k ≠ 0 ∧ normImg A = A.map (fun v => v * k) := by
      intro A
      unfold normImg
      by_cases h : sumPix A = 0
      · exact ⟨1, one_ne_zero, by simp [h, Arr.map]⟩
      · exact ⟨(sumPix A)⁻¹, inv_ne_zero h, by simp [h, div_eq_mul_inv]⟩
    unfold getImage
    cases hv : s.vary with
    | some v => simpa [hn] using gen (v.at px py)
    | none => simpa [hn] using gen s.img
  generalize (getImage s px py).2 = img at ek ⊢
  generalize (getImage { s with normalized := false } px py).2 = img0 at ek hfull hplain
  subst ek
  -- the sampled image is the plain one divided by its sum
  have samp : ∀ dx dy xlo ylo w h, sumPix (sampleGrid N s.sampling img0 dx dy xlo ylo w h) ≠ 0 →
      sampleImage N s (img0.map (fun v => v * k)) dx dy xlo ylo w h =
        (sampleGrid N s.sampling img0 dx dy xlo ylo w h).map
          (fun v => v / sumPix (sampleGrid N s.sampling img0 dx dy xlo ylo w h)) := by
    intro dx dy xlo ylo w h hne
    have e : sampleGrid N s.sampling (img0.map (fun v => v * k)) dx dy xlo ylo w h =
        (sampleGrid N s.sampling img0 dx dy xlo ylo w h).map (fun v => v * k) := by
      simp only [sampleGrid, Arr.map, Arr.mk.injEq, true_and]
      funext r c
      exact hN.interp img0 k _ _
    simp only [sampleImage, hn, if_true, e, normImg_scale _ k hk hne]
    unfold normImg
    rw [if_neg hne]
  have one : ∀ A : Arr R, sumPix A ≠ 0 → sumPix (A.map (fun v => v / sumPix A)) = 1 := by
    intro A h
    simp only [div_eq_mul_inv, sumPix_map]
    exact mul_inv_cancel₀ h
  cases mask with
  | some m =>
    simp only [overPatch, sampleImage, Bool.false_eq_true, if_false] at hfull hplain
    subst hfull hplain
    simp only at h0
    simp only [overPatch, samp _ _ _ _ _ _ h0]
    refine ⟨fun X Y => ⟨Iff.rfl, rfl⟩, fun _ => one _ h0⟩
  | none =>
    cases rad with
    | none =>
      simp only [overPatch, sampleImage, Bool.false_eq_true, if_false] at hfull hplain
      subst hfull hplain
      simp only at h0
      simp only [overPatch, samp _ _ _ _ _ _ h0]
      refine ⟨fun X Y => ⟨Iff.rfl, rfl⟩, fun _ => one _ h0⟩
    | some r =>
      simp only [overPatch, sampleImage, Bool.false_eq_true, if_false] at hfull hplain
      subst hfull hplain
      simp only at h0
      simp only [overPatch, samp _ _ _ _ _ _ h0]
      refine ⟨fun X Y => ⟨Iff.rfl, rfl⟩, fun h => absurd h (by simp)⟩

example : showPatch (pointPatch exN (exPsf true none) (21 / 4) 7 none (some ⟨5, 7, 1, 2⟩)).2 = some (5, 7, [[1 / 3, 2 / 3]]) := by
  decide +kernel
example : showPatch (pointPatch exN (exPsf true none) (21 / 4) 7 (some 1) none).2 =
    some (4, 6, [[1 / 33, 1 / 33, 2 / 33], [2 / 33, 2 / 33, 4 / 33], [2 / 33, 2 / 33, 4 / 33]]) := by decide +kernel

/-- The negation of "a mask selects pixels": the flux inside the mask of a normalised oversampled PSF is one whatever the mask, so that a
pixel has another value with a mask than without. -/
theorem C117_mask_false : ¬ ∀ (N : Numerics Rat (Rat × Rat)) (s : PixPsf Rat (Rat × Rat)) (px py : Rat) (m : Mask) (p q : Stamp Rat),
    Homogeneous N → s.normalized = true → (pointPatch N s px py none none).2 = .ok (some p) →
    (pointPatch N s px py none (some m)).2 = .ok (some q) →
    ∀ X Y, Covers p X Y → Covers q X Y → valueAt p X Y = valueAt q X Y := by
  intro h
  have := h exN (exPsf true none) (21 / 4) 7 ⟨5, 7, 1, 2⟩
    (overPatch exN (exPsf true none) (getImage (exPsf true none) (21 / 4) 7).2 (21 / 4) 7 none none)
    (overPatch exN (exPsf true none) (getImage (exPsf true none) (21 / 4) 7).2 (21 / 4) 7 none (some ⟨5, 7, 1, 2⟩)) exN_homogeneous rfl
    (by simp [pointPatch, show (exPsf true none).sampling ≠ 1 by decide +kernel])
    (by simp [pointPatch, show (exPsf true none).sampling ≠ 1 by decide +kernel]) 5 7
    (by simp only [Covers]; decide +kernel) (by simp only [Covers]; decide +kernel)
  revert this
  decide +kernel

/-- **C117**: images of a normalised PSF sum to one and its transforms have flux one (unless the sum is zero). -/
theorem C117_flux (N : Numerics R V) (hN : Homogeneous N) (s : PixPsf R V) (hn : s.normalized = true) (px py : R) :
    (sumPix (getImage s px py).2 = 0 ∨ sumPix (getImage s px py).2 = 1) ∧
    ∀ sz f, (fourier N s px py sz).2 = .ok f → N.dc f.fft = 0 ∨ |N.dc f.fft| = 1 := by
  constructor
  · have gen : ∀ A : Arr R, sumPix (normImg A) = 0 ∨ sumPix (normImg A) = 1 := by
      intro A
      by_cases h : sumPix A = 0
      · left; unfold normImg; rw [if_pos h]; exact h
      · right; exact sumPix_norm A h
    unfold getImage
    cases hv : s.vary with
    | some v => simpa [hn] using gen (v.at px py)
    | none => simpa [hn] using gen s.img
  · have gen : ∀ f : Fourier R V, N.dc (normEntry N s f).fft = 0 ∨ |N.dc (normEntry N s f).fft| = 1 := by
      intro f
      simp only [normEntry, hn, if_true]
      by_cases h : N.dc f.fft = 0
      · left; unfold normFft; rw [if_pos (by rw [h, abs_zero])]; exact h
      · right; exact dc_norm hN _ h
    have cached : ∀ key f, (cachedFft N s key).2 = .ok f → N.dc f.fft = 0 ∨ |N.dc f.fft| = 1 := by
      intro key f
      unfold cachedFft
      cases find s.cache key with
      | some g => simp only [Except.ok.injEq]; rintro rfl; exact gen g
      | none =>
        cases computeFft N s key with
        | error e => simp
        | ok g => simp only [Except.ok.injEq]; rintro rfl; exact gen g
    intro sz f
    unfold fourier
    split
    · exact cached _ f
    · cases hv : s.vary with
      | none => exact cached _ f
      | some v =>
        simp only []
        cases varyFft N v px py sz with
        | error e => simp [Except.map]
        | ok g => simp only [Except.map, Except.ok.injEq]; rintro rfl; exact gen g

example : (getImage (exPsf true none) 0 0).2.toLists = [[1 / 18, 1 / 9, 1 / 18], [1 / 9, 2 / 9, 1 / 6], [1 / 18, 1 / 9, 1 / 9]] := by
  decide +kernel
example : showFourier (fourier exN (exPlain true none) (21 / 4) 7 3).2 = some ((1, 1 / 18), 1, 1) := by decide +kernel

/-! ## Transforms -/

omit [IsStrictOrderedRing R] in
/-- **C117**: the transform of an oversampled constant PSF is that of an image of the asked size in which the PSF is centred on the
returned position, at the fractional offset of the source. -/
theorem C117_fourier (N : Numerics R V) (s : PixPsf R V) (hs : s.sampling ≠ 1) (hn : s.normalized = false) (hc : s.cache = []) (px py : R)
    (sz : Nat) : ∃ f pad, ∃ cx cy : Nat, (fourier N s px py sz).2 = .ok f ∧ f.fft = N.fft pad ∧ pad.h = sz ∧ pad.w = sz ∧ f.sz = sz ∧
      f.cx = cx + (px - N.trunc px) ∧ f.cy = cy + (py - N.trunc py) ∧
      ∀ X Y : Nat, X < sz → Y < sz → (InStamp s.nativeW (X - cx) ∧ InStamp s.nativeH (Y - cy) →
          pad.px Y X = profile N.interp s.img s.sampling f.cx f.cy X Y) ∧
        (¬ (InStamp s.nativeW (X - cx) ∧ InStamp s.nativeH (Y - cy)) → pad.px Y X = 0) := by
  unfold fourier
  rw [if_pos hs, cached_fresh s hc]
  simp only [computeFft]
  obtain ⟨pad, cx, cy, e, h1, h2, hp⟩ := C49_pad sz sz (sampleImage N s s.img (px - N.trunc px) (py - N.trunc py)
    (-((s.nativeW / 2 : Nat) : Int)) (-((s.nativeH / 2 : Nat) : Int)) s.nativeW s.nativeH)
  rw [e]
  refine ⟨_, pad, cx, cy, rfl, ?_⟩
  simp only [normEntry, hn, Bool.false_eq_true, if_false]
  refine ⟨trivial, h1, h2, trivial, trivial, trivial, ?_⟩
  intro X Y hX hY
  have hv := hp (X - cx) (Y - cy)
  simp only [sampleImage_h, sampleImage_w] at hv
  rw [show (cy : Int) + (Y - cy) = Y by omega, show (cx : Int) + (X - cx) = X by omega, if_pos (by omega)] at hv
  have hl : ext pad Y X = pad.px Y X := by
    simp only [ext, h1, h2]
    rw [if_pos (by omega)]
    simp
  rw [hl] at hv
  simp only [InStamp]
  constructor
  · intro g
    rw [hv]
    simp only [ext, sampleImage_h, sampleImage_w]
    rw [if_pos (by omega)]
    simp only [sampleImage, hn, Bool.false_eq_true, if_false, grid_px, profile]
    have t : ∀ (n : Nat) (c X : Nat) (x : R) (t : Int), 0 ≤ ((n / 2 : Nat) : Int) + ((X : Int) - c) →
        ((((t + -((n / 2 : Nat) : Int) + (((n / 2 : Nat) : Int) + ((X : Int) - c)).toNat : Int)) : R) - x) = (X : R) - (c + (x - t)) := by
      intro n c X x t h
      rw [Int.toNat_of_nonneg h]
      push_cast
      ring
    rw [t _ cx X px _ (by omega), t _ cy Y py _ (by omega)]
  · intro g
    rw [hv]
    simp only [ext, sampleImage_h, sampleImage_w]
    rw [if_neg (by omega)]

example : showFourier (fourier exN (exPsf false none) (21 / 4) 7 8).2 = some ((33, 0), 13 / 4, 3) := by decide +kernel

/-- **C117**: a spatially varying PSF at a position and the constant PSF that `constantPsfAt` gives for it render the same image and the
same point source there; without oversampling they have the same transform. -/
theorem C117_constant (N : Numerics R V) (hN : Homogeneous N) (hA : Additive N) (ceil : R → Nat) (normalized : Bool) (v : Vary R)
    (b : Arr R) (bs : List (Arr R)) (hv : v.bases = b :: bs) (hb : ∀ a ∈ v.bases, a.h = b.h ∧ a.w = b.w) (sampling : R)
    (s : PixPsf R V) (h : mkPix ceil normalized (some v) b sampling = .ok s) (x y : R) :
    ∃ c, constantAt ceil s x y = .ok c ∧ (getImage c x y).2 = (getImage s x y).2 ∧
      (∀ rad mask, (pointPatch N c x y rad mask).2 = (pointPatch N s x y rad mask).2) ∧
      (sampling = 1 → ∀ sz, (normalized = true → 0 ≤ sumPix (v.at x y) ∧ ∀ f, (fourier N s x y sz).2 = .ok f → N.dc f.fft ≠ 0) →
        (fourier N c x y sz).2 = (fourier N s x y sz).2) := by
  have hat : (v.at x y).h = b.h ∧ (v.at x y).w = b.w := by simp [Vary.at, hv]
  have hodd : b.h % 2 = 1 ∧ b.w % 2 = 1 := by
    unfold mkPix at h
    split at h
    · cases h
    · split at h
      · cases h
      · constructor <;> omega
  obtain ⟨nw, nh, hm⟩ : ∃ nw nh, ∀ (vary : Option (Vary R)) (A : Arr R), A.h = b.h → A.w = b.w →
      mkPix (V := V) ceil normalized vary A sampling = .ok ⟨A, sampling, nw, nh, vary, normalized, []⟩ := by
    by_cases g : sampling ≠ 1
    · exact ⟨ceil (b.w * sampling), ceil (b.h * sampling), by
        intro vary A e1 e2; unfold mkPix; rw [e1, e2, if_neg (by omega), if_neg (by omega), if_pos g]⟩
    · exact ⟨0, 0, by
        intro vary A e1 e2; unfold mkPix; rw [e1, e2, if_neg (by omega), if_neg (by omega), if_neg g]⟩
  rw [hm _ _ rfl rfl] at h
  injection h with h
  subst h
  have himg : (getImage (⟨b, sampling, nw, nh, some v, normalized, []⟩ : PixPsf R V) x y).2 =
      if normalized then normImg (v.at x y) else v.at x y := rfl
  have hc : constantAt ceil (⟨b, sampling, nw, nh, some v, normalized, []⟩ : PixPsf R V) x y =
      .ok ⟨if normalized then normImg (v.at x y) else v.at x y, sampling, nw, nh, none, normalized, []⟩ := by
    simp only [constantAt]
    apply hm
    · split
      · rw [normImg_h]; exact hat.1
      · exact hat.1
    · split
      · rw [normImg_w]; exact hat.2
      · exact hat.2
  refine ⟨_, hc, ?_⟩
  have e1 : (getImage (⟨if normalized then normImg (v.at x y) else v.at x y, sampling, nw, nh, none, normalized, []⟩ : PixPsf R V) x y).2 =
      (getImage (⟨b, sampling, nw, nh, some v, normalized, []⟩ : PixPsf R V) x y).2 := by
    rw [himg]
    simp only [getImage]
    split
    · exact normImg_idem _
    · rfl
  refine ⟨e1, ?_, ?_⟩
  · intro rad mask
    simp only [pointPatch, e1]
    split
    · rfl
    · rfl
  · intro hs sz hd
    subst hs
    simp only [fourier, ne_eq, not_true_eq_false, if_false] at hd ⊢
    rw [cached_fresh _ rfl]
    simp only [computeFft]
    rw [varyFft_eq hN hA v b.h b.w hb (by rw [hv]; simp)] at hd ⊢
    cases hq : normalized with
    | false => rfl
    | true =>
      obtain ⟨hpos, hne⟩ := hd hq
      obtain ⟨k, h1, h2, e⟩ := normImg_mul (v.at x y)
      have hk : 0 < k := by
        rcases hpos.lt_or_eq with g | g
        · rw [h1 g]; exact inv_pos.2 g
        · rw [h2 g.symm]; exact one_pos
      simp only [if_true, e, pad_scale]
      cases hp : padInImage sz sz (v.at x y) with
      | error z => rfl
      | ok p =>
        have hd0 := hne _ (by rw [hp]; rfl)
        simp only [normEntry, hq, if_true] at hd0
        simp only [Except.map, normEntry, if_true, hN.fft]
        rw [normFft_scale hN _ k hk (dc_norm_ne _ hd0)]

example : (mkPix (V := Rat × Rat) (fun x : Rat => x.ceil.toNat) false (some exVary) exImg 1).toOption.map (·.nativeW) = some 0 := by
  decide +kernel
example : showFourier (fourier exN (exPlain true (some exVary)) 2 7 3).2 = some ((1, 1 / 36), 1, 1) := by decide +kernel
example : (constantAt (fun x : Rat => x.ceil.toNat) (exPlain true (some exVary)) 2 7).toOption.map
    (fun c => showFourier (fourier exN c 2 7 3).2) = some (some ((1, 1 / 36), 1, 1)) := by decide +kernel

omit [IsStrictOrderedRing R] in
/-- The transform of an oversampled PSF only sees the first eigen-image (`self.img`): it is the same however the PSF varies. -/
theorem C117_varying_ignored (N : Numerics R V) (s : PixPsf R V) (hs : s.sampling ≠ 1) (hc : s.cache = []) (v : Option (Vary R)) (px py : R)
    (sz : Nat) : (fourier N { s with vary := v } px py sz).2 = (fourier N s px py sz).2 := by
  unfold fourier
  rw [if_pos hs, if_pos hs, cached_fresh s hc, cached_fresh { s with vary := v } hc]
  rfl

/-- The negation of the last part of `C117_constant` with oversampling: there a varying PSF and its constant version have the same point
sources but other transforms. -/
theorem C117_varying_false : ¬ ∀ (N : Numerics Rat (Rat × Rat)) (ceil : Rat → Nat) (s c : PixPsf Rat (Rat × Rat)) (v : Vary Rat)
    (x y : Rat) (sz : Nat), Homogeneous N → Additive N → (∀ b ∈ v.bases, b.h = s.img.h ∧ b.w = s.img.w) →
    mkPix ceil s.normalized (some v) s.img s.sampling = .ok s → constantAt ceil s x y = .ok c →
    showFourier (fourier N c x y sz).2 = showFourier (fourier N s x y sz).2 := by
  intro h
  have := h exN (fun x => x.ceil.toNat) (exPsf false (some exVary)) ⟨exVary.at 2 7, 3 / 2, 5, 5, none, false, []⟩ exVary 2 7 8
    exN_homogeneous exN_additive (by decide +kernel)
    (by simp only [mkPix]
        rw [if_neg (by decide +kernel), if_neg (by decide +kernel), if_pos (by decide +kernel)]
        simp only [exPsf]
        congr 2 <;> decide +kernel)
    (by simp only [constantAt, mkPix]
        rw [show (exPsf false (some exVary)).vary = some exVary from rfl]
        simp only [show (exPsf false (some exVary)).normalized = false from rfl, Bool.false_eq_true, if_false]
        rw [if_neg (by decide +kernel), if_neg (by decide +kernel), if_pos (by decide +kernel)]
        congr 2 <;> decide +kernel)
  revert this
  decide +kernel

/-! ## Histories -/

/-- **C117**: the result of any use of a PSF (image, point source or transform) does not depend on what it was used for before, although
transforms are cached and a normalised PSF normalises its image and its cached transforms in place.  For the normalised class, the sum of
the image may not be negative and the transforms used must have flux. -/
theorem C117_history (N : Numerics R V) (hN : Homogeneous N) (s : PixPsf R V) (h0 : s.cache = []) (us : List (Use R)) (u : Use R)
    (hp : s.normalized = true → s.vary = none → 0 ≤ sumPix s.img)
    (hd : s.normalized = true → s.vary = none → ∀ px py sz, Use.transform px py sz ∈ us ++ [u] →
      ∀ f, (fourier N s px py sz).2 = .ok f → N.dc f.fft ≠ 0) :
    (use N (uses N s us) u).2 = (use N s u).2 := by
  have step : ∀ t u, Began N s t → (s.normalized = true → s.vary = none → ∀ px py sz, u = Use.transform px py sz →
      ∀ f, (fourier N s px py sz).2 = .ok f → N.dc f.fft ≠ 0) → (use N t u).2 = (use N s u).2 ∧ Began N s (use N t u).1 := by
    intro t u b hu
    cases u with
    | image px py => exact ⟨by simp only [use, (image_began b px py).1], (image_began b px py).2⟩
    | patch px py rad mask =>
      exact ⟨by simp only [use, (patch_began b px py rad mask).1], (patch_began b px py rad mask).2⟩
    | transform px py sz =>
      obtain ⟨e, b'⟩ := fourier_began hN h0 b hp px py sz (fun hn hv => hu hn hv px py sz rfl)
      exact ⟨by simp only [use, e], b'⟩
  have all : ∀ t, Began N s t → Began N s (uses N t us) := by
    induction us with
    | nil => intro t b; exact b
    | cons u' us ih =>
      intro t b
      simp only [uses]
      apply ih
      · intro hn hv px py sz hm
        exact hd hn hv px py sz (List.mem_cons_of_mem _ hm)
      · exact (step t u' b (fun hn hv px py sz e => hd hn hv px py sz (by rw [e]; simp))).2
  exact (step _ u (all s (began_refl s h0)) (fun hn hv px py sz e => hd hn hv px py sz (by rw [e]; simp))).1

example : showFourier (fourier exN (uses exN (exPlain true none) [.image 0 0, .patch 5 6 none none, .transform 0 0 1]) 2 7 3).2 =
    showFourier (fourier exN (exPlain true none) 2 7 3).2 := by decide +kernel
example : (uses exN (exPlain true none) [.image 0 0]).img.toLists ≠ exImg.toLists := by decide +kernel

/-- The negation of `C117_history` for an image whose sum is negative: the sign of the transform depends on whether the image was asked for
before. -/
theorem C117_sign_false : ¬ ∀ (N : Numerics Rat (Rat × Rat)) (s : PixPsf Rat (Rat × Rat)) (us : List (Use Rat)) (px py : Rat) (sz : Nat),
    Homogeneous N → s.cache = [] →
    showFourier (fourier N (uses N s us) px py sz).2 = showFourier (fourier N s px py sz).2 := by
  intro h
  have := h exN ⟨exImg.map (fun v => v * -1), 1, 0, 0, none, true, []⟩ [.image 0 0] 0 0 4 exN_homogeneous rfl
  revert this
  decide +kernel

end

end Verif.Psf
