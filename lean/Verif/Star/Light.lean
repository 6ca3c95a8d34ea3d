import Verif.Star.Whole
import Verif.Star.PropsGalDerivs
import Verif.Gal.PropsComposite

/-!
# What single galaxies show, with a PSF of Gaussians
-/

namespace Verif.Star

open Verif.Patches (Patch)
open Verif.Mog (Comp Mix Mat)
open Verif.Gal (ModelMask HasImage pixel countsOf)
open Verif.Gauss

variable {B : Type}

/-- What one source of light shows in a pixel, if `light` arrives there: in a mask, the light up to `tol` in pixels that are set and nothing elsewhere; without a
mask, the light up to `tol`, or nothing where the pixel is not near the source. -/
def Part (mask : Option ModelMask) (near : Prop) (light tol : ℝ) (x y : Int) (v : ℝ) : Prop :=
  match mask with
  | some k => (OnMask k x y → |light - v| ≤ tol) ∧ (¬ OnMask k x y → v = 0)
  | none => |light - v| ≤ tol ∨ (v = 0 ∧ ¬ near)

/-- Of a star: its counts times the PSF around it; near is the square of half width `r`, the radius of the star or of the PSF. -/
noncomputable def starLight (psf : GPsf) (s : Star) (x y : Int) : ℝ := densityMix psf.mog (x - s.px) (y - s.py)

/-- Of a galaxy: its light as seen through the PSF. -/
noncomputable def Made.light (psf : GPsf) (g : Made) (x y : Int) : ℝ :=
  seen (densityMix psf.mog) g.profile (Gal.dot g.cdinv g.basis) g.px g.py x y

/-- `exp(-30)` of the peaks of the PSF. -/
noncomputable def starTol (psf : GPsf) : ℝ := Real.exp (-30) * peaks psf.mog

/-- The same times the light of the profile. -/
noncomputable def Made.tol (psf : GPsf) (g : Made) : ℝ := Real.exp (-30) * ((g.profile.map (fun c => |c.amp|)).sum * peaks psf.mog)

/-- A profile of round Gaussians, and an extent. -/
def Made.Sound (g : Made) : Prop := (∀ c ∈ g.profile, Round c) ∧ Prof.det (Gal.dot g.cdinv g.basis) ≠ 0

/-- The routines in C, a PSF of Gaussians. -/
structure Frame.Sound (F : Frame B) : Prop where
  value : ∀ m r c, F.E.value m r c = evaluateGrid m 0 0 c r
  masked : ∀ m r c, F.E.valueMasked m r c = (masked m (fun _ _ => true) 0 0 c r).1
  psf : ∀ c ∈ F.psf.mog, Proper c

theorem shown_pixel (p : Option (Patch ℝ)) (x y : Int) : shown p x y = pixel p x y := by
  unfold shown pixel
  cases p with
  | none => rfl
  | some q =>
    unfold Patches.Patch.at InPatch
    dsimp only
    cases q.patch with
    | none => rfl
    | some A =>
      dsimp only
      by_cases h : q.x0 ≤ x ∧ x < q.x0 + (A.w : Int) ∧ q.y0 ≤ y ∧ y < q.y0 + (A.h : Int)
      · rw [if_pos h, if_pos (by omega)]
      · rw [if_neg h, if_neg (by omega)]

/-- A part of unit counts, scaled. -/
theorem Part.scale {mask : Option ModelMask} {near : Prop} {light tol : ℝ} {x y : Int} {v : ℝ} (c : ℝ) (h : Part mask near light tol x y v) :
    Part mask near (c * light) (|c| * tol) x y (c * v) := by
  have key : |light - v| ≤ tol → |c * light - c * v| ≤ |c| * tol := by
    intro h
    rw [← mul_sub, abs_mul]
    exact mul_le_mul_of_nonneg_left h (abs_nonneg c)
  cases mask with
  | some k => exact ⟨fun o => key (h.1 o), fun o => by rw [h.2 o, mul_zero]⟩
  | none =>
    rcases h with h | ⟨h, n⟩
    · exact Or.inl (key h)
    · exact Or.inr ⟨by rw [h, mul_zero], n⟩

/-- From the two clauses about a mask to the pixels of the image. -/
theorem part_of_mask {q : Patch ℝ} {k : ModelMask} {near : Prop} {L : Int → Int → ℝ} {tol : ℝ}
    (h2 : ∀ x y, InPatch q x y ↔ (k.x0 ≤ x ∧ x < k.x0 + k.w) ∧ (k.y0 ≤ y ∧ y < k.y0 + k.h))
    (h3 : ∀ i j : Nat, i < k.h → j < k.w → (∀ set, k.mask = some set → set i j = false → shown (some q) (k.x0 + j) (k.y0 + i) = 0) ∧
        ((∀ set, k.mask = some set → set i j = true) → |L (k.x0 + j) (k.y0 + i) - shown (some q) (k.x0 + j) (k.y0 + i)| ≤ tol)) (x y : Int) :
    Part (some k) near (L x y) tol x y (pixel (some q) x y) := by
  rw [← shown_pixel]
  constructor
  · rintro ⟨⟨⟨b1, b2⟩, b3, b4⟩, hs⟩
    have := (h3 (y - k.y0).toNat (x - k.x0).toNat (by omega) (by omega)).2 hs
    rw [show k.x0 + ((x - k.x0).toNat : Int) = x by omega, show k.y0 + ((y - k.y0).toNat : Int) = y by omega] at this
    exact this
  · intro h
    by_cases hb : (k.x0 ≤ x ∧ x < k.x0 + k.w) ∧ (k.y0 ≤ y ∧ y < k.y0 + k.h)
    · have hs : ∃ set, k.mask = some set ∧ set (y - k.y0).toNat (x - k.x0).toNat = false := by
        by_contra hc
        push Not at hc
        exact h ⟨hb, fun set hs => by simpa using hc set hs⟩
      obtain ⟨set, hs1, hs2⟩ := hs
      have := (h3 (y - k.y0).toNat (x - k.x0).toNat (by omega) (by omega)).1 set hs1 hs2
      rw [show k.x0 + ((x - k.x0).toNat : Int) = x by omega, show k.y0 + ((y - k.y0).toNat : Int) = y by omega] at this
      exact this
    · unfold shown
      cases hq : q.patch with
      | none => simp [hq]
      | some A =>
        simp only [hq]
        exact if_neg (fun hI => hb ((h2 x y).mp hI))

/-- A galaxy of one count. -/
theorem gal_unit (F : Frame B) (hF : F.Sound) (mask : Option ModelMask) (g : Made) (hg : g.Sound) (v : ℝ) (hv : mask = none → v = 0) :
    ∃ u, F.unitGal g v mask = .ok u ∧ HasImage u ∧ ∀ x y, InImage F.S.H F.S.W x y →
      Part mask (Near g.px g.py (g.patchSize g.px g.py) x y) (g.light F.psf x y) (g.tol F.psf) x y (pixel u x y) := by
  cases mask with
  | some k =>
    obtain ⟨q, h1, h2, h3⟩ := C167_mask F.E hF.value hF.masked F.S g.galaxy ⟨some (3, 4), false, some v⟩ g.profile hg.1 g.cdinv g.basis hg.2 g.px g.py rfl
      (fun _ _ => F.psf.mog) hF.psf k
    refine ⟨some q, h1, ?_, fun x y _ => part_of_mask h2 (L := g.light F.psf) h3 x y⟩
    rintro p ⟨⟩
    have hrun : Gal.unitPatch F.E F.S (.gauss fun _ _ => F.psf.mog) g.galaxy ⟨some (3, 4), false, some v⟩ g.px g.py (some k) =
        .ok (some ⟨k.x0, k.y0, some (Gal.mogInMask F.E (Mog.convolve (g.galaxy.affine g.px g.py) F.psf.mog) k)⟩) := by
      unfold Gal.unitPatch
      dsimp only
      exact if_pos rfl
    rw [hrun] at h1
    rw [← Option.some.inj (Except.ok.inj h1)]
    exact ⟨_, rfl⟩
  | none =>
    have ha : (⟨some (3, 4), false, some v⟩ : Gal.Args ℝ).minval = none ∨ (⟨some (3, 4), false, some v⟩ : Gal.Args ℝ).minval = some 0 := Or.inr (by rw [hv rfl])
    obtain ⟨res, h1, h2, h3⟩ := C167_free F.E hF.value F.S g.galaxy ⟨some (3, 4), false, some v⟩ ha g.profile hg.1 g.cdinv g.basis hg.2 g.px g.py _ rfl rfl
      (fun _ _ => F.psf.mog) hF.psf
    have himg : HasImage res := by
      rcases Gal.C96_gauss F.E F.S (fun _ _ => F.psf.mog) g.galaxy ⟨some (3, 4), false, some v⟩ ha g.px g.py _ rfl with ⟨hrun, _⟩ | ⟨G, jx, jy, hrun, _⟩
      · rw [Except.ok.inj (h1.symm.trans hrun)]
        intro p hp
        simp at hp
      · rw [Except.ok.inj (h1.symm.trans hrun)]
        rintro p ⟨⟩
        exact ⟨G, rfl⟩
    refine ⟨res, h1, himg, fun x y hi => ?_⟩
    have h50 : Real.exp (-50) * ((g.profile.map (fun c => |c.amp|)).sum * peaks F.psf.mog) ≤ g.tol F.psf := by
      refine mul_le_mul_of_nonneg_right (Real.exp_le_exp.mpr (by norm_num)) (mul_nonneg (List.sum_nonneg (fun z hz => ?_)) (peaks_nonneg _))
      obtain ⟨c, _, rfl⟩ := List.mem_map.mp hz
      exact abs_nonneg _
    rw [← shown_pixel]
    by_cases hI : ∃ q, res = some q ∧ InPatch q x y
    · obtain ⟨q, hq, hp⟩ := hI
      exact Or.inl ((h3 q hq x y hp).2.trans h50)
    · refine Or.inr ⟨?_, fun hn => hI (h2 x y hi hn)⟩
      unfold shown
      cases hres : res with
      | none => rfl
      | some q =>
        dsimp only
        cases hq : q.patch with
        | none => rfl
        | some A =>
          dsimp only
          exact if_neg (fun hp => hI ⟨q, hres, hp⟩)

end Verif.Star
