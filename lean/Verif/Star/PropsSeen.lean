import Verif.Star.SeenLemmas
import Verif.Star.PropsGal
import Verif.Gal.PropsFree
import Verif.Gauss.PropsFourier
import Verif.Prof.Props

/-!
# C167: a galaxy with a PSF of Gaussians is its profile, stretched onto the image and seen through the PSF
-/

namespace Verif.Star

open Verif.Patches (Patch)
open Verif.Mog (Comp Mix)
open Verif.Gal (ModelMask)
open Verif.Gauss

theorem peaks_nonneg (m : Mix ℝ) : 0 ≤ peaks m := by
  unfold peaks
  refine List.sum_nonneg (fun z hz => ?_)
  obtain ⟨c, _, rfl⟩ := List.mem_map.mp hz
  exact peak_nonneg c

/-- In a mask: the rectangle of the mask; nothing in pixels that are not set; in all others what arrives there of the galaxy's light, up to
`exp(-30)` of the peaks of the PSF. -/
theorem C167_mask (E : Gal.Env ℝ) (hE : ∀ m r c, E.value m r c = evaluateGrid m 0 0 c r)
    (hE' : ∀ m r c, E.valueMasked m r c = (masked m (fun _ _ => true) 0 0 c r).1)
    (S : Gal.Scene ℝ) (g : Gal.Galaxy ℝ) (a : Gal.Args ℝ) (profile : Mix ℝ) (hp : ∀ c ∈ profile, Round c) (cdinv basis : Mog.Mat ℝ)
    (hT : Prof.det (Gal.dot cdinv basis) ≠ 0) (px py : ℝ) (hg : g.affine px py = Gal.hoggAffine profile cdinv basis px py)
    (mix : ℝ → ℝ → Mix ℝ) (hm : ∀ c ∈ mix px py, Proper c) (k : ModelMask) :
    ∃ q, Gal.unitPatch E S (.gauss mix) g a px py (some k) = .ok (some q) ∧
      (∀ x y, InPatch q x y ↔ (k.x0 ≤ x ∧ x < k.x0 + k.w) ∧ (k.y0 ≤ y ∧ y < k.y0 + k.h)) ∧
      ∀ i j : Nat, i < k.h → j < k.w →
        (∀ set, k.mask = some set → set i j = false → shown (some q) (k.x0 + j) (k.y0 + i) = 0) ∧
        ((∀ set, k.mask = some set → set i j = true) →
          |seen (densityMix (mix px py)) profile (Gal.dot cdinv basis) px py ((k.x0 + j : Int) : ℝ) ((k.y0 + i : Int) : ℝ) -
              shown (some q) (k.x0 + j) (k.y0 + i)| ≤
            Real.exp (-30) * ((profile.map (fun c => |c.amp|)).sum * peaks (mix px py))) := by
  set M := Mog.convolve (g.affine px py) (mix px py) with hM
  have hM' : M = Mog.convolve (Mog.applyAffine profile (px, py) (Gal.dot cdinv basis)) (mix px py) := by rw [hM, hg]; rfl
  have hcp : ∀ c ∈ M, Proper c := by rw [hM']; exact affine_proper hp _ hm px py
  have hpk : peaks M ≤ (profile.map (fun c => |c.amp|)).sum * peaks (mix px py) := by rw [hM']; exact peaks_conv hp _ hm px py
  have hrun : Gal.unitPatch E S (.gauss mix) g a px py (some k) = .ok (some ⟨k.x0, k.y0, some (Gal.mogInMask E M k)⟩) := by
    unfold Gal.unitPatch
    dsimp only
    exact if_pos rfl
  refine ⟨_, hrun, fun x y => Iff.rfl, fun i j hi hj => ?_⟩
  have hsh : shown (some ⟨k.x0, k.y0, some (Gal.mogInMask E M k)⟩) (k.x0 + j) (k.y0 + i) = (Gal.mogInMask E M k).px i j := by
    unfold shown
    dsimp only
    have hI : InPatch ⟨k.x0, k.y0, some (Gal.mogInMask E M k)⟩ (k.x0 + j) (k.y0 + i) :=
      show (k.x0 ≤ k.x0 + j ∧ k.x0 + j < k.x0 + (k.w : Int)) ∧ (k.y0 ≤ k.y0 + i ∧ k.y0 + i < k.y0 + (k.h : Int)) by omega
    rw [if_pos hI]
    rw [show (k.y0 + (i : Int) - k.y0).toNat = i by omega, show (k.x0 + (j : Int) - k.x0).toNat = j by omega]
  rw [hsh]
  refine ⟨fun set hs h => ?_, fun hset => ?_⟩
  · unfold Gal.mogInMask
    dsimp only
    rw [hs]
    dsimp only
    rw [if_neg (by simp [h])]
  · rw [seen_eq hp _ hT _ hm, ← hM']
    have hle : Real.exp (-30) * peaks M ≤ Real.exp (-30) * ((profile.map (fun c => |c.amp|)).sum * peaks (mix px py)) :=
      mul_le_mul_of_nonneg_left hpk (Real.exp_pos _).le
    refine le_trans ?_ hle
    unfold Gal.mogInMask
    dsimp only
    cases hk : k.mask with
    | none =>
      dsimp only
      rw [hE]
      have h := (C99_grid M hcp 0 0 (k.x0 + j) (k.y0 + i)).1
      rw [sub_zero, sub_zero] at h
      exact h.trans (mul_le_mul_of_nonneg_right (Real.exp_le_exp.mpr (by norm_num)) (peaks_nonneg M))
    | some set =>
      dsimp only
      rw [if_pos (hset set hk), hE']
      have h := ((C99_masked M hcp (fun _ _ => true) 0 0 (k.x0 + j) (k.y0 + i)).2 rfl).1
      rw [sub_zero, sub_zero] at h
      exact h

/-- Without a mask and with `minval` 0 or None: no model, and no pixel of the image is within the half size `h` of the centre; or a model inside the image
that has every pixel of the image within `h` of the centre, and in each of its pixels what arrives there of the galaxy's light, up to `exp(-50)` of the
peaks of the PSF. -/
theorem C167_free (E : Gal.Env ℝ) (hE : ∀ m r c, E.value m r c = evaluateGrid m 0 0 c r)
    (S : Gal.Scene ℝ) (g : Gal.Galaxy ℝ) (a : Gal.Args ℝ) (ha : a.minval = none ∨ a.minval = some 0) (profile : Mix ℝ)
    (hp : ∀ c ∈ profile, Round c) (cdinv basis : Mog.Mat ℝ) (hT : Prof.det (Gal.dot cdinv basis) ≠ 0) (px py h : ℝ)
    (hh : g.patchSize px py = h) (hg : g.affine px py = Gal.hoggAffine profile cdinv basis px py)
    (mix : ℝ → ℝ → Mix ℝ) (hm : ∀ c ∈ mix px py, Proper c) :
    ∃ res, Gal.unitPatch E S (.gauss mix) g a px py none = .ok res ∧
      (∀ x y, InImage S.H S.W x y → Near px py h x y → ∃ q, res = some q ∧ InPatch q x y) ∧
      ∀ q, res = some q → ∀ x y, InPatch q x y → InImage S.H S.W x y ∧
        |seen (densityMix (mix px py)) profile (Gal.dot cdinv basis) px py x y - shown res x y| ≤
          Real.exp (-50) * ((profile.map (fun c => |c.amp|)).sum * peaks (mix px py)) := by
  set M := Mog.convolve (g.affine px py) (mix px py) with hM
  have hM' : M = Mog.convolve (Mog.applyAffine profile (px, py) (Gal.dot cdinv basis)) (mix px py) := by rw [hM, hg]; rfl
  have hcp : ∀ c ∈ M, Proper c := by rw [hM']; exact affine_proper hp _ hm px py
  have hpk : peaks M ≤ (profile.map (fun c => |c.amp|)).sum * peaks (mix px py) := by rw [hM']; exact peaks_conv hp _ hm px py
  have hnear : ∀ x y, InImage S.H S.W x y → Near px py h x y → Gal.Near S px py h x y := by
    rintro x y ⟨⟨i1, i2⟩, i3, i4⟩ ⟨n1, n2⟩
    rw [abs_le] at n1 n2
    exact ⟨⟨i1, i2, i3, i4⟩, by linarith [n1.1], by linarith [n1.2], by linarith [n2.1], by linarith [n2.2]⟩
  rcases Gal.C96_gauss E S mix g a ha px py h hh with ⟨hrun, hno⟩ | ⟨G, jx, jy, hrun, g1, g2, g3, g4, hall, hpx⟩
  · exact ⟨none, hrun, fun x y hi hn => absurd (hnear x y hi hn) (hno x y), fun q hq => by simp at hq⟩
  · refine ⟨_, hrun, fun x y hi hn => ⟨_, rfl, ?_⟩, fun q hq x y hin => ?_⟩
    · obtain ⟨h1, h2, h3, h4⟩ := hall x y (hnear x y hi hn)
      exact ⟨⟨h1, h2⟩, h3, h4⟩
    · obtain rfl := Option.some.inj hq
      have hb : (jx ≤ x ∧ x < jx + (G.w : Int)) ∧ (jy ≤ y ∧ y < jy + (G.h : Int)) := hin
      obtain ⟨⟨h1, h2⟩, h3, h4⟩ := hb
      refine ⟨⟨⟨by omega, by omega⟩, by omega, by omega⟩, ?_⟩
      unfold shown
      dsimp only
      rw [if_pos hin, hpx _ _ (by omega) (by omega), hE, show jy + ((y - jy).toNat : Int) = y by omega,
        show jx + ((x - jx).toNat : Int) = x by omega, seen_eq hp _ hT _ hm, ← hM']
      have hd := (C99_grid M hcp 0 0 x y).1
      rw [sub_zero, sub_zero] at hd
      exact hd.trans (mul_le_mul_of_nonneg_left hpk (Real.exp_pos _).le)

/-- All that is seen of a galaxy, over the whole plane, is its light times that of the PSF. -/
theorem C167_flux (profile : Mix ℝ) (hp : ∀ c ∈ profile, Round c) (T : Mog.Mat ℝ) (hT : Prof.det T ≠ 0) (m : Mix ℝ) (hm : ∀ c ∈ m, Proper c)
    (px py : ℝ) :
    ∫ y : ℝ, ∫ x : ℝ, seen (densityMix m) profile T px py x y = (profile.map (·.amp)).sum * (m.map (·.amp)).sum := by
  simp_rw [seen_eq hp T hT m hm px py]
  rw [C100_total _ (affine_proper hp T hm px py), amps_conv]
  unfold Mog.applyAffine
  rw [List.map_map]
  rfl

/-- The classes of galaxies have such profiles, of total light 1, all of it positive. -/
theorem C167_classes (k : Prof.Kind) :
    (∀ c ∈ (Prof.profile k).map Prof.real, Round c) ∧ (((Prof.profile k).map Prof.real).map (fun c => |c.amp|)).sum = 1 ∧
      (((Prof.profile k).map Prof.real).map (·.amp)).sum = 1 := by
  have h1 : (((Prof.profile k).map Prof.real).map (·.amp)).sum = 1 := by
    have h := congrArg (fun q : ℚ => (q : ℝ)) (Prof.C141_total k).1
    rw [Rat.cast_one] at h
    rw [← h, List.map_map]
    generalize Prof.profile k = l
    induction l with
    | nil => simp
    | cons c l ih =>
      rw [List.map_cons, List.sum_cons, ih, List.map_cons, List.sum_cons, Rat.cast_add]
      rfl
  refine ⟨?_, ?_, h1⟩
  · intro c hc
    obtain ⟨d, hd, rfl⟩ := List.mem_map.mp hc
    obtain ⟨e, _, hv⟩ := Prof.circular_of k d hd
    rw [e]
    unfold Round Prof.real
    simpa using hv
  · rw [← h1]
    congr 1
    refine List.map_congr_left (fun c hc => ?_)
    obtain ⟨d, hd, rfl⟩ := List.mem_map.mp hc
    obtain ⟨_, ha, _⟩ := Prof.circular_of k d hd
    refine abs_of_pos ?_
    show (0 : ℝ) < (d.amp : ℝ)
    exact_mod_cast ha

/-- A galaxy with the profile of deVaucouleurs, 3 pixels by 1 and tilted. -/
noncomputable def exDev : Gal.Galaxy ℝ :=
  ⟨fun px py => Gal.hoggAffine ((Prof.profile .dev).map Prof.real) ⟨-1, 0, 0, 1⟩ ⟨3, 1, 1, 2⟩ px py, fun _ _ => [], 1, fun _ _ => 8⟩

example : ∃ q, Gal.unitPatch exEnv ⟨30, 40, fun _ _ => 1⟩ (.gauss (fun _ _ => exPsf.mog)) exDev ⟨none, false, none⟩ 5 6
      (some ⟨3, 4, 4, 5, some (fun i _ => i != 0)⟩) = .ok (some q) ∧
    |seen (densityMix exPsf.mog) ((Prof.profile .dev).map Prof.real) (Gal.dot ⟨-1, 0, 0, 1⟩ ⟨3, 1, 1, 2⟩) 5 6 ((3 + (2 : Nat) : Int) : ℝ)
        ((4 + (1 : Nat) : Int) : ℝ) - shown (some q) (3 + (2 : Nat)) (4 + (1 : Nat))| ≤ Real.exp (-30) * (1 * peaks exPsf.mog) ∧
    shown (some q) (3 + (2 : Nat)) (4 + (0 : Nat)) = 0 := by
  obtain ⟨q, h1, _, h3⟩ := C167_mask exEnv (fun _ _ _ => rfl) (fun _ _ _ => rfl) ⟨30, 40, fun _ _ => 1⟩ exDev ⟨none, false, none⟩
    ((Prof.profile .dev).map Prof.real) (C167_classes .dev).1 ⟨-1, 0, 0, 1⟩ ⟨3, 1, 1, 2⟩ (by norm_num [Prof.det, Gal.dot]) 5 6 rfl
    (fun _ _ => exPsf.mog) exPsf_proper ⟨3, 4, 4, 5, some (fun i _ => i != 0)⟩
  refine ⟨q, h1, ?_, ?_⟩
  · have h := (h3 1 2 (by decide) (by decide)).2 (fun set hs => by obtain rfl := Option.some.inj hs; rfl)
    rw [(C167_classes .dev).2.1] at h
    exact h
  · exact (h3 0 2 (by decide) (by decide)).1 _ rfl rfl

/-- The same without a mask, and all of its light. -/
example : (∃ res, Gal.unitPatch exEnv ⟨30, 40, fun _ _ => 1⟩ (.gauss (fun _ _ => exPsf.mog)) exDev ⟨none, false, some 0⟩ 5 6 none = .ok res ∧
      ∃ q, res = some q ∧ InPatch q 10 12) ∧
    ∫ y : ℝ, ∫ x : ℝ, seen (densityMix exPsf.mog) ((Prof.profile .dev).map Prof.real) (Gal.dot ⟨-1, 0, 0, 1⟩ ⟨3, 1, 1, 2⟩) 5 6 x y =
      (exPsf.mog.map (·.amp)).sum := by
  constructor
  · obtain ⟨res, h1, h2, _⟩ := C167_free exEnv (fun _ _ _ => rfl) ⟨30, 40, fun _ _ => 1⟩ exDev ⟨none, false, some 0⟩ (.inr rfl)
      ((Prof.profile .dev).map Prof.real) (C167_classes .dev).1 ⟨-1, 0, 0, 1⟩ ⟨3, 1, 1, 2⟩ (by norm_num [Prof.det, Gal.dot]) 5 6 8 rfl rfl
      (fun _ _ => exPsf.mog) exPsf_proper
    exact ⟨res, h1, h2 10 12 (by unfold InImage; decide) (by unfold Near; constructor <;> norm_num [abs_le])⟩
  · rw [C167_flux _ (C167_classes .dev).1 _ (by norm_num [Prof.det, Gal.dot]) _ exPsf_proper, (C167_classes .dev).2.2, one_mul]

end Verif.Star
