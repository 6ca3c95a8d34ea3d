import Verif.Star.Lemmas

/-!
# C165: a star in an image whose PSF is a mixture of Gaussians
-/

namespace Verif.Star

open Verif.Patches (Patch)
open Verif.Mog (Comp Mix)
open Verif.Approx (Box)
open Verif.Gal (ModelMask)
open Verif.Gauss

/-- Without a mask and without a minimum value, the star is rendered in the image: the patch does not leave the image, all pixels of the
image in the square of half width `r` around the star are in it and show the density of the PSF around the star, and all further
than a pixel from the square show nothing. -/
theorem C165_star (p : GPsf) (hm : ∀ c ∈ p.mog, Proper c) (s : Star) (r : ℝ) (hr : s.fixedRadius.or p.radius = some r)
    (hs : s.minRadius = none) (H W : Nat) (minval : Option ℝ) (hv : ∀ v, minval = some v → v ≤ 0) :
    ∃ res, starPatch p s H W minval none = .ok res ∧
      (∀ q, res = some q → ∀ x y, InPatch q x y → InImage H W x y) ∧
      ∀ x y, InImage H W x y →
        (Near s.px s.py r x y → (∃ q, res = some q ∧ InPatch q x y) ∧
          |densityMix p.mog (x - s.px) (y - s.py) - shown res x y| ≤ Real.exp (-50) * peaks p.mog ∧
          ((∀ c ∈ p.mog, distSq c (x - s.px) (y - s.py) < 100) → shown res x y = densityMix p.mog (x - s.px) (y - s.py))) ∧
        (¬ (|(x : ℝ) - s.px| < r + 1 ∧ |(y : ℝ) - s.py| < r + 1) → shown res x y = 0) := by
  have hmv : ¬ (minval.getD 0 > 0 ∨ s.minRadius.isSome) := by
    rw [hs]
    cases minval with
    | none => simp
    | some v => simpa using hv v rfl
  by_cases hfar : s.px + r < 0 ∨ s.px - r > W ∨ s.py + r < 0 ∨ s.py - r > H
  · refine ⟨none, ?_, fun q hq => by simp at hq, fun x y hi => ⟨fun hn => ?_, fun _ => rfl⟩⟩
    · unfold starPatch; simp only [hr]; rw [if_pos hfar]
    · exfalso
      obtain ⟨⟨a1, a2⟩, b1, b2⟩ := hi
      obtain ⟨n1, n2⟩ := hn
      rw [abs_le] at n1 n2
      have a1 : (0 : ℝ) ≤ x := by exact_mod_cast a1
      have a2 : (x : ℝ) < W := by exact_mod_cast a2
      have b1 : (0 : ℝ) ≤ y := by exact_mod_cast b1
      have b2 : (y : ℝ) < H := by exact_mod_cast b2
      rcases hfar with h | h | h | h <;> linarith [n1.1, n1.2, n2.1, n2.2]
  set b : Box := ⟨max ⌊s.px - r⌋ 0, min (⌈s.px + r⌉ + 1) W, max ⌊s.py - r⌋ 0, min (⌈s.py + r⌉ + 1) H⟩ with hb
  have b0 : b.x0 = max ⌊s.px - r⌋ 0 := rfl
  have b1 : b.x1 = min (⌈s.px + r⌉ + 1) W := rfl
  have b2 : b.y0 = max ⌊s.py - r⌋ 0 := rfl
  have b3 : b.y1 = min (⌈s.py + r⌉ + 1) H := rfl
  have hrun : starPatch p s H W minval none =
      if b.x0 ≥ b.x1 ∨ b.y0 ≥ b.y1 then .ok none else .ok (some (grid p.mog b s.px s.py)) := by
    unfold starPatch; simp only [hr]; rw [if_neg hfar]
    unfold pointSourcePatch; dsimp only
    rw [if_neg hmv, hr]
    dsimp only
    rw [extent_clip]
  have hin : ∀ x y, InImage H W x y → Near s.px s.py r x y → Approx.Inside b.x0 b.x1 b.y0 b.y1 y x := fun x y => near_box
  by_cases he : b.x0 ≥ b.x1 ∨ b.y0 ≥ b.y1
  · refine ⟨none, by rw [hrun, if_pos he], fun q hq => by simp at hq, fun x y hi => ⟨fun hn => ?_, fun _ => rfl⟩⟩
    exfalso
    have := hin x y hi hn
    unfold Approx.Inside at this
    omega
  · refine ⟨_, by rw [hrun, if_neg he], ?_, fun x y hi => ⟨fun hn => ?_, fun ho => ?_⟩⟩
    · intro q hq x y hp
      injection hq with hq
      subst hq
      unfold InPatch grid at hp
      dsimp only at hp
      unfold InImage
      omega
    · refine ⟨⟨_, rfl, ?_⟩, ?_⟩
      · have := hin x y hi hn
        unfold Approx.Inside at this
        unfold InPatch grid; dsimp only; omega
      rw [(shown_grid p.mog b s.px s.py x y).1 (hin x y hi hn)]
      exact C99_grid p.mog hm s.px s.py x y
    · refine (shown_grid p.mog b s.px s.py x y).2 (fun hI => ho ?_)
      obtain ⟨⟨i1, i2⟩, i3, i4⟩ := hI
      exact ⟨side_out s.px r x (by omega) (by omega), side_out s.py r y (by omega) (by omega)⟩

/-- A PSF of unit variance, a star between two pixels near a corner of an image of 40 by 30 pixels; the default radius. -/
noncomputable def exPsf : GPsf := { mog := [⟨1, 0, 0, 1, 0, 0, 1⟩] }

theorem exPsf_proper : ∀ c ∈ exPsf.mog, Proper c := by
  intro c hc
  simp only [exPsf, List.mem_singleton] at hc
  subst hc
  unfold Proper; norm_num

/-- The pixel beside the star has the density a half pixel from its centre: `exp(-1/8) / 2 pi`. -/
example : ∃ res, starPatch exPsf { px := 5 / 2, py := 3 } 30 40 (some 0) none = .ok res ∧
    shown res 3 3 = 1 / (2 * Real.pi) * Real.exp (-(1 / 8)) := by
  obtain ⟨res, h1, _, h3⟩ := C165_star exPsf exPsf_proper { px := 5 / 2, py := 3 } 25 rfl rfl 30 40 (some 0)
    (fun v hv => by simp at hv; exact hv.symm.le)
  refine ⟨res, h1, ?_⟩
  rw [((h3 3 3 (by unfold InImage; norm_num)).1 (by unfold Near; norm_num [abs_le])).2.2 (by
    intro c hc
    simp only [exPsf, List.mem_singleton] at hc
    subst hc
    unfold distSq; norm_num)]
  simp [densityMix, exPsf, density, distSq]
  norm_num

/-- In a mask the patch covers the mask and no more, whatever the radius (as long as the image comes within the radius of the star): all its pixels show
the density, except those not set in the array of the mask, which show nothing. -/
theorem C165_mask (p : GPsf) (hm : ∀ c ∈ p.mog, Proper c) (s : Star) (r : ℝ) (hr : s.fixedRadius.or p.radius = some r) (H W : Nat)
    (hin : 0 ≤ s.px + r ∧ s.px - r ≤ W ∧ 0 ≤ s.py + r ∧ s.py - r ≤ H) (minval : Option ℝ) (k : ModelMask) :
    ∃ q, starPatch p s H W minval (some k) = .ok (some q) ∧
      (∀ x y, InPatch q x y ↔ (k.x0 ≤ x ∧ x < k.x0 + k.w) ∧ (k.y0 ≤ y ∧ y < k.y0 + k.h)) ∧
      ∀ i j : Nat, i < k.h → j < k.w →
        (∀ set, k.mask = some set → set i j = false → shown (some q) (k.x0 + j) (k.y0 + i) = 0) ∧
        ((∀ set, k.mask = some set → set i j = true) →
          |densityMix p.mog (((k.x0 + j : Int) : ℝ) - s.px) (((k.y0 + i : Int) : ℝ) - s.py) - shown (some q) (k.x0 + j) (k.y0 + i)| ≤
            Real.exp (-30) * peaks p.mog ∧
          ((∀ c ∈ p.mog, distSq c (((k.x0 + j : Int) : ℝ) - s.px) (((k.y0 + i : Int) : ℝ) - s.py) ≤ 60) →
            shown (some q) (k.x0 + j) (k.y0 + i) = densityMix p.mog (((k.x0 + j : Int) : ℝ) - s.px) (((k.y0 + i : Int) : ℝ) - s.py))) := by
  have hfar : ¬ (s.px + r < 0 ∨ s.px - r > W ∨ s.py + r < 0 ∨ s.py - r > H) := by
    push Not
    exact hin
  have hrun : starPatch p s H W minval (some k) = .ok (some (match k.mask with
      | none => grid p.mog ⟨k.x0, k.x0 + k.w, k.y0, k.y0 + k.h⟩ s.px s.py
      | some set => gridMasked p.mog k set s.px s.py)) := by
    unfold starPatch; simp only [hr]; rw [if_neg hfar]
    unfold pointSourcePatch; dsimp only
    cases k.mask <;> rfl
  have hpk : 0 ≤ peaks p.mog := by
    unfold peaks
    refine List.sum_nonneg (fun z hz => ?_)
    obtain ⟨c, _, rfl⟩ := List.mem_map.mp hz
    exact peak_nonneg c
  cases hk : k.mask with
  | none =>
    rw [hk] at hrun
    refine ⟨_, hrun, fun x y => ?_, fun i j hi hj => ⟨fun set h => by simp at h, fun _ => ?_⟩⟩
    · unfold InPatch grid; dsimp only; omega
    · rw [(shown_grid p.mog _ s.px s.py _ _).1 (by unfold Approx.Inside; dsimp only; omega)]
      obtain ⟨h1, h2⟩ := C99_grid p.mog hm s.px s.py (k.x0 + j) (k.y0 + i)
      refine ⟨h1.trans (mul_le_mul_of_nonneg_right (Real.exp_le_exp.mpr (by norm_num)) hpk), fun h => h2 (fun c hc => ?_)⟩
      have := h c hc
      linarith
  | some set =>
    rw [hk] at hrun
    refine ⟨_, hrun, fun x y => ?_, fun i j hi hj => ?_⟩
    · unfold InPatch gridMasked; dsimp only; omega
    have hsh : shown (some (gridMasked p.mog k set s.px s.py)) (k.x0 + j) (k.y0 + i) =
        (masked p.mog (fun y x => set (y - k.y0).toNat (x - k.x0).toNat) s.px s.py (k.x0 + j) (k.y0 + i)).1 := by
      have hp : InPatch (gridMasked p.mog k set s.px s.py) (k.x0 + j) (k.y0 + i) := by
        unfold InPatch gridMasked; dsimp only; omega
      unfold shown
      have : (gridMasked p.mog k set s.px s.py).patch = some ⟨k.h, k.w, fun r c =>
        (masked p.mog (fun y x => set (y - k.y0).toNat (x - k.x0).toNat) s.px s.py (k.x0 + c) (k.y0 + r)).1⟩ := rfl
      simp only [this]
      rw [if_pos hp]
      have e1 : k.x0 + ((k.x0 + (j : Int) - (gridMasked p.mog k set s.px s.py).x0).toNat : Int) = k.x0 + j := by
        unfold gridMasked; dsimp only; omega
      have e2 : k.y0 + ((k.y0 + (i : Int) - (gridMasked p.mog k set s.px s.py).y0).toNat : Int) = k.y0 + i := by
        unfold gridMasked; dsimp only; omega
      rw [e1, e2]
    have ei : (k.y0 + (i : Int) - k.y0).toNat = i := by omega
    have ej : (k.x0 + (j : Int) - k.x0).toNat = j := by omega
    obtain ⟨h1, h2⟩ := C99_masked p.mog hm (fun y x => set (y - k.y0).toNat (x - k.x0).toNat) s.px s.py (k.x0 + j) (k.y0 + i)
    rw [ei, ej] at h1 h2
    rw [hsh]
    refine ⟨fun set' h hf => ?_, fun h => ?_⟩
    · injection h with h; subst h
      rw [h1 hf]
    · obtain ⟨g1, g2⟩ := h2 (h set rfl)
      exact ⟨g1, fun hd => (g2 hd).1⟩

/-- A star three pixels left of its mask; the mask reaches beyond the image and lacks one pixel. -/
example : ∃ q, starPatch exPsf { px := -3, py := 3 } 30 40 none (some ⟨-1, 3, 2, 5, some (fun i j => !(i == 1 && j == 2))⟩) = .ok (some q) ∧
    InPatch q 3 4 ∧ ¬ InPatch q 4 4 ∧ shown (some q) 1 4 = 0 ∧ shown (some q) (-1) 3 = 1 / (2 * Real.pi) * Real.exp (-2) := by
  obtain ⟨q, h1, h2, h3⟩ := C165_mask exPsf exPsf_proper { px := -3, py := 3 } 25 rfl 30 40 (by norm_num) none
    ⟨-1, 3, 2, 5, some (fun i j => !(i == 1 && j == 2))⟩
  refine ⟨q, h1, (h2 3 4).2 (by norm_num), fun h => ?_, ?_, ?_⟩
  · have := (h2 4 4).1 h
    norm_num at this
  · exact (h3 1 2 (by norm_num) (by norm_num)).1 _ rfl rfl
  · refine Eq.trans (((h3 0 0 (by norm_num) (by norm_num)).2 (fun set h => by injection h with h; subst h; rfl)).2 (by
      intro c hc
      simp only [exPsf, List.mem_singleton] at hc
      subst hc
      unfold distSq; norm_num)) ?_
    simp [densityMix, exPsf, density, distSq]
    norm_num

/-- With the radius of `computeRadius` and components centred on the star, what any pixel of the image lacks is below `exp(-12.5)` of the peaks of the
components (five standard deviations). -/
theorem C165_five_sigma (p : GPsf) (hm : ∀ c ∈ p.mog, Proper c) (h0 : ∀ c ∈ p.mog, c.mx = 0 ∧ c.my = 0) (r : ℝ)
    (hr : computeRadius p.mog = .ok r) (hp : p.radius = some r) (px py : ℝ) (H W : Nat) :
    ∃ res, starPatch p { px := px, py := py } H W (some 0) none = .ok res ∧
      ∀ x y, InImage H W x y →
        |densityMix p.mog (x - px) (y - py) - shown res x y| ≤ Real.exp (-(25 / 2)) * peaks p.mog := by
  have hpk : 0 ≤ peaks p.mog := by
    unfold peaks
    refine List.sum_nonneg (fun z hz => ?_)
    obtain ⟨c, _, rfl⟩ := List.mem_map.mp hz
    exact peak_nonneg c
  have hfar : ¬ ((some (0 : ℝ)).getD 0 > 0 ∨ (none : Option ℝ).isSome = true) := by simp
  -- pixels outside the square: the whole density is small; what is shown is the density or nothing
  obtain ⟨hr0, hr1⟩ := radius_ge hr
  have hout : ∀ x y : Int, ¬ Near px py r x y →
      |densityMix p.mog (x - px) (y - py)| ≤ Real.exp (-(25 / 2)) * peaks p.mog := by
    intro x y hn
    unfold densityMix peaks
    rw [mul_comm, ← map_sum_mul]
    refine abs_sum_le _ _ _ (fun c hc => ?_)
    obtain ⟨e1, e2⟩ := h0 c hc
    have hor : r ≤ |(x : ℝ) - px - c.mx| ∨ r ≤ |(y : ℝ) - py - c.my| := by
      rw [e1, e2, sub_zero, sub_zero]
      by_contra hcon
      push Not at hcon
      exact hn ⟨hcon.1.le, hcon.2.le⟩
    refine (density_out (hm c hc) _ _ r hr0 hor).trans (mul_le_mul_of_nonneg_left (Real.exp_le_exp.mpr ?_) (peak_nonneg c))
    have hpos := (distSq_ge (hm c hc) 0 0).1
    have := (le_div_iff₀ hpos).mpr (hr1 c hc hpos)
    linarith
  have hgrid : ∀ x y : Int, |densityMix p.mog (x - px) (y - py) - evaluateGrid p.mog px py x y| ≤ Real.exp (-(25 / 2)) * peaks p.mog :=
    fun x y => (C99_grid p.mog hm px py x y).1.trans (mul_le_mul_of_nonneg_right (Real.exp_le_exp.mpr (by norm_num)) hpk)
  by_cases hf : px + r < 0 ∨ px - r > W ∨ py + r < 0 ∨ py - r > H
  · refine ⟨none, ?_, fun x y hi => ?_⟩
    · unfold starPatch; simp only [hp, Option.none_or]; rw [if_pos hf]
    · rw [show shown none x y = 0 from rfl, sub_zero]
      refine hout x y (fun hn => ?_)
      obtain ⟨⟨a1, a2⟩, b1, b2⟩ := hi
      obtain ⟨n1, n2⟩ := hn
      rw [abs_le] at n1 n2
      have a1 : (0 : ℝ) ≤ x := by exact_mod_cast a1
      have a2 : (x : ℝ) < W := by exact_mod_cast a2
      have b1 : (0 : ℝ) ≤ y := by exact_mod_cast b1
      have b2 : (y : ℝ) < H := by exact_mod_cast b2
      rcases hf with h | h | h | h <;> linarith [n1.1, n1.2, n2.1, n2.2]
  set b : Box := ⟨max ⌊px - r⌋ 0, min (⌈px + r⌉ + 1) W, max ⌊py - r⌋ 0, min (⌈py + r⌉ + 1) H⟩ with hb
  have b0 : b.x0 = max ⌊px - r⌋ 0 := rfl
  have b1 : b.x1 = min (⌈px + r⌉ + 1) W := rfl
  have b2 : b.y0 = max ⌊py - r⌋ 0 := rfl
  have b3 : b.y1 = min (⌈py + r⌉ + 1) H := rfl
  have hrun : starPatch p { px := px, py := py } H W (some 0) none =
      if b.x0 ≥ b.x1 ∨ b.y0 ≥ b.y1 then .ok none else .ok (some (grid p.mog b px py)) := by
    unfold starPatch; simp only [hp, Option.none_or]; rw [if_neg hf]
    unfold pointSourcePatch; dsimp only
    rw [if_neg hfar, Option.none_or, hp]
    dsimp only
    rw [extent_clip]
  by_cases he : b.x0 ≥ b.x1 ∨ b.y0 ≥ b.y1
  · refine ⟨none, by rw [hrun, if_pos he], fun x y hi => ?_⟩
    rw [show shown none x y = 0 from rfl, sub_zero]
    refine hout x y (fun hn => ?_)
    have := near_box hi hn
    unfold Approx.Inside at this
    omega
  · refine ⟨_, by rw [hrun, if_neg he], fun x y hi => ?_⟩
    by_cases hI : Approx.Inside b.x0 b.x1 b.y0 b.y1 y x
    · rw [(shown_grid p.mog b px py x y).1 hI]; exact hgrid x y
    · rw [(shown_grid p.mog b px py x y).2 hI, sub_zero]
      exact hout x y (fun hn => hI (near_box hi hn))

/-- The PSF of unit variance with its radius computed: 5. -/
example : ∃ res, starPatch ⟨exPsf.mog, some 5⟩ { px := 5 / 2, py := 3 } 30 40 (some 0) none = .ok res ∧
    ∀ x y, InImage 30 40 x y → |densityMix exPsf.mog (x - 5 / 2) (y - 3) - shown res x y| ≤ Real.exp (-(25 / 2)) * peaks exPsf.mog :=
  C165_five_sigma ⟨exPsf.mog, some 5⟩ exPsf_proper (by simp [exPsf]) 5 (by simp [exPsf, computeRadius, maxEig]) rfl (5 / 2) 3 30 40

end Verif.Star
