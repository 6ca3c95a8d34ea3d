import Verif.Star.PropsMin

/-!
# C165: a galaxy of size zero is a star
-/

namespace Verif.Star

open Verif.Patches (Patch)
open Verif.Mog (Comp Mix)
open Verif.Gal (ModelMask)
open Verif.Gauss

/-- The sum of the densities of the components within a Mahalanobis distance. -/
noncomputable def kept (P : ℝ → Prop) [DecidablePred P] (m : Mix ℝ) (x y : ℝ) : ℝ :=
  ((m.filter (fun c => decide (P (distSq c x y)))).map (fun c => density c x y)).sum

theorem kept_cons (P : ℝ → Prop) [DecidablePred P] (c : Comp ℝ) (m : Mix ℝ) (x y : ℝ) :
    kept P (c :: m) x y = (if P (distSq c x y) then density c x y else 0) + kept P m x y := by
  unfold kept
  by_cases h : P (distSq c x y)
  · rw [List.filter_cons_of_pos (by simpa using h), List.map_cons, List.sum_cons, if_pos h]
  · rw [List.filter_cons_of_neg (by simpa using h), if_neg h, zero_add]

theorem kept_append (P : ℝ → Prop) [DecidablePred P] (a b : Mix ℝ) (x y : ℝ) : kept P (a ++ b) x y = kept P a x y + kept P b x y := by
  unfold kept
  rw [List.filter_append, List.map_append, List.sum_append]

/-- A galaxy all of whose components are points at `(px, py)`, against one component of the PSF. -/
theorem kept_one (P : ℝ → Prop) [DecidablePred P] (px py : ℝ) (b : Comp ℝ) (x y : ℝ) : ∀ g : Mix ℝ,
    (∀ a ∈ g, a.mx = px ∧ a.my = py ∧ a.vxx = 0 ∧ a.vxy = 0 ∧ a.vyx = 0 ∧ a.vyy = 0) →
    kept P (Mog.convolveOne g b) x y = (g.map (·.amp)).sum * (if P (distSq b (x - px) (y - py)) then density b (x - px) (y - py) else 0)
  | [], _ => by simp [Mog.convolveOne, kept]
  | a :: g, h => by
    obtain ⟨h1, h2, h3, h4, h5, h6⟩ := h a (by simp)
    have ih := kept_one P px py b x y g (fun a ha => h a (by simp [ha]))
    unfold Mog.convolveOne at ih ⊢
    rw [List.map_cons, kept_cons, ih, List.map_cons, List.sum_cons, h1, h2, h3, h4, h5, h6]
    simp only [zero_add]
    have hq : distSq ⟨a.amp * b.amp, px + b.mx, py + b.my, b.vxx, b.vxy, b.vyx, b.vyy⟩ x y = distSq b (x - px) (y - py) := by
      unfold distSq
      simp only [← sub_sub]
    have hd : density ⟨a.amp * b.amp, px + b.mx, py + b.my, b.vxx, b.vxy, b.vyx, b.vyy⟩ x y = a.amp * density b (x - px) (y - py) := by
      unfold density
      rw [hq]
      dsimp only
      ring
    rw [hq, hd]
    by_cases hP : P (distSq b (x - px) (y - py))
    · rw [if_pos hP, if_pos hP]; ring
    · rw [if_neg hP, if_neg hP]; ring

theorem kept_conv (P : ℝ → Prop) [DecidablePred P] (px py : ℝ) (g : Mix ℝ) (x y : ℝ)
    (h : ∀ a ∈ g, a.mx = px ∧ a.my = py ∧ a.vxx = 0 ∧ a.vxy = 0 ∧ a.vyx = 0 ∧ a.vyy = 0) : ∀ m : Mix ℝ,
    kept P (Mog.convolve g m) x y = (g.map (·.amp)).sum * kept P m (x - px) (y - py)
  | [] => by simp [Mog.convolve, kept]
  | b :: m => by
    have ih := kept_conv P px py g x y h m
    unfold Mog.convolve at ih ⊢
    rw [List.flatMap_cons, kept_append, ih, kept_one P px py b x y g h, kept_cons]
    ring

theorem conv_proper (px py : ℝ) {g m : Mix ℝ} (hm : ∀ c ∈ m, Proper c)
    (h : ∀ a ∈ g, a.mx = px ∧ a.my = py ∧ a.vxx = 0 ∧ a.vxy = 0 ∧ a.vyx = 0 ∧ a.vyy = 0) : ∀ c ∈ Mog.convolve g m, Proper c := by
  intro c hc
  unfold Mog.convolve Mog.convolveOne at hc
  obtain ⟨b, hb, hc⟩ := List.mem_flatMap.mp hc
  obtain ⟨a, ha, rfl⟩ := List.mem_map.mp hc
  obtain ⟨h1, h2, h3, h4, h5, h6⟩ := h a ha
  have := hm b hb
  unfold Proper at this ⊢
  dsimp only
  rw [h3, h4, h5, h6]
  simpa using this

theorem grid_kept {m : Mix ℝ} (hm : ∀ c ∈ m, Proper c) (fx fy : ℝ) (ix iy : Int) :
    evaluateGrid m fx fy ix iy = kept (fun d => d < 100) m (ix - fx) (iy - fy) := by
  unfold evaluateGrid kept
  rw [fold_filter _ (fun c => density c (ix - fx) (iy - fy)) (fun c => distSq c (ix - fx) (iy - fy) < 100) m 0
    (fun c hc r => gridTerm_eq (hm c hc) fx fy ix iy r), zero_add]

theorem masked_kept {m : Mix ℝ} (hm : ∀ c ∈ m, Proper c) (mask : Int → Int → Bool) (fx fy : ℝ) (x y : Int) :
    (masked m mask fx fy x y).1 = if mask y x then kept (fun d => (-30 : ℝ) ≤ -d / 2) m (x - fx) (y - fy) else 0 := by
  rw [masked_eq hm]
  by_cases h : mask y x
  · rw [if_pos h, if_pos h, evalDxy_eq hm]; rfl
  · rw [if_neg h, if_neg h]

/-- A galaxy whose basis is zero (an effective radius of zero) and whose profile adds up to `t`, in a mask, has in each pixel `t` times
what a star there has. -/
theorem C165_galaxy (E : Gal.Env ℝ) (hE : ∀ m r c, E.value m r c = evaluateGrid m 0 0 c r)
    (hE' : ∀ m r c, E.valueMasked m r c = (masked m (fun _ _ => true) 0 0 c r).1)
    (S : Gal.Scene ℝ) (g : Gal.Galaxy ℝ) (a : Gal.Args ℝ) (profile : Mix ℝ) (cdinv : Mog.Mat ℝ) (px py : ℝ)
    (hprof : ∀ c ∈ profile, c.mx = 0 ∧ c.my = 0) (hg : g.affine px py = Gal.hoggAffine profile cdinv ⟨0, 0, 0, 0⟩ px py)
    (p : GPsf) (hm : ∀ c ∈ p.mog, Proper c) (r : ℝ) (hr : p.radius = some r) (H W : Nat)
    (hin : 0 ≤ px + r ∧ px - r ≤ W ∧ 0 ≤ py + r ∧ py - r ≤ H) (minval : Option ℝ) (k : ModelMask) :
    ∃ qg qs, Gal.unitPatch E S (.gauss (fun _ _ => p.mog)) g a px py (some k) = .ok (some qg) ∧
      starPatch p { px := px, py := py } H W minval (some k) = .ok (some qs) ∧
      (∀ x y, InPatch qg x y ↔ InPatch qs x y) ∧
      ∀ x y, shown (some qg) x y = (profile.map (·.amp)).sum * shown (some qs) x y := by
  have hfar : ¬ (px + r < 0 ∨ px - r > W ∨ py + r < 0 ∨ py - r > H) := by
    push Not
    exact hin
  have haff : ∀ c ∈ g.affine px py, c.mx = px ∧ c.my = py ∧ c.vxx = 0 ∧ c.vxy = 0 ∧ c.vyx = 0 ∧ c.vyy = 0 := by
    rw [hg]
    intro c hc
    unfold Gal.hoggAffine Mog.applyAffine at hc
    obtain ⟨d, hd, rfl⟩ := List.mem_map.mp hc
    obtain ⟨e1, e2⟩ := hprof d hd
    simp [Mog.sandwich, Gal.dot, e1, e2]
  have hamp : ((g.affine px py).map (·.amp)).sum = (profile.map (·.amp)).sum := by
    rw [hg]
    unfold Gal.hoggAffine Mog.applyAffine
    rw [List.map_map]
    rfl
  have hcp := conv_proper px py hm haff
  have hstar : starPatch p { px := px, py := py } H W minval (some k) = .ok (some (match k.mask with
      | none => grid p.mog ⟨k.x0, k.x0 + k.w, k.y0, k.y0 + k.h⟩ px py
      | some set => gridMasked p.mog k set px py)) := by
    unfold starPatch; simp only [hr, Option.none_or]; rw [if_neg hfar]
    unfold pointSourcePatch; dsimp only
    cases k.mask <;> rfl
  have hgal : Gal.unitPatch E S (.gauss (fun _ _ => p.mog)) g a px py (some k) =
      .ok (some ⟨k.x0, k.y0, some (Gal.mogInMask E (Mog.convolve (g.affine px py) p.mog) k)⟩) := by
    unfold Gal.unitPatch
    dsimp only
    exact if_pos rfl
  have hG : ∀ x y : Int, evaluateGrid (Mog.convolve (g.affine px py) p.mog) 0 0 x y =
      (profile.map (·.amp)).sum * evaluateGrid p.mog px py x y := by
    intro x y
    rw [grid_kept hcp, grid_kept hm, kept_conv _ px py _ _ _ haff, hamp, sub_zero, sub_zero]
  have hM : ∀ (mask : Int → Int → Bool) (x y : Int), mask y x = true → (masked (Mog.convolve (g.affine px py) p.mog) (fun _ _ => true) 0 0 x y).1 =
      (profile.map (·.amp)).sum * (masked p.mog mask px py x y).1 := by
    intro mask x y h
    rw [masked_kept hcp, masked_kept hm, if_pos rfl, if_pos h, kept_conv _ px py _ _ _ haff, hamp, sub_zero, sub_zero]
  refine ⟨_, _, hgal, hstar, ?_, ?_⟩
  · intro x y
    cases k.mask with
    | none => unfold InPatch grid Gal.mogInMask; dsimp only; omega
    | some set => exact Iff.rfl
  · intro x y
    cases hk : k.mask with
    | none =>
      by_cases hI : Approx.Inside k.x0 (k.x0 + k.w) k.y0 (k.y0 + k.h) y x
      · dsimp only
        rw [(shown_grid p.mog _ px py x y).1 hI, ← hG]
        have hp : InPatch ⟨k.x0, k.y0, some (Gal.mogInMask E (Mog.convolve (g.affine px py) p.mog) k)⟩ x y := hI
        unfold shown
        dsimp only
        rw [if_pos hp]
        unfold Gal.mogInMask
        dsimp only
        rw [hk]
        dsimp only
        rw [hE]
        unfold Approx.Inside at hI
        rw [show k.x0 + ((x - k.x0).toNat : Int) = x by omega, show k.y0 + ((y - k.y0).toNat : Int) = y by omega]
      · dsimp only
        rw [(shown_grid p.mog _ px py x y).2 hI, mul_zero]
        have hp : ¬ InPatch ⟨k.x0, k.y0, some (Gal.mogInMask E (Mog.convolve (g.affine px py) p.mog) k)⟩ x y := hI
        unfold shown
        dsimp only
        rw [if_neg hp]
    | some set =>
      dsimp only
      by_cases hI : Approx.Inside k.x0 (k.x0 + k.w) k.y0 (k.y0 + k.h) y x
      · have hp : InPatch ⟨k.x0, k.y0, some (Gal.mogInMask E (Mog.convolve (g.affine px py) p.mog) k)⟩ x y := hI
        have hp' : InPatch (gridMasked p.mog k set px py) x y := hI
        unfold shown
        dsimp only
        rw [if_pos hp]
        have hgm : (gridMasked p.mog k set px py).patch = some ⟨k.h, k.w, fun r c =>
          (masked p.mog (fun y x => set (y - k.y0).toNat (x - k.x0).toNat) px py (k.x0 + c) (k.y0 + r)).1⟩ := rfl
        rw [hgm]
        dsimp only
        rw [if_pos hp']
        unfold Gal.mogInMask
        dsimp only
        rw [hk]
        dsimp only
        rw [hE']
        unfold Approx.Inside at hI
        have e1 : k.x0 + ((x - k.x0).toNat : Int) = x := by omega
        have e2 : k.y0 + ((y - k.y0).toNat : Int) = y := by omega
        have e3 : (gridMasked p.mog k set px py).x0 = k.x0 := rfl
        have e4 : (gridMasked p.mog k set px py).y0 = k.y0 := rfl
        rw [e3, e4, e1, e2]
        by_cases hset : set (y - k.y0).toNat (x - k.x0).toNat
        · rw [if_pos hset]
          exact hM _ x y hset
        · rw [if_neg hset, masked_kept hm]
          rw [if_neg hset, mul_zero]
      · have hp : ¬ InPatch ⟨k.x0, k.y0, some (Gal.mogInMask E (Mog.convolve (g.affine px py) p.mog) k)⟩ x y := hI
        have hp' : ¬ InPatch (gridMasked p.mog k set px py) x y := hI
        have hgm : (gridMasked p.mog k set px py).patch = some ⟨k.h, k.w, fun r c =>
          (masked p.mog (fun y x => set (y - k.y0).toNat (x - k.x0).toNat) px py (k.x0 + c) (k.y0 + r)).1⟩ := rfl
        unfold shown
        dsimp only
        rw [if_neg hp, hgm]
        dsimp only
        rw [if_neg hp', mul_zero]

/-- What the routines in C give, and nothing for what is not used here. -/
noncomputable def exEnv : Gal.Env ℝ :=
  { sqrt := Real.sqrt, lz := fun _ => 0, lib := true, junk := fun _ => 0, work := fun _ => 0, conv := fun _ _ _ _ => 0,
    value := fun m r c => evaluateGrid m 0 0 c r, valueMasked := fun m r c => (masked m (fun _ _ => true) 0 0 c r).1,
    approx := fun _ _ _ _ _ _ => .ok none }

/-- A galaxy of two components of total 1 and of size zero, in a mask of 4 by 5 pixels. -/
example : ∃ qg qs, Gal.unitPatch exEnv ⟨30, 40, fun _ _ => 1⟩ (.gauss (fun _ _ => exPsf.mog))
      ⟨fun px py => Gal.hoggAffine [⟨1 / 4, 0, 0, 1, 0, 0, 1⟩, ⟨3 / 4, 0, 0, 2, 0, 0, 2⟩] ⟨-1, 0, 0, 1⟩ ⟨0, 0, 0, 0⟩ px py, fun _ _ => [], 1,
        fun _ _ => 1⟩ ⟨none, false, none⟩ 5 6 (some ⟨3, 4, 4, 5, none⟩) = .ok (some qg) ∧
    starPatch exPsf { px := 5, py := 6 } 30 40 none (some ⟨3, 4, 4, 5, none⟩) = .ok (some qs) ∧
    ∀ x y, shown (some qg) x y = shown (some qs) x y := by
  obtain ⟨qg, qs, h1, h2, _, h4⟩ := C165_galaxy exEnv (fun _ _ _ => rfl) (fun _ _ _ => rfl) ⟨30, 40, fun _ _ => 1⟩
      ⟨fun px py => Gal.hoggAffine [⟨1 / 4, 0, 0, 1, 0, 0, 1⟩, ⟨3 / 4, 0, 0, 2, 0, 0, 2⟩] ⟨-1, 0, 0, 1⟩ ⟨0, 0, 0, 0⟩ px py, fun _ _ => [], 1,
        fun _ _ => 1⟩ ⟨none, false, none⟩ [⟨1 / 4, 0, 0, 1, 0, 0, 1⟩, ⟨3 / 4, 0, 0, 2, 0, 0, 2⟩] ⟨-1, 0, 0, 1⟩ 5 6 (by simp) rfl exPsf
      exPsf_proper 25 rfl 30 40 (by norm_num) none ⟨3, 4, 4, 5, none⟩
  refine ⟨qg, qs, h1, h2, fun x y => ?_⟩
  rw [h4]
  norm_num

end Verif.Star
