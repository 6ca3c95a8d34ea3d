import Verif.Star.SeenSpec
import Verif.Gauss.PropsConv
import Verif.Gauss.PropsValue
import Verif.Prof.Lemmas

/-!
# Lemmas: a galaxy seen through a PSF of Gaussians
-/

namespace Verif.Star

open Verif.Mog (Comp Mix Mat convolve convolveOne applyAffine sandwich)
open Verif.Gauss Verif.Prof MeasureTheory Set

theorem density_continuous (c : Comp ℝ) : Continuous (fun p : ℝ × ℝ => density c p.1 p.2) := by
  unfold density distSq
  fun_prop

theorem density_abs (c : Comp ℝ) (x y : ℝ) : |density c x y| = density { c with amp := |c.amp| } x y := by
  unfold density distSq
  rw [abs_mul, abs_of_pos (Real.exp_pos _), abs_div, abs_of_nonneg (by positivity : (0 : ℝ) ≤ 2 * Real.pi * Real.sqrt (c.vxx * c.vyy - c.vxy ^ 2))]

/-- Two components, integrated over the plane. -/
theorem conv_plane {a b : Comp ℝ} (ha : Proper a) (hb : Proper b) (x y : ℝ) :
    Integrable (fun p : ℝ × ℝ => density a p.1 p.2 * density b (x - p.1) (y - p.2)) ∧
    ∫ p : ℝ × ℝ, density a p.1 p.2 * density b (x - p.1) (y - p.2) = density (join a b) x y := by
  have e : ∀ p : ℝ × ℝ, density a p.1 p.2 * density b (x - p.1) (y - p.2) = density b (x - p.1) (y - p.2) * density a p.1 p.2 := fun p => mul_comm _ _
  obtain ⟨h1, _, h3⟩ := conv_two hb ha x y
  have ha' : Proper { a with amp := |a.amp| } := ha
  have hb' : Proper { b with amp := |b.amp| } := hb
  obtain ⟨_, k2, _⟩ := conv_two hb' ha' x y
  have hint : Integrable (fun p : ℝ × ℝ => density b (x - p.1) (y - p.2) * density a p.1 p.2) := by
    have hc : Continuous (fun p : ℝ × ℝ => density b (x - p.1) (y - p.2) * density a p.1 p.2) := by
      have h := (density_continuous b).comp (by fun_prop : Continuous (fun p : ℝ × ℝ => (x - p.1, y - p.2)))
      exact h.mul (density_continuous a)
    refine (integrable_prod_iff' hc.aestronglyMeasurable).mpr ⟨Filter.Eventually.of_forall h1, ?_⟩
    refine k2.congr (Filter.Eventually.of_forall fun t => ?_)
    refine integral_congr_ae (Filter.Eventually.of_forall fun s => ?_)
    dsimp only
    rw [Real.norm_eq_abs, abs_mul, density_abs, density_abs]
  simp_rw [e]
  refine ⟨hint, ?_⟩
  have := integral_prod_symm _ hint
  rw [show (volume : Measure (ℝ × ℝ)) = volume.prod volume from rfl, this, h3]
  simp only [join, mul_comm, add_comm]

theorem conv_plane_mix {a : Comp ℝ} (ha : Proper a) (x y : ℝ) : ∀ m : Mix ℝ, (∀ b ∈ m, Proper b) →
    Integrable (fun p : ℝ × ℝ => density a p.1 p.2 * densityMix m (x - p.1) (y - p.2)) ∧
    ∫ p : ℝ × ℝ, density a p.1 p.2 * densityMix m (x - p.1) (y - p.2) = (m.map (fun b => density (join a b) x y)).sum
  | [], _ => by simp [densityMix]
  | b :: m, h => by
    obtain ⟨i1, i2⟩ := conv_plane ha (h b (by simp)) x y
    obtain ⟨j1, j2⟩ := conv_plane_mix ha x y m (fun c hc => h c (by simp [hc]))
    have e : ∀ p : ℝ × ℝ, density a p.1 p.2 * densityMix (b :: m) (x - p.1) (y - p.2) =
        density a p.1 p.2 * density b (x - p.1) (y - p.2) + density a p.1 p.2 * densityMix m (x - p.1) (y - p.2) := by
      intro p
      unfold densityMix
      rw [List.map_cons, List.sum_cons]
      ring
    simp_rw [e]
    exact ⟨i1.add j1, by rw [integral_add i1 j1, i2, j2, List.map_cons, List.sum_cons]⟩

/-- A component of the profile, placed. -/
noncomputable def place (T : Mat ℝ) (px py : ℝ) (c : Comp ℝ) : Comp ℝ := { sandwich T c with mx := c.mx + px, my := c.my + py }

theorem place_round {c : Comp ℝ} (hc : Round c) : c = ⟨c.amp, 0, 0, c.vxx, 0, 0, c.vxx⟩ := by
  obtain ⟨h1, h2, h3, h4, h5, _⟩ := hc
  cases c
  simp_all

theorem place_proper {c : Comp ℝ} (hc : Round c) (h0 : c.vxx ≠ 0) (T : Mat ℝ) (hT : det T ≠ 0) (px py : ℝ) : Proper (place T px py c) := by
  have hv : 0 < c.vxx := lt_of_le_of_ne hc.2.2.2.2.2 (Ne.symm h0)
  rw [place_round hc]
  generalize c.vxx = v at hv
  unfold Proper place sandwich
  dsimp only
  unfold det at hT
  refine ⟨by ring, ?_, ?_⟩
  · have : 0 < T.xx ^ 2 + T.xy ^ 2 := by
      rcases eq_or_ne T.xx 0 with h | h
      · have : T.xy ≠ 0 := by rintro h'; rw [h, h'] at hT; simp at hT
        positivity
      · positivity
    nlinarith
  · have : 0 < (T.xx * T.yy - T.xy * T.yx) ^ 2 := by positivity
    nlinarith [mul_pos (mul_pos hv hv) this]

/-- The light of one component. -/
theorem seenOf_eq {c : Comp ℝ} (hc : Round c) (T : Mat ℝ) (hT : det T ≠ 0) (m : Mix ℝ) (hm : ∀ b ∈ m, Proper b) (px py x y : ℝ) :
    seenOf (densityMix m) T px py x y c = (m.map (fun b => density (join (place T px py c) b) x y)).sum := by
  unfold seenOf
  by_cases h0 : c.vxx = 0
  · rw [if_pos h0]
    have e : ∀ b : Comp ℝ, density (join (place T px py c) b) x y = c.amp * density b (x - px) (y - py) := by
      intro b
      rw [place_round hc, h0]
      unfold density distSq join place sandwich
      dsimp only
      simp only [mul_zero, zero_mul, add_zero, zero_add, ← sub_sub]
      ring
    simp_rw [e]
    unfold densityMix
    rw [List.sum_map_mul_left]
  · rw [if_neg h0]
    have hv : 0 < c.vxx := lt_of_le_of_ne hc.2.2.2.2.2 (Ne.symm h0)
    rw [← (conv_plane_mix (place_proper hc h0 T hT px py) x y m hm).2]
    have hinj : Function.Injective (fun p => lin T p + (px, py)) := by
      intro p q h
      have h := add_right_cancel h
      rw [lin_apply, lin_apply] at h
      simp only [Prod.mk.injEq] at h
      obtain ⟨h1, h2⟩ := h
      unfold det at hT
      ext
      · apply mul_left_cancel₀ hT
        linear_combination T.yy * h1 - T.xy * h2
      · apply mul_left_cancel₀ hT
        linear_combination T.xx * h2 - T.yx * h1
    have hsurj : (fun p => lin T p + (px, py)) '' univ = univ := by
      rw [image_univ, range_eq_univ]
      intro q
      refine ⟨((T.yy * (q.1 - px) - T.xy * (q.2 - py)) / det T, (T.xx * (q.2 - py) - T.yx * (q.1 - px)) / det T), ?_⟩
      dsimp only
      rw [lin_apply]
      dsimp only
      ext
      · simp only [Prod.fst_add]
        field_simp
        unfold det; ring
      · simp only [Prod.snd_add]
        field_simp
        unfold det; ring
    have key := integral_image_eq_integral_abs_det_fderiv_smul volume MeasurableSet.univ
      (f := fun p => lin T p + (px, py)) (f' := fun _ => lin T) (fun z _ => ((lin T).hasFDerivAt.add_const (px, py)).hasFDerivWithinAt) hinj.injOn
      (fun p : ℝ × ℝ => density (place T px py c) p.1 p.2 * densityMix m (x - p.1) (y - p.2))
    rw [hsurj] at key
    simp only [Measure.restrict_univ] at key
    rw [key]
    congr 1
    ext u
    rw [lin_det, lin_apply, smul_eq_mul, ← mul_assoc]
    congr 1
    have hd := density_affine (a := c.amp) hv T hT (px, py) u.1 u.2
    have hp : place T px py c = { sandwich T ⟨c.amp, 0, 0, c.vxx, 0, 0, c.vxx⟩ with mx := 0 + px, my := 0 + py } := by
      conv_lhs => rw [place_round hc]
      rfl
    rw [hp]
    refine Eq.trans ?_ hd.symm
    conv_lhs => rw [place_round hc]
    unfold density distSq
    dsimp only
    have : Real.sqrt (c.vxx * c.vxx - 0 ^ 2) = c.vxx := by
      rw [show c.vxx * c.vxx - 0 ^ 2 = c.vxx ^ 2 by ring, Real.sqrt_sq hv.le]
    rw [this]
    congr 2
    field_simp
    ring

theorem sum_swap (f : Comp ℝ → Comp ℝ → ℝ) (a b : Mix ℝ) :
    (b.map (fun q => (a.map (fun p => f p q)).sum)).sum = (a.map (fun p => (b.map (fun q => f p q)).sum)).sum := by
  induction b with
  | nil => simp
  | cons q b ih => simp only [List.map_cons, List.sum_cons, ih, List.sum_map_add]

theorem densityMix_conv (a b : Mix ℝ) (x y : ℝ) : densityMix (convolve a b) x y = (b.map (fun q => (a.map (fun p => density (join p q) x y)).sum)).sum := by
  induction b with
  | nil => simp [convolve, densityMix]
  | cons q b ih =>
    unfold convolve at ih ⊢
    rw [List.flatMap_cons, densityMix_append, ih, List.map_cons, List.sum_cons]
    congr 1
    unfold densityMix convolveOne
    rw [List.map_map]
    rfl

/-- What is seen is the density of the placed profile convolved with the PSF. -/
theorem seen_eq {profile : Mix ℝ} (hp : ∀ c ∈ profile, Round c) (T : Mat ℝ) (hT : det T ≠ 0) (m : Mix ℝ) (hm : ∀ b ∈ m, Proper b)
    (px py x y : ℝ) : seen (densityMix m) profile T px py x y = densityMix (convolve (applyAffine profile (px, py) T) m) x y := by
  rw [densityMix_conv, sum_swap]
  unfold seen applyAffine
  rw [List.map_map]
  congr 1
  exact List.map_congr_left (fun c hc => seenOf_eq (hp c hc) T hT m hm px py x y)

/-- A placed component: symmetric, not negative. -/
theorem place_semi {c : Comp ℝ} (hc : Round c) (T : Mat ℝ) (px py : ℝ) {b : Comp ℝ} (hb : Proper b) :
    Proper (join (place T px py c) b) ∧ b.vxx * b.vyy - b.vxy ^ 2 ≤
      (join (place T px py c) b).vxx * (join (place T px py c) b).vyy - (join (place T px py c) b).vxy ^ 2 := by
  have hv := hc.2.2.2.2.2
  rw [place_round hc]
  generalize c.vxx = v at hv
  have hD := vyy_pos hb
  obtain ⟨h1, h2, h3⟩ := hb
  unfold place sandwich join Proper
  dsimp only
  have k1 : 0 ≤ v * (T.xx * T.yy - T.xy * T.yx) ^ 2 := by positivity
  set A := v * (T.xx ^ 2 + T.xy ^ 2) with hA
  set B := v * (T.xx * T.yx + T.xy * T.yy) with hB
  set D := v * (T.yx ^ 2 + T.yy ^ 2) with hDd
  have eA : (T.xx * v + T.xy * 0) * T.xx + (T.xx * 0 + T.xy * v) * T.xy = A := by rw [hA]; ring
  have eB : (T.xx * v + T.xy * 0) * T.yx + (T.xx * 0 + T.xy * v) * T.yy = B := by rw [hB]; ring
  have eB' : (T.yx * v + T.yy * 0) * T.xx + (T.yx * 0 + T.yy * v) * T.xy = B := by rw [hB]; ring
  have eD : (T.yx * v + T.yy * 0) * T.yx + (T.yx * 0 + T.yy * v) * T.yy = D := by rw [hDd]; ring
  rw [eA, eB, eB', eD]
  have hA0 : 0 ≤ A := by positivity
  have hD0 : 0 ≤ D := by positivity
  have hdet : 0 ≤ A * D - B ^ 2 := by
    have : A * D - B ^ 2 = v * (v * (T.xx * T.yy - T.xy * T.yx) ^ 2) := by rw [hA, hB, hDd]; ring
    rw [this]; positivity
  have k : 2 * (B * b.vxy) ≤ A * b.vyy + b.vxx * D := by
    have hs : (2 * (B * b.vxy)) ^ 2 ≤ (A * b.vyy + b.vxx * D) ^ 2 := by
      have e1 : B ^ 2 ≤ A * D := by linarith
      have e2 : b.vxy ^ 2 ≤ b.vxx * b.vyy := by linarith
      have e3 := mul_le_mul e1 e2 (sq_nonneg _) (by positivity)
      nlinarith [sq_nonneg (A * b.vyy - b.vxx * D)]
    exact (abs_le_of_sq_le_sq' hs (by positivity)).2
  have hfin : b.vxx * b.vyy - b.vxy ^ 2 ≤ (A + b.vxx) * (D + b.vyy) - (B + b.vxy) ^ 2 := by nlinarith
  exact ⟨⟨by rw [h1], by linarith, by linarith⟩, hfin⟩

theorem affine_proper {profile : Mix ℝ} (hp : ∀ c ∈ profile, Round c) (T : Mat ℝ) {m : Mix ℝ} (hm : ∀ b ∈ m, Proper b) (px py : ℝ) :
    ∀ c ∈ convolve (applyAffine profile (px, py) T) m, Proper c := by
  intro c hc
  obtain ⟨b, hb, hc⟩ := List.mem_flatMap.mp hc
  obtain ⟨a, ha, rfl⟩ := List.mem_map.mp hc
  obtain ⟨d, hd, rfl⟩ := List.mem_map.mp ha
  exact (place_semi (hp d hd) T px py (hm b hb)).1

/-- Spreading a profile lowers the peaks. -/
theorem peaks_conv {profile : Mix ℝ} (hp : ∀ c ∈ profile, Round c) (T : Mat ℝ) {m : Mix ℝ} (hm : ∀ b ∈ m, Proper b) (px py : ℝ) :
    peaks (convolve (applyAffine profile (px, py) T) m) ≤ (profile.map (fun c => |c.amp|)).sum * peaks m := by
  induction m with
  | nil => simp [convolve, peaks]
  | cons b m ih =>
    have ih := ih (fun c hc => hm c (by simp [hc]))
    have hb := hm b (by simp)
    have one : ∀ l : Mix ℝ, (∀ c ∈ l, Round c) → peaks (convolveOne (applyAffine l (px, py) T) b) ≤ (l.map (fun c => |c.amp|)).sum * peak b := by
      intro l hl
      induction l with
      | nil => simp [convolveOne, applyAffine, peaks]
      | cons c l ih =>
        have ih := ih (fun c hc => hl c (by simp [hc]))
        have h1 : peak (join (place T px py c) b) ≤ |c.amp| * peak b := by
          obtain ⟨_, h⟩ := place_semi (hl c (by simp)) T px py hb
          unfold peak
          rw [show (join (place T px py c) b).amp = c.amp * b.amp from rfl, abs_mul, mul_div_assoc]
          refine mul_le_mul_of_nonneg_left ?_ (abs_nonneg _)
          have hs := Real.sqrt_pos.mpr hb.2.2
          have hpi := Real.pi_pos
          exact div_le_div_of_nonneg_left (abs_nonneg _) (by positivity)
            (mul_le_mul_of_nonneg_left (Real.sqrt_le_sqrt h) (by positivity))
        have e : peaks (convolveOne (applyAffine (c :: l) (px, py) T) b) = peak (join (place T px py c) b) + peaks (convolveOne (applyAffine l (px, py) T) b) := rfl
        rw [e, List.map_cons, List.sum_cons]
        linarith
    have e : peaks (convolve (applyAffine profile (px, py) T) (b :: m)) =
        peaks (convolveOne (applyAffine profile (px, py) T) b) + peaks (convolve (applyAffine profile (px, py) T) m) := by
      unfold peaks convolve
      rw [List.flatMap_cons, List.map_append, List.sum_append]
    have e2 : peaks (b :: m) = peak b + peaks m := rfl
    rw [e, e2, mul_add]
    exact add_le_add (one profile hp) ih

/-- All the light is there. -/
theorem amps_conv (a b : Mix ℝ) : ((convolve a b).map (·.amp)).sum = (a.map (·.amp)).sum * (b.map (·.amp)).sum := by
  induction b with
  | nil => simp [convolve]
  | cons q b ih =>
    unfold convolve at ih ⊢
    rw [List.flatMap_cons, List.map_append, List.sum_append, ih, List.map_cons, List.sum_cons, mul_add]
    congr 1
    unfold convolveOne
    rw [List.map_map]
    induction a with
    | nil => simp
    | cons p a ih2 =>
      have e : (List.map ((fun x : Comp ℝ => x.amp) ∘ fun a => (⟨a.amp * q.amp, a.mx + q.mx, a.my + q.my, a.vxx + q.vxx, a.vxy + q.vxy, a.vyx + q.vyx, a.vyy + q.vyy⟩ : Comp ℝ)) a) =
        a.map (fun c => c.amp * q.amp) := rfl
      rw [List.map_cons, List.sum_cons, e, List.sum_map_mul_right, List.map_cons, List.sum_cons]
      dsimp only [Function.comp]
      ring

end Verif.Star
