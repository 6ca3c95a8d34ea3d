import Verif.Em.Lemmas4
import Verif.Em.Props

namespace Verif.Em

open Verif
open Verif.Mog (Comp Mix)
open Verif.Gauss

/-! ## C104 without regularisation -/

/-- **C104, any regularisation.** Also with `alpha = 0` (the default): if the fit succeeds with numbers and without a singular covariance at
the end, and all the light was within ten standard deviations of every component before every step, the posterior has not become worse. -/
theorem C104_plain {alpha : ℝ} (ha : 0 ≤ alpha) (img : Arr ℝ) (x0 y0 : Int) (hpx : Nonneg (pixels img x0 y0)) (m : Mix ℝ) (hm : Good m)
    (n : Nat) (hn : ∀ j < n, ∀ m', fitReg img x0 y0 alpha j (m.map some) = (m'.map some, true) → Near (pixels img x0 y0) m')
    (m' : Mix ℝ) (h : fitReg img x0 y0 alpha n (m.map some) = (m'.map some, true)) (hd : ∀ c ∈ m', 0 < c.vxx * c.vyy - c.vxy * c.vyx) :
    Good m' ∧ logPost alpha 0 (pixels img x0 y0) m ≤ logPost alpha 0 (pixels img x0 y0) m' := by
  induction n generalizing m' with
  | zero =>
    have : m = m' := (List.map_injective_iff.2 (Option.some_injective _)) (Prod.mk.inj h).1
    subst this
    exact ⟨hm, le_rfl⟩
  | succ n ih =>
    obtain ⟨m1, h1, g1, h2⟩ := run_good ha hpx hm n h
    have d1 : ∀ c ∈ m1, 0 < c.vxx * c.vyy - c.vxy * c.vyx := fun c hc => good_detOK g1 (some c) (List.mem_map_of_mem hc)
    have i := ih (fun j hj => hn j (Nat.lt_succ_of_lt hj)) m1 h1 d1
    exact ⟨step_good ha hpx g1 h2 (Or.inr hd),
      i.2.trans (step_ascent ha hpx g1 h2 (Or.inr hd) (hn n (Nat.lt_succ_self n) m1 h1))⟩

/-! ## C105 -/

/-- **C105, the result of a fit.** After one or more steps of a successful fit (with numbers as results) to an image without negative pixels:
every amplitude is positive, every mean is inside the image, every covariance is symmetric and in every direction at least
`alpha / (flux + alpha)`; the amplitudes add up to the light of the pixels within reach of the mixture before the last step, so at most to the
flux of the image. -/
theorem C105_fit {alpha : ℝ} (ha : 0 ≤ alpha) (img : Arr ℝ) (x0 y0 : Int) (hpx : Nonneg (pixels img x0 y0)) (m : Mix ℝ) (hm : Good m)
    (n : Nat) (m' : Mix ℝ) (h : fitReg img x0 y0 alpha (n + 1) (m.map some) = (m'.map some, true)) :
    (∀ c ∈ m', 0 < c.amp ∧ ((x0 : ℝ) ≤ c.mx ∧ c.mx ≤ x0 + img.w - 1) ∧ ((y0 : ℝ) ≤ c.my ∧ c.my ≤ y0 + img.h - 1) ∧ c.vxy = c.vyx ∧
      ∀ a b : ℝ, alpha / (flux (pixels img x0 y0) + alpha) * (a ^ 2 + b ^ 2) ≤ c.vxx * a ^ 2 + 2 * c.vxy * (a * b) + c.vyy * b ^ 2) ∧
    (m'.map (fun c => c.amp)).sum ≤ flux (pixels img x0 y0) ∧
    ∃ m1, fitReg img x0 y0 alpha n (m.map some) = (m1.map some, true) ∧
      ∀ lit : Px → Bool, (∀ p, lit p = true ↔ Lit m1 p.x p.y) →
        (m'.map (fun c => c.amp)).sum = flux ((pixels img x0 y0).filter lit) := by
  obtain ⟨m1, h1, g1, h2⟩ := run_good ha hpx hm n h
  obtain ⟨rfl, hw⟩ := step_ok h2
  have hs := amps_sum (alpha := alpha) (px := pixels img x0 y0) g1
  refine ⟨?_, ?_, m1, h1, ?_⟩
  · intro c' hc'
    obtain ⟨c, hc, rfl⟩ := List.mem_map.1 hc'
    have hw0 : ∀ p ∈ pixels img x0 y0, 0 ≤ weight m1 c p := fun p hp => weight_nonneg hpx g1 hc p hp
    obtain ⟨e1, e2, e3, -, -, -, e7⟩ := updated_eqs alpha _ m1 c (hw c hc).1 (hw c hc).2
    have hA : 0 < (updated alpha (pixels img x0 y0) m1 c).amp := by
      refine lt_of_le_of_ne ?_ (Ne.symm (hw c hc).1)
      rw [← e1]
      exact mom_nonneg _ _ _ hw0 (fun _ _ => zero_le_one)
    exact ⟨hA, mean_between (weight m1 c) (fun p => p.x) hw0 _ hA e1 _ _ (fun p hp => ⟨(pixels_box hp).1, (pixels_box hp).2.1⟩) _ e2,
      mean_between (weight m1 c) (fun p => p.y) hw0 _ hA e1 _ _ (fun p hp => ⟨(pixels_box hp).2.2.1, (pixels_box hp).2.2.2⟩) _ e3, e7,
      updated_width ha hpx g1 hc (hw c hc).1⟩
  · rw [hs]
    refine sum_le _ _ _ (fun p hp => ?_)
    split
    · exact hpx p hp
    · exact le_rfl
  · intro lit hl
    rw [hs]
    unfold flux
    generalize pixels img x0 y0 = px
    induction px with
    | nil => rfl
    | cons p px ih =>
      rw [List.map_cons, List.sum_cons, ih, List.filter_cons]
      by_cases hp : Lit m1 p.x p.y
      · rw [if_neg (by rw [cut_zero_iff g1, not_not]; exact hp), if_pos ((hl p).2 hp), List.map_cons, List.sum_cons]
      · rw [if_pos ((cut_zero_iff g1 _ _).2 hp), if_neg (fun h => hp ((hl p).1 h)), zero_add]

/-- **C105, PSF from a stamp.** The amplitudes of `fromStamp(stamp, N, alpha=alpha, emsteps=n+1)` add up to the positive light of the stamp
divided by the sum of the stamp, if that sum is positive and all positive light was near before the last step. -/
theorem C105_stamp_partial {alpha : ℝ} (ha : 0 ≤ alpha) (stamp : Arr ℝ) (ht : 0 < total stamp) (N : Nat) (hN : 0 < N) (n : Nat) (m1 m' : Mix ℝ)
    (h1 : fitReg (prepared stamp) (-((stamp.w : Int) / 2)) (-((stamp.h : Int) / 2)) alpha n ((initParams N).map some) = (m1.map some, true))
    (hn : Near (pixels (prepared stamp) (-((stamp.w : Int) / 2)) (-((stamp.h : Int) / 2))) m1)
    (h : fitReg (prepared stamp) (-((stamp.w : Int) / 2)) (-((stamp.h : Int) / 2)) alpha (n + 1) ((initParams N).map some) =
      (m'.map some, true)) :
    fromStamp stamp N none none alpha (n + 1) = m'.map some ∧
      (m'.map (fun c => c.amp)).sum = (stamp.ravel.map (fun v => max v 0)).sum / total stamp := by
  refine ⟨?_, ?_⟩
  · unfold fromStamp
    simp only [Option.getD_none, h]
  have hpx : Nonneg (pixels (prepared stamp) (-((stamp.w : Int) / 2)) (-((stamp.h : Int) / 2))) := by
    intro p hp
    obtain ⟨iy, _, ix, _, rfl⟩ := mem_pixels.1 hp
    exact le_max_right _ _
  obtain ⟨m2, h2, g2, h3⟩ := run_good ha hpx (init_good N hN) n h
  have e : m2 = m1 := (List.map_injective_iff.2 (Option.some_injective _)) (Prod.mk.inj (h2.symm.trans h1)).1
  subst e
  have hne : m2 ≠ [] := by
    have hlen : ∀ k (m3 : Mix ℝ), run alpha (pixels (prepared stamp) (-((stamp.w : Int) / 2)) (-((stamp.h : Int) / 2))) k
        ((initParams N).map some) = (m3.map some, true) → m3.length = N := by
      intro k
      induction k with
      | zero =>
        intro m3 h3
        have := (Prod.mk.inj h3).1
        have := congrArg List.length this
        simpa [initParams] using this.symm
      | succ k ih =>
        intro m3 h3
        obtain ⟨m4, h4, -, h5⟩ := run_good ha hpx (init_good N hN) k h3
        rw [(step_ok h5).1, List.length_map]
        exact ih m4 h4
    intro h0
    have := hlen n m2 h1
    rw [h0] at this
    simp at this
    omega
  obtain ⟨c0, hc0⟩ := List.exists_mem_of_ne_nil m2 hne
  rw [(step_ok h3).1, amps_sum g2]
  have e1 : ((pixels (prepared stamp) (-((stamp.w : Int) / 2)) (-((stamp.h : Int) / 2))).map
      (fun p => if cutMix (fun _ => 100) m2 p.x p.y = 0 then 0 else p.v)).sum =
      ((pixels (prepared stamp) (-((stamp.w : Int) / 2)) (-((stamp.h : Int) / 2))).map (fun p => id p.v)).sum := by
    refine sum_congr _ _ _ (fun p hp => ?_)
    rcases (hpx p hp).eq_or_lt with h0 | h0
    · rw [id, ← h0, ite_self]
    · rw [if_neg, id]
      rw [cut_zero_iff g2, not_not]
      exact ⟨c0, hc0, hn p hp h0 c0 hc0⟩
  rw [e1, flux_pixels]
  have e2 : (prepared stamp).ravel = stamp.ravel.map (fun v => max (v / total stamp) 0) := by
    unfold prepared Arr.ravel
    rw [List.map_flatMap]
    simp only [Arr.map, List.map_map]
    rfl
  rw [e2, List.map_map, div_eq_inv_mul, ← sum_mul]
  refine sum_congr _ _ _ (fun v _ => ?_)
  simp only [Function.comp, id]
  rw [← div_eq_inv_mul, max_div_div_right ht.le v 0 |>.symm, zero_div]

/-! ### Where it fails -/

/-- A stamp with a negative pixel. -/
noncomputable def exStamp : Arr ℝ := ⟨2, 2, fun r c => if r = 1 ∧ c = 1 then -1 else 1⟩

theorem exStamp_total : total exStamp = 2 := by
  simp only [total, Arr.ravel, exStamp, List.range_succ, List.range_zero]
  norm_num

/-- **C105, flux of a PSF (negation).** A stamp is normalised before its negative pixels are set to zero: with negative pixels the flux of the
PSF is not 1.  For `[[1, 1], [1, -1]]` it is 3/2 after any number of steps. -/
theorem C105_unit_false (n : Nat) : ∃ m' : Mix ℝ, fromStamp exStamp 2 none none 1 (n + 1) = m'.map some ∧ (m'.map (fun c => c.amp)).sum = 3 / 2 := by
  have hpx : Nonneg (pixels (prepared exStamp) (-((exStamp.w : Int) / 2)) (-((exStamp.h : Int) / 2))) := by
    intro p hp
    obtain ⟨iy, _, ix, _, rfl⟩ := mem_pixels.1 hp
    exact le_max_right _ _
  have hl : ∃ p ∈ pixels (prepared exStamp) (-((exStamp.w : Int) / 2)) (-((exStamp.h : Int) / 2)), 0 < p.v := by
    refine ⟨_, mem_pixels.2 ⟨0, by decide, 0, by decide, rfl⟩, ?_⟩
    simp only [prepared, Arr.map, exStamp_total]
    norm_num [exStamp]
  have hf : flux (pixels (prepared exStamp) (-((exStamp.w : Int) / 2)) (-((exStamp.h : Int) / 2))) = 3 / 2 := by
    unfold flux
    have := flux_pixels (prepared exStamp) (-((exStamp.w : Int) / 2)) (-((exStamp.h : Int) / 2)) id
    simp only [id] at this
    rw [this]
    simp only [prepared, Arr.map, exStamp_total, Arr.ravel]
    simp only [exStamp, List.range_succ, List.range_zero]
    norm_num
  have hs : (((prepared exStamp).w : ℝ) ^ 2 + ((prepared exStamp).h : ℝ) ^ 2) *
      (flux (pixels (prepared exStamp) (-((exStamp.w : Int) / 2)) (-((exStamp.h : Int) / 2))) + 1) ≤ 100 * 1 := by
    rw [hf]
    norm_num [prepared, Arr.map, exStamp]
  have hn : Near (pixels (prepared exStamp) (-((exStamp.w : Int) / 2)) (-((exStamp.h : Int) / 2))) (initParams 2) := by
    intro p hp _ c hc
    obtain ⟨iy, h1, ix, h2, rfl⟩ := mem_pixels.1 hp
    obtain ⟨i, hi, rfl⟩ := List.mem_map.1 hc
    have a : ix = 0 ∨ ix = 1 := by have : ix < 2 := h2; omega
    have b : iy = 0 ∨ iy = 1 := by have : iy < 2 := h1; omega
    have k : i = 0 ∨ i = 1 := by have := List.mem_range.1 hi; omega
    rcases a with rfl | rfl <;> rcases b with rfl | rfl <;> rcases k with rfl | rfl <;> norm_num [distSq, exStamp]
  have all := strong_all one_pos hpx hl hs (init_good 2 (by norm_num)) hn
  obtain ⟨m1, h1, -, near⟩ := all n
  obtain ⟨m', h2, -, -⟩ := all (n + 1)
  obtain ⟨f1, f2⟩ := C105_stamp_partial zero_le_one exStamp (by rw [exStamp_total]; norm_num) 2 (by norm_num) n m1 m' h1 near h2
  refine ⟨m', f1, f2.trans ?_⟩
  rw [exStamp_total]
  simp only [Arr.ravel, exStamp, List.range_succ, List.range_zero]
  norm_num

/-- **C105, collapse (negation).** With `alpha = 0`, the default, light that lies on a line (a single pixel, one row) makes all covariances
singular in the first step; from then on the fit fails, and leaves them so. -/
theorem C105_collapse_false (px : List Px) (hpx : Nonneg px) (m : Mix ℝ) (hm : Good m) (hne : m ≠ []) (a b k : ℝ) (hab : a ≠ 0 ∨ b ≠ 0)
    (hl : ∀ p ∈ px, 0 < p.v → a * p.x + b * p.y = k) (hn : ∀ c ∈ m, ∃ p ∈ px, 0 < p.v ∧ distSq c p.x p.y < 100) (n : Nat) :
    ∃ m' : Mix ℝ, run 0 px (n + 2) (m.map some) = (m'.map some, false) ∧ m'.length = m.length ∧
      ∀ c ∈ m', c.vxx * c.vyy - c.vxy * c.vyx = 0 := by
  have hs := step_succeeds le_rfl hpx hm hn
  have hd : ∀ c ∈ m.map (updated 0 px m), c.vxx * c.vyy - c.vxy * c.vyx = 0 := by
    intro c' hc'
    obtain ⟨c, hc, rfl⟩ := List.mem_map.1 hc'
    obtain ⟨p, hp, hv, hdist⟩ := hn c hc
    have hA := amp_pos hpx hm hc hp hv hdist
    obtain ⟨e1, e2, e3, e4, e5, e6, e7⟩ := updated_eqs 0 px m c hA.ne' (by linarith)
    have ld := line_det px (weight m c) _ hA e1 _ _ e2 e3 a b k hab (fun p hp hw => hl p hp (by
      rcases (hpx p hp).eq_or_lt with h0 | h0
      · exact absurd (by rw [weight, ← h0, zero_mul]) hw
      · exact h0))
    rw [zero_add] at e4 e6
    rw [← e4, ← e5, ← e6] at ld
    rw [← e7]
    simp only [add_zero] at ld
    change 0 < (updated 0 px m c).amp at hA
    generalize updated 0 px m c = c' at *
    have : c'.amp ^ 2 * (c'.vxx * c'.vyy - c'.vxy * c'.vxy) = 0 := by linear_combination ld
    rcases mul_eq_zero.1 this with h | h
    · exact absurd h (by positivity)
    · exact h
  refine ⟨m.map (updated 0 px m), ?_, List.length_map .., hd⟩
  rw [run, hs]
  simp only
  rw [run]
  have : step 0 px ((m.map (updated 0 px m)).map some) = none := by
    unfold step
    rw [if_neg]
    intro h
    obtain ⟨c, hc⟩ := List.exists_mem_of_ne_nil (m.map (updated 0 px m)) (by simpa using hne)
    have h1 := h (some c) (List.mem_map_of_mem hc)
    simp only [detOK, hd c hc, lt_irrefl] at h1
  rw [this]

/-- The PSF of a stamp that is a single bright pixel: its covariances are singular. -/
example (n : Nat) : ∃ m' : Mix ℝ, fromStamp ⟨1, 1, fun _ _ => 3⟩ 2 none none 0 (n + 2) = m'.map some ∧ m'.length = 2 ∧
    ∀ c ∈ m', c.vxx * c.vyy - c.vxy * c.vyx = 0 := by
  have ht : total ⟨1, 1, fun _ _ => 3⟩ = 3 := by norm_num [total, Arr.ravel, List.range_succ, List.range_zero]
  have hp : pixels (prepared ⟨1, 1, fun _ _ => 3⟩) 0 0 = [⟨0, 0, 1⟩] := by
    simp only [pixels, prepared, Arr.map, ht, List.range_succ, List.range_zero]
    norm_num
  obtain ⟨m', h1, h2, h3⟩ := C105_collapse_false [⟨0, 0, 1⟩] (by simp [Nonneg]) (initParams 2) (init_good 2 (by norm_num))
    (by simp [initParams]) 1 0 0 (Or.inl one_ne_zero) (by simp) (by
      intro c hc
      obtain ⟨i, hi, rfl⟩ := List.mem_map.1 hc
      exact ⟨_, List.mem_singleton_self _, one_pos, by norm_num [distSq]⟩) n
  refine ⟨m', ?_, by simpa [initParams] using h2, h3⟩
  unfold fromStamp fitReg
  simp only [Option.getD_none]
  rw [show (-(((1 : Nat) : Int) / 2)) = 0 by decide, hp, h1]

/-- **C105, lost components (negation).** A component ten standard deviations or more from all light makes everything not a number from the
second step on, and the fit is reported as successful. -/
theorem C105_nan_false {alpha : ℝ} (ha : 0 < alpha) (px : List Px) (hpx : Nonneg px) (m : Mix ℝ) (hm : Good m) (c0 : Comp ℝ) (hc0 : c0 ∈ m)
    (hfar : ∀ p ∈ px, 0 < p.v → 100 ≤ distSq c0 p.x p.y) (n : Nat) :
    run alpha px (n + 2) (m.map some) = (m.map (fun _ => none), true) := by
  have h0 : wsum px m c0 (fun _ => 1) = 0 := by
    refine sum_zero _ _ (fun p hp => ?_)
    rw [mul_one, weight_eq hm hc0]
    rcases (hpx p hp).eq_or_lt with h | h
    · rw [← h, zero_mul, zero_div]
    · rw [share, if_neg (not_lt.2 (hfar p hp h)), mul_zero, zero_div]
  have s1 : step alpha px (m.map some) = some (m.map (update alpha px m)) := by
    unfold step
    rw [if_pos (good_detOK hm), all_some]
  have n1 : update alpha px m c0 = none := if_pos (Or.inl h0)
  have s2 : step alpha px (m.map (update alpha px m)) = some (m.map (fun _ => none)) := by
    unfold step
    rw [if_pos]
    · have : State.all (m.map (update alpha px m)) = none := by
        cases h : State.all (m.map (update alpha px m)) with
        | none => rfl
        | some l =>
          have e := all_of_some h
          have : (none : Option (Comp ℝ)) ∈ l.map some := by
            rw [← e, ← n1]; exact List.mem_map_of_mem hc0
          obtain ⟨d, -, hd⟩ := List.mem_map.1 this
          cases hd
      rw [this]
      refine congrArg some ?_
      change (m.map (update alpha px m)).map (fun _ => none) = _
      rw [List.map_map]
      rfl
    · intro o ho
      obtain ⟨c, hc, rfl⟩ := List.mem_map.1 ho
      unfold update
      split
      · trivial
      · rename_i hne
        rw [not_or] at hne
        have hw0 : ∀ p ∈ px, 0 ≤ weight m c p := fun p hp => weight_nonneg hpx hm hc p hp
        obtain ⟨e1, e2, e3, e4, e5, e6, e7⟩ := updated_eqs alpha px m c hne.1 hne.2
        have hA : 0 < (updated alpha px m c).amp := by
          refine lt_of_le_of_ne ?_ (Ne.symm hne.1)
          rw [← e1]
          exact mom_nonneg _ _ _ hw0 (fun _ _ => zero_le_one)
        obtain ⟨p1, p2, p3⟩ := proper_of_moments px _ hw0 alpha ha.le _ _ _ hA e4 e5 e6 e7 (Or.inl ha)
        simp only [detOK]
        rw [← p1]
        linarith [pow_two (updated alpha px m c).vxy]
  rw [run, s1]
  simp only
  rw [run, s2]
  simp only
  refine run_none _ ?_ ?_ n
  · have := List.ne_nil_of_mem hc0
    simpa using this
  · intro c hc
    obtain ⟨d, -, rfl⟩ := List.mem_map.1 hc
    rfl

/-- One pixel, two components, one of them far away. -/
example (n : Nat) : run 1 [⟨0, 0, 1⟩] (n + 2) [some ⟨1, 0, 0, 1, 0, 0, 1⟩, some ⟨1, 10, 0, 1, 0, 0, 1⟩] = ([none, none], true) := by
  refine C105_nan_false one_pos [⟨0, 0, 1⟩] (by simp [Nonneg]) [⟨1, 0, 0, 1, 0, 0, 1⟩, ⟨1, 10, 0, 1, 0, 0, 1⟩] ?_ ⟨1, 10, 0, 1, 0, 0, 1⟩
    (by simp) ?_ n
  · intro c hc
    simp only [List.mem_cons, List.not_mem_nil, or_false] at hc
    rcases hc with rfl | rfl <;> norm_num [Proper]
  · intro p hp _
    simp only [List.mem_cons, List.not_mem_nil, or_false] at hp
    subst hp
    norm_num [distSq]

/-- The example of C104. -/
example (n : Nat) : ∃ m' : Mix ℝ, fitReg exImg (-1) (-1) 1 (n + 1) ((initParams 2).map some) = (m'.map some, true) ∧
    ∀ c ∈ m', 1 / 2 * ((1 : ℝ) ^ 2 + 0 ^ 2) ≤ c.vxx * 1 ^ 2 + 2 * c.vxy * (1 * 0) + c.vyy * 0 ^ 2 := by
  obtain ⟨m', h, -⟩ := strong_all one_pos exImg_nonneg exImg_light (by rw [exImg_flux]; norm_num [exImg]) (init_good 2 (by norm_num)) exImg_near
    (n + 1)
  refine ⟨m', h, fun c hc => ?_⟩
  have := ((C105_fit zero_le_one exImg (-1) (-1) exImg_nonneg (initParams 2) (init_good 2 (by norm_num)) n m' h).1 c hc).2.2.2.2 1 0
  rw [exImg_flux] at this
  norm_num at this ⊢
  exact this

end Verif.Em
