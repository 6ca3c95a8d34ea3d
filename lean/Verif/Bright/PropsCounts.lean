import Verif.Bright.Props
import Verif.Bright.PropsBands

/-!
# C88: counts of sums, multiples and converted brightnesses; copies (C87)
-/

namespace Verif.Bright

open Verif

/-- The result of an operation by bands. -/
theorem op_ok {c : Cls} {o : MB F} (h : Reach c o) (f : String → Except PyErr F) (g : String → F)
    (hf : ∀ b ∈ o.order, f b = .ok (g b)) :
    ∃ s, perBand c o f = (c, .ok s) ∧ s.order = o.order ∧ s.liquid = List.replicate o.order.length true ∧
      ∀ b ∈ o.order, getBand c s b = .ok (g b) := by
  have hc := addNames_eq c o.order h.wf.props
  refine ⟨⟨o.order, o.order.map g, List.replicate o.order.length true, []⟩, ?_, rfl, rfl, fun b hb => ?_⟩
  · have := perBand_ok c o f g hf
    rw [hc] at this
    exact this
  · have := getBand_new c o.order g (List.replicate o.order.length true) [] b hb
    rw [hc] at this
    exact this

/-- The value of a band. -/
theorem get_ok {c : Cls} {o : MB F} (h : Reach c o) {b : String} (hb : b ∈ o.order) : ∃ v, getBand c o b = .ok v := by
  obtain ⟨hi, hg⟩ := getBand_in h.wf hb
  exact ⟨_, hg⟩

/-- The value of a band, chosen. -/
noncomputable def valOf (c : Cls) (o : MB F) (b : String) : F := ((getBand c o b).toOption).getD .nan

theorem get_val {c : Cls} {o : MB F} (h : Reach c o) {b : String} (hb : b ∈ o.order) : getBand c o b = .ok (valOf c o b) := by
  obtain ⟨v, hv⟩ := get_ok h hb
  simp [valOf, hv, Except.toOption]

/-- The sum of magnitudes: in each band the fluxes add up. -/
theorem C88_mags_add {c : Cls} {o p : MB F} (ho : Reach c o) (hp : Reach c p) (hsub : ∀ b ∈ o.order, b ∈ p.order) :
    ∃ s, magsAdd c o p = (c, .ok s) ∧ s.order = o.order ∧
      ∀ b ∈ o.order, ∀ m1 m2 f1 f2, getBand c o b = .ok m1 → getBand c p b = .ok m2 → fluxOf m1 = some f1 → fluxOf m2 = some f2 →
        ∃ m, getBand c s b = .ok m ∧ fluxOf m = some (f1 + f2) := by
  obtain ⟨s, h1, h2, -, h4⟩ := op_ok ho (both c o c p magSum) (fun b => magSum (valOf c o b) (valOf c p b)) (fun b hb => by
    simp only [both, get_val ho hb, get_val hp (hsub b hb)]; rfl)
  refine ⟨s, h1, h2, fun b hb m1 m2 f1 f2 e1 e2 g1 g2 => ⟨_, h4 b hb, ?_⟩⟩
  rw [get_val ho hb] at e1
  rw [get_val hp (hsub b hb)] at e2
  injection e1 with e1; injection e2 with e2
  rw [e1, e2]
  exact C43_sum m1 m2 f1 f2 g1 g2

/-- A sum with an object lacking one of the bands fails. -/
theorem C88_add_missing {c : Cls} {o p : MB F} (hpa : p.attrs = []) (b : String) (hb : b ∈ o.order) (ho : Reach c o)
    (hbp : b ∉ p.order) :
    (∃ e, magsAdd c o p = (c, .error e)) ∧ (∃ e, fluxesAdd c o p = (c, .error e)) := by
  have herr : getBand c p b = .error .key := by rw [C87_missing c p b hpa hbp, if_pos (ho.wf.props b hb)]
  have key : ∀ f : F → F → F, ∃ e, perBand c o (both c o c p f) = (c, .error e) := by
    intro f
    obtain ⟨e, he⟩ := mapM_err o.order (fun band => (both c o c p f band).map (fun v => (band, v))) b hb .key (by
      simp only [both, get_val ho hb, herr]; rfl)
    exact ⟨e, by unfold perBand; rw [he]⟩
  exact ⟨key magSum, key Num.add⟩

/-- A multiple of magnitudes: the flux in each band is multiplied by the absolute value. -/
theorem C88_mags_mul {c : Cls} {o : MB F} (ho : Reach c o) (k : ℝ) :
    ∃ s, magsMul c o (.fin k) = (c, .ok s) ∧ s.order = o.order ∧
      ∀ b ∈ o.order, ∀ m f, getBand c o b = .ok m → fluxOf m = some f →
        ∃ m', getBand c s b = .ok m' ∧ fluxOf m' = some (|k| * f) := by
  obtain ⟨s, h1, h2, -, h4⟩ := op_ok ho (fun b => (getBand c o b).map (fun m => m.add (dmag (.fin k))))
    (fun b => (valOf c o b).add (dmag (.fin k))) (fun b hb => by simp only [get_val ho hb]; rfl)
  refine ⟨s, h1, h2, fun b hb m f e1 g1 => ⟨_, h4 b hb, ?_⟩⟩
  rw [get_val ho hb] at e1
  injection e1 with e1
  rw [e1]
  exact C43_scale m f k g1

/-- A magnitude offset. -/
theorem C88_mags_offset {c : Cls} {o : MB F} (ho : Reach c o) (x : F) :
    ∃ s, magsAddScalar c o x = (c, .ok s) ∧ s.order = o.order ∧
      ∀ b ∈ o.order, ∀ m, getBand c o b = .ok m → getBand c s b = .ok (m.add x) := by
  obtain ⟨s, h1, h2, -, h4⟩ := op_ok ho (fun b => (getBand c o b).map (fun m => m.add x))
    (fun b => (valOf c o b).add x) (fun b hb => by simp only [get_val ho hb]; rfl)
  refine ⟨s, h1, h2, fun b hb m e1 => ?_⟩
  rw [get_val ho hb] at e1
  injection e1 with e1
  rw [h4 b hb, e1]

/-- Sums and multiples of fluxes. -/
theorem C88_fluxes {c : Cls} {o p : MB F} (ho : Reach c o) (hp : Reach c p) (hsub : ∀ b ∈ o.order, b ∈ p.order) (k : F) :
    (∃ s, fluxesAdd c o p = (c, .ok s) ∧ s.order = o.order ∧
      ∀ b ∈ o.order, ∀ f1 f2, getBand c o b = .ok f1 → getBand c p b = .ok f2 → getBand c s b = .ok (f1.add f2)) ∧
    (∃ s, fluxesMul c o k = (c, .ok s) ∧ s.order = o.order ∧
      ∀ b ∈ o.order, ∀ f, getBand c o b = .ok f → getBand c s b = .ok (mul f k)) := by
  constructor
  · obtain ⟨s, h1, h2, -, h4⟩ := op_ok ho (both c o c p Num.add) (fun b => (valOf c o b).add (valOf c p b)) (fun b hb => by
      simp only [both, get_val ho hb, get_val hp (hsub b hb)]; rfl)
    refine ⟨s, h1, h2, fun b hb f1 f2 e1 e2 => ?_⟩
    rw [get_val ho hb] at e1
    rw [get_val hp (hsub b hb)] at e2
    injection e1 with e1; injection e2 with e2
    rw [h4 b hb, e1, e2]
  · obtain ⟨s, h1, h2, -, h4⟩ := op_ok ho (fun b => (getBand c o b).map (fun m => mul m k))
      (fun b => mul (valOf c o b) k) (fun b hb => by simp only [get_val ho hb]; rfl)
    refine ⟨s, h1, h2, fun b hb f e1 => ?_⟩
    rw [get_val ho hb] at e1
    injection e1 with e1
    rw [h4 b hb, e1]

/-- Non-vacuity: two objects of one class, the second with more bands. -/
example : ∃ (c : Cls) (o p : MB F), Reach c o ∧ Reach c p ∧ (∀ b ∈ o.order, b ∈ p.order) ∧ o.order = ["r"] ∧
    p.order = ["g", "r"] := by
  refine ⟨⟨["r", "g"]⟩, ⟨["r"], [.fin 20], [true], []⟩, ⟨["g", "r"], [.fin 21, .fin 22], [true, true], []⟩, ?_, ?_, by decide, rfl, rfl⟩
  · refine Reach.new (c := ⟨["r", "g"]⟩) (kwargs := [("r", .fin 20)]) (order := some ["r"]) (by decide) ?_
    rw [mk_ok (g := fun _ => .fin 20) _ _ _ (by decide) (by decide) (by decide) (by simp)]
    rfl
  · refine Reach.new (c := ⟨["r", "g"]⟩) (kwargs := [("r", .fin 22), ("g", .fin 21)]) (order := some ["g", "r"]) (by decide) ?_
    rw [mk_ok (g := fun k => if k = "r" then .fin 22 else .fin 21) _ _ _ (by decide) (by decide) (by decide)
      (by simp [List.lookup])]
    rfl

theorem num_add_zero (x : F) : x.add (.fin 0) = x := by cases x <;> simp [Num.add]

theorem mul_one' (x : F) : mul x (.fin 1) = x := by cases x <;> simp [mul, infTimes]

/-- Copies (`self * 1.`) have the same bands in the same order with the same values, all thawed. -/
theorem C87_copy {c : Cls} {o : MB F} (h : Reach c o) :
    (∃ s, magsMul c o (.fin 1) = (c, .ok s) ∧ s.order = o.order ∧ s.liquid = List.replicate o.order.length true ∧
      ∀ b ∈ o.order, getBand c s b = getBand c o b) ∧
    (∃ s, fluxesMul c o (.fin 1) = (c, .ok s) ∧ s.order = o.order ∧ s.liquid = List.replicate o.order.length true ∧
      ∀ b ∈ o.order, getBand c s b = getBand c o b) := by
  have hd : dmag (.fin 1) = .fin 0 := by simp [dmag, fabs, mul]
  constructor
  · obtain ⟨s, h1, h2, h3, h4⟩ := op_ok h (fun b => (getBand c o b).map (fun m => m.add (dmag (.fin 1))))
      (fun b => (valOf c o b).add (dmag (.fin 1))) (fun b hb => by simp only [get_val h hb]; rfl)
    exact ⟨s, h1, h2, h3, fun b hb => by rw [h4 b hb, get_val h hb, hd, num_add_zero]⟩
  · obtain ⟨s, h1, h2, h3, h4⟩ := op_ok h (fun b => (getBand c o b).map (fun m => mul m (.fin 1)))
      (fun b => mul (valOf c o b) (.fin 1)) (fun b hb => by simp only [get_val h hb]; rfl)
    exact ⟨s, h1, h2, h3, fun b hb => by rw [h4 b hb, get_val h hb, mul_one']⟩

/-- Copies thaw frozen bands, unlike those of other parameter lists. -/
theorem C87_copy_frozen_false : ∃ (c : Cls) (o s : MB F), Reach c o ∧ fluxesMul c o (.fin 1) = (c, .ok s) ∧
    o.getParams.length = 0 ∧ s.getParams.length = 1 := by
  refine ⟨⟨["r"]⟩, ⟨["r"], [.fin 20], [false], []⟩, ⟨["r"], [mul (.fin 20) (.fin 1)], [true], []⟩, ?_, ?_, rfl, rfl⟩
  · refine Reach.flags (o := (⟨["r"], [.fin 20], [true], []⟩ : MB F)) [false] rfl
      (Reach.new (c := ⟨["r"]⟩) (kwargs := [("r", Num.fin 20)]) (order := some ["r"]) (by decide) ?_)
    rw [mk_ok (g := fun _ => Num.fin 20) _ _ _ (by decide) (by decide) (by decide) (by simp)]
    rfl
  · rfl

/-- Counts of a sum of magnitudes are the sum of the counts, if both summands are at most of magnitude 50 (or have no flux). -/
theorem C88_counts_add (zp : ℝ) (m1 m2 : F) (h1 : m1 = .pinf ∨ ∃ x : ℝ, m1 = .fin x ∧ x ≤ 50)
    (h2 : m2 = .pinf ∨ ∃ x : ℝ, m2 = .fin x ∧ x ≤ 50) :
    countsOfMag zp (magSum m1 m2) = (countsOfMag zp m1).add (countsOfMag zp m2) := by
  -- counts are the flux times the scale of the zeropoint
  have key : ∀ (m : F) (f : ℝ), fluxOf m = some f → f = 0 ∨ (10:ℝ) ^ (-(0.4 * 50) : ℝ) ≤ f →
      countsOfMag zp m = .fin ((10:ℝ) ^ (0.4 * zp) * f) := by
    intro m f hm hf
    cases m with
    | nan => cases hm
    | ninf => cases hm
    | pinf =>
      injection hm with hm
      subst hm; simp [countsOfMag, Num.isFinite]
    | fin x =>
      injection hm with hm
      have hx : x ≤ 50 := by
        rcases hf with hf | hf
        · rw [hf] at hm; exact absurd hm (pow_pos' _).ne'
        · rw [← hm, Real.rpow_le_rpow_left_iff (by norm_num : (1:ℝ) < 10)] at hf
          linarith
      rw [countsOfMag_fin zp x hx, ← hm, ← Real.rpow_add (by norm_num)]
      congr 2; ring
  have flux : ∀ m : F, (m = .pinf ∨ ∃ x : ℝ, m = .fin x ∧ x ≤ 50) →
      ∃ f, fluxOf m = some f ∧ (f = 0 ∨ (10:ℝ) ^ (-(0.4 * 50) : ℝ) ≤ f) := by
    rintro m (rfl | ⟨x, rfl, hx⟩)
    · exact ⟨0, rfl, .inl rfl⟩
    · refine ⟨_, rfl, .inr ?_⟩
      rw [Real.rpow_le_rpow_left_iff (by norm_num : (1:ℝ) < 10)]
      linarith
  obtain ⟨f1, e1, g1⟩ := flux m1 h1
  obtain ⟨f2, e2, g2⟩ := flux m2 h2
  have hs := C43_sum m1 m2 f1 f2 e1 e2
  rw [key _ _ hs, key _ _ e1 g1, key _ _ e2 g2]
  · simp only [Num.add, Num.fin.injEq]; ring
  · have n1 := fluxOf_nonneg e1
    have n2 := fluxOf_nonneg e2
    rcases g1 with rfl | g1
    · rcases g2 with rfl | g2
      · left; simp
      · right; simpa using g2
    · right; linarith

/-- Non-vacuity. -/
example : (Num.fin (20:ℝ)) = .pinf ∨ ∃ x : ℝ, Num.fin (20:ℝ) = .fin x ∧ x ≤ 50 := .inr ⟨20, rfl, by norm_num⟩

/-- Beyond magnitude 50 counts are not additive: two stars of magnitude 50.5 have no counts, their sum has. -/
theorem C88_cutoff_false : ∃ m : ℝ, countsOfMag 25 (.fin m) = .fin 0 ∧
    ∃ x : ℝ, 0 < x ∧ countsOfMag 25 (magSum (.fin m) (.fin m)) = .fin x := by
  refine ⟨50.5, by simp [countsOfMag, Num.lt]; norm_num, ?_⟩
  have hs : magSum (.fin 50.5) (.fin 50.5) = .fin (-2.5 * Real.logb 10 ((10:ℝ) ^ (-50.5 / 2.5 : ℝ) + (10:ℝ) ^ (-50.5 / 2.5 : ℝ))) := by
    unfold magSum
    rw [divBy_pos (by norm_num)]
    simp only [Num.neg, pow10, Num.add]
    rw [log10_fin_pos (add_pos (pow_pos' _) (pow_pos' _))]; rfl
  rw [hs]
  have h2 : (10:ℝ) ^ (0.2:ℝ) ≤ 2 := by
    have h5 : ((10:ℝ) ^ (0.2:ℝ)) ^ 5 ≤ 2 ^ 5 := by
      rw [← Real.rpow_natCast, ← Real.rpow_mul (by norm_num)]
      norm_num
    exact le_of_pow_le_pow_left₀ (by norm_num) (by norm_num) h5
  have hl : (-20 : ℝ) ≤ Real.logb 10 ((10:ℝ) ^ (-50.5 / 2.5 : ℝ) + (10:ℝ) ^ (-50.5 / 2.5 : ℝ)) := by
    rw [Real.le_logb_iff_rpow_le (by norm_num) (add_pos (pow_pos' _) (pow_pos' _)), ← two_mul]
    calc (10:ℝ) ^ (-20:ℝ) = (10:ℝ) ^ (0.2:ℝ) * (10:ℝ) ^ (-50.5 / 2.5 : ℝ) := by
          rw [← Real.rpow_add (by norm_num)]; norm_num
      _ ≤ 2 * (10:ℝ) ^ (-50.5 / 2.5 : ℝ) := mul_le_mul_of_nonneg_right h2 (pow_pos' _).le
  rw [countsOfMag_fin _ _ (by linarith)]
  exact ⟨_, pow_pos' _, rfl⟩

theorem counts_linear (zp x : ℝ) (h : x ≤ 50) :
    mul (magToNanomaggies (.fin x)) (zeropointToScale (.fin zp)) = countsOfMag zp (.fin x) := by
  rw [countsOfMag_fin zp x h]
  unfold magToNanomaggies zeropointToScale
  rw [divBy_neg (by norm_num), divBy_pos (by norm_num)]
  simp only [Num.sub, Num.add, Num.neg, pow10, mul, Num.fin.injEq]
  rw [← Real.rpow_add (by norm_num)]
  congr 1; ring

/-- The same star in magnitudes and in nanomaggies: `NanoMaggies.fromMag` with a `LinearPhotoCal` of the scale for the
zeropoint makes the counts of the magnitudes with `MagsPhotoCal`, up to magnitude 50 or without flux. -/
theorem C88_linear_mags {c c' : Cls} {o : MB F} (ho : Reach c o) (zp : ℝ) :
    ∃ c'' s, fromMag c c' o = (c'', .ok s) ∧ s.order = o.order ∧ ∀ b ∈ o.order, ∀ m, getBand c o b = .ok m →
      (m = .pinf ∨ ∃ x : ℝ, m = .fin x ∧ x ≤ 50) →
      linearCounts (some b) (zeropointToScale (.fin zp)) (.nmgy c'' s) = magsCounts b zp (.mags c o) := by
  have h := perBand_ok c' o (fun b => (getBand c o b).map magToNanomaggies) (fun b => magToNanomaggies (valOf c o b))
    (fun b hb => by simp only [get_val ho hb]; rfl)
  refine ⟨_, _, h, rfl, fun b hb m hm hcase => ?_⟩
  have hg := getBand_new c' o.order (fun b => magToNanomaggies (valOf c o b)) (List.replicate o.order.length true) [] b hb
  have hv : valOf c o b = m := by
    rw [get_val ho hb] at hm; injection hm
  simp only [linearCounts, Br.getFlux, magsCounts, Br.getMag, hg, hm, Except.map, hv, Except.ok.injEq]
  rcases hcase with rfl | ⟨x, rfl, hx⟩
  · have : magToNanomaggies .pinf = .fin 0 := by
      unfold magToNanomaggies; rw [divBy_neg (by norm_num)]; rfl
    have hz : zeropointToScale (.fin zp) = .fin ((10:ℝ) ^ ((zp - 22.5) / 2.5)) := by
      unfold zeropointToScale; rw [divBy_pos (by norm_num)]; simp [Num.sub, Num.add, Num.neg, pow10, sub_eq_add_neg]
    rw [this, hz]
    simp [mul, countsOfMag, Num.isFinite]
  · exact counts_linear zp x hx

/-- The zeropoint written to FITS headers is that of the scale: `MagsPhotoCal` with it agrees with the `LinearPhotoCal` on
nanomaggies of magnitude at most 50. -/
theorem C88_magzp (scale : ℝ) (hs : 0 < scale) (m : ℝ) (hm : m ≤ 50) :
    ∃ zp : ℝ, magzp (.fin scale) = .fin zp ∧ mul (magToNanomaggies (.fin m)) (.fin scale) = countsOfMag zp (.fin m) := by
  have h1 : magzp (.fin scale) = .fin (22.5 + 2.5 * Real.logb 10 scale) := by
    unfold magzp scaleToZeropoint
    rw [log10_fin_pos hs]; rfl
  refine ⟨_, h1, ?_⟩
  rw [← counts_linear _ _ hm, ← h1]
  congr 1
  exact (C43_zeropoint.2 (.fin scale) (fun h => by
    rcases h with h | h | ⟨x, h, hx⟩
    · cases h
    · cases h
    · injection h with h; subst h; exact absurd hx (not_lt.mpr hs.le))).symm

/-- Non-vacuity. -/
example : (0:ℝ) < 3 ∧ (22:ℝ) ≤ 50 := by norm_num

/-- Nanomaggies also work with `MagsPhotoCal`, except negative ones, whose counts are dropped. -/
theorem C88_nmgy_negative_false : ∃ (c : Cls) (o : MB F), Reach c o ∧ magsCounts "r" 22.5 (.nmgy c o) = .ok (.fin 0) ∧
    linearCounts (some "r") (zeropointToScale (.fin 22.5)) (.nmgy c o) = .ok (.fin (-1)) := by
  have hr : Reach ⟨["r"]⟩ (⟨["r"], [.fin (-1)], [true], []⟩ : MB F) := by
    refine Reach.new (c := ⟨["r"]⟩) (kwargs := [("r", .fin (-1))]) (order := some ["r"]) (by decide) ?_
    rw [mk_ok (g := fun _ => .fin (-1)) _ _ _ (by decide) (by decide) (by decide) (by simp)]
    rfl
  refine ⟨_, _, hr, ?_, ?_⟩
  · have hg : getBand ⟨["r"]⟩ (⟨["r"], [.fin (-1)], [true], []⟩ : MB F) "r" = .ok (.fin (-1)) := rfl
    simp only [magsCounts, Br.getMag, hg, Except.map]
    rw [C43_nanomaggies.2.2 (.fin (-1)) (.inr (.inr ⟨_, rfl, by norm_num⟩))]
    simp [countsOfMag, Num.isFinite]
  · have hg : getBand ⟨["r"]⟩ (⟨["r"], [.fin (-1)], [true], []⟩ : MB F) "r" = .ok (.fin (-1)) := rfl
    simp only [linearCounts, Br.getFlux, hg, Except.map]
    rw [C43_reference.2.2]
    simp [mul]

/-- Which calibration goes with which brightness; other combinations raise AttributeError. -/
theorem C88_attribute (band : String) (zp : ℝ) (s v : F) (c : Cls) (o : MB F) :
    magsCounts band zp (.fluxes c o) = .error .attribute ∧ magsCounts band zp (.scalar v) = .error .attribute ∧
    fluxesCounts band (.mags c o) = .error .attribute ∧ linearCounts (some band) s (.mags c o) = .error .attribute ∧
    linearCounts none s (.nmgy c o) = .error .attribute ∧ nullCounts (.mags c o) = .error .attribute ∧
    nullCounts (.scalar v) = .ok v ∧ linearCounts none s (.scalar v) = .ok (mul v s) ∧
    fluxesCounts band (.nmgy c o) = getBand c o band ∧ fluxesCounts band (.fluxes c o) = getBand c o band :=
  ⟨rfl, rfl, rfl, rfl, rfl, rfl, rfl, rfl, rfl, rfl⟩

end Verif.Bright
