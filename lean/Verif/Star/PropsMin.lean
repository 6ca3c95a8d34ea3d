import Verif.Star.Props

/-!
# C165: down to a minimum value; the estimated radius; galaxies of size zero
-/

namespace Verif.Star

open Verif.Patches (Patch)
open Verif.Mog (Comp Mix)
open Verif.Approx (Box)
open Verif.Gal (ModelMask)
open Verif.Gauss

/-- Going towards the mean along a row or a column brings the value up, where the axes are not correlated. -/
theorem distSq_le {c : Comp ℝ} (hc : Proper c) (hv : c.vxy = 0) (x y x' y' : ℝ) (hx : |x' - c.mx| ≤ |x - c.mx|) (hy : |y' - c.my| ≤ |y - c.my|) :
    distSq c x' y' ≤ distSq c x y := by
  obtain ⟨_, h1, h2⟩ := hc
  have hy0 : 0 < c.vyy := by rw [hv] at h2; nlinarith
  unfold distSq
  refine div_le_div_of_nonneg_right ?_ h2.le
  rw [hv]
  have a := sq_le_sq.mpr hx
  have b := sq_le_sq.mpr hy
  nlinarith [mul_le_mul_of_nonneg_left a hy0.le, mul_le_mul_of_nonneg_left b h1.le]

theorem filter_le (m : Mix ℝ) (p p' : Comp ℝ → Prop) [DecidablePred p] [DecidablePred p'] (f f' : Comp ℝ → ℝ)
    (hp : ∀ c ∈ m, p c → p' c) (hf : ∀ c ∈ m, f c ≤ f' c) (h0 : ∀ c ∈ m, 0 ≤ f' c) :
    ((m.filter (fun c => decide (p c))).map f).sum ≤ ((m.filter (fun c => decide (p' c))).map f').sum := by
  induction m with
  | nil => simp
  | cons c m ih =>
    have ih := ih (fun c hc => hp c (by simp [hc])) (fun c hc => hf c (by simp [hc])) (fun c hc => h0 c (by simp [hc]))
    have a := hf c (by simp)
    have b := h0 c (by simp)
    by_cases h : p c
    · rw [List.filter_cons_of_pos (by simpa using h), List.filter_cons_of_pos (by simpa using hp c (by simp) h)]
      simp only [List.map_cons, List.sum_cons]
      linarith
    · rw [List.filter_cons_of_neg (by simpa using h)]
      by_cases h' : p' c
      · rw [List.filter_cons_of_pos (by simpa using h')]
        simp only [List.map_cons, List.sum_cons]
        linarith
      · rw [List.filter_cons_of_neg (by simpa using h')]; exact ih

/-- The value `evaluate_grid_approx3` has for a pixel comes up towards the common mean. -/
theorem approx3_mono {m : Mix ℝ} (hm : ∀ c ∈ m, Proper c) (ha : ∀ c ∈ m, 0 ≤ c.amp) (hd : ∀ c ∈ m, c.vxy = 0) (mx my : ℝ)
    (h0 : ∀ c ∈ m, c.mx = mx ∧ c.my = my) (minval px py : ℝ) (x y x' y' : Int) (hx : |(x' : ℝ) - (mx + px)| ≤ |(x : ℝ) - (mx + px)|)
    (hy : |(y' : ℝ) - (my + py)| ≤ |(y : ℝ) - (my + py)|) : (approx3 minval m px py x y).1 ≤ (approx3 minval m px py x' y').1 := by
  unfold approx3
  rw [evalDxy_eq hm, evalDxy_eq hm]
  have hq : ∀ c ∈ m, distSq c (x' - px) (y' - py) ≤ distSq c (x - px) (y - py) := by
    intro c hc
    obtain ⟨e1, e2⟩ := h0 c hc
    refine distSq_le (hm c hc) (hd c hc) _ _ _ _ ?_ ?_
    · rw [e1, show (x' : ℝ) - px - mx = x' - (mx + px) by ring, show (x : ℝ) - px - mx = x - (mx + px) by ring]; exact hx
    · rw [e2, show (y' : ℝ) - py - my = y' - (my + py) by ring, show (y : ℝ) - py - my = y - (my + py) by ring]; exact hy
  refine filter_le m _ _ _ _ (fun c hc h => ?_) (fun c hc => ?_) (fun c hc => density_nonneg c _ _ (ha c hc))
  · have := hq c hc
    linarith
  · unfold density
    have : 0 ≤ c.amp / (2 * Real.pi * Real.sqrt (c.vxx * c.vyy - c.vxy ^ 2)) := div_nonneg (ha c hc) (by positivity)
    refine mul_le_mul_of_nonneg_left (Real.exp_le_exp.mpr ?_) this
    have := hq c hc
    linarith

/-- Rendered down to a minimum value: for components of positive amplitudes with a common centre and axes along rows and columns, no pixel of the
image within the radius lacks more than twice the minimum value (and `exp(-100)` of the peaks), and none has too much. -/
theorem C165_minval (p : GPsf) (hm : ∀ c ∈ p.mog, Proper c) (ha : ∀ c ∈ p.mog, 0 ≤ c.amp) (hsum : 0 < (p.mog.map (·.amp)).sum)
    (hd : ∀ c ∈ p.mog, c.vxy = 0) (mx my : ℝ) (h0 : ∀ c ∈ p.mog, c.mx = mx ∧ c.my = my)
    (s : Star) (r : ℝ) (hr : s.fixedRadius.or p.radius = some r) (H W : Nat) (minval : ℝ) (hv : 0 < minval)
    (hc : InImage H W (trunc (mx + s.px)) (trunc (my + s.py))) (hn : Near s.px s.py r (trunc (mx + s.px)) (trunc (my + s.py))) :
    ∃ q, starPatch p s H W (some minval) none = .ok (some q) ∧ (∀ x y, InPatch q x y → InImage H W x y) ∧
      ∀ x y, InImage H W x y → Near s.px s.py r x y →
        shown (some q) x y ≤ densityMix p.mog (x - s.px) (y - s.py) ∧
        densityMix p.mog (x - s.px) (y - s.py) ≤ shown (some q) x y + 2 * minval + Real.exp (-100) * peaks p.mog := by
  have hfar : ¬ (s.px + r < 0 ∨ s.px - r > W ∨ s.py + r < 0 ∨ s.py - r > H) := by
    obtain ⟨⟨a1, a2⟩, b1, b2⟩ := hc
    obtain ⟨n1, n2⟩ := hn
    rw [abs_le] at n1 n2
    have a1 : (0 : ℝ) ≤ trunc (mx + s.px) := by exact_mod_cast a1
    have a2 : ((trunc (mx + s.px) : Int) : ℝ) < W := by exact_mod_cast a2
    have b1 : (0 : ℝ) ≤ trunc (my + s.py) := by exact_mod_cast b1
    have b2 : ((trunc (my + s.py) : Int) : ℝ) < H := by exact_mod_cast b2
    push Not
    refine ⟨?_, ?_, ?_, ?_⟩ <;> linarith [n1.1, n1.2, n2.1, n2.2]
  have hI := near_box hc hn
  set b : Box := ⟨max ⌊s.px - r⌋ 0, min (⌈s.px + r⌉ + 1) W, max ⌊s.py - r⌋ 0, min (⌈s.py + r⌉ + 1) H⟩ with hb
  have b0 : b.x0 = max ⌊s.px - r⌋ 0 := rfl
  have b1 : b.x1 = min (⌈s.px + r⌉ + 1) W := rfl
  have b2 : b.y0 = max ⌊s.py - r⌋ 0 := rfl
  have b3 : b.y1 = min (⌈s.py + r⌉ + 1) H := rfl
  have hne : ¬ (b.x0 ≥ b.x1 ∨ b.y0 ≥ b.y1) := by
    unfold Approx.Inside at hI
    omega
  have hrr : radiusFor p s.fixedRadius minval = .ok r := by
    unfold radiusFor
    cases hf : s.fixedRadius with
    | some f => rw [hf] at hr; simp only [Option.some_or, Option.some.injEq] at hr; subst hr; rfl
    | none => rw [hf, Option.none_or] at hr; rw [hr]
  have hrun : starPatch p s H W (some minval) none =
      gridApprox p.mog b s.px s.py minval ((s.minRadius.map trunc).getD 3) := by
    unfold starPatch; simp only [hr]; rw [if_neg hfar]
    unfold pointSourcePatch; dsimp only
    rw [Option.getD_some, if_pos (Or.inl hv), hrr]
    dsimp only
    rw [extent_clip, ← hb, if_neg hne]
  have hcentre : ∃ c l, p.mog = c :: l ∧ c.mx = mx ∧ c.my = my := by
    cases hp : p.mog with
    | nil => rw [hp] at hsum; simp at hsum
    | cons c l => exact ⟨c, l, rfl, h0 c (by rw [hp]; simp)⟩
  obtain ⟨c, l, hcl, e1, e2⟩ := hcentre
  have hrun2 : gridApprox p.mog b s.px s.py minval ((s.minRadius.map trunc).getD 3) =
      Approx.gridApprox3 (fun y x => Gauss.evalAll p.mog (x - s.px) (y - s.py)) (fun y x => (Gauss.approx3 minval p.mog s.px s.py x y).1)
      (trunc (mx + s.px)) (trunc (my + s.py)) b minval ((s.minRadius.map trunc).getD 3) true 100 := by
    rw [← e1, ← e2]
    unfold gridApprox
    rw [hcl]
  obtain ⟨A, ax, ay, g1, g2, g3⟩ := Approx.C98_falling (F := ℝ) (fun y x => Gauss.evalAll p.mog (x - s.px) (y - s.py))
    (fun y x => (Gauss.approx3 minval p.mog s.px s.py x y).1) (trunc (mx + s.px)) (trunc (my + s.py)) b.x0 b.x1 b.y0 b.y1 minval
    ((s.minRadius.map trunc).getD 3) 100 true hI (by norm_num) (mx + s.px) (my + s.py) (trunc_near _) (trunc_near _)
    (fun y x x' h => approx3_mono hm ha hd mx my h0 minval s.px s.py x y x' y h le_rfl)
    (fun y y' x h => approx3_mono hm ha hd mx my h0 minval s.px s.py x y x y' le_rfl h)
  refine ⟨⟨ax, ay, some A⟩, by rw [hrun, hrun2]; exact g1, fun x y hp => ?_, fun x y hi hne => ?_⟩
  · have := (g2 y x (by unfold InPatch at hp; dsimp only at hp; exact hp)).1
    unfold Approx.Inside at this
    unfold InImage
    omega
  · have hbox := near_box hi hne
    obtain ⟨m1, m2⟩ := C99_minval p.mog hm ha hsum minval hv s.px s.py x y
    have hsh : (shown (some ⟨ax, ay, some A⟩) x y = (approx3 minval p.mog s.px s.py x y).1) ∨
        (shown (some ⟨ax, ay, some A⟩) x y = 0 ∧ (approx3 minval p.mog s.px s.py x y).1 < minval) := by
      by_cases hp : InPatch ⟨ax, ay, some A⟩ x y
      · have he : shown (some ⟨ax, ay, some A⟩) x y = A.px (y - ay).toNat (x - ax).toNat := by
          unfold shown; dsimp only; rw [if_pos hp]
        rw [he]
        exact (g2 y x (by unfold InPatch at hp; dsimp only at hp; exact hp)).2
      · refine Or.inr ⟨by unfold shown; dsimp only; rw [if_neg hp], ?_⟩
        by_contra hcon
        refine hp ?_
        unfold InPatch; dsimp only
        exact (g3 y x hbox (not_lt.mp hcon)).1
    have hdn : 0 ≤ densityMix p.mog (x - s.px) (y - s.py) := by
      unfold densityMix
      refine List.sum_nonneg (fun z hz => ?_)
      obtain ⟨c, hc, rfl⟩ := List.mem_map.mp hz
      exact density_nonneg c _ _ (ha c hc)
    rcases hsh with h | ⟨h, h'⟩
    · rw [h]; exact ⟨m1, by linarith⟩
    · rw [h]; exact ⟨hdn, by linarith⟩

/-- The PSF of unit variance again, down to a thousandth. -/
example : ∃ q, starPatch exPsf { px := 5 / 2, py := 3 } 30 40 (some (1 / 1000)) none = .ok (some q) ∧
    ∀ x y, InImage 30 40 x y → Near (5 / 2) 3 25 x y →
      densityMix exPsf.mog (x - 5 / 2) (y - 3) ≤ shown (some q) x y + 2 * (1 / 1000) + Real.exp (-100) * peaks exPsf.mog := by
  have t1 : trunc (0 + 5 / 2) = 2 := by unfold trunc; norm_num [Int.floor_eq_iff]
  have t2 : trunc (0 + 3) = 3 := by unfold trunc; norm_num [Int.floor_eq_iff]
  have hmem : ∀ c ∈ exPsf.mog, c = ⟨1, 0, 0, 1, 0, 0, 1⟩ := by simp [exPsf]
  obtain ⟨q, h1, _, h3⟩ := C165_minval exPsf exPsf_proper (fun c hc => by rw [hmem c hc]; norm_num) (by simp [exPsf])
    (fun c hc => by rw [hmem c hc]) 0 0 (fun c hc => by rw [hmem c hc]; simp) { px := 5 / 2, py := 3 } 25 rfl 30 40 (1 / 1000)
    (by norm_num) (by rw [t1, t2]; unfold InImage; norm_num) (by rw [t1, t2]; unfold Near; norm_num [abs_le])
  exact ⟨q, h1, fun x y hi hn => (h3 x y hi hn).2⟩

/-! ### The estimated radius -/

theorem guessStep_ok {c : Comp ℝ} (hc : Proper c) (minval : ℝ) (hv : 0 < minval) (r : ℝ) :
    ∃ r', guessStep minval r c = .ok r' ∧ r ≤ r' ∧ (0 ≤ r → 0 ≤ r') ∧
      (c.vxx + c.vyy) * -2 * Real.log (minval * (2 * Real.pi * (c.vxx * c.vyy - c.vxy ^ 2))) ≤ max 0 (r' * |r'|) := by
  obtain ⟨hs, hx, hd⟩ := hc
  have hpi := Real.pi_pos
  have e : c.vxx * c.vyy - c.vxy * c.vyx = c.vxx * c.vyy - c.vxy ^ 2 := by rw [← hs]; ring
  have hpos : 0 < minval * (2 * Real.pi * (c.vxx * c.vyy - c.vxy ^ 2)) := by positivity
  unfold guessStep
  simp only [e]
  rw [if_neg hpos.ne', if_neg (not_lt.mpr hpos.le)]
  set q := (c.vxx + c.vyy) * -2 * Real.log (minval * (2 * Real.pi * (c.vxx * c.vyy - c.vxy ^ 2)))
  by_cases h : q > 0
  · rw [if_pos h]
    refine ⟨_, rfl, le_max_left _ _, fun h0 => le_trans h0 (le_max_left _ _), ?_⟩
    refine le_trans ?_ (le_max_right _ _)
    have h1 : Real.sqrt q ≤ max r (Real.sqrt q) := le_max_right _ _
    have h2 := Real.sqrt_nonneg q
    rw [abs_of_nonneg (h2.trans h1)]
    calc q = Real.sqrt q * Real.sqrt q := (Real.mul_self_sqrt h.le).symm
      _ ≤ _ := mul_self_le_mul_self h2 h1
  · rw [if_neg h]
    exact ⟨r, rfl, le_rfl, id, le_trans (not_lt.mp h) (le_max_left _ _)⟩

theorem guess_fold (minval : ℝ) (hv : 0 < minval) : ∀ (m : Mix ℝ), (∀ c ∈ m, Proper c) → ∀ r : ℝ, 0 ≤ r →
    ∃ r', m.foldlM (guessStep minval) r = .ok r' ∧ r ≤ r' ∧
      ∀ c ∈ m, (c.vxx + c.vyy) * -2 * Real.log (minval * (2 * Real.pi * (c.vxx * c.vyy - c.vxy ^ 2))) ≤ r' ^ 2
  | [], _, r, _ => ⟨r, rfl, le_rfl, by simp⟩
  | c :: m, hm, r, h0 => by
    obtain ⟨r1, e1, g1, g2, g3⟩ := guessStep_ok (hm c (by simp)) minval hv r
    obtain ⟨r2, e2, k1, k2⟩ := guess_fold minval hv m (fun c hc => hm c (by simp [hc])) r1 (g2 h0)
    refine ⟨r2, ?_, g1.trans k1, fun d hdm => ?_⟩
    · rw [List.foldlM_cons, e1]; exact e2
    · rcases List.mem_cons.mp hdm with rfl | hdm
      · have h1 := g2 h0
        rw [abs_of_nonneg h1, max_eq_right (mul_nonneg h1 h1)] at g3
        nlinarith
      · exact k2 d hdm

/-- Where the PSF has no radius and none is given, the radius estimated from the minimum value is an overestimate, as the source says, for
components centred on the star whose determinants are at most 1 and whose amplitudes are not negative and add up to at most 1: outside it the PSF is below the minimum value. -/
theorem C165_guess (m : Mix ℝ) (hm : ∀ c ∈ m, Proper c) (h0 : ∀ c ∈ m, c.mx = 0 ∧ c.my = 0) (ha : ∀ c ∈ m, 0 ≤ c.amp)
    (hs : (m.map (·.amp)).sum ≤ 1) (hdet : ∀ c ∈ m, c.vxx * c.vyy - c.vxy ^ 2 ≤ 1) (minval : ℝ) (hv : 0 < minval) :
    ∃ r, guessRadius m minval = .ok r ∧ ∀ x y : ℝ, r ≤ |x| ∨ r ≤ |y| → densityMix m x y ≤ minval := by
  obtain ⟨r, e, g0, g⟩ := guess_fold minval hv m hm 0 le_rfl
  refine ⟨((⌈r⌉ : Int) : ℝ), by unfold guessRadius; rw [e]; rfl, fun x y h => ?_⟩
  have hpi := Real.pi_pos
  have hle : densityMix m x y ≤ (m.map (fun c => c.amp * minval)).sum := by
    unfold densityMix
    refine sum_le_sum _ _ _ (fun c hc => ?_)
    have hd : 0 < c.vxx * c.vyy - c.vxy ^ 2 := (hm c hc).2.2
    have hx := (hm c hc).2.1
    have hy : 0 < c.vyy := by nlinarith [sq_nonneg c.vxy]
    obtain ⟨p1, p2, p3⟩ := distSq_ge (hm c hc) x y
    rw [(h0 c hc).1, (h0 c hc).2, sub_zero, sub_zero] at p2
    have hr : r ^ 2 ≤ x ^ 2 + y ^ 2 := by
      have hc := Int.le_ceil r
      rcases h with h | h
      · have := pow_le_pow_left₀ g0 (hc.trans h) 2
        rw [sq_abs] at this
        nlinarith [sq_nonneg y]
      · have := pow_le_pow_left₀ g0 (hc.trans h) 2
        rw [sq_abs] at this
        nlinarith [sq_nonneg x]
    have hK : 0 < minval * (2 * Real.pi * (c.vxx * c.vyy - c.vxy ^ 2)) := by positivity
    have hq : -2 * Real.log (minval * (2 * Real.pi * (c.vxx * c.vyy - c.vxy ^ 2))) ≤ distSq c x y := by
      refine le_trans ?_ p2
      rw [le_div_iff₀ p1]
      by_cases hlog : 0 ≤ -2 * Real.log (minval * (2 * Real.pi * (c.vxx * c.vyy - c.vxy ^ 2)))
      · have h1 := mul_le_mul_of_nonneg_left p3 hlog
        have h2 := g c hc
        nlinarith
      · have := mul_nonneg (not_le.mp hlog |>.le |> neg_nonneg.mpr) p1.le
        nlinarith [sq_nonneg x, sq_nonneg y]
    have he : Real.exp (-(distSq c x y) / 2) ≤ minval * (2 * Real.pi * (c.vxx * c.vyy - c.vxy ^ 2)) := by
      rw [← Real.exp_log hK]
      exact Real.exp_le_exp.mpr (by linarith)
    have hsq := Real.sqrt_pos.mpr hd
    have hsq1 : Real.sqrt (c.vxx * c.vyy - c.vxy ^ 2) ≤ 1 := by
      rw [Real.sqrt_le_left (by norm_num)]; simpa using hdet c hc
    have hA : 0 ≤ c.amp / (2 * Real.pi * Real.sqrt (c.vxx * c.vyy - c.vxy ^ 2)) := div_nonneg (ha c hc) (by positivity)
    unfold density
    refine (mul_le_mul_of_nonneg_left he hA).trans ?_
    have : c.amp / (2 * Real.pi * Real.sqrt (c.vxx * c.vyy - c.vxy ^ 2)) * (minval * (2 * Real.pi * (c.vxx * c.vyy - c.vxy ^ 2))) =
        c.amp * minval * Real.sqrt (c.vxx * c.vyy - c.vxy ^ 2) := by
      have hss := Real.mul_self_sqrt hd.le
      rw [div_mul_eq_mul_div, div_eq_iff (by positivity)]
      linear_combination (-(2 * Real.pi * c.amp * minval)) * hss
    rw [this]
    have := mul_nonneg (ha c hc) hv.le
    nlinarith
  rw [map_sum_mul] at hle
  nlinarith

/-- Two components within the hypotheses. -/
example : ∃ r, guessRadius [⟨1 / 2, 0, 0, 1, 0, 0, 1⟩, ⟨1 / 4, 0, 0, 1 / 2, 1 / 4, 1 / 4, 1⟩] (1 / 100) = .ok r ∧
    ∀ x y : ℝ, r ≤ |x| ∨ r ≤ |y| → densityMix [⟨1 / 2, 0, 0, 1, 0, 0, 1⟩, ⟨1 / 4, 0, 0, 1 / 2, 1 / 4, 1 / 4, 1⟩] x y ≤ 1 / 100 := by
  refine C165_guess _ ?_ ?_ ?_ (by norm_num) ?_ _ (by norm_num)
  all_goals
    intro c hc
    simp only [List.mem_cons, List.not_mem_nil, or_false] at hc
    rcases hc with rfl | rfl <;> first | (unfold Proper; norm_num) | norm_num

/-- It is not in general: of a PSF with a standard deviation of three pixels the star is a single pixel, though its neighbours are more than eight times the
minimum value (the determinant is used for its root). -/
theorem C165_guess_false : ∃ (p : GPsf) (minval : ℝ) (q : Patch ℝ), p.radius = none ∧ (∀ c ∈ p.mog, Proper c) ∧ 0 < minval ∧
    pointSourcePatch p 0 0 { minval := some minval } = .ok (some q) ∧
    shown (some q) 1 0 = 0 ∧ 8 * minval < densityMix p.mog (((1 : Int) : ℝ) - 0) (((0 : Int) : ℝ) - 0) := by
  have hpi := Real.pi_pos
  have hg : guessRadius [⟨1, 0, 0, 9, 0, 0, 9⟩] (1 / (2 * Real.pi * 81)) = .ok 0 := by
    unfold guessRadius
    have : guessStep (1 / (2 * Real.pi * 81)) 0 ⟨1, 0, 0, 9, 0, 0, 9⟩ = .ok 0 := by
      unfold guessStep
      have e : 1 / (2 * Real.pi * 81) * (2 * Real.pi * ((9 : ℝ) * 9 - 0 * 0)) = 1 := by field_simp; norm_num
      simp only [e]
      norm_num
    simp only [List.foldlM_cons, List.foldlM_nil, this]
    show Except.ok (((⌈(0 : ℝ)⌉ : Int) : ℝ)) = Except.ok 0
    simp
  have hP : ∀ c ∈ ([⟨1, 0, 0, 9, 0, 0, 9⟩] : Mix ℝ), Proper c := by
    intro c hc
    simp only [List.mem_singleton] at hc
    subst hc
    unfold Proper; norm_num
  have hmv : (0 : ℝ) < 1 / (2 * Real.pi * 81) := by positivity
  have hb : extent 0 0 0 none = ⟨0, 1, 0, 1⟩ := by unfold extent; simp
  have ht : trunc ((0 : ℝ) + 0) = 0 := by unfold trunc; simp
  obtain ⟨A, ax, ay, g1, g2, _⟩ := Approx.C98_falling (F := ℝ)
    (fun y x => Gauss.evalAll [⟨1, 0, 0, 9, 0, 0, 9⟩] ((x : ℝ) - 0) ((y : ℝ) - 0))
    (fun y x => (Gauss.approx3 (1 / (2 * Real.pi * 81)) [⟨1, 0, 0, 9, 0, 0, 9⟩] 0 0 x y).1) 0 0 0 1 0 1 (1 / (2 * Real.pi * 81))
    3 100 true (by unfold Approx.Inside; omega) (by norm_num) 0 0 (by norm_num) (by norm_num)
    (fun y x x' h => approx3_mono hP (by simp) (by simp) 0 0 (by simp) _ 0 0 x y x' y (by simpa using h) le_rfl)
    (fun y y' x h => approx3_mono hP (by simp) (by simp) 0 0 (by simp) _ 0 0 x y x y' le_rfl (by simpa using h))
  refine ⟨⟨[⟨1, 0, 0, 9, 0, 0, 9⟩], none⟩, 1 / (2 * Real.pi * 81), ⟨ax, ay, some A⟩, rfl, hP, hmv, ?_, ?_, ?_⟩
  · unfold pointSourcePatch
    dsimp only
    rw [Option.getD_some, if_pos (Or.inl hmv), show radiusFor ⟨[⟨1, 0, 0, 9, 0, 0, 9⟩], none⟩ none (1 / (2 * Real.pi * 81)) = .ok 0 from hg]
    dsimp only
    rw [hb]
    dsimp only
    rw [if_neg (by norm_num)]
    unfold gridApprox
    dsimp only
    rw [ht]
    exact g1
  · have hp : ¬ InPatch ⟨ax, ay, some A⟩ 1 0 := by
      intro hp
      have := (g2 0 1 (by unfold InPatch at hp; dsimp only at hp; exact hp)).1
      unfold Approx.Inside at this
      omega
    unfold shown; dsimp only; rw [if_neg hp]
  · have hq : distSq ⟨1, 0, 0, 9, 0, 0, 9⟩ (((1 : Int) : ℝ) - 0) (((0 : Int) : ℝ) - 0) = 1 / 9 := by unfold distSq; norm_num
    have hsq : Real.sqrt (9 * 9 - 0 ^ 2) = 9 := by
      rw [show (9 : ℝ) * 9 - 0 ^ 2 = 9 ^ 2 by norm_num]; exact Real.sqrt_sq (by norm_num)
    unfold densityMix
    simp only [List.map_cons, List.map_nil, List.sum_cons, List.sum_nil, add_zero]
    unfold density
    rw [hq]
    dsimp only
    rw [hsq]
    have he := Real.add_one_lt_exp (x := -(1 / 9 : ℝ) / 2) (by norm_num)
    have : 1 / (2 * Real.pi * 9) * (8 / 9) < 1 / (2 * Real.pi * 9) * Real.exp (-(1 / 9) / 2) :=
      mul_lt_mul_of_pos_left (by linarith) (by positivity)
    refine lt_of_eq_of_lt ?_ this
    field_simp
    norm_num

/-- The radius is 25 pixels unless it is set: a wider PSF is cut off there. -/
theorem C165_default_false : ∃ (m : Mix ℝ) (res : Option (Patch ℝ)), (∀ c ∈ m, Proper c) ∧
    starPatch { mog := m } { px := 50, py := 50 } 100 100 (some 0) none = .ok res ∧
    InImage 100 100 80 50 ∧ shown res 80 50 = 0 ∧ peaks m / 2 < densityMix m (((80 : Int) : ℝ) - 50) (((50 : Int) : ℝ) - 50) := by
  have hP : ∀ c ∈ ([⟨1, 0, 0, 900, 0, 0, 900⟩] : Mix ℝ), Proper c := by
    intro c hc
    simp only [List.mem_singleton] at hc
    subst hc
    unfold Proper; norm_num
  obtain ⟨res, h1, _, h3⟩ := C165_star { mog := [⟨1, 0, 0, 900, 0, 0, 900⟩] } hP { px := 50, py := 50 } 25 rfl rfl 100 100 (some 0)
    (fun v hv => by simp at hv; exact hv.symm.le)
  have hi : InImage 100 100 80 50 := by unfold InImage; norm_num
  refine ⟨_, res, hP, h1, hi, (h3 80 50 hi).2 (by norm_num [abs_lt]), ?_⟩
  have hq : distSq ⟨1, 0, 0, 900, 0, 0, 900⟩ (((80 : Int) : ℝ) - 50) (((50 : Int) : ℝ) - 50) = 1 := by unfold distSq; norm_num
  unfold densityMix peaks
  simp only [List.map_cons, List.map_nil, List.sum_cons, List.sum_nil, add_zero]
  unfold density peak
  rw [hq]
  dsimp only
  have he := Real.add_one_lt_exp (x := -(1 : ℝ) / 2) (by norm_num)
  have hpos : (0 : ℝ) < 1 / (2 * Real.pi * Real.sqrt (900 * 900 - 0 ^ 2)) := by
    have : (0 : ℝ) < Real.sqrt (900 * 900 - 0 ^ 2) := Real.sqrt_pos.mpr (by norm_num)
    have := Real.pi_pos
    positivity
  rw [abs_one]
  nlinarith

/-- `computeRadius` leaves out the means: with it, a star whose PSF is displaced by ten pixels shows nothing where it is brightest. -/
theorem C165_means_false : ∃ (p : GPsf) (r : ℝ) (res : Option (Patch ℝ)), (∀ c ∈ p.mog, Proper c) ∧ computeRadius p.mog = .ok r ∧
    p.radius = some r ∧ starPatch p { px := 50, py := 50 } 100 100 (some 0) none = .ok res ∧ InImage 100 100 60 50 ∧
    shown res 60 50 = 0 ∧ densityMix p.mog (((60 : Int) : ℝ) - 50) (((50 : Int) : ℝ) - 50) = peaks p.mog := by
  have hP : ∀ c ∈ ([⟨1, 10, 0, 1, 0, 0, 1⟩] : Mix ℝ), Proper c := by
    intro c hc
    simp only [List.mem_singleton] at hc
    subst hc
    unfold Proper; norm_num
  have hr : computeRadius [⟨1, 10, 0, 1, 0, 0, 1⟩] = .ok 5 := by
    unfold computeRadius maxEig
    simp
  obtain ⟨res, h1, _, h3⟩ := C165_star ⟨[⟨1, 10, 0, 1, 0, 0, 1⟩], some 5⟩ hP { px := 50, py := 50 } 5 rfl rfl 100 100 (some 0)
    (fun v hv => by simp at hv; exact hv.symm.le)
  have hi : InImage 100 100 60 50 := by unfold InImage; norm_num
  refine ⟨_, 5, res, hP, hr, rfl, h1, hi, (h3 60 50 hi).2 (by norm_num [abs_lt]), ?_⟩
  have hq : distSq ⟨1, 10, 0, 1, 0, 0, 1⟩ (((60 : Int) : ℝ) - 50) (((50 : Int) : ℝ) - 50) = 0 := by unfold distSq; norm_num
  unfold densityMix peaks
  simp only [List.map_cons, List.map_nil, List.sum_cons, List.sum_nil, add_zero]
  unfold density peak
  rw [hq]
  norm_num

end Verif.Star
