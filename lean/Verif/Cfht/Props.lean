import Verif.Cfht.Lemmas

/-!
# C132: photometric calibrations from headers
-/

namespace Verif.Cfht

noncomputable section

/-- Both calibrations from one header give a star the same counts, from its magnitude or from its flux in nanomaggies. -/
theorem C132_agree (h : Header) (ht : 0 < h.exptime) (b b' : Option String) (s M : ℝ) :
    (Cal.mk' h b).counts M = .ok ((Linear.mk' (some h) b' s).counts (magToNanomaggies M)) := by
  unfold Cal.mk' Cal.counts Linear.mk' Linear.counts magToNanomaggies zeropointToScale
  simp only []
  rw [← pow10_add]
  have e : (M - 22.5) / -2.5 + (2.5 * Real.logb 10 h.exptime + h.photC + h.photK * (h.airmass - 1) - 22.5) / 2.5 =
      Real.logb 10 h.exptime + (M - h.photC - h.photK * (h.airmass - 1)) / -2.5 := by ring
  rw [e, pow10_add, pow10_log ht]

/-- The counts are those of the formula in the header: `M = -2.5 log DN + 2.5 log EXPTIME + PHOT_C + PHOT_K (AIRMASS - 1)`. -/
theorem C132_header (h : Header) (ht : 0 < h.exptime) (b : Option String) (M : ℝ) :
    ∃ n, (Cal.mk' h b).counts M = .ok n ∧ 0 < n ∧
      M = -2.5 * Real.logb 10 n + 2.5 * Real.logb 10 h.exptime + h.photC + h.photK * (h.airmass - 1) := by
  refine ⟨_, rfl, mul_pos ht (pow10_pos _), ?_⟩
  have e : Real.logb 10 ((Cal.mk' h b).exptime * 10 ^ ((M - h.photC - (Cal.mk' h b).photK * ((Cal.mk' h b).airmass - 1)) / -2.5)) =
      Real.logb 10 h.exptime + (M - h.photC - h.photK * (h.airmass - 1)) / -2.5 := by
    change Real.logb 10 (h.exptime * 10 ^ ((M - h.photC - h.photK * (h.airmass - 1)) / -2.5)) = _
    rw [Real.logb_mul (ne_of_gt ht) (ne_of_gt (pow10_pos _)), Real.logb_rpow (by norm_num) (by norm_num)]
  rw [e]
  ring

/-- A brighter star has more counts. -/
theorem C132_order (c : Cal) (ht : 0 < c.exptime) (M M' : ℝ) (n n' : ℝ) (h : c.counts M = .ok n) (h' : c.counts M' = .ok n') :
    M < M' ↔ n' < n := by
  unfold Cal.counts at h h'
  cases hp : c.photC with
  | none => rw [hp] at h; cases h
  | some p =>
    rw [hp] at h h'
    cases h
    cases h'
    rw [mul_lt_mul_iff_right₀ ht, Real.rpow_lt_rpow_left_iff (by norm_num)]
    rw [div_lt_div_right_of_neg (by norm_num : (-2.5 : ℝ) < 0)]
    constructor
    · intro h; linarith
    · intro h; linarith

/-- The parameter: what is set is read, and a change multiplies all counts by the factor of that many magnitudes. -/
theorem C132_param (c : Cal) (p q : ℝ) (h : c.photC = some p) (M n : ℝ) (hn : c.counts M = .ok n) :
    ∃ c', (c.setParam 0 (some q)).map Prod.fst = .ok c' ∧ c'.getParams = [some q] ∧ c'.counts M = .ok (n * 10 ^ ((q - p) / 2.5)) := by
  refine ⟨{ c with photC := some q }, rfl, rfl, ?_⟩
  unfold Cal.counts at hn ⊢
  rw [h] at hn
  cases hn
  simp only []
  rw [mul_assoc, ← pow10_add]
  congr 3
  ring

/-- Copies of a calibration give the same counts: always for `CfhtPhotoCal`, with a header for `CfhtLinearPhotoCal` (partial). -/
theorem C132_copy_partial (c : Cal) (l : Linear) (hl : l.hdr ≠ none) :
    (∀ M, c.copy.counts M = c.counts M) ∧ c.copy.band = c.band ∧
    ∃ l', l.copy = .ok l' ∧ l'.band = l.band ∧ l'.hdr = l.hdr ∧ ∀ f, l'.counts f = l.counts f := by
  refine ⟨fun M => rfl, rfl, ?_⟩
  unfold Linear.copy
  cases h : l.hdr with
  | none => exact absurd h hl
  | some hd => exact ⟨_, rfl, rfl, rfl, fun f => rfl⟩

/-- A `CfhtLinearPhotoCal` made from a scale cannot be copied. -/
theorem C132_copy_false (b : Option String) (s : ℝ) : (Linear.mk' none b s).copy = .error .attribute := rfl

/-- `setParam` does not return the old value: a step as the optimizer takes it leaves the parameter `None`, and no counts can be had after. -/
theorem C132_step_false (h : Header) (b : Option String) (d M : ℝ) :
    ∃ c n, (Cal.mk' h b).step d M = .ok (c, n) ∧ c.getParams = [none] ∧ ∀ M', c.counts M' = .error .typeErr := by
  refine ⟨_, _, rfl, rfl, fun M' => rfl⟩

/-- Calibrations with the same key give the same counts in the same band (partial: the band is not in the key). -/
theorem C132_key_partial (c c' : Cal) (h : c.hashkey = c'.hashkey) (hb : c.band = c'.band) (mag : Option String → ℝ) :
    c.countsOf mag = c'.countsOf mag := by
  unfold Cal.hashkey at h
  simp only [Prod.mk.injEq] at h
  obtain ⟨h1, h2, h3, h4⟩ := h
  unfold Cal.countsOf Cal.counts
  rw [h1, h2, h3, h4, hb]

/-- Two calibrations with one key can give one star different counts: their bands differ. -/
theorem C132_key_false : ∃ (c c' : Cal) (mag : Option String → ℝ), c.hashkey = c'.hashkey ∧ c.countsOf mag ≠ c'.countsOf mag := by
  refine ⟨Cal.mk' ⟨1, 25, 0, 1⟩ (some "g"), Cal.mk' ⟨1, 25, 0, 1⟩ (some "r"), fun b => if b = some "g" then 25 else 22.5, rfl, ?_⟩
  have a : (Cal.mk' ⟨1, 25, 0, 1⟩ (some "g")).countsOf (fun b => if b = some "g" then 25 else 22.5) = .ok 1 := by
    simp [Cal.mk', Cal.countsOf, Cal.counts]
  have b : (Cal.mk' ⟨1, 25, 0, 1⟩ (some "r")).countsOf (fun b => if b = some "g" then 25 else 22.5) = .ok 10 := by
    simp [Cal.mk', Cal.countsOf, Cal.counts]
    norm_num
  rw [a, b]
  simp

/-- SDSS DR7: counts from a magnitude with atmospheric extinction, none for magnitudes beyond 50 and those that are not finite. -/
theorem C132_sdss (t aa kk am m : ℝ) (ht : 0 < t) :
    sdssCounts t aa kk am none = 0 ∧ (50 < m → sdssCounts t aa kk am (some m) = 0) ∧
    (m ≤ 50 → sdssCounts t aa kk am (some m) = t * 10 ^ (-0.4 * (m + aa + kk * am)) ∧
      m = -2.5 * Real.logb 10 (sdssCounts t aa kk am (some m)) + 2.5 * Real.logb 10 t - (aa + kk * am)) := by
  refine ⟨rfl, ?_, ?_⟩
  · intro h
    unfold sdssCounts
    simp only [gt_iff_lt, h, if_true]
  · intro h
    have e : sdssCounts t aa kk am (some m) = 10 ^ (-0.4 * m + Real.logb 10 t - 0.4 * (aa + kk * am)) := by
      unfold sdssCounts
      simp only [gt_iff_lt, not_lt.2 h, if_false]
    rw [e]
    refine ⟨?_, ?_⟩
    · have e' : -0.4 * m + Real.logb 10 t - 0.4 * (aa + kk * am) = Real.logb 10 t + -0.4 * (m + aa + kk * am) := by ring
      rw [e', pow10_add, pow10_log ht]
    rw [Real.logb_rpow (by norm_num) (by norm_num)]
    ring

end

/-- tractor/sdss_dr7.py cannot be imported: the base of its calibration is not a name there. -/
theorem C132_import_false (builtins : List String) (h : "BaseParams" ∉ builtins) : load builtins dr7Module = .error .nameErr := by
  have : ("BaseParams" == "get_tractor_image_dr7") = false := by decide
  simp [load, dr7Module, h]

/-- With the import it would be fine. -/
example : (load ["object"] (.imp ["BaseParams"] :: dr7Module)).isOk = true := by decide

/-- A header as those of MegaCam. -/
example : (0 : ℝ) < (⟨600, 26, -0.15, 1.2⟩ : Header).exptime := by norm_num

/-- A star of magnitude 26 in one second through no atmosphere: one count. -/
example : (Cal.mk' ⟨1, 26, 0, 1⟩ none).counts 26 = .ok 1 := by
  simp [Cal.mk', Cal.counts]

end Verif.Cfht
