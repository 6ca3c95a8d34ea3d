import Verif.Star.PropsWhole

/-!
# C171: residuals and likelihood of a true scene
-/

namespace Verif.Star

open Verif.Gal (ModelMask)

variable {B : Type}

open Classical in
/-- The scene: the sky plus the light that arrives of every source of the catalog whose mask the pixel is set in. -/
noncomputable def scene (frame : Engine.Image ℝ → Frame B) (what : Engine.Source ℝ → Engine.Image ℝ → Thing B) (sky : Engine.Image ℝ → Engine.Sky ℝ)
    (T : Engine.Tractor ℝ ModelMask) (k : Engine.Image ℝ → Engine.Source ℝ → ModelMask) (img : Engine.Image ℝ) (y x : Nat) : ℝ :=
  (sky img).at x y + (((T.catalog.map (·.2)).filterMap id).map
    (fun src => if OnMask (k img src) x y then (what src img).light (frame img) x y else 0)).sum

/-- `exp(-30)` of the counts of all sources times the light of their profiles times the peaks of the PSF. -/
noncomputable def sceneTol (frame : Engine.Image ℝ → Frame B) (what : Engine.Source ℝ → Engine.Image ℝ → Thing B) (T : Engine.Tractor ℝ ModelMask)
    (img : Engine.Image ℝ) : ℝ := (((T.catalog.map (·.2)).filterMap id).map (fun src => (what src img).tol (frame img))).sum

/-- An image in which every source of the catalog has a mask and can be drawn; its PSF is one of Gaussians. -/
structure Observed (frame : Engine.Image ℝ → Frame B) (what : Engine.Source ℝ → Engine.Image ℝ → Thing B) (T : Engine.Tractor ℝ ModelMask)
    (k : Engine.Image ℝ → Engine.Source ℝ → ModelMask) (img : Engine.Image ℝ) : Prop where
  masks : Engine.MasksOK T img
  sound : (frame img).Sound
  high : (frame img).S.H = img.data.h
  wide : (frame img).S.W = img.data.w
  errHigh : img.inverr.h = img.data.h
  errWide : img.inverr.w = img.data.w
  own : ∀ src, some src ∈ T.catalog.map (·.2) → Engine.HasMask T img src (some (k img src))
  draw : ∀ src, some src ∈ T.catalog.map (·.2) → CanDraw (frame img) (some (k img src)) (what src img)

/-- **Residuals**: the chi image is what the data have beyond the scene, times the inverse error. -/
theorem C171_chi (frame : Engine.Image ℝ → Frame B) (what : Engine.Source ℝ → Engine.Image ℝ → Thing B) (sky : Engine.Image ℝ → Engine.Sky ℝ)
    (T : Engine.Tractor ℝ ModelMask) (k : Engine.Image ℝ → Engine.Source ℝ → ModelMask) (img : Engine.Image ℝ) (h : Observed frame what T k img) :
    ∃ chi, Engine.getChiImage (sceneWorld frame what sky) T img none = .ok chi ∧ chi.h = img.data.h ∧ chi.w = img.data.w ∧
      ∀ y x : Nat, y < img.data.h → x < img.data.w →
        |chi.px y x - (img.data.px y x - scene frame what sky T k img y x) * img.inverr.px y x| ≤ sceneTol frame what T img * |img.inverr.px y x| := by
  obtain ⟨r, h1, h2, h3, h4⟩ := C170_masks frame what sky T img h.masks h.sound h.high h.wide none (k img) h.own h.draw
  refine ⟨⟨img.data.h, img.data.w, fun y x => (img.data.px y x - r.px y x) * img.inverr.px y x⟩, ?_, rfl, rfl, fun y x hy hx => ?_⟩
  · unfold Engine.getChiImage
    rw [h1]
    exact if_pos ⟨h2.symm, h3.symm, h.errHigh.symm, h.errWide.symm⟩
  · have h : |r.px y x - scene frame what sky T k img y x| ≤ sceneTol frame what T img := h4 y x hy hx
    dsimp only
    rw [← sub_mul, abs_mul]
    refine mul_le_mul_of_nonneg_right ?_ (abs_nonneg _)
    rw [sub_sub_sub_cancel_left, abs_sub_comm]
    exact h

open Finset in
/-- **Likelihood**: never above zero; and if in all pixels with a nonzero inverse error the data are the scene, then as good as zero, the most likely of all. -/
theorem C171_truth (frame : Engine.Image ℝ → Frame B) (what : Engine.Source ℝ → Engine.Image ℝ → Thing B) (sky : Engine.Image ℝ → Engine.Sky ℝ)
    (T : Engine.Tractor ℝ ModelMask) (k : Engine.Image ℝ → Engine.Source ℝ → ModelMask) (h : ∀ x ∈ T.images, Observed frame what T k x.2) :
    ∃ L, Engine.getLogLikelihood (sceneWorld frame what sky) T = .ok L ∧ L ≤ 0 ∧
      ((∀ z ∈ T.images, ∀ y x : Nat, y < z.2.data.h → x < z.2.data.w → z.2.inverr.px y x ≠ 0 → z.2.data.px y x = scene frame what sky T k z.2 y x) →
        -(1 / 2) * (T.images.map (fun z => ∑ y ∈ range z.2.data.h, ∑ x ∈ range z.2.data.w, (sceneTol frame what T z.2 * z.2.inverr.px y x) ^ 2)).sum ≤ L) := by
  have hm : ∀ x ∈ T.images, Engine.MasksOK T x.2 := fun x hx => (h x hx).masks
  have he : ∀ x ∈ T.images, x.2.inverr.h = x.2.data.h ∧ x.2.inverr.w = x.2.data.w := fun x hx => ⟨(h x hx).errHigh, (h x hx).errWide⟩
  obtain ⟨mods, h1, h2⟩ := Engine.C30_loglikelihood (sceneWorld frame what sky) T hm he
  refine ⟨_, h2, Engine.C30_nonpos _ T hm he _ h2, fun hdata => ?_⟩
  have key : ∀ (l : List (Bool × Engine.Image ℝ)) (ms : List (Arr ℝ)), (∀ z ∈ l, z ∈ T.images) →
      List.Forall₂ (fun x m => Engine.getModelImage (sceneWorld frame what sky) T x.2 none true = .ok m) l ms →
      ((l.zip ms).map (fun p => ∑ y ∈ range p.1.2.data.h, ∑ x ∈ range p.1.2.data.w, ((p.1.2.data.px y x - p.2.px y x) * p.1.2.inverr.px y x) ^ 2)).sum ≤
        (l.map (fun z => ∑ y ∈ range z.2.data.h, ∑ x ∈ range z.2.data.w, (sceneTol frame what T z.2 * z.2.inverr.px y x) ^ 2)).sum := by
    intro l ms hl hf
    induction hf with
    | nil => simp
    | @cons z m l ms hzm _ ih =>
      rw [List.zip_cons_cons, List.map_cons, List.map_cons, List.sum_cons, List.sum_cons]
      refine add_le_add ?_ (ih (fun z hz => hl z (List.mem_cons_of_mem _ hz)))
      have hz := hl z List.mem_cons_self
      have ho := h z hz
      obtain ⟨r, r1, -, -, r4⟩ := C170_masks frame what sky T z.2 ho.masks ho.sound ho.high ho.wide none (k z.2) ho.own ho.draw
      obtain rfl : r = m := Except.ok.inj (r1.symm.trans hzm)
      refine Finset.sum_le_sum (fun y hy => Finset.sum_le_sum (fun x hx => ?_))
      rw [Finset.mem_range] at hy hx
      dsimp only
      by_cases h0 : z.2.inverr.px y x = 0
      · rw [h0, mul_zero, mul_zero]
      · have hb : |r.px y x - scene frame what sky T k z.2 y x| ≤ sceneTol frame what T z.2 := r4 y x hy hx
        rw [hdata z hz y x hy hx h0, mul_pow, mul_pow]
        refine mul_le_mul_of_nonneg_right ?_ (sq_nonneg _)
        rw [← sq_abs]
        rw [abs_sub_comm] at hb
        exact pow_le_pow_left₀ (abs_nonneg _) hb 2
  have := key T.images mods (fun z hz => hz) h1
  linarith

open Finset in
/-- **A wrong scene is noticed**: a pixel in which the data differ from the scene by more than the tolerance costs what its excess is worth. -/
theorem C171_wrong (frame : Engine.Image ℝ → Frame B) (what : Engine.Source ℝ → Engine.Image ℝ → Thing B) (sky : Engine.Image ℝ → Engine.Sky ℝ)
    (T : Engine.Tractor ℝ ModelMask) (k : Engine.Image ℝ → Engine.Source ℝ → ModelMask) (h : ∀ x ∈ T.images, Observed frame what T k x.2)
    (L : ℝ) (hL : Engine.getLogLikelihood (sceneWorld frame what sky) T = .ok L) (z : Bool × Engine.Image ℝ) (hz : z ∈ T.images) (y x : Nat)
    (hy : y < z.2.data.h) (hx : x < z.2.data.w) (hd : sceneTol frame what T z.2 ≤ |z.2.data.px y x - scene frame what sky T k z.2 y x|) :
    L ≤ -(1 / 2) * ((|z.2.data.px y x - scene frame what sky T k z.2 y x| - sceneTol frame what T z.2) * z.2.inverr.px y x) ^ 2 := by
  have hm : ∀ x ∈ T.images, Engine.MasksOK T x.2 := fun x hx => (h x hx).masks
  have he : ∀ x ∈ T.images, x.2.inverr.h = x.2.data.h ∧ x.2.inverr.w = x.2.data.w := fun x hx => ⟨(h x hx).errHigh, (h x hx).errWide⟩
  obtain ⟨mods, h1, h2⟩ := Engine.C30_loglikelihood (sceneWorld frame what sky) T hm he
  obtain rfl := Except.ok.inj (hL.symm.trans h2)
  have key : ∀ (l : List (Bool × Engine.Image ℝ)) (ms : List (Arr ℝ)), z ∈ l →
      List.Forall₂ (fun x m => Engine.getModelImage (sceneWorld frame what sky) T x.2 none true = .ok m) l ms →
      ((|z.2.data.px y x - scene frame what sky T k z.2 y x| - sceneTol frame what T z.2) * z.2.inverr.px y x) ^ 2 ≤
      ((l.zip ms).map (fun p => ∑ y ∈ range p.1.2.data.h, ∑ x ∈ range p.1.2.data.w, ((p.1.2.data.px y x - p.2.px y x) * p.1.2.inverr.px y x) ^ 2)).sum := by
    intro l ms hl hf
    induction hf with
    | nil => simp at hl
    | @cons w m l ms hwm _ ih =>
      rw [List.zip_cons_cons, List.map_cons, List.sum_cons]
      have p1 : 0 ≤ ∑ y ∈ range w.2.data.h, ∑ x ∈ range w.2.data.w, ((w.2.data.px y x - m.px y x) * w.2.inverr.px y x) ^ 2 :=
        Finset.sum_nonneg (fun _ _ => Finset.sum_nonneg (fun _ _ => sq_nonneg _))
      have p2 : 0 ≤ ((l.zip ms).map (fun p => ∑ y ∈ range p.1.2.data.h, ∑ x ∈ range p.1.2.data.w,
          ((p.1.2.data.px y x - p.2.px y x) * p.1.2.inverr.px y x) ^ 2)).sum := by
        refine List.sum_nonneg (fun a ha => ?_)
        obtain ⟨p, -, rfl⟩ := List.mem_map.mp ha
        exact Finset.sum_nonneg (fun _ _ => Finset.sum_nonneg (fun _ _ => sq_nonneg _))
      rcases List.mem_cons.mp hl with rfl | hl
      · have ho := h z hz
        obtain ⟨r, r1, -, -, r4⟩ := C170_masks frame what sky T z.2 ho.masks ho.sound ho.high ho.wide none (k z.2) ho.own ho.draw
        obtain rfl : r = m := Except.ok.inj (r1.symm.trans hwm)
        have hb : |r.px y x - scene frame what sky T k z.2 y x| ≤ sceneTol frame what T z.2 := r4 y x hy hx
        have ht : |z.2.data.px y x - scene frame what sky T k z.2 y x| ≤ |z.2.data.px y x - r.px y x| + |r.px y x - scene frame what sky T k z.2 y x| :=
          abs_sub_le _ _ _
        have q1 : ((|z.2.data.px y x - scene frame what sky T k z.2 y x| - sceneTol frame what T z.2) * z.2.inverr.px y x) ^ 2 ≤
            ((z.2.data.px y x - r.px y x) * z.2.inverr.px y x) ^ 2 := by
          rw [mul_pow, mul_pow]
          refine mul_le_mul_of_nonneg_right ?_ (sq_nonneg _)
          rw [← sq_abs (z.2.data.px y x - r.px y x)]
          exact pow_le_pow_left₀ (by linarith) (by linarith) 2
        have q2 : ((z.2.data.px y x - r.px y x) * z.2.inverr.px y x) ^ 2 ≤
            ∑ x ∈ range z.2.data.w, ((z.2.data.px y x - r.px y x) * z.2.inverr.px y x) ^ 2 :=
          Finset.single_le_sum (f := fun x => ((z.2.data.px y x - r.px y x) * z.2.inverr.px y x) ^ 2) (fun _ _ => sq_nonneg _) (Finset.mem_range.mpr hx)
        have q3 : ∑ x ∈ range z.2.data.w, ((z.2.data.px y x - r.px y x) * z.2.inverr.px y x) ^ 2 ≤
            ∑ y ∈ range z.2.data.h, ∑ x ∈ range z.2.data.w, ((z.2.data.px y x - r.px y x) * z.2.inverr.px y x) ^ 2 :=
          Finset.single_le_sum (f := fun y => ∑ x ∈ range z.2.data.w, ((z.2.data.px y x - r.px y x) * z.2.inverr.px y x) ^ 2)
            (fun _ _ => Finset.sum_nonneg (fun _ _ => sq_nonneg _)) (Finset.mem_range.mpr hy)
        dsimp only
        linarith
      · have := ih hl
        dsimp only
        linarith
  have := key T.images mods hz h1
  linarith

/-! The scene of the examples of C170 as data, with inverse error 1/3 everywhere. -/

def exK' (_ : Engine.Image ℝ) (_ : Engine.Source ℝ) : ModelMask := exK

noncomputable def exFull (data : Arr ℝ) : Engine.Tractor ℝ ModelMask :=
  ⟨true, [(true, ⟨0, .nil, data, ⟨30, 40, fun _ _ => 1 / 3⟩⟩)], true, [(true, some (exSrcs 0)), (true, none), (true, some (exSrcs 1))],
    some [[(0, exK), (1, exK)]], true⟩

noncomputable def exData : Arr ℝ :=
  ⟨30, 40, fun y x => scene (fun _ => exFrame) (fun s _ => exWhat s) (fun _ => .constant 2) (exFull (Arr.zeros 30 40)) exK' exScene y x⟩

theorem exFull_observed (data : Arr ℝ) (hh : data.h = 30) (hw : data.w = 40) :
    ∀ z ∈ (exFull data).images, Observed (fun _ => exFrame) (fun s _ => exWhat s) (exFull data) exK' z.2 := by
  intro z hz
  obtain rfl := List.mem_singleton.mp hz
  have hs : ∀ src, some src ∈ (exFull data).catalog.map (·.2) → src = exSrcs 0 ∨ src = exSrcs 1 := by
    intro src h
    simpa [exFull] using h
  refine ⟨?_, exFrame_sound, hh.symm, hw.symm, hh.symm, hw.symm, fun src h => ?_, fun src h => ?_⟩
  · intro masks h
    cases h
    exact ⟨rfl, _, List.mem_singleton.mpr rfl, rfl⟩
  · rcases hs src h with rfl | rfl
    · exact .entry _ rfl 0 true _ rfl rfl (fun j _ h => absurd h (Nat.not_lt_zero j)) _ rfl [] [(1, exK)] exK (by simp) rfl
    · exact .entry _ rfl 0 true _ rfl rfl (fun j _ h => absurd h (Nat.not_lt_zero j)) _ rfl [(0, exK)] [] exK (by simp [exSrcs]) rfl
  · rcases hs src h with rfl | rfl
    · exact ⟨rfl, 25, rfl, fun _ => by norm_num [exFrame]⟩
    · exact ⟨exMade_sound 1 (by norm_num), exMade_sound 2 (by norm_num)⟩

example : ∃ L, Engine.getLogLikelihood (sceneWorld (fun _ => exFrame) (fun s _ => exWhat s) (fun _ => .constant 2)) (exFull exData) = .ok L ∧ L ≤ 0 ∧
    -(1 / 2) * (1200 * (sceneTol (fun _ => exFrame) (fun s _ => exWhat s) (exFull exData) exScene / 3) ^ 2) ≤ L := by
  obtain ⟨L, h1, h2, h3⟩ := C171_truth (fun _ => exFrame) (fun s _ => exWhat s) (fun _ => .constant 2) (exFull exData) exK' (exFull_observed exData rfl rfl)
  refine ⟨L, h1, h2, ?_⟩
  have h := h3 (fun z hz y x _ _ _ => by
    obtain rfl := List.mem_singleton.mp hz
    rfl)
  refine le_trans (le_of_eq ?_) h
  congr 1
  have e : ((exFull exData).images.map (fun z => ∑ y ∈ Finset.range z.2.data.h, ∑ x ∈ Finset.range z.2.data.w,
      (sceneTol (fun _ => exFrame) (fun s _ => exWhat s) (exFull exData) z.2 * z.2.inverr.px y x) ^ 2)).sum =
      ∑ _y ∈ Finset.range 30, ∑ _x ∈ Finset.range 40, (sceneTol (fun _ => exFrame) (fun s _ => exWhat s) (exFull exData) exScene * (1 / 3)) ^ 2 :=
    add_zero _
  rw [e]
  simp only [Finset.sum_const, Finset.card_range, nsmul_eq_mul]
  push_cast
  ring

theorem exTol (data : Arr ℝ) (img : Engine.Image ℝ) : sceneTol (fun _ => exFrame) (fun s _ => exWhat s) (exFull data) img ≤ 1 := by
  have e : sceneTol (fun _ => exFrame) (fun s _ => exWhat s) (exFull data) img = |(10 : ℝ)| * (Real.exp (-30) * Gauss.peaks exPsf.mog) +
      ((|(3 : ℝ)| * (Real.exp (-30) * ((|(1 : ℝ)| + 0) * Gauss.peaks exPsf.mog)) + |(4 : ℝ)| * (Real.exp (-30) * ((|(1 : ℝ)| + 0) * Gauss.peaks exPsf.mog))) + 0) := rfl
  have hp : Gauss.peaks exPsf.mog ≤ 1 := by
    have hpi := Real.two_le_pi
    simp only [Gauss.peaks, exPsf, Gauss.peak, List.map_cons, List.map_nil, List.sum_cons, List.sum_nil]
    norm_num
    rw [mul_comm, ← div_eq_mul_inv, div_le_one (by positivity)]
    linarith
  have hx : Real.exp (-30) ≤ 1 / 31 := by
    rw [Real.exp_neg, ← one_div]
    exact one_div_le_one_div_of_le (by norm_num) (by linarith [Real.add_one_le_exp (30 : ℝ)])
  have hm : Real.exp (-30) * Gauss.peaks exPsf.mog ≤ 1 / 31 * 1 := mul_le_mul hx hp (peaks_nonneg _) (by norm_num)
  rw [e, abs_of_pos (by norm_num), abs_of_pos (by norm_num), abs_of_pos (by norm_num), abs_of_pos (by norm_num), add_zero, add_zero, one_mul]
  linarith

-- black data: the sky of 2 is missing in the pixel (9, 6), outside the mask
example (L : ℝ) (hL : Engine.getLogLikelihood (sceneWorld (fun _ => exFrame) (fun s _ => exWhat s) (fun _ => .constant 2))
    (exFull (Arr.zeros 30 40)) = .ok L) : L ≤ -(1 / 2) * (1 / 3) ^ 2 := by
  have ho : ∀ img src, ¬ OnMask (exK' img src) ((9 : Nat) : Int) ((6 : Nat) : Int) := by
    rintro img src ⟨h, -⟩
    unfold exK' exK at h
    dsimp only at h
    omega
  have hsc : scene (fun _ => exFrame) (fun s _ => exWhat s) (fun _ => .constant 2) (exFull (Arr.zeros 30 40)) exK'
      ⟨0, .nil, Arr.zeros 30 40, ⟨30, 40, fun _ _ => 1 / 3⟩⟩ 6 9 = 2 := by
    unfold scene
    have e : ((exFull (Arr.zeros 30 40)).catalog.map (·.2)).filterMap id = [exSrcs 0, exSrcs 1] := rfl
    rw [e]
    simp only [List.map_cons, List.map_nil, List.sum_cons, List.sum_nil]
    rw [if_neg (ho _ _), if_neg (ho _ _), add_zero, add_zero, add_zero]
    rfl
  have ht := exTol (Arr.zeros 30 40) ⟨0, .nil, Arr.zeros 30 40, ⟨30, 40, fun _ _ => 1 / 3⟩⟩
  have h := C171_wrong (fun _ => exFrame) (fun s _ => exWhat s) (fun _ => .constant 2) (exFull (Arr.zeros 30 40)) exK'
    (exFull_observed _ rfl rfl) L hL (true, ⟨0, .nil, Arr.zeros 30 40, ⟨30, 40, fun _ _ => 1 / 3⟩⟩) (List.mem_singleton.mpr rfl) 6 9
    (by show 6 < 30; omega) (by show 9 < 40; omega)
  dsimp only at h
  rw [hsc] at h
  have hd : |(Arr.zeros 30 40 : Arr ℝ).px 6 9 - 2| = 2 := by
    show |(0 : ℝ) - 2| = 2
    norm_num
  rw [hd] at h
  refine (h (by linarith)).trans ?_
  have : (1 / 3 : ℝ) ^ 2 ≤ ((2 - sceneTol (fun _ => exFrame) (fun s _ => exWhat s) (exFull (Arr.zeros 30 40))
      ⟨0, .nil, Arr.zeros 30 40, ⟨30, 40, fun _ _ => 1 / 3⟩⟩) * (1 / 3)) ^ 2 := pow_le_pow_left₀ (by norm_num) (by linarith) 2
  linarith

-- and the residuals of black data
example : ∃ chi, Engine.getChiImage (sceneWorld (fun _ => exFrame) (fun s _ => exWhat s) (fun _ => .constant 2)) (exFull (Arr.zeros 30 40))
      ⟨0, .nil, Arr.zeros 30 40, ⟨30, 40, fun _ _ => 1 / 3⟩⟩ none = .ok chi ∧
    |chi.px 6 6 + scene (fun _ => exFrame) (fun s _ => exWhat s) (fun _ => .constant 2) (exFull (Arr.zeros 30 40)) exK' exScene 6 6 / 3| ≤ 1 / 3 := by
  obtain ⟨chi, h1, -, -, h4⟩ := C171_chi (fun _ => exFrame) (fun s _ => exWhat s) (fun _ => .constant 2) (exFull (Arr.zeros 30 40)) exK' _
    (exFull_observed (Arr.zeros 30 40) rfl rfl _ (List.mem_singleton.mpr rfl))
  refine ⟨chi, h1, ?_⟩
  have h := h4 6 6 (by show 6 < 30; omega) (by show 6 < 40; omega)
  have h : |chi.px 6 6 - (0 - scene (fun _ => exFrame) (fun s _ => exWhat s) (fun _ => .constant 2) (exFull (Arr.zeros 30 40)) exK' exScene 6 6) * (1 / 3)| ≤
    sceneTol (fun _ => exFrame) (fun s _ => exWhat s) (exFull (Arr.zeros 30 40)) exScene * |(1 / 3 : ℝ)| := h
  have ht := exTol (Arr.zeros 30 40) exScene
  rw [abs_of_pos (show (0 : ℝ) < 1 / 3 by norm_num)] at h
  rw [abs_le] at h ⊢
  constructor <;> linarith [h.1, h.2]

end Verif.Star
