import Verif.Lsq.SmarterLemmas2

/-!
# Lemmas: SmarterDenseOptimizer, the reduction to the dense optimizer
-/

set_option linter.unusedSectionVars false

namespace Verif.Lsq

open Verif Verif.Params Verif.Patches

variable {R : Type} [Field R] [LinearOrder R]

/-- The derivatives of the live parameters, clipped and moved. -/
def cropDs (imgs : Nat → Img R) (live : List Bool) (ds : Derivs R) : Derivs R :=
  keep live (ds.map (List.map (cropOne imgs)))

theorem mem_used {ds : Derivs R} {param : List (Patch R × Nat)} (hp : param ∈ ds) {e : Patch R × Nat} (he : e ∈ param) :
    e.2 ∈ usedImages ds := by
  simp only [usedImages, List.mem_toFinset, List.mem_flatMap, List.mem_map]
  exact ⟨param, hp, e, he, rfl⟩

theorem crop_flatMap (imgs : Nat → Img R) (ds : Derivs R) (live : List Bool) (hlen : live.length = ds.length)
    (hdead : ∀ k : Nat, live[k]? = some false → ds[k]? = some []) :
    (cropDs imgs live ds).flatMap (fun param => param.map (·.2)) = ds.flatMap (fun param => param.map (·.2)) := by
  rw [cropDs, keep_flatMap]
  · rw [List.flatMap_map]
    congr 1
    funext param
    rw [List.map_map]; rfl
  · simp [hlen]
  · intro k hk a ha
    rw [List.getElem?_map, hdead k hk] at ha
    simp only [Option.map_some, List.map_nil, Option.some.injEq] at ha
    subst ha; rfl

theorem crop_used (imgs : Nat → Img R) (ds : Derivs R) (live : List Bool) (hlen : live.length = ds.length)
    (hdead : ∀ k : Nat, live[k]? = some false → ds[k]? = some []) :
    usedImages (cropDs imgs live ds) = usedImages ds := by
  rw [usedImages, crop_flatMap imgs ds live hlen hdead, usedImages]

/-- The weighted derivative in and outside the box. -/
theorem slope_crop (imgs : Nat → Img R) (box : Nat → Box) (param : List (Patch R × Nat)) (i : Nat)
    (hb : FullBox (imgs i) (box i)) (h1 : (imgs i).inverr.h = (imgs i).h) (h2 : (imgs i).inverr.w = (imgs i).w)
    (h : ∀ e ∈ param, e.2 = i → Outside (imgs i) e.1 ∨ Fills (imgs i) e.1 (box i)) :
    (∀ y x : Nat, y < (cropImg imgs box i).h → x < (cropImg imgs box i).w →
      slope (cropImg imgs box) (param.map (cropOne imgs)) i y x =
        slope imgs param i ((box i).2.2.1.toNat + y) ((box i).1.toNat + x)) ∧
    ∀ y x : Nat, y < (imgs i).h → x < (imgs i).w → ¬ inBox (box i) x y → slope imgs param i y x = 0 := by
  induction param with
  | nil => exact ⟨fun y x _ _ => rfl, fun y x _ _ _ => rfl⟩
  | cons e param ih =>
    obtain ⟨ih1, ih2⟩ := ih (fun e' he' => h e' (by simp [he']))
    have hbb := hb
    simp only [FullBox] at hbb
    by_cases hi : e.2 = i
    · subst hi
      have hpx : ∀ y x : Nat, (cropImg imgs box e.2).inverr.px y x =
          (imgs e.2).inverr.px ((box e.2).2.2.1.toNat + y) ((box e.2).1.toNat + x) := by
        intro y x
        simp only [cropImg]
        rw [cut_ok _ _ _ hb h1 h2]
      by_cases hf : Fills (imgs e.2) e.1 (box e.2)
      · obtain ⟨q, P, hq, hP, hext, hh, hw, hin, hout⟩ := clip_fills _ _ _ hb hf
        constructor
        · intro y x hy hx
          rw [List.map_cons, slope_cons, slope_cons, ih1 y x hy hx, if_pos rfl, if_pos (show (cropOne imgs e).2 = e.2 from rfl),
            hpx]
          simp only [cropImg] at hy hx
          congr 2
          simp only [cropOne, hq, Patch.at, hP]
          rw [if_pos (by omega)]
          simp only [sub_zero, Int.toNat_natCast]
          exact hin y x (by omega) (by omega)
        · intro y x hy hx hn
          rw [slope_cons, ih2 y x hy hx hn, if_pos rfl, hout y x hy hx hn, zero_mul, zero_add]
      · obtain ⟨q, hq, hqn, hz⟩ := clip_outside _ _ ((h e (by simp) rfl).resolve_right hf)
        constructor
        · intro y x hy hx
          rw [List.map_cons, slope_cons, slope_cons, ih1 y x hy hx, if_pos rfl, if_pos (show (cropOne imgs e).2 = e.2 from rfl)]
          simp only [cropImg] at hy hx
          rw [hz _ _ (by omega) (by omega)]
          congr 1
          simp only [cropOne, hq, hqn, Patch.at, zero_mul]
        · intro y x hy hx hn
          rw [slope_cons, ih2 y x hy hx hn, if_pos rfl, hz y x hy hx, zero_mul, zero_add]
    · constructor
      · intro y x hy hx
        rw [List.map_cons, slope_cons, slope_cons, ih1 y x hy hx, if_neg hi, if_neg (show ¬ (cropOne imgs e).2 = i from hi)]
      · intro y x hy hx hn
        rw [slope_cons, ih2 y x hy hx hn, if_neg hi, zero_add]

/-- What the pixels outside the boxes add to chi-squared. -/
def boxRest (imgs : Nat → Img R) (ds : Derivs R) (box : Nat → Box) : R :=
  ∑ i ∈ usedImages ds, ∑ y ∈ Finset.range (imgs i).h, ∑ x ∈ Finset.range (imgs i).w,
    if ((box i).1.toNat ≤ x ∧ x < (box i).2.1.toNat) ∧ ((box i).2.2.1.toNat ≤ y ∧ y < (box i).2.2.2.toNat) then 0
    else (imgs i).chi.px y x ^ 2

theorem change_crop (imgs : Nat → Img R) (ds : Derivs R) (box : Nat → Box) (hbox : OneBox imgs ds box)
    (hI : ImagesOK imgs ds) (live : List Bool) (hlen : live.length = ds.length)
    (hdead : ∀ k : Nat, live[k]? = some false → ds[k]? = some []) (Y : List R) (hY : Y.length = ds.length)
    (i : Nat) (hi : i ∈ usedImages ds) :
    (∀ y x : Nat, y < (cropImg imgs box i).h → x < (cropImg imgs box i).w →
      change (cropImg imgs box) (cropDs imgs live ds) (keep live Y) i y x =
        change imgs ds Y i ((box i).2.2.1.toNat + y) ((box i).1.toNat + x)) ∧
    ∀ y x : Nat, y < (imgs i).h → x < (imgs i).w → ¬ inBox (box i) x y → change imgs ds Y i y x = 0 := by
  obtain ⟨h1, h2, -, -, -⟩ := hI i hi
  have hs : ∀ param ∈ ds, _ := fun param hp => slope_crop imgs box param i (hbox.inside i hi) h1 h2
    (fun e he hei => by have := hbox.each param hp e he; rwa [hei] at this)
  constructor
  · intro y x hy hx
    rw [change, cropDs, keep_zipWith _ live _ Y (by simp [hlen]) (by rw [hY, hlen]), List.zipWith_map_left, change]
    · congr 1
      apply List.ext_getElem?
      intro k
      rw [List.getElem?_zipWith, List.getElem?_zipWith]
      cases hk : ds[k]? with
      | none => rfl
      | some param =>
        cases Y[k]? with
        | none => rfl
        | some dy =>
          simp only
          rw [(hs param (List.mem_of_getElem? hk)).1 y x hy hx]
    · intro k hk a dy ha
      rw [List.getElem?_map, hdead k hk] at ha
      simp only [Option.map_some, List.map_nil, Option.some.injEq] at ha
      subst ha
      simp [slope]
  · intro y x hy hx hn
    rw [change]
    apply List.sum_eq_zero
    intro v hv
    obtain ⟨k, hk, rfl⟩ := List.mem_iff_getElem.1 hv
    rw [List.getElem_zipWith, (hs _ (List.getElem_mem _)).2 y x hy hx hn, zero_mul]

theorem linearised_crop (imgs : Nat → Img R) (ds : Derivs R) (box : Nat → Box) (hbox : OneBox imgs ds box)
    (hI : ImagesOK imgs ds) (prior : Option (PriorDerivs R)) (es : List (Entry R))
    (hes : PriorOK ds.length prior es) (live : List Bool) (hlen : live.length = ds.length)
    (hdead : ∀ k : Nat, live[k]? = some false → ds[k]? = some []) (hl : ∀ e ∈ es, live[e.col]? = some true)
    (Y : List R) (hY : Y.length = ds.length) :
    linearised imgs ds prior Y =
      linearised (cropImg imgs box) (cropDs imgs live ds) (cropPrior live prior) (keep live Y) + boxRest imgs ds box := by
  rw [linearised, linearised, linearChi_crop live _ prior es hes hl, crop_used imgs ds live hlen hdead, boxRest,
    add_right_comm, ← Finset.sum_add_distrib]
  congr 1
  apply Finset.sum_congr rfl
  intro i hi
  obtain ⟨h1, h2, h3, h4, -⟩ := hI i hi
  have hb := hbox.inside i hi
  have hbb := hb
  simp only [FullBox] at hbb
  obtain ⟨hc1, hc2⟩ := change_crop imgs ds box hbox hI live hlen hdead Y hY i hi
  have hbx := sum_box2 (imgs i).h (imgs i).w (box i).1.toNat (box i).2.1.toNat (box i).2.2.1.toNat (box i).2.2.2.toNat
    (by omega) (by omega) (fun y x => ((imgs i).chi.px y x - change imgs ds Y i y x) ^ 2)
  have e1 : ∑ y ∈ Finset.range (cropImg imgs box i).h, ∑ x ∈ Finset.range (cropImg imgs box i).w,
      ((cropImg imgs box i).chi.px y x -
        change (cropImg imgs box) (cropDs imgs live ds) (keep live Y) i y x) ^ 2 =
      ∑ y ∈ Finset.range ((box i).2.2.2.toNat - (box i).2.2.1.toNat),
        ∑ x ∈ Finset.range ((box i).2.1.toNat - (box i).1.toNat),
          ((imgs i).chi.px ((box i).2.2.1.toNat + y) ((box i).1.toNat + x) -
            change imgs ds Y i ((box i).2.2.1.toNat + y) ((box i).1.toNat + x)) ^ 2 := by
    have a1 : (cropImg imgs box i).h = (box i).2.2.2.toNat - (box i).2.2.1.toNat := by simp only [cropImg]; omega
    have a2 : (cropImg imgs box i).w = (box i).2.1.toNat - (box i).1.toNat := by simp only [cropImg]; omega
    rw [a1, a2]
    apply Finset.sum_congr rfl
    intro y hy
    apply Finset.sum_congr rfl
    intro x hx
    rw [hc1 y x (by rw [a1]; exact Finset.mem_range.1 hy) (by rw [a2]; exact Finset.mem_range.1 hx)]
    simp only [cropImg]
    rw [cut_ok _ _ _ hb h3 h4]
  rw [e1, ← hbx, ← Finset.sum_add_distrib]
  apply Finset.sum_congr rfl
  intro y hy
  rw [← Finset.sum_add_distrib]
  apply Finset.sum_congr rfl
  intro x hx
  by_cases hin : ((box i).1.toNat ≤ x ∧ x < (box i).2.1.toNat) ∧ ((box i).2.2.1.toNat ≤ y ∧ y < (box i).2.2.2.toNat)
  · rw [if_pos hin, if_pos hin, add_zero]
  · rw [if_neg hin, if_neg hin, hc2 y x (Finset.mem_range.1 hy) (Finset.mem_range.1 hx), sub_zero, zero_add]
    simp only [inBox]
    omega

theorem crop_imagesOK (imgs : Nat → Img R) (ds : Derivs R) (box : Nat → Box) (hbox : OneBox imgs ds box)
    (hI : ImagesOK imgs ds) (live : List Bool) (hlen : live.length = ds.length)
    (hdead : ∀ k : Nat, live[k]? = some false → ds[k]? = some []) :
    ImagesOK (cropImg imgs box) (cropDs imgs live ds) := by
  intro i hi
  rw [crop_used imgs ds live hlen hdead] at hi
  obtain ⟨h1, h2, h3, h4, h5⟩ := hI i hi
  have hb := hbox.inside i hi
  simp only [cropImg]
  rw [cut_ok _ _ _ hb h1 h2, cut_ok _ _ _ hb h3 h4]
  refine ⟨rfl, rfl, rfl, rfl, ?_⟩
  simp only [FullBox] at hb
  have a1 : ((box i).2.1 - (box i).1).toNat ≤ (imgs i).w := by omega
  have a2 : ((box i).2.2.2 - (box i).2.2.1).toNat ≤ (imgs i).h := by omega
  exact lt_of_le_of_lt (Nat.mul_le_mul a1 a2) h5

theorem crop_distinct (imgs : Nat → Img R) (ds : Derivs R) (hd : DistinctImages ds) (live : List Bool) :
    DistinctImages (cropDs imgs live ds) := by
  intro param hp
  obtain ⟨p, hp', rfl⟩ := List.mem_map.1 (mem_keep _ _ _ hp)
  rw [List.map_map]
  exact hd p hp'

/-- The problem is the dense problem of the boxes. -/
theorem smartProblem_ok (sqrt : R → R) (imgs : Nat → Img R) (ds : Derivs R) (box : Nat → Box)
    (hbox : OneBox imgs ds box) (hI : ImagesOK imgs ds) (hd : DistinctImages ds) (prior : Option (PriorDerivs R))
    (es : List (Entry R)) (hes : PriorOK ds.length prior es) (hne : ∀ d, prior = some d → d.rows ≠ []) :
    ∃ (live : List Bool) (n : Nat) (A : Dense R) (B : Nat → R) (norms : List R),
      live.length = ds.length ∧
      (∀ k, k < ds.length → (live[k]? = some true ↔ Live ds es k) ∧ (live[k]? = some false ↔ ¬ Live ds es k)) ∧
      norms.length = live.count true ∧
      (∀ scale, denseProblem sqrt (cropImg imgs box) (cropDs imgs live ds) (cropPrior live prior) scale =
        .ok (n, if scale then scaleDense sqrt norms A else A, B,
          norms.map (fun s => if 0 < s then sqrt s else sqrt 1))) ∧
      (∀ scale, smartProblem sqrt imgs ds prior scale =
        .ok (if n = 0 then none else some (n, if scale then smartScaled sqrt norms A else A, B, norms, live))) ∧
      (n = 0 → usedImages ds = ∅ ∧ es = []) ∧
      ∀ X : List R, X.length = live.count true → denseChisq n (live.count true) A B X =
        linearised (cropImg imgs box) (cropDs imgs live ds) (cropPrior live prior) X := by
  obtain ⟨live, hlive, hlen, hlv⟩ := liveCols_ok ds prior es hes
  have hkl : ∀ k : Nat, (∃ b, live[k]? = some b) → k < ds.length := by
    rintro k ⟨b, hb⟩
    rw [← hlen]; exact (List.getElem?_eq_some_iff.1 hb).1
  have hdead : ∀ k : Nat, live[k]? = some false → ds[k]? = some [] := by
    intro k hk
    have hlt := hkl k ⟨_, hk⟩
    have hn := (hlv k hlt).2.1 hk
    rw [List.getElem?_eq_getElem hlt]
    by_contra hh
    exact hn (Or.inl ⟨ds[k], List.getElem?_eq_getElem hlt, fun h0 => hh (by rw [h0])⟩)
  have hle : ∀ e ∈ es, live[e.col]? = some true := by
    intro e he
    exact (hlv e.col ((hes.2.2 e he).1)).1.2 (Or.inr ⟨e, he, rfl⟩)
  have hcount : (cropDs imgs live ds).length = live.count true := by
    rw [cropDs, keep_length _ _ (by simp [hlen])]
  obtain ⟨n, A, B, norms, f1, f2, f3⟩ := denseProblem_ok sqrt (cropImg imgs box) (cropDs imgs live ds)
    (crop_imagesOK imgs ds box hbox hI live hlen hdead) (crop_distinct imgs ds hd live) (cropPrior live prior)
    (es.map (cropEntry live)) (by rw [hcount]; exact cropPrior_ok live _ prior es hes hle)
  rw [hcount] at f1 f3
  have hall : ∀ param ∈ ds, ∀ e ∈ param, FullBox (imgs e.2) (box e.2) ∧
      (Outside (imgs e.2) e.1 ∨ Fills (imgs e.2) e.1 (box e.2)) :=
    fun param hp e he => ⟨hbox.inside _ (mem_used hp he), hbox.each param hp e he⟩
  obtain ⟨bounds, hclip, hB, -, hBm⟩ := clipAll_ok imgs box ds hall [] (by intro e he; simp at he)
  have hbd : ∀ i ∈ usedImages ds, boundOf bounds i = some (box i) := by
    intro i hi
    obtain ⟨param, hp, e, he, rfl, hf⟩ := hbox.some i hi
    exact boundOf_ok box bounds hB _ (hBm param hp e he hf)
  have hoffs : smartOffsets bounds (ds.flatMap (fun param => param.map (·.2))) ([], 0) =
      .ok (imgOffsets (fun i => (cropImg imgs box i).npix) (cropDs imgs live ds)) := by
    rw [smartOffsets_ok box]
    · rw [imgOffsets, crop_flatMap imgs ds live hlen hdead]
      congr 1
      apply List.foldl_ext
      intro acc i hi
      have hu : i ∈ usedImages ds := by simpa [usedImages] using hi
      simp only [offsetStep, npix_crop imgs box i (hbox.inside i hu)]
    · intro i hi
      exact hbd i (by simpa [usedImages] using hi)
  have hpr := priorRows_ok ds.length prior es hes hne
  have hnp : ∀ (npix : Nat) (A : Dense R) (norms : List R), addPriors npix (cropPrior live prior) A norms =
      ((smartPriors npix live prior A norms).1, (smartPriors npix live prior A norms).2.1,
        (smartPriors npix live prior A norms).2.2, es.length) := by
    intro npix A norms
    cases prior with
    | none =>
      have : es = [] := hes.1
      simp [addPriors, smartPriors, cropPrior, this]
    | some d =>
      simp only [addPriors, smartPriors, cropPrior, Option.map_some]
      rw [rowsEnd_eq d es hes.1 hes.2.1]
  set o := imgOffsets (fun i => (cropImg imgs box i).npix) (cropDs imgs live ds) with ho
  have hchi : ∀ B, smartChi imgs bounds o.1 B = fillChi (cropImg imgs box) o.1 B := by
    apply smartChi_eq
    intro e he
    have hm := (imgOffsets_ok (fun i => (cropImg imgs box i).npix) (cropDs imgs live ds)).2 e.1
    rw [← ho] at hm
    have hu := hm.1 (List.mem_map_of_mem he)
    rw [crop_used imgs ds live hlen hdead] at hu
    exact ⟨hbox.inside _ hu, hbd _ hu⟩
  have hsall := smartAll_eq imgs box bounds o.1 ds (fun param hp e he => by
    have hu := mem_used hp he
    exact ⟨hbox.inside _ hu, hbd _ hu, (hI _ hu).1, (hI _ hu).2.1, hbox.each param hp e he⟩) live hlen 0
    (fun _ _ => 0)
  have f2f := f2 false
  simp only [denseProblem, ← ho] at f2f
  cases hda : denseAll (cropImg imgs box) o.1 0 (cropDs imgs live ds) (fun _ _ => 0) with
  | error e => rw [hda] at f2f; simp at f2f
  | ok r =>
    obtain ⟨A0, norms0⟩ := r
    have hdp : ∀ scale, denseProblem sqrt (cropImg imgs box) (cropDs imgs live ds) (cropPrior live prior) scale =
        .ok (o.2 + es.length,
          if scale then scaleDense sqrt (smartPriors o.2 live prior A0 norms0).2.2 (smartPriors o.2 live prior A0 norms0).1
            else (smartPriors o.2 live prior A0 norms0).1,
          fillChi (cropImg imgs box) o.1 (smartPriors o.2 live prior A0 norms0).2.1,
          (smartPriors o.2 live prior A0 norms0).2.2.map (fun s => if 0 < s then sqrt s else sqrt 1)) := by
      intro scale
      simp only [denseProblem, ← ho, hda, hnp]
    have h0 := (hdp false).symm.trans (f2 false)
    simp only [Bool.false_eq_true, if_false, Except.ok.injEq, Prod.mk.injEq] at h0
    obtain ⟨g1, g2, g3, g4⟩ := h0
    have hlen2 : (smartPriors o.2 live prior A0 norms0).2.2.length = live.count true := by
      rw [← f1]
      have := congrArg List.length g4
      simpa using this
    refine ⟨live, o.2 + es.length, (smartPriors o.2 live prior A0 norms0).1,
      fillChi (cropImg imgs box) o.1 (smartPriors o.2 live prior A0 norms0).2.1,
      (smartPriors o.2 live prior A0 norms0).2.2, hlen, hlv, hlen2, hdp, ?_, ?_, ?_⟩
    · intro scale
      have hsall' : smartAll imgs bounds o.1 0 ((ds.map (List.map (clipOne imgs))).zip live) (fun _ _ => 0) =
          .ok (A0, norms0) := by rw [hsall]; exact hda
      simp only [smartProblem, hclip, hpr, hlive, hoffs, bind, Except.bind]
      by_cases hn : o.2 + es.length = 0
      · rw [if_pos hn, if_pos hn]
      · rw [if_neg hn, if_neg hn, hsall']
        simp only [hchi]
    · intro hn
      refine ⟨?_, List.length_eq_zero_iff.1 (by omega)⟩
      rw [Finset.eq_empty_iff_forall_notMem]
      intro i hi
      obtain ⟨hl, hm⟩ := imgOffsets_ok (fun i => (cropImg imgs box i).npix) (cropDs imgs live ds)
      rw [← ho] at hl hm
      rw [← crop_used imgs ds live hlen hdead] at hi
      obtain ⟨e, he, rfl⟩ := List.mem_map.1 ((hm i).2 hi)
      rw [crop_used imgs ds live hlen hdead] at hi
      have h1 := hl.le e he
      have hb := hbox.inside _ hi
      have h2 : 0 < (cropImg imgs box e.1).npix := by
        simp only [FullBox] at hb
        simp only [Img.npix, cropImg]
        exact Nat.mul_pos (by omega) (by omega)
      omega
    · rw [g1, g2, g3]
      exact f3

end Verif.Lsq
