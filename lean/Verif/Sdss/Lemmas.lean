import Verif.Sdss.Spec
import Mathlib.Data.List.Induction
import Mathlib.Tactic.Linarith

/-! Lemmas for C129. -/

namespace Verif.Sdss

theorem select_range {α : Type} (p : α → Bool) (t : List α) :
    ((List.range t.length).filter (fun (i : Nat) => (t[i]?).any p)).filterMap (fun (i : Nat) => t[i]?) = t.filter p := by
  induction t using List.reverseRecOn with
  | nil => rfl
  | append_singleton l a ih =>
    rw [List.length_append, List.length_singleton, List.range_succ, List.filter_append, List.filterMap_append, List.filter_append]
    congr 1
    · rw [← ih]
      have h1 : (List.range l.length).filter (fun (i : Nat) => ((l ++ [a])[i]?).any p) =
          (List.range l.length).filter (fun (i : Nat) => (l[i]?).any p) := by
        apply List.filter_congr
        intro i hi
        rw [List.getElem?_append_left (List.mem_range.1 hi)]
      rw [h1]
      have h2 : ∀ L : List Nat, (∀ i ∈ L, i < l.length) →
          L.filterMap (fun (i : Nat) => (l ++ [a])[i]?) = L.filterMap (fun (i : Nat) => l[i]?) := by
        intro L
        induction L with
        | nil => intro _; rfl
        | cons i L ihL =>
          intro hL
          have hi := hL i List.mem_cons_self
          rw [List.filterMap_cons, List.filterMap_cons, List.getElem?_append_left hi, ihL (fun j hj => hL j (List.mem_cons_of_mem _ hj))]
      exact h2 _ (fun i hi => List.mem_range.1 (List.mem_filter.1 hi).1)
    · by_cases h : p a = true
      · simp [h]
      · simp [h]

theorem filterMap_eq_of_filter {α β : Type} (f : α → Option β) (t : List α) :
    (t.filterMap f).map some = (t.filter (fun a => (f a).isSome)).map f := by
  induction t with
  | nil => rfl
  | cons a l ih =>
    cases h : f a with
    | none => simp [h, ih]
    | some b => simp [h, ih]

theorem filterMap_length {α β : Type} (f : α → Option β) (t : List α) :
    (t.filterMap f).length = (t.filter (fun a => (f a).isSome)).length := by
  have h := congrArg List.length (filterMap_eq_of_filter f t)
  simpa using h

section
variable {R : Type} [Field R] [LinearOrder R]

/-- The rows before sources are made. -/
def ready (o : Opts R) (objs : List (Row R)) : List (Row R × Nat) :=
  let t := (cuts o objs).map (fun r => (fixShapes r.1, r.2))
  if !o.forcePointSources && o.useObjcType then t.filter (fun r => decide (r.1.objcType = 6) || decide (r.1.objcType = 3)) else t

theorem getSources_eq (o : Opts R) (magOf : R → R) (objs : List (Row R)) :
    getSources o magOf objs = ((ready o objs).filterMap (fun r => makeSource o magOf r.1),
      ((ready o objs).filter (fun r => (makeSource o magOf r.1).isSome)).map (·.2)) := by
  unfold getSources
  by_cases h0 : (cuts o objs).length = 0
  · have h1 : cuts o objs = [] := List.length_eq_zero_iff.1 h0
    simp [h1, ready]
  · simp only [h0, if_false]
    have hr : (if !o.forcePointSources && o.useObjcType then
        ((cuts o objs).map (fun r => (fixShapes r.1, r.2))).filter (fun r => decide (r.1.objcType = 6) || decide (r.1.objcType = 3))
        else (cuts o objs).map (fun r => (fixShapes r.1, r.2))) = ready o objs := rfl
    rw [hr]
    generalize ready o objs = t
    refine Prod.ext rfl ?_
    by_cases hl : (t.filterMap (fun r => makeSource o magOf r.1)).length < t.length
    · simp only [hl, if_true]
      unfold isources
      rw [select_range]
    · simp only [hl, if_false]
      rw [filterMap_length] at hl
      have h2 : t.filter (fun r => (makeSource o magOf r.1).isSome) = t :=
        List.filter_sublist.eq_of_length_le (not_lt.1 hl)
      rw [h2]

omit [Field R] [LinearOrder R] in
theorem mem_zipIdx {objs : List (Row R)} {r : Row R × Nat} (h : r ∈ objs.zipIdx) : objs[r.2]? = some r.1 := by
  obtain ⟨a, i⟩ := r
  exact List.mem_zipIdx_iff_getElem?.1 h

omit [Field R] in
theorem cuts_mem (o : Opts R) (objs : List (Row R)) {r : Row R × Nat} (h : r ∈ cuts o objs) : objs[r.2]? = some r.1 := by
  apply mem_zipIdx
  unfold cuts at h
  have e5 : ∀ (t : List (Row R × Nat)) (b : Bool) (p : Row R × Nat → Bool), r ∈ (if b then t.filter p else t) → r ∈ t := by
    intro t b p hm
    cases b with
    | false => exact hm
    | true => exact (List.mem_filter.1 hm).1
  have h := e5 _ _ _ (e5 _ _ _ h)
  have e1 : ∀ (t : List (Row R × Nat)) (J : Option (List Nat)),
      r ∈ (match J with | none => t | some J => J.filterMap (fun (j : Nat) => t[j]?)) → r ∈ t := by
    intro t J hm
    cases J with
    | none => exact hm
    | some J =>
      obtain ⟨j, _, hj⟩ := List.mem_filterMap.1 hm
      exact List.mem_of_getElem? hj
  have h := e1 _ _ h
  have e2 : ∀ (t : List (Row R × Nat)) (J : Option (R × R × R × R)) (p : R → R → R → R → Row R × Nat → Bool),
      r ∈ cutBox J p t → r ∈ t := by
    intro t J p hm
    cases J with
    | none => exact hm
    | some J => exact (List.mem_filter.1 hm).1
  exact e2 _ _ _ (e2 _ _ _ h)

open Classical in
theorem stage_opt {α β : Type} (t : List α) (J : Option (β × β × β × β)) (p : β → β → β → β → α → Bool) :
    cutBox J p t =
      t.filter (fun r => decide (∀ a b c d, J = some (a, b, c, d) → p a b c d r = true)) := by
  cases J with
  | none => exact (List.filter_eq_self.2 (by simp)).symm
  | some J =>
    obtain ⟨a, b, c, d⟩ := J
    unfold cutBox
    apply List.filter_congr
    intro r _
    rw [Bool.eq_iff_iff, decide_eq_true_eq]
    constructor
    · intro h a' b' c' d' e
      cases e
      exact h
    · intro h
      exact h a b c d rfl

theorem stage_bool {α : Type} (t : List α) (b : Bool) (p : α → Bool) :
    (if b then t.filter p else t) = t.filter (fun r => decide (b = true → p r = true)) := by
  cases b with
  | false => exact (List.filter_eq_self.2 (by simp)).symm
  | true => simp

omit [Field R] in
open Classical in
theorem cuts_eq (o : Opts R) (objs : List (Row R)) (h : o.radecrad = none) :
    cuts o objs = objs.zipIdx.filter (fun r => decide (Wanted o r.1)) := by
  unfold cuts
  simp only [h]
  rw [stage_opt, stage_opt]
  rw [stage_bool, stage_bool, List.filter_filter, List.filter_filter, List.filter_filter]
  apply List.filter_congr
  intro r _
  rw [Bool.eq_iff_iff, Bool.and_eq_true, Bool.and_eq_true, Bool.and_eq_true, decide_eq_true_eq, decide_eq_true_eq, decide_eq_true_eq,
    decide_eq_true_eq, decide_eq_true_eq]
  unfold Wanted
  simp only [Bool.and_eq_true, decide_eq_true_eq, Bool.not_eq_true', ge_iff_le, and_assoc]
  constructor
  · rintro ⟨h1, h2, h3, h4⟩
    exact ⟨h4, h3, h2, h1⟩
  · rintro ⟨h4, h3, h2, h1⟩
    exact ⟨h1, h2, h3, h4⟩

section
variable (o : Opts R) (magOf : R → R) (r : Row R)

/-- The source of a star. -/
theorem makeSource_star (h : IsStar o r) : makeSource o magOf r = some (.point r.ra r.dec (nmgy2bright o magOf r.psfflux)) := by
  have hw : (weights o r).1 ≠ 0 := by
    unfold weights
    unfold IsStar at h
    cases hf : o.forcePointSources
    · rw [hf] at h
      have h := h.resolve_left (by simp)
      cases hu : o.useObjcType
      · simp only [hu] at h ⊢
        simp at h ⊢
        simp [h]
      · simp only [hu, if_true] at h ⊢
        simp [h]
    · simp
  unfold makeSource
  simp only [hw, ne_eq, not_false_eq_true, if_true]

omit [LinearOrder R] in
theorem star_not_galaxy (h : ¬ IsStar o r) : o.forcePointSources = false := by
  cases hf : o.forcePointSources
  · rfl
  · exact absurd (Or.inl hf) h

theorem weights_galaxy (h : IsGalaxy o r) : weights o r = (0, r.fracdev o.bandnum, 1 - r.fracdev o.bandnum) := by
  obtain ⟨hf, h⟩ := h
  unfold weights
  simp only [hf, Bool.false_eq_true, if_false]
  cases hu : o.useObjcType
  · simp only [hu, Bool.false_eq_true, if_false] at h ⊢
    simp [h]
  · simp only [hu, if_true] at h ⊢
    simp [h]

theorem weights_other (hs : ¬ IsStar o r) (h : ¬ IsGalaxy o r) : weights o r = (0, 0, 0) := by
  have hf := star_not_galaxy o r hs
  unfold IsStar at hs
  unfold IsGalaxy at h
  unfold weights
  simp only [hf, Bool.false_eq_true, if_false, false_or, true_and] at hs h ⊢
  cases hu : o.useObjcType
  · simp only [hu, Bool.false_eq_true, if_false] at hs h ⊢
    simp [hs, h]
  · simp only [hu, if_true] at hs h ⊢
    simp [hs, h]

theorem makeSource_other (hs : ¬ IsStar o r) (h : ¬ IsGalaxy o r) : makeSource o magOf r = none := by
  unfold makeSource
  simp [weights_other o r hs h]

/-- The shapes of the parts. -/
def dshape : Shape R := ⟨r.thetaDev o.bandnum, r.abDev o.bandnum, r.phiDev o.bandnum⟩
def eshape : Shape R := ⟨r.thetaExp o.bandnum, r.abExp o.bandnum, r.phiExp o.bandnum⟩

theorem makeSource_galaxy [IsStrictOrderedRing R] (h : IsGalaxy o r) :
    makeSource o magOf r = some (
      if r.fracdev o.bandnum ≤ 0 then .exp r.ra r.dec (nmgy2bright o magOf r.expflux) (eshape o r)
      else if 1 ≤ r.fracdev o.bandnum then .dev r.ra r.dec (nmgy2bright o magOf r.devflux) (dshape o r)
      else if o.fixedComposites then
        .fixedComp r.ra r.dec (nmgy2bright o magOf r.cmodelflux) (r.fracdev o.bandnum) (eshape o r) (dshape o r)
      else .comp r.ra r.dec (nmgy2bright o magOf (fun b => r.cmodelflux b * (1 - r.fracdev o.bandnum))) (eshape o r)
          (nmgy2bright o magOf (fun b => r.cmodelflux b * r.fracdev o.bandnum)) (dshape o r)) := by
  unfold makeSource
  rw [weights_galaxy o r h]
  generalize hx : r.fracdev o.bandnum = x
  simp only [ne_eq, not_true_eq_false, if_false, add_sub_cancel, div_one]
  by_cases h0 : x ≤ 0
  · have h1 : 0 < 1 - x := by linarith
    simp only [not_lt.2 h0, h0, h1, false_and, if_true, if_false]
    rfl
  · by_cases h2 : 1 ≤ x
    · have h1 : ¬ 0 < 1 - x := by linarith
      simp only [h0, h1, h2, not_le.1 h0, and_false, if_true, if_false]
      rfl
    · have h1 : 0 < 1 - x := by linarith
      simp only [h0, h1, h2, not_le.1 h0, and_self, if_true, if_false]
      cases o.fixedComposites <;> rfl

omit [LinearOrder R] in
theorem galaxy_not_star (h : IsGalaxy o r) : ¬ IsStar o r := by
  obtain ⟨hf, h⟩ := h
  unfold IsStar
  simp only [hf, Bool.false_eq_true, false_or]
  cases hu : o.useObjcType
  · simp only [hu, Bool.false_eq_true, if_false] at h ⊢
    rw [h]
    exact zero_ne_one
  · simp only [hu, if_true] at h ⊢
    omega

theorem makeSource_isSome [IsStrictOrderedRing R] : (makeSource o magOf r).isSome = true ↔ IsStar o r ∨ IsGalaxy o r := by
  by_cases hs : IsStar o r
  · simp [makeSource_star o magOf r hs, hs]
  · by_cases hg : IsGalaxy o r
    · simp [makeSource_galaxy o magOf r hg, hg]
    · simp [makeSource_other o magOf r hs hg, hs, hg]

theorem fix_star : IsStar o (fixShapes r) ↔ IsStar o r := Iff.rfl
theorem fix_galaxy : IsGalaxy o (fixShapes r) ↔ IsGalaxy o r := Iff.rfl

end

section
variable (o : Opts R) (magOf : R → R) (flux : Nat → R)

theorem bright_names : (nmgy2bright o magOf flux).map (·.1) = o.bands.map (·.1) ++ o.extrabands := by
  unfold nmgy2bright
  have hz : ∀ (a : List String) (b : List R), a.length ≤ b.length → (a.zip b).map (·.1) = a := fun a b h => List.map_fst_zip h
  by_cases hn : o.nanomaggies = true <;> by_cases he : o.extrabands.length = 0 <;> by_cases hb : o.bands.length = 0 <;>
    simp only [hn, he, hb, ne_eq, not_true_eq_false, not_false_eq_true, if_true, if_false, Bool.false_eq_true] <;>
    (apply hz; simp only [List.length_append, List.length_map, List.length_replicate, List.length_cons, List.length_nil]; omega)

theorem bright_nano (hn : o.nanomaggies = true) (j : Nat) (b : String × Nat) (h : o.bands[j]? = some b) :
    (nmgy2bright o magOf flux)[j]? = some (b.1, flux b.2) := by
  have hj : j < o.bands.length := (List.getElem?_eq_some_iff.1 h).1
  have hb : o.bands.length ≠ 0 := by omega
  have h1 : (o.bands.map (fun b => flux b.2))[j]? = some (flux b.2) := by rw [List.getElem?_map, h]; rfl
  have h2 : (o.bands.map (·.1) ++ o.extrabands)[j]? = some b.1 := by
    rw [List.getElem?_append_left (by simpa using hj), List.getElem?_map, h]; rfl
  unfold nmgy2bright
  simp only [hn, if_true, hb, ne_eq, not_false_eq_true, if_false]
  rw [List.getElem?_zip_eq_some]
  refine ⟨h2, ?_⟩
  by_cases he : o.extrabands.length = 0
  · simp only [he, not_true_eq_false, if_false]
    exact h1
  · simp only [he, not_false_eq_true, if_true]
    rw [List.getElem?_append_left (by simpa using hj)]
    exact h1

theorem bright_nano_extra (hn : o.nanomaggies = true) (hb : o.bands ≠ []) (j : Nat) (b : String) (h : o.extrabands[j]? = some b) :
    (nmgy2bright o magOf flux)[o.bands.length + j]? = some (b, 0) := by
  have hj : j < o.extrabands.length := (List.getElem?_eq_some_iff.1 h).1
  have he : o.extrabands.length ≠ 0 := by omega
  have hb' : o.bands.length ≠ 0 := fun e => hb (List.length_eq_zero_iff.1 e)
  unfold nmgy2bright
  simp only [hn, if_true, hb', he, ne_eq, not_false_eq_true, if_false]
  rw [List.getElem?_zip_eq_some]
  constructor
  · rw [List.getElem?_append_right (by simp)]
    simpa using h
  · rw [List.getElem?_append_right (by simp)]
    simp [hj]

theorem bright_nano_only (hn : o.nanomaggies = true) (hb : o.bands = []) (j : Nat) (b : String) (h : o.extrabands[j]? = some b) :
    (nmgy2bright o magOf flux)[j]? = some (b, flux o.bandnum) := by
  have hj : j < o.extrabands.length := (List.getElem?_eq_some_iff.1 h).1
  have he : o.extrabands.length ≠ 0 := by omega
  unfold nmgy2bright
  simp only [hn, if_true, hb, he, ne_eq, not_false_eq_true, not_true_eq_false, if_false, List.length_nil]
  rw [List.getElem?_zip_eq_some]
  constructor
  · simpa using h
  · simp [hj]

theorem bright_mag (hn : o.nanomaggies = false) (j : Nat) (b : String × Nat) (h : o.bands[j]? = some b) :
    (nmgy2bright o magOf flux)[j]? = some (b.1, if 0 < flux b.2 then magOf (flux b.2) else o.badmag) := by
  have hj : j < o.bands.length := (List.getElem?_eq_some_iff.1 h).1
  have hb : o.bands.length ≠ 0 := by omega
  have h1 : ((o.bands.map (fun b => flux b.2)).map (fun x => if x > 0 then magOf x else o.badmag))[j]? =
      some (if 0 < flux b.2 then magOf (flux b.2) else o.badmag) := by
    rw [List.getElem?_map, List.getElem?_map, h]; rfl
  have h2 : (o.bands.map (·.1) ++ o.extrabands)[j]? = some b.1 := by
    rw [List.getElem?_append_left (by simpa using hj), List.getElem?_map, h]; rfl
  unfold nmgy2bright
  simp only [hn, Bool.false_eq_true, hb, ne_eq, not_false_eq_true, if_false, if_true]
  rw [List.getElem?_zip_eq_some]
  refine ⟨h2, ?_⟩
  by_cases he : o.extrabands.length = 0
  · simp only [he, not_true_eq_false, if_false]
    exact h1
  · simp only [he, not_false_eq_true, if_true]
    rw [List.getElem?_append_left (by simpa using hj)]
    exact h1

theorem bright_mag_extra (hn : o.nanomaggies = false) (hb : o.bands ≠ []) (j : Nat) (b : String) (h : o.extrabands[j]? = some b) :
    (nmgy2bright o magOf flux)[o.bands.length + j]? = some (b, o.badmag) := by
  have hj : j < o.extrabands.length := (List.getElem?_eq_some_iff.1 h).1
  have he : o.extrabands.length ≠ 0 := by omega
  have hb' : o.bands.length ≠ 0 := fun e => hb (List.length_eq_zero_iff.1 e)
  unfold nmgy2bright
  simp only [hn, Bool.false_eq_true, if_true, hb', he, ne_eq, not_false_eq_true, if_false]
  rw [List.getElem?_zip_eq_some]
  constructor
  · rw [List.getElem?_append_right (by simp)]
    simpa using h
  · rw [List.getElem?_append_right (by simp)]
    simp [hj]

end

/-- The parts of a source are its flux, shared out. -/
theorem makeSource_parts [IsStrictOrderedRing R] (o : Opts R) (magOf : R → R) (r : Row R) (s : Source R)
    (h : makeSource o magOf (fixShapes r) = some s) :
    ∃ shares : List R, (shares = [1] ∨ (IsGalaxy o r ∧ 0 < r.fracdev o.bandnum ∧ r.fracdev o.bandnum < 1 ∧
        shares = [1 - r.fracdev o.bandnum, r.fracdev o.bandnum])) ∧
      s.parts = shares.map (fun c => nmgy2bright o magOf (fun n => fluxOf o r n * c)) := by
  rcases (makeSource_isSome o magOf (fixShapes r)).1 (by rw [h]; rfl) with hs | hg
  · rw [makeSource_star o magOf (fixShapes r) hs] at h
    cases h
    refine ⟨[1], Or.inl rfl, ?_⟩
    have hs' : o.forcePointSources = true ∨ (if o.useObjcType = true then r.objcType = 6 else r.probPsf o.bandnum = 1) := hs
    unfold fluxOf
    rw [if_pos hs']
    simp [Source.parts, fixShapes]
  · rw [makeSource_galaxy o magOf (fixShapes r) hg] at h
    have hn : ¬ (o.forcePointSources = true ∨ (if o.useObjcType = true then r.objcType = 6 else r.probPsf o.bandnum = 1)) :=
      galaxy_not_star o r hg
    have hf : (fixShapes r).fracdev = r.fracdev := rfl
    rw [hf] at h
    unfold fluxOf
    rw [if_neg hn]
    by_cases h0 : r.fracdev o.bandnum ≤ 0
    · simp only [h0, if_true] at h ⊢
      cases h
      exact ⟨[1], Or.inl rfl, by simp [Source.parts, fixShapes]⟩
    · by_cases h5 : 1 ≤ r.fracdev o.bandnum
      · simp only [h0, h5, if_true, if_false] at h ⊢
        cases h
        exact ⟨[1], Or.inl rfl, by simp [Source.parts, fixShapes]⟩
      · simp only [h0, h5, if_false] at h ⊢
        cases hc : o.fixedComposites <;> simp only [hc, Bool.false_eq_true, if_true, if_false] at h <;> cases h
        · exact ⟨_, Or.inr ⟨hg, not_le.1 h0, not_le.1 h5, rfl⟩, rfl⟩
        · exact ⟨[1], Or.inl rfl, by simp [Source.parts, fixShapes]⟩

theorem ready_mem (o : Opts R) (objs : List (Row R)) {r : Row R × Nat} (h : r ∈ ready o objs) :
    ∃ r0, objs[r.2]? = some r0 ∧ r.1 = fixShapes r0 ∧ (r0, r.2) ∈ cuts o objs := by
  unfold ready at h
  have h' : r ∈ (cuts o objs).map (fun r => (fixShapes r.1, r.2)) := by
    by_cases hb : (!o.forcePointSources && o.useObjcType) = true
    · simp only [hb, if_true] at h
      exact (List.mem_filter.1 h).1
    · simp only [hb, Bool.false_eq_true, if_false] at h
      exact h
  obtain ⟨a, ha, e⟩ := List.mem_map.1 h'
  have e1 := congrArg Prod.fst e
  have e2 := congrArg Prod.snd e
  simp only at e1 e2
  refine ⟨a.1, ?_, e1.symm, ?_⟩
  · rw [← e2]
    exact cuts_mem o objs ha
  · rw [← e2]
    exact ha

/-- No object that would give a source is lost by the cut on `objc_type`. -/
theorem ready_filter [IsStrictOrderedRing R] (o : Opts R) (magOf : R → R) (objs : List (Row R)) :
    (ready o objs).filter (fun r => (makeSource o magOf r.1).isSome) =
      ((cuts o objs).map (fun r => (fixShapes r.1, r.2))).filter (fun r => (makeSource o magOf r.1).isSome) := by
  unfold ready
  by_cases hb : (!o.forcePointSources && o.useObjcType) = true
  · simp only [hb, if_true, List.filter_filter]
    apply List.filter_congr
    intro r _
    rw [Bool.eq_iff_iff, Bool.and_eq_true]
    constructor
    · exact fun h => h.1
    · intro h
      refine ⟨h, ?_⟩
      rw [makeSource_isSome] at h
      have hf : o.forcePointSources = false := by
        rw [Bool.and_eq_true] at hb
        simpa using hb.1
      have hu : o.useObjcType = true := by
        rw [Bool.and_eq_true] at hb
        exact hb.2
      unfold IsStar IsGalaxy at h
      simpa [hf, hu] using h
  · simp only [hb, Bool.false_eq_true, if_false]

end

end Verif.Sdss
