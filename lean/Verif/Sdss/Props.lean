import Verif.Sdss.Lemmas
import Mathlib.Tactic.Ring
import Mathlib.Algebra.Order.Ring.Rat

/-!
# C129: sources from an SDSS catalog

`_get_sources` in tractor/sdss.py.
-/

namespace Verif.Sdss

variable {R : Type} [Field R] [LinearOrder R] [IsStrictOrderedRing R]

/-- The index returned lists, in order and once each, exactly the objects of the table that are within the cuts and are stars or galaxies. -/
theorem C129_rows (o : Opts R) (magOf : R → R) (objs : List (Row R)) (h : o.radecrad = none) :
    (getSources o magOf objs).2.Pairwise (· < ·) ∧
    ∀ i : Nat, i ∈ (getSources o magOf objs).2 ↔ ∃ r, objs[i]? = some r ∧ Wanted o r ∧ (IsStar o r ∨ IsGalaxy o r) := by
  classical
  rw [getSources_eq]
  simp only []
  rw [ready_filter, cuts_eq o objs h]
  constructor
  · have hp : (objs.zipIdx.map (·.2)).Pairwise (· < ·) := by
      rw [List.zipIdx_map_snd, ← List.range_eq_range']
      exact List.pairwise_lt_range
    rw [List.pairwise_map] at hp ⊢
    apply List.Pairwise.filter
    rw [List.pairwise_map]
    exact hp.filter _
  · intro i
    simp only [List.mem_map, List.mem_filter, makeSource_isSome, decide_eq_true_eq]
    constructor
    · rintro ⟨a, ⟨⟨b, ⟨hb, hw⟩, e⟩, hs⟩, ea⟩
      subst e
      subst ea
      exact ⟨b.1, mem_zipIdx hb, hw, hs⟩
    · rintro ⟨r, hr, hw, hs⟩
      exact ⟨(fixShapes r, i), ⟨⟨(r, i), ⟨List.mem_zipIdx_iff_getElem?.2 hr, hw⟩, rfl⟩, hs⟩, rfl⟩

omit [IsStrictOrderedRing R] in
/-- The source made from an object, whatever the cuts. -/
theorem sourceAt (o : Opts R) (magOf : R → R) (objs : List (Row R)) (k : Nat) (s : Source R)
    (hs : (getSources o magOf objs).1[k]? = some s) :
    ∃ i r, (getSources o magOf objs).2[k]? = some i ∧ objs[i]? = some r ∧ makeSource o magOf (fixShapes r) = some s := by
  rw [getSources_eq] at hs ⊢
  simp only [] at hs ⊢
  have h1 : (((ready o objs).filterMap (fun r => makeSource o magOf r.1)).map some)[k]? = some (some s) := by
    rw [List.getElem?_map, hs]
    rfl
  rw [filterMap_eq_of_filter, List.getElem?_map] at h1
  obtain ⟨a, ha, e⟩ := Option.map_eq_some_iff.1 h1
  have hm := List.mem_of_getElem? ha
  obtain ⟨r0, h2, h3, _⟩ := ready_mem o objs (List.mem_filter.1 hm).1
  refine ⟨a.2, r0, ?_, h2, ?_⟩
  · rw [List.getElem?_map, ha]
    rfl
  · rw [← h3]
    exact e

/-- As many sources as entries in the index; the source at a place is made from the object whose number is there: at its position, a point
source just if it is a star, else with the parts that its fraction of de Vaucouleurs light calls for. -/
theorem C129_align (o : Opts R) (magOf : R → R) (objs : List (Row R)) :
    (getSources o magOf objs).1.length = (getSources o magOf objs).2.length ∧
    ∀ (k : Nat) s, (getSources o magOf objs).1[k]? = some s →
      ∃ i r, (getSources o magOf objs).2[k]? = some i ∧ objs[i]? = some r ∧ (IsStar o r ∨ IsGalaxy o r) ∧ s.pos = (r.ra, r.dec) ∧
        (IsStar o r ↔ s.shapeDev = none ∧ s.shapeExp = none) ∧
        (s.shapeDev.isSome ↔ IsGalaxy o r ∧ 0 < r.fracdev o.bandnum) ∧ (s.shapeExp.isSome ↔ IsGalaxy o r ∧ r.fracdev o.bandnum < 1) := by
  constructor
  · rw [getSources_eq]
    simp only [List.length_map]
    exact filterMap_length _ _
  · intro k s hs
    obtain ⟨i, r, h1, h2, h3⟩ := sourceAt o magOf objs k s hs
    have h4 : IsStar o r ∨ IsGalaxy o r := (makeSource_isSome o magOf (fixShapes r)).1 (by rw [h3]; rfl)
    refine ⟨i, r, h1, h2, h4, ?_⟩
    rcases h4 with h | h
    · rw [makeSource_star o magOf (fixShapes r) h] at h3
      have hg : ¬ IsGalaxy o r := fun hg => galaxy_not_star o r hg h
      cases h3
      simp [Source.pos, Source.shapeDev, Source.shapeExp, fixShapes, h, hg]
    · rw [makeSource_galaxy o magOf (fixShapes r) h] at h3
      have hn := galaxy_not_star o r h
      have hf : (fixShapes r).fracdev = r.fracdev := rfl
      rw [hf] at h3
      by_cases h0 : r.fracdev o.bandnum ≤ 0
      · simp only [h0, if_true] at h3
        cases h3
        have : r.fracdev o.bandnum < 1 := by linarith
        simp [Source.pos, Source.shapeDev, Source.shapeExp, fixShapes, h, hn, not_lt.2 h0, this]
      · by_cases h5 : 1 ≤ r.fracdev o.bandnum
        · simp only [h0, h5, if_true, if_false] at h3
          cases h3
          simp [Source.pos, Source.shapeDev, Source.shapeExp, fixShapes, h, hn, not_lt.2 h5, not_le.1 h0]
        · simp only [h0, h5, if_false] at h3
          cases hc : o.fixedComposites <;> simp only [hc, Bool.false_eq_true, if_true, if_false] at h3 <;> cases h3 <;>
            simp [Source.pos, Source.shapeDev, Source.shapeExp, fixShapes, h, hn, not_le.1 h5, not_le.1 h0]

/-- Shapes come from the columns for `bandname` of the object's own type, turned the other way round and never smaller than 1/30. -/
theorem C129_shape (o : Opts R) (magOf : R → R) (objs : List (Row R)) (k : Nat) (s : Source R)
    (hs : (getSources o magOf objs).1[k]? = some s) :
    ∃ i r, (getSources o magOf objs).2[k]? = some i ∧ objs[i]? = some r ∧
      (∀ d, s.shapeDev = some d → d.ab = r.abDev o.bandnum ∧ d.phi = - r.phiDev o.bandnum ∧ 1 / 30 ≤ d.re ∧
        (1 / 30 ≤ r.thetaDev o.bandnum → d.re = r.thetaDev o.bandnum)) ∧
      (∀ e, s.shapeExp = some e → e.ab = r.abExp o.bandnum ∧ e.phi = - r.phiExp o.bandnum ∧ 1 / 30 ≤ e.re ∧
        (1 / 30 ≤ r.thetaExp o.bandnum → e.re = r.thetaExp o.bandnum)) := by
  obtain ⟨i, r, h1, h2, h3⟩ := sourceAt o magOf objs k s hs
  refine ⟨i, r, h1, h2, ?_⟩
  have hd : ∀ d, some (dshape o (fixShapes r)) = some d → d.ab = r.abDev o.bandnum ∧ d.phi = - r.phiDev o.bandnum ∧ 1 / 30 ≤ d.re ∧
      (1 / 30 ≤ r.thetaDev o.bandnum → d.re = r.thetaDev o.bandnum) := by
    intro d e
    cases e
    refine ⟨rfl, ?_, le_max_right _ _, fun h => max_eq_left h⟩
    show r.phiDev o.bandnum * -1 = _
    rw [mul_neg, mul_one]
  have he : ∀ d, some (eshape o (fixShapes r)) = some d → d.ab = r.abExp o.bandnum ∧ d.phi = - r.phiExp o.bandnum ∧ 1 / 30 ≤ d.re ∧
      (1 / 30 ≤ r.thetaExp o.bandnum → d.re = r.thetaExp o.bandnum) := by
    intro d e
    cases e
    refine ⟨rfl, ?_, le_max_right _ _, fun h => max_eq_left h⟩
    show r.phiExp o.bandnum * -1 = _
    rw [mul_neg, mul_one]
  have hn : ∀ (P : Shape R → Prop) (d : Shape R), none = some d → P d := by
    intro P d h
    cases h
  rcases (makeSource_isSome o magOf (fixShapes r)).1 (by rw [h3]; rfl) with h | h
  · rw [makeSource_star o magOf (fixShapes r) h] at h3
    cases h3
    exact ⟨hn _, hn _⟩
  · rw [makeSource_galaxy o magOf (fixShapes r) h] at h3
    generalize (fixShapes r).fracdev o.bandnum = x at h3
    by_cases h0 : x ≤ 0
    · simp only [h0, if_true] at h3
      cases h3
      exact ⟨hn _, he⟩
    · by_cases h5 : 1 ≤ x
      · simp only [h0, h5, if_true, if_false] at h3
        cases h3
        exact ⟨hd, hn _⟩
      · simp only [h0, h5, if_false] at h3
        cases hc : o.fixedComposites <;> simp only [hc, Bool.false_eq_true, if_true, if_false] at h3 <;> cases h3 <;>
          exact ⟨hd, he⟩

/-- Every brightness has the bands asked for, in order: `bands`, then `extrabands`. -/
theorem C129_bands (o : Opts R) (magOf : R → R) (objs : List (Row R)) (s : Source R) (hs : s ∈ (getSources o magOf objs).1)
    (b : Brightness R) (hb : b ∈ s.parts) : b.map (·.1) = o.bands.map (·.1) ++ o.extrabands := by
  obtain ⟨k, hk⟩ := List.getElem?_of_mem hs
  obtain ⟨i, r, h1, h2, h3⟩ := sourceAt o magOf objs k s hk
  obtain ⟨shares, _, hp⟩ := makeSource_parts o magOf r s h3
  rw [hp] at hb
  obtain ⟨c, _, e⟩ := List.mem_map.1 hb
  rw [← e]
  exact bright_names o magOf _

/-- In nanomaggies the parts of a source add up to the flux that the catalog gives for an object of its kind in that band; with
`extrabands` only, to the flux in `bandname`. -/
theorem C129_flux (o : Opts R) (magOf : R → R) (objs : List (Row R)) (hn : o.nanomaggies = true) (k : Nat) (s : Source R)
    (hs : (getSources o magOf objs).1[k]? = some s) :
    ∃ i r, (getSources o magOf objs).2[k]? = some i ∧ objs[i]? = some r ∧
      (∀ (j : Nat) name n, o.bands[j]? = some (name, n) → s.total j = fluxOf o r n) ∧
      (o.bands = [] → ∀ j < o.extrabands.length, s.total j = fluxOf o r o.bandnum) ∧
      (∀ ra dec b f e d, s = .fixedComp ra dec b f e d → f = r.fracdev o.bandnum) ∧
      (∀ ra dec eb e db d, s = .comp ra dec eb e db d → ∀ (j : Nat) name n, o.bands[j]? = some (name, n) →
        (db[j]?).map (·.2) = some (fluxOf o r n * r.fracdev o.bandnum)) := by
  obtain ⟨i, r, h1, h2, h3⟩ := sourceAt o magOf objs k s hs
  refine ⟨i, r, h1, h2, ?_⟩
  obtain ⟨shares, hc, hp⟩ := makeSource_parts o magOf r s h3
  refine ⟨?_, ?_, ?_, ?_⟩
  · intro j name n hj
    have hv : ∀ c, (((nmgy2bright o magOf (fun n => fluxOf o r n * c))[j]?).map (·.2)).getD 0 = fluxOf o r n * c := by
      intro c
      rw [bright_nano o magOf _ hn j (name, n) hj]
      rfl
    unfold Source.total
    rw [hp]
    rcases hc with hc | ⟨_, _, _, hc⟩
    · rw [hc]
      simp only [List.map_cons, List.map_nil, List.sum_cons, List.sum_nil, hv]
      ring
    · rw [hc]
      simp only [List.map_cons, List.map_nil, List.sum_cons, List.sum_nil, hv]
      ring
  · intro hb j hj
    have hv : ∀ c, (((nmgy2bright o magOf (fun n => fluxOf o r n * c))[j]?).map (·.2)).getD 0 = fluxOf o r o.bandnum * c := by
      intro c
      rw [bright_nano_only o magOf _ hn hb j o.extrabands[j] (List.getElem?_eq_getElem hj)]
      rfl
    unfold Source.total
    rw [hp]
    rcases hc with hc | ⟨_, _, _, hc⟩
    · rw [hc]
      simp only [List.map_cons, List.map_nil, List.sum_cons, List.sum_nil, hv]
      ring
    · rw [hc]
      simp only [List.map_cons, List.map_nil, List.sum_cons, List.sum_nil, hv]
      ring
  · intro ra dec b f e d hf
    rw [hf] at h3
    rcases (makeSource_isSome o magOf (fixShapes r)).1 (by rw [h3]; rfl) with h | h
    · rw [makeSource_star o magOf (fixShapes r) h] at h3
      cases h3
    · rw [makeSource_galaxy o magOf (fixShapes r) h] at h3
      have h3 := Option.some.inj h3
      split_ifs at h3
      injection h3 with _ _ _ hx
      exact hx.symm
  · intro ra dec eb e db d hf j name n hj
    rw [hf] at hp
    rcases hc with hc | ⟨_, _, _, hc⟩
    · rw [hc] at hp
      simp [Source.parts] at hp
    · rw [hc] at hp
      simp only [Source.parts, List.map_cons, List.map_nil, List.cons.injEq, and_true] at hp
      rw [hp.2, bright_nano o magOf _ hn j (name, n) hj]
      rfl

/-- In magnitudes each part has the magnitude of its share of the flux, and `badmag` if that is not positive; the shares add up to 1. -/
theorem C129_mags (o : Opts R) (magOf : R → R) (objs : List (Row R)) (hn : o.nanomaggies = false) (k : Nat) (s : Source R)
    (hs : (getSources o magOf objs).1[k]? = some s) :
    ∃ i r shares, (getSources o magOf objs).2[k]? = some i ∧ objs[i]? = some r ∧
      (shares = [1] ∨ shares = [1 - r.fracdev o.bandnum, r.fracdev o.bandnum]) ∧ s.parts.length = shares.length ∧
      ∀ (m : Nat) b c, s.parts[m]? = some b → shares[m]? = some c → ∀ (j : Nat) name n, o.bands[j]? = some (name, n) →
        b[j]? = some (name, if 0 < fluxOf o r n * c then magOf (fluxOf o r n * c) else o.badmag) := by
  obtain ⟨i, r, h1, h2, h3⟩ := sourceAt o magOf objs k s hs
  obtain ⟨shares, hc, hp⟩ := makeSource_parts o magOf r s h3
  refine ⟨i, r, shares, h1, h2, ?_, ?_, ?_⟩
  · rcases hc with hc | ⟨_, _, _, hc⟩
    · exact Or.inl hc
    · exact Or.inr hc
  · rw [hp, List.length_map]
  · intro m b c hb hc' j name n hj
    rw [hp, List.getElem?_map, hc'] at hb
    cases hb
    exact bright_mag o magOf _ hn j (name, n) hj

/-- Partial: the start values of extra bands are not the documented ones (see below).  Bands asked for as `extrabands` beside others have no flux at all in nanomaggies, and the magnitude `badmag` otherwise. -/
theorem C129_extra_partial (o : Opts R) (magOf : R → R) (objs : List (Row R)) (hb : o.bands ≠ []) (s : Source R)
    (hs : s ∈ (getSources o magOf objs).1) (b : Brightness R) (hm : b ∈ s.parts) (j : Nat) (name : String)
    (hj : o.extrabands[j]? = some name) :
    b[o.bands.length + j]? = some (name, if o.nanomaggies = true then 0 else o.badmag) := by
  obtain ⟨k, hk⟩ := List.getElem?_of_mem hs
  obtain ⟨i, r, h1, h2, h3⟩ := sourceAt o magOf objs k s hk
  obtain ⟨shares, _, hp⟩ := makeSource_parts o magOf r s h3
  rw [hp] at hm
  obtain ⟨c, _, e⟩ := List.mem_map.1 hm
  rw [← e]
  cases hn : o.nanomaggies
  · simpa using bright_mag_extra o magOf _ hn hb j name hj
  · simpa using bright_nano_extra o magOf _ hn hb j name hj

/-- A catalog to try: a star, a composite galaxy, an object that is neither. -/
def exRow : Row ℚ :=
  { ra := 10, dec := 20, colc := fun _ => 5, rowc := fun _ => 6, nchild := 0, bright := false, primary := true, objcType := 6
    probPsf := fun _ => 1, fracdev := fun _ => 1 / 4, thetaDev := fun _ => 2, abDev := fun _ => 1 / 2, phiDev := fun _ => 30
    thetaExp := fun _ => 1 / 100, abExp := fun _ => 1 / 3, phiExp := fun _ => 40
    psfflux := fun n => n + 1, cmodelflux := fun n => 4 * (n + 1), devflux := fun _ => 7, expflux := fun _ => 8 }

def exObjs : List (Row ℚ) :=
  [{ exRow with probPsf := fun _ => 1 / 2 }, exRow, { exRow with nchild := 2 }, { exRow with ra := 11, objcType := 3, probPsf := fun _ => 0 }]

def exOpts : Opts ℚ :=
  { bandnum := 2, bands := [("g", 1), ("r", 2)], extrabands := [], nanomaggies := true, badmag := 25, roi := some (0, 10, 0, 10)
    radecroi := none, radecrad := none, objCuts := true, cutToPrimary := true, forcePointSources := false, useObjcType := false
    fixedComposites := false }

/-- The documentation has the extra bands start at the flux of the first of `bands`, or of `bandname` if there are none.  Beside other bands
they start at 0, or at `badmag`; in magnitudes without other bands, only the first of them gets a magnitude. -/
theorem C129_extra_false :
    ((getSources { exOpts with extrabands := ["W1"] } (fun x => x) exObjs).1.head? = some (.point 10 20 [("g", 2), ("r", 3), ("W1", 0)])) ∧
    ((getSources { exOpts with extrabands := ["W1"], nanomaggies := false } (fun x => x) exObjs).1.head? =
      some (.point 10 20 [("g", 2), ("r", 3), ("W1", 25)])) ∧
    ((getSources { exOpts with bands := [], extrabands := ["W1", "W2"], nanomaggies := false } (fun x => x) exObjs).1.head? =
      some (.point 10 20 [("W1", 3), ("W2", 25)])) := by
  decide +kernel

example : getSources exOpts (fun x => x) exObjs =
    ([.point 10 20 [("g", 2), ("r", 3)],
      .comp 11 20 [("g", 6), ("r", 9)] ⟨1 / 30, 1 / 3, -40⟩ [("g", 2), ("r", 3)] ⟨2, 1 / 2, -30⟩], [1, 3]) := by
  decide +kernel

example : (getSources { exOpts with fixedComposites := true, useObjcType := true, objCuts := false, roi := none } (fun x => x) exObjs) =
    ([.point 10 20 [("g", 2), ("r", 3)], .point 10 20 [("g", 2), ("r", 3)], .point 10 20 [("g", 2), ("r", 3)],
      .fixedComp 11 20 [("g", 8), ("r", 12)] (1 / 4) ⟨1 / 30, 1 / 3, -40⟩ ⟨2, 1 / 2, -30⟩], [0, 1, 2, 3]) := by
  decide +kernel

end Verif.Sdss
