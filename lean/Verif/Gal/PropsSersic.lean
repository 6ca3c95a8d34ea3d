import Verif.Gal.SersicLemmas
import Mathlib.LinearAlgebra.Lagrange
import Mathlib.Topology.Algebra.Polynomial

/-!
# C114: Sersic profiles

`SersicMixture.getProfile(n)` gives, for every Sersic index, a mixture of round Gaussians about the origin, ordered by variance, with total
one.  An index outside [0.29, 6.3] gives the profile for the nearest index inside.  At a tabulated index it gives the tabulated mixture,
and above 1 a point-like core with the tabulated fraction.  Profiles change continuously with the index, except at 0.51 and 0.57, where
they jump.
-/

namespace Verif.Gal.Sersic

open Verif.Mog (Mix Comp)

/-- Interpolation exists: Lagrange polynomials, for instance. -/
theorem interpolates_exists : ∃ spline, Interpolates spline := by
  classical
  refine ⟨fun pts _ s => (Lagrange.interpolate (pts.map (·.1)).toFinset id
    (fun x => ((pts.find? (fun p => p.1 = x)).map (·.2)).getD 0)).eval s, fun pts k => Polynomial.continuous _, ?_⟩
  intro pts k hp p hmem
  have hin : p.1 ∈ (pts.map (·.1)).toFinset := by
    rw [List.mem_toFinset]
    exact List.mem_map.mpr ⟨p, hmem, rfl⟩
  have := Lagrange.eval_interpolate_at_node (s := (pts.map (·.1)).toFinset) (v := id)
    (fun x => ((pts.find? (fun p => p.1 = x)).map (·.2)).getD 0) (Set.injOn_id _) hin
  simp only [id] at this
  show Polynomial.eval p.1 _ = p.2
  rw [this]
  have hfind : pts.find? (fun q => q.1 = p.1) = some p := by
    clear this hin
    induction pts with
    | nil => cases hmem
    | cons a l ih =>
      rw [List.map_cons, List.pairwise_cons] at hp
      rcases List.mem_cons.mp hmem with rfl | hm
      · simp
      · have hlt := hp.1 p.1 (List.mem_map.mpr ⟨p, hm, rfl⟩)
        rw [List.find?_cons_of_neg (by simpa using ne_of_lt hlt)]
        exact ih hp.2 hm
  simp [hfind]

/-- C114: for every index there is a profile.  It has total one, its Gaussians are round, stand at the origin and are ordered by
variance. -/
theorem C114_profile {R : Type} [Field R] [LinearOrder R] [IsStrictOrderedRing R] (I : Interp R) (s : R)
    (hs : SumOK (fits I) (clamp (29 / 100) (63 / 10) s)) :
    ∃ m, getProfile I s = .ok m ∧ Mog.total m = 1 ∧ (m.map (·.vxx)).Pairwise (· ≤ ·) ∧
      ∀ c ∈ m, c.mx = 0 ∧ c.my = 0 ∧ c.vxy = 0 ∧ c.vyx = 0 ∧ c.vxx = c.vyy := by
  obtain ⟨f, hf, h1, h2, _, he⟩ := getProfile_eq I s
  refine ⟨_, he, ?_, ?_, ?_⟩
  · have hw := withCore_sum (coreFunc I) (clamp (29 / 100) (63 / 10) s) _
      (evalFit_sum I.exp f _ (fits_lengths I f hf) (hs f hf h1 h2))
    rw [← ((sortVar_perm _).map (·.1)).sum_eq] at hw
    rw [Mog.total, toMix, List.map_map]
    exact hw
  · rw [toMix, List.map_map, List.pairwise_map]
    exact sortVar_sorted _
  · intro c hc
    simp only [toMix, List.mem_map] at hc
    obtain ⟨p, _, rfl⟩ := hc
    exact ⟨rfl, rfl, rfl, rfl, rfl⟩

/-- A step function for the interpolation, and no logarithms. -/
def toy : Interp ℚ := ⟨id, id, fun pts _ s => ((pts.reverse.find? (fun p => p.1 ≤ s)).map (·.2)).getD 0⟩

example : (∀ f ∈ fits toy, f.lo ≤ 16 / 5 → 16 / 5 ≤ f.hi → (f.amps.map (fun g => g (16 / 5))).sum ≠ 0) ∧
    (match getProfile toy (16 / 5) with
      | .ok m => decide (m.length = 9 ∧ Mog.total m = 1 ∧ m.head? = some ⟨3853 / 1000000, 0, 0, 0, 0, 0, 0⟩)
      | .error _ => false) = true := by decide +kernel

/-- C114: an index outside the table gives the profile for the nearest index of the table. -/
theorem C114_clamp {R : Type} [Field R] [LinearOrder R] [IsStrictOrderedRing R] (I : Interp R) (s : R) :
    (s ≤ 29 / 100 → getProfile I s = getProfile I (29 / 100)) ∧ (63 / 10 ≤ s → getProfile I s = getProfile I (63 / 10)) := by
  have hle : (29 / 100 : R) ≤ 63 / 10 := by norm_num
  obtain ⟨f, hf, h1, h2, hp, he⟩ := getProfile_eq I s
  constructor
  · intro h
    obtain ⟨f', _, _, _, hp', he'⟩ := getProfile_eq I (29 / 100)
    have hc : clamp (29 / 100) (63 / 10) s = 29 / 100 := by
      unfold clamp
      rw [min_eq_left (le_trans h hle), max_eq_left h]
    have hc' : clamp (29 / 100) (63 / 10) (29 / 100 : R) = 29 / 100 := by
      unfold clamp
      rw [min_eq_left hle, max_self]
    rw [he, he', hp, hp', hc, hc']
  · intro h
    obtain ⟨f', _, _, _, hp', he'⟩ := getProfile_eq I (63 / 10)
    have hc : clamp (29 / 100) (63 / 10) s = 63 / 10 := by
      unfold clamp
      rw [min_eq_right h, max_eq_right hle]
    have hc' : clamp (29 / 100) (63 / 10) (63 / 10 : R) = 63 / 10 := by
      unfold clamp
      rw [min_self, max_eq_right hle]
    rw [he, he', hp, hp', hc, hc']

example : (match getProfile toy (-5) with | .ok m => decide (m.length = 3) | .error _ => false) = true ∧
    (match getProfile toy 100 with | .ok m => decide (m.length = 9) | .error _ => false) = true := by decide +kernel

/-- C114: profiles change continuously with the index, except at 0.51 and 0.57. -/
theorem C114_continuous_partial (spline : List (ℝ × ℝ) → Nat → ℝ → ℝ) (hi : Interpolates spline) (g : Kernel ℝ ℝ)
    (hg : ContinuousOn (roundG g) (Set.Ioi 0)) (s : ℝ) (h1 : s ≠ 51 / 100) (h2 : s ≠ 57 / 100)
    (hs : SumOK (fits (real spline)) (clamp (29 / 100) (63 / 10) s)) : ContinuousAt (quantity spline g) s := by
  have hcl : Continuous (clamp (29 / 100 : ℝ) (63 / 10)) := continuous_const.max (continuous_id.min continuous_const)
  have hne : ∀ b : ℝ, 29 / 100 < b → b < 63 / 10 → s ≠ b → clamp (29 / 100) (63 / 10) s ≠ b := by
    intro b hb1 hb2 hsb h
    unfold clamp at h
    rcases le_total s (63 / 10) with hle | hge
    · rw [min_eq_left hle] at h
      rcases le_total (29 / 100) s with hl | hl
      · rw [max_eq_right hl] at h
        exact hsb h
      · rw [max_eq_left hl] at h
        linarith
    · rw [min_eq_right hge, max_eq_right (by norm_num)] at h
      linarith
  have hp : ContinuousAt (fun c => fitQ (picked spline c) g c) (clamp (29 / 100) (63 / 10) s) := by
    have hc := fits_chain (R := ℝ) (real spline)
    have hm := fits_meet spline hi g (clamp (29 / 100) (63 / 10) s) (hne _ (by norm_num) (by norm_num) h1)
      (hne _ (by norm_num) (by norm_num) h2)
    have hss := hs
    rw [fits_eq] at hc hm hss
    refine pick_cont g hg _ _ _ hc ?_ hss ?_ ?_ hm
    · intro e he
      rw [← fits_eq, fits, List.mem_map] at he
      obtain ⟨r, _, rfl⟩ := he
      exact fit_cont spline hi _
    · show ((29 / 100 : ℚ) : ℝ) ≤ _
      have : ((29 / 100 : ℚ) : ℝ) = 29 / 100 := by norm_num
      rw [this]
      exact le_max_left _ _
    · intro z hz
      have hz7 : z = mkFit (real spline) range7.cast := by
        have : some (mkFit (real spline) range7.cast) = some z := hz
        exact (Option.some.inj this).symm
      rw [hz7]
      show _ ≤ ((63 / 10 : ℚ) : ℝ)
      have : ((63 / 10 : ℚ) : ℝ) = 63 / 10 := by norm_num
      rw [this]
      exact max_le (by norm_num) (min_le_right _ _)
  have hnear : ∀ᶠ t in nhds s, SumOK (fits (real spline)) (clamp (29 / 100) (63 / 10) t) := by
    refine hcl.continuousAt.eventually (sumOK_nearby _ ?_ _ hs)
    intro f hf
    rw [fits, List.mem_map] at hf
    obtain ⟨r, _, rfl⟩ := hf
    exact (fit_cont spline hi _).1
  have hcore : ContinuousAt (fun t => corePart (coreFunc (real spline)) (clamp (29 / 100) (63 / 10) t)) s :=
    ((core_cont spline hi).comp hcl).continuousAt
  have hall : ContinuousAt (fun s => (1 - corePart (coreFunc (real spline)) (clamp (29 / 100) (63 / 10) s)) *
        fitQ (picked spline (clamp (29 / 100) (63 / 10) s)) g (clamp (29 / 100) (63 / 10) s) +
      corePart (coreFunc (real spline)) (clamp (29 / 100) (63 / 10) s) * roundG g 0) s := by
    refine ((continuousAt_const.sub hcore).mul ?_).add (hcore.mul continuousAt_const)
    exact ContinuousAt.comp (f := clamp (29 / 100 : ℝ) (63 / 10)) (g := fun c => fitQ (picked spline c) g c) hp hcl.continuousAt
  refine hall.congr ?_
  filter_upwards [hnear] with t ht
  exact (quantity_eq spline g t (picked_sum spline t ht)).symm

/-- The border of two ranges, with any interpolation. -/
example (g : Kernel ℝ ℝ) (hg : Continuous (roundG g)) : ∃ spline, Interpolates spline ∧ ContinuousAt (quantity spline g) (21 / 50) := by
  obtain ⟨spline, hi⟩ := interpolates_exists
  refine ⟨spline, hi, C114_continuous_partial spline hi g hg.continuousOn _ (by norm_num) (by norm_num) ?_⟩
  have := sumOK_table spline hi (21 / 50) (by decide +kernel)
  rw [show ((21 / 50 : ℚ) : ℝ) = 21 / 50 from by norm_num] at this
  rw [clamp_id _ (by norm_num) (by norm_num)]
  exact this

/-- Index 1, where the core begins. -/
example (g : Kernel ℝ ℝ) (hg : Continuous (roundG g)) : ∃ spline, Interpolates spline ∧ ContinuousAt (quantity spline g) 1 := by
  obtain ⟨spline, hi⟩ := interpolates_exists
  refine ⟨spline, hi, C114_continuous_partial spline hi g hg.continuousOn _ (by norm_num) (by norm_num) ?_⟩
  have := sumOK_table spline hi 1 (by decide +kernel)
  rw [Rat.cast_one] at this
  rw [clamp_id _ (by norm_num) (by norm_num)]
  exact this

/-- C114: at a tabulated index the profile is the tabulated mixture with total `1 - c`, and a point with the fraction `c` that is
tabulated for the core; no core up to index 1. -/
theorem C114_table (spline : List (ℝ × ℝ) → Nat → ℝ → ℝ) (hi : Interpolates spline) (g : Kernel ℝ ℝ) (row : ℚ × List ℚ × List ℚ)
    (h : Tabulated row) (c : ℚ) (hc : (row.1 ≤ 1 ∧ c = 0) ∨ (1 < row.1 ∧ (row.1, c) ∈ cores)) :
    quantity spline g row.1 = (1 - c) * rowQuantity g row + c * roundG g 0 := by
  obtain ⟨r, hr, hrow, hrange⟩ := h
  have hlohi : ∀ r ∈ table, (29 / 100 : ℚ) ≤ r.lo ∧ r.hi ≤ 63 / 10 := by decide +kernel
  have hcast : ((29 / 100 : ℚ) : ℝ) = 29 / 100 ∧ ((63 / 10 : ℚ) : ℝ) = 63 / 10 := by constructor <;> norm_num
  have hboth : (29 / 100 : ℚ) ≤ row.1 ∧ row.1 ≤ 63 / 10 ∧ picked spline row.1 = mkFit (real spline) r.cast := by
    rcases hrange with ⟨h1, h2⟩ | ⟨h1, h2⟩
    · exact ⟨le_trans (hlohi r hr).1 h1, le_trans (le_of_lt h2) (hlohi r hr).2,
        picked_in spline r hr _ (Rat.cast_le.mpr h1) (Rat.cast_lt.mpr h2)⟩
    · rw [h2, h1]
      refine ⟨by decide +kernel, le_refl _, ?_⟩
      rw [hcast.2]
      exact picked_top spline
  have hcl := clamp_id (row.1 : ℝ) (by rw [← hcast.1]; exact Rat.cast_le.mpr hboth.1) (by rw [← hcast.2]; exact Rat.cast_le.mpr hboth.2.1)
  have hfit := fitQ_row spline hi r (table_good r hr) row hrow g
  have hq := quantity_eq spline g row.1 (by
    rw [hcl, hboth.2.2, hfit.2]
    exact_mod_cast (table_good r hr).1 row hrow |>.2.2.2)
  rw [hcl, hboth.2.2, hfit.1] at hq
  have hcp : corePart (coreFunc (real spline)) (row.1 : ℝ) = (c : ℝ) := by
    unfold corePart
    rcases hc with ⟨h1, h2⟩ | ⟨h1, h2⟩
    · rw [if_neg (not_lt.mpr (by exact_mod_cast h1)), h2, Rat.cast_zero]
    · rw [if_pos (by exact_mod_cast h1)]
      exact spline_knot spline hi cores (fun q : ℚ => (q : ℝ)) 3 (by decide +kernel) (row.1, c) h2
  rw [hq, hcp]

/-- Row for index 3, with the core tabulated for 3. -/
example : Tabulated (3, [292961 / 50000, 147473 / 25000, 24539 / 6250, 49021 / 25000, 382189 / 500000, 224729 / 1000000, 23091 / 625000, 0], [519717 / 100000, 85919 / 100000, 45211 / 250000, 200541 / 5000000, 869111 / 100000000, 86501 / 50000000, 29187 / 100000000, 6369 / 50000000000]) ∧
    ((3 : ℚ), (3853 / 1000000 : ℚ)) ∈ cores :=
  ⟨⟨range7, by simp [table], by decide +kernel, Or.inl ⟨by decide +kernel, by decide +kernel⟩⟩, by decide +kernel⟩

/-- C114, negation: profiles jump at index 0.51 and at index 0.57. -/
theorem C114_jump_false (spline : List (ℝ × ℝ) → Nat → ℝ → ℝ) (hi : Interpolates spline) :
    ∃ g : Kernel ℝ ℝ, Continuous (roundG g) ∧ ¬ ContinuousAt (quantity spline g) (51 / 100) ∧
      ¬ ContinuousAt (quantity spline g) (57 / 100) := by
  refine ⟨fun _ _ v _ _ _ => v, continuous_id, ?_, ?_⟩
  · have h := jump spline hi (fun _ _ v _ _ _ => v) continuous_id range1 range2 (by simp [table]) (by simp [table])
      (51 / 100, [446399 / 50000, 99483 / 500000], [735017 / 1000000, 155573 / 500000])
      (51 / 100, [892797 / 100000, 198981 / 1000000, 0], [367509 / 500000, 155577 / 500000, 414387 / 10000000])
      (by decide +kernel) (by decide +kernel) rfl (by decide +kernel) (by decide +kernel) (by decide +kernel) (by decide +kernel)
      (by decide +kernel) (by norm_num [rowQuantity, roundG])
    rw [show ((51 / 100 : ℚ) : ℝ) = 51 / 100 from by norm_num] at h
    exact h
  · have h := jump spline hi (fun _ _ v _ _ _ => v) continuous_id range2 range3 (by simp [table]) (by simp [table])
      (57 / 100, [93057 / 12500, 99537 / 50000, 357113 / 5000000], [428283 / 500000, 414979 / 1000000, 866439 / 10000000])
      (57 / 100, [741719 / 100000, 40307 / 20000, 742881 / 10000000, 0], [428283 / 500000, 414979 / 1000000, 866439 / 10000000, 15899 / 10000000])
      (by decide +kernel) (by decide +kernel) rfl (by decide +kernel) (by decide +kernel) (by decide +kernel) (by decide +kernel)
      (by decide +kernel) (by norm_num [rowQuantity, roundG])
    rw [show ((57 / 100 : ℚ) : ℝ) = 57 / 100 from by norm_num] at h
    exact h

example : ∃ spline, Interpolates spline ∧ ∃ g : Kernel ℝ ℝ, ¬ ContinuousAt (quantity spline g) (57 / 100) := by
  obtain ⟨spline, hi⟩ := interpolates_exists
  obtain ⟨g, _, _, h⟩ := C114_jump_false spline hi
  exact ⟨spline, hi, g, h⟩

end Verif.Gal.Sersic
