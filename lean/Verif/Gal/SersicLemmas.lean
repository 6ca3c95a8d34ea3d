import Verif.Gal.SersicSpec
import Mathlib.Tactic.Ring
import Mathlib.Tactic.FieldSimp
import Mathlib.Tactic.NormNum
import Mathlib.Topology.Order.LeftRight
import Mathlib.Topology.Algebra.Order.Field
import Mathlib.Topology.Algebra.GroupWithZero

/-! Lemmas about Sersic profiles. -/

namespace Verif.Gal.Sersic

open Verif.Mog (Mix Comp)

section general

variable {R : Type} [LinearOrder R]

/-- The ranges follow each other without gaps, and are not empty. -/
def Chain : List (Fit R) → Prop
  | [] => False
  | [f] => f.lo < f.hi
  | f :: f' :: l => f.lo < f.hi ∧ f.hi = f'.lo ∧ Chain (f' :: l)

/-- The fit for an index. -/
def pick (f : Fit R) : List (Fit R) → R → Fit R
  | [], _ => f
  | f' :: l, s => if s < f.hi then f else pick f' l s

theorem chain_lo (f : Fit R) (l : List (Fit R)) (h : Chain (f :: l)) : f.lo < f.hi := by
  cases l with
  | nil => exact h
  | cons f' l => exact h.1

theorem chain_last (f : Fit R) (l : List (Fit R)) (h : Chain (f :: l)) :
    ∃ z, (f :: l).getLast? = some z ∧ f.hi ≤ z.hi := by
  induction l generalizing f with
  | nil => exact ⟨f, rfl, le_refl _⟩
  | cons f' l ih =>
    obtain ⟨z, hz, hle⟩ := ih f' h.2.2
    refine ⟨z, by rw [List.getLast?_cons_cons]; exact hz, le_trans ?_ hle⟩
    rw [h.2.1]
    exact le_of_lt (chain_lo f' l h.2.2)

theorem chain_ge (f : Fit R) (l : List (Fit R)) (h : Chain (f :: l)) : ∀ g ∈ f :: l, f.lo ≤ g.lo := by
  induction l generalizing f with
  | nil =>
    intro g hg
    simp only [List.mem_singleton] at hg
    rw [hg]
  | cons f' l ih =>
    intro g hg
    rcases List.mem_cons.mp hg with rfl | hg
    · exact le_refl _
    · refine le_trans (le_trans (le_of_lt h.1) (le_of_eq h.2.1)) (ih f' h.2.2 g hg)

theorem pick_mem (f : Fit R) (l : List (Fit R)) (s : R) : pick f l s ∈ f :: l := by
  induction l generalizing f with
  | nil => simp [pick]
  | cons f' l ih =>
    simp only [pick]
    split
    · simp
    · exact List.mem_cons_of_mem _ (ih f')

theorem pick_range (f : Fit R) (l : List (Fit R)) (h : Chain (f :: l)) (z : Fit R) (hz : (f :: l).getLast? = some z) (s : R)
    (h1 : f.lo ≤ s) (h2 : s ≤ z.hi) : (pick f l s).lo ≤ s ∧ s ≤ (pick f l s).hi := by
  induction l generalizing f with
  | nil =>
    simp only [List.getLast?_singleton, Option.some.injEq] at hz
    subst hz
    exact ⟨h1, h2⟩
  | cons f' l ih =>
    simp only [pick]
    split
    · rename_i hs
      exact ⟨h1, le_of_lt hs⟩
    · rename_i hs
      rw [List.getLast?_cons_cons] at hz
      refine ih f' h.2.2 hz ?_
      rw [← h.2.1]
      exact le_of_not_gt hs

theorem filter_chain (f : Fit R) (l : List (Fit R)) (h : Chain (f :: l)) (z : Fit R) (hz : (f :: l).getLast? = some z) (s : R)
    (h1 : f.lo ≤ s) (h2 : s < z.hi) : (f :: l).filter (fun f => decide (f.lo ≤ s ∧ s < f.hi)) = [pick f l s] := by
  induction l generalizing f with
  | nil =>
    simp only [List.getLast?_singleton, Option.some.injEq] at hz
    subst hz
    simp [pick, h1, h2]
  | cons f' l ih =>
    rw [List.getLast?_cons_cons] at hz
    by_cases hs : s < f.hi
    · rw [List.filter_cons_of_pos (by simp [h1, hs])]
      simp only [pick, hs, if_true]
      congr 1
      rw [List.filter_eq_nil_iff]
      intro g hg
      have := chain_ge f' l h.2.2 g hg
      rw [← h.2.1] at this
      simp only [decide_eq_true_eq, not_and, not_lt]
      intro hgs
      exact absurd (lt_of_lt_of_le hs (le_trans this hgs)) (lt_irrefl _)
    · rw [List.filter_cons_of_neg (by simp [hs])]
      simp only [pick, hs, if_false]
      refine ih f' h.2.2 hz ?_
      rw [← h.2.1]
      exact le_of_not_gt hs

theorem pick_lo (f : Fit R) (l : List (Fit R)) (h : Chain (f :: l)) : pick f l f.lo = f := by
  cases l with
  | nil => rfl
  | cons f' l => simp [pick, h.1]

theorem pick_hi (f : Fit R) (l : List (Fit R)) (h : Chain (f :: l)) (z : Fit R) (hz : (f :: l).getLast? = some z) :
    pick f l z.hi = z := by
  induction l generalizing f with
  | nil =>
    simp only [List.getLast?_singleton, Option.some.injEq] at hz
    subst hz
    rfl
  | cons f' l ih =>
    rw [List.getLast?_cons_cons] at hz
    obtain ⟨z', hz', hle⟩ := chain_last f' l h.2.2
    rw [hz] at hz'
    simp only [Option.some.injEq] at hz'
    subst hz'
    have : ¬ z.hi < f.hi := by
      rw [h.2.1]
      exact not_lt.mpr (le_trans (le_of_lt (chain_lo f' l h.2.2)) hle)
    simp only [pick, this, if_false]
    exact ih f' h.2.2 hz

theorem select_chain (f : Fit R) (l : List (Fit R)) (h : Chain (f :: l)) (z : Fit R) (hz : (f :: l).getLast? = some z)
    (s : R) : select (f :: l) s = ([pick f l (clamp f.lo z.hi s)], clamp f.lo z.hi s) := by
  have hlz : f.lo < z.hi := by
    obtain ⟨z', hz', hle⟩ := chain_last f l h
    rw [hz] at hz'
    simp only [Option.some.injEq] at hz'
    subst hz'
    exact lt_of_lt_of_le (chain_lo f l h) hle
  simp only [select, List.head?_cons, hz]
  by_cases h1 : s ≤ f.lo
  · have : clamp f.lo z.hi s = f.lo := by
      unfold clamp
      rw [min_eq_left (le_trans h1 (le_of_lt hlz)), max_eq_left h1]
    rw [if_pos h1, this, pick_lo f l h]
  · rw [if_neg h1]
    by_cases h2 : z.hi ≤ s
    · have : clamp f.lo z.hi s = z.hi := by
        unfold clamp
        rw [min_eq_right h2, max_eq_right (le_of_lt hlz)]
      rw [if_pos h2, this, pick_hi f l h z hz]
    · rw [if_neg h2]
      have : clamp f.lo z.hi s = s := by
        unfold clamp
        rw [min_eq_left (le_of_not_ge h2), max_eq_right (le_of_not_ge h1)]
      rw [this, filter_chain f l h z hz s (le_of_not_ge h1) (lt_of_not_ge h2)]

theorem sortVar_perm (l : List (R × R)) : (sortVar l).Perm l := List.perm_insertionSort _ _

theorem sortVar_sorted (l : List (R × R)) : (sortVar l).Pairwise (fun p q => p.2 ≤ q.2) := by
  have : Std.Total (fun p q : R × R => p.2 ≤ q.2) := ⟨fun a b => le_total _ _⟩
  have : IsTrans (R × R) (fun p q : R × R => p.2 ≤ q.2) := ⟨fun _ _ _ h1 h2 => le_trans h1 h2⟩
  exact List.pairwise_insertionSort _ _

variable [Field R]

theorem profileOf_chain (exp : R → R) (core : R → R) (f : Fit R) (l : List (Fit R)) (h : Chain (f :: l)) (z : Fit R)
    (hz : (f :: l).getLast? = some z) (s : R) :
    profileOf exp (f :: l) core s = .ok (toMix (sortVar (withCore core (clamp f.lo z.hi s)
      (evalFit exp (pick f l (clamp f.lo z.hi s)) (clamp f.lo z.hi s))))) := by
  simp only [profileOf, select_chain f l h z hz s, combine]

omit [LinearOrder R] in
theorem sum_div (l : List R) (t : R) : (l.map (fun x => x / t)).sum = l.sum / t := by
  induction l with
  | nil => simp
  | cons a l ih => simp [ih, add_div]

omit [LinearOrder R] in
theorem sum_fst_mul (l : List (R × R)) (c : R) : ((l.map (fun p => (p.1 * c, p.2))).map (·.1)).sum = (l.map (·.1)).sum * c := by
  induction l with
  | nil => simp
  | cons a l ih =>
    simp only [List.map_cons, List.sum_cons, ih]
    ring

omit [LinearOrder R] in
theorem evalFit_sum (exp : R → R) (f : Fit R) (s : R) (hl : f.amps.length = f.logvars.length)
    (hs : (f.amps.map (fun g => g s)).sum ≠ 0) : ((evalFit exp f s).map (·.1)).sum = 1 := by
  simp only [evalFit]
  have : (fun p : R × R => p.1) = Prod.fst := rfl
  rw [this, List.map_fst_zip (by simp [hl]), sum_div]
  exact div_self hs

theorem withCore_sum (core : R → R) (s : R) (l : List (R × R)) (h : (l.map (·.1)).sum = 1) :
    ((withCore core s l).map (·.1)).sum = 1 := by
  unfold withCore
  split
  · rw [List.map_append, List.sum_append, sum_fst_mul, h]
    simp
  · exact h

end general

section cast

variable {R : Type} [Field R] [LinearOrder R] [IsStrictOrderedRing R]

/-- Every row of the table has as many amplitudes as variances, as many as the first one, with positive variances and a sum of amplitudes
that is not zero; indices increase. -/
def Range.Good (r : Range ℚ) : Prop :=
  (∀ row ∈ r.grid, row.2.1.length = row.2.2.length ∧ (∀ r0, r.grid.head? = some r0 → row.2.1.length = r0.2.1.length) ∧
    (∀ v ∈ row.2.2, 0 < v) ∧ row.2.1.sum ≠ 0) ∧
  (r.grid.map (·.1)).Pairwise (· < ·)

instance (r : Range ℚ) : Decidable r.Good := by
  unfold Range.Good
  infer_instance

theorem table_good : ∀ r ∈ table, r.Good := by decide +kernel

/-- The ranges of the table without the first one. -/
def table' : List (Range ℚ) := [range1, range2, range3, range4, range5, range6, range7]

omit [LinearOrder R] [IsStrictOrderedRing R] in
theorem fits_eq (I : Interp R) : fits I = mkFit I range0.cast :: table'.map (fun r => mkFit I r.cast) := rfl

theorem fits_chain (I : Interp R) : Chain (fits I) := by
  have h : ∀ a b : ℚ, a < b → (a : R) < (b : R) := fun a b h => Rat.cast_lt.mpr h
  refine ⟨h _ _ (by decide +kernel), congrArg (fun q : ℚ => (q : R)) (by decide +kernel), ?_⟩
  refine ⟨h _ _ (by decide +kernel), congrArg (fun q : ℚ => (q : R)) (by decide +kernel), ?_⟩
  refine ⟨h _ _ (by decide +kernel), congrArg (fun q : ℚ => (q : R)) (by decide +kernel), ?_⟩
  refine ⟨h _ _ (by decide +kernel), congrArg (fun q : ℚ => (q : R)) (by decide +kernel), ?_⟩
  refine ⟨h _ _ (by decide +kernel), congrArg (fun q : ℚ => (q : R)) (by decide +kernel), ?_⟩
  refine ⟨h _ _ (by decide +kernel), congrArg (fun q : ℚ => (q : R)) (by decide +kernel), ?_⟩
  refine ⟨h _ _ (by decide +kernel), congrArg (fun q : ℚ => (q : R)) (by decide +kernel), ?_⟩
  exact h _ _ (by decide +kernel)

omit [LinearOrder R] [IsStrictOrderedRing R] in
theorem fits_lengths (I : Interp R) : ∀ f ∈ fits I, f.amps.length = f.logvars.length := by
  intro f hf
  simp only [fits, List.mem_map] at hf
  obtain ⟨r, _, rfl⟩ := hf
  simp [mkFit]

/-- The profile is that of the only range that contains the clamped index. -/
theorem getProfile_eq (I : Interp R) (s : R) :
    ∃ f ∈ fits I, f.lo ≤ clamp (29 / 100) (63 / 10) s ∧ clamp (29 / 100) (63 / 10) s ≤ f.hi ∧
      f = pick (mkFit I range0.cast) (table'.map (fun r => mkFit I r.cast)) (clamp (29 / 100) (63 / 10) s) ∧
      getProfile I s = .ok (toMix (sortVar (withCore (coreFunc I) (clamp (29 / 100) (63 / 10) s)
        (evalFit I.exp f (clamp (29 / 100) (63 / 10) s))))) := by
  have hlo : (mkFit I range0.cast).lo = (29 / 100 : R) := by
    show ((29 / 100 : ℚ) : R) = _
    norm_num
  have hhi : (mkFit I range7.cast).hi = (63 / 10 : R) := by
    show ((63 / 10 : ℚ) : R) = _
    norm_num
  have hc := fits_chain I
  have hle : (29 / 100 : R) ≤ 63 / 10 := by norm_num
  rw [fits_eq] at hc
  have hz : (mkFit I range0.cast :: table'.map (fun r => mkFit I r.cast)).getLast? = some (mkFit I range7.cast) := rfl
  have hp := profileOf_chain I.exp (coreFunc I) _ _ hc _ hz s
  rw [hlo, hhi] at hp
  have hr := pick_range _ _ hc _ hz (clamp (29 / 100) (63 / 10) s) (by
    rw [hlo]
    exact le_max_left _ _) (by
    rw [hhi]
    exact max_le hle (min_le_right _ _))
  refine ⟨_, ?_, hr.1, hr.2, rfl, ?_⟩
  · rw [fits_eq]
    exact pick_mem _ _ _
  · rw [getProfile, fits_eq]
    exact hp

end cast

section reals

open Filter Topology

/-- A quantity of the mixture a fit gives for an index. -/
noncomputable def fitQ (f : Fit ℝ) (g : Kernel ℝ ℝ) (s : ℝ) : ℝ := ((evalFit Real.exp f s).map (fun p => p.1 * roundG g p.2)).sum

theorem ofMix_toMix (g : Kernel ℝ ℝ) (l : List (ℝ × ℝ)) : ofMix g (toMix (sortVar l)) = (l.map (fun p => p.1 * roundG g p.2)).sum := by
  have h : ofMix g (toMix (sortVar l)) = ((sortVar l).map (fun p => p.1 * roundG g p.2)).sum := by
    simp only [ofMix, toMix, List.map_map]
    rfl
  rw [h]
  exact ((sortVar_perm l).map _).sum_eq

theorem sum_scaled (g : Kernel ℝ ℝ) (l : List (ℝ × ℝ)) (c : ℝ) :
    ((l.map (fun p => (p.1 * c, p.2))).map (fun p => p.1 * roundG g p.2)).sum = c * (l.map (fun p => p.1 * roundG g p.2)).sum := by
  induction l with
  | nil => simp
  | cons a l ih =>
    simp only [List.map_cons, List.sum_cons, ih]
    ring

/-- The core amplitude, with none up to index 1. -/
noncomputable def corePart (core : ℝ → ℝ) (s : ℝ) : ℝ := if 1 < s then core s else 0

theorem withCore_quantity (g : Kernel ℝ ℝ) (core : ℝ → ℝ) (s : ℝ) (l : List (ℝ × ℝ)) (h : (l.map (·.1)).sum = 1) :
    ((withCore core s l).map (fun p => p.1 * roundG g p.2)).sum =
      (1 - corePart core s) * (l.map (fun p => p.1 * roundG g p.2)).sum + corePart core s * roundG g 0 := by
  unfold withCore corePart
  split
  · rw [List.map_append, List.sum_append, sum_scaled, h]
    simp
  · simp

theorem getD_range (l : List ℚ) (K : Nat) (h : l.length = K) :
    (List.range K).map (fun i => (l.map (fun q : ℚ => (q : ℝ))).getD i 0) = l.map (fun q : ℚ => (q : ℝ)) := by
  apply List.ext_getElem
  · simp [h]
  · intro i h1 h2
    simp only [List.length_map] at h2
    simp [List.getD_eq_getElem?_getD, List.getElem?_map, h2]

theorem spline_knot (spline : List (ℝ × ℝ) → Nat → ℝ → ℝ) (hs : Interpolates spline) {A : Type} (grid : List (ℚ × A)) (y : A → ℝ) (k : Nat)
    (hp : (grid.map (·.1)).Pairwise (· < ·)) (row : ℚ × A) (hr : row ∈ grid) :
    spline (grid.map (fun g => ((g.1 : ℝ), y g.2))) k (row.1 : ℝ) = y row.2 := by
  refine hs.2 _ k ?_ ((row.1 : ℝ), y row.2) (List.mem_map.mpr ⟨row, hr, rfl⟩)
  rw [List.map_map]
  rw [List.pairwise_map] at hp ⊢
  exact hp.imp (fun h => Rat.cast_lt.mpr h)

theorem cast_sum (l : List ℚ) : (l.map (fun q : ℚ => (q : ℝ))).sum = ((l.sum : ℚ) : ℝ) := by
  induction l with
  | nil => simp
  | cons a l ih => rw [List.map_cons, List.sum_cons, List.sum_cons, ih, Rat.cast_add]

/-- At a tabulated index, a fit is the tabulated mixture. -/
theorem fitQ_row (spline : List (ℝ × ℝ) → Nat → ℝ → ℝ) (hs : Interpolates spline) (r : Range ℚ) (hg : r.Good)
    (row : ℚ × List ℚ × List ℚ) (hr : row ∈ r.grid) (g : Kernel ℝ ℝ) :
    fitQ (mkFit (real spline) r.cast) g (row.1 : ℝ) = rowQuantity g row ∧
      ((mkFit (real spline) r.cast).amps.map (fun f => f (row.1 : ℝ))).sum = ((row.2.1.sum : ℚ) : ℝ) := by
  obtain ⟨h1, h2⟩ := hg
  obtain ⟨hl, hh, hv, hsum⟩ := h1 row hr
  obtain ⟨r0, rest, hgrid⟩ : ∃ r0 rest, r.grid = r0 :: rest := by
    cases hgr : r.grid with
    | nil => rw [hgr] at hr; cases hr
    | cons a b => exact ⟨a, b, rfl⟩
  have hK : row.2.1.length = r0.2.1.length := hh r0 (by rw [hgrid]; rfl)
  have hcast : r.cast.grid = r.grid.map (fun g => ((g.1 : ℝ), g.2.1.map (fun q : ℚ => (q : ℝ)), g.2.2.map (fun q : ℚ => (q : ℝ)))) := rfl
  have hKK : (Range.cast r : Range ℝ).width = row.2.1.length := by
    rw [Range.width, hcast, hgrid, hK]
    simp
  have hamps : (mkFit (real spline) r.cast).amps.map (fun f => f (row.1 : ℝ)) = row.2.1.map (fun q : ℚ => (q : ℝ)) := by
    have : (mkFit (real spline) r.cast).amps = (List.range (Range.cast r : Range ℝ).width).map
      (fun i => spline ((Range.cast r : Range ℝ).grid.map (fun g => (g.1, g.2.1.getD i 0)))
        (if (Range.cast r : Range ℝ).grid.length ≤ 3 then 1 else 3)) := rfl
    rw [this, hKK, List.map_map, ← getD_range row.2.1 _ rfl]
    apply List.map_congr_left
    intro i _
    simp only [Function.comp, hcast, List.map_map]
    exact spline_knot spline hs r.grid (fun a => (a.1.map (fun q : ℚ => (q : ℝ))).getD i 0) _ h2 row hr
  have hvars : (mkFit (real spline) r.cast).logvars.map (fun f => Real.exp (f (row.1 : ℝ))) = row.2.2.map (fun q : ℚ => (q : ℝ)) := by
    have : (mkFit (real spline) r.cast).logvars = (List.range (Range.cast r : Range ℝ).width).map
      (fun i => spline ((Range.cast r : Range ℝ).grid.map (fun g => (g.1, Real.log (g.2.2.getD i 0))))
        (if (Range.cast r : Range ℝ).grid.length ≤ 3 then 1 else 3)) := rfl
    rw [this, hKK, List.map_map, ← getD_range row.2.2 row.2.1.length hl.symm]
    apply List.map_congr_left
    intro i hi
    simp only [Function.comp, hcast, List.map_map]
    rw [List.mem_range, hl] at hi
    have := spline_knot spline hs r.grid (fun a => Real.log ((a.2.map (fun q : ℚ => (q : ℝ))).getD i 0))
      (if (r.grid.map (fun g => ((g.1 : ℝ), g.2.1.map (fun q : ℚ => (q : ℝ)), g.2.2.map (fun q : ℚ => (q : ℝ))))).length ≤ 3 then 1 else 3)
      h2 row hr
    rw [show ((fun g : ℝ × List ℝ × List ℝ => (g.1, Real.log (g.2.2.getD i 0))) ∘
      fun g : ℚ × List ℚ × List ℚ => ((g.1 : ℝ), g.2.1.map (fun q : ℚ => (q : ℝ)), g.2.2.map (fun q : ℚ => (q : ℝ)))) =
      (fun g : ℚ × List ℚ × List ℚ => ((g.1 : ℝ), Real.log ((g.2.2.map (fun q : ℚ => (q : ℝ))).getD i 0))) from rfl, this]
    apply Real.exp_log
    rw [List.getD_eq_getElem?_getD, List.getElem?_map, List.getElem?_eq_getElem hi]
    simp only [Option.map_some, Option.getD_some]
    exact_mod_cast hv _ (List.getElem_mem hi)
  have hcs := cast_sum row.2.1
  refine ⟨?_, by rw [hamps, hcs]⟩
  unfold fitQ evalFit rowQuantity
  simp only
  rw [hamps, hvars, hcs]
  generalize ((row.2.1.sum : ℚ) : ℝ) = T
  generalize row.2.1 = la
  generalize row.2.2 = lv
  induction la generalizing lv with
  | nil => simp
  | cons a la ih =>
    cases lv with
    | nil => simp
    | cons v lv =>
      have := ih lv
      simp only [List.map_cons, List.zip_cons_cons, List.sum_cons, List.zipWith_cons_cons] at this ⊢
      rw [this]
      ring

/-- Sums over zipped lists of continuous functions. -/
theorem cont_sum (G : ℝ → ℝ) (hG : ContinuousOn G (Set.Ioi 0)) (T : ℝ → ℝ) (s0 : ℝ) (hT : ContinuousAt T s0) (hT0 : T s0 ≠ 0)
    (la lv : List (ℝ → ℝ)) (ha : ∀ f ∈ la, Continuous f) (hv : ∀ f ∈ lv, Continuous f) :
    ContinuousAt (fun s => ((((la.map (fun f => f s)).map (fun x => x / T s)).zip (lv.map (fun f => Real.exp (f s)))).map
      (fun p => p.1 * G p.2)).sum) s0 := by
  induction la generalizing lv with
  | nil => simp only [List.map_nil, List.zip_nil_left, List.sum_nil]; exact continuousAt_const
  | cons a la ih =>
    cases lv with
    | nil => simp only [List.map_nil, List.zip_nil_right, List.sum_nil]; exact continuousAt_const
    | cons v lv =>
      simp only [List.map_cons, List.zip_cons_cons, List.sum_cons]
      refine ContinuousAt.add ?_ (ih lv (fun f hf => ha f (List.mem_cons_of_mem _ hf)) (fun f hf => hv f (List.mem_cons_of_mem _ hf)))
      refine ContinuousAt.mul ((ha a (by simp)).continuousAt.div hT hT0) ?_
      have he : ContinuousAt (fun s => Real.exp (v s)) s0 := (Real.continuous_exp.comp (hv v (by simp))).continuousAt
      exact ContinuousAt.comp (f := fun s => Real.exp (v s)) (hG.continuousAt (Ioi_mem_nhds (Real.exp_pos _))) he

theorem cont_list_sum (la : List (ℝ → ℝ)) (ha : ∀ f ∈ la, Continuous f) : Continuous (fun s => (la.map (fun f => f s)).sum) := by
  induction la with
  | nil => simp only [List.map_nil, List.sum_nil]; exact continuous_const
  | cons a la ih =>
    simp only [List.map_cons, List.sum_cons]
    exact (ha a (by simp)).add (ih (fun f hf => ha f (List.mem_cons_of_mem _ hf)))

theorem fit_cont (spline : List (ℝ × ℝ) → Nat → ℝ → ℝ) (hs : Interpolates spline) (r : Range ℝ) :
    (∀ f ∈ (mkFit (real spline) r).amps, Continuous f) ∧ (∀ f ∈ (mkFit (real spline) r).logvars, Continuous f) := by
  constructor
  · intro f hf
    simp only [mkFit, List.mem_map] at hf
    obtain ⟨i, _, rfl⟩ := hf
    exact hs.1 _ _
  · intro f hf
    simp only [mkFit, List.mem_map] at hf
    obtain ⟨i, _, rfl⟩ := hf
    exact hs.1 _ _

theorem fitQ_cont (f : Fit ℝ) (ha : ∀ h ∈ f.amps, Continuous h) (hv : ∀ h ∈ f.logvars, Continuous h) (g : Kernel ℝ ℝ)
    (hg : ContinuousOn (roundG g) (Set.Ioi 0)) (s0 : ℝ) (h0 : (f.amps.map (fun h => h s0)).sum ≠ 0) : ContinuousAt (fitQ f g) s0 := by
  have := cont_sum (roundG g) hg (fun s => (f.amps.map (fun h => h s)).sum) s0 (cont_list_sum _ ha).continuousAt h0 _ _ ha hv
  have he : fitQ f g = fun s => ((((f.amps.map (fun f => f s)).map (fun x => x / (f.amps.map (fun h => h s)).sum)).zip
      (f.logvars.map (fun f => Real.exp (f s)))).map (fun p => p.1 * roundG g p.2)).sum := by
    funext s
    rw [fitQ, evalFit]
  rw [he]
  exact this

/-- Where neighbouring ranges meet, they agree. -/
def Meets (g : Kernel ℝ ℝ) (s0 : ℝ) : List (Fit ℝ) → Prop
  | f :: f' :: l => (s0 = f.hi → fitQ f g s0 = fitQ f' g s0) ∧ Meets g s0 (f' :: l)
  | _ => True

/-- The quantity of the range picked is continuous where neighbouring ranges agree. -/
theorem pick_cont (g : Kernel ℝ ℝ) (hg : ContinuousOn (roundG g) (Set.Ioi 0)) (s0 : ℝ) (f : Fit ℝ) (l : List (Fit ℝ))
    (h : Chain (f :: l)) (hc : ∀ e ∈ f :: l, (∀ h ∈ e.amps, Continuous h) ∧ (∀ h ∈ e.logvars, Continuous h))
    (hs : SumOK (f :: l) s0) (h1 : f.lo ≤ s0) (h2 : ∀ z, (f :: l).getLast? = some z → s0 ≤ z.hi) (hm : Meets g s0 (f :: l)) :
    ContinuousAt (fun s => fitQ (pick f l s) g s) s0 := by
  induction l generalizing f with
  | nil =>
    simp only [pick]
    exact fitQ_cont f (hc f (by simp)).1 (hc f (by simp)).2 g hg s0 (hs f (by simp) h1 (h2 f rfl))
  | cons f' l ih =>
    rw [Chain] at h
    have hf := fun hle => fitQ_cont f (hc f (by simp)).1 (hc f (by simp)).2 g hg s0 (hs f (by simp) h1 hle)
    rcases lt_trichotomy s0 f.hi with hlt | heq | hgt
    · refine (hf (le_of_lt hlt)).congr ?_
      filter_upwards [Iio_mem_nhds hlt] with s hs
      simp only [pick, if_pos (show s < f.hi from hs)]
    · have hr := ih f' h.2.2 (fun f hf => hc f (List.mem_cons_of_mem _ hf)) (fun f hf => hs f (List.mem_cons_of_mem _ hf))
        (by rw [heq, h.2.1]) (fun z hz => h2 z (by rw [List.getLast?_cons_cons]; exact hz)) hm.2
      have h0 : pick f' l s0 = f' := by
        rw [heq, h.2.1]
        exact pick_lo f' l h.2.2
      have h00 : pick f (f' :: l) s0 = f' := by
        simp only [pick, heq, lt_irrefl, if_false]
        rw [← heq]
        exact h0
      rw [continuousAt_iff_continuous_left'_right']
      constructor
      · have := (hf (le_of_eq heq)).continuousWithinAt (s := Set.Iio s0)
        refine this.congr (fun s hs => ?_) ?_
        · simp only [pick, if_pos (show s < f.hi from heq ▸ hs)]
        · rw [h00]
          exact (hm.1 heq).symm
      · have := hr.continuousWithinAt (s := Set.Ioi s0)
        refine this.congr (fun s hs => ?_) ?_
        · simp only [pick, if_neg (not_lt.mpr (le_of_lt (show f.hi < s from heq ▸ hs)))]
        · rw [h00, h0]
    · have hr := ih f' h.2.2 (fun f hf => hc f (List.mem_cons_of_mem _ hf)) (fun f hf => hs f (List.mem_cons_of_mem _ hf))
        (by rw [← h.2.1]; exact le_of_lt hgt) (fun z hz => h2 z (by rw [List.getLast?_cons_cons]; exact hz)) hm.2
      refine hr.congr ?_
      filter_upwards [Ioi_mem_nhds hgt] with s hs
      simp only [pick, if_neg (not_lt.mpr (le_of_lt (show f.hi < s from hs)))]

/-- The range picked from the table. -/
noncomputable def picked (spline : List (ℝ × ℝ) → Nat → ℝ → ℝ) (c : ℝ) : Fit ℝ :=
  pick (mkFit (real spline) range0.cast) (table'.map (fun r => mkFit (real spline) r.cast)) c

theorem quantity_eq (spline : List (ℝ × ℝ) → Nat → ℝ → ℝ) (g : Kernel ℝ ℝ) (s : ℝ)
    (hs : ((picked spline (clamp (29 / 100) (63 / 10) s)).amps.map (fun h => h (clamp (29 / 100) (63 / 10) s))).sum ≠ 0) :
    quantity spline g s = (1 - corePart (coreFunc (real spline)) (clamp (29 / 100) (63 / 10) s)) *
        fitQ (picked spline (clamp (29 / 100) (63 / 10) s)) g (clamp (29 / 100) (63 / 10) s) +
      corePart (coreFunc (real spline)) (clamp (29 / 100) (63 / 10) s) * roundG g 0 := by
  obtain ⟨f, hf, h1, h2, hp, he⟩ := getProfile_eq (real spline) s
  unfold quantity
  rw [he]
  show ofMix g (toMix _) = _
  rw [ofMix_toMix, withCore_quantity g _ _ _ (evalFit_sum _ f _ (fits_lengths _ f hf) (by rw [hp]; exact hs)), hp]
  rfl

theorem picked_sum (spline : List (ℝ × ℝ) → Nat → ℝ → ℝ) (s : ℝ) (hs : SumOK (fits (real spline)) (clamp (29 / 100) (63 / 10) s)) :
    ((picked spline (clamp (29 / 100) (63 / 10) s)).amps.map (fun h => h (clamp (29 / 100) (63 / 10) s))).sum ≠ 0 := by
  obtain ⟨f, hf, h1, h2, hp, _⟩ := getProfile_eq (real spline) s
  have := hs f hf h1 h2
  rw [hp] at this
  exact this

/-- What holds for the sums at one index holds nearby. -/
theorem sumOK_nearby (l : List (Fit ℝ)) (hc : ∀ f ∈ l, ∀ h ∈ f.amps, Continuous h) (s0 : ℝ) (h : SumOK l s0) :
    ∀ᶠ s in 𝓝 s0, SumOK l s := by
  induction l with
  | nil => exact Filter.Eventually.of_forall (fun s f hf => by cases hf)
  | cons f l ih =>
    have h1 := ih (fun e he => hc e (List.mem_cons_of_mem _ he)) (fun e he => h e (List.mem_cons_of_mem _ he))
    have h2 : ∀ᶠ s in 𝓝 s0, f.lo ≤ s → s ≤ f.hi → (f.amps.map (fun g => g s)).sum ≠ 0 := by
      by_cases ha : f.lo ≤ s0
      · by_cases hb : s0 ≤ f.hi
        · have := (cont_list_sum f.amps (hc f (by simp))).continuousAt (x := s0)
          filter_upwards [this.eventually_ne (h f (by simp) ha hb)] with s hs _ _
          exact hs
        · filter_upwards [Ioi_mem_nhds (not_le.mp hb)] with s hs _ hle
          exact absurd (lt_of_lt_of_le hs hle) (lt_irrefl _)
      · filter_upwards [Iio_mem_nhds (not_le.mp ha)] with s hs hle
        exact absurd (lt_of_le_of_lt hle hs) (lt_irrefl _)
    filter_upwards [h1, h2] with s hs1 hs2
    intro e he
    rcases List.mem_cons.mp he with rfl | he
    · exact hs2
    · exact hs1 e he

theorem picked_in (spline : List (ℝ × ℝ) → Nat → ℝ → ℝ) (r : Range ℚ) (hr : r ∈ table) (s : ℝ) (h1 : (r.lo : ℝ) ≤ s) (h2 : s < (r.hi : ℝ)) :
    picked spline s = mkFit (real spline) r.cast := by
  have hc := fits_chain (R := ℝ) (real spline)
  rw [fits_eq] at hc
  have hz : (mkFit (real spline) range0.cast :: table'.map (fun r => mkFit (real spline) r.cast)).getLast? =
    some (mkFit (real spline) range7.cast) := rfl
  have hlohi : ∀ r ∈ table, (29 / 100 : ℚ) ≤ r.lo ∧ r.hi ≤ 63 / 10 := by decide +kernel
  have hf := filter_chain _ _ hc _ hz s (le_trans (Rat.cast_le.mpr (hlohi r hr).1) h1)
    (lt_of_lt_of_le h2 (Rat.cast_le.mpr (hlohi r hr).2))
  have hm : mkFit (real spline) r.cast ∈ (mkFit (real spline) range0.cast :: table'.map (fun r => mkFit (real spline) r.cast)).filter
      (fun f => decide (f.lo ≤ s ∧ s < f.hi)) := by
    rw [List.mem_filter]
    refine ⟨?_, by simpa using ⟨h1, h2⟩⟩
    rw [← fits_eq]
    exact List.mem_map.mpr ⟨r, hr, rfl⟩
  rw [hf, List.mem_singleton] at hm
  exact hm.symm

theorem picked_top (spline : List (ℝ × ℝ) → Nat → ℝ → ℝ) : picked spline (63 / 10) = mkFit (real spline) range7.cast := by
  have hc := fits_chain (R := ℝ) (real spline)
  rw [fits_eq] at hc
  have := pick_hi _ _ hc (mkFit (real spline) range7.cast) rfl
  rw [show (mkFit (real spline) range7.cast).hi = (63 / 10 : ℝ) from by
    show ((63 / 10 : ℚ) : ℝ) = _
    norm_num] at this
  exact this

/-- Up to index 1 there is no core. -/
theorem quantity_small (spline : List (ℝ × ℝ) → Nat → ℝ → ℝ) (g : Kernel ℝ ℝ) (s : ℝ) (hs : s ≤ 1) :
    quantity spline g s = fitQ (picked spline (clamp (29 / 100) (63 / 10) s)) g (clamp (29 / 100) (63 / 10) s) := by
  obtain ⟨f, hf, h1, h2, hp, he⟩ := getProfile_eq (real spline) s
  have hc : ¬ (1 : ℝ) < clamp (29 / 100) (63 / 10) s := by
    unfold clamp
    rw [not_lt]
    exact max_le (by norm_num) (le_trans (min_le_left _ _) hs)
  unfold quantity
  rw [he]
  show ofMix g (toMix _) = _
  rw [ofMix_toMix]
  unfold withCore
  rw [if_neg hc, hp]
  rfl

theorem clamp_id (s : ℝ) (h1 : 29 / 100 ≤ s) (h2 : s ≤ 63 / 10) : clamp (29 / 100) (63 / 10) s = s := by
  unfold clamp
  rw [min_eq_left h2, max_eq_right h1]

theorem mkFit_hi (spline : List (ℝ × ℝ) → Nat → ℝ → ℝ) (r : Range ℚ) (b : ℝ) (hb : (r.hi : ℝ) = b) :
    (mkFit (real spline) r.cast).hi = b := hb

theorem core_one (spline : List (ℝ × ℝ) → Nat → ℝ → ℝ) (hs : Interpolates spline) : coreFunc (real spline) 1 = 0 := by
  have : spline (cores.map (fun p => ((p.1 : ℝ), (p.2 : ℝ)))) 3 ((1 : ℚ) : ℝ) = ((0 : ℚ) : ℝ) :=
    spline_knot spline hs cores (fun q : ℚ => (q : ℝ)) 3 (by decide +kernel) (1, 0) (by decide +kernel)
  rw [Rat.cast_one, Rat.cast_zero] at this
  exact this

theorem core_cont (spline : List (ℝ × ℝ) → Nat → ℝ → ℝ) (hs : Interpolates spline) : Continuous (corePart (coreFunc (real spline))) := by
  have h : Continuous (coreFunc (real spline)) := hs.1 _ _
  have h1 := core_one spline hs
  have : corePart (coreFunc (real spline)) = fun s => if s ≤ 1 then 0 else coreFunc (real spline) s := by
    funext s
    unfold corePart
    by_cases hs : s ≤ 1
    · rw [if_pos hs, if_neg (not_lt.mpr hs)]
    · rw [if_neg hs, if_pos (not_le.mp hs)]
  rw [this]
  refine continuous_const.if_le h continuous_id continuous_const ?_
  intro x hx
  rw [hx, h1]

/-- The sides of a border of two ranges, by the rows of the table for the border. -/
theorem border (spline : List (ℝ × ℝ) → Nat → ℝ → ℝ) (hs : Interpolates spline) (g : Kernel ℝ ℝ) (r r' : Range ℚ) (hr : r ∈ table)
    (hr' : r' ∈ table) (row row' : ℚ × List ℚ × List ℚ) (h : row ∈ r.grid) (h' : row' ∈ r'.grid) (hb : row.1 = row'.1)
    (b : ℝ) (hbb : ((row.1 : ℚ) : ℝ) = b) :
    fitQ (mkFit (real spline) r.cast) g b = rowQuantity g row ∧ fitQ (mkFit (real spline) r'.cast) g b = rowQuantity g row' := by
  have h1 := (fitQ_row spline hs r (table_good r hr) row h g).1
  have h2 := (fitQ_row spline hs r' (table_good r' hr') row' h' g).1
  rw [← hb] at h2
  rw [hbb] at h1 h2
  exact ⟨h1, h2⟩

theorem border0 (spline : List (ℝ × ℝ) → Nat → ℝ → ℝ) (hs : Interpolates spline) (g : Kernel ℝ ℝ) :
    fitQ (mkFit (real spline) range0.cast) g (21 / 50) = fitQ (mkFit (real spline) range1.cast) g (21 / 50) := by
  have h := border spline hs g range0 range1 (by simp [table]) (by simp [table])
    (21 / 50, [70293 / 5000, 0, -551399 / 100000], [71623 / 125000, 201543 / 500000, 201543 / 500000])
    (21 / 50, [70293 / 5000, -551399 / 100000], [71623 / 125000, 201543 / 500000])
    (by decide +kernel) (by decide +kernel) rfl (21 / 50) (by norm_num)
  rw [h.1, h.2]
  simp only [rowQuantity, List.zipWith_cons_cons, List.zipWith_nil_left, List.sum_cons, List.sum_nil, Rat.cast_zero, zero_mul, add_zero, zero_add]

theorem border3 (spline : List (ℝ × ℝ) → Nat → ℝ → ℝ) (hs : Interpolates spline) (g : Kernel ℝ ℝ) :
    fitQ (mkFit (real spline) range3.cast) g (31 / 50) = fitQ (mkFit (real spline) range4.cast) g (31 / 50) := by
  have h := border spline hs g range3 range4 (by simp [table]) (by simp [table])
    (31 / 50, [314573 / 50000, 320893 / 100000, 298839 / 1000000, 74077 / 5000000], [97823 / 100000, 118611 / 250000, 29323 / 200000, 10497 / 400000])
    (31 / 50, [314573 / 50000, 320893 / 100000, 298839 / 1000000, 74077 / 5000000, 0], [97823 / 100000, 118611 / 250000, 29323 / 200000, 10497 / 400000, 49333 / 25000000])
    (by decide +kernel) (by decide +kernel) rfl (31 / 50) (by norm_num)
  rw [h.1, h.2]
  simp only [rowQuantity, List.zipWith_cons_cons, List.zipWith_nil_left, List.sum_cons, List.sum_nil, Rat.cast_zero, zero_mul, add_zero]

theorem border4 (spline : List (ℝ × ℝ) → Nat → ℝ → ℝ) (hs : Interpolates spline) (g : Kernel ℝ ℝ) :
    fitQ (mkFit (real spline) range4.cast) g (71 / 100) = fitQ (mkFit (real spline) range5.cast) g (71 / 100) := by
  have h := border spline hs g range4 range5 (by simp [table]) (by simp [table])
    (71 / 100, [18137 / 3125, 192623 / 50000, 305579 / 500000, 156917 / 2500000, 9683 / 2500000], [57189 / 50000, 242929 / 500000, 80743 / 500000, 420891 / 10000000, 686317 / 100000000])
    (71 / 100, [18137 / 3125, 192623 / 50000, 305579 / 500000, 156917 / 2500000, 9683 / 2500000, 0], [57189 / 50000, 242929 / 500000, 80743 / 500000, 420891 / 10000000, 686317 / 100000000, 125639 / 1000000000])
    (by decide +kernel) (by decide +kernel) rfl (71 / 100) (by norm_num)
  rw [h.1, h.2]
  simp only [rowQuantity, List.zipWith_cons_cons, List.zipWith_nil_left, List.sum_cons, List.sum_nil, Rat.cast_zero, zero_mul, add_zero]

theorem border5 (spline : List (ℝ × ℝ) → Nat → ℝ → ℝ) (hs : Interpolates spline) (g : Kernel ℝ ℝ) :
    fitQ (mkFit (real spline) range5.cast) g (3 / 2) = fitQ (mkFit (real spline) range6.cast) g (3 / 2) := by
  have h := border spline hs g range5 range6 (by simp [table]) (by simp [table])
    (3 / 2, [141031 / 25000, 51737 / 10000, 115389 / 50000, 165503 / 250000, 386 / 3125, 123547 / 10000000], [117167 / 50000, 283367 / 500000, 18559 / 125000, 7143 / 200000, 693027 / 100000000, 419989 / 500000000])
    (3 / 2, [141031 / 25000, 51737 / 10000, 115389 / 50000, 165503 / 250000, 386 / 3125, 123547 / 10000000, 0], [117167 / 50000, 283367 / 500000, 18559 / 125000, 7143 / 200000, 693027 / 100000000, 419989 / 500000000, 31851 / 250000000000])
    (by decide +kernel) (by decide +kernel) rfl (3 / 2) (by norm_num)
  rw [h.1, h.2]
  simp only [rowQuantity, List.zipWith_cons_cons, List.zipWith_nil_left, List.sum_cons, List.sum_nil, Rat.cast_zero, zero_mul, add_zero]

theorem border6 (spline : List (ℝ × ℝ) → Nat → ℝ → ℝ) (hs : Interpolates spline) (g : Kernel ℝ ℝ) :
    fitQ (mkFit (real spline) range6.cast) g (3) = fitQ (mkFit (real spline) range7.cast) g (3) := by
  have h := border spline hs g range6 range7 (by simp [table]) (by simp [table])
    (3, [292961 / 50000, 147473 / 25000, 24539 / 6250, 49021 / 25000, 382189 / 500000, 224729 / 1000000, 23091 / 625000], [519717 / 100000, 85919 / 100000, 45211 / 250000, 200541 / 5000000, 869111 / 100000000, 86501 / 50000000, 29187 / 100000000])
    (3, [292961 / 50000, 147473 / 25000, 24539 / 6250, 49021 / 25000, 382189 / 500000, 224729 / 1000000, 23091 / 625000, 0], [519717 / 100000, 85919 / 100000, 45211 / 250000, 200541 / 5000000, 869111 / 100000000, 86501 / 50000000, 29187 / 100000000, 6369 / 50000000000])
    (by decide +kernel) (by decide +kernel) rfl (3) (by norm_num)
  rw [h.1, h.2]
  simp only [rowQuantity, List.zipWith_cons_cons, List.zipWith_nil_left, List.sum_cons, List.sum_nil, Rat.cast_zero, zero_mul, add_zero]

theorem fits_meet (spline : List (ℝ × ℝ) → Nat → ℝ → ℝ) (hs : Interpolates spline) (g : Kernel ℝ ℝ) (s0 : ℝ) (h1 : s0 ≠ 51 / 100)
    (h2 : s0 ≠ 57 / 100) : Meets g s0 (fits (real spline)) := by
  refine ⟨fun h => ?_, fun h => ?_, fun h => ?_, fun h => ?_, fun h => ?_, fun h => ?_, fun h => ?_, trivial⟩
  · rw [h, mkFit_hi spline range0 (21 / 50) (by norm_num [range0])]
    exact border0 spline hs g
  · exact absurd (h.trans (mkFit_hi spline range1 (51 / 100) (by norm_num [range1]))) h1
  · exact absurd (h.trans (mkFit_hi spline range2 (57 / 100) (by norm_num [range2]))) h2
  · rw [h, mkFit_hi spline range3 (31 / 50) (by norm_num [range3])]
    exact border3 spline hs g
  · rw [h, mkFit_hi spline range4 (71 / 100) (by norm_num [range4])]
    exact border4 spline hs g
  · rw [h, mkFit_hi spline range5 (3 / 2) (by norm_num [range5])]
    exact border5 spline hs g
  · rw [h, mkFit_hi spline range6 3 (by norm_num [range6])]
    exact border6 spline hs g

/-- Where the rows of neighbouring ranges differ, profiles jump. -/
theorem jump (spline : List (ℝ × ℝ) → Nat → ℝ → ℝ) (hs : Interpolates spline) (g : Kernel ℝ ℝ) (hg : Continuous (roundG g)) (r r' : Range ℚ)
    (hr : r ∈ table) (hr' : r' ∈ table) (row row' : ℚ × List ℚ × List ℚ) (h : row ∈ r.grid) (h' : row' ∈ r'.grid) (hb : row.1 = row'.1)
    (hhi : row.1 = r.hi) (hlo : row.1 = r'.lo) (hlt : r.lo < r.hi) (hlt' : r'.lo < r'.hi) (h1 : row.1 ≤ 1) (hn : rowQuantity g row ≠ rowQuantity g row') :
    ¬ ContinuousAt (quantity spline g) (row.1 : ℝ) := by
  intro hc
  have hlohi : ∀ r ∈ table, (29 / 100 : ℚ) ≤ r.lo ∧ r.hi ≤ 63 / 10 := by decide +kernel
  have hcast : ((29 / 100 : ℚ) : ℝ) = 29 / 100 ∧ ((63 / 10 : ℚ) : ℝ) = 63 / 10 := by constructor <;> norm_num
  have hrow := fitQ_row spline hs r (table_good r hr) row h g
  have hrow' := fitQ_row spline hs r' (table_good r' hr') row' h' g
  rw [← hb] at hrow'
  have hval : quantity spline g (row.1 : ℝ) = rowQuantity g row' := by
    rw [quantity_small spline g _ (by exact_mod_cast h1), clamp_id _ (by
      rw [← hcast.1, hlo]
      exact Rat.cast_le.mpr (hlohi r' hr').1) (by
      rw [← hcast.2, hhi]
      exact Rat.cast_le.mpr (hlohi r hr).2), picked_in spline r' hr' _ (by rw [hlo]) (by rw [hlo]; exact Rat.cast_lt.mpr hlt'), hrow'.1]
  have hfc := fitQ_cont (mkFit (real spline) r.cast) (fit_cont spline hs _).1 (fit_cont spline hs _).2 g hg.continuousOn (row.1 : ℝ) (by
    rw [hrow.2]
    exact_mod_cast ((table_good r hr).1 row h).2.2.2)
  have hleft : Tendsto (quantity spline g) (𝓝[<] (row.1 : ℝ)) (𝓝 (rowQuantity g row)) := by
    rw [← hrow.1]
    refine Tendsto.congr' ?_ (hfc.tendsto.mono_left nhdsWithin_le_nhds)
    have hmem : Set.Ioo (r.lo : ℝ) (row.1 : ℝ) ∈ 𝓝[<] (row.1 : ℝ) := Ioo_mem_nhdsLT (by rw [hhi]; exact Rat.cast_lt.mpr hlt)
    filter_upwards [hmem] with s hsm
    have hs1 : s ≤ 1 := le_trans (le_of_lt hsm.2) (by exact_mod_cast h1)
    rw [quantity_small spline g s hs1, clamp_id s (by
      rw [← hcast.1]
      exact le_trans (Rat.cast_le.mpr (hlohi r hr).1) (le_of_lt hsm.1)) (le_trans hs1 (by norm_num)),
      picked_in spline r hr s (le_of_lt hsm.1) (by rw [← hhi]; exact hsm.2)]
  have hright : Tendsto (quantity spline g) (𝓝[<] (row.1 : ℝ)) (𝓝 (rowQuantity g row')) := by
    rw [← hval]
    exact hc.tendsto.mono_left nhdsWithin_le_nhds
  exact hn (tendsto_nhds_unique hleft hright)

/-- At tabulated indices the sums are those of the table. -/
theorem sumOK_table (spline : List (ℝ × ℝ) → Nat → ℝ → ℝ) (hs : Interpolates spline) (q : ℚ)
    (h : ∀ r ∈ table, r.lo ≤ q → q ≤ r.hi → ∃ row ∈ r.grid, row.1 = q) : SumOK (fits (real spline)) (q : ℝ) := by
  intro f hf h1 h2
  rw [fits, List.mem_map] at hf
  obtain ⟨r, hr, rfl⟩ := hf
  obtain ⟨row, hrow, hq⟩ := h r hr (Rat.cast_le.mp h1) (Rat.cast_le.mp h2)
  have := (fitQ_row spline hs r (table_good r hr) row hrow (fun _ _ _ _ _ _ => 0)).2
  rw [hq] at this
  rw [this]
  exact_mod_cast ((table_good r hr).1 row hrow).2.2.2

end reals

end Verif.Gal.Sersic
