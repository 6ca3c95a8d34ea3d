import Verif.Src.SersicSpec
import Verif.Src.Props
import Verif.Params.Props
import Mathlib.Tactic.Ring
import Mathlib.Tactic.Linarith
import Mathlib.Tactic.NormNum

/-!
# C115: derivatives and copies of Sersic galaxies

`SersicGalaxy.getParamDerivatives` has one entry for each thawed parameter, the last one being the difference quotient of the model image
with respect to the Sersic index, taken backwards when a step forward would exceed the upper bound; `getDerivativeShearedProfiles` gives
the profiles that belong to its steps, with the number of components kept if a step in either direction keeps it.  Both leave the galaxy as
it was.
-/

namespace Verif.Src

open Verif.Params

variable {R M K : Type} [Field R] [LinearOrder R] [AddCommGroup M] [Module R M]

/-- C115: when the galaxy renders, also with the stepped index, and renderings do not depend on the limit, the list has one entry for each
thawed parameter, beginning with those of the galaxy (C41), and the entry for the index is its difference quotient. -/
theorem C115_derivs_partial (I : Image R) (W : R → GalaxyWorld R M K) (s : Sersic R) (hr : MaskRenders (W s.index.val))
    (hs : MaskStable (W s.index.val)) (mask : Option K) (hpos : s.gal.pos.slots.length ≤ 2)
    (hps : s.gal.posLiquid = true → GoodSteps (.plist s.gal.pos)) (hb : s.gal.brightLiquid = true → GoodSteps s.gal.bright)
    (hg : s.gal.shapeLiquid = true → GoodSteps s.gal.shape) (hl : NoLimit W mask) (up h : R) (hup : s.index.upper = some up)
    (hst : getStepSizes (.scalar s.index) = [h]) (h0 : h ≠ 0) (patch0 : M)
    (hp : (W s.index.val).unit s.gal.pos s.gal.shape (minvalOf I.minsb (I.counts s.gal.bright)) mask = some patch0)
    (hp' : ∀ v', Neighbour up h s.index.val v' → ∃ p, (W v').unit s.gal.pos s.gal.shape (some 0) mask = some p) :
    ∃ ds, sersicDerivs I W mask s = (s, .ok ds) ∧ ds.length = numberOfParams s.tree ∧
      (galaxyDerivs I (W s.index.val) mask s.gal).2 = .ok (ds.take (numberOfParams s.gal.tree)) ∧
      (s.indexLiquid = true → ∃ v', Neighbour up h s.index.val v' ∧
        ds[numberOfParams s.gal.tree]? =
          some (some ((v' - s.index.val)⁻¹ • (indexModel I W mask s v' - indexModel I W mask s s.index.val)))) := by
  obtain ⟨ds, hd, hlen, _⟩ := C41_galaxy I (W s.index.val) hr hs mask s.gal hpos hps hb hg
  have hn : numberOfParams s.tree = numberOfParams s.gal.tree + (if s.indexLiquid then 1 else 0) := by
    simp only [Sersic.tree, Galaxy.tree, numberOfParams, numberOfParamsSubs]
    cases s.gal.posLiquid <;> cases s.gal.brightLiquid <;> cases s.gal.shapeLiquid <;> cases s.indexLiquid <;>
      simp <;> omega
  by_cases hi : s.indexLiquid = true
  · have hstep : s.index.step.getD s.index.defstep = h := by
      simpa [getStepSizes] using hst
    obtain ⟨st, v', hstep', hst0, hv', hnb⟩ : ∃ st v', indexStep s.index = .ok (st, v') ∧ st ≠ 0 ∧ v' - s.index.val = st ∧
        Neighbour up h s.index.val v' := by
      unfold indexStep
      rw [hup]
      simp only [hstep]
      by_cases hle : up < s.index.val + h
      · rw [if_pos hle]
        exact ⟨_, _, rfl, by simpa using h0, by ring, Or.inr ⟨hle, by ring⟩⟩
      · rw [if_neg hle]
        exact ⟨_, _, rfl, h0, by ring, Or.inl ⟨not_lt.mp hle, rfl⟩⟩
    obtain ⟨p, hpv⟩ := hp' v' hnb
    refine ⟨ds ++ [some ((I.counts s.gal.bright / st) • (p - patch0))], ?_, ?_, ?_, ?_⟩
    · obtain ⟨gal, il, idx⟩ := s
      simp only at hi hp hd hstep' hpv ⊢
      subst hi
      simp only [sersicDerivs, hp, hd, if_true, indexDeriv, hstep', hpv, pyDiv, if_neg hst0, Except.map]
    · rw [List.length_append, hlen, hn, if_pos hi]
      rfl
    · rw [hd, ← hlen, List.take_left']
      rfl
    · intro _
      refine ⟨v', hnb, ?_⟩
      rw [← hlen, List.getElem?_append_right (le_refl _), Nat.sub_self, List.getElem?_cons_zero]
      unfold indexModel
      rw [hl v' _ _ _ (some 0), hpv, hp, hv', Option.getD_some, Option.getD_some, ← smul_sub, smul_smul, div_eq_mul_inv, mul_comm]
  · refine ⟨ds, ?_, ?_, ?_, fun h => absurd h hi⟩
    · obtain ⟨gal, il, idx⟩ := s
      simp only [Bool.not_eq_true] at hi hp hd ⊢
      subst hi
      simp only [sersicDerivs, hp, hd]
      rfl
    · rw [hlen, hn, if_neg hi, Nat.add_zero]
    · rw [hd, ← hlen, List.take_length]

theorem indexDeriv_fst (W : R → GalaxyWorld R M K) (mask : Option K) (counts : R) (patch0 : M) (s : Sersic R) :
    (indexDeriv W mask counts patch0 s).1 = s := by
  unfold indexDeriv
  cases indexStep s.index with
  | error e => rfl
  | ok sv =>
    simp only
    cases (W sv.2).unit s.gal.pos s.gal.shape (some 0) mask <;> rfl

/-- C115: the galaxy is left as it was, also when an error is raised. -/
theorem C115_restored (I : Image R) (W : R → GalaxyWorld R M K) (mask : Option K) (s : Sersic R) (hr : MaskRenders (W s.index.val))
    (hs : MaskStable (W s.index.val)) (hpos : s.gal.pos.slots.length ≤ 2)
    (hps : s.gal.posLiquid = true → GoodSteps (.plist s.gal.pos)) (hb : s.gal.brightLiquid = true → GoodSteps s.gal.bright)
    (hg : s.gal.shapeLiquid = true → GoodSteps s.gal.shape) : (sersicDerivs I W mask s).1 = s := by
  have h : (galaxyDerivs I (W s.index.val) mask s.gal).1 = s.gal := by
    obtain ⟨ds, hd, _⟩ := C41_galaxy I (W s.index.val) hr hs mask s.gal hpos hps hb hg
    rw [hd]
  unfold sersicDerivs
  split
  · rfl
  · rename_i patch0 _
    split
    · rename_i g e he
      rw [he] at h
      simp only at h
      rw [h]
    · rename_i g ds he
      rw [he] at h
      simp only at h
      subst h
      simp only
      split
      · have := indexDeriv_fst W mask (I.counts s.gal.bright) patch0 s
        split <;> rename_i heq <;> rw [heq] at this <;> exact this
      · rfl

/-- A galaxy with thawed index 2 at the middle of its bounds, or wherever. -/
def exSersic (v : Rat) : Sersic Rat := ⟨⟨true, exPos false, true, exBright, true, exShape 4⟩, true, mkIndex v⟩

/-- A renderer that also depends on the index; nothing beyond index `top`. -/
def exSer (top v : Rat) : GalaxyWorld Rat Rat Unit where
  unit p g _ _ := if v ≤ top then some (val0 (.plist p) + 2 * val0 g + 5 * v) else none
  forced p g _ _ := some (val0 (.plist p) + 2 * val0 g + 5 * v)
  extentMask _ := ()
  grad _ := (1, 0)

/-- Counts are 60: five times that per unit of the index, also at the upper bound, where the step goes backwards. -/
example : (sersicDerivs exImage (exSer 100) none (exSersic 2)).2 = .ok [some 120, none, some 63, some 120, some 300] ∧
    (sersicDerivs exImage (exSer (63 / 10)) none (exSersic (63 / 10))).2 =
      .ok [some 120, none, some (255 / 2), some 120, some 300] := by
  constructor <;> decide +kernel

example : MaskRenders (exSer 100 2) ∧ MaskStable (exSer 100 2) ∧ NoLimit (exSer 100) none ∧
    getStepSizes (.scalar (exSersic 2).index) = [1 / 100] ∧
    Neighbour (63 / 10) (1 / 100) (2 : Rat) (201 / 100) ∧ Neighbour (63 / 10) (1 / 100) (63 / 10 : Rat) (629 / 100) := by
  refine ⟨fun _ _ _ _ => rfl, fun _ _ _ _ _ h => h, fun _ _ _ _ _ => rfl, by decide +kernel, ?_, ?_⟩
  · unfold Neighbour; norm_num
  · unfold Neighbour; norm_num

/-- C115, negation: when the galaxy does not render, the list has one entry more than there are parameters. -/
theorem C115_none_false (I : Image R) (W : R → GalaxyWorld R M K) (mask : Option K) (s : Sersic R)
    (hp : (W s.index.val).unit s.gal.pos s.gal.shape (minvalOf I.minsb (I.counts s.gal.bright)) mask = none) :
    sersicDerivs I W mask s = (s, .ok (List.replicate (numberOfParams s.tree + 1) none)) := by
  simp only [sersicDerivs, hp]
  rw [List.replicate_succ']

example : (sersicDerivs exImage (exSer 1) none (exSersic 2)).2 = .ok [none, none, none, none, none, none] ∧
    numberOfParams (exSersic 2).tree = 5 := by constructor <;> decide +kernel

/-- C115, negation: when the galaxy with the stepped index does not render, an exception is raised. -/
theorem C115_vanish_false : (sersicDerivs exImage (exSer 2) none (exSersic 2)).2 = .error .typeErr := by decide +kernel

/-- A renderer that cuts at the limit it is given: the limit is all that is missing. -/
def exCut (v : Rat) : GalaxyWorld Rat Rat Unit where
  unit _ _ mv _ := some (5 * v - mv.getD 0)
  forced _ _ mv _ := some (5 * v - mv.getD 0)
  extentMask _ := ()
  grad _ := (1, 0)

/-- C115, negation: without a mask the first rendering stops at the limit `modelMinval`, the stepped one does not, and their difference is
taken for a derivative.  Here the model image changes by 300 per unit of the index and 400 is reported. -/
theorem C115_limit_false :
    let I : Image Rat := ⟨fun b => 3 * val1 b, 1, fun _ => ((1, 2), (3, 4))⟩
    let s : Sersic Rat := ⟨⟨false, exPos false, false, exBright, false, exShape 4⟩, true, mkIndex 2⟩
    (sersicDerivs I exCut none s).2 = .ok [some 400] ∧
      ∀ v, v ≠ 2 → (v - 2)⁻¹ • (indexModel I exCut none s v - indexModel I exCut none s 2) = (300 : Rat) := by
  refine ⟨by decide +kernel, ?_⟩
  intro v hv
  have hm : ∀ v : Rat, indexModel (⟨fun b => 3 * val1 b, 1, fun _ => ((1, 2), (3, 4))⟩ : Image Rat) exCut none
      (⟨⟨false, exPos false, false, exBright, false, exShape 4⟩, true, mkIndex 2⟩ : Sersic Rat) v = 60 * (5 * v - 1 / 60) := by
    intro v
    show (3 * 20 : Rat) • (5 * v - (minvalOf (1 : Rat) (3 * 20)).getD 0) = _
    unfold minvalOf
    norm_num
  simp only [hm, smul_eq_mul]
  have : v - 2 ≠ 0 := sub_ne_zero.mpr hv
  field_simp
  ring

omit [LinearOrder R] in
/-- C115: a copy of a galaxy whose parameters are all thawed has the same values and thawed parameters. -/
theorem C115_copy_partial (s : Sersic R) (hb : NoMissing s.gal.bright) (hg : NoMissing s.gal.shape)
    (h : s.gal.posLiquid = true ∧ s.gal.brightLiquid = true ∧ s.gal.shapeLiquid = true ∧ s.indexLiquid = true) :
    ∃ s', s.copy = .ok s' ∧ leaves s'.tree = leaves s.tree := by
  obtain ⟨b, hb1, hb2⟩ := copy_ok _ hb
  obtain ⟨g, hg1, hg2⟩ := copy_ok _ hg
  refine ⟨⟨⟨true, copyPList s.gal.pos, true, b, true, g⟩, true, mkIndex s.index.val⟩, by simp only [Sersic.copy, hb1, hg1], ?_⟩
  simp only [leaves, Sersic.tree, leavesFrom, leavesFromSubs, h.1, h.2.1, h.2.2.1, h.2.2.2, copyPList_slots, hb2, hg2, mkIndex]

/-- C115, negation: the copy of a galaxy with frozen brightness has it thawed. -/
theorem C115_copy_false : ∃ s s' : Sersic Rat, s.copy = .ok s' ∧ numberOfParams s.tree = 3 ∧ numberOfParams s'.tree = 5 := by
  refine ⟨⟨⟨true, exPos false, false, exBright, true, exShape 4⟩, true, mkIndex 2⟩, _, rfl, ?_, ?_⟩ <;> decide +kernel

/-- C115: the profile for the index belongs to the step returned with it, which is as long as the step size, and does not leave the
bounds; the number of Gaussians is kept if there is a step within the bounds that keeps it.  With a legal index and bounds that are two
steps apart no exception is raised. -/
theorem C115_index {A : Type} [IsStrictOrderedRing R] (P : R → A) (count : A → Nat) (n0 : Nat) (i : Scalar R) (up lo h : R) (hup : i.upper = some up)
    (hlo : i.lower = some lo) (hst : getStepSizes (.scalar i) = [h]) (h0 : 0 < h) (hgap : lo + 2 * h ≤ up) (hv : i.val ≤ up) :
    ∃ pro step, indexProfile P count n0 i = (i, .ok (pro, step)) ∧ pro = P (i.val + step) ∧ (step = h ∨ step = -h) ∧
      i.val + step ≤ up ∧ (lo ≤ i.val → lo ≤ i.val + step) ∧
      ∀ st, (st = h ∨ st = -h) → lo < i.val + st → i.val + st < up → count (P (i.val + st)) = n0 → count pro = n0 := by
  have hstep : i.step.getD i.defstep = h := by
    simpa [getStepSizes] using hst
  obtain ⟨cls, val, lower, upper, maxstep, defstep, stp⟩ := i
  simp only at hup hlo hv hstep ⊢
  subst hup hlo
  unfold indexProfile
  simp only [hstep, if_neg (not_not.mpr h0)]
  by_cases hex : up < val + h
  · have hlow : lo < val + h * -1 := by linarith
    have hne : ¬ (up < val + h ∧ ¬ lo < val + h * -1) := fun hc => hc.2 hlow
    simp only [if_pos hex, if_neg hne]
    have hno : ¬ (val - h * -1 < up) := by
      intro hc
      linarith
    refine ⟨P (val + h * -1), h * -1, ?_, rfl, Or.inr (by ring), by linarith, fun _ => le_of_lt hlow, ?_⟩
    · by_cases hc : count (P (val + h * -1)) = n0
      · simp only [hc, ne_eq, not_true_eq_false, if_false]
      · simp only [hc, ne_eq, not_false_eq_true, if_true, hno, false_and, if_false]
    · intro st hst' _ h2 hcount
      rcases hst' with rfl | rfl
      · linarith
      · rw [← hcount]
        congr 2
        ring
  · simp only [hex, false_and, if_false]
    by_cases hc : count (P (val + h)) ≠ n0
    · simp only [if_pos hc]
      by_cases hin : val - h < up ∧ lo < val - h
      · simp only [if_pos hin]
        by_cases hc2 : count (P (val - h)) = n0
        · simp only [if_pos hc2]
          exact ⟨P (val - h), h * -1, rfl, by congr 1; ring, Or.inr (by ring), by linarith, fun _ => by linarith [hin.2], fun _ _ _ _ _ => hc2⟩
        · simp only [if_neg hc2]
          refine ⟨_, _, rfl, rfl, Or.inl rfl, not_lt.mp hex, fun hl => by linarith, ?_⟩
          intro st hst' _ _ hcount
          rcases hst' with rfl | rfl
          · exact hcount
          · rw [← sub_eq_add_neg] at hcount
            exact absurd hcount hc2
      · simp only [if_neg hin]
        refine ⟨_, _, rfl, rfl, Or.inl rfl, not_lt.mp hex, fun hl => by linarith, ?_⟩
        intro st hst' h1 h2 hcount
        rcases hst' with rfl | rfl
        · exact hcount
        · rw [← sub_eq_add_neg] at h1 h2
          exact absurd ⟨h2, h1⟩ hin
    · simp only [if_neg hc]
      exact ⟨_, _, rfl, rfl, Or.inl rfl, not_lt.mp hex, fun hl => by linarith, fun _ _ _ _ _ => not_not.mp hc⟩

/-- Five Gaussians up to 0.71, six above: the step forward from 0.705 would change their number, so it goes backwards. -/
example : (indexProfile (fun v : Rat => v) (fun v => if v < 71 / 100 then 5 else 6) 5 (mkIndex (705 / 1000))).2 =
    .ok (695 / 1000, -1 / 100) ∧
    (indexProfile (fun v : Rat => v) (fun v => if v < 71 / 100 then 5 else 6) 6 (mkIndex (63 / 10))).2 = .ok (629 / 100, -1 / 100) := by
  constructor <;> decide +kernel

/-- C115: `getDerivativeShearedProfiles` leaves the galaxy as it was and returns a profile for each thawed shape parameter, computed with
that parameter stepped by the step returned, and then one for the index if it is thawed. -/
theorem C115_profiles {A : Type} [IsStrictOrderedRing R] (P : Par R → R → A) (count : A → Nat) (s : Sersic R)
    (hg : s.gal.shapeLiquid = true → GoodSteps s.gal.shape) (up lo h : R) (hup : s.index.upper = some up) (hlo : s.index.lower = some lo)
    (hst : getStepSizes (.scalar s.index) = [h]) (h0 : 0 < h) (hgap : lo + 2 * h ≤ up) (hv : s.index.val ≤ up) :
    ∃ L, sersicProfiles P count s = (s, .ok L) ∧
      L.length = (if s.gal.shapeLiquid then numberOfParams s.gal.shape else 0) + (if s.indexLiquid then 1 else 0) ∧
      (s.gal.shapeLiquid = true → ∀ (j : Nat) (v st : R) (n : String), (getParams s.gal.shape)[j]? = some v →
        (getStepSizes s.gal.shape)[j]? = some st → (getParamNames s.gal.shape)[j]? = some n →
        L[j]? = some ("shape." ++ n, P (setParam s.gal.shape (j : Int) (v + st)).1 s.index.val, st)) ∧
      (s.indexLiquid = true → ∃ pro step, L.getLast? = some ("sersicindex." ++ s.index.cls, pro, step) ∧
        pro = P s.gal.shape (s.index.val + step) ∧ (step = h ∨ step = -h) ∧ s.index.val + step ≤ up ∧
        ∀ st, (st = h ∨ st = -h) → lo < s.index.val + st → s.index.val + st < up →
          count (P s.gal.shape (s.index.val + st)) = count (P s.gal.shape s.index.val) → count pro = count (P s.gal.shape s.index.val)) := by
  obtain ⟨pro, step, hix, hpro, hs1, hs2, _, hcnt⟩ := C115_index (P s.gal.shape) count (count (P s.gal.shape s.index.val)) s.index up lo h hup hlo
    hst h0 hgap hv
  obtain ⟨Ls, hsh, hlen, hent⟩ : ∃ Ls, shapeProfiles (fun t => P t s.index.val) s.gal.shapeLiquid s.gal.shape = (s.gal.shape, .ok Ls) ∧
      Ls.length = (if s.gal.shapeLiquid then numberOfParams s.gal.shape else 0) ∧
      (s.gal.shapeLiquid = true → ∀ (j : Nat) (v st : R) (n : String), (getParams s.gal.shape)[j]? = some v →
        (getStepSizes s.gal.shape)[j]? = some st → (getParamNames s.gal.shape)[j]? = some n →
        Ls[j]? = some ("shape." ++ n, P (setParam s.gal.shape (j : Int) (v + st)).1 s.index.val, st)) := by
    unfold shapeProfiles
    by_cases hl : s.gal.shapeLiquid = true
    · obtain ⟨h1, h2⟩ := hg hl
      obtain ⟨L, hL, hlL, hLs⟩ := stepEach_ok (fun st t => .ok (P t s.index.val, st)) s.gal.shape (fun st t' _ => ⟨_, rfl⟩)
        (getStepSizes s.gal.shape) 0 (by rw [h1]; omega) h2
      rw [if_pos hl, if_pos hl, hL]
      refine ⟨_, rfl, ?_, ?_⟩
      · rw [List.length_zipWith, getParamNames_length, hlL, h1, Nat.min_self]
      · intro _ j v st n hv hs hn
        have hj : j < L.length := by
          rw [hlL]
          exact (List.getElem?_eq_some_iff.mp hs).1
        have hb : L[j]? = some L[j] := List.getElem?_eq_getElem hj
        obtain ⟨st', v', e1, e2, e3⟩ := hLs j L[j] hb
        rw [hs] at e1
        rw [Nat.zero_add] at e2 e3
        rw [hv] at e2
        cases e1
        cases e2
        simp only [Except.ok.injEq] at e3
        rw [List.getElem?_zipWith, hn, hb, ← e3]
    · rw [if_neg hl, if_neg hl]
      exact ⟨[], rfl, rfl, fun h => absurd h hl⟩
  by_cases hi : s.indexLiquid = true
  · refine ⟨Ls ++ [("sersicindex." ++ s.index.cls, pro, step)], ?_, ?_, ?_, ?_⟩
    · unfold sersicProfiles
      rw [hsh]
      simp only [hi, if_true, hix]
      obtain ⟨gal, il, idx⟩ := s
      simp only at hi
      rw [hi]
    · rw [List.length_append, hlen, if_pos hi]
      rfl
    · intro hl j v st n h1 h2 h3
      have := hent hl j v st n h1 h2 h3
      rw [List.getElem?_append_left (List.getElem?_eq_some_iff.mp this).1, this]
    · intro _
      exact ⟨pro, step, by simp, hpro, hs1, hs2, hcnt⟩
  · refine ⟨Ls, ?_, ?_, hent, fun h => absurd h hi⟩
    · unfold sersicProfiles
      rw [hsh]
      simp only [hi]
      obtain ⟨gal, il, idx⟩ := s
      simp only [Bool.not_eq_true] at hi
      rw [hi]
      rfl
    · rw [hlen, if_neg hi, Nat.add_zero]

example : (sersicProfiles (fun t v => (val0 t, v)) (fun _ => 7) (exSersic 2)).2 =
    .ok [("shape.re", (41 / 10, 2), 1 / 10), ("sersicindex.SersicIndex", (4, 201 / 100), 1 / 100)] := by decide +kernel

end Verif.Src
