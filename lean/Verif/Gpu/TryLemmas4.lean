import Verif.Gpu.TryLemmas3
import Verif.Gpu.Props
import Verif.Opt.Props
import Mathlib.Data.List.TakeWhile

/-!
# The result of the GPU line search; point sources
-/

namespace Verif.Gpu

open Verif Verif.Psf Verif.Params Verif.Opt

variable {R : Type} [Field R] [LinearOrder R] [IsStrictOrderedRing R]

/-- `tryBody` finds what a line search should find. -/
theorem body_found (rnd : R → Int) (hr : ∀ x, |x - rnd x| ≤ 1 / 2) (tiny : R) (htiny : 0 < tiny) (job : Job R) (P : Params R)
    (M : Par R → Tim R → Int → Int → R) (cen : Tim R → Int × Int) (hl : Laid job.tims P cen)
    (hf : ∀ tim ∈ job.tims, Fits tim) (cached : Bool) (fl : OptFlags) (t : Par R) (ht : Legal t) (X alphas : List R)
    (hX : X.length = numberOfParams t) (hinc : increasing alphas = true)
    (q0 : R) (hq : job.prior t = .fin q0) (hnear : tooFar job t = false)
    (hclip : cached = false ∨ ∀ b cs, getParameterSteps tiny t X alphas = (b, .ok cs) →
      clipped P ((⟨0, getParams t, false, false⟩ :: cs.takeWhile (fun c => !tooFar job (withParams t c.p))).map
        (shownOf rnd job P t)) = false)
    (hM0 : Renders rnd job P M t)
    (hM : ∀ b cs, getParameterSteps tiny t X alphas = (b, .ok cs) →
      ∀ c ∈ cs.takeWhile (fun c => !tooFar job (withParams t c.p)), Renders rnd job P M (withParams t c.p)) :
    ∃ (t' : Par R) (fl' : OptFlags) (d a : R),
      tryBody rnd tiny job P cached fl t X alphas = (t', fl', .ok (some (.fin d, a))) ∧
      Found (objective job M) (fun par => tooFar job par = false) tiny t X alphas t' d a ∧ Legal t' ∧
      ∀ b cs, getParameterSteps tiny t X alphas = (b, .ok cs) → (∀ c ∈ cs, tooFar job (withParams t c.p) = false) →
        ∃ flc, tryUpdatesC tiny (objective job M) none fl t X alphas = (t', flc, .ok (.fin d, a)) ∧
          (cs ≠ [] → fl'.hitLimit = flc.hitLimit ∧ fl'.lastStepHitLimit = flc.lastStepHitLimit ∧
            (flc.stepLimited = true → fl'.stepLimited = true) ∧
            (fl'.stepLimited = true → flc.stepLimited = true ∨ flc.hitLimit = true)) := by
  obtain ⟨b, cs, g1, -, g3, -, -⟩ := getParameterSteps_ok tiny htiny t ht X alphas hX hinc
  have hcand : ∀ c ∈ cs, c.p = stepTo (getParams t) X c.alpha ∧
      Feasible (getParams t) (getMaxStep t) (getLowerBounds t) (getUpperBounds t) X c.alpha := by
    intro c hc
    obtain ⟨k, hk⟩ := List.mem_iff_getElem?.1 hc
    obtain ⟨a0, -, -, -, q1, q2, -⟩ := g3 k c hk
    exact ⟨q1, q2⟩
  have hlen : ∀ c ∈ cs, c.p.length = numberOfParams t := by
    intro c hc
    rw [(hcand c hc).1]
    simp [stepTo, getParams_length, hX]
  have hmv : ∀ c ∈ cs, withParams t c.p = moved t X c.alpha := by
    intro c hc
    rw [(hcand c hc).1]
    rfl
  have hid : withParams t (getParams t) = t := by rw [withParams, setParams_id]
  obtain ⟨near, hn⟩ : ∃ near, near = cs.takeWhile (fun c => !tooFar job (withParams t c.p)) := ⟨_, rfl⟩
  have hsub : ∀ c ∈ near, c ∈ cs := by
    intro c hc
    rw [hn] at hc
    exact (List.takeWhile_sublist _).subset hc
  have hnr : ∀ c ∈ near, tooFar job (withParams t c.p) = false := by
    intro c hc
    rw [hn] at hc
    simpa using List.mem_takeWhile_imp hc
  obtain ⟨fl0, hfl0⟩ : ∃ fl0 : OptFlags, fl0 = (if cs.length = 0 then (⟨true, true, true⟩ : OptFlags)
    else { fl with stepLimited := fl.stepLimited || b }) := ⟨_, rfl⟩
  obtain ⟨u2, fl', fl2', x0, b', aB, pB, e1, e2, e3, e4, e5, e6, e7, e8, e9⟩ := tryBody_ok rnd hr tiny job P M cen hl hf cached
    fl t X alphas b cs near g1 hlen q0 hq hnear hn (hclip.imp id (fun h => by rw [hn]; exact h b cs g1)) hM0
    (by rw [hn]; exact hM b cs g1) fl0
  obtain ⟨w', fl'', best', aB', pB', pre, post, c1, c2, c3, c4, c5, c6, -⟩ := candLoop_ok (objective job M) none t near
    (fun c hc => hlen c (hsub c hc)) fl0 (objective job M t) none (getParams t) (getParams t)
  rw [setParams_id] at c1
  rw [e1, e2] at c1
  simp only [Prod.mk.injEq, Except.ok.injEq] at c1
  obtain ⟨r1, r2, r3, r4, r5⟩ := c1
  subst r2
  rw [← r3, ← r4, ← r5] at c3
  rw [← r3] at c4 c5
  have hpre : ∀ c ∈ pre, c ∈ cs := fun c hc => hsub c (by rw [c2]; simp [hc])
  obtain ⟨rest, hrest⟩ : ∃ rest, cs = near ++ rest := by
    rw [hn]; exact ⟨_, (List.takeWhile_append_dropWhile).symm⟩
  refine ⟨withParams t pB, fl', b' - x0, aB.getD 0, e4, ?_, ?_, ?_⟩
  · refine ⟨b, pre, post ++ rest, b', ?_, ?_, ?_, ?_, ?_, ?_⟩
    · rw [g1, hrest, c2, List.append_assoc]
    · rcases c3 with ⟨h1, h2, h3, -⟩ | ⟨c, hc, h1, h2, h3, -⟩
      · rw [h3, h1, hid]
      · rw [h2, h3]
    · rw [e1]; simp
    · rcases c3 with ⟨h1, h2, h3, -⟩ | ⟨c, hc, h1, h2, h3, h4, -⟩
      · left
        rw [e1] at h1
        have h1 : b' = x0 := by injection h1
        exact ⟨by rw [h3, hid], by rw [h1]; ring, by rw [h2]; rfl⟩
      · right
        rw [e1] at h4
        simp only [Num.lt, decide_eq_true_eq] at h4
        refine ⟨by linarith, ?_, c, hc, by rw [h1]; rfl, ?_⟩
        · rw [h2, h1]; exact hmv c (hpre c hc)
        · rw [h2]; exact (setParams_get t _ (hlen c (hpre c hc))).2
    · intro c hc
      obtain ⟨k1, k2, -⟩ := c4 c hc
      rw [← hmv c (hpre c hc)]
      refine ⟨hnr c (by rw [c2]; simp [hc]), ?_⟩
      cases hv : objective job M (withParams t c.p) with
      | fin w =>
        rw [hv] at k2
        simp only [Num.lt, decide_eq_false_iff_not, not_lt] at k2
        exact ⟨w, rfl, k2⟩
      | nan => rw [hv] at k1; simp [Num.isFinite] at k1
      | ninf => rw [hv] at k1; simp [Num.isFinite] at k1
      | pinf => rw [hv] at k1; simp [Num.isFinite] at k1
    · rcases c5 with h | ⟨c, post', h1, h2⟩
      · rw [h, List.nil_append]
        cases hr' : rest with
        | nil => exact .inl rfl
        | cons c rest' =>
          refine .inr ⟨c, rest', rfl, .inl ?_⟩
          have hcm : c ∈ cs := by rw [hrest, hr']; simp
          rw [← hmv c hcm]
          have hd : cs.dropWhile (fun c => !tooFar job (withParams t c.p)) = c :: rest' := by
            have hx := List.takeWhile_append_dropWhile (p := fun c : Cand R => !tooFar job (withParams t c.p)) (l := cs)
            rw [← hn] at hx
            have := hx.trans hrest
            rw [List.append_cancel_left_eq] at this
            rw [this, hr']
          have := List.head_dropWhile_not (fun c : Cand R => !tooFar job (withParams t c.p)) (l := cs) (by rw [hd]; simp)
          simp only [hd, List.head_cons] at this
          simpa using this
      · refine .inr ⟨c, post' ++ rest, by rw [h1]; rfl, .inr ?_⟩
        rw [← hmv c (hsub c (by rw [c2, h1]; simp))]
        rcases h2 with h2 | h2 | ⟨f, h2, -⟩
        · exact .inl h2
        · cases hv : objective job M (withParams t c.p) with
          | fin w =>
            right
            rw [hv] at h2
            simp only [Num.sub, Num.neg, Num.add, Num.lt, decide_eq_true_eq] at h2
            exact ⟨w, rfl, by linarith⟩
          | nan => exact .inl rfl
          | ninf => exact .inl rfl
          | pinf => exact .inl rfl
        · simp at h2
  · rcases c3 with ⟨h1, h2, h3, -⟩ | ⟨c, hc, h1, h2, h3, -⟩
    · rw [h3]; simp only [withParams, setParams_id]; exact ht
    · obtain ⟨q1, q2⟩ := hcand c (hpre c hc)
      rw [h2, withParams, q1]
      exact ht.step t X hX c.alpha q2
  · intro b2 cs2 h2 hall
    rw [g1] at h2
    simp only [Prod.mk.injEq, Except.ok.injEq] at h2
    obtain ⟨rfl, rfl⟩ := h2
    have hnc : near = cs := by
      rw [hn, List.takeWhile_eq_self_iff]
      intro c hc
      simp [hall c hc]
    refine ⟨fl2', ?_, ?_⟩
    · have hset : setParams (withParams t u2) pB = (withParams t pB, none) := by
        rw [withParams, setParams_set _ _ _ e5]
        exact Prod.ext rfl (setParams_get t _ e5).1
      unfold tryUpdatesC
      rw [g1]
      simp only
      rw [← hfl0, e1, ← hnc, e2]
      simp only [hset]
      cases aB with
      | none => rw [(e3 rfl).1]; simp
      | some a => simp [Num.sub, Num.neg, Num.add, sub_eq_add_neg]
    · intro hne
      have hz : cs.length ≠ 0 := by simpa using hne
      have hfl : fl0 = { fl with stepLimited := fl.stepLimited || b } := by rw [hfl0, if_neg hz]
      refine ⟨e6 (by rw [hfl]), e7 (by rw [hfl]), ?_, ?_⟩
      · intro h
        rw [c6, hfl] at h
        exact e8 (by simpa using h)
      · intro h
        rw [c6, hfl]
        rcases e9 h with h | h | h
        · left; simp [h]
        · left; simp [h]
        · exact .inr h

/-- Too far or not. -/
theorem tooFar_iff (lz : R → R) (junk junk' : Nat → Nat → R) (pos : Par R → Tim R → R × R) (cnt : Par R → Tim R → R)
    (sb : Option (Par R → Tim R → R)) (prior : Par R → Num R) (tims : List (Tim R)) (par : Par R) :
    tooFar (pointJob lz junk junk' pos cnt sb prior tims) par = false ↔ Near tims pos par := by
  unfold tooFar pointJob Near
  simp only [pointSource, List.any_eq_false, Bool.or_eq_true, decide_eq_true_eq, not_or, not_lt, abs_le, gt_iff_lt]
  constructor
  · intro h tim htim
    obtain ⟨⟨⟨a, b⟩, c⟩, d⟩ := h tim htim
    exact ⟨⟨not_lt.mp (fun h => a (decide_eq_true h)), b⟩, not_lt.mp (fun h => c (decide_eq_true h)), d⟩
  · intro h tim htim
    obtain ⟨⟨a, b⟩, c, d⟩ := h tim htim
    exact ⟨⟨⟨fun h => not_lt.mpr a (of_decide_eq_true h), b⟩, fun h => not_lt.mpr c (of_decide_eq_true h)⟩, d⟩

omit [IsStrictOrderedRing R] in
/-- The models of a point source are right where the arrays cover the weighted pixels. -/
theorem renders_point (rnd : R → Int) (lz : R → R) (junk junk' : Nat → Nat → R)
    (pos : Par R → Tim R → R × R) (cnt : Par R → Tim R → R) (sb : Option (Par R → Tim R → R)) (prior : Par R → Num R)
    (tims : List (Tim R)) (P : Params R) (hs : P.sz % 2 = 0) (h12 : 12 ≤ P.sz) (cen : Tim R → Int × Int) (hl : Laid tims P cen)
    (par : Par R)
    (hc : ∀ (i : Nat) (tim : Tim R) (p : Padded R), tims[i]? = some tim → P.ims[i]? = some p →
      (|rnd (pos par tim).1 - (cen tim).1| ≤ 3 ∧ |rnd (pos par tim).2 - (cen tim).2| ≤ 3) ∨
      (tim.psf.h ≤ P.sz ∧ tim.psf.w ≤ P.sz ∧ ∀ x y : Int, InMask tim x y → tim.ie.px y.toNat x.toNat ≠ 0 →
        (0 ≤ x - p.padx0 - (rnd (pos par tim).1 - (cen tim).1) ∧ x - p.padx0 - (rnd (pos par tim).1 - (cen tim).1) < P.sz) ∧
        (0 ≤ y - p.pady0 - (rnd (pos par tim).2 - (cen tim).2) ∧ y - p.pady0 - (rnd (pos par tim).2 - (cen tim).2) < P.sz))) :
    Renders rnd (pointJob lz junk junk' pos cnt sb prior tims) P
      (fun par tim x y => cnt par tim * unitModel rnd lz tim.psf (pos par tim).1 (pos par tim).2 x y) par := by
  intro i tim p a1 a2
  have lay := hl.each i tim p a1 a2
  obtain ⟨-, -, -, -, q1, q2⟩ := lay.shapes
  obtain ⟨o1, o2⟩ := lay.origin
  obtain ⟨ce1, ce2⟩ := lay.centre
  have hcc := hc i tim p a1 a2
  obtain ⟨px, py, hpos⟩ : ∃ px py, pos par tim = (px, py) := ⟨_, _, rfl⟩
  simp only [hpos] at hcc
  obtain ⟨W, eW, w1, w2, w3⟩ := unit_run lz junk junk' p.psfPad (px - rnd px) (py - rnd py) (by omega) (by omega)
  have eS : shotVal rnd (pointJob lz junk junk' pos cnt sb prior tims) par tim p =
      ⟨rnd px - p.ipx, rnd py - p.ipy, px - rnd px, py - rnd py, cnt par tim,
        sbOf (pointJob lz junk junk' pos cnt sb prior tims) par tim⟩ := by
    simp [shotVal, pointJob, pointSource, hpos]
  rw [eS]
  refine ⟨W.map (· * cnt par tim), ?_, by simp only [Arr.map]; omega, by simp only [Arr.map]; omega, ?_⟩
  · simp only [sourceModel, pointJob, pointSource, eW, bind, Except.bind]
  · intro x y hin h0
    have hm := lay.margin x y hin
    simp only [hpos]
    have hrange : (0 ≤ x - p.padx0 - (rnd px - p.ipx) ∧ x - p.padx0 - (rnd px - p.ipx) < P.sz) ∧
        (0 ≤ y - p.pady0 - (rnd py - p.ipy) ∧ y - p.pady0 - (rnd py - p.ipy) < P.sz) := by
      rw [ce1, ce2]
      rcases hcc with ⟨a, b⟩ | ⟨-, -, h⟩
      · rw [abs_le] at a b
        omega
      · exact h x y hin h0
    obtain ⟨r, er⟩ := Int.eq_ofNat_of_zero_le hrange.2.1
    obtain ⟨c, ec⟩ := Int.eq_ofNat_of_zero_le hrange.1.1
    rw [er, ec, ext_in _ r c (by simp only [Arr.map]; omega) (by simp only [Arr.map]; omega)]
    show W.px r c * cnt par tim = _
    rw [w3 r c (by omega) (by omega), shifted_pad (kernPy lz) P.sz p.psfPad tim.psf q1 q2 lay.psf, mul_comm, weight_eq]
    · unfold unitModel
      congr 2 <;> omega
    · rcases hcc with ⟨a, b⟩ | ⟨a, b, -⟩
      · left
        rw [abs_le] at a b
        omega
      · right
        exact ⟨hs, a, b⟩

end Verif.Gpu
