import Verif.Gpu.TryLemmas2

/-!
# The GPU line search as a whole
-/

namespace Verif.Gpu

open Verif Verif.Psf Verif.Params Verif.Opt

variable {R : Type} [Field R] [LinearOrder R]

/-- The arrays show the masks around the given centres. -/
structure Laid (tims : List (Tim R)) (P : Params R) (cen : Tim R → Int × Int) : Prop where
  len : P.ims.length = tims.length
  each : ∀ (i : Nat) (t : Tim R) (p : Padded R), tims[i]? = some t → P.ims[i]? = some p →
    Layout t P.sz (cen t).1 (cen t).2 p

/-- The unit-flux arrays of a step, moved by its shift, show the model `M` in all weighted pixels. -/
def Renders (rnd : R → Int) (job : Job R) (P : Params R) (M : Par R → Tim R → Int → Int → R) (par : Par R) : Prop :=
  ∀ (i : Nat) (tim : Tim R) (p : Padded R), job.tims[i]? = some tim → P.ims[i]? = some p →
    ∃ W, sourceModel job P.sz par tim p (shotVal rnd job par tim p) = .ok W ∧ W.h = P.sz ∧ W.w = P.sz ∧
      ∀ x y : Int, InMask tim x y → tim.ie.px y.toNat x.toNat ≠ 0 →
        ext W (y - p.pady0 - (shotVal rnd job par tim p).dy) (x - p.padx0 - (shotVal rnd job par tim p).dx) = M par tim x y

omit [LinearOrder R] in
theorem shotVal_sb (rnd : R → Int) (job : Job R) (par : Par R) (tim : Tim R) (p : Padded R) :
    (shotVal rnd job par tim p).sb = sbOf job par tim := by
  unfold shotVal; cases job.src <;> rfl

theorem chisOf_ok (rnd : R → Int) (job : Job R) (P : Params R) (M : Par R → Tim R → Int → Int → R) (cen : Tim R → Int × Int)
    (hl : Laid job.tims P cen) (hf : ∀ tim ∈ job.tims, Fits tim) (t : Par R) (c : Cand R)
    (hM : Renders rnd job P M (withParams t c.p)) :
    ∃ chis, chisOf job P (shownOf rnd job P t c) = .ok chis ∧ chis.length = job.tims.length ∧
      ∀ (i : Nat) (tim : Tim R) (C : Arr R), job.tims[i]? = some tim → chis[i]? = some C → C.h = P.sz ∧ C.w = P.sz ∧
        ∑ r ∈ Finset.range P.sz, ∑ k ∈ Finset.range P.sz, C.px r k ^ 2 =
          chiSqOne tim (M (withParams t c.p) tim) (sbOf job (withParams t c.p) tim) := by
  have hlen := hl.len
  obtain ⟨chis, e, h1, h2⟩ := mapM_ex (fun x : (Tim R × Padded R) × Shot R => (do
      let m ← sourceModel job P.sz (withParams t c.p) x.1.1 x.1.2 x.2
      chiOf x.1.2 x.2 m : Except PyErr (Arr R)))
    (fun (x : (Tim R × Padded R) × Shot R) (C : Arr R) => C.h = P.sz ∧ C.w = P.sz ∧
        ∑ r ∈ Finset.range P.sz, ∑ k ∈ Finset.range P.sz, C.px r k ^ 2 =
          chiSqOne x.1.1 (M (withParams t c.p) x.1.1) (sbOf job (withParams t c.p) x.1.1))
    ((job.tims.zip P.ims).zip (shownOf rnd job P t c).shots) (by
      rintro ⟨⟨tim, p⟩, z⟩ hx
      obtain ⟨i, hi⟩ := List.mem_iff_getElem?.mp hx
      rw [List.getElem?_zip_eq_some, List.getElem?_zip_eq_some] at hi
      obtain ⟨⟨a1, a2⟩, a3⟩ := hi
      simp only at a1 a2
      obtain rfl : shotVal rnd job (withParams t c.p) tim p = z := by
        have e : (job.tims.zip P.ims)[i]? = some (tim, p) := List.getElem?_zip_eq_some.mpr ⟨a1, a2⟩
        simp only [shownOf, List.getElem?_map, e, Option.map_some, Option.some.injEq] at a3
        exact a3
      obtain ⟨W, w1, w2, w3, w4⟩ := hM i tim p a1 a2
      have lay := hl.each i tim p a1 a2
      obtain ⟨q1, q2, q3, q4, -, -⟩ := lay.shapes
      obtain ⟨C, c1, c2, c3, c4⟩ := chiOf_ok P.sz p (shotVal rnd job (withParams t c.p) tim p) W q1 q2 w2 w3
      refine ⟨C, ?_, c2, c3, ?_⟩
      · simp only [w1, bind, Except.bind]
        exact c1
      · refine chi_sum tim P.sz _ _ p lay (hf tim (List.mem_iff_getElem?.mpr ⟨i, a1⟩)) _ _ _ ?_
        intro r k hr hk
        rw [c4 r k hr hk, lay.pix r k hr hk, lay.ie r k hr hk, shotVal_sb]
        by_cases hin : InMask tim (p.padx0 + k) (p.pady0 + r)
        · simp only [if_pos hin]
          by_cases h0 : tim.ie.px (p.pady0 + (r : Int)).toNat (p.padx0 + (k : Int)).toNat = 0
          · rw [h0, mul_zero, mul_zero]
          · have := w4 _ _ hin h0
            rw [show p.pady0 + (r : Int) - p.pady0 = r by omega, show p.padx0 + (k : Int) - p.padx0 = k by omega] at this
            rw [this]
        · simp only [if_neg hin, mul_zero])
  refine ⟨chis, e, ?_, ?_⟩
  · rw [h1]
    simp [shownOf, hlen]
  · intro i tim C a b
    have hi : i < P.ims.length := by
      rw [hlen]; exact (List.getElem?_eq_some_iff.mp a).1
    have a2 := List.getElem?_eq_getElem hi
    have e : (job.tims.zip P.ims)[i]? = some (tim, P.ims[i]) := List.getElem?_zip_eq_some.mpr ⟨a, a2⟩
    exact (h2 i ((tim, P.ims[i]), shotVal rnd job (withParams t c.p) tim P.ims[i]) C
      (List.getElem?_zip_eq_some.mpr ⟨e, by simp [shownOf, List.getElem?_map, e]⟩) b).2

omit [LinearOrder R] in
/-- Differences of the images add up to the difference of chi-squared. -/
theorem dchisq_sum (sz : Nat) (tims : List (Tim R)) (F G : Tim R → R) : ∀ (A B : List (Arr R)), A.length = tims.length →
    B.length = tims.length →
    (∀ (i : Nat) (tim : Tim R) (C : Arr R), tims[i]? = some tim → A[i]? = some C →
      ∑ r ∈ Finset.range sz, ∑ k ∈ Finset.range sz, C.px r k ^ 2 = F tim) →
    (∀ (i : Nat) (tim : Tim R) (C : Arr R), tims[i]? = some tim → B[i]? = some C → C.h = sz ∧ C.w = sz ∧
      ∑ r ∈ Finset.range sz, ∑ k ∈ Finset.range sz, C.px r k ^ 2 = G tim) →
    (List.zipWith dchisqOf A B).sum = (tims.map G).sum - (tims.map F).sum := by
  induction tims with
  | nil =>
    intro A B ha hb _ _
    simp [List.length_eq_zero_iff.mp ha]
  | cons tim tims ih =>
    intro A B ha hb h1 h2
    obtain ⟨a, A, rfl⟩ := List.exists_cons_of_length_eq_add_one ha
    obtain ⟨b, B, rfl⟩ := List.exists_cons_of_length_eq_add_one hb
    obtain ⟨g1, g2, g3⟩ := h2 0 tim b rfl rfl
    have g4 := h1 0 tim a rfl rfl
    rw [List.zipWith_cons_cons, List.sum_cons, dchisq_eq sz a b g1 g2, g3, g4,
      ih A B (by simpa using ha) (by simpa using hb) (fun i t C x y => h1 (i + 1) t C x y)
        (fun i t C x y => h2 (i + 1) t C x y), List.map_cons, List.map_cons, List.sum_cons, List.sum_cons]
    ring

theorem tryBody_ok [IsStrictOrderedRing R] (rnd : R → Int) (hr : ∀ x, |x - rnd x| ≤ 1 / 2) (tiny : R) (job : Job R) (P : Params R)
    (M : Par R → Tim R → Int → Int → R) (cen : Tim R → Int × Int) (hl : Laid job.tims P cen)
    (hf : ∀ tim ∈ job.tims, Fits tim) (cached : Bool) (fl : OptFlags) (t : Par R) (X alphas : List R) (b : Bool)
    (cs near : List (Cand R)) (hcs : getParameterSteps tiny t X alphas = (b, .ok cs))
    (hlen : ∀ c ∈ cs, c.p.length = numberOfParams t) (q0 : R) (hq : job.prior t = .fin q0) (hnear : tooFar job t = false)
    (hns : near = cs.takeWhile (fun c => !tooFar job (withParams t c.p)))
    (hclip : cached = false ∨ clipped P ((⟨0, getParams t, false, false⟩ :: near).map (shownOf rnd job P t)) = false)
    (hM0 : Renders rnd job P M t) (hM : ∀ c ∈ near, Renders rnd job P M (withParams t c.p)) (fl2 : OptFlags) :
    ∃ (u2 : List R) (fl' fl2' : OptFlags) (x0 b' : R) (aBest' : Option R) (pBest' : List R),
      objective job M t = .fin x0 ∧
      candLoop (objective job M) none near fl2 (.fin x0) none (getParams t) t =
        (withParams t u2, fl2', .ok (.fin b', aBest', pBest')) ∧ (aBest' = none → b' = x0 ∧ pBest' = getParams t) ∧
      tryBody rnd tiny job P cached fl t X alphas =
        (withParams t pBest', fl', .ok (some (.fin (b' - x0), aBest'.getD 0))) ∧
      pBest'.length = numberOfParams t ∧
      (fl.hitLimit = fl2.hitLimit → fl'.hitLimit = fl2'.hitLimit) ∧
      (fl.lastStepHitLimit = fl2.lastStepHitLimit → fl'.lastStepHitLimit = fl2'.lastStepHitLimit) ∧
      (fl.stepLimited = true ∨ b = true → fl'.stepLimited = true) ∧
      (fl'.stepLimited = true → fl.stepLimited = true ∨ b = true ∨ fl2'.hitLimit = true) := by
  have hid : withParams t (getParams t) = t := by simp [withParams, setParams_id]
  obtain ⟨w1, e1⟩ := evalSteps_ok rnd hr job P t (⟨0, getParams t, false, false⟩ :: cs) (by
    intro c hc
    rcases List.mem_cons.mp hc with rfl | h
    · exact getParams_length t
    · exact hlen c h) (getParams t)
  rw [setParams_id] at e1
  rw [List.takeWhile_cons_of_pos (by simp [hid, hnear]), ← hns] at e1
  have hsub : ∀ c ∈ near, c ∈ cs := by
    intro c hc
    rw [hns] at hc
    exact (List.takeWhile_sublist _).subset hc
  -- chi images
  obtain ⟨chi0, k0, k1, k2⟩ := chisOf_ok rnd job P M cen hl hf t ⟨0, getParams t, false, false⟩ (by rw [hid]; exact hM0)
  simp only [hid] at k2
  have hobj : objective job M t = .fin (q0 - chiSq job.tims (M t) (sbOf job t) / 2) := by
    unfold objective
    rw [hq]
    simp only [Num.sub, Num.neg, Num.add, ← sub_eq_add_neg]
  let D : Cand R → Num R := fun c => (objective job M (withParams t c.p)).sub (.fin (q0 - chiSq job.tims (M t) (sbOf job t) / 2))
  obtain ⟨sc, n1, n2⟩ : ∃ sc : List (Shown R × List (Arr R)),
      (near.map (shownOf rnd job P t)).mapM (fun s => (chisOf job P s).map (fun chi => (s, chi))) = .ok sc ∧
      sc.map (fun x => (x.1.cand, dlogprobOf (shownOf rnd job P t ⟨0, getParams t, false, false⟩) x.1 chi0 x.2)) =
        near.map (fun c => (c, D c)) := by
    clear hclip hns e1 hsub
    induction near with
    | nil => exact ⟨[], rfl, rfl⟩
    | cons c near ih =>
      obtain ⟨sc, i1, i2⟩ := ih (fun c hc => hM c (by simp [hc]))
      obtain ⟨chi, j0, j1, j2⟩ := chisOf_ok rnd job P M cen hl hf t c (hM c (by simp))
      refine ⟨(shownOf rnd job P t c, chi) :: sc, ?_, ?_⟩
      · rw [List.map_cons, List.mapM_cons, j0, i1]
        rfl
      · rw [List.map_cons, List.map_cons, i2]
        congr 1
        have hs := dchisq_sum P.sz job.tims (fun tim => chiSqOne tim (M t tim) (sbOf job t tim))
          (fun tim => chiSqOne tim (M (withParams t c.p) tim) (sbOf job (withParams t c.p) tim)) chi0 chi k1 j1
          (fun i tim C x y => (k2 i tim C x y).2.2) j2
        simp only [dlogprobOf, shownOf, Prod.mk.injEq, true_and, hid, hq, D, objective]
        rw [hs]
        unfold chiSq
        cases job.prior (withParams t c.p) with
        | fin v =>
          simp only [Num.sub, Num.neg, Num.add, Num.fin.injEq]
          ring
        | nan => rfl
        | ninf => rfl
        | pinf => rfl
  obtain ⟨u, u2, fl', fl2', b', aB, pB, s1, s2, s3, s4, s5, s6, s7, s8, s9⟩ :=
    search_ok (objective job M) t (q0 - chiSq job.tims (M t) (sbOf job t) / 2) D near (fun c hc => hlen c (hsub c hc))
      (fun c _ => rfl) { fl with stepLimited := fl.stepLimited || b } fl2 (q0 - chiSq job.tims (M t) (sbOf job t) / 2) none
      (getParams t) w1 (getParams t) (fun _ => rfl)
  rw [setParams_id] at s2
  obtain ⟨w'', fl'', best, aB', pB', pre, post, o1, o2, o3, -⟩ := candLoop_ok (objective job M) none t near
    (fun c hc => hlen c (hsub c hc)) fl2 (.fin (q0 - chiSq job.tims (M t) (sbOf job t) / 2)) none (getParams t) (getParams t)
  rw [setParams_id] at o1
  rw [o1] at s2
  simp only [Prod.mk.injEq, Except.ok.injEq] at s2
  obtain ⟨r1, r2, r3, r4, r5⟩ := s2
  have hpl : pB.length = numberOfParams t ∧ (aB = none → pB = getParams t) := by
    rw [← r4, ← r5]
    rcases o3 with ⟨-, -, g, -⟩ | ⟨c, hc, g0, g, -⟩
    · rw [g]; exact ⟨getParams_length t, fun _ => rfl⟩
    · rw [g, g0]; exact ⟨hlen c (hsub c (by rw [o2]; simp [hc])), by simp⟩
  refine ⟨w'', fl', fl2', _, b', aB, pB, hobj, ?_, fun h => ⟨s3 h, hpl.2 h⟩, ?_, hpl.1, s4, s5, ?_, ?_⟩
  · rw [o1, r2, r3, r4, r5]
  · have hset : setParams (setParams t u).1 pB = (withParams t pB, none) := by
      rw [setParams_set _ _ _ hpl.1]
      exact Prod.ext rfl (setParams_get t _ hpl.1).1
    unfold tryBody
    rw [hcs]
    simp only
    rw [e1]
    simp only [List.map_cons]
    rw [if_neg (by
      rcases hclip with h | h
      · simp [h]
      · rw [List.map_cons] at h; simp [h])]
    rw [k0, n1]
    simp only
    rw [n2]
    have h0 : ((shownOf rnd job P t ⟨0, getParams t, false, false⟩).prior.sub
        (shownOf rnd job P t ⟨0, getParams t, false, false⟩).prior).sub (.fin 0) =
        .fin (q0 - chiSq job.tims (M t) (sbOf job t) / 2 - (q0 - chiSq job.tims (M t) (sbOf job t) / 2)) := by
      simp only [shownOf, hid, hq, Num.sub, Num.neg, Num.add, Num.fin.injEq]
      ring
    rw [h0]
    simp only [Option.getD_none] at s1
    rw [s1]
    simp only
    rw [hset]
  · intro h
    refine s6 ?_
    simpa using h
  · intro h
    rcases s7 h with h | h
    · simp only [Bool.or_eq_true] at h
      exact h.elim .inl (fun h => .inr (.inl h))
    · exact .inr (.inr h)

end Verif.Gpu
