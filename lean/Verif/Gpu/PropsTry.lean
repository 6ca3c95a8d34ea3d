import Verif.Gpu.TryLemmas4

/-!
# C109: the line search of the GPU optimizer
-/

namespace Verif.Gpu

open Verif Verif.Psf Verif.Params Verif.Opt

section
variable {R : Type} [Field R] [LinearOrder R] [IsStrictOrderedRing R]

/-- The model of the point source in the pixel in column `x`, row `y` of an image, as on the CPU (C71). -/
def starModel (rnd : R → Int) (lz : R → R) (pos : Par R → Tim R → R × R) (cnt : Par R → Tim R → R) (par : Par R)
    (tim : Tim R) (x y : Int) : R :=
  cnt par tim * unitModel rnd lz tim.psf (pos par tim).1 (pos par tim).2 x y

omit [IsStrictOrderedRing R] in
/-- Arrays made for the position of the source at `par0` show the model of `par` after a small move. -/
theorem renders_small (rnd : R → Int) (lz : R → R) (junk junk' : Nat → Nat → R)
    (pos : Par R → Tim R → R × R) (cnt : Par R → Tim R → R) (sb : Option (Par R → Tim R → R)) (prior : Par R → Num R)
    (tims : List (Tim R)) (P : Params R) (hs : P.sz % 2 = 0) (h12 : 12 ≤ P.sz) (par0 par : Par R)
    (hl : Laid tims P (fun tim => (rnd (pos par0 tim).1, rnd (pos par0 tim).2)))
    (hm : SmallMove rnd tims pos P.sz par0 par) :
    Renders rnd (pointJob lz junk junk' pos cnt sb prior tims) P (starModel rnd lz pos cnt) par := by
  refine renders_point rnd lz junk junk' pos cnt sb prior tims P hs h12 _ hl par ?_
  intro i tim p a1 a2
  rcases hm tim (List.mem_iff_getElem?.mpr ⟨i, a1⟩) with h | ⟨h1, h2, h3, h4⟩
  · exact .inl h
  · refine .inr ⟨h3, h4, fun x y hin _ => ?_⟩
    have := (hl.each i tim p a1 a2).margin x y hin
    simp only
    rw [abs_le] at h1 h2
    omega

/-- The body of the search without cached arrays. -/
theorem uncached_body (rnd : R → Int) (hr : ∀ x, |x - rnd x| ≤ 1 / 2) (lz : R → R) (junk junk' : Nat → Nat → R)
    (pos : Par R → Tim R → R × R) (cnt : Par R → Tim R → R) (sb : Option (Par R → Tim R → R)) (prior : Par R → Num R)
    (tims : List (Tim R)) (hne : tims ≠ []) (hf : ∀ tim ∈ tims, Fits tim) (tiny : R) (htiny : 0 < tiny) (fl : OptFlags)
    (t : Par R) (ht : Legal t) (X alphas : List R) (hX : X.length = numberOfParams t) (hinc : increasing alphas = true)
    (q0 : R) (hq : prior t = .fin q0) (hnear : Near tims pos t)
    (hm : ∀ P b cs, getImageParams rnd none tims (pos t) = .ok P → getParameterSteps tiny t X alphas = (b, .ok cs) →
      ∀ c ∈ cs, Near tims pos (moved t X c.alpha) → SmallMove rnd tims pos P.sz t (moved t X c.alpha)) :
    ∃ P, getImageParams rnd none tims (pos t) = .ok P ∧ ∃ (t' : Par R) (fl' : OptFlags) (d a : R),
      tryBody rnd tiny (pointJob lz junk junk' pos cnt sb prior tims) P false fl t X alphas =
        (t', fl', .ok (some (.fin d, a))) ∧
      Found (objective (pointJob lz junk junk' pos cnt sb prior tims) (starModel rnd lz pos cnt)) (Near tims pos) tiny t X
        alphas t' d a ∧ Legal t' ∧
      ∀ b cs, getParameterSteps tiny t X alphas = (b, .ok cs) → (∀ c ∈ cs, Near tims pos (moved t X c.alpha)) →
        ∃ flc, tryUpdatesC tiny (objective (pointJob lz junk junk' pos cnt sb prior tims) (starModel rnd lz pos cnt)) none fl
            t X alphas = (t', flc, .ok (.fin d, a)) ∧
          (cs ≠ [] → fl'.hitLimit = flc.hitLimit ∧ fl'.lastStepHitLimit = flc.lastStepHitLimit ∧
            (flc.stepLimited = true → fl'.stepLimited = true) ∧
            (fl'.stepLimited = true → flc.stepLimited = true ∨ flc.hitLimit = true)) := by
  obtain ⟨P, e, ⟨h1, h2, -⟩, h3, h4⟩ := params_ok rnd tims (pos t) hne hf
  refine ⟨P, e, ?_⟩
  have hl : Laid tims P (fun tim => (rnd (pos t tim).1, rnd (pos t tim).2)) := ⟨h3, h4⟩
  have hfar := tooFar_iff lz junk junk' pos cnt sb prior tims
  have hmv : ∀ b cs, getParameterSteps tiny t X alphas = (b, .ok cs) → ∀ c ∈ cs, withParams t c.p = moved t X c.alpha := by
    intro b cs hcs c hc
    obtain ⟨b', cs', g1, -, g3, -, -⟩ := getParameterSteps_ok tiny htiny t ht X alphas hX hinc
    rw [hcs] at g1
    simp only [Prod.mk.injEq, Except.ok.injEq] at g1
    obtain ⟨rfl, rfl⟩ := g1
    obtain ⟨k, hk⟩ := List.mem_iff_getElem?.1 hc
    obtain ⟨a0, -, -, -, q1, -, -⟩ := g3 k c hk
    rw [q1]
    rfl
  obtain ⟨t', fl', d, a, r1, r2, r3, r4⟩ := body_found rnd hr tiny htiny (pointJob lz junk junk' pos cnt sb prior tims) P
    (starModel rnd lz pos cnt) _ hl hf false fl t ht X alphas hX hinc q0 hq ((hfar t).mpr hnear) (.inl rfl)
    (renders_small rnd lz junk junk' pos cnt sb prior tims P h1 h2 t t hl (fun tim _ => by left; simp))
    (by
      intro b cs hcs c hc
      have hcm : c ∈ cs := (List.takeWhile_sublist _).subset hc
      have hn := List.mem_takeWhile_imp hc
      rw [hmv b cs hcs c hcm] at hn ⊢
      exact renders_small rnd lz junk junk' pos cnt sb prior tims P h1 h2 t _ hl
        (hm P b cs e hcs c hcm ((hfar _).mp (by simpa using hn))))
  refine ⟨t', fl', d, a, r1, ?_, r3, ?_⟩
  · simpa only [hfar] using r2
  · intro b cs hcs hall
    exact r4 b cs hcs (fun c hc => (hfar _).mpr (by rw [hmv b cs hcs c hc]; exact hall c hc))

/-- **C109.** `gpu_one_source_try_updates` for a point source, without cached arrays, ends at the best of the steps of
`getParameterSteps` it visits, or at the start if none is better, for the log-probability of the masked images with the
model of the CPU code; the gain returned is the difference.  It stops only at a step beyond a million pixels, without
finite log-probability, or worse by more than 1.  Steps move the source by at most three pixels (six if the arrays are as
large as the PSF stamps). -/
theorem C109_search_partial (rnd : R → Int) (hr : ∀ x, |x - rnd x| ≤ 1 / 2) (lz : R → R) (junk junk' : Nat → Nat → R)
    (pos : Par R → Tim R → R × R) (cnt : Par R → Tim R → R) (sb : Option (Par R → Tim R → R)) (prior : Par R → Num R)
    (tims : List (Tim R)) (hne : tims ≠ []) (hf : ∀ tim ∈ tims, Fits tim) (tiny : R) (htiny : 0 < tiny) (fl : OptFlags)
    (t : Par R) (ht : Legal t) (X alphas : List R) (hX : X.length = numberOfParams t) (hinc : increasing alphas = true)
    (q0 : R) (hq : prior t = .fin q0) (hnear : Near tims pos t)
    (hm : ∀ P b cs, getImageParams rnd none tims (pos t) = .ok P → getParameterSteps tiny t X alphas = (b, .ok cs) →
      ∀ c ∈ cs, Near tims pos (moved t X c.alpha) → SmallMove rnd tims pos P.sz t (moved t X c.alpha)) :
    ∃ (t' : Par R) (fl' : OptFlags) (d a : R),
      oneSourceTryUpdates rnd tiny (pointJob lz junk junk' pos cnt sb prior tims) none fl t X alphas =
        (t', fl', none, .ok (.fin d, a)) ∧
      Found (objective (pointJob lz junk junk' pos cnt sb prior tims) (starModel rnd lz pos cnt)) (Near tims pos) tiny t X
        alphas t' d a ∧ Legal t' := by
  obtain ⟨P, e, t', fl', d, a, r1, r2, r3, -⟩ := uncached_body rnd hr lz junk junk' pos cnt sb prior tims hne hf tiny htiny fl
    t ht X alphas hX hinc q0 hq hnear hm
  refine ⟨t', fl', d, a, ?_, r2, r3⟩
  unfold oneSourceTryUpdates
  rw [if_neg (by simpa [pointJob] using hne)]
  have e' : getImageParams rnd none (pointJob lz junk junk' pos cnt sb prior tims).tims
      (startPos (pointJob lz junk junk' pos cnt sb prior tims) t) = .ok P := e
  rw [e']
  simp only [Option.isSome_none]
  rw [r1]

/-- **C109 (CPU).** If no step is too far, the line search of the CPU (C35) for that log-probability ends at the same
parameters with the same result; if there are steps at all, also `hit_limit` and `last_step_hit_limit` agree, and
`stepLimited` differs at most in being set as well when a bound is hit. -/
theorem C109_cpu_partial (rnd : R → Int) (hr : ∀ x, |x - rnd x| ≤ 1 / 2) (lz : R → R) (junk junk' : Nat → Nat → R)
    (pos : Par R → Tim R → R × R) (cnt : Par R → Tim R → R) (sb : Option (Par R → Tim R → R)) (prior : Par R → Num R)
    (tims : List (Tim R)) (hne : tims ≠ []) (hf : ∀ tim ∈ tims, Fits tim) (tiny : R) (htiny : 0 < tiny) (fl : OptFlags)
    (t : Par R) (ht : Legal t) (X alphas : List R) (hX : X.length = numberOfParams t) (hinc : increasing alphas = true)
    (q0 : R) (hq : prior t = .fin q0) (hnear : Near tims pos t)
    (hm : ∀ P b cs, getImageParams rnd none tims (pos t) = .ok P → getParameterSteps tiny t X alphas = (b, .ok cs) →
      ∀ c ∈ cs, Near tims pos (moved t X c.alpha) ∧ SmallMove rnd tims pos P.sz t (moved t X c.alpha)) :
    ∃ (t' : Par R) (flg flc : OptFlags) (r : Num R × R) (b : Bool) (cs : List (Cand R)),
      oneSourceTryUpdates rnd tiny (pointJob lz junk junk' pos cnt sb prior tims) none fl t X alphas =
        (t', flg, none, .ok r) ∧
      tryUpdatesC tiny (objective (pointJob lz junk junk' pos cnt sb prior tims) (starModel rnd lz pos cnt)) none fl
        t X alphas = (t', flc, .ok r) ∧ getParameterSteps tiny t X alphas = (b, .ok cs) ∧
      (cs ≠ [] → flg.hitLimit = flc.hitLimit ∧ flg.lastStepHitLimit = flc.lastStepHitLimit ∧
        (flc.stepLimited = true → flg.stepLimited = true) ∧
        (flg.stepLimited = true → flc.stepLimited = true ∨ flc.hitLimit = true)) := by
  obtain ⟨P, e, t', fl', d, a, r1, r2, r3, r4⟩ := uncached_body rnd hr lz junk junk' pos cnt sb prior tims hne hf tiny htiny fl
    t ht X alphas hX hinc q0 hq hnear (fun P b cs h1 h2 c hc _ => (hm P b cs h1 h2 c hc).2)
  obtain ⟨b, cs, g1, -⟩ := getParameterSteps_ok tiny htiny t ht X alphas hX hinc
  obtain ⟨flc, s1, s2⟩ := r4 b cs g1 (fun c hc => (hm P b cs e g1 c hc).1)
  refine ⟨t', fl', flc, (.fin d, a), b, cs, ?_, s1, g1, s2⟩
  unfold oneSourceTryUpdates
  rw [if_neg (by simpa [pointJob] using hne)]
  have e' : getImageParams rnd none (pointJob lz junk junk' pos cnt sb prior tims).tims
      (startPos (pointJob lz junk junk' pos cnt sb prior tims) t) = .ok P := e
  rw [e']
  simp only [Option.isSome_none]
  rw [r1]

omit [IsStrictOrderedRing R] in
/-- With cached arrays and shifts beyond their limits the search gives up, the tractor left at one of the steps. -/
theorem clipped_body (rnd : R → Int) (hr : ∀ x, |x - rnd x| ≤ 1 / 2) (tiny : R) (job : Job R) (P : Params R) (fl : OptFlags)
    (t : Par R) (X alphas : List R) (b : Bool) (cs : List (Cand R)) (hcs : getParameterSteps tiny t X alphas = (b, .ok cs))
    (hlen : ∀ c ∈ cs, c.p.length = numberOfParams t) (hnear : tooFar job t = false)
    (hclip : clipped P ((⟨0, getParams t, false, false⟩ :: cs.takeWhile (fun c => !tooFar job (withParams t c.p))).map
        (shownOf rnd job P t)) = true) :
    ∃ w, tryBody rnd tiny job P true fl t X alphas =
      (withParams t w, { fl with stepLimited := fl.stepLimited || b }, .ok none) := by
  have hid : withParams t (getParams t) = t := by rw [withParams, setParams_id]
  obtain ⟨w1, e1⟩ := evalSteps_ok rnd hr job P t (⟨0, getParams t, false, false⟩ :: cs) (by
    intro c hc
    rcases List.mem_cons.mp hc with rfl | h
    · exact getParams_length t
    · exact hlen c h) (getParams t)
  rw [setParams_id] at e1
  rw [List.takeWhile_cons_of_pos (by simp [hid, hnear])] at e1
  refine ⟨w1, ?_⟩
  unfold tryBody
  rw [hcs]
  simp only
  rw [e1]
  rw [List.map_cons] at hclip ⊢
  simp only [hclip, Bool.and_self, if_true]

/-- **C109 (cached arrays).** With arrays cached for another position of the source, not smaller than the PSF stamps, the
same holds: if a step goes beyond their limits the search is made again without the cache, which is left as it was. -/
theorem C109_cached_partial (rnd : R → Int) (hr : ∀ x, |x - rnd x| ≤ 1 / 2) (lz : R → R) (junk junk' : Nat → Nat → R)
    (pos : Par R → Tim R → R × R) (cnt : Par R → Tim R → R) (sb : Option (Par R → Tim R → R)) (prior : Par R → Num R)
    (tims : List (Tim R)) (hne : tims ≠ []) (hf : ∀ tim ∈ tims, Fits tim)
    (hie : ∀ tim ∈ tims, ∀ x y : Int, InMask tim x y → 0 ≤ tim.ie.px y.toNat x.toNat)
    (pos0 : Tim R → R × R) (P : Params R) (hP : cacheImageParams rnd none tims pos0 = (some P, none))
    (hpsf : ∀ tim ∈ tims, tim.psf.h ≤ P.sz ∧ tim.psf.w ≤ P.sz) (tiny : R) (htiny : 0 < tiny) (fl : OptFlags)
    (t : Par R) (ht : Legal t) (X alphas : List R) (hX : X.length = numberOfParams t) (hinc : increasing alphas = true)
    (q0 : R) (hq : prior t = .fin q0) (hnear : Near tims pos t)
    (hm : ∀ P b cs, getImageParams rnd none tims (pos t) = .ok P → getParameterSteps tiny t X alphas = (b, .ok cs) →
      ∀ c ∈ cs, Near tims pos (moved t X c.alpha) → SmallMove rnd tims pos P.sz t (moved t X c.alpha)) :
    ∃ (t' : Par R) (fl' : OptFlags) (d a : R),
      oneSourceTryUpdates rnd tiny (pointJob lz junk junk' pos cnt sb prior tims) (some P) fl t X alphas =
        (t', fl', some P, .ok (.fin d, a)) ∧
      Found (objective (pointJob lz junk junk' pos cnt sb prior tims) (starModel rnd lz pos cnt)) (Near tims pos) tiny t X
        alphas t' d a ∧ Legal t' := by
  obtain ⟨P', e, ⟨h1, h2, -⟩, h3, h4⟩ := params_ok rnd tims pos0 hne hf
  unfold cacheImageParams at hP
  rw [e] at hP
  obtain rfl : P' = P := by simpa using hP
  have hl : Laid tims P' (fun tim => (rnd (pos0 tim).1, rnd (pos0 tim).2)) := ⟨h3, h4⟩
  have hfar := tooFar_iff lz junk junk' pos cnt sb prior tims
  obtain ⟨b, cs, g1, -, g3, -, -⟩ := getParameterSteps_ok tiny htiny t ht X alphas hX hinc
  have hmv : ∀ c ∈ cs, withParams t c.p = moved t X c.alpha ∧ c.p.length = numberOfParams t := by
    intro c hc
    obtain ⟨k, hk⟩ := List.mem_iff_getElem?.1 hc
    obtain ⟨a0, -, -, -, q1, -, -⟩ := g3 k c hk
    rw [q1]
    exact ⟨rfl, by simp [stepTo, getParams_length, hX]⟩
  unfold oneSourceTryUpdates
  rw [if_neg (by simpa [pointJob] using hne)]
  have e1 : getImageParams rnd (some P') (pointJob lz junk junk' pos cnt sb prior tims).tims
      (startPos (pointJob lz junk junk' pos cnt sb prior tims) t) = .ok P' := rfl
  rw [e1]
  simp only [Option.isSome_some]
  cases hc : clipped P' ((⟨0, getParams t, false, false⟩ ::
      cs.takeWhile (fun c => !tooFar (pointJob lz junk junk' pos cnt sb prior tims) (withParams t c.p))).map
        (shownOf rnd (pointJob lz junk junk' pos cnt sb prior tims) P' t)) with
  | true =>
    obtain ⟨w, e2⟩ := clipped_body rnd hr tiny _ P' fl t X alphas b cs g1 (fun c hc => (hmv c hc).2) ((hfar t).mpr hnear) hc
    rw [e2]
    simp only
    rw [setParams_set _ _ _ (getParams_length t), setParams_id]
    obtain ⟨P, e3, t', fl', d, a, r1, r2, r3, -⟩ := uncached_body rnd hr lz junk junk' pos cnt sb prior tims hne hf tiny htiny
      { fl with stepLimited := fl.stepLimited || b } t ht X alphas hX hinc q0 hq hnear hm
    have e4 : getImageParams rnd none (pointJob lz junk junk' pos cnt sb prior tims).tims
        (startPos (pointJob lz junk junk' pos cnt sb prior tims) t) = .ok P := e3
    simp only
    rw [e4]
    simp only
    rw [r1]
    exact ⟨t', fl', d, a, rfl, r2, r3⟩
  | false =>
    have hin : ∀ c : Cand R, c ∈ (⟨0, getParams t, false, false⟩ ::
        cs.takeWhile (fun c => !tooFar (pointJob lz junk junk' pos cnt sb prior tims) (withParams t c.p))) →
        Renders rnd (pointJob lz junk junk' pos cnt sb prior tims) P' (starModel rnd lz pos cnt) (withParams t c.p) := by
      intro c hcc
      refine renders_point rnd lz junk junk' pos cnt sb prior tims P' h1 h2 _ hl _ ?_
      intro i tim p a1 a2
      have hti : tim ∈ tims := List.mem_iff_getElem?.mpr ⟨i, a1⟩
      right
      refine ⟨(hpsf tim hti).1, (hpsf tim hti).2, fun x y hxy h0 => ?_⟩
      have hpos : 0 < tim.ie.px y.toNat x.toNat := lt_of_le_of_ne (hie tim hti x y hxy) (Ne.symm h0)
      have hw : Weighted tim := ⟨x, y, hxy, hpos⟩
      have lay := hl.each i tim p a1 a2
      have six := C107_six tim _ _ _ p hw lay 0 (by omega)
      have hshow := (List.any_eq_false.mp hc) _ (List.mem_map_of_mem (f := shownOf rnd _ P' t) hcc)
      have hz : (P'.ims.zip (shownOf rnd (pointJob lz junk junk' pos cnt sb prior tims) P' t c).shots)[i]? =
          some (p, shotVal rnd (pointJob lz junk junk' pos cnt sb prior tims) (withParams t c.p) tim p) := by
        have ht1 : (pointJob lz junk junk' pos cnt sb prior tims).tims = tims := rfl
        simp [shownOf, List.getElem?_zip_eq_some, a2, ht1, a1]
      have hone := (List.any_eq_false.mp (Bool.not_eq_true _ ▸ hshow)) _ (List.mem_iff_getElem?.mpr ⟨i, hz⟩)
      obtain ⟨ce1, ce2⟩ := lay.centre
      simp only [shotVal, pointJob, pointSource, Bool.or_eq_true, Bool.and_eq_true, decide_eq_true_eq, not_or, not_and, ce1, ce2]
        at hone
      obtain ⟨⟨⟨k1, k2⟩, k3⟩, k4⟩ := hone
      have lx := (lay.limits hw (rnd (pos (withParams t c.p) tim).1 - rnd (pos0 tim).1)).1.mp (by omega) x y hxy hpos
      have ly := (lay.limits hw (rnd (pos (withParams t c.p) tim).2 - rnd (pos0 tim).2)).2.mp (by omega) x y hxy hpos
      exact ⟨lx, ly⟩
    have hid : withParams t (getParams t) = t := by rw [withParams, setParams_id]
    obtain ⟨t', fl', d, a, r1, r2, r3, -⟩ := body_found rnd hr tiny htiny (pointJob lz junk junk' pos cnt sb prior tims) P'
      (starModel rnd lz pos cnt) _ hl hf true fl t ht X alphas hX hinc q0 hq ((hfar t).mpr hnear)
      (.inr (by
        intro b' cs' g
        rw [g1] at g
        simp only [Prod.mk.injEq, Except.ok.injEq] at g
        obtain ⟨rfl, rfl⟩ := g
        exact hc))
      (by have := hin ⟨0, getParams t, false, false⟩ (by simp); rwa [hid] at this)
      (by
        intro b' cs' g
        rw [g1] at g
        simp only [Prod.mk.injEq, Except.ok.injEq] at g
        obtain ⟨rfl, rfl⟩ := g
        exact fun c hc => hin c (List.mem_cons_of_mem _ hc))
    rw [r1]
    exact ⟨t', fl', d, a, rfl, by simpa only [hfar] using r2, r3⟩

/-- **C109 (background).** A tractor with a constant surface brightness alone: the search finds what the CPU search
finds, without any condition on the steps. -/
theorem C109_background (rnd : R → Int) (hr : ∀ x, |x - rnd x| ≤ 1 / 2) (sb : Par R → Tim R → R) (prior : Par R → Num R)
    (tims : List (Tim R)) (hne : tims ≠ []) (hf : ∀ tim ∈ tims, Fits tim) (tiny : R) (htiny : 0 < tiny) (fl : OptFlags)
    (t : Par R) (ht : Legal t) (X alphas : List R) (hX : X.length = numberOfParams t) (hinc : increasing alphas = true)
    (q0 : R) (hq : prior t = .fin q0) :
    ∃ (t' : Par R) (flg flc : OptFlags) (d a : R),
      oneSourceTryUpdates rnd tiny ⟨tims, none, some sb, prior⟩ none fl t X alphas = (t', flg, none, .ok (.fin d, a)) ∧
      tryUpdatesC tiny (fun par => (prior par).sub (.fin (chiSq tims (fun _ _ _ => 0) (sb par) / 2))) none fl t X alphas =
        (t', flc, .ok (.fin d, a)) ∧ Legal t' ∧
      Found (fun par => (prior par).sub (.fin (chiSq tims (fun _ _ _ => 0) (sb par) / 2))) (fun _ => True) tiny t X alphas
        t' d a := by
  obtain ⟨P, e, ⟨h1, h2, -⟩, h3, h4⟩ := params_ok rnd tims (startPos ⟨tims, none, some sb, prior⟩ t) hne hf
  have hl : Laid tims P (fun tim => (rnd (startPos ⟨tims, none, some sb, prior⟩ t tim).1,
    rnd (startPos ⟨tims, none, some sb, prior⟩ t tim).2)) := ⟨h3, h4⟩
  have hren : ∀ par, Renders rnd ⟨tims, none, some sb, prior⟩ P (fun _ _ _ _ => 0) par := by
    intro par i tim p a1 a2
    refine ⟨Arr.zeros P.sz P.sz, rfl, rfl, rfl, fun x y hin h0 => ?_⟩
    unfold ext
    split <;> rfl
  obtain ⟨t', fl', d, a, r1, r2, r3, r4⟩ := body_found rnd hr tiny htiny ⟨tims, none, some sb, prior⟩ P (fun _ _ _ _ => 0)
    _ hl hf false fl t ht X alphas hX hinc q0 hq rfl (.inl rfl) (hren t) (fun _ _ _ _ _ => hren _)
  obtain ⟨b, cs, g1, -⟩ := getParameterSteps_ok tiny htiny t ht X alphas hX hinc
  obtain ⟨flc, s1, -⟩ := r4 b cs g1 (fun _ _ => rfl)
  have hobj : objective ⟨tims, none, some sb, prior⟩ (fun _ _ _ _ => 0) =
      fun par => (prior par).sub (.fin (chiSq tims (fun _ _ _ => 0) (sb par) / 2)) := rfl
  rw [hobj] at s1 r2
  refine ⟨t', fl', flc, d, a, ?_, s1, r3, ?_⟩
  · unfold oneSourceTryUpdates
    rw [if_neg (by simpa using hne)]
    simp only
    rw [e]
    simp only [Option.isSome_none]
    rw [r1]
  · obtain ⟨b, pre, post, v, f1, f2, f3, f4, f5, f6⟩ := r2
    refine ⟨b, pre, post, v, f1, f2, f3, f4, fun c hc => ⟨trivial, (f5 c hc).2⟩, ?_⟩
    rcases f6 with f | ⟨c, post', k1, k2 | k2⟩
    · exact .inl f
    · exact absurd rfl k2
    · exact .inr ⟨c, post', k1, .inr k2⟩

/-- **C109 (far away).** From a position beyond a million pixels nothing moves, and the result is zero. -/
theorem C109_far (rnd : R → Int) (lz : R → R) (junk junk' : Nat → Nat → R)
    (pos : Par R → Tim R → R × R) (cnt : Par R → Tim R → R) (sb : Option (Par R → Tim R → R)) (prior : Par R → Num R)
    (tims : List (Tim R)) (hne : tims ≠ []) (hf : ∀ tim ∈ tims, Fits tim) (tiny : R) (htiny : 0 < tiny) (fl : OptFlags)
    (t : Par R) (ht : Legal t) (X alphas : List R) (hX : X.length = numberOfParams t) (hinc : increasing alphas = true)
    (hnear : ¬ Near tims pos t) :
    ∃ fl', oneSourceTryUpdates rnd tiny (pointJob lz junk junk' pos cnt sb prior tims) none fl t X alphas =
      (t, fl', none, .ok (.fin 0, 0)) := by
  obtain ⟨P, e, -⟩ := params_ok rnd tims (pos t) hne hf
  obtain ⟨b, cs, g1, -⟩ := getParameterSteps_ok tiny htiny t ht X alphas hX hinc
  have hfar : tooFar (pointJob lz junk junk' pos cnt sb prior tims) t = true := by
    cases h : tooFar (pointJob lz junk junk' pos cnt sb prior tims) t with
    | true => rfl
    | false => exact absurd ((tooFar_iff lz junk junk' pos cnt sb prior tims t).mp h) hnear
  have e' : getImageParams rnd none (pointJob lz junk junk' pos cnt sb prior tims).tims
      (startPos (pointJob lz junk junk' pos cnt sb prior tims) t) = .ok P := e
  unfold oneSourceTryUpdates
  rw [if_neg (by simpa [pointJob] using hne), e']
  simp only [Option.isSome_none]
  unfold tryBody
  rw [g1]
  simp only
  rw [evalSteps, setParams_id]
  simp only [hfar, if_true]
  rw [setParams_id]
  exact ⟨_, rfl⟩

end

/-! ## Examples -/

/-- A star with position and flux, the flux not negative. -/
def star (x y f : ℚ) : Par ℚ :=
  .plist ⟨[⟨["x"], true, x⟩, ⟨["y"], true, y⟩, ⟨["flux"], true, f⟩], [none, none, some 0], [none, none, none],
    [none, none, none], none, []⟩

def starPos (t : Par ℚ) (_ : Tim ℚ) : ℚ × ℚ :=
  match getParams t with
  | [x, y, _] => (x, y)
  | _ => (0, 0)

def starCnt (t : Par ℚ) (_ : Tim ℚ) : ℚ :=
  match getParams t with
  | [_, _, f] => f
  | _ => 0

def starJob (prior : Par ℚ → Num ℚ) (tims : List (Tim ℚ)) : Job ℚ :=
  pointJob exLz (fun _ _ => 77) (fun _ _ => 88) starPos starCnt none prior tims

/-- Parameters, flags and result of an example. -/
def seen (r : Par ℚ × OptFlags × Option (Params ℚ) × Except PyErr (Num ℚ × ℚ)) : List ℚ × List Bool × Except PyErr (Num ℚ × ℚ) :=
  (getParams r.1, [r.2.1.stepLimited, r.2.1.hitLimit, r.2.1.lastStepHitLimit], r.2.2.2)

def seenC (r : Par ℚ × OptFlags × Except PyErr (Num ℚ × ℚ)) : List ℚ × List Bool × Except PyErr (Num ℚ × ℚ) :=
  (getParams r.1, [r.2.1.stepLimited, r.2.1.hitLimit, r.2.1.lastStepHitLimit], r.2.2)

theorem star_legal (x y f : ℚ) (hf : 0 ≤ f) : Legal (star x y f) := by
  have e1 : getParams (star x y f) = [x, y, f] := rfl
  have e2 : getLowerBounds (star x y f) = [none, none, some 0] := rfl
  have e3 : getUpperBounds (star x y f) = [none, none, none] := rfl
  have e4 : getMaxStep (star x y f) = [none, none, none] := rfl
  refine ⟨rfl, rfl, rfl, ?_, ?_⟩
  · rw [e1, e2, e3]
    intro i p l u h1 h2 h3
    match i with
    | 0 | 1 | 2 =>
      simp only [List.getElem?_cons_zero, List.getElem?_cons_succ, Option.some.injEq] at h1 h2 h3
      subst h1 h2 h3
      constructor <;> intro b hb <;> simp at hb
      try (subst hb; exact hf)
    | i + 3 => simp at h1
  · rw [e4]
    intro m hm x hx
    subst hx
    simp at hm

/-- The steps of the example below are small. -/
theorem star_small (P : Params ℚ) (b : Bool) (cs : List (Cand ℚ))
    (hb : getParameterSteps (1 / 1000) (star 5 4 1) [1, 0, 30] [1 / 4, 1 / 2, 1] = (b, .ok cs)) (c : Cand ℚ) (hc : c ∈ cs) :
    Near [exTim] starPos (moved (star 5 4 1) [1, 0, 30] c.alpha) ∧
      SmallMove rnd [exTim] starPos P.sz (star 5 4 1) (moved (star 5 4 1) [1, 0, 30] c.alpha) := by
  have hcs : (getParameterSteps (1 / 1000) (star 5 4 1) [1, 0, 30] [1 / 4, 1 / 2, 1]).2.toOption.map
      (fun cs => cs.map (fun c => c.alpha)) = some [1 / 4, 1 / 2, 1] := by decide +kernel
  have hsm : ∀ a ∈ ([1 / 4, 1 / 2, 1] : List ℚ), (|(starPos (moved (star 5 4 1) [1, 0, 30] a) exTim).1| ≤ 1000000 ∧
      |(starPos (moved (star 5 4 1) [1, 0, 30] a) exTim).2| ≤ 1000000) ∧
      |rnd (starPos (moved (star 5 4 1) [1, 0, 30] a) exTim).1 - rnd (starPos (star 5 4 1) exTim).1| ≤ 3 ∧
      |rnd (starPos (moved (star 5 4 1) [1, 0, 30] a) exTim).2 - rnd (starPos (star 5 4 1) exTim).2| ≤ 3 := by
    decide +kernel
  rw [hb] at hcs
  have hal : c.alpha ∈ ([1 / 4, 1 / 2, 1] : List ℚ) := by
    have : cs.map (fun c => c.alpha) = [1 / 4, 1 / 2, 1] := by simpa [Except.toOption] using hcs
    rw [← this]
    exact List.mem_map_of_mem hc
  obtain ⟨k1, k2⟩ := hsm c.alpha hal
  refine ⟨?_, ?_⟩
  · intro tim htim
    rw [List.mem_singleton.mp htim]
    exact k1
  · intro tim htim
    rw [List.mem_singleton.mp htim]
    exact .inl k2

theorem star_near : Near [exTim] starPos (star 5 4 1) := by
  unfold Near
  simp only [List.mem_singleton, forall_eq]
  decide +kernel

/-- The search moves the star by half a pixel, as the search of the CPU does. -/
example : ∃ fl, seen (oneSourceTryUpdates rnd (1 / 1000) (starJob (fun _ => .fin 0) [exTim]) none ⟨false, false, false⟩
    (star 5 4 1) [1, 0, 30] [1 / 4, 1 / 2, 1]) = ([11 / 2, 4, 16], fl, .ok (.fin (55993765 / 79202), 1 / 2)) := by
  obtain ⟨t', flg, flc, r, b, cs, h1, h2, -⟩ := C109_cpu_partial rnd rnd_half exLz (fun _ _ => 77) (fun _ _ => 88) starPos
    starCnt none (fun _ => .fin 0) [exTim] (by simp) (by simp [exTim_fits]) (1 / 1000) (by norm_num) ⟨false, false, false⟩
    (star 5 4 1) (star_legal 5 4 1 (by norm_num)) [1, 0, 30] [1 / 4, 1 / 2, 1] rfl (by decide +kernel) 0 rfl star_near
    (fun P b cs _ hb c hc => star_small P b cs hb c hc)
  have hrun : seenC (tryUpdatesC (1 / 1000) (objective (starJob (fun _ => .fin 0) [exTim])
      (starModel rnd exLz starPos starCnt)) none ⟨false, false, false⟩ (star 5 4 1) [1, 0, 30] [1 / 4, 1 / 2, 1]) =
      ([11 / 2, 4, 16], [false, false, false], .ok (.fin (55993765 / 79202), 1 / 2)) := by decide +kernel
  have h1' : oneSourceTryUpdates rnd (1 / 1000) (starJob (fun _ => .fin 0) [exTim]) none ⟨false, false, false⟩
    (star 5 4 1) [1, 0, 30] [1 / 4, 1 / 2, 1] = (t', flg, none, .ok r) := h1
  have h2' : tryUpdatesC (1 / 1000) (objective (starJob (fun _ => .fin 0) [exTim])
      (starModel rnd exLz starPos starCnt)) none ⟨false, false, false⟩ (star 5 4 1) [1, 0, 30] [1 / 4, 1 / 2, 1] =
      (t', flc, .ok r) := h2
  rw [h2'] at hrun
  simp only [seenC, Prod.mk.injEq] at hrun
  rw [h1']
  simp only [seen, Prod.mk.injEq]
  exact ⟨_, hrun.1, rfl, hrun.2.2⟩

/-- Also with arrays cached for another position. -/
example : ∃ P t' fl' d a, getImageParams rnd none [exTim] (fun _ => (21 / 4, 3)) = .ok P ∧
    oneSourceTryUpdates rnd (1 / 1000) (starJob (fun _ => .fin 0) [exTim]) (some P) ⟨false, false, false⟩
      (star 5 4 1) [1, 0, 30] [1 / 4, 1 / 2, 1] = (t', fl', some P, .ok (.fin d, a)) ∧
    Found (objective (starJob (fun _ => .fin 0) [exTim]) (starModel rnd exLz starPos starCnt)) (Near [exTim] starPos)
      (1 / 1000) (star 5 4 1) [1, 0, 30] [1 / 4, 1 / 2, 1] t' d a := by
  obtain ⟨P, e, -, h12, -⟩ := C107_layout rnd [exTim] (fun _ => (21 / 4, 3)) (by simp) (by simp [exTim_fits])
  obtain ⟨t', fl', d, a, h1, h2, -⟩ := C109_cached_partial rnd rnd_half exLz (fun _ _ => 77) (fun _ _ => 88) starPos
    starCnt none (fun _ => .fin 0) [exTim] (by simp) (by simp [exTim_fits])
    (by
      simp only [List.mem_singleton, forall_eq]
      intro x y _
      simp only [exTim]
      split <;> decide)
    (fun _ => (21 / 4, 3)) P (by unfold cacheImageParams; rw [e])
    (by
      simp only [List.mem_singleton, forall_eq]
      exact ⟨le_trans (by decide) h12, le_trans (by decide) h12⟩)
    (1 / 1000) (by norm_num) ⟨false, false, false⟩
    (star 5 4 1) (star_legal 5 4 1 (by norm_num)) [1, 0, 30] [1 / 4, 1 / 2, 1] rfl (by decide +kernel) 0 rfl star_near
    (fun P b cs _ hb c hc _ => (star_small P b cs hb c hc).2)
  exact ⟨P, t', fl', d, a, e, h1, h2⟩

/-- A background fitted alone: pixels 34 to 46 without the column of weight zero. -/
example : seen (oneSourceTryUpdates rnd (1 / 1000) ⟨[exTim], none, some (fun t _ => (getParams t).sum), fun _ => .fin 0⟩ none
    ⟨false, false, false⟩ (star 0 0 10) [0, 0, 30] [1 / 2, 1, 2]) =
    ([0, 0, 40], [false, false, false], .ok (.fin 1800, 1)) := by decide +kernel

/-- From two million pixels away nothing moves. -/
example : seen (oneSourceTryUpdates rnd (1 / 1000) (starJob (fun _ => .fin 0) [exTim]) none ⟨false, false, false⟩
    (star 2000000 4 1) [-1999995, 0, 30] [1]) = ([2000000, 4, 1], [false, false, false], .ok (.fin 0, 0)) := by
  decide +kernel

/-- **C109 (fails).** At a bound that allows no step at all the CPU search says so; on the GPU the list of steps, which
starts with the parameters themselves, is never empty, and the flags stay unset. -/
theorem C109_limit_false :
    seen (oneSourceTryUpdates rnd (1 / 1000) (starJob (fun _ => .fin 0) [exTim]) none ⟨false, false, false⟩
      (star 5 4 0) [1, 0, -30] [1 / 2, 1]) = ([5, 4, 0], [false, false, false], .ok (.fin 0, 0)) ∧
    seenC (tryUpdatesC (1 / 1000) (objective (starJob (fun _ => .fin 0) [exTim]) (starModel rnd exLz starPos starCnt)) none
      ⟨false, false, false⟩ (star 5 4 0) [1, 0, -30] [1 / 2, 1]) =
      ([5, 4, 0], [true, true, true], .ok (.fin 0, 0)) := by
  refine ⟨?_, ?_⟩ <;> decide +kernel

/-- A log-prior that excludes a flux of one. -/
def notOne (t : Par ℚ) : Num ℚ := if getParams t = [5, 4, 1] then .ninf else .fin 0

/-- **C109 (fails).** From parameters that the prior excludes the CPU search moves to allowed ones; the GPU search stays
where it is and reports NaN. -/
theorem C109_prior_false :
    seen (oneSourceTryUpdates rnd (1 / 1000) (starJob notOne [exTim]) none ⟨false, false, false⟩
      (star 5 4 1) [1, 0, 30] [1 / 2]) = ([5, 4, 1], [false, false, false], .ok (.nan, 0)) ∧
    seenC (tryUpdatesC (1 / 1000) (objective (starJob notOne [exTim]) (starModel rnd exLz starPos starCnt)) none
      ⟨false, false, false⟩ (star 5 4 1) [1, 0, 30] [1 / 2]) =
      ([11 / 2, 4, 16], [false, false, false], .ok (.pinf, 1 / 2)) := by
  refine ⟨?_, ?_⟩ <;> decide +kernel

/-- A single pixel and a wide stamp of ones. -/
def wide : Tim ℚ :=
  { pix := ⟨1, 1, fun _ _ => 0⟩, ie := ⟨1, 1, fun _ _ => 1⟩, psf := ⟨1, 41, fun _ _ => 1⟩,
    x0 := 0, x1 := 1, y0 := 0, y1 := 1, supported := true }

/-- **C109 (fails).** A step by nine pixels leaves the arrays made for the start: the model is missing in the pixel and a
gain of 2 is reported, although the log-probability is the same at both ends. -/
theorem C109_far_false :
    seen (oneSourceTryUpdates rnd (1 / 1000) (starJob (fun _ => .fin 0) [wide]) none ⟨false, false, false⟩
      (star 0 0 2) [9, 0, 0] [1]) = ([9, 0, 2], [false, false, false], .ok (.fin 2, 1)) ∧
    objective (starJob (fun _ => .fin 0) [wide]) (starModel rnd exLz starPos starCnt) (star 0 0 2) = .fin (-2) ∧
    objective (starJob (fun _ => .fin 0) [wide]) (starModel rnd exLz starPos starCnt) (star 9 0 2) = .fin (-2) := by
  refine ⟨?_, ?_, ?_⟩ <;> decide +kernel

end Verif.Gpu
