import Verif.Fit.Lemmas2
import Verif.Fpfit.DirLemmas2
import Verif.Lsq.Props

/-!
# Lemmas: the log-probability is the linearised problem
-/

namespace Verif.Fit

open Verif Params Patches Engine Finset

variable {R M : Type} [Field R] [LinearOrder R]

/-! ### Priors -/

mutual
theorem priors_nz (up : Bool) (t : Par R) (h : PriorsOK t) : ∀ x ∈ priorLeavesFrom up t, ∀ ms ∈ x.2.2, ms.2 ≠ 0 := by
  match t with
  | .scalar s => intro x hx ms hms; simp [priorLeavesFrom] at hx; subst hx; simp at hms
  | .plist l =>
    intro x hx ms hms
    simp only [priorLeavesFrom, List.mem_map] at hx
    obtain ⟨z, -, rfl⟩ := hx
    simp only [List.mem_map, List.mem_filter] at hms
    obtain ⟨t, ⟨ht, -⟩, rfl⟩ := hms
    simp only [PriorsOK] at h
    exact (h t ht).2
  | .multi subs =>
    simp only [PriorsOK] at h
    simp only [priorLeavesFrom]
    exact priorsSubs_nz up subs h
theorem priorsSubs_nz (up : Bool) (t : Subs R) (h : PriorsOKSubs t) : ∀ x ∈ priorLeavesFromSubs up t, ∀ ms ∈ x.2.2, ms.2 ≠ 0 := by
  match t with
  | .nil => intro x hx; simp [priorLeavesFromSubs] at hx
  | .cons nm b s rest =>
    simp only [PriorsOKSubs] at h
    intro x hx
    rw [priorLeavesFromSubs, List.mem_append] at hx
    rcases hx with hx | hx
    · exact priors_nz _ s h.1 x hx
    · exact priorsSubs_nz up rest h.2 x hx
  | .missing nm b rest =>
    simp only [PriorsOKSubs] at h
    intro x hx
    rw [priorLeavesFromSubs] at hx
    exact priorsSubs_nz up rest h x hx
end

theorem thawed_nz (t : Par R) (h : PriorsOK t) (k : Nat) (x : R × List (R × R)) (hx : (thawedPriors t)[k]? = some x) : ∀ ms ∈ x.2, ms.2 ≠ 0 := by
  have hm := List.mem_of_getElem? hx
  unfold thawedPriors at hm
  simp only [List.mem_map, List.mem_filter] at hm
  obtain ⟨z, ⟨hz, -⟩, rfl⟩ := hm
  exact priors_nz true t h z hz

omit [LinearOrder R] in
theorem col_vals (es : List (Entry R)) (tp : List (R × List (R × R))) (h : ColSpec es tp) (k : Nat) :
    (es.filter (fun e => e.col = k)).map (·.val) = (((tp[k]?).map (fun x => x.2.map (·.2))).getD []).map (fun s => 1 / s) := by
  have := congrArg (List.map (fun z : R × R × R => z.2.1)) (h k)
  rw [List.map_map] at this
  have e : ((fun z : R × R × R => z.2.1) ∘ Entry.dat) = fun e : Entry R => e.val := rfl
  rw [e] at this
  rw [this]
  cases tp[k]? with
  | none => rfl
  | some x => simp only [Option.map_some, Option.getD_some, expected, List.map_map]; rfl

variable [IsStrictOrderedRing R]

/-- The prior part: what `getUpdateDirection` is given, and the log-prior of the moved tractor. -/
theorem prior_part (o : Opts) (T : Tractor R M) (hp : PriorsOK T.par) (ho : o.priors = true ∨ ∀ x ∈ thawedPriors T.par, x.2 = []) :
    ∃ pr es C, (if o.priors then getLogPriorDerivatives T.par else .ok none) = .ok pr ∧ Lsq.PriorOK (numberOfParams T.par) pr es ∧
      (∀ k, (es.filter (fun e => e.col = k)).map (·.val) = (widths o T k).map (fun s => 1 / s)) ∧
      ∀ d : List R, d.length = numberOfParams T.par →
        getLogPrior (setParams T.par (List.zipWith (· + ·) (getParams T.par) d)).1 = .ok (C - (1 / 2) * linearChi pr d) := by
  obtain ⟨X, es, h1, h2, h3, h4, L, h5, -, h6⟩ := logPrior_step T.par hp
  have hlt : ∀ e ∈ es, e.col < numberOfParams T.par := by
    intro e he
    have := h4.lt e he
    rwa [thawedPriors_length] at this
  have hnz : ∀ e ∈ es, e.val ≠ 0 := by
    intro e he
    have hm : e.val ∈ (es.filter (fun e' => e'.col = e.col)).map (·.val) := List.mem_map_of_mem (List.mem_filter.2 ⟨he, by simp⟩)
    rw [col_vals es _ h4, List.mem_map] at hm
    obtain ⟨s, hs, hv⟩ := hm
    cases hx : (thawedPriors T.par)[e.col]? with
    | none => rw [hx] at hs; simp at hs
    | some x =>
      rw [hx] at hs
      simp only [Option.map_some, Option.getD_some, List.mem_map] at hs
      obtain ⟨ms, hms, rfl⟩ := hs
      rw [← hv]
      exact one_div_ne_zero (thawed_nz T.par hp _ x hx ms hms)
  by_cases hb : o.priors = true
  · refine ⟨X, es, L + (1 / 2) * entryChi es (List.replicate (numberOfParams T.par) 0), by rw [if_pos hb]; exact h1,
      ⟨h2, h3, fun e he => ⟨hlt e he, hnz e he⟩⟩, fun k => ?_, fun d hd => ?_⟩
    · rw [col_vals es _ h4, widths, if_pos hb]
    · rw [h6 d hd, linearChi_rep X es h2 h3]
  · have hno := ho.resolve_left hb
    have hes : es = [] := by
      apply List.eq_nil_iff_forall_not_mem.2
      intro e he
      have hm : e.val ∈ (es.filter (fun e' => e'.col = e.col)).map (·.val) := List.mem_map_of_mem (List.mem_filter.2 ⟨he, by simp⟩)
      rw [col_vals es _ h4, List.mem_map] at hm
      obtain ⟨s, hs, -⟩ := hm
      cases hx : (thawedPriors T.par)[e.col]? with
      | none => rw [hx] at hs; simp at hs
      | some x =>
        rw [hx] at hs
        simp [hno x (List.mem_of_getElem? hx)] at hs
    subst hes
    refine ⟨none, [], L, by rw [if_neg hb], ⟨rfl, rfl, by simp⟩, fun k => ?_, fun d hd => ?_⟩
    · simp [widths, hb]
    · rw [h6 d hd]; simp [entryChi, linearChi]

/-! ### Images -/

omit [LinearOrder R] [IsStrictOrderedRing R] in
theorem chi_ok [DecidableEq R] (W : World R M) (T : Tractor R M) (im : Image R) (hm : MasksOK T im) (hs : im.inverr.h = im.data.h ∧ im.inverr.w = im.data.w) :
    ∃ A, getModelImage W T im none true = .ok A ∧ ∃ chi, getChiImage W T im none = .ok chi ∧ chi.h = im.data.h ∧ chi.w = im.data.w ∧
      ∀ y x, chi.px y x = (im.data.px y x - A.px y x) * im.inverr.px y x := by
  obtain ⟨ps, -, g⟩ := getModelImage_ok W T im hm none
  obtain ⟨A, g1, g2, g3, -⟩ := g true
  refine ⟨A, g1, ⟨im.data.h, im.data.w, fun r c => (im.data.px r c - A.px r c) * im.inverr.px r c⟩, ?_, rfl, rfl, fun _ _ => rfl⟩
  unfold getChiImage
  rw [g1]
  unfold chiArr
  dsimp only
  rw [if_pos ⟨g2.symm, g3.symm, hs.1.symm, hs.2.symm⟩]

omit [IsStrictOrderedRing R] in
theorem lsqList_ok (W : World R M) (T : Tractor R M) (imgs : List (Bool × Image R)) (hm : ∀ x ∈ imgs, MasksOK T x.2)
    (hs : ∀ x ∈ imgs, x.2.inverr.h = x.2.data.h ∧ x.2.inverr.w = x.2.data.w) :
    ∃ l : List (Lsq.Img R), lsqList W T imgs = .ok l ∧ l.length = imgs.length ∧ ∀ (i : Nat) b im, imgs[i]? = some (b, im) →
      ∃ A chi : Arr R, getModelImage W T im none true = .ok A ∧ l[i]? = some (Lsq.Img.mk im.data.h im.data.w im.inverr chi) ∧ chi.h = im.data.h ∧
        chi.w = im.data.w ∧ ∀ y x, chi.px y x = (im.data.px y x - A.px y x) * im.inverr.px y x := by
  induction imgs with
  | nil => exact ⟨[], rfl, rfl, by simp⟩
  | cons x imgs ih =>
    obtain ⟨l, h1, h2, h3⟩ := ih (fun x hx => hm x (List.mem_cons_of_mem _ hx)) (fun x hx => hs x (List.mem_cons_of_mem _ hx))
    obtain ⟨b, im⟩ := x
    obtain ⟨A, g1, chi, g2, g3, g4, g5⟩ := chi_ok W T im (hm _ (List.mem_cons_self ..)) (hs _ (List.mem_cons_self ..))
    refine ⟨⟨im.data.h, im.data.w, im.inverr, chi⟩ :: l, by simp only [lsqList, g2, h1]; rfl, by simp [h2], fun i b' im' hi => ?_⟩
    cases i with
    | zero =>
      simp only [List.getElem?_cons_zero, Option.some.injEq, Prod.mk.injEq] at hi
      obtain ⟨rfl, rfl⟩ := hi
      exact ⟨A, chi, g1, rfl, g3, g4, g5⟩
    | succ i =>
      simp only [List.getElem?_cons_succ] at hi ⊢
      exact h3 i b' im' hi

/-- Square sum of the residuals of image `i` (0 if there is none) for a model `f`. -/
def residual (T : Tractor R M) (f : Nat → Nat → Nat → R) (i : Nat) : R :=
  match T.images[i]? with
  | none => 0
  | some x => ∑ r ∈ range x.2.data.h, ∑ c ∈ range x.2.data.w, ((x.2.data.px r c - f i r c) * x.2.inverr.px r c) ^ 2

omit [LinearOrder R] [IsStrictOrderedRing R] in
theorem sum_getElem {α : Type} (l : List α) (f : α → R) : (l.map f).sum = ∑ i ∈ range l.length, ((l[i]?).map f).getD 0 := by
  induction l with
  | nil => rfl
  | cons a l ih => rw [List.map_cons, List.sum_cons, ih, List.length_cons, sum_range_succ']; simp [add_comm]

omit [IsStrictOrderedRing R] in
/-- The log-likelihood of the moved tractor. -/
theorem likelihood_at {W : World R M} {hooks : Tractor R M → Nat → Nat → Option (List (Deriv R))} {T : Tractor R M} {base : Nat → Nat → Nat → R}
    {D : Nat → Nat → Nat → Nat → R} (hl : Linear W hooks T base D) (hr : Ready W hooks T) (p : List R) (hp : p.length = numberOfParams T.par) :
    getLogLikelihood W (setAll T p) = .ok (-(1 / 2) * ∑ i ∈ range T.images.length,
      residual T (fun i y x => base i y x + ∑ k ∈ range (numberOfParams T.par), p.getD k 0 * D k i y x) i) := by
  have hsh := (setAll_ok T p).1
  obtain ⟨mods, h1, h2⟩ := C30_loglikelihood W (setAll T p) (hsh.masks hr.mask) (by
    intro x hx
    obtain ⟨i, hi⟩ := List.getElem?_of_mem hx
    have hlt : i < T.images.length := by rw [hsh.images.length_eq]; exact (List.getElem?_eq_some_iff.1 hi).1
    obtain ⟨x', a1, a2⟩ := hsh.image i _ (List.getElem?_eq_getElem hlt)
    rw [hi] at a1
    injection a1 with a1
    subst a1
    obtain ⟨b1, b2, -⟩ := hr.shape _ (List.getElem_mem hlt)
    rw [a2.2.2.1, a2.2.2.2]
    exact ⟨b1, b2⟩)
  rw [h2, sum_getElem]
  have hlen : ((setAll T p).images.zip mods).length = T.images.length := by rw [List.length_zip, ← h1.length_eq, Nat.min_self, hsh.images.length_eq]
  rw [hlen]
  congr 2
  refine sum_congr rfl (fun i hi => ?_)
  have hi := mem_range.1 hi
  have hT : T.images[i]? = some T.images[i] := List.getElem?_eq_getElem hi
  obtain ⟨x', a1, a2⟩ := hsh.image i _ hT
  have hi' := (List.getElem?_eq_some_iff.1 a1).1
  have him : i < mods.length := by rw [← h1.length_eq]; exact hi'
  have hmod := h1.get hi' him
  simp only [List.get_eq_getElem, (List.getElem?_eq_some_iff.1 a1).2] at hmod
  have hz : ((setAll T p).images.zip mods)[i]? = some (x', mods[i]) := by
    rw [List.getElem?_eq_getElem (by rw [hlen]; exact hi), List.getElem_zip, (List.getElem?_eq_some_iff.1 a1).2]
  rw [hz, Option.map_some, Option.getD_some, residual, hT]
  dsimp only
  rw [a2.2.2.1, a2.2.2.2]
  refine sum_congr rfl (fun y hy => sum_congr rfl (fun x hx => ?_))
  rw [hl.model p hp i x'.1 x'.2 a1 _ hmod y x (by rw [a2.2.2.1]; exact mem_range.1 hy) (by rw [a2.2.2.1]; exact mem_range.1 hx)]

omit [LinearOrder R] [IsStrictOrderedRing R] in
theorem change_cols (imgs : Nat → Lsq.Img R) (n : Nat) (f : Nat → List (Patch R × Nat)) (X : List R) (hX : X.length = n) (i y x : Nat) :
    Lsq.change imgs ((List.range n).map f) X i y x = ∑ k ∈ range n, Lsq.slope imgs (f k) i y x * X.getD k 0 := by
  have e : List.zipWith (fun param dx => Lsq.slope imgs param i y x * dx) ((List.range n).map f) X =
      (List.range n).map (fun k => Lsq.slope imgs (f k) i y x * X.getD k 0) := by
    apply List.ext_getElem
    · simp [hX]
    · intro k h1 h2
      have hk : k < X.length := by simp at h1; omega
      simp [List.getD_eq_getElem?_getD, List.getElem?_eq_getElem hk]
  rw [Lsq.change, e, Fpfit.sum_range_list]

omit [LinearOrder R] [IsStrictOrderedRing R] in
theorem getD_add (p X : List R) (n k : Nat) (hp : p.length = n) (hX : X.length = n) :
    (List.zipWith (· + ·) p X).getD k 0 = p.getD k 0 + X.getD k 0 := by
  simp only [List.getD_eq_getElem?_getD, List.getElem?_zipWith]
  by_cases hk : k < n
  · rw [List.getElem?_eq_getElem (by omega), List.getElem?_eq_getElem (by omega)]; rfl
  · rw [List.getElem?_eq_none (by omega), List.getElem?_eq_none (by omega)]; simp

/-- What `getUpdateDirection` is given; `mod` are the model images. -/
theorem problem_reported {W : World R M} {hooks : Tractor R M → Nat → Nat → Option (List (Deriv R))} {T : Tractor R M} {mod : Nat → Nat → Nat → R}
    {D : Nat → Nat → Nat → Nat → R} (hl : Reported W hooks T D) (hr : Ready W hooks T) (o : Opts)
    (ho : o.priors = true ∨ ∀ x ∈ thawedPriors T.par, x.2 = [])
    (hmod : ∀ i b im A, T.images[i]? = some (b, im) → getModelImage W T im none true = .ok A →
      ∀ y x, y < im.data.h → x < im.data.w → A.px y x = mod i y x) :
    ∃ out l ds pr es C K, getDerivs W (fun T img => getModelImage W T img none true) (hooks T) T = (T, .ok out) ∧
      inputs W o T out = .ok (l, ds, pr) ∧ ds.length = numberOfParams T.par ∧ Lsq.PriorOK ds.length pr es ∧ Lsq.ImagesOK (lsqImgs l) ds ∧
      (∀ k, k < ds.length → Lsq.columnNorm (lsqImgs l) ds es k = effect o T D k) ∧
      (∀ k v, Lsq.IsElement (lsqImgs l) ds es k v → k < ds.length ∧ v ≠ 0 ∧
        ((∃ i b im r c, T.images[i]? = some (b, im) ∧ r < im.data.h ∧ c < im.data.w ∧ v = D k i r c * im.inverr.px r c) ∨
          ∃ s ∈ widths o T k, v = 1 / s)) ∧
      (∀ d : List R, d.length = numberOfParams T.par →
        getLogPrior (setParams T.par (List.zipWith (· + ·) (getParams T.par) d)).1 = .ok (C - (1 / 2) * linearChi pr d)) ∧
      (∀ X : List R, X.length = ds.length → ∑ i ∈ range T.images.length, residual T (fun i y x => mod i y x +
        ∑ k ∈ range (numberOfParams T.par), X.getD k 0 * D k i y x) i + linearChi pr X = Lsq.linearised (lsqImgs l) ds pr X + K) ∧ Lsq.DistinctImages ds := by
  obtain ⟨out, G, h1, h2, h3⟩ := columns_reported hl hr
  obtain ⟨pr, es, C1, p1, p2, p3, p4⟩ := prior_part o T hr.prior ho
  obtain ⟨l, l1, l2, l3⟩ := lsqList_ok W T T.images hr.mask (fun x hx => ⟨(hr.shape x hx).1, (hr.shape x hx).2.1⟩)
  have hds : ((List.range (numberOfParams T.par)).map (fun k => pick (G k) 0)).length = numberOfParams T.par := by simp
  have himg : ∀ i b im, T.images[i]? = some (b, im) → ∃ A chi, getModelImage W T im none true = .ok A ∧
      lsqImgs l i = Lsq.Img.mk im.data.h im.data.w im.inverr chi ∧ chi.h = im.data.h ∧ chi.w = im.data.w ∧
      ∀ y x, chi.px y x = (im.data.px y x - A.px y x) * im.inverr.px y x := by
    intro i b im hi
    obtain ⟨A, chi, a1, a2, a3⟩ := l3 i b im hi
    exact ⟨A, chi, a1, by rw [lsqImgs, a2]; rfl, a3⟩
  have hcol : ∀ k, k < numberOfParams T.par → ((List.range (numberOfParams T.par)).map (fun k => pick (G k) 0))[k]? = some (pick (G k) 0) := by
    intro k hk
    rw [List.getElem?_map, List.getElem?_range hk]; rfl
  refine ⟨out, l, _, pr, es, C1, ∑ i ∈ range T.images.length \
      Lsq.usedImages ((List.range (numberOfParams T.par)).map (fun k => pick (G k) 0)),
      Fpfit.imgSum (lsqImgs l) ((List.range (numberOfParams T.par)).map (fun k => pick (G k) 0)) [] i,
    h1, by simp only [inputs, h2, p1, l1]; rfl, hds, by rw [hds]; exact p2, ?_, ?_, ?_, p4, ?_, ?_⟩
  · -- images
    intro i hi
    rw [Lsq.usedImages, List.mem_toFinset, List.mem_flatMap] at hi
    obtain ⟨param, hpm, hi⟩ := hi
    obtain ⟨k, hk, rfl⟩ := List.mem_map.1 hpm
    obtain ⟨e, he, rfl⟩ := List.mem_map.1 hi
    obtain ⟨i', e1, e2⟩ := mem_pick _ _ e he
    have hi' : i' < T.images.length := by
      rw [← (h3 k (List.mem_range.1 hk)).1]; exact (List.getElem?_eq_some_iff.1 e2).1
    obtain ⟨A, chi, a1, a2, a3, a4, a5⟩ := himg i' T.images[i'].1 T.images[i'].2 (List.getElem?_eq_getElem hi')
    have hsh := hr.shape _ (List.getElem_mem hi')
    rw [e1, Nat.zero_add, a2]
    exact ⟨hsh.1, hsh.2.1, a3, a4, hsh.2.2⟩
  · -- norms
    intro k hk
    rw [hds] at hk
    rw [Lsq.columnNorm, hcol k hk, Option.getD_some, energy_pick, effect]
    have e2 : ((es.filter (fun e => e.col = k)).map (fun e => e.val ^ 2)).sum = ((widths o T k).map (fun s => (1 / s) ^ 2)).sum := by
      have := congrArg (fun l : List R => (l.map (fun v => v ^ 2)).sum) (p3 k)
      simp only [List.map_map] at this
      exact this
    rw [e2]
    congr 2
    have hGl := (h3 k hk).1
    apply List.ext_getElem
    · simp [hGl]
    · intro i q1 q2
      have hiT : i < T.images.length := by simpa using q2
      obtain ⟨A, chi, a1, a2, a3, a4, a5⟩ := himg i T.images[i].1 T.images[i].2 (List.getElem?_eq_getElem hiT)
      simp only [List.getElem_map, List.getElem_zipIdx, Nat.zero_add]
      rw [a2]
      refine sum_congr rfl (fun y hy => sum_congr rfl (fun x hx => ?_))
      have hv := (h3 k hk).2 i T.images[i].1 T.images[i].2 (List.getElem?_eq_getElem hiT) y x (mem_range.1 hy) (mem_range.1 hx)
      rw [List.getElem?_eq_getElem (by rw [hGl]; exact hiT), Option.getD_some] at hv
      rw [hv]
  · -- elements
    rintro k v ⟨hv, hel⟩
    rcases hel with ⟨param, e, hpm, he, y, x, hy, hx, rfl⟩ | ⟨e, he, rfl, rfl⟩
    · have hk : k < numberOfParams T.par := by rw [← hds]; exact (List.getElem?_eq_some_iff.1 hpm).1
      rw [hcol k hk] at hpm
      injection hpm with hpm
      subst hpm
      obtain ⟨i, e1, e2⟩ := mem_pick _ _ e he
      rw [Nat.zero_add] at e1
      have hi : i < T.images.length := by
        rw [← (h3 k hk).1]; exact (List.getElem?_eq_some_iff.1 e2).1
      obtain ⟨A, chi, a1, a2, a3, a4, a5⟩ := himg i T.images[i].1 T.images[i].2 (List.getElem?_eq_getElem hi)
      rw [e1, a2] at hy hx hv ⊢
      have hpx := (h3 k hk).2 i T.images[i].1 T.images[i].2 (List.getElem?_eq_getElem hi) y x hy hx
      rw [e2, Option.getD_some, patchAt] at hpx
      rw [hpx] at hv ⊢
      exact ⟨by rw [hds]; exact hk, hv, .inl ⟨i, _, _, y, x, List.getElem?_eq_getElem hi, hy, hx, rfl⟩⟩
    · refine ⟨by rw [hds]; exact (p2.2.2 e he).1, hv, .inr ?_⟩
      have hm : e.val ∈ (es.filter (fun e' => e'.col = e.col)).map (·.val) := List.mem_map_of_mem (List.mem_filter.2 ⟨he, by simp⟩)
      rw [p3, List.mem_map] at hm
      obtain ⟨s, hs, hse⟩ := hm
      exact ⟨s, hs, hse.symm⟩
  · -- the sum of squares
    intro X hX
    rw [hds] at hX
    have e0 : Lsq.linearised (lsqImgs l) ((List.range (numberOfParams T.par)).map (fun k => pick (G k) 0)) pr X =
        Lsq.linearised (lsqImgs l) ((List.range (numberOfParams T.par)).map (fun k => pick (G k) 0)) none X + linearChi pr X := by
      simp [Lsq.linearised, linearChi]
    have e1 := Fpfit.linearised_all (lsqImgs l) ((List.range (numberOfParams T.par)).map (fun k => pick (G k) 0)) T.images.length (by
      intro i hi
      rw [lsqImgs, List.getElem?_eq_none (by omega)]; rfl) X
    have e2 : ∑ i ∈ range T.images.length, residual T (fun i y x => mod i y x + ∑ k ∈ range (numberOfParams T.par), X.getD k 0 * D k i y x) i =
        ∑ i ∈ range T.images.length, Fpfit.imgSum (lsqImgs l) ((List.range (numberOfParams T.par)).map (fun k => pick (G k) 0)) X i := by
      refine sum_congr rfl (fun i hi => ?_)
      have hi := mem_range.1 hi
      have hT : T.images[i]? = some T.images[i] := List.getElem?_eq_getElem hi
      obtain ⟨A, chi, a1, a2, a3, a4, a5⟩ := himg i T.images[i].1 T.images[i].2 hT
      rw [residual, hT, Fpfit.imgSum, a2]
      refine sum_congr rfl (fun y hy => sum_congr rfl (fun x hx => ?_))
      have hA := hmod i T.images[i].1 T.images[i].2 A hT a1 y x (mem_range.1 hy) (mem_range.1 hx)
      rw [change_cols _ _ _ X hX, a5, hA]
      have hsl : ∑ k ∈ range (numberOfParams T.par), Lsq.slope (lsqImgs l) (pick (G k) 0) i y x * X.getD k 0 =
          (∑ k ∈ range (numberOfParams T.par), X.getD k 0 * D k i y x) * T.images[i].2.inverr.px y x := by
        rw [sum_mul]
        refine sum_congr rfl (fun k hk => ?_)
        have := slope_pick (lsqImgs l) (G k) 0 i y x
        rw [Nat.zero_add] at this
        rw [this, (h3 k (mem_range.1 hk)).2 i T.images[i].1 T.images[i].2 hT y x (mem_range.1 hy) (mem_range.1 hx), a2]
        ring
      rw [hsl]
      ring
    rw [e2, e1, e0]
    ring
  · intro param hpm
    obtain ⟨k, -, rfl⟩ := List.mem_map.1 hpm
    exact pick_nodup _ _

/-- The whole: what `getUpdateDirection` is given describes the log-probability. -/
theorem problem_ok {W : World R M} {hooks : Tractor R M → Nat → Nat → Option (List (Deriv R))} {T : Tractor R M} {base : Nat → Nat → Nat → R}
    {D : Nat → Nat → Nat → Nat → R} (hl : Linear W hooks T base D) (hr : Ready W hooks T) (o : Opts)
    (ho : o.priors = true ∨ ∀ x ∈ thawedPriors T.par, x.2 = []) :
    ∃ out l ds pr es C, getDerivs W (fun T img => getModelImage W T img none true) (hooks T) T = (T, .ok out) ∧
      inputs W o T out = .ok (l, ds, pr) ∧ ds.length = numberOfParams T.par ∧ Lsq.PriorOK ds.length pr es ∧ Lsq.ImagesOK (lsqImgs l) ds ∧
      (∀ k, k < ds.length → Lsq.columnNorm (lsqImgs l) ds es k = effect o T D k) ∧
      (∀ k v, Lsq.IsElement (lsqImgs l) ds es k v → k < ds.length ∧ v ≠ 0 ∧
        ((∃ i b im r c, T.images[i]? = some (b, im) ∧ r < im.data.h ∧ c < im.data.w ∧ v = D k i r c * im.inverr.px r c) ∨
          ∃ s ∈ widths o T k, v = 1 / s)) ∧
      (∀ X : List R, X.length = ds.length → logProb W (setAll T (List.zipWith (· + ·) (getParams T.par) X)) =
        .ok (.fin (C - (1 / 2) * Lsq.linearised (lsqImgs l) ds pr X))) ∧ Lsq.DistinctImages ds := by
  obtain ⟨out, l, ds, pr, es, C, K, h1, h2, h3, h4, h5, h6, h7, h8, h9, h10⟩ := problem_reported
    (mod := fun i y x => base i y x + ∑ k ∈ range (numberOfParams T.par), (getParams T.par).getD k 0 * D k i y x) (reported_linear hl hr) hr o ho
    (fun i b im A hi hA y x hy hx => hl.model (getParams T.par) (getParams_length _) i b im (by rw [setAll_self]; exact hi) A
      (by rw [setAll_self]; exact hA) y x hy hx)
  refine ⟨out, l, ds, pr, es, C - (1 / 2) * K, h1, h2, h3, h4, h5, h6, h7, fun X hX => ?_, h10⟩
  have hX' : X.length = numberOfParams T.par := by rw [hX, h3]
  have hpl : (List.zipWith (· + ·) (getParams T.par) X).length = numberOfParams T.par := by
    rw [List.length_zipWith, getParams_length, hX', Nat.min_self]
  have e2 : ∀ i, residual T (fun i y x => base i y x + ∑ k ∈ range (numberOfParams T.par),
        (List.zipWith (· + ·) (getParams T.par) X).getD k 0 * D k i y x) i =
      residual T (fun i y x => base i y x + ∑ k ∈ range (numberOfParams T.par), (getParams T.par).getD k 0 * D k i y x +
        ∑ k ∈ range (numberOfParams T.par), X.getD k 0 * D k i y x) i := by
    intro i
    congr 1
    funext i y x
    rw [add_assoc, ← sum_add_distrib]
    congr 1
    refine sum_congr rfl (fun k _ => ?_)
    rw [getD_add _ _ (numberOfParams T.par) k (getParams_length _) hX']
    ring
  have h9 := h9 X hX
  have q1 := h8 X hX'
  have q2 := likelihood_at hl hr _ hpl
  unfold logProb
  rw [(setAll_ok T _).2, q1, q2, sum_congr rfl (fun i _ => e2 i)]
  simp only [getLogProb, Except.map, Num.add, Num.isNan, Bool.false_eq_true, if_false]
  congr 2
  linear_combination (-1 / 2) * h9

end Verif.Fit
