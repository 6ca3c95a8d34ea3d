import Verif.Fit.Var
import Verif.Fit.PropsTruth

/-!
# C153: what the variances of `optimize(variance=True)` mean

Spec: noise in the pixels that is uncorrelated and has the size that the inverse errors say makes the parameters found by `optimize` scatter about the
true values; the mean squared difference is compared with the reported variance.
-/

namespace Verif.Fit

open Verif Params Patches Engine Finset

variable {R M : Type} [Field R] [LinearOrder R]

/-- Pixels `d j` with the probability `ω j`: about the model of `T`, pixels with non-zero inverse error are uncorrelated and have the variance that the
inverse error says. -/
structure WhiteNoise {κ : Type} (W : World R M) (T : Tractor R M) (J : Finset κ) (ω : κ → R) (d : κ → Nat → Nat → Nat → R) : Prop where
  pos : ∀ j ∈ J, 0 ≤ ω j
  same : ∀ (i y x : Nat) b im, T.images[i]? = some (b, im) → y < im.data.h → x < im.data.w → im.inverr.px y x ≠ 0 →
    ∑ j ∈ J, ω j * ((d j i y x - pixel W T i y x) * (d j i y x - pixel W T i y x)) = 1 / im.inverr.px y x ^ 2
  other : ∀ (i y x : Nat) b im (i' y' x' : Nat) b' im', T.images[i]? = some (b, im) → y < im.data.h → x < im.data.w → im.inverr.px y x ≠ 0 →
    T.images[i']? = some (b', im') → y' < im'.data.h → x' < im'.data.w → im'.inverr.px y' x' ≠ 0 → (i, y, x) ≠ (i', y', x') →
    ∑ j ∈ J, ω j * ((d j i y x - pixel W T i y x) * (d j i' y' x' - pixel W T i' y' x')) = 0

/-- Parameter `k` shares no pixels: a pixel with non-zero inverse error is not changed by parameter `k`, or by no other. -/
def Isolated (W : World R M) (T : Tractor R M) (k : Nat) : Prop :=
  ∀ (i y x : Nat) b im, T.images[i]? = some (b, im) → y < im.data.h → x < im.data.w → im.inverr.px y x ≠ 0 →
    (∀ (p : List R) (v : R), p.length = numberOfParams T.par → pixel W (setAll T (p.set k v)) i y x = pixel W (setAll T p) i y x) ∨
    ∀ l, l ≠ k → ∀ (p : List R) (v : R), p.length = numberOfParams T.par → pixel W (setAll T (p.set l v)) i y x = pixel W (setAll T p) i y x

/-- The mean squared error of parameter `k`. -/
def meanSq {κ : Type} (J : Finset κ) (ω : κ → R) (p : κ → List R) (q : List R) (k : Nat) : R := ∑ j ∈ J, ω j * ((p j).getD k 0 - q.getD k 0) ^ 2

omit [LinearOrder R] in
theorem getD_map_range (f : Nat → R) (n k : Nat) (hk : k < n) : ((List.range n).map f).getD k 0 = f k := by
  rw [List.getD, List.getElem?_map, List.getElem?_range hk]; rfl

omit [LinearOrder R] in
theorem noPriors_entries (t : Par R) (es : List (Entry R)) (hes : ColSpec es (thawedPriors t)) (h : ∀ x ∈ thawedPriors t, x.2 = []) : es = [] := by
  apply List.eq_nil_iff_forall_not_mem.2
  intro e he
  have hm : Entry.dat e ∈ (es.filter (fun e' => e'.col = e.col)).map Entry.dat := List.mem_map_of_mem (List.mem_filter.2 ⟨he, by simp⟩)
  rw [hes] at hm
  cases hx : (thawedPriors t)[e.col]? with
  | none => rw [hx] at hm; simp at hm
  | some x =>
    rw [hx] at hm
    simp [expected, h x (List.mem_of_getElem? hx)] at hm

/-- Without priors the effect of a parameter is its information. -/
theorem effect_info (o : Opts) (T : Tractor R M) (D : Nat → Nat → Nat → Nat → R) (k : Nat) (h : ∀ x ∈ thawedPriors T.par, x.2 = []) :
    effect o T D k = Fpfit.info (pixels T) (fun π => weight T [] (.inl π)) (fun π => slopes D [] (.inl π)) k := by
  have hw : widths o T k = [] := by
    unfold widths
    split
    · cases hx : (thawedPriors T.par)[k]? with
      | none => rfl
      | some x => simp [h x (List.mem_of_getElem? hx)]
    · rfl
  unfold effect
  rw [hw, List.map_nil, List.sum_nil, add_zero, sum_getElem, List.length_zipIdx]
  unfold Fpfit.info pixels
  rw [sum_sigma]
  refine sum_congr rfl (fun i hi => ?_)
  have hi := mem_range.1 hi
  have hT : T.images[i]? = some T.images[i] := List.getElem?_eq_getElem hi
  have hz : T.images.zipIdx[i]? = some (T.images[i], i) := by rw [List.getElem?_zipIdx, hT]; simp
  rw [hz, Option.map_some, Option.getD_some, sum_sigma]
  unfold hgt wid
  rw [hT]
  simp only [Option.map_some, Option.getD_some]
  refine sum_congr rfl (fun y _ => sum_congr rfl (fun x _ => ?_))
  simp only [weight, slopes, hT, Option.map_some, Option.getD_some]
  ring

/-- The effect does not depend on the pixel values or the values of the parameters. -/
theorem effect_run (o : Opts) (T : Tractor R M) (d : Nat → Nat → Nat → R) (s : List R) (D : Nat → Nat → Nat → Nat → R) (k : Nat)
    (h : ∀ x ∈ thawedPriors T.par, x.2 = []) : effect o (setAll (withData T d) s) D k = effect o T D k := by
  have hlen : (setAll (withData T d) s).images.length = T.images.length := by
    rw [← (setAll_ok (withData T d) s).1.images.length_eq]; simp [withData]
  rw [effect_info o T D k h, effect_info o _ D k (noPriors_set (withData T d) s (by rw [withData_par]; exact h))]
  unfold Fpfit.info pixels
  rw [hlen, sum_sigma, sum_sigma]
  refine sum_congr rfl (fun i hi => ?_)
  have hi := mem_range.1 hi
  have hT : T.images[i]? = some (T.images[i].1, T.images[i].2) := List.getElem?_eq_getElem hi
  obtain ⟨im', a1, a2, a3⟩ := run_get T d s i _ _ hT
  have e1 : hgt (setAll (withData T d) s) i = hgt T i := by unfold hgt; rw [a1, hT]; simp [a2]
  have e2 : wid (setAll (withData T d) s) i = wid T i := by unfold wid; rw [a1, hT]; simp [a2]
  rw [e1, e2]
  refine sum_congr rfl (fun z _ => ?_)
  have e3 : weight (setAll (withData T d) s) [] (.inl ⟨i, z⟩) = weight T ([] : List (Entry R)) (.inl ⟨i, z⟩) := by
    simp only [weight]
    rw [a1, hT]
    simp [a3]
  beta_reduce
  rw [e3]

/-- The scatter of the most likely values. -/
theorem scatter_core [IsStrictOrderedRing R] {κ : Type} (W : World R M) (hooks : Tractor R M → Nat → Nat → Option (List (Deriv R))) (o : Opts)
    (T : Tractor R M) (base : Nat → Nat → Nat → R) (D : Nat → Nat → Nat → Nat → R) (hr : Ready W hooks T) (hl : Linear W hooks T base D)
    (hnp : ∀ x ∈ thawedPriors T.par, x.2 = []) (J : Finset κ) (ω : κ → R) (d : κ → Nat → Nat → Nat → R) (s : κ → List R)
    (hrun : ∀ j ∈ J, Ready W hooks (setAll (withData T (d j)) (s j)) ∧ Linear W hooks (setAll (withData T (d j)) (s j)) base D)
    (q : List R) (hq : q.length = numberOfParams T.par) (hid : Identifiable W T) (hN : WhiteNoise W (setAll T q) J ω d) (p : κ → List R)
    (hp : ∀ j ∈ J, (p j).length = numberOfParams T.par ∧ Best W (setAll (withData T (d j)) (p j))) (k : Nat) (hk : k < numberOfParams T.par) :
    1 ≤ effect o T D k * meanSq J ω p q k ∧ (Isolated W T k → effect o T D k * meanSq J ω p q k = 1) := by
  obtain ⟨es, C, hes, hall⟩ := logProb_run T hr.prior
  obtain rfl := noPriors_entries T.par es hes hnp
  have hobs : ∀ f : (Σ _ : Nat, Σ _ : Nat, Nat) ⊕ Nat → R, ∑ π ∈ obs T ([] : List (Entry R)), f π = ∑ π ∈ pixels T, f (.inl π) := by
    intro f
    unfold obs
    rw [sum_disjSum]
    simp
  -- the residuals at the truth
  have hget : ∀ (i : Nat) b im, T.images[i]? = some (b, im) → ∃ im', (setAll T q).images[i]? = some (b, im') ∧ im'.data = im.data ∧ im'.inverr = im.inverr := by
    intro i b im h
    obtain ⟨x', h1, h2, -, h3, h4⟩ := (setAll_ok T q).1.image i _ h
    exact ⟨x'.2, by rw [h1]; exact congrArg some (Prod.ext h2 rfl), h3, h4⟩
  have hres : ∀ j (i y x : Nat) b im, T.images[i]? = some (b, im) → y < im.data.h → x < im.data.w →
      Fpfit.resid (range (numberOfParams T.par)) (fun π => weight T ([] : List (Entry R)) (.inl π)) (fun π => seen (d j) [] (.inl π))
        (fun π => const base (.inl π)) (fun π => slopes D [] (.inl π)) (fun k => q.getD k 0) ⟨i, y, x⟩ =
        im.inverr.px y x * (d j i y x - pixel W (setAll T q) i y x) := by
    intro j i y x b im h1 h2 h3
    rw [pixel_linear hl hr q hq i y x b im h1 h2 h3]
    simp [Fpfit.resid, weight, seen, const, slopes, h1]
  have main := Fpfit.resid_var (pixels T) (range (numberOfParams T.par)) (range (numberOfParams T.par)) (Finset.Subset.refl _)
    (fun π => weight T ([] : List (Entry R)) (.inl π)) (fun π => const base (.inl π)) (fun π => slopes D [] (.inl π)) J ω hN.pos
    (fun j π => seen (d j) [] (.inl π)) (fun j k => (p j).getD k 0) (fun k => q.getD k 0) (fun j hj θ => by
      obtain ⟨h1, L, h2, h3⟩ := hp j hj
      obtain ⟨L', h4, h5⟩ := h3 ((List.range (numberOfParams T.par)).map θ) (by rw [setAll_length, withData_par]; simp)
      rw [setAll_setAll _ _ _ (by rw [withData_par]; simp)] at h4
      rw [hall W hooks base D (d j) (s j) (hrun j hj).1 (hrun j hj).2 _ h1, hobs] at h2
      rw [hall W hooks base D (d j) (s j) (hrun j hj).1 (hrun j hj).2 _ (by simp), hobs] at h4
      injection h2 with h2; injection h2 with h2
      injection h4 with h4; injection h4 with h4
      have e : ∀ π, Fpfit.resid (range (numberOfParams T.par)) (weight T []) (seen (d j) []) (const base) (slopes D [])
          (fun k => ((List.range (numberOfParams T.par)).map θ).getD k 0) π =
          Fpfit.resid (range (numberOfParams T.par)) (weight T []) (seen (d j) []) (const base) (slopes D []) θ π := by
        intro π
        unfold Fpfit.resid
        congr 3
        exact sum_congr rfl (fun k hk => by beta_reduce; rw [getD_map_range θ _ k (mem_range.1 hk)])
      simp only [e] at h4
      rw [← h2, ← h4] at h5
      have h6 : ∑ π ∈ pixels T, Fpfit.resid (range (numberOfParams T.par)) (weight T []) (seen (d j) []) (const base) (slopes D [])
            (fun k => (p j).getD k 0) (.inl π) * Fpfit.resid (range (numberOfParams T.par)) (weight T []) (seen (d j) []) (const base) (slopes D [])
            (fun k => (p j).getD k 0) (.inl π) ≤
          ∑ π ∈ pixels T, Fpfit.resid (range (numberOfParams T.par)) (weight T []) (seen (d j) []) (const base) (slopes D []) θ (.inl π) *
            Fpfit.resid (range (numberOfParams T.par)) (weight T []) (seen (d j) []) (const base) (slopes D []) θ (.inl π) := by linarith
      exact h6) (by
      rintro ⟨i, y, x⟩ hπ ⟨i', y', x'⟩ hπ'
      obtain ⟨b, im, ht, hy, hx⟩ := (mem_pixels T i y x).1 hπ
      obtain ⟨b', im', ht', hy', hx'⟩ := (mem_pixels T i' y' x').1 hπ'
      obtain ⟨a1, a2, a3, a4⟩ := hget i b im ht
      obtain ⟨c1, c2, c3, c4⟩ := hget i' b' im' ht'
      have hw : weight T ([] : List (Entry R)) (.inl ⟨i, y, x⟩) = im.inverr.px y x := by simp [weight, ht]
      rw [hw, sum_congr rfl (fun j _ => by
        rw [hres j i y x b im ht hy hx, hres j i' y' x' b' im' ht' hy' hx',
          show ω j * (im.inverr.px y x * (d j i y x - pixel W (setAll T q) i y x) * (im'.inverr.px y' x' * (d j i' y' x' - pixel W (setAll T q) i' y' x'))) =
            im.inverr.px y x * im'.inverr.px y' x' *
              (ω j * ((d j i y x - pixel W (setAll T q) i y x) * (d j i' y' x' - pixel W (setAll T q) i' y' x'))) by ring]), ← mul_sum]
      by_cases h1 : im.inverr.px y x = 0
      · rw [if_neg (by simp [h1]), h1]; ring
      · by_cases h2 : im'.inverr.px y' x' = 0
        · rw [if_neg, h2]
          · ring
          · rintro ⟨h3, _⟩
            simp only [Sigma.mk.injEq, heq_eq_eq] at h3
            obtain ⟨rfl, rfl, rfl⟩ := h3
            rw [ht] at ht'
            cases ht'
            exact h1 h2
        · by_cases h3 : (i, y, x) = (i', y', x')
          · simp only [Prod.mk.injEq] at h3
            obtain ⟨rfl, rfl, rfl⟩ := h3
            rw [ht] at ht'
            cases ht'
            rw [if_pos ⟨rfl, h1⟩, hN.same i y x b a1 a2 (by rw [a3]; exact hy) (by rw [a3]; exact hx) (by rw [a4]; exact h1), a4]
            field_simp
          · rw [if_neg, hN.other i y x b a1 i' y' x' b' c1 a2 (by rw [a3]; exact hy) (by rw [a3]; exact hx) (by rw [a4]; exact h1) c2
              (by rw [c3]; exact hy') (by rw [c3]; exact hx') (by rw [c4]; exact h2) h3, mul_zero]
            rintro ⟨h4, _⟩
            simp only [Sigma.mk.injEq, heq_eq_eq] at h4
            obtain ⟨rfl, rfl, rfl⟩ := h4
            exact h3 rfl) (by
      intro v hv m hm
      have e1 := hid ((List.range (numberOfParams T.par)).map v) (List.replicate (numberOfParams T.par) 0) (by simp) (by simp) (by
          intro i b im y x ht hy hx hne
          rw [pixel_linear hl hr _ (by simp) i y x b im ht hy hx, pixel_linear hl hr _ (by simp) i y x b im ht hy hx]
          congr 1
          have h0 := hv ⟨i, y, x⟩ ((mem_pixels T i y x).2 ⟨b, im, ht, hy, hx⟩)
          have hw : weight T ([] : List (Entry R)) (.inl ⟨i, y, x⟩) = im.inverr.px y x := by simp [weight, ht]
          rw [hw] at h0
          have h1 := (mul_eq_zero.1 h0).resolve_left hne
          have h2 : ∑ k ∈ range (numberOfParams T.par), v k * D k i y x = 0 := h1
          rw [sum_congr rfl (fun k hk => by rw [getD_map_range v _ k (mem_range.1 hk)]), h2]
          symm
          exact sum_eq_zero (fun m hm => by rw [List.getD, List.getElem?_replicate, if_pos (mem_range.1 hm), Option.getD_some, zero_mul])) (by
          intro k x hx hne
          exact absurd (hnp x (List.mem_of_getElem? hx)) hne)
      have hm := mem_range.1 hm
      have e3 : ((List.range (numberOfParams T.par)).map v)[m]? = (List.replicate (numberOfParams T.par) (0 : R))[m]? := by rw [e1]
      rw [List.getElem?_map, List.getElem?_range hm, List.getElem?_replicate, if_pos hm] at e3
      simpa using e3) k (mem_range.2 hk)
  have em : ∑ j ∈ J, ω j * (((p j).getD k 0 - q.getD k 0) * ((p j).getD k 0 - q.getD k 0)) = meanSq J ω p q k := by
    unfold meanSq
    refine sum_congr rfl (fun j _ => ?_)
    rw [sq]
  rw [em, ← effect_info o T D k hnp] at main
  refine ⟨main.1, fun hiso => main.2 (fun l hl' hne => ?_)⟩
  rintro ⟨i, y, x⟩ hπ
  obtain ⟨b, im, ht, hy, hx⟩ := (mem_pixels T i y x).1 hπ
  have hw : weight T ([] : List (Entry R)) (.inl ⟨i, y, x⟩) = im.inverr.px y x := by simp [weight, ht]
  rw [hw]
  change im.inverr.px y x * D k i y x * (im.inverr.px y x * D l i y x) = 0
  by_cases h1 : im.inverr.px y x = 0
  · rw [h1]; ring
  have unit : ∀ m < numberOfParams T.par, (∀ (p : List R) (v : R), p.length = numberOfParams T.par →
      pixel W (setAll T (p.set m v)) i y x = pixel W (setAll T p) i y x) → D m i y x = 0 := by
    intro m hm hpx
    have a := hpx (List.replicate (numberOfParams T.par) 0) 1 (by simp)
    rw [pixel_linear hl hr _ (by simp) i y x b im ht hy hx, pixel_linear hl hr _ (by simp) i y x b im ht hy hx,
      sum_set _ (numberOfParams T.par) m 1 _ (by simp) hm] at a
    have hz : (List.replicate (numberOfParams T.par) (0 : R)).getD m 0 = 0 := by
      rw [List.getD, List.getElem?_replicate, if_pos hm]; rfl
    rw [hz] at a
    linarith
  rcases hiso i y x b im ht hy hx h1 with h2 | h2
  · rw [unit k hk h2]; ring
  · rw [unit l (mem_range.1 hl') (h2 l hne)]; ring

/-- **C153.** Runs of `optimize(variance=True)` (LSQR optimizer, exact solver) on a linear tractor without priors: pixels with uncorrelated noise of the
size that the inverse errors say (and any noise in pixels with zero inverse error), parameters that can be told from the pixels, any start values.  All
runs report the same variances, and the mean squared difference of the values found from the true values is at least the reported variance, and is
the variance for parameters that share no pixels with others.  `just_variance=True` gives these variances and leaves the tractor as it is. -/
theorem C153_scatter [IsStrictOrderedRing R] {κ : Type} (S : Solver R) (hsq : Lsq.SqrtOK S.sqrt) (hS : Lsq.Solves S.lsqr) (W : World R M)
    (hooks : Tractor R M → Nat → Nat → Option (List (Deriv R))) (shared priors : Bool) (T : Tractor R M) (base : Nat → Nat → Nat → R)
    (D : Nat → Nat → Nat → Nat → R) (hr : Ready W hooks T) (hl : Linear W hooks T base D) (hnp : ∀ x ∈ thawedPriors T.par, x.2 = [])
    (hn : 0 < numberOfParams T.par) (J : Finset κ) (ω : κ → R) (d : κ → Nat → Nat → Nat → R) (s : κ → List R)
    (hrun : ∀ j ∈ J, Ready W hooks (setAll (withData T (d j)) (s j)) ∧ Linear W hooks (setAll (withData T (d j)) (s j)) base D ∧
      Options S ⟨true, shared, priors⟩ (setAll (withData T (d j)) (s j)) D)
    (q : List R) (hq : q.length = numberOfParams T.par) (hid : Identifiable W T) (hN : WhiteNoise W (setAll T q) J ω d) (A B : List R)
    (hA : ∀ a ∈ A, 0 ≤ a) (hs : (A ++ [1]).Pairwise (· ≤ ·)) :
    ∃ (p : κ → List R) (var : List R), var.length = numberOfParams T.par ∧
      (∀ j ∈ J, (p j).length = numberOfParams T.par ∧
        (∃ r, optimizeVar S W hooks shared priors false (A ++ 1 :: B) (setAll (withData T (d j)) (s j)) =
          (setAll (withData T (d j)) (p j), .ok (some r, some var))) ∧
        optimizeVar S W hooks shared priors true (A ++ 1 :: B) (setAll (withData T (d j)) (s j)) =
          (setAll (withData T (d j)) (s j), .ok (none, some var))) ∧
      ∀ k, k < numberOfParams T.par → var.getD k 0 ≤ meanSq J ω p q k ∧ (Isolated W T k → meanSq J ω p q k = var.getD k 0) := by
  have hex : ∀ j : κ, ∃ p : List R, j ∈ J → p.length = numberOfParams T.par ∧ Best W (setAll (withData T (d j)) p) ∧
      ∃ r, optimize S W hooks ⟨true, shared, priors⟩ (A ++ 1 :: B) (setAll (withData T (d j)) (s j)) = (setAll (withData T (d j)) p, .ok r) := by
    intro j
    by_cases hj : j ∈ J
    · obtain ⟨h1, h2, h3⟩ := hrun j hj
      obtain ⟨T', r, p, e1, e2, e3, e4, -⟩ := C143_best_partial S hsq hS W hooks _ _ base D h1 h2 h3 A B hA hs
      rw [setAll_length, withData_par] at e2
      rw [setAll_setAll _ _ _ (by rw [withData_par]; exact e2)] at e3
      exact ⟨p, fun _ => ⟨e2, by rw [← e3]; exact e4, r, by rw [e1, e3]⟩⟩
    · exact ⟨[], fun h => absurd h hj⟩
  choose p hp using hex
  have core := scatter_core W hooks ⟨true, shared, priors⟩ T base D hr hl hnp J ω d s (fun j hj => ⟨(hrun j hj).1, (hrun j hj).2.1⟩) q hq hid hN p
    (fun j hj => ⟨(hp j hj).1, (hp j hj).2.1⟩)
  have hpos : ∀ k, k < numberOfParams T.par → 0 < effect ⟨true, shared, priors⟩ T D k := by
    intro k hk
    have h1 := (core k hk).1
    have h2 : 0 ≤ effect ⟨true, shared, priors⟩ T D k := by
      rw [effect_info _ T D k hnp]
      exact sum_nonneg (fun _ _ => mul_self_nonneg _)
    rcases h2.lt_or_eq with h | h
    · exact h
    · rw [← h, zero_mul] at h1; linarith
  refine ⟨p, (List.range (numberOfParams T.par)).map (fun k => 1 / effect ⟨true, shared, priors⟩ T D k), by simp, fun j hj => ?_, fun k hk => ?_⟩
  · obtain ⟨h1, h2, h3⟩ := hrun j hj
    obtain ⟨var, v1, v2, v3⟩ := optimizeVar_ok S hsq hS W hooks shared priors _ base D h1 h2 h3
      ⟨0, by rw [setAll_length, withData_par]; exact hn, by rw [effect_run _ T _ _ D 0 hnp]; exact (hpos 0 hn).ne'⟩ (A ++ 1 :: B)
    rw [setAll_length, withData_par] at v1
    have v4 : var = (List.range (numberOfParams T.par)).map (fun k => 1 / effect ⟨true, shared, priors⟩ T D k) := by
      rw [v1]
      exact List.map_congr_left (fun k _ => by rw [effect_run _ T _ _ D k hnp])
    obtain ⟨a1, -, r, a3⟩ := hp j hj
    rw [← v4]
    refine ⟨a1, ⟨r, ?_⟩, v2⟩
    rw [v3, a3]
    rfl
  · rw [getD_map_range _ _ k hk]
    obtain ⟨h1, h2⟩ := core k hk
    have h0 := hpos k hk
    constructor
    · rw [div_le_iff₀ h0, mul_comm]; exact h1
    · intro hi
      rw [eq_div_iff h0.ne', mul_comm]; exact h2 hi

/-- **C153, in the loop**: `optimize_loop(variance=True)` does the first round of the optimization, moving the parameters as `optimize` does, and then raises
ValueError. -/
theorem C153_loop_false [IsStrictOrderedRing R] (S : Solver R) (hsq : Lsq.SqrtOK S.sqrt) (hS : Lsq.Solves S.lsqr) (W : World R M)
    (hooks : Tractor R M → Nat → Nat → Option (List (Deriv R))) (shared priors : Bool) (T : Tractor R M) (base : Nat → Nat → Nat → R)
    (D : Nat → Nat → Nat → Nat → R) (hr : Ready W hooks T) (hl : Linear W hooks T base D) (ho : Options S ⟨true, shared, priors⟩ T D)
    (hne : ∃ k, k < numberOfParams T.par ∧ effect ⟨true, shared, priors⟩ T D k ≠ 0) (A B : List R)
    (hA : ∀ a ∈ A, 0 ≤ a) (hs : (A ++ [1]).Pairwise (· ≤ ·)) (n : Nat) :
    ∃ T' r, optimize S W hooks ⟨true, shared, priors⟩ (A ++ 1 :: B) T = (T', .ok r) ∧ Best W T' ∧
      optimizeLoopVar S W hooks shared priors (A ++ 1 :: B) (n + 1) T = (T', .error .value) := by
  obtain ⟨T', r, p, e1, -, -, e4, -⟩ := C143_best_partial S hsq hS W hooks _ _ base D hr hl ho A B hA hs
  obtain ⟨var, -, -, v3⟩ := optimizeVar_ok S hsq hS W hooks shared priors T base D hr hl ho hne (A ++ 1 :: B)
  refine ⟨T', r, e1, e4, ?_⟩
  unfold optimizeLoopVar
  dsimp only
  rw [v3, e1]
  rfl

/-! Example: one image with two pixels, with inverse errors 1 and 2, and a source with two parameters: the first adds to the first pixel, the second to
the second and, `c` times, to the first. -/

def exWorldV (c : ℚ) : World ℚ Unit where
  render s _ _ := some ⟨0, 0, some ⟨1, 2, fun _ x => if x = 0 then (getParams s.par).getD 0 0 + (getParams s.par).getD 1 0 * c else (getParams s.par).getD 1 0⟩⟩
  sky _ := .null
  srcDerivs _ _ _ := [some ⟨0, 0, some ⟨1, 1, fun _ _ => 1⟩⟩, some ⟨0, 0, some ⟨1, 2, fun _ x => if x = 0 then c else 1⟩⟩]

def exV (d : Nat → Nat → Nat → ℚ) (a b : ℚ) : Tractor ℚ Unit :=
  ⟨false, [(true, ⟨0, .nil, ⟨1, 2, d 0⟩, Arr.ofLists [[1, 2]] 2⟩)], true,
    [(true, some ⟨10, .plist ⟨[⟨["a"], true, a⟩, ⟨["b"], true, b⟩], [none, none], [none, none], [none, none], none, []⟩⟩)], none, false⟩

/-- The derivative images. -/
def exDV (c : ℚ) (k _i _y x : Nat) : ℚ := if k = 0 then (if x = 0 then 1 else 0) else if k = 1 then (if x = 0 then c else 1) else 0

theorem exDataV (d d' : Nat → Nat → Nat → ℚ) (a b : ℚ) : withData (exV d a b) d' = exV d' a b := rfl

theorem exSetV (d : Nat → Nat → Nat → ℚ) (a b a' b' : ℚ) : setAll (exV d a b) [a', b'] = exV d a' b' := rfl

theorem exNV (d : Nat → Nat → Nat → ℚ) (a b : ℚ) : numberOfParams (exV d a b).par = 2 := rfl

theorem exNoPriorsV (d : Nat → Nat → Nat → ℚ) (a b : ℚ) : ∀ x ∈ thawedPriors (exV d a b).par, x.2 = [] := by
  have : thawedPriors (exV d a b).par = [(a, []), (b, [])] := rfl
  rw [this]
  simp

theorem exImV (d : Nat → Nat → Nat → ℚ) (a b : ℚ) (i : Nat) (t : Bool) (im : Image ℚ) (h : (exV d a b).images[i]? = some (t, im)) :
    i = 0 ∧ im = ⟨0, .nil, ⟨1, 2, d 0⟩, Arr.ofLists [[1, 2]] 2⟩ := by
  match i, h with
  | 0, h => simp [exV] at h; exact ⟨rfl, h.2.symm⟩
  | n + 1, h => simp [exV] at h

theorem exListV (p : List ℚ) (hp : p.length = 2) : ∃ a b, p = [a, b] := by
  match p, hp with
  | [a, b], _ => exact ⟨a, b, rfl⟩

theorem exMaskV (d : Nat → Nat → Nat → ℚ) (a b : ℚ) (im : Image ℚ) : MasksOK (exV d a b) im := by
  intro masks h
  cases h

theorem exReadyV (c : ℚ) (d : Nat → Nat → Nat → ℚ) (a b : ℚ) : Ready (exWorldV c) exHooks (exV d a b) := by
  refine ⟨fun x _ => exMaskV d a b x.2, ?_, ?_, ?_, ?_, ?_⟩
  · intro x hx
    simp only [exV, List.mem_cons, List.not_mem_nil, or_false] at hx
    subst hx
    exact ⟨rfl, rfl, by show 2 * 1 < 2 ^ 31; norm_num⟩
  · simp [exV, Tractor.par, PriorsOK, PriorsOKSubs, imagesSubs, catalogSubs]
  · intro i x _ _ y _ _ l hl
    cases hl
  · intro x hx _
    simp only [exV, List.mem_cons, List.not_mem_nil, or_false] at hx
    subst hx
    rfl
  · intro src hs x _ ds hds
    simp only [exV, List.mem_cons, List.not_mem_nil, or_false, Prod.mk.injEq, true_and, Option.some.injEq] at hs
    subst hs
    obtain ⟨mask, -, rfl⟩ := hds
    split
    · simp
    · exact Nat.le_refl 2

theorem exLinearV (c : ℚ) (d : Nat → Nat → Nat → ℚ) (a b : ℚ) : Linear (exWorldV c) exHooks (exV d a b) (fun _ _ _ => 0) (exDV c) := by
  have hb : blocks (exV d a b) = [0, 2] := rfl
  refine ⟨?_, ?_, ?_⟩
  · intro p hp i t im hi A hA y x hy hx
    rw [exNV] at hp ⊢
    obtain ⟨a', b', rfl⟩ := exListV p hp
    rw [exSetV] at hi hA
    obtain ⟨rfl, rfl⟩ := exImV d a' b' i t im hi
    obtain ⟨-, h⟩ := C29_model_image (exWorldV c) (exV d a' b') _ (exMaskV d a' b' _) none
    obtain ⟨r, g1, -, -, g2⟩ := h [some ⟨0, 0, some ⟨1, 2, fun _ x => if x = 0 then a' + b' * c else b'⟩⟩] (.cons ⟨none, .nomasks rfl, rfl⟩ .nil) true
    rw [hA] at g1
    injection g1 with g1
    subst g1
    rw [g2 y x hy hx]
    have hy : y < 1 := hy
    have hx : x < 2 := hx
    interval_cases y
    interval_cases x <;> simp [exWorldV, Sky.at, patchAt, Patch.at, exDV, Finset.sum_range_succ]
  · intro k o' j t src hloc hc i t' im hi ds hds y x hy hx
    obtain ⟨rfl, rfl⟩ := exImV d a b i t' im hi
    obtain ⟨n, h1, h2, h3⟩ := hloc
    rw [hb] at h1 h3
    have hl : (exV d a b).images.length = 1 := rfl
    rw [hl] at h1 h3
    match o', h1, h3, hc with
    | 0, h1, h3, hc =>
      simp at h1 h3
      subst h1
      rw [h3]
      clear h3
      obtain ⟨mask, -, rfl⟩ := hds
      rw [if_neg (by simp [exV])]
      have hy : y < 1 := hy
      have hx : x < 2 := hx
      interval_cases y
      interval_cases j <;> interval_cases x <;> simp [exWorldV, patchAt, Patch.at, exDV]
    | o' + 1, h1, h3, hc => simp [exV] at hc
  · intro k o j t im hloc ho dd hd
    obtain ⟨rfl, rfl⟩ := exImV d a b o t im ho
    obtain ⟨n, h1, h2, -⟩ := hloc
    rw [hb] at h1
    simp at h1
    omega

theorem exEffectV (o : Opts) (c : ℚ) (d : Nat → Nat → Nat → ℚ) (a b : ℚ) (k : Nat) :
    effect o (exV d a b) (exDV c) k = if k = 0 then 1 else if k = 1 then c ^ 2 + 4 else 0 := by
  have hw : widths o (exV d a b) k = [] := by
    unfold widths
    have : thawedPriors (exV d a b).par = [(a, []), (b, [])] := rfl
    rw [this]
    split
    · match k with
      | 0 => rfl
      | 1 => rfl
      | k + 2 => rfl
    · rfl
  rw [effect, hw]
  match k with
  | 0 => simp [exV, List.zipIdx, exDV, Arr.ofLists]
  | 1 => simp [exV, List.zipIdx, Finset.sum_range_succ, exDV, Arr.ofLists]; norm_num
  | k + 2 => simp [exV, List.zipIdx, exDV]

/-- The solver drops nothing: `tiny` is small. -/
def SmallTiny (S : Solver ℚ) : Prop := S.tiny * S.sqrt 1 < 1 ∧ S.tiny * S.sqrt 4 < 1 ∧ S.tiny * S.sqrt 5 < 1

theorem exOptionsV (S : Solver ℚ) (hsq : Lsq.SqrtOK S.sqrt) (ht : SmallTiny S) (c : ℚ) (hc : c = 0 ∨ c = 1) (d : Nat → Nat → Nat → ℚ) (a b : ℚ) (sh pr : Bool) :
    Options S ⟨true, sh, pr⟩ (exV d a b) (exDV c) := by
  have key : ∀ v e : ℚ, 0 < e → 1 ≤ v → S.tiny * S.sqrt e < 1 → S.tiny < |v / S.sqrt e| := by
    intro v e he hv h
    have := hsq e he
    rw [abs_of_pos (by positivity), lt_div_iff₀ this]
    linarith
  refine ⟨.inr (exNoPriorsV d a b), fun _ => ?_, fun _ _ => ?_⟩
  · intro k v hv h
    rcases h with ⟨i, t, im, r, x, h1, h2, h3, rfl⟩ | ⟨s, hs, -⟩
    · obtain ⟨rfl, rfl⟩ := exImV d a b i t im h1
      rw [exEffectV]
      have hr : r < 1 := h2
      have hx : x < 2 := h3
      match k with
      | 0 =>
        interval_cases r
        interval_cases x
        · rw [if_pos rfl]; exact key _ _ (by norm_num) (by simp [exDV, Arr.ofLists]) ht.1
        · simp [exDV] at hv
      | 1 =>
        interval_cases r
        rw [if_neg (by norm_num), if_pos rfl]
        rcases hc with rfl | rfl
        · interval_cases x
          · simp [exDV] at hv
          · rw [show (0 : ℚ) ^ 2 + 4 = 4 by norm_num]; exact key _ _ (by norm_num) (by simp [exDV, Arr.ofLists]) ht.2.1
        · rw [show (1 : ℚ) ^ 2 + 4 = 5 by norm_num]
          interval_cases x
          · exact key _ _ (by norm_num) (by simp [exDV, Arr.ofLists]) ht.2.2
          · exact key _ _ (by norm_num) (by simp [exDV, Arr.ofLists]) ht.2.2
      | k + 2 => simp [exDV] at hv
    · exfalso
      unfold widths at hs
      have : thawedPriors (exV d a b).par = [(a, []), (b, [])] := rfl
      rw [this] at hs
      split at hs
      · match k, hs with
        | 0, hs => cases hs
        | 1, hs => cases hs
        | k + 2, hs => cases hs
      · cases hs
  · rw [exNV, exEffectV]
    norm_num
    positivity

theorem exPixelV (c : ℚ) (d : Nat → Nat → Nat → ℚ) (a b a' b' : ℚ) (x : Nat) (hx : x < 2) :
    pixel (exWorldV c) (setAll (exV d a b) [a', b']) 0 0 x = if x = 0 then a' + b' * c else b' := by
  rw [pixel_linear (exLinearV c d a b) (exReadyV c d a b) _ rfl 0 0 x true _ rfl Nat.one_pos hx, exNV]
  interval_cases x <;> simp [Finset.sum_range_succ, exDV]

theorem exIdentV (c : ℚ) (d : Nat → Nat → Nat → ℚ) (a b : ℚ) : Identifiable (exWorldV c) (exV d a b) := by
  intro p p' hp hp' h _
  obtain ⟨a1, b1, rfl⟩ := exListV p hp
  obtain ⟨a2, b2, rfl⟩ := exListV p' hp'
  have k0 := h 0 true _ 0 0 rfl Nat.one_pos Nat.two_pos (by change (Arr.ofLists [[1, 2]] 2 : Arr ℚ).px 0 0 ≠ 0; decide +kernel)
  have k1 := h 0 true _ 0 1 rfl Nat.one_pos Nat.one_lt_two (by change (Arr.ofLists [[1, 2]] 2 : Arr ℚ).px 0 1 ≠ 0; decide +kernel)
  rw [exPixelV c d a b _ _ 0 Nat.two_pos, exPixelV c d a b _ _ 0 Nat.two_pos] at k0
  rw [exPixelV c d a b _ _ 1 Nat.one_lt_two, exPixelV c d a b _ _ 1 Nat.one_lt_two] at k1
  simp at k0 k1
  subst k1
  simp at k0
  rw [k0]

/-- Four equally likely noises of the size the inverse errors say, about the model with the values 3 and 5. -/
def exNoiseV (c : ℚ) (j : Bool × Bool) (_i _y x : Nat) : ℚ :=
  if x = 0 then 3 + 5 * c + (if j.1 then 1 else -1) else 5 + (if j.2 then 1 / 2 else -1 / 2)

theorem exWhiteV (c : ℚ) (d : Nat → Nat → Nat → ℚ) (a b : ℚ) :
    WhiteNoise (exWorldV c) (setAll (exV d a b) [3, 5]) Finset.univ (fun _ => 1 / 4) (exNoiseV c) := by
  have hu : (Finset.univ : Finset (Bool × Bool)) = {(true, true), (true, false), (false, true), (false, false)} := by decide
  refine ⟨by intro j _; norm_num, ?_, ?_⟩
  · intro i y x t im h1 h2 h3 _
    rw [exSetV] at h1
    obtain ⟨rfl, rfl⟩ := exImV _ _ _ i t im h1
    have hy : y < 1 := h2
    have hx : x < 2 := h3
    interval_cases y
    rw [exPixelV c d a b _ _ x hx, hu]
    interval_cases x <;> simp [exNoiseV, Arr.ofLists] <;> norm_num
  · intro i y x t im i' y' x' t' im' h1 h2 h3 _ h1' h2' h3' _ hne
    rw [exSetV] at h1 h1'
    obtain ⟨rfl, rfl⟩ := exImV _ _ _ i t im h1
    obtain ⟨rfl, rfl⟩ := exImV _ _ _ i' t' im' h1'
    have hy : y < 1 := h2
    have hx : x < 2 := h3
    have hy' : y' < 1 := h2'
    have hx' : x' < 2 := h3'
    interval_cases y
    interval_cases y'
    rw [exPixelV c d a b _ _ x hx, exPixelV c d a b _ _ x' hx', hu]
    interval_cases x <;> interval_cases x' <;> first | exact absurd rfl hne | simp [exNoiseV]

/-- Separate pixels (`c = 0`): the reported variances 1 and 1/4 are the mean squared errors. -/
example : ∃ (lsqr : Lsq.Problem ℚ → List ℚ) (p : Bool × Bool → List ℚ) (var : List ℚ), (∀ j, ∃ r,
    optimizeVar ⟨id, 0, lsqr⟩ (exWorldV 0) exHooks true true false [1 / 4, 1 / 2, 1, 2] (exV (exNoiseV 0 j) 7 7) = (exV (exNoiseV 0 j) ((p j).getD 0 0) ((p j).getD 1 0),
      .ok (some r, some var))) ∧
    meanSq Finset.univ (fun _ => 1 / 4) p [3, 5] 0 = var.getD 0 0 ∧ meanSq Finset.univ (fun _ => 1 / 4) p [3, 5] 1 = var.getD 1 0 := by
  obtain ⟨lsqr, hl⟩ := Lsq.solver_exists (R := ℚ)
  have hst : SmallTiny ⟨id, 0, lsqr⟩ := by constructor <;> simp
  obtain ⟨p, var, -, h2, h3⟩ := C153_scatter (κ := Bool × Bool) ⟨id, 0, lsqr⟩ (fun x hx => hx) hl (exWorldV 0) exHooks true true (exV (fun _ _ _ => 0) 7 7)
    (fun _ _ _ => 0) (exDV 0) (exReadyV 0 _ 7 7) (exLinearV 0 _ 7 7) (exNoPriorsV _ 7 7) (by rw [exNV]; norm_num) Finset.univ (fun _ => 1 / 4) (exNoiseV 0)
    (fun _ => [7, 7]) (fun j _ => by
      rw [exDataV, exSetV]
      exact ⟨exReadyV 0 _ 7 7, exLinearV 0 _ 7 7, exOptionsV _ (fun x hx => hx) hst 0 (.inl rfl) _ 7 7 _ _⟩)
    [3, 5] rfl (exIdentV 0 _ 7 7) (exWhiteV 0 _ 7 7) [1 / 4, 1 / 2] [2] (by intro a ha; simp at ha; rcases ha with rfl | rfl <;> norm_num)
    (by simp [List.pairwise_cons]; norm_num)
  have iso : ∀ k, k < 2 → Isolated (exWorldV 0) (exV (fun _ _ _ => 0) 7 7) k := by
    intro k hk i y x t im e1 e2 e3 _
    obtain ⟨rfl, rfl⟩ := exImV _ _ _ i t im e1
    have hy : y < 1 := e2
    have hx : x < 2 := e3
    interval_cases y
    have hp : ∀ l, l ≠ x → ∀ (p : List ℚ) (v : ℚ), p.length = numberOfParams (exV (fun _ _ _ => 0) 7 7).par →
        pixel (exWorldV 0) (setAll (exV (fun _ _ _ => 0) 7 7) (p.set l v)) 0 0 x = pixel (exWorldV 0) (setAll (exV (fun _ _ _ => 0) 7 7) p) 0 0 x := by
      intro l hl p v hp
      obtain ⟨a, b, rfl⟩ := exListV p hp
      match l, hl with
      | 0, hl =>
        rw [List.set_cons_zero, exPixelV 0 _ _ _ _ _ x hx, exPixelV 0 _ _ _ _ _ x hx]
        rw [if_neg (fun h => hl h.symm), if_neg (fun h => hl h.symm)]
      | 1, hl =>
        rw [List.set_cons_succ, List.set_cons_zero, exPixelV 0 _ _ _ _ _ x hx, exPixelV 0 _ _ _ _ _ x hx]
        have : x = 0 := by omega
        simp [this]
      | l + 2, hl => rfl
    by_cases h : k = x
    · subst h; exact .inr hp
    · exact .inl (hp k h)
  refine ⟨lsqr, p, var, fun j => ?_, (h3 0 (by rw [exNV]; norm_num)).2 (iso 0 (by norm_num)), (h3 1 (by rw [exNV]; norm_num)).2 (iso 1 (by norm_num))⟩
  obtain ⟨e1, ⟨r, e2⟩, -⟩ := h2 j (Finset.mem_univ j)
  obtain ⟨a, b, e⟩ := exListV _ e1
  rw [exDataV, exSetV, e, exSetV] at e2
  exact ⟨r, by rw [e]; exact e2⟩

example : ∃ (lsqr : Lsq.Problem ℚ → List ℚ) (T' : Tractor ℚ Unit), Best (exWorldV 1) T' ∧
    optimizeLoopVar ⟨id, 0, lsqr⟩ (exWorldV 1) exHooks true true [1] 50 (exV (exNoiseV 0 (true, false)) 7 7) = (T', .error .value) := by
  obtain ⟨lsqr, hl⟩ := Lsq.solver_exists (R := ℚ)
  have hst : SmallTiny ⟨id, 0, lsqr⟩ := by constructor <;> simp
  obtain ⟨T', r, -, h2, h3⟩ := C153_loop_false ⟨id, 0, lsqr⟩ (fun x hx => hx) hl (exWorldV 1) exHooks true true (exV (exNoiseV 0 (true, false)) 7 7)
    (fun _ _ _ => 0) (exDV 1) (exReadyV 1 _ 7 7) (exLinearV 1 _ 7 7) (exOptionsV _ (fun x hx => hx) hst 1 (.inr rfl) _ 7 7 _ _)
    ⟨0, by rw [exNV]; norm_num, by rw [exEffectV]; norm_num⟩ [] [] (by simp) (by simp) 49
  exact ⟨lsqr, T', h2, h3⟩

/-- **C153, parameters that share pixels**: the reported variances are too small (they ignore that the values of the two parameters go together).  With any
exact solver, one that keeps all derivatives, the variance reported for the first parameter is 1, and the mean squared error 5/4; for the second they
are 1/5 and 1/4. -/
theorem C153_blend_false (S : Solver ℚ) (hsq : Lsq.SqrtOK S.sqrt) (hS : Lsq.Solves S.lsqr) (ht : SmallTiny S) :
    ∃ (W : World ℚ Unit) (T : Tractor ℚ Unit) (d : Bool × Bool → Nat → Nat → Nat → ℚ) (p : Bool × Bool → List ℚ),
      Identifiable W T ∧ WhiteNoise W (setAll T [3, 5]) Finset.univ (fun _ => 1 / 4) d ∧
      (∀ j, ∃ r, optimizeVar S W exHooks true true false [1] (withData T (d j)) = (setAll (withData T (d j)) (p j), .ok (some r, some [1, 1 / 5]))) ∧
      meanSq Finset.univ (fun _ => 1 / 4) p [3, 5] 0 = 5 / 4 ∧ meanSq Finset.univ (fun _ => 1 / 4) p [3, 5] 1 = 1 / 4 := by
  refine ⟨exWorldV 1, exV (fun _ _ _ => 0) 7 7, exNoiseV 1, fun j => [exNoiseV 1 j 0 0 0 - exNoiseV 1 j 0 0 1, exNoiseV 1 j 0 0 1], exIdentV 1 _ 7 7,
    exWhiteV 1 _ 7 7, fun j => ?_, ?_, ?_⟩
  · rw [exDataV]
    obtain ⟨r, h⟩ := C152_exact S hsq hS (exWorldV 1) exHooks ⟨true, true, true⟩ (exV (exNoiseV 1 j) 7 7) (fun _ _ _ => 0) (exDV 1) (exReadyV 1 _ 7 7)
      (exLinearV 1 _ 7 7) (exOptionsV S hsq ht 1 (.inr rfl) _ 7 7 _ _) [exNoiseV 1 j 0 0 0 - exNoiseV 1 j 0 0 1, exNoiseV 1 j 0 0 1] rfl (exIdentV 1 _ 7 7)
      (by
        intro k v hv ms hms
        rw [exNoPriorsV _ 7 7 v (List.mem_of_getElem? hv)] at hms
        cases hms) (by
        intro i t im y x e1 e2 e3 _
        obtain ⟨rfl, rfl⟩ := exImV _ _ _ i t im e1
        have hy : y < 1 := e2
        have hx : x < 2 := e3
        interval_cases y
        rw [exPixelV 1 _ _ _ _ _ x hx]
        interval_cases x <;> simp) [] [] (by simp) (by simp)
    obtain ⟨var, v1, -, v3⟩ := optimizeVar_ok S hsq hS (exWorldV 1) exHooks true true (exV (exNoiseV 1 j) 7 7) (fun _ _ _ => 0) (exDV 1) (exReadyV 1 _ 7 7)
      (exLinearV 1 _ 7 7) (exOptionsV S hsq ht 1 (.inr rfl) _ 7 7 _ _) ⟨0, by rw [exNV]; norm_num, by rw [exEffectV]; norm_num⟩ [1]
    have hv : var = [1, 1 / 5] := by
      rw [v1, exNV]
      simp [List.range_succ, exEffectV]
      norm_num
    refine ⟨r, ?_⟩
    rw [v3, show ([1] : List ℚ) = [] ++ 1 :: [] from rfl, h, hv]
    rfl
  · have hu : (Finset.univ : Finset (Bool × Bool)) = {(true, true), (true, false), (false, true), (false, false)} := by decide
    unfold meanSq
    rw [hu]
    simp [exNoiseV]
    norm_num
  · have hu : (Finset.univ : Finset (Bool × Bool)) = {(true, true), (true, false), (false, true), (false, false)} := by decide
    unfold meanSq
    rw [hu]
    simp [exNoiseV]
    norm_num

end Verif.Fit
