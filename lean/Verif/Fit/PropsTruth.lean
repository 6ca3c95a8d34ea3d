import Verif.Fit.Truth
import Verif.Fit.Props

/-!
# C152: optimizing a linear tractor recovers the truth

Spec: if the pixels of the images are, on average over any noise, those of the model with the true parameters, and Gaussian priors are centred on the
true values, the values of the parameters found by `optimize` are on average the true ones, whatever values it starts from; without noise they are
the true ones.
-/

namespace Verif.Fit

open Verif Params Patches Engine Finset

variable {R M : Type} [Field R] [LinearOrder R]

/-- Two sets of values of the thawed parameters that give the same model in all pixels with non-zero inverse error, and are the same where there is a
prior, are the same. -/
def Identifiable (W : World R M) (T : Tractor R M) : Prop :=
  ∀ p p' : List R, p.length = numberOfParams T.par → p'.length = numberOfParams T.par →
    (∀ i b im y x, T.images[i]? = some (b, im) → y < im.data.h → x < im.data.w → im.inverr.px y x ≠ 0 →
      pixel W (setAll T p) i y x = pixel W (setAll T p') i y x) →
    (∀ k v, (thawedPriors T.par)[k]? = some v → v.2 ≠ [] → p.getD k 0 = p'.getD k 0) → p = p'

/-- The priors are centred on the values `q`. -/
def Centred (T : Tractor R M) (q : List R) : Prop := ∀ k v, (thawedPriors T.par)[k]? = some v → ∀ ms ∈ v.2, ms.1 = q.getD k 0

/-- The mean of the pixels `d j` with weights `ω j` is the model of the tractor `T`, in all pixels with non-zero inverse error. -/
def MeanIs {κ : Type} (W : World R M) (T : Tractor R M) (J : Finset κ) (ω : κ → R) (d : κ → Nat → Nat → Nat → R) : Prop :=
  ∀ i b im y x, T.images[i]? = some (b, im) → y < im.data.h → x < im.data.w → im.inverr.px y x ≠ 0 → ∑ j ∈ J, ω j * d j i y x = pixel W T i y x

theorem pixel_linear {W : World R M} {hooks : Tractor R M → Nat → Nat → Option (List (Deriv R))} {T : Tractor R M} {base : Nat → Nat → Nat → R}
    {D : Nat → Nat → Nat → Nat → R} (hl : Linear W hooks T base D) (hr : Ready W hooks T) (q : List R) (hq : q.length = numberOfParams T.par)
    (i y x : Nat) (b : Bool) (im : Image R) (h : T.images[i]? = some (b, im)) (hy : y < im.data.h) (hx : x < im.data.w) :
    pixel W (setAll T q) i y x = base i y x + ∑ k ∈ range (numberOfParams T.par), q.getD k 0 * D k i y x := by
  have hsh := (setAll_ok T q).1
  obtain ⟨⟨b', im'⟩, h1, h2⟩ := hsh.image i _ h
  obtain ⟨a1, -, a3, a4⟩ := h2
  dsimp only at a1 a3 a4
  obtain ⟨A, g1, -⟩ := chi_ok W (setAll T q) im' (hsh.masks hr.mask _ (List.mem_of_getElem? h1)) (by
    obtain ⟨c1, c2, -⟩ := hr.shape _ (List.mem_of_getElem? h)
    rw [a3, a4]; exact ⟨c1, c2⟩)
  unfold pixel
  rw [h1]
  simp only [g1]
  exact hl.model q hq i _ _ h1 A g1 y x (by rw [a3]; exact hy) (by rw [a3]; exact hx)

theorem setAll_pixels (T : Tractor R M) (q : List R) (i : Nat) (b : Bool) (im : Image R) (h : (setAll T q).images[i]? = some (b, im)) :
    ∃ im', T.images[i]? = some (b, im') ∧ im.data = im'.data ∧ im.inverr = im'.inverr := by
  have hsh := (setAll_ok T q).1
  have hi : i < T.images.length := by rw [hsh.images.length_eq]; exact (List.getElem?_eq_some_iff.1 h).1
  obtain ⟨x', h1, h2, -, h3, h4⟩ := hsh.image i _ (List.getElem?_eq_getElem hi)
  rw [h] at h1
  injection h1 with h1
  subst h1
  exact ⟨T.images[i].2, by rw [List.getElem?_eq_getElem hi]; exact congrArg some (Prod.ext h2.symm rfl), h3, h4⟩

/-- The mean of the most likely values. -/
theorem truth_core [IsStrictOrderedRing R] {κ : Type} (W : World R M) (hooks : Tractor R M → Nat → Nat → Option (List (Deriv R))) (T : Tractor R M)
    (base : Nat → Nat → Nat → R) (D : Nat → Nat → Nat → Nat → R) (hr : Ready W hooks T) (hl : Linear W hooks T base D) (J : Finset κ) (ω : κ → R)
    (hω : ∑ j ∈ J, ω j = 1) (d : κ → Nat → Nat → Nat → R) (s : κ → List R) (hrun : ∀ j ∈ J, Ready W hooks (setAll (withData T (d j)) (s j)) ∧
      Linear W hooks (setAll (withData T (d j)) (s j)) base D) (q : List R) (hq : q.length = numberOfParams T.par) (hid : Identifiable W T)
    (hc : Centred T q) (hd : MeanIs W (setAll T q) J ω d) (p : κ → List R)
    (hp : ∀ j ∈ J, (p j).length = numberOfParams T.par ∧ Best W (setAll (withData T (d j)) (p j))) :
    ∀ k, k < numberOfParams T.par → ∑ j ∈ J, ω j * (p j).getD k 0 = q.getD k 0 := by
  obtain ⟨es, C, hes, hall⟩ := logProb_run T hr.prior
  have getD_range : ∀ (f : Nat → R) (n k : Nat), k < n → ((List.range n).map f).getD k 0 = f k := by
    intro f n k hk
    rw [List.getD, List.getElem?_map, List.getElem?_range hk]; rfl
  have hmean := Fpfit.resid_mean (obs T es) (range (numberOfParams T.par)) (weight T es) (const base) (slopes D es) J ω hω (fun j => seen (d j) es)
    (fun j k => (p j).getD k 0) (fun k => q.getD k 0) (fun j hj θ => by
      obtain ⟨h1, L, h2, h3⟩ := hp j hj
      obtain ⟨L', h4, h5⟩ := h3 ((List.range (numberOfParams T.par)).map θ) (by rw [setAll_length, withData_par]; simp)
      rw [setAll_setAll _ _ _ (by rw [withData_par]; simp)] at h4
      rw [hall W hooks base D (d j) (s j) (hrun j hj).1 (hrun j hj).2 _ h1] at h2
      rw [hall W hooks base D (d j) (s j) (hrun j hj).1 (hrun j hj).2 _ (by simp)] at h4
      injection h2 with h2; injection h2 with h2
      injection h4 with h4; injection h4 with h4
      have e : ∀ π, Fpfit.resid (range (numberOfParams T.par)) (weight T es) (seen (d j) es) (const base) (slopes D es)
          (fun k => ((List.range (numberOfParams T.par)).map θ).getD k 0) π =
          Fpfit.resid (range (numberOfParams T.par)) (weight T es) (seen (d j) es) (const base) (slopes D es) θ π := by
        intro π
        unfold Fpfit.resid
        congr 3
        exact sum_congr rfl (fun k hk => by beta_reduce; rw [getD_range θ _ k (mem_range.1 hk)])
      simp only [e] at h4
      rw [← h2, ← h4] at h5
      linarith) (by
      rintro (⟨i, y, x⟩ | l) hπ hne
      · obtain ⟨b, im, h1, h2, h3⟩ := (mem_pixels T i y x).1 (inl_mem_disjSum.1 hπ)
        simp only [seen, const, slopes]
        have hw : weight T es (.inl ⟨i, y, x⟩) = im.inverr.px y x := by simp [weight, h1]
        rw [hw] at hne
        obtain ⟨⟨b', im'⟩, a1, a2, -, a3, a4⟩ := (setAll_ok T q).1.image i _ h1
        dsimp only at a2 a3 a4
        rw [hd i b' im' y x a1 (by rw [a3]; exact h2) (by rw [a3]; exact h3) (by rw [a4]; exact hne), pixel_linear hl hr q hq i y x b im h1 h2 h3]
      · have hlt := mem_range.1 (inr_mem_disjSum.1 hπ)
        obtain ⟨e1, e2, e3, v, ms, e4, e5, e6⟩ := entry_data T.par hr.prior es hes es[l] (List.getElem_mem hlt)
        simp only [seen, const, slopes, List.getElem?_eq_getElem hlt, Option.map_some, Option.getD_some]
        rw [← sum_mul, hω, one_mul, zero_add, sum_eq_single es[l].col]
        · rw [if_pos rfl, mul_one, ← e6]
          exact hc _ v e4 ms e5
        · intro k _ hk; rw [if_neg (Ne.symm hk), mul_zero]
        · intro h; exact absurd (mem_range.2 e1) h)
  have hfin := hid ((List.range (numberOfParams T.par)).map (fun k => ∑ j ∈ J, ω j * (p j).getD k 0)) q (by simp) hq (fun i b im y x h1 h2 h3 h4 => by
    rw [pixel_linear hl hr _ (by simp) i y x b im h1 h2 h3, pixel_linear hl hr q hq i y x b im h1 h2 h3,
      sum_congr rfl (fun k hk => by rw [getD_range _ _ k (mem_range.1 hk)])]
    congr 1
    have hw : weight T es (.inl ⟨i, y, x⟩) = im.inverr.px y x := by simp [weight, h1]
    exact hmean (.inl ⟨i, y, x⟩) (inl_mem_disjSum.2 ((mem_pixels T i y x).2 ⟨b, im, h1, h2, h3⟩)) (by rw [hw]; exact h4)) (fun k v h1 h2 => by
    obtain ⟨e, he, rfl⟩ := entry_exists T.par es hes k v h1 h2
    obtain ⟨l, hlt, rfl⟩ := List.getElem_of_mem he
    obtain ⟨e1, e2, -⟩ := entry_data T.par hr.prior es hes es[l] (List.getElem_mem hlt)
    have hw : weight T es (.inr l) = es[l].val := by simp [weight, List.getElem?_eq_getElem hlt]
    have := hmean (.inr l) (inr_mem_disjSum.2 (mem_range.2 hlt)) (by rw [hw]; exact e2)
    have hs : ∀ f : Nat → R, ∑ k ∈ range (numberOfParams T.par), f k * slopes D es (.inr l) k = f es[l].col := by
      intro f
      rw [sum_eq_single es[l].col]
      · simp [slopes, List.getElem?_eq_getElem hlt]
      · intro k _ hk
        simp [slopes, List.getElem?_eq_getElem hlt, Ne.symm hk]
      · intro h; exact absurd (mem_range.2 e1) h
    rw [hs, hs] at this
    rw [getD_range _ _ _ e1]
    exact this)
  intro k hk
  rw [← hfin, getD_range _ _ k hk]

/-- **C152, with noise.** A linear tractor and runs `j` of `optimize` on it, each with its own pixels `d j` and its own start values `s j`, and of
probability (or relative frequency) `ω j`.  If the mean of the pixels is the model with the values `q` of the thawed parameters (in pixels with non-zero
inverse error), priors are centred on `q`, and the parameters can be told from the model, then the mean of the values found is `q`. -/
theorem C152_unbiased [IsStrictOrderedRing R] {κ : Type} (S : Solver R) (hsq : Lsq.SqrtOK S.sqrt) (hS : Lsq.Solves S.lsqr) (W : World R M)
    (hooks : Tractor R M → Nat → Nat → Option (List (Deriv R))) (o : Opts) (T : Tractor R M) (base : Nat → Nat → Nat → R)
    (D : Nat → Nat → Nat → Nat → R) (hr : Ready W hooks T) (hl : Linear W hooks T base D) (J : Finset κ) (ω : κ → R) (hω : ∑ j ∈ J, ω j = 1)
    (d : κ → Nat → Nat → Nat → R) (s : κ → List R) (hrun : ∀ j ∈ J, Ready W hooks (setAll (withData T (d j)) (s j)) ∧
      Linear W hooks (setAll (withData T (d j)) (s j)) base D ∧ Options S o (setAll (withData T (d j)) (s j)) D)
    (q : List R) (hq : q.length = numberOfParams T.par) (hid : Identifiable W T) (hc : Centred T q) (hd : MeanIs W (setAll T q) J ω d) (A B : List R)
    (hA : ∀ a ∈ A, 0 ≤ a) (hs : (A ++ [1]).Pairwise (· ≤ ·)) :
    ∃ p : κ → List R, (∀ j ∈ J, (p j).length = numberOfParams T.par ∧
        ∃ r, optimize S W hooks o (A ++ 1 :: B) (setAll (withData T (d j)) (s j)) = (setAll (withData T (d j)) (p j), .ok r)) ∧
      ∀ k, k < numberOfParams T.par → ∑ j ∈ J, ω j * (p j).getD k 0 = q.getD k 0 := by
  have hex : ∀ j : κ, ∃ p : List R, j ∈ J → p.length = numberOfParams T.par ∧ Best W (setAll (withData T (d j)) p) ∧
      ∃ r, optimize S W hooks o (A ++ 1 :: B) (setAll (withData T (d j)) (s j)) = (setAll (withData T (d j)) p, .ok r) := by
    intro j
    by_cases hj : j ∈ J
    · obtain ⟨h1, h2, h3⟩ := hrun j hj
      obtain ⟨T', r, p, e1, e2, e3, e4, -⟩ := C143_best_partial S hsq hS W hooks o _ base D h1 h2 h3 A B hA hs
      rw [setAll_length, withData_par] at e2
      rw [setAll_setAll _ _ _ (by rw [withData_par]; exact e2)] at e3
      exact ⟨p, fun _ => ⟨e2, by rw [← e3]; exact e4, r, by rw [e1, e3]⟩⟩
    · exact ⟨[], fun h => absurd h hj⟩
  choose p hp using hex
  exact ⟨p, fun j hj => ⟨(hp j hj).1, (hp j hj).2.2⟩, truth_core W hooks T base D hr hl J ω hω d s (fun j hj => ⟨(hrun j hj).1, (hrun j hj).2.1⟩) q hq hid hc
    hd p (fun j hj => ⟨(hp j hj).1, (hp j hj).2.1⟩)⟩

/-- **C152, without noise.** If the pixels (those with non-zero inverse error) are the model with the values `q`, one call of `optimize` ends at `q`. -/
theorem C152_exact [IsStrictOrderedRing R] (S : Solver R) (hsq : Lsq.SqrtOK S.sqrt) (hS : Lsq.Solves S.lsqr) (W : World R M)
    (hooks : Tractor R M → Nat → Nat → Option (List (Deriv R))) (o : Opts) (T : Tractor R M) (base : Nat → Nat → Nat → R)
    (D : Nat → Nat → Nat → Nat → R) (hr : Ready W hooks T) (hl : Linear W hooks T base D) (ho : Options S o T D) (q : List R)
    (hq : q.length = numberOfParams T.par) (hid : Identifiable W T) (hc : Centred T q)
    (hd : ∀ i b im y x, T.images[i]? = some (b, im) → y < im.data.h → x < im.data.w → im.inverr.px y x ≠ 0 → im.data.px y x = pixel W (setAll T q) i y x)
    (A B : List R) (hA : ∀ a ∈ A, 0 ≤ a) (hs : (A ++ [1]).Pairwise (· ≤ ·)) :
    ∃ r, optimize S W hooks o (A ++ 1 :: B) T = (setAll T q, .ok r) := by
  obtain ⟨d, hdd⟩ : ∃ d : Nat → Nat → Nat → R, d = fun i y x => ((T.images[i]?).map (fun z => z.2.data.px y x)).getD 0 := ⟨_, rfl⟩
  have hself : withData T d = T := by
    have : (withData T d).images = T.images := by
      apply List.ext_getElem?
      intro i
      rw [withData_get]
      cases h : T.images[i]? with
      | none => rfl
      | some z =>
        have : d i = z.2.data.px := by funext y x; rw [hdd]; simp [h]
        rw [Option.map_some, this]
    change ({ T with images := (withData T d).images } : Tractor R M) = T
    rw [this]
  have hrun : setAll (withData T d) (getParams T.par) = T := by rw [hself, setAll_self]
  obtain ⟨p, h1, h2⟩ := C152_unbiased S hsq hS W hooks o T base D hr hl {()} (fun _ => 1) (by simp) (fun _ => d) (fun _ => getParams T.par)
    (fun _ _ => by rw [hrun]; exact ⟨hr, hl, ho⟩) q hq hid hc (by
      intro i b im y x e1 e2 e3 e4
      obtain ⟨im', f1, f2, f3⟩ := setAll_pixels T q i b im e1
      rw [← hd i b im' y x f1 (by rw [← f2]; exact e2) (by rw [← f2]; exact e3) (by rw [← f3]; exact e4)]
      simp [hdd, f1]) A B hA hs
  obtain ⟨e1, r, e2⟩ := h1 () (by simp)
  have hpq : p () = q := by
    apply List.ext_getElem (by rw [e1, hq])
    intro k k1 k2
    have := h2 k (by rw [← hq]; exact k2)
    simp only [sum_singleton, one_mul] at this
    rw [List.getD, List.getD, List.getElem?_eq_getElem k1, List.getElem?_eq_getElem k2] at this
    exact this
  rw [hrun, hself, hpq] at e2
  exact ⟨r, e2⟩

/-! Example: the tractor of C143 with the pixels `d`. -/

def exId (id : Nat) (sky : ℚ) (d : Nat → Nat → ℚ) : Image ℚ := { exI id sky with data := ⟨2, 2, d⟩ }

def exTd (d : Nat → Nat → Nat → ℚ) (s a b : ℚ) : Tractor ℚ Unit :=
  ⟨true, [(true, exId 0 s (d 0)), (false, exId 1 4 (d 1))], true, [(true, some ⟨10, exPar a b⟩), (true, none), (false, some ⟨11, exPar 5 6⟩)], none, false⟩

theorem exData (d : Nat → Nat → Nat → ℚ) (s a b : ℚ) : withData (exTr s a b) d = exTd d s a b := rfl

theorem exSetD (d : Nat → Nat → Nat → ℚ) (s a b s' a' b' : ℚ) : setAll (exTd d s a b) [s', a', b'] = exTd d s' a' b' := rfl

theorem exND (d : Nat → Nat → Nat → ℚ) (s a b : ℚ) : numberOfParams (exTd d s a b).par = 3 := rfl

theorem exMaskD (d : Nat → Nat → Nat → ℚ) (s a b : ℚ) (im : Image ℚ) : MasksOK (exTd d s a b) im := by
  intro masks h
  cases h

theorem exModelD (d : Nat → Nat → Nat → ℚ) (s a b : ℚ) (i : Nat) (c : Bool) (im : Image ℚ) (hi : (exTd d s a b).images[i]? = some (c, im)) (A : Arr ℚ)
    (hA : getModelImage exWorld (exTd d s a b) im none true = .ok A) (y x : Nat) (hy : y < im.data.h) (hx : x < im.data.w) :
    A.px y x = exBase i y x + (s * exD 0 i y x + a * exD 1 i y x + b * exD 2 i y x) := by
  obtain ⟨-, h⟩ := C29_model_image exWorld (exTd d s a b) im (exMaskD d s a b im) none
  obtain ⟨r, g1, -, -, g2⟩ := h [some ⟨0, 0, some ⟨1, 2, fun _ c => (([a, b] : List ℚ)[c]?).getD 0⟩⟩, none,
    some ⟨0, 0, some ⟨1, 2, fun _ c => (([5, 6] : List ℚ)[c]?).getD 0⟩⟩]
    (.cons ⟨none, .nomasks rfl, rfl⟩ (.cons rfl (.cons ⟨none, .nomasks rfl, rfl⟩ .nil))) true
  rw [hA] at g1
  injection g1 with g1
  subst g1
  rw [g2 y x hy hx]
  have hcase : (i = 0 ∧ im = exId 0 s (d 0)) ∨ (i = 1 ∧ im = exId 1 4 (d 1)) := by
    match i, hi with
    | 0, hi => simp [exTd] at hi; exact .inl ⟨rfl, hi.2.symm⟩
    | 1, hi => simp [exTd] at hi; exact .inr ⟨rfl, hi.2.symm⟩
    | n + 2, hi => simp [exTd] at hi
  rcases hcase with ⟨rfl, rfl⟩ | ⟨rfl, rfl⟩
  · have hy : y < 2 := hy
    have hx : x < 2 := hx
    interval_cases y <;> interval_cases x <;> simp [exWorld, exId, exI, exSky, exS, Sky.at, patchAt, Patch.at, exBase, exD] <;> ring
  · have hy : y < 2 := hy
    have hx : x < 2 := hx
    interval_cases y <;> interval_cases x <;> simp [exWorld, exId, exI, exSky, exS, Sky.at, patchAt, Patch.at, exBase, exD] <;> ring

theorem exReadyD (d : Nat → Nat → Nat → ℚ) (s a b : ℚ) : Ready exWorld exHooks (exTd d s a b) := by
  refine ⟨fun x _ => exMaskD d s a b x.2, ?_, ?_, ?_, ?_, ?_⟩
  · intro x hx
    simp only [exTd, List.mem_cons, List.not_mem_nil, or_false] at hx
    rcases hx with rfl | rfl <;> exact ⟨rfl, rfl, by show 2 * 2 < 2 ^ 31; norm_num⟩
  · simp [exTd, Tractor.par, PriorsOK, PriorsOKSubs, imagesSubs, catalogSubs, exId, exI, exPar]
  · intro i x _ _ y _ _ l hl
    cases hl
  · intro x hx _
    simp only [exTd, List.mem_cons, List.not_mem_nil, or_false] at hx
    rcases hx with rfl | rfl <;> rfl
  · intro src hs x _ ds hds
    have : src = ⟨10, exPar a b⟩ := by simpa [exTd] using hs
    subst this
    obtain ⟨mask, -, rfl⟩ := hds
    split
    · simp
    · exact Nat.le_refl 2

theorem exLocD (d : Nat → Nat → Nat → ℚ) (s a b : ℚ) (k o j : Nat) (h : Located (exTd d s a b) k o j) : (k = 0 ∧ o = 0 ∧ j = 0) ∨ (o = 2 ∧ k = 1 + j ∧ j < 2) := by
  obtain ⟨n, h1, h2, h3⟩ := h
  have hb : blocks (exTd d s a b) = [1, 0, 2, 0, 0] := rfl
  rw [hb] at h1 h3
  match o with
  | 0 => simp at h1 h3; omega
  | 1 => simp at h1; omega
  | 2 => simp at h1 h3; omega
  | 3 => simp at h1; omega
  | 4 => simp at h1; omega
  | o + 5 => simp at h1

theorem exLinearD (d : Nat → Nat → Nat → ℚ) (s a b : ℚ) : Linear exWorld exHooks (exTd d s a b) exBase exD := by
  refine ⟨?_, ?_, ?_⟩
  · intro p hp i c im hi A hA y x hy hx
    rw [exND] at hp ⊢
    obtain ⟨s', a', b', rfl⟩ := exList p hp
    rw [exSetD] at hi hA
    rw [exModelD d s' a' b' i c im hi A hA y x hy hx]
    simp [Finset.sum_range_succ]
  · intro k o' j c src hloc hc i c' im hi ds hds y x hy hx
    rcases exLocD d s a b _ _ _ hloc with ⟨-, h, -⟩ | ⟨h, rfl, hj⟩
    · simp [exTd] at h
    · obtain ⟨mask, -, rfl⟩ := hds
      rw [if_neg (by simp [exTd])]
      have hyx : y < 2 ∧ x < 2 := by
        match i, hi with
        | 0, hi => simp [exTd] at hi; obtain ⟨-, rfl⟩ := hi; exact ⟨hy, hx⟩
        | 1, hi => simp [exTd] at hi; obtain ⟨-, rfl⟩ := hi; exact ⟨hy, hx⟩
        | n + 2, hi => simp [exTd] at hi
      obtain ⟨hy2, hx2⟩ := hyx
      interval_cases j <;> interval_cases y <;> interval_cases x <;> simp [exWorld, patchAt, Patch.at, exD]
  · intro k o j c im hloc ho dd hd
    left
    rcases exLocD d s a b _ _ _ hloc with ⟨rfl, rfl, rfl⟩ | ⟨rfl, -, -⟩
    · simp [exTd] at ho
      obtain ⟨-, rfl⟩ := ho
      have : reported (exHooks (exTd d s a b) 0) (exId 0 s (d 0)).par = [.false] := rfl
      rw [this] at hd
      simp at hd
      refine ⟨hd.symm, ?_⟩
      have : (getStepSizes (exTd d s a b).par)[0]? = some (1 / 2) := rfl
      rw [this]
      simp
    · simp [exTd] at ho

theorem exOptionsD (S : Solver ℚ) (d : Nat → Nat → Nat → ℚ) (s a b : ℚ) : Options S ⟨false, true, true⟩ (exTd d s a b) exD := by
  refine ⟨.inl rfl, by simp, fun _ _ => ?_⟩
  rw [exND]
  have : effect ⟨false, true, true⟩ (exTd d s a b) exD 2 = 18 := by
    have hw : widths ⟨false, true, true⟩ (exTd d s a b) 2 = [] := rfl
    rw [effect, hw]
    simp [exTd, exId, exI, List.zipIdx, Finset.sum_range_succ, exD, Arr.ofLists]
    norm_num
  rw [this]
  norm_num


theorem exIdent (s a b : ℚ) : Identifiable exWorld (exTr s a b) := by
  intro p p' hp hp' h _
  obtain ⟨s1, a1, b1, rfl⟩ := exList p hp
  obtain ⟨s2, a2, b2, rfl⟩ := exList p' hp'
  have key : ∀ y x, y < 2 → x < 2 → (Arr.ofLists [[1, 3], [2, 1]] 2 : Arr ℚ).px y x ≠ 0 →
      s1 * exD 0 0 y x + a1 * exD 1 0 y x + b1 * exD 2 0 y x = s2 * exD 0 0 y x + a2 * exD 1 0 y x + b2 * exD 2 0 y x := by
    intro y x hy hx hne
    have e := h 0 true (exI 0 s) y x rfl hy hx hne
    rw [pixel_linear (exLinear s a b) (exReady s a b) _ hp 0 y x true (exI 0 s) rfl hy hx,
      pixel_linear (exLinear s a b) (exReady s a b) _ hp' 0 y x true (exI 0 s) rfl hy hx, exN] at e
    simp [Finset.sum_range_succ] at e
    linarith
  have k1 := key 1 0 (by norm_num) (by norm_num) (by decide +kernel)
  have k2 := key 0 0 (by norm_num) (by norm_num) (by decide +kernel)
  have k3 := key 0 1 (by norm_num) (by norm_num) (by decide +kernel)
  simp [exD] at k1 k2 k3
  subst k1
  simp at k2 k3
  rw [k2, k3]

/-- The model with sky 7 and the pixels `a` and 2. -/
def exTruth (a : ℚ) (i y x : Nat) : ℚ := exBase i y x + (7 * exD 0 i y x + a * exD 1 i y x + 2 * exD 2 i y x)

theorem exPixel (s a b a' : ℚ) (i y x : Nat) (c : Bool) (im : Image ℚ) (h : (exTr s a b).images[i]? = some (c, im)) (hy : y < im.data.h)
    (hx : x < im.data.w) : pixel exWorld (setAll (exTr s a b) [7, a', 2]) i y x = exTruth a' i y x := by
  rw [pixel_linear (exLinear s a b) (exReady s a b) _ rfl i y x c im h hy hx, exN]
  simp [Finset.sum_range_succ, exTruth]

/-- Noise of mean zero. -/
def exNoise (j : Bool) (i y x : Nat) : ℚ := (if j then 1 else -1) * (i + 2 * y + 3 * x + 1)

def exStart (j : Bool) : List ℚ := if j then [0, 0, 0] else [9, 1, -4]

/-- Two runs with noise of opposite signs and different starts: the mean of the values found is the truth. -/
example : ∃ (lsqr : Lsq.Problem ℚ → List ℚ) (p : Bool → List ℚ), (∀ j, ∃ r,
    optimize ⟨id, 0, lsqr⟩ exWorld exHooks ⟨false, true, true⟩ [1 / 4, 1 / 2, 1, 2]
      (setAll (exTd (fun i y x => exTruth 3 i y x + exNoise j i y x) 3 1 2) (exStart j)) =
      (setAll (exTd (fun i y x => exTruth 3 i y x + exNoise j i y x) 3 1 2) (p j), .ok r)) ∧
    (1 / 2) * (p true).getD 0 0 + (1 / 2) * (p false).getD 0 0 = 7 ∧ (1 / 2) * (p true).getD 1 0 + (1 / 2) * (p false).getD 1 0 = 3 ∧
    (1 / 2) * (p true).getD 2 0 + (1 / 2) * (p false).getD 2 0 = 2 := by
  obtain ⟨lsqr, hl⟩ := Lsq.solver_exists (R := ℚ)
  obtain ⟨p, h1, h2⟩ := C152_unbiased (κ := Bool) ⟨id, 0, lsqr⟩ (fun x hx => hx) hl exWorld exHooks ⟨false, true, true⟩ (exTr 3 1 2) exBase exD
    (exReady 3 1 2) (exLinear 3 1 2) Finset.univ (fun _ => 1 / 2) (by simp) (fun j i y x => exTruth 3 i y x + exNoise j i y x) exStart
    (fun j _ => by
      rw [exData]
      cases j
      · rw [show exStart false = [9, 1, -4] from rfl, exSetD]
        exact ⟨exReadyD _ _ _ _, exLinearD _ _ _ _, exOptionsD _ _ _ _ _⟩
      · rw [show exStart true = [0, 0, 0] from rfl, exSetD]
        exact ⟨exReadyD _ _ _ _, exLinearD _ _ _ _, exOptionsD _ _ _ _ _⟩)
    [7, 3, 2] rfl (exIdent 3 1 2) (by
      intro k v hv ms hms
      have ht : thawedPriors (exTr 3 1 2).par = [(3, []), (1, [(3, 2)]), (2, [])] := by decide +kernel
      rw [ht] at hv
      match k, hv with
      | 0, hv => cases hv; cases hms
      | 1, hv => cases hv; simp at hms; rw [hms]; rfl
      | 2, hv => cases hv; cases hms
      | k + 3, hv => simp at hv) (by
      intro i b im y x e1 e2 e3 _
      obtain ⟨im', f1, f2, -⟩ := setAll_pixels (exTr 3 1 2) _ i b im e1
      rw [exPixel 3 1 2 3 i y x b im' f1 (by rw [← f2]; exact e2) (by rw [← f2]; exact e3)]
      simp [exNoise]
      ring) [1 / 4, 1 / 2] [2] (by intro a ha; simp at ha; rcases ha with rfl | rfl <;> norm_num) (by simp [List.pairwise_cons]; norm_num)
  refine ⟨lsqr, p, fun j => (h1 j (Finset.mem_univ j)).2, ?_, ?_, ?_⟩
  · have := h2 0 (by rw [exN]; norm_num)
    simpa [add_comm] using this
  · have := h2 1 (by rw [exN]; norm_num)
    simpa [add_comm] using this
  · have := h2 2 (by rw [exN]; norm_num)
    simpa [add_comm] using this

theorem exCase (d : Nat → Nat → Nat → ℚ) (s a b : ℚ) (i : Nat) (c : Bool) (im : Image ℚ) (h : (exTd d s a b).images[i]? = some (c, im)) :
    ∃ im', (exTr s a b).images[i]? = some (c, im') ∧ im.data = ⟨im'.data.h, im'.data.w, d i⟩ ∧ im.inverr = im'.inverr := by
  match i, h with
  | 0, h => cases h; exact ⟨_, rfl, rfl, rfl⟩
  | 1, h => cases h; exact ⟨_, rfl, rfl, rfl⟩
  | i + 2, h => cases h

theorem exIdentD (d : Nat → Nat → Nat → ℚ) (s a b : ℚ) : Identifiable exWorld (exTd d s a b) := by
  intro p p' hp hp' h _
  refine exIdent s a b p p' hp hp' (fun i c im y x h1 h2 h3 h4 => ?_) ?_
  · have e : ∃ im', (exTd d s a b).images[i]? = some (c, im') ∧ im'.data = ⟨im.data.h, im.data.w, d i⟩ ∧ im'.inverr = im.inverr := by
      match i, h1 with
      | 0, h => cases h; exact ⟨_, rfl, rfl, rfl⟩
      | 1, h => cases h; exact ⟨_, rfl, rfl, rfl⟩
      | i + 2, h => cases h
    obtain ⟨im', e1, e2, e3⟩ := e
    have := h i c im' y x e1 (by rw [e2]; exact h2) (by rw [e2]; exact h3) (by rw [e3]; exact h4)
    rw [pixel_linear (exLinearD d s a b) (exReadyD d s a b) p hp i y x c im' e1 (by rw [e2]; exact h2) (by rw [e2]; exact h3),
      pixel_linear (exLinearD d s a b) (exReadyD d s a b) p' hp' i y x c im' e1 (by rw [e2]; exact h2) (by rw [e2]; exact h3)] at this
    rw [pixel_linear (exLinear s a b) (exReady s a b) p hp i y x c im h1 h2 h3, pixel_linear (exLinear s a b) (exReady s a b) p' hp' i y x c im h1 h2 h3]
    exact this
  · assumption

theorem exPixelD (d : Nat → Nat → Nat → ℚ) (s a b a' : ℚ) (i y x : Nat) (c : Bool) (im : Image ℚ) (h : (exTd d s a b).images[i]? = some (c, im))
    (hy : y < im.data.h) (hx : x < im.data.w) : pixel exWorld (setAll (exTd d s a b) [7, a', 2]) i y x = exTruth a' i y x := by
  rw [pixel_linear (exLinearD d s a b) (exReadyD d s a b) _ rfl i y x c im h hy hx, exND]
  simp [Finset.sum_range_succ, exTruth]

/-- Pixels of the model with sky 7 and pixels 3 (the mean of the prior) and 2: found from any start. -/
example : ∃ (lsqr : Lsq.Problem ℚ → List ℚ) (r : Num ℚ × ℚ), optimize ⟨id, 0, lsqr⟩ exWorld exHooks ⟨false, true, true⟩ [1 / 4, 1 / 2, 1, 2]
    (exTd (exTruth 3) 9 1 (-4)) = (exTd (exTruth 3) 7 3 2, .ok r) := by
  obtain ⟨lsqr, hl⟩ := Lsq.solver_exists (R := ℚ)
  obtain ⟨r, h⟩ := C152_exact ⟨id, 0, lsqr⟩ (fun x hx => hx) hl exWorld exHooks ⟨false, true, true⟩ (exTd (exTruth 3) 9 1 (-4)) exBase exD
    (exReadyD _ _ _ _) (exLinearD _ _ _ _) (exOptionsD _ _ _ _ _) [7, 3, 2] rfl (exIdentD _ _ _ _) (by
      intro k v hv ms hms
      have ht : thawedPriors (exTd (exTruth 3) 9 1 (-4)).par = [(9, []), (1, [(3, 2)]), (-4, [])] := by decide +kernel
      rw [ht] at hv
      match k, hv with
      | 0, hv => cases hv; cases hms
      | 1, hv => cases hv; simp at hms; rw [hms]; rfl
      | 2, hv => cases hv; cases hms
      | k + 3, hv => simp at hv) (by
      intro i b im y x e1 e2 e3 _
      rw [exPixelD _ _ _ _ _ i y x b im e1 e2 e3]
      obtain ⟨im', -, f, -⟩ := exCase _ _ _ _ i b im e1
      rw [f]) [1 / 4, 1 / 2] [2] (by intro a ha; simp at ha; rcases ha with rfl | rfl <;> norm_num) (by simp [List.pairwise_cons]; norm_num)
  exact ⟨lsqr, r, h⟩

/-- **C152 needs priors centred on the truth**: a tractor whose pixels are exactly those of the model with the values `q`, with a prior of another mean
on one of them: `optimize`, with any exact solver, ends elsewhere. -/
theorem C152_prior_false : ∃ (T : Tractor ℚ Unit) (q : List ℚ), q.length = numberOfParams T.par ∧ Identifiable exWorld T ∧
    (∀ i b im y x, T.images[i]? = some (b, im) → y < im.data.h → x < im.data.w → im.data.px y x = pixel exWorld (setAll T q) i y x) ∧
    ∀ S : Solver ℚ, Lsq.SqrtOK S.sqrt → Lsq.Solves S.lsqr → ∃ T' r, optimize S exWorld exHooks ⟨false, true, true⟩ [1] T = (T', .ok r) ∧
      T' ≠ setAll T q := by
  refine ⟨exTd (exTruth 5) 1 1 1, [7, 5, 2], rfl, exIdentD _ _ _ _, ?_, ?_⟩
  · intro i b im y x e1 e2 e3
    rw [exPixelD _ _ _ _ _ i y x b im e1 e2 e3]
    obtain ⟨im', -, f, -⟩ := exCase _ _ _ _ i b im e1
    rw [f]
  · intro S h1 h2
    obtain ⟨T', r, p, e1, -, -, e4, -⟩ := C143_best_partial S h1 h2 exWorld exHooks ⟨false, true, true⟩ (exTd (exTruth 5) 1 1 1) exBase exD
      (exReadyD _ _ _ _) (exLinearD _ _ _ _) (exOptionsD _ _ _ _ _) [] [] (by simp) (by simp)
    refine ⟨T', r, e1, ?_⟩
    rintro rfl
    obtain ⟨L, l1, l2⟩ := e4
    obtain ⟨L', l3, l4⟩ := l2 [7, 24 / 5, 2] rfl
    have f1 : (logProb exWorld (setAll (exTd (exTruth 5) 1 1 1) [7, 5, 2])).toOption = some (.fin L) := by rw [l1]; rfl
    have f2 : (logProb exWorld (setAll (setAll (exTd (exTruth 5) 1 1 1) [7, 5, 2]) [7, 24 / 5, 2])).toOption = some (.fin L') := by rw [l3]; rfl
    have f : (match (logProb exWorld (setAll (setAll (exTd (exTruth 5) 1 1 1) [7, 5, 2]) [7, 24 / 5, 2])).toOption,
        (logProb exWorld (setAll (exTd (exTruth 5) 1 1 1) [7, 5, 2])).toOption with
      | some (.fin x), some (.fin y) => decide (y < x)
      | _, _ => false) = true := by decide +kernel
    rw [f1, f2] at f
    simp only [decide_eq_true_eq] at f
    linarith

end Verif.Fit
