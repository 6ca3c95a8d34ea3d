import Verif.Fit.Lemmas4
import Verif.Fpfit.Recover2
import Mathlib.Data.Finset.Sum

/-!
# Optimizing images with known truth (C152): definitions and lemmas
-/

namespace Verif.Fit

open Verif Params Patches Engine Finset

variable {R M : Type}

/-- The tractor with other pixel values in its images. -/
def withData (T : Tractor R M) (d : Nat → Nat → Nat → R) : Tractor R M :=
  { T with images := T.images.mapIdx (fun i x => (x.1, { x.2 with data := ⟨x.2.data.h, x.2.data.w, d i⟩ })) }

theorem imagesSubs_congr : ∀ (l l' : List (Bool × Image R)), List.Forall₂ (fun x x' => x'.1 = x.1 ∧ x'.2.par = x.2.par) l l' → imagesSubs l' = imagesSubs l := by
  intro l l' h
  induction h with
  | nil => rfl
  | @cons a b l l' h1 _ ih =>
    obtain ⟨b1, i1⟩ := a
    obtain ⟨b2, i2⟩ := b
    obtain ⟨h1, h2⟩ := h1
    dsimp only at h1 h2
    subst h1
    simp only [imagesSubs, ih, h2]

theorem withData_get (T : Tractor R M) (d : Nat → Nat → Nat → R) (i : Nat) :
    (withData T d).images[i]? = (T.images[i]?).map (fun x => (x.1, { x.2 with data := ⟨x.2.data.h, x.2.data.w, d i⟩ })) := by
  unfold withData
  dsimp only
  rw [List.getElem?_mapIdx]

theorem withData_par (T : Tractor R M) (d : Nat → Nat → Nat → R) : (withData T d).par = T.par := by
  unfold Tractor.par
  have : imagesSubs (withData T d).images = imagesSubs T.images := by
    apply imagesSubs_congr
    rw [List.forall₂_iff_get]
    refine ⟨by simp [withData], fun i h1 h2 => ?_⟩
    simp [withData]
  rw [this]
  rfl

/-- The height and width of an image. -/
def hgt (T : Tractor R M) (i : Nat) : Nat := ((T.images[i]?).map (·.2.data.h)).getD 0
def wid (T : Tractor R M) (i : Nat) : Nat := ((T.images[i]?).map (·.2.data.w)).getD 0

/-- All pixels of all images. -/
def pixels (T : Tractor R M) : Finset (Σ _ : Nat, Σ _ : Nat, Nat) :=
  (range T.images.length).sigma (fun i => (range (hgt T i)).sigma (fun _ => range (wid T i)))

theorem mem_pixels (T : Tractor R M) (i y x : Nat) :
    (⟨i, y, x⟩ : Σ _ : Nat, Σ _ : Nat, Nat) ∈ pixels T ↔ ∃ b im, T.images[i]? = some (b, im) ∧ y < im.data.h ∧ x < im.data.w := by
  unfold pixels hgt wid
  simp only [mem_sigma, mem_range]
  constructor
  · rintro ⟨h1, h2, h3⟩
    rw [List.getElem?_eq_getElem h1] at h2 h3
    exact ⟨_, _, List.getElem?_eq_getElem h1, h2, h3⟩
  · rintro ⟨b, im, h1, h2, h3⟩
    have hi : i < T.images.length := (List.getElem?_eq_some_iff.1 h1).1
    rw [h1]
    exact ⟨hi, h2, h3⟩

/-- An image of a run (`setAll (withData T d) s`). -/
theorem run_get (T : Tractor R M) (d : Nat → Nat → Nat → R) (s : List R) (i : Nat) (b : Bool) (im : Image R) (h : T.images[i]? = some (b, im)) :
    ∃ im', (setAll (withData T d) s).images[i]? = some (b, im') ∧ im'.data = ⟨im.data.h, im.data.w, d i⟩ ∧ im'.inverr = im.inverr := by
  have hw : (withData T d).images[i]? = some (b, { im with data := ⟨im.data.h, im.data.w, d i⟩ }) := by rw [withData_get, h]; rfl
  obtain ⟨x', h1, h2, -, h3, h4⟩ := (setAll_ok (withData T d) s).1.image i _ hw
  exact ⟨x'.2, by rw [h1]; exact congrArg some (Prod.ext h2 rfl), h3, h4⟩

variable [Field R] [LinearOrder R]

/-- The weight of an observation: the inverse error of a pixel, the inverse width of a prior. -/
def weight (T : Tractor R M) (es : List (Entry R)) : (Σ _ : Nat, Σ _ : Nat, Nat) ⊕ Nat → R
  | .inl π => ((T.images[π.1]?).map (fun x => x.2.inverr.px π.2.1 π.2.2)).getD 0
  | .inr l => ((es[l]?).map (·.val)).getD 0

/-- What was observed: the pixel, the mean of the prior. -/
def seen (d : Nat → Nat → Nat → R) (es : List (Entry R)) : (Σ _ : Nat, Σ _ : Nat, Nat) ⊕ Nat → R
  | .inl π => d π.1 π.2.1 π.2.2
  | .inr l => ((es[l]?).map (·.mu)).getD 0

/-- The constant part of the model. -/
def const (base : Nat → Nat → Nat → R) : (Σ _ : Nat, Σ _ : Nat, Nat) ⊕ Nat → R
  | .inl π => base π.1 π.2.1 π.2.2
  | .inr _ => 0

/-- The derivatives of the model. -/
def slopes (D : Nat → Nat → Nat → Nat → R) (es : List (Entry R)) : (Σ _ : Nat, Σ _ : Nat, Nat) ⊕ Nat → Nat → R
  | .inl π, k => D k π.1 π.2.1 π.2.2
  | .inr l, k => if ((es[l]?).map (·.col)).getD 0 = k then 1 else 0

/-- All observations. -/
def obs (T : Tractor R M) (es : List (Entry R)) : Finset ((Σ _ : Nat, Σ _ : Nat, Nat) ⊕ Nat) := (pixels T).disjSum (range es.length)

/-- The entries spelled out. -/
theorem entry_data (t : Par R) (h : PriorsOK t) (es : List (Entry R)) (hes : ColSpec es (thawedPriors t)) (e : Entry R) (he : e ∈ es) :
    e.col < numberOfParams t ∧ e.val ≠ 0 ∧ e.b = e.val * (e.mu - (getParams t).getD e.col 0) ∧
      ∃ x ms, (thawedPriors t)[e.col]? = some x ∧ ms ∈ x.2 ∧ ms.1 = e.mu := by
  have hlt : e.col < numberOfParams t := by
    have := hes.lt e he
    rwa [thawedPriors_length] at this
  have hm : Entry.dat e ∈ (es.filter (fun e' => e'.col = e.col)).map Entry.dat := List.mem_map_of_mem (List.mem_filter.2 ⟨he, by simp⟩)
  rw [hes] at hm
  cases hx : (thawedPriors t)[e.col]? with
  | none => rw [hx] at hm; simp at hm
  | some x =>
    rw [hx] at hm
    simp only [Option.map_some, Option.getD_some, expected, List.mem_map] at hm
    obtain ⟨ms, h1, h2⟩ := hm
    simp only [Entry.dat, Prod.mk.injEq] at h2
    obtain ⟨a1, a2, a3⟩ := h2
    have hs := thawed_nz t h _ x hx ms h1
    have hg : (getParams t).getD e.col 0 = x.1 := by
      rw [← thawedPriors_vals, List.getD, List.getElem?_map, hx]; rfl
    refine ⟨hlt, by rw [← a2]; exact one_div_ne_zero hs, ?_, x, ms, rfl, h1, a1⟩
    rw [hg, ← a1, ← a2, ← a3]
    field_simp
    ring

omit [LinearOrder R] in
/-- Every prior has an entry. -/
theorem entry_exists (t : Par R) (es : List (Entry R)) (hes : ColSpec es (thawedPriors t)) (k : Nat) (x : R × List (R × R))
    (hx : (thawedPriors t)[k]? = some x) (hne : x.2 ≠ []) : ∃ e ∈ es, e.col = k := by
  have h := hes k
  rw [hx] at h
  obtain ⟨e, he⟩ : ∃ e, e ∈ es.filter (fun e => e.col = k) := by
    apply List.exists_mem_of_ne_nil
    intro h0
    rw [h0] at h
    simp only [List.map_nil, Option.map_some, Option.getD_some, expected] at h
    exact hne (List.map_eq_nil_iff.1 h.symm)
  have := List.mem_filter.1 he
  exact ⟨e, this.1, by simpa using this.2⟩

/-- The log-probability of a run as a sum over observations. -/
theorem logProb_run [IsStrictOrderedRing R] (T : Tractor R M) (hp : PriorsOK T.par) :
    ∃ (es : List (Entry R)) (C : R), ColSpec es (thawedPriors T.par) ∧
      ∀ (W : World R M) (hooks : Tractor R M → Nat → Nat → Option (List (Deriv R))) (base : Nat → Nat → Nat → R) (D : Nat → Nat → Nat → Nat → R)
        (d : Nat → Nat → Nat → R) (s : List R), Ready W hooks (setAll (withData T d) s) → Linear W hooks (setAll (withData T d) s) base D →
        ∀ q : List R, q.length = numberOfParams T.par → logProb W (setAll (withData T d) q) = .ok (.fin (C - (1 / 2) *
          ∑ π ∈ obs T es, Fpfit.resid (range (numberOfParams T.par)) (weight T es) (seen d es) (const base) (slopes D es) (fun k => q.getD k 0) π *
            Fpfit.resid (range (numberOfParams T.par)) (weight T es) (seen d es) (const base) (slopes D es) (fun k => q.getD k 0) π)) := by
  obtain ⟨X, es, -, -, -, h4, L, -, -, h6⟩ := logPrior_step T.par hp
  refine ⟨es, L + (1 / 2) * entryChi es (List.replicate (numberOfParams T.par) 0), h4, ?_⟩
  intro W hooks base D d s hr hl q hq
  have hn : numberOfParams (setAll (withData T d) s).par = numberOfParams T.par := by rw [setAll_length, withData_par]
  have hq' : q.length = numberOfParams (setAll (withData T d) s).par := by rw [hn]; exact hq
  have hlik := likelihood_at hl hr q hq'
  rw [setAll_setAll _ s q (by rw [withData_par]; exact hq), hn] at hlik
  -- the prior
  have hp0 : (getParams T.par).length = numberOfParams T.par := getParams_length _
  obtain ⟨dd, hdd, hddq⟩ : ∃ X : List R, X.length = numberOfParams T.par ∧ List.zipWith (· + ·) (getParams T.par) X = q := by
    refine ⟨List.zipWith (fun a b => a - b) q (getParams T.par), by rw [List.length_zipWith, hq, hp0, Nat.min_self], ?_⟩
    apply List.ext_getElem
    · simp [hq, hp0]
    · intro i i1 i2
      simp
  have hpr := h6 dd hdd
  rw [hddq] at hpr
  have hpar : getLogPrior (setAll (withData T d) q).par =
      .ok (L + (1 / 2) * entryChi es (List.replicate (numberOfParams T.par) 0) - (1 / 2) * entryChi es dd) := by
    rw [(setAll_ok (withData T d) q).2, withData_par, hpr]
  have hchi : entryChi es dd = ∑ l ∈ range es.length,
      Fpfit.resid (range (numberOfParams T.par)) (weight T es) (seen d es) (const base) (slopes D es) (fun k => q.getD k 0) (.inr l) *
        Fpfit.resid (range (numberOfParams T.par)) (weight T es) (seen d es) (const base) (slopes D es) (fun k => q.getD k 0) (.inr l) := by
    unfold entryChi
    rw [sum_getElem]
    refine sum_congr rfl (fun l hl => ?_)
    have hl := mem_range.1 hl
    rw [List.getElem?_eq_getElem hl]
    obtain ⟨e1, e2, e3, -⟩ := entry_data T.par hp es h4 es[l] (List.getElem_mem hl)
    have hsl : ∑ k ∈ range (numberOfParams T.par), q.getD k 0 * slopes D es (.inr l) k = q.getD es[l].col 0 := by
      rw [sum_eq_single es[l].col]
      · simp [slopes, List.getElem?_eq_getElem hl]
      · intro k _ hk
        simp [slopes, List.getElem?_eq_getElem hl, Ne.symm hk]
      · intro h; exact absurd (mem_range.2 e1) h
    have hr' : Fpfit.resid (range (numberOfParams T.par)) (weight T es) (seen d es) (const base) (slopes D es) (fun k => q.getD k 0) (.inr l) =
        es[l].val * (es[l].mu - q.getD es[l].col 0) := by
      unfold Fpfit.resid
      rw [hsl]
      simp [weight, seen, const, List.getElem?_eq_getElem hl]
    rw [hr', Option.map_some, Option.getD_some, e3]
    have : q.getD es[l].col 0 = (getParams T.par).getD es[l].col 0 + dd.getD es[l].col 0 := by
      rw [← hddq, getD_add _ _ (numberOfParams T.par) _ hp0 hdd]
    rw [this]
    rw [List.getD, List.getD]
    ring
  have hpix : ∑ i ∈ range T.images.length, residual (setAll (withData T d) s)
      (fun i y x => base i y x + ∑ k ∈ range (numberOfParams T.par), q.getD k 0 * D k i y x) i =
      ∑ π ∈ pixels T, Fpfit.resid (range (numberOfParams T.par)) (weight T es) (seen d es) (const base) (slopes D es) (fun k => q.getD k 0) (.inl π) *
        Fpfit.resid (range (numberOfParams T.par)) (weight T es) (seen d es) (const base) (slopes D es) (fun k => q.getD k 0) (.inl π) := by
    unfold pixels
    rw [sum_sigma]
    refine sum_congr rfl (fun i hi => ?_)
    have hi := mem_range.1 hi
    have hT : T.images[i]? = some (T.images[i].1, T.images[i].2) := List.getElem?_eq_getElem hi
    obtain ⟨im', a1, a2, a3⟩ := run_get T d s i _ _ hT
    rw [sum_sigma]
    unfold residual hgt wid
    rw [a1, hT]
    simp only [Option.map_some, Option.getD_some, a2, a3]
    refine sum_congr rfl (fun y _ => sum_congr rfl (fun x _ => ?_))
    simp only [Fpfit.resid, weight, seen, const, slopes, hT, Option.map_some, Option.getD_some]
    ring
  have hlen : (setAll (withData T d) s).images.length = T.images.length := by
    rw [← (setAll_ok (withData T d) s).1.images.length_eq]; simp [withData]
  rw [hlen, hpix] at hlik
  unfold logProb
  rw [hpar]
  simp only [getLogProb, hlik, Except.map, Num.add, Num.isNan, Bool.false_eq_true, if_false]
  unfold obs
  rw [sum_disjSum, hchi]
  congr 2
  ring

end Verif.Fit
