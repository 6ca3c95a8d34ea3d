import Verif.Lsq.Lemmas8
import Mathlib.Algebra.Order.Ring.Rat
import Mathlib.Tactic.NormNum

/-!
# Properties of the least-squares problem (C37-C40, C64, C65)
-/

namespace Verif.Lsq

open Verif Verif.Params Verif.Patches

variable {R : Type} [Field R] [LinearOrder R] [IsStrictOrderedRing R]

/-! ## C37 -/

omit [IsStrictOrderedRing R] in
/-- **C37.** The problem handed to the solver (no scaling, no sharing): one column per parameter; every
image that occurs gets its own row range, the ranges are disjoint and fill the first `n` rows; the row of
pixel (x, y) of image `i` holds the residual of that pixel and in column `k` the derivative of parameter
`k` there times the inverse error; the prior entries follow in their own rows. -/
theorem C37_layout (imgs : Nat → Img R) (ds : Derivs R) (hI : ImagesOK imgs ds)
    (prior : Option (PriorDerivs R)) (es : List (Entry R)) (hes : PriorOK ds.length prior es) :
    ∃ (P : Problem R) (n : Nat) (off : Nat → Nat),
      (∀ sqrt tiny lsqr,
        (getUpdateDirection sqrt tiny lsqr imgs ds prior false none = .ok none ∧ P.cells = []) ∨
        (getUpdateDirection sqrt tiny lsqr imgs ds prior false none = .ok (some (lsqr P)) ∧ P.cells ≠ [])) ∧
      P.ncols = ds.length ∧ P.nrows = n + es.length ∧ n = ∑ i ∈ usedImages ds, (imgs i).h * (imgs i).w ∧
      (∀ i ∈ usedImages ds, off i + (imgs i).h * (imgs i).w ≤ n ∧
        ∀ j ∈ usedImages ds, i ≠ j →
          off i + (imgs i).h * (imgs i).w ≤ off j ∨ off j + (imgs j).h * (imgs j).w ≤ off i) ∧
      (∀ i ∈ usedImages ds, ∀ y x : Nat, y < (imgs i).h → x < (imgs i).w →
        P.b (off i + (y * (imgs i).w + x)) = (imgs i).chi.px y x ∧
        ∀ (k : Nat) param, ds[k]? = some param →
          P.entry (off i + (y * (imgs i).w + x)) k = slope imgs param i y x) ∧
      (∀ e ∈ es, P.b (n + e.row) = e.b ∧
        ∀ k : Nat, P.entry (n + e.row) k = if k = e.col then e.val else 0) := by
  obtain ⟨bs, offs, n, pb, b, hasm, hrhs, hgood, hl, hm, hpix, hpri⟩ :=
    assemble_layout imgs ds prior hI es hes
  have hoff : ∀ i ∈ usedImages ds, ∃ r, (i, r) ∈ offs ∧ lookupOff offs i = .ok r := by
    intro i hi
    obtain ⟨e, he, rfl⟩ := List.mem_map.1 ((hm i).2 hi)
    exact ⟨e.2, he, lookupOff_mem hl e he⟩
  let off : Nat → Nat := fun i => match lookupOff offs i with | .ok r => r | .error _ => 0
  have hoff' : ∀ i ∈ usedImages ds, (i, off i) ∈ offs := by
    intro i hi
    obtain ⟨r, hr, hlo⟩ := hoff i hi
    simpa only [off, hlo] using hr
  refine ⟨⟨n + es.length, ds.length, cellsOf bs, b⟩, n, off, ?_, rfl, rfl, ?_, ?_, ?_, ?_⟩
  · intro sqrt tiny lsqr
    simp only [getUpdateDirection, hasm, Bool.false_eq_true, false_and, if_false, applyMap, hrhs]
    cases hb : bs with
    | nil => left; simp [cellsOf]
    | cons blk bs' =>
      right
      rw [← hb]
      have hE : ¬ bs.isEmpty = true := by rw [hb]; simp
      rw [if_neg hE, if_neg hE, mkProblem_ok _ _ bs b hgood]
      refine ⟨rfl, ?_⟩
      have hg := (hgood blk (by rw [hb]; simp)).2
      intro h0
      have : cellsOf bs = [] := h0
      rw [hb] at this
      simp only [cellsOf, List.flatMap_cons, List.append_eq_nil_iff, List.map_eq_nil_iff] at this
      have hz := congrArg List.length this.1
      rw [List.length_zip, hg.len, Nat.min_self] at hz
      exact hg.ne (List.eq_nil_of_length_eq_zero hz)
  · have h1 : ∀ {offs : List (Nat × Nat)} {n : Nat}, Layout (fun i => (imgs i).npix) offs n →
        n = (offs.map (fun e => (imgs e.1).npix)).sum := by
      intro offs n h
      induction h with
      | nil => rfl
      | snoc h _ ih => rw [List.map_append, List.sum_append, ← ih]; simp
    have hset : usedImages ds = (offs.map (·.1)).toFinset := by
      ext i; rw [List.mem_toFinset, hm]
    rw [hset, List.sum_toFinset _ hl.nodup, List.map_map, h1 hl]
    rfl
  · intro i hi
    refine ⟨hl.le _ (hoff' i hi), fun j hj hne => ?_⟩
    exact hl.disjoint _ (hoff' i hi) _ (hoff' j hj) hne
  · intro i hi y x hy hx
    obtain ⟨h1, h2⟩ := hpix _ (hoff' i hi) y x hy hx
    refine ⟨h1, fun k param hk => ?_⟩
    have h3 := h2 (fun c => if c = k then 1 else 0)
    rw [rowVal_unit] at h3
    have hkl : k < ds.length := by
      by_contra hc
      rw [List.getElem?_eq_none (by omega)] at hk
      simp at hk
    simp only [Problem.entry]
    refine Eq.trans h3 ?_
    rw [Finset.sum_eq_single k]
    · rw [if_pos rfl, mul_one, hk, Option.getD_some]
    · intro c _ hc; rw [if_neg hc, mul_zero]
    · intro h; exact absurd (Finset.mem_range.2 hkl) h
  · intro e he
    obtain ⟨h1, h2⟩ := hpri e he
    refine ⟨h1, fun k => ?_⟩
    have h3 := h2 (fun c => if c = k then 1 else 0)
    rw [rowVal_unit] at h3
    simp only [Problem.entry]
    refine Eq.trans h3 ?_
    by_cases hk : k = e.col
    · rw [if_pos hk, if_pos hk.symm, mul_one]
    · rw [if_neg hk, if_neg (fun h => hk h.symm), mul_zero]

/-- Two images, the first 1x2, the second 2x1, inverse errors 2 and 1. -/
def exImgs : Nat → Img Rat := fun i =>
  if i = 0 then ⟨1, 2, ⟨1, 2, fun _ _ => 2⟩, ⟨1, 2, fun _ x => x + 1⟩⟩
  else ⟨2, 1, ⟨2, 1, fun _ _ => 1⟩, ⟨2, 1, fun y _ => y + 5⟩⟩

/-- Two parameters: the first acts on both images (its second patch sticks out of the image), the
second on the second image. -/
def exDerivs : Derivs Rat :=
  [[(⟨0, 0, some ⟨1, 2, fun _ x => x + 1⟩⟩, 0), (⟨0, 1, some ⟨3, 3, fun _ _ => 7⟩⟩, 1)],
   [(⟨0, 0, some ⟨2, 1, fun y _ => y + 3⟩⟩, 1)]]

theorem exImages_ok (ds : Derivs Rat) : ImagesOK exImgs ds := by
  intro i _
  by_cases h : i = 0 <;> simp [exImgs, h]

/-- The elements (row, column, value) of the example. -/
example : (match assemble exImgs exDerivs none with
    | .ok (bs, _, n, _, _) => (n, cellsOf bs)
    | .error _ => (0, [])) =
    (4, [(0, 0, 2), (1, 0, 4), (3, 0, 7), (2, 1, 3), (3, 1, 4)]) := by decide +kernel

example : ∃ P : Problem Rat, P.ncols = 2 ∧ P.nrows = 4 ∧
    getUpdateDirection id 0 (fun _ => [8, 9]) exImgs exDerivs none false none = .ok (some [8, 9]) := by
  obtain ⟨P, n, off, h, hc, hr, hn, -⟩ := C37_layout exImgs exDerivs (exImages_ok _) none [] ⟨rfl, rfl, by simp⟩
  refine ⟨P, hc, ?_, by decide +kernel⟩
  rw [hr, hn]
  decide +kernel

/-! ## C39 -/

/-- **C39.** Whether or not the columns are scaled: if the solver solves the problem it is given, the
update minimises the (unscaled) linearised chi-squared over all parameter changes.  (Hypotheses: `sqrt` is
positive on positive numbers, and no non-zero matrix element is as small as the cut-off `tiny` relative to
the norm of its column.)  If no parameter has an effect, the empty list is returned. -/
theorem C39_minimises (sqrt : R → R) (hsq : SqrtOK sqrt) (tiny : R) (lsqr : Problem R → List R)
    (hlsqr : Solves lsqr) (imgs : Nat → Img R) (ds : Derivs R) (hI : ImagesOK imgs ds)
    (prior : Option (PriorDerivs R)) (es : List (Entry R)) (hes : PriorOK ds.length prior es)
    (scale : Bool) (ht : scale = true → NoTiny sqrt tiny imgs ds es) :
    ((∃ c, c < ds.length ∧ columnNorm imgs ds es c ≠ 0) →
      ∃ X, getUpdateDirection sqrt tiny lsqr imgs ds prior scale none = .ok (some X) ∧
        Minimises ds.length (linearised imgs ds prior) X) ∧
    ((∀ c, c < ds.length → columnNorm imgs ds es c = 0) →
      getUpdateDirection sqrt tiny lsqr imgs ds prior scale none = .ok none) := by
  have h := direction_ok sqrt hsq tiny lsqr hlsqr imgs ds hI prior es hes scale ht none
    (by simp) (fun _ c c' _ _ h => by simp only [mergeInto] at h; rw [h])
  constructor
  · rintro ⟨c, hc, hcn⟩
    rcases h with ⟨-, -, h0⟩ | ⟨-, h0, -⟩ | ⟨X, hX, -, hl, -, hm⟩
    · exact absurd (h0 c hc) hcn
    · exact absurd rfl h0
    · refine ⟨X, hX, hl, fun Y hY => hm Y hY ?_⟩
      intro c c' _ _ h; simp only [mergeInto] at h; rw [h]
  · intro h0
    rcases h with ⟨h, -⟩ | ⟨-, h1, -⟩ | ⟨X, hX, -⟩
    · exact h
    · exact absurd rfl h1
    · obtain ⟨hrep, hrows, hcols⟩ := hes
      obtain ⟨bs, offs, n, pb, b, hasm, hrhs, hgood, hobj, hcn⟩ :=
        assemble_ok imgs ds prior hI es hrep hrows hcols
      have hE : bs = [] := by
        by_contra hne
        obtain ⟨blk, hb⟩ := List.exists_mem_of_ne_nil bs hne
        have := norm_pos _ bs (fun b hb => (hgood b hb).2.1) blk hb
        rw [hcn _ (hgood blk hb).1, h0 _ (hgood blk hb).1] at this
        exact lt_irrefl _ this
      simp [getUpdateDirection, hasm, hE] at hX

theorem exNoTiny : NoTiny (R := Rat) id (1 / 100000000) exImgs exDerivs [] := by
  have n0 : columnNorm exImgs exDerivs [] 0 = 69 := by decide +kernel
  have n1 : columnNorm exImgs exDerivs [] 1 = 25 := by decide +kernel
  rintro k v ⟨hv, ⟨param, e, hk, he, y, x, hy, hx, rfl⟩ | ⟨e, he, -⟩⟩
  · match k with
    | 0 =>
      rw [n0]
      simp only [exDerivs, List.getElem?_cons_zero, Option.some.injEq] at hk
      subst hk
      simp only [List.mem_cons, List.not_mem_nil, or_false] at he
      rcases he with rfl | rfl
      · have hy0 : y = 0 := by simp only [exImgs, if_pos] at hy; omega
        have hx0 : x = 0 ∨ x = 1 := by simp only [exImgs, if_pos] at hx; omega
        subst hy0
        rcases hx0 with rfl | rfl <;> decide +kernel
      · have hy0 : y = 0 ∨ y = 1 := by simp [exImgs] at hy; omega
        have hx0 : x = 0 := by simp [exImgs] at hx; omega
        subst hx0
        rcases hy0 with rfl | rfl
        · exact absurd (by decide +kernel) hv
        · decide +kernel
    | 1 =>
      rw [n1]
      simp only [exDerivs, List.getElem?_cons_succ, List.getElem?_cons_zero, Option.some.injEq] at hk
      subst hk
      simp only [List.mem_cons, List.not_mem_nil, or_false] at he
      subst he
      have hy0 : y = 0 ∨ y = 1 := by simp [exImgs] at hy; omega
      have hx0 : x = 0 := by simp [exImgs] at hx; omega
      subst hx0
      rcases hy0 with rfl | rfl <;> decide +kernel
    | k + 2 => simp [exDerivs] at hk
  · simp at he

/-- The hypotheses hold for the example, with column scaling and the cut-off of the code. -/
example : ∃ (lsqr : Problem Rat → List Rat) (X : List Rat),
    getUpdateDirection id (1 / 100000000) lsqr exImgs exDerivs none true none = .ok (some X) ∧
      Minimises 2 (linearised exImgs exDerivs none) X := by
  obtain ⟨lsqr, hl⟩ := solver_exists (R := Rat)
  obtain ⟨X, h⟩ := (C39_minimises id (fun x hx => hx) (1 / 100000000) lsqr hl exImgs exDerivs (exImages_ok _)
    none [] ⟨rfl, rfl, by simp⟩ true (fun _ => exNoTiny)).1 ⟨0, by decide, by decide +kernel⟩
  exact ⟨lsqr, X, h⟩

/-! ## C38 -/

/-- **C38, detection.** The index map gives two slots the same number exactly if they are the same
underlying value, and the parameter values are restored. -/
theorem C38_detects (s : Store R) :
    (sharedMap s).1.length = s.cells.length ∧
    (∀ (i j : Nat) (hi : i < s.cells.length) (hj : j < s.cells.length),
      (sharedMap s).1[i]? = (sharedMap s).1[j]? ↔ s.cells[i] = s.cells[j]) ∧
    (sharedMap s).2 = s :=
  sharedMap_ok s

example : (sharedMap (⟨[4, 7, 4, 9], fun c => c * c⟩ : Store Rat)).1 = [1, 0, 1, 2] := by decide +kernel

/-- **C38, update.** With shared parameters (and, if columns are scaled, equal column norms for slots of
the same value): if the value in the last slot has an effect, the result has equal entries for slots of the
same value and minimises the linearised chi-squared among all such changes. -/
theorem C38_update_partial (sqrt : R → R) (hsq : SqrtOK sqrt) (tiny : R) (lsqr : Problem R → List R)
    (hlsqr : Solves lsqr) (imgs : Nat → Img R) (ds : Derivs R) (hI : ImagesOK imgs ds)
    (prior : Option (PriorDerivs R)) (es : List (Entry R)) (hes : PriorOK ds.length prior es)
    (scale : Bool) (ht : scale = true → NoTiny sqrt tiny imgs ds es)
    (s : Store R) (hs : s.cells.length = ds.length)
    (hnorm : scale = true → ∀ (c c' : Nat), c < ds.length → c' < ds.length → s.cells[c]? = s.cells[c']? →
      columnNorm imgs ds es c = columnNorm imgs ds es c')
    (hlast : ∃ c : Nat, c < ds.length ∧ s.cells[c]? = s.cells[ds.length - 1]? ∧
      columnNorm imgs ds es c ≠ 0) :
    ∃ X, getUpdateDirection sqrt tiny lsqr imgs ds prior scale (some (sharedMap s).1) = .ok (some X) ∧
      X.length = ds.length ∧
      (∀ c c' : Nat, c < ds.length → c' < ds.length → s.cells[c]? = s.cells[c']? → X[c]? = X[c']?) ∧
      ∀ Y : List R, Y.length = ds.length →
        (∀ c c' : Nat, c < ds.length → c' < ds.length → s.cells[c]? = s.cells[c']? → Y[c]? = Y[c']?) →
        linearised imgs ds prior X ≤ linearised imgs ds prior Y := by
  obtain ⟨hlen, hdet, -⟩ := C38_detects s
  have hiff := shared_iff s ds.length hs
  have h := direction_ok sqrt hsq tiny lsqr hlsqr imgs ds hI prior es hes scale ht (some (sharedMap s).1)
    (fun m hm => by simp only [Option.some.injEq] at hm; rw [← hm, hlen, hs])
    (fun hsc c c' hc hc' hcc => hnorm hsc c c' hc hc' ((hiff c c' hc hc').1 hcc))
  obtain ⟨cl, hcl, hcle, hcln⟩ := hlast
  rcases h with ⟨-, -, h0⟩ | ⟨-, -, c, hc, h0⟩ | ⟨X, hX, -, hl, hcl, hm⟩
  · exact absurd (h0 cl hcl) hcln
  · have h1 := h0 cl hcl hcln
    rw [(hiff cl (ds.length - 1) hcl (by omega)).2 hcle] at h1
    have h2 := sharedMap_max s c (by omega)
    rw [hs] at h2
    omega
  · refine ⟨X, hX, hl, fun c c' hc hc' hcc => hcl c c' hc hc' ((hiff c c' hc hc').2 hcc), fun Y hY hYc => ?_⟩
    exact hm Y hY (fun c c' hc hc' hcc => hYc c c' hc hc' ((hiff c c' hc hc').1 hcc))

/-- The example with both slots the same value. -/
example : ∃ (lsqr : Problem Rat → List Rat) (x : Rat),
    getUpdateDirection id 0 lsqr exImgs exDerivs none false (some (sharedMap (R := Rat) ⟨[3, 3], fun _ => 1⟩).1) =
      .ok (some [x, x]) := by
  obtain ⟨lsqr, hl⟩ := solver_exists (R := Rat)
  obtain ⟨X, h, h2, h3, -⟩ := C38_update_partial id (fun x hx => hx) 0 lsqr hl exImgs exDerivs (exImages_ok _)
    none [] ⟨rfl, rfl, by simp⟩ false (by simp) ⟨[3, 3], fun _ => 1⟩ rfl (by simp)
    ⟨1, by decide, rfl, by decide +kernel⟩
  match X, h2 with
  | [a, b], _ =>
    have := h3 0 1 (by decide) (by decide) rfl
    simp only [List.getElem?_cons_zero, List.getElem?_cons_succ, Option.some.injEq] at this
    subst this
    exact ⟨lsqr, a, h⟩

/-- One pixel, inverse error 1, residual 3. -/
def onePixel : Nat → Img Rat := fun _ => ⟨1, 1, ⟨1, 1, fun _ _ => 1⟩, ⟨1, 1, fun _ _ => 3⟩⟩

/-- A 1x1 patch. -/
def pixelPatch (v : Rat) : Patch Rat := ⟨0, 0, some ⟨1, 1, fun _ _ => v⟩⟩

/-- **C38 is false with column scaling**: two slots of one value, derivatives 1 and 2, hence column norms
1 and 2; the merged column is 1/1 + 2/2, the (exact) solution is divided by different scales, and the two
slots of one value get different updates (3/2 and 3/4; the best common change is 1). -/
theorem C38_scaled_false :
    let s : Store Rat := ⟨[0, 0], fun _ => 0⟩
    let ds : Derivs Rat := [[(pixelPatch 1, 0)], [(pixelPatch 2, 0)]]
    let sqrt : Rat → Rat := fun x => if x = 4 then 2 else x
    let P : Problem Rat := ⟨1, 1, [(0, 0, 1), (0, 0, 1)], fun _ => 3⟩
    Minimises P.ncols P.chisq [3 / 2] ∧
    (∀ lsqr : Problem Rat → List Rat, (∀ P, lsqr P = [3 / 2]) →
      getUpdateDirection sqrt (1 / 100000000) lsqr onePixel ds none true (some (sharedMap s).1) =
        .ok (some [3 / 2, 3 / 4])) ∧
    linearised onePixel ds none [1, 1] = 0 ∧ linearised onePixel ds none [3 / 4, 3 / 4] ≠ 0 := by
  refine ⟨⟨rfl, fun Y _ => ?_⟩, fun lsqr h => ?_, by decide +kernel, by decide +kernel⟩
  · have h0 : Problem.chisq (R := Rat) ⟨1, 1, [(0, 0, 1), (0, 0, 1)], fun _ => 3⟩ [3 / 2] = 0 := by decide +kernel
    rw [h0]
    exact Finset.sum_nonneg (fun r _ => sq_nonneg _)
  · have : lsqr = fun _ => [3 / 2] := funext h
    subst this
    decide +kernel

/-- **C38 is false if the value in the last slot has no effect** (for example a source at the end of the
catalog that lies outside all images): the number of columns is taken from the largest column used, the
solution vector is too short, and the lookup for the last slot raises IndexError. -/
theorem C38_no_effect_false (sqrt : R → R) (hsq : SqrtOK sqrt) (tiny : R) (lsqr : Problem R → List R)
    (hlsqr : Solves lsqr) (imgs : Nat → Img R) (ds : Derivs R) (hI : ImagesOK imgs ds)
    (prior : Option (PriorDerivs R)) (es : List (Entry R)) (hes : PriorOK ds.length prior es)
    (scale : Bool) (ht : scale = true → NoTiny sqrt tiny imgs ds es)
    (s : Store R) (hs : s.cells.length = ds.length)
    (hnorm : scale = true → ∀ (c c' : Nat), c < ds.length → c' < ds.length → s.cells[c]? = s.cells[c']? →
      columnNorm imgs ds es c = columnNorm imgs ds es c')
    (hlast : ∀ c : Nat, c < ds.length → s.cells[c]? = s.cells[ds.length - 1]? → columnNorm imgs ds es c = 0)
    (hother : ∃ c : Nat, c < ds.length ∧ columnNorm imgs ds es c ≠ 0) :
    getUpdateDirection sqrt tiny lsqr imgs ds prior scale (some (sharedMap s).1) = .error .index := by
  obtain ⟨hlen, hdet, -⟩ := C38_detects s
  have hiff := shared_iff s ds.length hs
  have h := direction_ok sqrt hsq tiny lsqr hlsqr imgs ds hI prior es hes scale ht (some (sharedMap s).1)
    (fun m hm => by simp only [Option.some.injEq] at hm; rw [← hm, hlen, hs])
    (fun hsc c c' hc hc' hcc => hnorm hsc c c' hc hc' ((hiff c c' hc hc').1 hcc))
  obtain ⟨co, hco, hcon⟩ := hother
  rcases h with ⟨-, -, h0⟩ | ⟨h, -⟩ | ⟨X, -, hX, -⟩
  · exact absurd (h0 co hco) hcon
  · exact h
  · obtain ⟨c', hc', hn, hle⟩ := hX (by simp) (ds.length - 1) (by omega)
    have h2 := sharedMap_max s c' (by omega)
    rw [hs] at h2
    exact absurd (hlast c' hc' ((hiff c' (ds.length - 1) hc' (by omega)).1 (by omega))) hn

/-- Two parameters, the second without effect, both distinct values, code defaults: IndexError. -/
example : ∃ lsqr : Problem Rat → List Rat,
    getUpdateDirection id 0 lsqr onePixel [[(pixelPatch 1, 0)], []] none false
      (some (sharedMap (R := Rat) ⟨[0, 1], fun _ => 0⟩).1) = .error .index := by
  obtain ⟨lsqr, hl⟩ := solver_exists (R := Rat)
  refine ⟨lsqr, C38_no_effect_false id (fun x hx => hx) 0 lsqr hl onePixel _ ?_ none [] ⟨rfl, rfl, by simp⟩
    false (by simp) ⟨[0, 1], fun _ => 0⟩ rfl (by simp) ?_ ⟨0, by decide, by decide +kernel⟩⟩
  · intro i _; simp [onePixel]
  · intro c hc h
    match c, hc with
    | 0, _ => simp at h
    | 1, _ => decide +kernel

/-! ## C40 -/

/-- **C40.** For derivatives in which no image occurs twice for a parameter, the dense optimizer, with a
solver that solves the problem it is given, returns a minimiser of the same linearised chi-squared as the
sparse optimizer (C39), with and without column scaling; without any row the empty list. -/
theorem C40_dense_minimises_partial (sqrt : R → R) (hsq : SqrtOK sqrt) (hs1 : sqrt 1 = 1)
    (lstsq : Nat → Nat → Dense R → (Nat → R) → List R) (hls : DenseSolves lstsq)
    (imgs : Nat → Img R) (ds : Derivs R) (hI : ImagesOK imgs ds)
    (hd : DistinctImages ds) (prior : Option (PriorDerivs R)) (es : List (Entry R))
    (hes : PriorOK ds.length prior es) (scale : Bool) :
    (denseUpdateDirection sqrt lstsq imgs ds prior scale = .ok none ∧
      ∀ X : List R, X.length = ds.length → linearised imgs ds prior X = 0) ∨
    ∃ X, denseUpdateDirection sqrt lstsq imgs ds prior scale = .ok (some X) ∧
      Minimises ds.length (linearised imgs ds prior) X :=
  dense_direction_ok sqrt hsq hs1 lstsq hls imgs ds hI hd prior es hes scale

omit [IsStrictOrderedRing R] in
/-- **C40, same problem.** The unscaled dense problem and the unscaled sparse problem have the same value
of `‖A x - b‖²` for every parameter change. -/
theorem C40_same_objective_partial (sqrt : R → R) (tiny : R) (imgs : Nat → Img R) (ds : Derivs R)
    (hI : ImagesOK imgs ds) (hd : DistinctImages ds) (prior : Option (PriorDerivs R)) (es : List (Entry R))
    (hes : PriorOK ds.length prior es) (hne : ∃ c, c < ds.length ∧ columnNorm imgs ds es c ≠ 0) :
    ∃ (P : Problem R) (n : Nat) (A : Dense R) (B : Nat → R) (scales : List R),
      (∀ lsqr, getUpdateDirection sqrt tiny lsqr imgs ds prior false none = .ok (some (lsqr P))) ∧
      denseProblem sqrt imgs ds prior false = .ok (n, A, B, scales) ∧
      ∀ X : List R, X.length = ds.length → P.chisq X = denseChisq n ds.length A B X := by
  obtain ⟨n, A, B, norms, -, hp, hobj⟩ := denseProblem_ok sqrt imgs ds hI hd prior es hes
  obtain ⟨hrep, hrows, hcols⟩ := hes
  obtain ⟨bs, offs, n', pb, b, hasm, hrhs, hgood, hobj', hcn⟩ :=
    assemble_ok imgs ds prior hI es hrep hrows hcols
  have hE : ¬ bs.isEmpty = true := by
    obtain ⟨c, hc, hcc⟩ := hne
    intro h
    have : bs = [] := by simpa using h
    rw [← hcn c hc, this] at hcc
    exact hcc rfl
  refine ⟨⟨n' + es.length, ds.length, cellsOf bs, b⟩, n, A, B, _, fun lsqr => ?_, by simpa using hp false, ?_⟩
  · simp only [getUpdateDirection, hasm, Bool.false_eq_true, false_and, if_false, applyMap, hrhs]
    rw [if_neg hE, if_neg hE, mkProblem_ok _ _ bs b (fun blk hb => ⟨(hgood blk hb).1, (hgood blk hb).2.1⟩)]
    rfl
  · intro X hX
    rw [hobj X hX, Problem.chisq_eq, hobj' X hX _ (fun _ _ => rfl)]

example : ∃ (lstsq : Nat → Nat → Dense Rat → (Nat → Rat) → List Rat) (X : List Rat),
    denseUpdateDirection id lstsq exImgs exDerivs none true = .ok (some X) ∧
      Minimises 2 (linearised exImgs exDerivs none) X := by
  obtain ⟨lstsq, hl⟩ := dense_solver_exists (R := Rat)
  rcases C40_dense_minimises_partial id (fun x hx => hx) rfl lstsq hl exImgs exDerivs (exImages_ok _)
    (by intro p hp; simp only [exDerivs, List.mem_cons, List.not_mem_nil, or_false] at hp
        rcases hp with rfl | rfl <;> simp) none [] ⟨rfl, rfl, by simp⟩ true with ⟨-, h0⟩ | ⟨X, h⟩
  · exact absurd (h0 [0, 0] rfl) (by decide +kernel)
  · exact ⟨lstsq, X, h⟩

/-- **C40 needs distinct images**: if an image occurs twice for a parameter, the sparse matrix holds the
sum of the derivatives, the dense one only the last. -/
theorem C40_repeated_image_false :
    let ds : Derivs Rat := [[(pixelPatch 1, 0), (pixelPatch 2, 0)]]
    (match assemble onePixel ds none with
      | .ok (bs, _, _, _, _) => (cellsOf bs).map (fun t => t.2.2)
      | .error _ => []) = [1, 2] ∧
    (match denseProblem id onePixel ds none false with
      | .ok (_, A, _, _) => A 0 0
      | .error _ => 0) = 2 := by
  constructor <;> decide +kernel

/-! ## C64 -/

omit [IsStrictOrderedRing R] in
/-- **C64.** `getUpdateDirection(scales_only=True)` returns the empty list for every input for which it
returns at all: no caller can obtain column scales from it. -/
theorem C64_scales_only_empty (sqrt : R → R) (imgs : Nat → Img R) (ds : Derivs R)
    (prior : Option (PriorDerivs R)) (r : Option (List R))
    (h : scalesOnly sqrt imgs ds prior = .ok r) : r = none := by
  have hc : ∀ (bs : List (Block R)) (acc : List Nat),
      bs.foldl (fun acc b => if true = true then acc else acc ++ [b.col]) acc = acc := by
    intro bs
    induction bs with
    | nil => intro acc; rfl
    | cons b bs ih => intro acc; exact ih acc
  simp only [scalesOnly] at h
  cases ha : assemble imgs ds prior with
  | error e => simp [ha] at h
  | ok r =>
    simp only [ha] at h
    rw [collectCols, hc, List.isEmpty_nil, if_pos rfl] at h
    exact (Except.ok.inj h).symm

/-- Even though the column has norm 1. -/
example : scalesOnly id onePixel [[(pixelPatch 1, 0)]] none = .ok none ∧
    columnNorm onePixel [[(pixelPatch 1, 0)]] [] 0 = 1 := by
  constructor <;> decide +kernel

/-! ## C65 -/

omit [IsStrictOrderedRing R] in
/-- **C65 (part).** Without shared parameters the variance returned for parameter `k` is the inverse of the
sum of the squared weighted derivatives (and prior elements) of that parameter. -/
theorem C65_variance_partial (imgs : Nat → Img R) (ds : Derivs R) (hI : ImagesOK imgs ds)
    (prior : Option (PriorDerivs R)) (es : List (Entry R)) (hes : PriorOK ds.length prior es)
    (hne : ∃ c, c < ds.length ∧ columnNorm imgs ds es c ≠ 0) :
    ∃ vs, updateVariance imgs ds prior none = .ok (some vs) ∧ vs.length = ds.length ∧
      ∀ k : Nat, k < ds.length → vs[k]? = some (1 / columnNorm imgs ds es k) := by
  obtain ⟨hrep, hrows, hcols⟩ := hes
  obtain ⟨bs, offs, n', pb, b, hasm, hrhs, hgood, hobj', hcn⟩ :=
    assemble_ok imgs ds prior hI es hrep hrows hcols
  have hE : ¬ bs.isEmpty = true := by
    obtain ⟨c, hc, hcc⟩ := hne
    intro h
    have : bs = [] := by simpa using h
    rw [← hcn c hc, this] at hcc
    exact hcc rfl
  simp only [updateVariance, hasm, if_neg hE, variances]
  refine ⟨_, rfl, by simp [colNorms], ?_⟩
  intro k hk
  rw [List.getElem?_map, colNorms, List.getElem?_map, List.getElem?_range hk]
  simp only [Option.map_some, hcn k hk]

example : updateVariance exImgs exDerivs none none = .ok (some [1 / 69, 1 / 25]) := by decide +kernel

/-- **C65 is false with shared parameters**: the norms are looked up through the index map although they
are stored per slot, so with slots 0 and 2 shared the variance returned for slot 1 is that of slot 0. -/
theorem C65_shared_false :
    let s : Store Rat := ⟨[0, 1, 0], fun _ => 0⟩
    let ds : Derivs Rat := [[(pixelPatch 1, 0)], [(pixelPatch 2, 0)], [(pixelPatch 1, 0)]]
    updateVariance onePixel ds none (some (sharedMap s).1) = .ok (some [1 / 4, 1, 1 / 4]) ∧
    columnNorm onePixel ds [] 1 = 4 ∧ columnNorm onePixel ds [] 0 = 1 := by
  refine ⟨?_, ?_, ?_⟩ <;> decide +kernel

end Verif.Lsq
