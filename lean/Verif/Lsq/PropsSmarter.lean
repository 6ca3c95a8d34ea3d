import Verif.Lsq.SmarterLemmas4
import Verif.Lsq.Props

/-!
# Properties of SmarterDenseOptimizer (C91, C92)
-/

namespace Verif.Lsq

open Verif Verif.Params Verif.Patches

variable {R : Type} [Field R] [LinearOrder R] [IsStrictOrderedRing R]

/-! ## C91 -/

/-- **C91 (part).** If in every image all derivatives that overlap it cover the same box, the optimizer that only looks at the
pixels of the boxes, with a solver that solves the problem it is given, returns a minimiser of the linearised chi-squared of
all pixels of the images (C39, C40), with and without column scaling; parameters with neither derivatives nor prior do not
change.  Without any row: `None`. -/
theorem C91_minimises_partial (sqrt : R → R) (hsq : SqrtPos sqrt) (hs1 : sqrt 1 = 1)
    (lstsq : Nat → Nat → Dense R → (Nat → R) → List R) (hls : DenseSolves lstsq)
    (imgs : Nat → Img R) (ds : Derivs R) (box : Nat → Box)
    (hbox : OneBox imgs ds box) (hI : ImagesOK imgs ds) (hd : DistinctImages ds) (prior : Option (PriorDerivs R))
    (es : List (Entry R)) (hes : PriorOK ds.length prior es) (hne : ∀ d, prior = some d → d.rows ≠ []) (scale : Bool) :
    (smartUpdateDirection sqrt lstsq imgs ds prior scale = .ok none ∧
      ∀ X : List R, X.length = ds.length → linearised imgs ds prior X = 0) ∨
    ∃ X, smartUpdateDirection sqrt lstsq imgs ds prior scale = .ok (some X) ∧
      Minimises ds.length (linearised imgs ds prior) X ∧
      ∀ k, k < ds.length → ¬ Live ds es k → X[k]? = some 0 :=
  smart_direction_ok sqrt hsq hs1 lstsq hls imgs ds box hbox hI hd prior es hes hne scale

/-- One image of 2 x 3 pixels. -/
def boxImgs : Nat → Img Rat := fun _ => ⟨2, 3, ⟨2, 3, fun y x => y + x + 1⟩, ⟨2, 3, fun y x => y - 2 * x⟩⟩

/-- Four parameters; the first two have derivatives in columns 1 and 2 of the image (both stick out of the image), the third
none, the fourth one to the right of the image. -/
def boxDerivs : Derivs Rat :=
  [[(⟨1, 0, some ⟨2, 4, fun y x => y + x + 1⟩⟩, 0)], [(⟨1, -1, some ⟨5, 2, fun y x => y - x⟩⟩, 0)], [],
    [(⟨3, 0, some ⟨2, 4, fun _ _ => 1⟩⟩, 0)]]

/-- The hypotheses hold for the example. -/
theorem boxOne : OneBox boxImgs boxDerivs (fun _ => (1, 3, 0, 2)) := by
  have h1 : Fills (boxImgs 0) ⟨1, 0, some ⟨2, 4, fun y x => (y : Rat) + x + 1⟩⟩ (1, 3, 0, 2) := by
    intro x y; simp only [Patch.covers, boxImgs, inBox]; omega
  have h2 : Fills (boxImgs 0) ⟨1, -1, some ⟨5, 2, fun y x => (y : Rat) - x⟩⟩ (1, 3, 0, 2) := by
    intro x y; simp only [Patch.covers, boxImgs, inBox]; omega
  refine ⟨fun i _ => by simp [FullBox, boxImgs], ?_, ?_⟩
  · intro param hp e he
    simp only [boxDerivs, List.mem_cons, List.not_mem_nil, or_false] at hp
    rcases hp with rfl | rfl | rfl | rfl
    · simp only [List.mem_singleton] at he; subst he; exact Or.inr h1
    · simp only [List.mem_singleton] at he; subst he; exact Or.inr h2
    · simp at he
    · simp only [List.mem_singleton] at he; subst he
      exact Or.inl (Or.inr (Or.inl (by simp [boxImgs])))
  · intro i hi
    have : i = 0 := by simpa [usedImages, boxDerivs] using hi
    subst this
    exact ⟨_, List.mem_cons_self, _, List.mem_singleton.2 rfl, rfl, h1⟩

theorem boxImages_ok : ImagesOK boxImgs boxDerivs := fun i _ => by simp [boxImgs]

theorem boxDistinct : DistinctImages boxDerivs := by
  intro p hp
  simp only [boxDerivs, List.mem_cons, List.not_mem_nil, or_false] at hp
  rcases hp with rfl | rfl | rfl | rfl <;> simp

example : ∃ (lstsq : Nat → Nat → Dense Rat → (Nat → Rat) → List Rat) (X : List Rat),
    smartUpdateDirection id lstsq boxImgs boxDerivs none true = .ok (some X) ∧
      Minimises 4 (linearised boxImgs boxDerivs none) X ∧ X[2]? = some 0 := by
  obtain ⟨lstsq, hl⟩ := dense_solver_exists (R := Rat)
  rcases C91_minimises_partial id (fun _ => Iff.rfl) rfl lstsq hl boxImgs boxDerivs _ boxOne boxImages_ok boxDistinct
    none [] ⟨rfl, rfl, by simp⟩ (by simp) true with ⟨-, h0⟩ | ⟨X, h, hm, h0⟩
  · exact absurd (h0 [0, 0, 0, 0] rfl) (by decide +kernel)
  · exact ⟨lstsq, X, h, hm, h0 2 (by decide) (by rintro (⟨p, hp, hn⟩ | ⟨e, he, -⟩)
                                                 · simp [boxDerivs] at hp; exact hn hp
                                                 · simp at he)⟩

/-- The matrix only has rows for the four pixels of the box, and three columns. -/
example : (match smartProblem id boxImgs boxDerivs none false with
    | .ok (some (n, A, B, _, live)) =>
      (n, live, (List.range 4).map (fun r => [A r 0, A r 1, A r 2]), (List.range 4).map B)
    | _ => (0, [], [], [])) =
    (4, [true, true, false, true], [[2, 2, 0], [6, 0, 0], [6, 6, 0], [12, 4, 0]], [-2, -4, -1, -3]) := by decide +kernel

/-- **C91 fails for two boxes in one image**: two sources whose derivatives cover different pixels of an image make the call
raise RuntimeError; the dense optimizer takes them. -/
theorem C91_two_boxes_false (lstsq : Nat → Nat → Dense Rat → (Nat → Rat) → List Rat) :
    let ds : Derivs Rat := [[(⟨0, 0, some ⟨1, 1, fun _ _ => 1⟩⟩, 0)], [(⟨1, 0, some ⟨1, 1, fun _ _ => 1⟩⟩, 0)]]
    smartUpdateDirection id lstsq boxImgs ds none true = .error .runtime ∧
    ∃ X, denseUpdateDirection id lstsq boxImgs ds none true = .ok (some X) := by
  intro ds
  constructor
  · have : smartProblem id boxImgs ds none true = .error .runtime := by rfl
    simp only [smartUpdateDirection, this]
  · exact ⟨_, rfl⟩

/-- **C91 fails for a derivative without overlap**: if the only derivative in an image lies to the right of it, KeyError is
raised, although it has no effect. -/
theorem C91_no_overlap_false (lstsq : Nat → Nat → Dense Rat → (Nat → Rat) → List Rat) :
    let ds : Derivs Rat := [[(⟨3, 0, some ⟨1, 1, fun _ _ => 1⟩⟩, 0)]]
    smartUpdateDirection id lstsq boxImgs ds none true = .error .key ∧
    ∃ X, denseUpdateDirection id lstsq boxImgs ds none true = .ok (some X) := by
  intro ds
  constructor
  · have : smartProblem id boxImgs ds none true = .error .key := by rfl
    simp only [smartUpdateDirection, this]
  · exact ⟨_, rfl⟩

/-- **C91 fails for a derivative to the left of the image**: it leaves an empty box at the image edge that widens the box of
the others (RuntimeError), while one to the right of the image is skipped (the example above). -/
theorem C91_left_false (lstsq : Nat → Nat → Dense Rat → (Nat → Rat) → List Rat) :
    let left : Patch Rat := ⟨-2, 0, some ⟨2, 2, fun _ _ => 1⟩⟩
    let ds : Derivs Rat := [[(⟨1, 0, some ⟨2, 2, fun _ _ => 1⟩⟩, 0)], [(left, 0)]]
    (∀ x y : Nat, left.at x y = 0) ∧
    smartUpdateDirection id lstsq boxImgs ds none true = .error .runtime ∧
    ∃ X, denseUpdateDirection id lstsq boxImgs ds none true = .ok (some X) := by
  intro left ds
  refine ⟨?_, ?_, ⟨_, rfl⟩⟩
  · intro x y
    simp only [left, Patch.at]
    rw [if_neg (by omega)]
  · have : smartProblem id boxImgs ds none true = .error .runtime := by rfl
    simp only [smartUpdateDirection, this]

/-! ## C92 -/

/-- **C92 (part).** With `get_cov=True` and column scaling the result is: the update of the parameters that have derivatives
or priors, in the order of the parameters; the numbers of these parameters; and for any two of them the element of the inverse
covariance matrix: the products of the derivatives summed over all pixels with the inverse variances as weights, plus the
prior terms. -/
theorem C92_covariance_partial (sqrt : R → R) (hsq : SqrtPos sqrt) (hs1 : sqrt 1 = 1)
    (lstsq : Nat → Nat → Dense R → (Nat → R) → List R) (hls : DenseSolves lstsq)
    (imgs : Nat → Img R) (ds : Derivs R) (box : Nat → Box)
    (hbox : OneBox imgs ds box) (hI : ImagesOK imgs ds) (hd : DistinctImages ds) (prior : Option (PriorDerivs R))
    (es : List (Entry R)) (hes : PriorOK ds.length prior es) (hne : ∀ d, prior = some d → d.rows ≠ [])
    (hlive : ∃ k, Live ds es k) :
    ∃ (X : List R) (ic : Nat → Nat → R) (cols : List Nat) (full : List R),
      smartCovariance sqrt lstsq imgs ds prior true = .ok (some (X, ic, cols)) ∧
      smartUpdateDirection sqrt lstsq imgs ds prior true = .ok (some full) ∧
      Minimises ds.length (linearised imgs ds prior) full ∧
      cols.Pairwise (· < ·) ∧ (∀ k, k ∈ cols ↔ Live ds es k) ∧ X.length = cols.length ∧
      (∀ c k : Nat, cols[c]? = some k → X[c]? = full[k]?) ∧
      ∀ c d k l : Nat, cols[c]? = some k → cols[d]? = some l → ic c d = fisher imgs ds es k l :=
  smartCovariance_ok sqrt hsq hs1 lstsq hls imgs ds box hbox hI hd prior es hes hne hlive

/-- Prior with one term on the third parameter. -/
def boxPrior : PriorDerivs Rat := ⟨[[0]], [2], [[3]], [[1]], [[0]]⟩

/-- With the prior all four parameters are live. -/
example : ∃ (lstsq : Nat → Nat → Dense Rat → (Nat → Rat) → List Rat) (X : List Rat) (ic : Nat → Nat → Rat) (cols : List Nat),
    smartCovariance id lstsq boxImgs boxDerivs (some boxPrior) true = .ok (some (X, ic, cols)) ∧
      ∀ c d k l : Nat, cols[c]? = some k → cols[d]? = some l →
        ic c d = fisher boxImgs boxDerivs [⟨0, 2, 3, 1, 0⟩] k l := by
  obtain ⟨lstsq, hl⟩ := dense_solver_exists (R := Rat)
  obtain ⟨X, ic, cols, full, h, -, -, -, -, -, -, hic⟩ := C92_covariance_partial id (fun _ => Iff.rfl) rfl lstsq hl boxImgs
    boxDerivs _ boxOne boxImages_ok boxDistinct (some boxPrior) [⟨0, 2, 3, 1, 0⟩]
    ⟨⟨rfl, rfl, rfl, rfl, rfl⟩, rfl, by simp [boxDerivs]⟩ (by rintro d hd; cases hd; simp [boxPrior])
    ⟨2, Or.inr ⟨_, List.mem_singleton.2 rfl, rfl⟩⟩
  exact ⟨lstsq, X, ic, cols, h, hic⟩

example : fisher boxImgs boxDerivs [⟨0, 2, 3, 1, 0⟩] 0 1 = 88 ∧ fisher boxImgs boxDerivs [⟨0, 2, 3, 1, 0⟩] 2 2 = 9 ∧
    fisher boxImgs boxDerivs [⟨0, 2, 3, 1, 0⟩] 0 0 = 220 := by
  refine ⟨?_, ?_, ?_⟩ <;> decide +kernel

omit [IsStrictOrderedRing R] in
/-- **C92 fails without column scaling**: the inverse covariance returned with `scale_columns=False` is zero, for all inputs. -/
theorem C92_unscaled_false (sqrt : R → R) (lstsq : Nat → Nat → Dense R → (Nat → R) → List R) (imgs : Nat → Img R)
    (ds : Derivs R) (prior : Option (PriorDerivs R)) (X : List R) (ic : Nat → Nat → R) (cols : List Nat)
    (h : smartCovariance sqrt lstsq imgs ds prior false = .ok (some (X, ic, cols))) (c d : Nat) : ic c d = 0 := by
  simp only [smartCovariance] at h
  cases hp : smartProblem sqrt imgs ds prior false with
  | error e => simp [hp] at h
  | ok r =>
    cases r with
    | none => simp [hp] at h
    | some r =>
      obtain ⟨n, A, B, norms, live⟩ := r
      simp only [hp, Bool.false_eq_true, if_false, Except.ok.injEq, Option.some.injEq, Prod.mk.injEq] at h
      rw [← h.2.1]
      simp only [List.getElem?_map]
      cases norms[c]? <;> simp

/-- Such results exist, although the matrix is not zero. -/
example : (match smartCovariance id (fun _ _ _ _ => [0, 0, 0]) boxImgs boxDerivs none false with
    | .ok (some (_, ic, cols)) => (ic 0 0, cols)
    | _ => (1, [])) = (0, [0, 1, 3]) := by decide +kernel

end Verif.Lsq
