import Verif.Sdss.LemmasWcs
import Mathlib.Algebra.Order.Ring.Rat

/-!
# C131: the astrometric calibration of SDSS images

`SdssWcs` in tractor/sdss.py.
-/

namespace Verif.Sdss

variable {R M : Type} [Field R] [DecidableEq R]

/-- Positions and pixels are inverse to each other (color 0) wherever they are in the original frame, for every offset. -/
theorem C131_roundtrip (A : AsTrans R M) (w : Wcs R M) :
    ((∀ p, A.toPixel w.trans (A.toRaDec w.trans p) = p) → ∀ x y, positionToPixel A w (pixelToPosition A w x y) 0 = (x, y)) ∧
    ((∀ q, A.toRaDec w.trans (A.toPixel w.trans q) = q) →
      ∀ pos, pixelToPosition A w (positionToPixel A w pos 0).1 (positionToPixel A w pos 0).2 = pos) := by
  constructor
  · intro h x y
    unfold positionToPixel pixelToPosition
    simp only [ne_eq, not_true_eq_false, if_false, h, add_sub_cancel_right]
  · intro h pos
    unfold positionToPixel pixelToPosition
    simp only [ne_eq, not_true_eq_false, if_false, sub_add_cancel]
    exact h pos

/-- A pixel of a part of a frame is where the same pixel of the whole frame is, both ways, and so is the matrix there. -/
theorem C131_part (A : AsTrans R M) (w : Wcs R M) (x0 y0 x y : R) (pos : R × R) (color : R) :
    pixelToPosition A (imageWcs w x0 y0) x y = pixelToPosition A (imageWcs w 0 0) (x0 + x) (y0 + y) ∧
    positionToPixel A (imageWcs w x0 y0) pos color =
      ((positionToPixel A (imageWcs w 0 0) pos color).1 - x0, (positionToPixel A (imageWcs w 0 0) pos color).2 - y0) ∧
    cdAtPixel A (imageWcs w x0 y0) x y = cdAtPixel A (imageWcs w 0 0) (x0 + x) (y0 + y) := by
  have e : ∀ a b : R, b + (a + 1 / 2) = a + b + (0 + 1 / 2) := by intro a b; ring
  refine ⟨?_, ?_, ?_⟩
  · unfold pixelToPosition imageWcs setX0Y0
    simp only []
    rw [e x0 x, e y0 y]
  · unfold positionToPixel imageWcs setX0Y0
    simp only []
    refine Prod.ext ?_ ?_ <;> simp only [] <;> ring
  · unfold cdAtPixel imageWcs setX0Y0
    simp only []
    cases w.constantCd with
    | some m => rfl
    | none =>
      simp only []
      rw [e x0 x, e y0 y]

omit [Field R] [DecidableEq R] in
/-- Thawed parameters: what is written is read, frozen values keep, the flags too; every value is also read singly. -/
theorem C131_params (w : Wcs R M) (hl : w.liquid.length = 20) (p : List R) (hp : p.length = numberOfParams w) :
    ∃ w', setParams w p = .ok w' ∧ getParams w' = p ∧ w'.liquid = w.liquid ∧
      liquidArray (w.liquid.map (!·)) (getThings w') = liquidArray (w.liquid.map (!·)) (getThings w) ∧
      ∀ i < 20, (getThings w')[i]? = (getThing w' i).toOption := by
  obtain ⟨w', e, t, l, _⟩ := setFrom_ok w.liquid 0 p w (by omega) hp
  have t' : getThings w' = merge w.liquid (getThings w) p := by simpa using t
  obtain ⟨m1, m2⟩ := merge_liquid w.liquid (getThings w) p (by rw [things_len, hl]) hp
  refine ⟨w', e, ?_, l, ?_, fun i hi => getThing_eq w' i hi⟩
  · unfold getParams
    rw [l, t', m1]
  · rw [t', m2]

omit [Field R] [DecidableEq R] in
/-- Setting parameters leaves the constant matrix alone. -/
theorem setFrom_cd : ∀ (l : List Bool) (j : Nat) (p : List R) (w w' : Wcs R M), setFrom j l p w = .ok w' →
    w'.constantCd = w.constantCd ∧ w'.constantCdi = w.constantCdi := by
  intro l
  induction l with
  | nil =>
    intro j p w w' h
    cases h
    exact ⟨rfl, rfl⟩
  | cons b l ih =>
    intro j p w w' h
    cases b with
    | false => exact ih (j + 1) p w w' h
    | true =>
      cases p with
      | nil => cases h
      | cons v p =>
        unfold setFrom at h
        cases hs : setThing w j v with
        | error e => rw [hs] at h; cases h
        | ok w1 =>
          rw [hs] at h
          obtain ⟨h1, h2⟩ := ih (j + 1) p w1 w' h
          have h3 : w1.constantCd = w.constantCd ∧ w1.constantCdi = w.constantCdi := by
            unfold setThing at hs
            simp only [] at hs
            split_ifs at hs
            · cases hs; exact ⟨rfl, rfl⟩
            · cases hs; exact ⟨rfl, rfl⟩
            · cases hn : pnames[j]? with
              | none => rw [hn] at hs; cases hs
              | some nm => rw [hn] at hs; cases hs; exact ⟨rfl, rfl⟩
          exact ⟨h1.trans h3.1, h2.trans h3.2⟩

omit [DecidableEq R] in
/-- In every state the inverse matrix is the inverse of the matrix. -/
theorem C131_inverse (A : AsTrans R M) (inv : M → M) (w : Wcs R M) (h : Reach A inv w) (x y : R) :
    cdInverseAtPixel A inv w x y = inv (cdAtPixel A w x y) := by
  have key : w.constantCdi = w.constantCd.map inv := by
    induction h with
    | mk t => rfl
    | const _ _ _ _ => rfl
    | shift _ _ _ ih => exact ih
    | params _ p e ih =>
      obtain ⟨h1, h2⟩ := setFrom_cd _ _ _ _ _ e
      rw [h1, h2]
      exact ih
    | freeze _ _ _ ih => exact ih
    | steps _ _ ih => exact ih
  unfold cdInverseAtPixel cdAtPixel
  rw [key]
  cases w.constantCd <;> rfl

omit [DecidableEq R] in
/-- Partial: until `setConstantCd` is called.  The matrix is that of the original frame; the first `setConstantCd` fixes it to that of the
pixel given, from then on and for all pixels. -/
theorem C131_matrix_partial (A : AsTrans R M) (inv : M → M) (w : Wcs R M) (h : w.constantCd = none) (x y : R) :
    cdAtPixel A w x y = A.cdAt w.trans (x + w.x0, y + w.y0) ∧
    ∀ x' y', cdAtPixel A (setConstantCd A inv w x y) x' y' = A.cdAt w.trans (x + w.x0, y + w.y0) := by
  have h1 : cdAtPixel A w x y = A.cdAt w.trans (x + w.x0, y + w.y0) := by
    unfold cdAtPixel
    rw [h]
  exact ⟨h1, fun x' y' => h1⟩

omit [DecidableEq R] in
/-- A later `setConstantCd` for another pixel does nothing. -/
theorem C131_constant_false (A : AsTrans R M) (inv : M → M) (w : Wcs R M) (x y x' y' x'' y'' : R) :
    cdAtPixel A (setConstantCd A inv (setConstantCd A inv w x y) x' y') x'' y'' = cdAtPixel A w x y := rfl

omit [DecidableEq R] in
/-- 20 parameters, 3 lower bounds. -/
theorem C131_bounds_false (t : String → R) :
    numberOfParams (mkWcs (M := M) t) = 20 ∧ (getParams (mkWcs (M := M) t)).length = 20 ∧ getLowerBounds (mkWcs (M := M) t) = [none, none, none] :=
  ⟨rfl, rfl, rfl⟩

theorem liquidArray_length {α : Type} : ∀ (l : List Bool) (a : List α), l.length = a.length → (liquidArray l a).length = l.countP (· = true) := by
  intro l
  induction l with
  | nil => intro a _; cases a <;> rfl
  | cons b l ih =>
    intro a h
    cases a with
    | nil => simp at h
    | cons x a =>
      have := ih a (by simpa using h)
      cases b
      · simpa [liquidArray] using this
      · simpa [liquidArray] using this

omit [DecidableEq R] in
/-- There is one step size per thawed parameter, and it is that of the same parameter when all are thawed: the thawed ones of all steps. -/
theorem C131_steps (w : Wcs R M) (hl : w.liquid.length = 20) :
    (getStepSizes w).length = numberOfParams w ∧
    getStepSizes w = ((w.liquid.zip (getStepSizes { w with liquid := List.replicate 20 true })).filter (·.1)).map (·.2) := by
  have e : ∀ (l : List Bool) (a : List R), liquidArray l a = ((l.zip a).filter (·.1)).map (·.2) := by
    intro l
    induction l with
    | nil => intro a; cases a <;> rfl
    | cons b l ih =>
      intro a
      cases a with
      | nil => cases b <;> rfl
      | cons x a => cases b <;> simp [liquidArray, ih a]
  refine ⟨?_, ?_⟩
  · exact liquidArray_length _ _ (by rw [hl]; rfl)
  · exact e _ _

example : getStepSizes ({ mkWcs (R := ℚ) (M := Unit) (fun _ => 0) with liquid := List.replicate 6 false ++ [true, true] ++ List.replicate 12 false }) =
    [1, 1 / 2000] := by decide +kernel

omit [DecidableEq R] in
/-- Step sizes that are set are not used. -/
theorem C131_steps_false (w : Wcs R M) (ss : List R) :
    getStepSizes (setAllStepSizes w ss) = getStepSizes w ∧ getAllStepSizes (setAllStepSizes w ss) = ss := ⟨rfl, rfl⟩

/-- Nor are those in use the ones that `getAllStepSizes()` tells of. -/
theorem C131_all_steps_false : getStepSizes (mkWcs (R := ℚ) (M := Unit) (fun _ => 0)) ≠ getAllStepSizes (mkWcs (R := ℚ) (M := Unit) (fun _ => 0)) := by
  decide +kernel

omit [DecidableEq R] in
/-- `copy()` always fails. -/
theorem C131_copy_false (w : Wcs R M) : copy w = .error .typeErr := by
  unfold copy
  rw [things_len]
  rfl

/-- A calibration to try. -/
def exTrans : AsTrans ℚ ℚ :=
  { toRaDec := fun t p => (t "a" + 2 * p.1, t "d" + 3 * p.2), toPixel := fun t q => ((q.1 - t "a") / 2, (q.2 - t "d") / 3)
    toPixelColor := fun t q c => ((q.1 - t "a") / 2 + c, (q.2 - t "d") / 3), cdAt := fun _ p => p.1 }

def exWcs : Wcs ℚ ℚ := { mkWcs (fun _ => 7) with x0 := 10, y0 := 20, liquid := [true, false, false, true] ++ List.replicate 15 false ++ [true] }

example : (∀ p, exTrans.toPixel exWcs.trans (exTrans.toRaDec exWcs.trans p) = p) := by
  intro p
  simp [exTrans]

example : positionToPixel exTrans exWcs (33, 100) 0 = (3, 11) ∧ pixelToPosition exTrans exWcs 3 11 = (33, 100) := by
  decide +kernel

example : (setParams exWcs [1, 2, 3]).map (fun w => (getParams w, positionToPixel exTrans w (33, 100) 0)) =
    .ok ([1, 2, 3], (6, 98 / 3 - 3)) := by
  decide +kernel

example : cdAtPixel exTrans (setConstantCd exTrans (fun x => x⁻¹) (setConstantCd exTrans (fun x => x⁻¹) exWcs 1 1) 5 5) 0 0 = 11 ∧
    cdAtPixel exTrans exWcs 5 5 = 15 := by
  decide +kernel

end Verif.Sdss
