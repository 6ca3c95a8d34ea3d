import Verif.Sext.Lemmas
import Mathlib.Algebra.Order.Ring.Rat

/-!
# C130: sources from a SourceExtractor catalog

`get_se_modelfit_cat` in tractor/source_extractor.py.
-/

namespace Verif.Sext

variable {R : Type} [Field R] [LinearOrder R] [IsStrictOrderedRing R]

/-- Partial: no magnitude of a disk or spheroid may be NaN.  Then the catalog is made; the index beside it lists, in order and once each,
the rows with a bright enough fit; each source is that of its own row: a point source if that fits better, else a galaxy with the parts that
are bright enough, their shapes, the sum of their fluxes and the spheroid's share of it. -/
theorem C130_rows_partial (nmOf : R → R) (hp : ∀ m, 0 < nmOf m) (lim : R) (bands : List String) (T : List (Row R)) (hc : ∀ t ∈ T, Clean t) :
    ∃ srcs is, getCat nmOf lim bands T = .ok (srcs, is) ∧ is.Pairwise (· < ·) ∧ srcs.length = is.length ∧
      (∀ j : Nat, j ∈ is ↔ ∃ t, T[j]? = some t ∧ Used lim t) ∧
      (∀ (k : Nat) s, srcs[k]? = some s → ∃ j t, is[k]? = some j ∧ T[j]? = some t ∧ Fits nmOf lim bands t s) := by
  simpa [getCat] using loop_ok nmOf hp lim bands T 0 none none hc

/-- A row to try: a spheroid and a disk, both bright. -/
def exRow : Row ℚ :=
  { chi2Psf := 3, chi2Model := 1, magPsf := some 20, magDisk := some 21, magSpheroid := some 22, ra := 10, dec := 20, alphaModel := 11
    deltaModel := 21, spheroidReff := 1 / 3600, spheroidAspect := 1 / 2, spheroidTheta := 30, diskScale := 1 / 1800, diskAspect := 1 / 3
    diskTheta := 40 }

/-- A galaxy whose spheroid has the magnitude NaN is given the shape of the spheroid of an earlier galaxy, and flux and share NaN; as the
first one, it is the end of the call with a `NameError` (`UnboundLocalError`). -/
theorem C130_nan_false :
    getCat (fun m => 100 - m) 25 ["r"] [exRow, { exRow with magSpheroid := none, spheroidReff := 7, alphaModel := 5 }] =
      .ok ([.comp 11 21 [("r", some 157)] (some (78 / 157)) ⟨84 / 25, 1 / 3, 130⟩ ⟨1, 1 / 2, 120⟩,
        .comp 5 21 [("r", none)] none ⟨84 / 25, 1 / 3, 130⟩ ⟨1, 1 / 2, 120⟩], [0, 1]) ∧
    getCat (fun m => 100 - m) 25 ["r"] [{ exRow with magSpheroid := none }] = .error .nameErr := by
  decide +kernel

omit [IsStrictOrderedRing R] in
/-- With a magnitude NaN of the disk or spheroid in the first row the call never gives a catalog, if the point source does not fit better
(even if the other part is too faint for a source). -/
theorem C130_first_false (nmOf : R → R) (lim : R) (bands : List String) (t : Row R) (T : List (Row R)) (h : ¬ t.chi2Psf < t.chi2Model)
    (hn : t.magDisk = none ∨ t.magSpheroid = none) :
    getCat nmOf lim bands (t :: T) = .error .nameErr := by
  unfold getCat loop
  have h1 : decide (t.chi2Psf < t.chi2Model) = false := decide_eq_false h
  simp only [h1, Bool.false_and, Bool.false_eq_true, if_false]
  rcases hn with hn | hn
  · have : gtLim lim t.magDisk = false := by rw [hn]; rfl
    have h2 : leLim lim t.magDisk = false := by rw [hn]; rfl
    simp only [this, Bool.false_and, Bool.false_eq_true, if_false, h2, galaxy]
  · have : gtLim lim t.magSpheroid = false := by rw [hn]; rfl
    have h2 : leLim lim t.magSpheroid = false := by rw [hn]; rfl
    simp only [this, Bool.and_false, Bool.false_eq_true, if_false, h2, galaxy]
    cases (if leLim lim t.magDisk = true then some (shapeExpOf t) else none) <;> rfl

/-- A point source, one too faint, a spheroid alone, a disk alone. -/
example : getCat (fun m => 100 - m) 25 ["g", "r"] [{ exRow with chi2Psf := 0 }, { exRow with magDisk := some 26, magSpheroid := some 27 },
      { exRow with magDisk := some 26 }, { exRow with magSpheroid := some 26 }] =
    .ok ([.point 10 20 [("g", some 80), ("r", some 80)], .dev 11 21 [("g", some 78), ("r", some 78)] ⟨1, 1 / 2, 120⟩,
      .exp 11 21 [("g", some 79), ("r", some 79)] ⟨84 / 25, 1 / 3, 130⟩], [0, 2, 3]) := by
  decide +kernel

/-- The hypotheses can be met. -/
example : Clean exRow ∧ ∀ m : ℚ, 0 < (fun x : ℚ => x * x + 1) m := ⟨⟨by simp [exRow], by simp [exRow]⟩, fun m => by
  have := mul_self_nonneg m
  simp only
  linarith⟩

end Verif.Sext
