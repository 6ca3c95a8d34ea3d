import Verif.Src.Lemmas3
import Mathlib.Algebra.Field.Rat
import Mathlib.Algebra.Order.Ring.Rat

/-!
# C41: derivative lists of sources

A derivative list is compared with the difference quotients `quotient` of the source's model image with
respect to the parameter vector of the whole source (`getParams`, `setParam`, `getStepSizes` of
`Verif/Params`); position derivatives that are taken from pixel derivatives are compared with the chain rule.
The theorems hold for all freeze patterns, all renderers, photometric calibrations and WCS.
-/

namespace Verif.Src

open Verif Verif.Params

variable {R M K : Type} [Field R] [LinearOrder R] [AddCommGroup M] [Module R M]

/-- **C41 for point sources.** The list has one entry for each thawed parameter and the source is left as
it was.  If the source renders inside the image, the brightness entries are the difference quotients of
the model image; the position entries are too, unless the PSF provided derivatives, in which case they
follow the chain rule with the inverse CD matrix. -/
theorem C41_point (I : Image R) (W : PointWorld R M K) (fast : Bool) (mask : Option K) (s : PointSource R)
    (hpos : s.pos.slots.length ≤ 2) (hps : s.posLiquid = true → GoodSteps (.plist s.pos))
    (hb : s.brightLiquid = true → GoodSteps s.bright)
    (hW : ∀ mv, (W.withDerivs s.pos mv mask).map (·.1) = W.unit s.pos mv mask) :
    ∃ ds, pointDerivs I W fast mask s = (s, .ok ds) ∧ ds.length = numberOfParams s.tree ∧
      ∀ patch0, W.unit s.pos (minvalOf I.minsb (I.counts s.bright)) mask = some patch0 →
        W.overlaps patch0 = true → ∀ (k : Nat) (d : Option M), ds[k]? = some d →
          ((posCount s.posLiquid s.pos ≤ k ∨ fast = false ∨
              W.withDerivs s.pos (minvalOf I.minsb (I.counts s.bright)) mask = some (patch0, none)) →
            d.getD 0 = quotient (pointModel I W (minvalOf I.minsb (I.counts s.bright)) mask) s.tree k) ∧
          (k < posCount s.posLiquid s.pos → fast = true → ∀ dx dy,
            W.withDerivs s.pos (minvalOf I.minsb (I.counts s.bright)) mask = some (patch0, some (dx, dy)) →
            ChainRule (I.cdi s.pos) s.pos (I.counts s.bright) dx dy k (d.getD 0)) :=
  point_ok I W fast mask s hpos hps hb hW

/-- **C41 for single-profile galaxies.** The list has one entry for each thawed parameter and the source is
left as it was.  If the galaxy renders, position entries follow the chain rule applied to the pixel
differences, and brightness and shape entries are the difference quotients of the model image in the mask
(or in the extent of the first rendering). -/
theorem C41_galaxy (I : Image R) (W : GalaxyWorld R M K) (hr : MaskRenders W) (hs : MaskStable W)
    (mask : Option K) (s : Galaxy R) (hpos : s.pos.slots.length ≤ 2)
    (hps : s.posLiquid = true → GoodSteps (.plist s.pos))
    (hb : s.brightLiquid = true → GoodSteps s.bright) (hg : s.shapeLiquid = true → GoodSteps s.shape) :
    ∃ ds, galaxyDerivs I W mask s = (s, .ok ds) ∧ ds.length = numberOfParams s.tree ∧
      ∀ patch0, W.unit s.pos s.shape (minvalOf I.minsb (I.counts s.bright)) mask = some patch0 →
        ∀ (k : Nat) (d : Option M), ds[k]? = some d →
        (k < posCount s.posLiquid s.pos → ChainRule (I.cdi s.pos) s.pos (I.counts s.bright)
          (W.grad patch0).1 (W.grad patch0).2 k (d.getD 0)) ∧
        (posCount s.posLiquid s.pos ≤ k → d.getD 0 = quotient (galaxyModel I W
          (minvalOf I.minsb (I.counts s.bright)) (mask.getD (W.extentMask patch0))) s.tree k) := by
  cases hp : W.unit s.pos s.shape (minvalOf I.minsb (I.counts s.bright)) mask with
  | none =>
    refine ⟨List.replicate (numberOfParams s.tree) none, ?_, List.length_replicate, by simp⟩
    simp only [galaxyDerivs, hp]
  | some p =>
    obtain ⟨ds, h1, h2, h3⟩ := galaxy_ok I W hr hs mask s hpos hps hb hg p hp
    refine ⟨ds, h1, h2, fun patch0 h => ?_⟩
    cases h
    exact h3

/-- **C41 for composite galaxies** (two profiles with a brightness each): one entry for each thawed
parameter, in the order of the parameter vector; position entries are the sums for the two profiles. -/
theorem C41_composite (I : Image R) (We Wd : GalaxyWorld R M K) (hre : MaskRenders We) (hse : MaskStable We)
    (hrd : MaskRenders Wd) (hsd : MaskStable Wd) (mask : Option K) (s : Composite R)
    (hpos : s.pos.slots.length ≤ 2) (hps : s.posLiquid = true → GoodSteps (.plist s.pos))
    (hbe : s.brightExpLiquid = true → GoodSteps s.brightExp) (hge : s.expLiquid = true → GoodSteps s.shapeExp)
    (hbd : s.brightDevLiquid = true → GoodSteps s.brightDev) (hgd : s.devLiquid = true → GoodSteps s.shapeDev) :
    ∃ ds, compositeDerivs I We Wd mask s = (s, .ok ds) ∧ ds.length = numberOfParams s.tree ∧
      ∀ pe pd, We.unit s.pos s.shapeExp (minvalOf I.minsb (I.counts s.brightExp)) mask = some pe →
        Wd.unit s.pos s.shapeDev (minvalOf I.minsb (I.counts s.brightDev)) mask = some pd →
        ∀ (k : Nat) (d : Option M), ds[k]? = some d →
          (k < posCount s.posLiquid s.pos → ∃ a b, d.getD 0 = a + b ∧
            ChainRule (I.cdi s.pos) s.pos (I.counts s.brightExp) (We.grad pe).1 (We.grad pe).2 k a ∧
            ChainRule (I.cdi s.pos) s.pos (I.counts s.brightDev) (Wd.grad pd).1 (Wd.grad pd).2 k b) ∧
          (posCount s.posLiquid s.pos ≤ k → d.getD 0 =
            quotient (compositeModel I We Wd (minvalOf I.minsb (I.counts s.brightExp))
              (minvalOf I.minsb (I.counts s.brightDev)) (mask.getD (We.extentMask pe))
              (mask.getD (Wd.extentMask pd))) s.tree k) :=
  composite_ok I We Wd hre hse hrd hsd mask s hpos hps hbe hge hbd hgd

/-- **C41 for fixed-composite galaxies (part).** The length of the list, for all freeze patterns: it is the
number of thawed parameters, plus the number of brightness parameters for each thawed shape *if the
brightness is frozen*.  When the brightness is thawed or both shapes are frozen, the entries are those of
the parameter vector: position by the chain rule for the two profiles weighted by the fraction, the others
the difference quotients of the model image; for the fraction provided that the fraction and its step stay
in [0, 1] and that both profiles render the same without flux cut.
Missing: the case of frozen brightness and a thawed shape, where the claim is false. -/
theorem C41_fixed_partial (I : Image R) (We Wd : GalaxyWorld R M K) (hre : MaskRenders We)
    (hse : MaskStable We) (hrd : MaskRenders Wd) (hsd : MaskStable Wd) (mask : Option K) (s : FixedComposite R)
    (hpos : s.pos.slots.length ≤ 2) (hps : s.posLiquid = true → GoodSteps (.plist s.pos))
    (hb : GoodSteps s.bright) (hf : s.fracLiquid = true → GoodSteps (.scalar s.frac))
    (hge : s.expLiquid = true → GoodSteps s.shapeExp) (hgd : s.devLiquid = true → GoodSteps s.shapeDev) :
    ∃ ds, fixedDerivs I We Wd mask s = (s, .ok ds) ∧
      ds.length = numberOfParams s.tree + (if s.brightLiquid then 0 else
        (if s.expLiquid then numberOfParams s.bright else 0) +
        (if s.devLiquid then numberOfParams s.bright else 0)) ∧
      ((s.brightLiquid = true ∨ (s.expLiquid = false ∧ s.devLiquid = false)) →
      ∀ pe pd, We.unit s.pos s.shapeExp (minvalOf I.minsb (I.counts s.bright)) mask = some pe →
        Wd.unit s.pos s.shapeDev (minvalOf I.minsb (I.counts s.bright)) mask = some pd →
        (s.fracLiquid = true → We.unit s.pos s.shapeExp (some 0) mask = some pe ∧
          Wd.unit s.pos s.shapeDev (some 0) mask = some pd ∧
          0 ≤ s.frac.val ∧ s.frac.val ≤ 1 ∧ 0 ≤ s.frac.val + s.frac.step.getD s.frac.defstep ∧
          s.frac.val + s.frac.step.getD s.frac.defstep ≤ 1) →
        ∀ (k : Nat) (d : Option M), ds[k]? = some d →
          (k < posCount s.posLiquid s.pos → ∃ a b,
            d.getD 0 = (1 - clip01 s.frac.val) • a + clip01 s.frac.val • b ∧
            ChainRule (I.cdi s.pos) s.pos (I.counts s.bright) (We.grad pe).1 (We.grad pe).2 k a ∧
            ChainRule (I.cdi s.pos) s.pos (I.counts s.bright) (Wd.grad pd).1 (Wd.grad pd).2 k b) ∧
          (posCount s.posLiquid s.pos ≤ k → d.getD 0 =
            quotient (fixedModel I We Wd (minvalOf I.minsb (I.counts s.bright))
              (mask.getD (We.extentMask pe)) (mask.getD (Wd.extentMask pd))) s.tree k)) :=
  fixed_ok I We Wd hre hse hrd hsd mask s hpos hps hb hf hge hgd

/-- **C41 for constant surface brightness.** -/
theorem C41_constant (I : Image R) (flat : M) (s : Constant R)
    (hb : s.brightLiquid = true → GoodSteps s.bright) :
    ∃ ds, constantDerivs I flat s = (s, .ok ds) ∧
      Aligned (numberOfParams s.tree) (quotient (constantModel I flat) s.tree) ds := by
  obtain ⟨ds, h1, h2, h3⟩ := constantDerivs_ok I flat s hb
  refine ⟨ds, h1, ?_⟩
  have := aligned_cons (fun r => constantModel I flat (.multi r)) ["brightness"] s.brightLiquid s.bright .nil
    ds [] (fun hl => ⟨hb hl, h3 hl⟩) h2 (aligned_nil _)
  rw [List.append_nil] at this
  exact this

/-! ## Examples -/

/-- A position (3, 5) with `x` frozen or not. -/
def exPos (xl : Bool) : PList Rat :=
  ⟨[⟨["x"], xl, 3⟩, ⟨["y"], true, 5⟩], [none, none], [none, none], [none, none], some [1/2, 1/4], []⟩

/-- Fluxes in two bands. -/
def exBright : Par Rat :=
  .plist ⟨[⟨["g"], true, 10⟩, ⟨["r"], true, 20⟩], [none, none], [none, none], [none, none], some [2, 1], []⟩

/-- A shape with one parameter. -/
def exShape (v : Rat) : Par Rat := .plist ⟨[⟨["re"], true, v⟩], [none], [none], [none], some [1/10], []⟩

/-- The first value of a list. -/
def val0 : Par Rat → Rat
  | .plist ⟨s :: _, _, _, _, _, _⟩ => s.val
  | _ => 0

/-- The second value of a list. -/
def val1 : Par Rat → Rat
  | .plist ⟨_ :: s :: _, _, _, _, _, _⟩ => s.val
  | _ => 0

/-- An r-band image with zeropoint factor 3. -/
def exImage : Image Rat := ⟨fun b => 3 * val1 b, 0, fun _ => ((1, 2), (3, 4))⟩

/-- "Patches" are numbers here: a renderer linear in position. -/
def exPoint : PointWorld Rat Rat Unit where
  unit p _ _ := some (val0 (.plist p) + 7 * val1 (.plist p))
  withDerivs p _ _ := some (val0 (.plist p) + 7 * val1 (.plist p), some (1, 7))
  overlaps _ := true

/-- A renderer depending on position and shape. -/
def exGal (a : Rat) : GalaxyWorld Rat Rat Unit where
  unit p g _ _ := some (val0 (.plist p) + a * val0 g)
  forced p g _ _ := some (val0 (.plist p) + a * val0 g)
  extentMask _ := ()
  grad _ := (1, 0)

/-- x frozen: one position entry (by the chain rule with column 1 of the matrix, or by stepping), none for
band g, one for band r. -/
example : (pointDerivs exImage exPoint true none ⟨true, exPos false, true, exBright⟩).2 =
      .ok [some 1800, none, some 114] ∧
    (pointDerivs exImage exPoint false none ⟨true, exPos true, true, exBright⟩).2 =
      .ok [some 60, some 420, none, some 114] := by
  constructor <;> decide +kernel

example : (galaxyDerivs exImage (exGal 2) none ⟨true, exPos false, true, exBright, true, exShape 4⟩).2 =
    .ok [some 120, none, some 33, some 120] := by decide +kernel

example : (compositeDerivs exImage (exGal 2) (exGal 5) none
      ⟨true, exPos false, false, exBright, true, exShape 4, true, exBright, false, exShape 6⟩).2 =
    .ok [some 240, some 120, none, some 99] := by decide +kernel

/-- A fraction of 1/4 with step 1/10. -/
def exFrac (f : Rat) : Scalar Rat := ⟨"fracDev", f, none, none, none, 1/10, none⟩

example : (fixedDerivs exImage (exGal 2) (exGal 5) none
      ⟨true, exPos false, true, exBright, true, exFrac (1/4), true, exShape 4, true, exShape 6⟩).2 =
    .ok [some 120, none, some (99/2), some 1320, some 90, some 75] := by decide +kernel

example : (constantDerivs exImage (2 : Rat) ⟨true, exBright⟩).2 = .ok [none, some 6] := by decide +kernel

/-- The hypotheses of the theorems hold in these examples. -/
example : (GoodSteps (.plist (exPos false)) ∧ GoodSteps exBright ∧ GoodSteps (exShape 4) ∧
      GoodSteps (.scalar (exFrac (1/4)))) ∧ MaskRenders (exGal 2) ∧ MaskStable (exGal 2) ∧
    ∀ p mv m, (exPoint.withDerivs p mv m).map (·.1) = exPoint.unit p mv m := by
  refine ⟨?_, fun _ _ _ _ => rfl, fun _ _ _ _ _ h => h, fun _ _ _ => rfl⟩
  refine ⟨⟨?_, ?_⟩, ⟨?_, ?_⟩, ⟨?_, ?_⟩, ⟨?_, ?_⟩⟩ <;> decide +kernel

/-! ## Where the claim is false -/

/-- **C41 is false for fixed-composite galaxies with frozen brightness and a thawed shape**: brightness is
never frozen in the two galaxies made inside `getParamDerivatives`, so their brightness derivatives end up
in front of the shape derivatives.  Here there are 2 thawed parameters and 4 entries. -/
theorem C41_frozen_brightness_false :
    let s : FixedComposite Rat :=
      ⟨true, exPos false, false, exBright, false, exFrac (1/4), true, exShape 4, false, exShape 6⟩
    numberOfParams s.tree = 2 ∧
    (fixedDerivs exImage (exGal 2) (exGal 5) none s).2 = .ok [some 120, none, some (99/4), some 90] := by
  constructor <;> decide +kernel

/-- **The `fracDev` entry is false outside [0, 1]**: with a fraction of 2 (clipped to 1) the model image does
not depend on the fraction, but the derivative given is 1320. -/
theorem C41_frac_clipped_false :
    let s : FixedComposite Rat :=
      ⟨false, exPos false, false, exBright, true, exFrac 2, false, exShape 4, false, exShape 6⟩
    (fixedDerivs exImage (exGal 2) (exGal 5) none s).2 = .ok [some 1320] ∧
    quotient (fixedModel exImage (exGal 2) (exGal 5) none () ()) s.tree 0 = 0 := by
  constructor <;> decide +kernel

end Verif.Src
