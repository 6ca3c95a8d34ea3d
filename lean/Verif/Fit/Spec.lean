import Verif.Fit.Model
import Verif.Engine.Spec
import Verif.Lsq.Spec

/-!
# Specification vocabulary for a whole optimization
-/

namespace Verif.Fit

open Verif Params Patches Engine Finset

variable {R M : Type} [Field R] [LinearOrder R]

/-- The tractor is in order (as for C30 and C32): mask dictionaries for all images, inverse errors with the shape of the data, images small enough for
32-bit pixel numbers, priors of existing parameters with non-zero width, derivative lists and step sizes of the right lengths. -/
structure Ready (W : World R M) (hooks : Tractor R M → Nat → Nat → Option (List (Deriv R))) (T : Tractor R M) : Prop where
  mask : ∀ x ∈ T.images, MasksOK T x.2
  shape : ∀ x ∈ T.images, x.2.inverr.h = x.2.data.h ∧ x.2.inverr.w = x.2.data.w ∧ x.2.data.w * x.2.data.h < 2 ^ 31
  prior : PriorsOK T.par
  hook : ∀ (i : Nat) x, T.images[i]? = some x → x.1 = true → HooksOK (hooks T i) x.2.par
  steps : ∀ x ∈ T.images, x.1 = true → (getStepSizes (.multi x.2.par)).length = (thawedValues (.multi x.2.par)).length
  derivs : ∀ s, (true, some s) ∈ T.catalog → ∀ x ∈ T.images, ∀ ds, Reports W T s x.2 ds → ds.length ≤ (thawedValues s.par).length

/-- The model images are linear in the thawed parameters: pixel (x, y) of image `i` is `base i y x` plus the sum of the values of the parameters `k`
times `D k i y x`; and the derivatives the sources and the calibrations of the images report at the present values are these.  A calibration may also
leave a derivative to be computed from a difference (with a non-zero step). -/
structure Linear (W : World R M) (hooks : Tractor R M → Nat → Nat → Option (List (Deriv R))) (T : Tractor R M) (base : Nat → Nat → Nat → R)
    (D : Nat → Nat → Nat → Nat → R) : Prop where
  model : ∀ p : List R, p.length = numberOfParams T.par → ∀ i b im, (setAll T p).images[i]? = some (b, im) → ∀ A,
    getModelImage W (setAll T p) im none true = .ok A → ∀ y x, y < im.data.h → x < im.data.w →
      A.px y x = base i y x + ∑ k ∈ range (numberOfParams T.par), p.getD k 0 * D k i y x
  source : ∀ k o' j b s, Located T k (T.images.length + o') j → T.catalog[o']? = some (b, some s) →
    ∀ i c im, T.images[i]? = some (c, im) → ∀ ds, Reports W T s im ds → ∀ y x, y < im.data.h → x < im.data.w →
      patchAt ((ds[j]?).getD none) x y = D k i y x
  image : ∀ k o j b im, Located T k o j → T.images[o]? = some (b, im) → ∀ d, (reported (hooks T o) im.par)[j]? = some d →
    (d = .false ∧ (getStepSizes T.par)[k]? ≠ some 0) ∨
    ∃ p, d = .patch p ∧ ∀ y x, y < im.data.h → x < im.data.w → p.at x y = D k o y x

/-- Pixel (x, y) of the model image of image `i`, `tractor.getModelImage(i)`. -/
def pixel (W : World R M) (T : Tractor R M) (i y x : Nat) : R :=
  match T.images[i]? with
  | none => 0
  | some (_, im) =>
    match getModelImage W T im none true with
    | .error _ => 0
    | .ok A => A.px y x

/-- The derivatives that `getDerivs` gets at the present values are the derivative images `D`: those the sources and the calibrations of the images
report; where a calibration leaves a derivative to be computed from a difference, the difference of the model images; and a parameter of one image has no
effect on the others. -/
structure Reported (W : World R M) (hooks : Tractor R M → Nat → Nat → Option (List (Deriv R))) (T : Tractor R M)
    (D : Nat → Nat → Nat → Nat → R) : Prop where
  source : ∀ k o' j b s, Located T k (T.images.length + o') j → T.catalog[o']? = some (b, some s) →
    ∀ i c im, T.images[i]? = some (c, im) → ∀ ds, Reports W T s im ds → ∀ y x, y < im.data.h → x < im.data.w →
      patchAt ((ds[j]?).getD none) x y = D k i y x
  image : ∀ k o j b im, Located T k o j → T.images[o]? = some (b, im) → ∀ d, (reported (hooks T o) im.par)[j]? = some d →
    (d = .false ∧ ∃ st, (getStepSizes T.par)[k]? = some st ∧ st ≠ 0 ∧
      ∀ im' A A', (setAll T ((getParams T.par).set k ((getParams T.par).getD k 0 + st))).images[o]? = some (b, im') →
        getModelImage W T im none true = .ok A →
        getModelImage W (setAll T ((getParams T.par).set k ((getParams T.par).getD k 0 + st))) im' none true = .ok A' →
        ∀ y x, y < im.data.h → x < im.data.w → A'.px y x - A.px y x = st * D k o y x) ∨
    ∃ p, d = .patch p ∧ ∀ y x, y < im.data.h → x < im.data.w → p.at x y = D k o y x
  other : ∀ k o j b im, Located T k o j → T.images[o]? = some (b, im) → ∀ i b' im', T.images[i]? = some (b', im') → o ≠ i →
    ∀ y x, y < im'.data.h → x < im'.data.w → D k i y x = 0

/-- The widths of the priors of parameter `k` that take part. -/
def widths (o : Opts) (T : Tractor R M) (k : Nat) : List R :=
  if o.priors then (((thawedPriors T.par)[k]?).map (fun x => x.2.map (·.2))).getD [] else []

/-- The effect of parameter `k`: the sum of the squares of its weighted derivatives in all images, and of the inverse widths of its priors. -/
def effect (o : Opts) (T : Tractor R M) (D : Nat → Nat → Nat → Nat → R) (k : Nat) : R :=
  (T.images.zipIdx.map (fun x => ∑ r ∈ range x.1.2.data.h, ∑ c ∈ range x.1.2.data.w, (D k x.2 r c * x.1.2.inverr.px r c) ^ 2)).sum +
  ((widths o T k).map (fun s => (1 / s) ^ 2)).sum

/-- With scaled columns, no non-zero weighted derivative is as small as `tiny` relative to the effect of its parameter (smaller ones are dropped). -/
def NoTiny (S : Solver R) (o : Opts) (T : Tractor R M) (D : Nat → Nat → Nat → Nat → R) : Prop :=
  ∀ k v, v ≠ 0 →
    ((∃ i b im r c, T.images[i]? = some (b, im) ∧ r < im.data.h ∧ c < im.data.w ∧ v = D k i r c * im.inverr.px r c) ∨ ∃ s ∈ widths o T k, v = 1 / s) →
    S.tiny < |v / S.sqrt (effect o T D k)|

/-- What is asked of the options: Gaussian priors, if there are any, take part; with `scale_columns` no derivative is dropped; with `shared_params` the
last parameter has an effect. -/
structure Options (S : Solver R) (o : Opts) (T : Tractor R M) (D : Nat → Nat → Nat → Nat → R) : Prop where
  prior : o.priors = true ∨ ∀ x ∈ thawedPriors T.par, x.2 = []
  scale : o.scale = true → NoTiny S o T D
  shared : o.shared = true → 0 < numberOfParams T.par → effect o T D (numberOfParams T.par - 1) ≠ 0

/-- The log-probability of the tractor is `L`, and not larger with any other values of the thawed parameters. -/
def Best (W : World R M) (T : Tractor R M) : Prop :=
  ∃ L, logProb W T = .ok (.fin L) ∧ ∀ q : List R, q.length = numberOfParams T.par → ∃ L', logProb W (setAll T q) = .ok (.fin L') ∧ L' ≤ L

end Verif.Fit
