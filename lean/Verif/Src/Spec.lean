import Verif.Src.Model

/-!
# What the derivatives of a source should be
-/

namespace Verif.Src

open Verif Verif.Params

variable {R M K : Type} [Field R] [LinearOrder R] [AddCommGroup M] [Module R M]

/-- Difference quotient of a model image with respect to the `k`-th thawed parameter of an object, with
the step size the object gives for it. -/
def quotient (model : Par R → M) (t : Par R) (k : Nat) : M :=
  match (getParams t)[k]?, (getStepSizes t)[k]? with
  | some v, some h => h⁻¹ • (model (setParam t k (v + h)).1 - model t)
  | _, _ => 0

/-- Step sizes are given for all thawed parameters and are not zero. -/
def GoodSteps (t : Par R) : Prop :=
  (getStepSizes t).length = numberOfParams t ∧ ∀ s ∈ getStepSizes t, s ≠ 0

/-- `ds` has one entry for each of `n` parameters, entry `k` being `rule k` (None stands for zero). -/
def Aligned (n : Nat) (rule : Nat → M) (ds : List (Option M)) : Prop :=
  ds.length = n ∧ ∀ (k : Nat) (d : Option M), ds[k]? = some d → d.getD 0 = rule k

/-- Column `j` of a 2x2 matrix. -/
def column (cdi : (R × R) × (R × R)) (j : Nat) : R × R :=
  if j = 0 then (cdi.1.1, cdi.2.1) else (cdi.1.2, cdi.2.2)

/-- Chain rule: `d` is the derivative for the `k`-th thawed position parameter: if it is number `j` of
all position parameters, `counts (dx * cdi[0,j] + dy * cdi[1,j])`. -/
def ChainRule (cdi : (R × R) × (R × R)) (pos : PList R) (counts : R) (dx dy : M) (k : Nat) (d : M) : Prop :=
  ∀ (j : Nat) (s : Slot R), pos.slots[j]? = some s → s.liquid = true →
    ((pos.slots.take j).filter (·.liquid)).length = k →
    d = counts • ((column cdi j).1 • dx + (column cdi j).2 • dy)

/-- Number of thawed position parameters. -/
def posCount (liquid : Bool) (pos : PList R) : Nat := if liquid then numberOfParams (.plist pos) else 0

/-- The model image of a point source: counts times unit-flux patch (nothing if not rendered). -/
def pointModel (I : Image R) (W : PointWorld R M K) (minval : Option R) (mask : Option K) (t : Par R) : M :=
  match t with
  | .multi (.cons _ _ (.plist p) (.cons _ _ b .nil)) => I.counts b • (W.unit p minval mask).getD 0
  | _ => 0

/-- The model image of a constant surface brightness. -/
def constantModel (I : Image R) (flat : M) (t : Par R) : M :=
  match t with
  | .multi (.cons _ _ b .nil) => I.counts b • flat
  | _ => 0

/-- The model image of a galaxy in a mask. -/
def galaxyModel (I : Image R) (W : GalaxyWorld R M K) (minval : Option R) (mask : K) (t : Par R) : M :=
  match t with
  | .multi (.cons _ _ (.plist p) (.cons _ _ b (.cons _ _ g .nil))) =>
    I.counts b • (W.forced p g minval mask).getD 0
  | _ => 0

/-- The model image of a fixed composite galaxy: the counts are divided between the two profiles. -/
def fixedModel (I : Image R) (We Wd : GalaxyWorld R M K) (minval : Option R) (maskE maskD : K)
    (t : Par R) : M :=
  match t with
  | .multi (.cons _ _ (.plist p) (.cons _ _ b (.cons _ _ (.scalar f) (.cons _ _ ge (.cons _ _ gd .nil))))) =>
    I.counts b • ((1 - clip01 f.val) • (We.forced p ge minval maskE).getD 0 +
      clip01 f.val • (Wd.forced p gd minval maskD).getD 0)
  | _ => 0

/-- The model image of a composite galaxy: the sum of its two galaxies. -/
def compositeModel (I : Image R) (We Wd : GalaxyWorld R M K) (mvE mvD : Option R) (maskE maskD : K)
    (t : Par R) : M :=
  match t with
  | .multi (.cons _ _ (.plist p) (.cons _ _ be (.cons _ _ ge (.cons _ _ bd (.cons _ _ gd .nil))))) =>
    I.counts be • (We.forced p ge mvE maskE).getD 0 + I.counts bd • (Wd.forced p gd mvD maskD).getD 0
  | _ => 0

/-- A rendering is reproduced with `force_sourceOut` in the same mask, and in its own extent if there was
no mask. -/
def MaskStable (W : GalaxyWorld R M K) : Prop :=
  ∀ pos shape minval mask p, W.unit pos shape minval mask = some p →
    W.forced pos shape minval (mask.getD (W.extentMask p)) = some p

/-- With a mask and `force_sourceOut` there is always a rendering. -/
def MaskRenders (W : GalaxyWorld R M K) : Prop :=
  ∀ pos shape minval k, (W.forced pos shape minval k).isSome = true

end Verif.Src
