import Verif.Engine.Model
import Verif.Params.Spec
import Verif.Patch.Spec
import Mathlib.Algebra.BigOperators.Group.Finset.Basic

/-!
# Specification vocabulary for the Tractor object
-/

namespace Verif.Engine

open Verif Verif.Params Verif.Patches

variable {R M : Type}

/-- The sky level at a pixel. -/
def Sky.at [Zero R] : Sky R → Nat → Nat → R
  | .null, _, _ => 0
  | .constant v, _, _ => v
  | .field f, x, y => f y x

/-- Mask lookups for this image work: there are no masks, or the image is one of the tractor's and there
is a dictionary for it. -/
def MasksOK (T : Tractor R M) (img : Image R) : Prop :=
  ∀ masks, T.modelMasks = some masks → masks.length = T.images.length ∧ ∃ x ∈ T.images, x.2.id = img.id

/-- The mask of a source in an image: the entry of the source in the dictionary that belongs to the
first position at which the image occurs. -/
inductive HasMask (T : Tractor R M) (img : Image R) (src : Source R) : Option M → Prop
  | nomasks (h : T.modelMasks = none) : HasMask T img src none
  | entry (masks : List (List (Nat × M))) (h : T.modelMasks = some masks) (i : Nat) (b : Bool)
      (im : Image R) (hi : T.images[i]? = some (b, im)) (him : im.id = img.id)
      (hfirst : ∀ (j : Nat) x, j < i → T.images[j]? = some x → x.2.id ≠ img.id)
      (d : List (Nat × M)) (hd : masks[i]? = some d) (pre post : List (Nat × M)) (m : M)
      (hpre : ∀ e ∈ pre, e.1 ≠ src.id) (hsplit : d = pre ++ (src.id, m) :: post) :
      HasMask T img src (some m)
  | missing (masks : List (List (Nat × M))) (h : T.modelMasks = some masks) (i : Nat) (b : Bool)
      (im : Image R) (hi : T.images[i]? = some (b, im)) (him : im.id = img.id)
      (hfirst : ∀ (j : Nat) x, j < i → T.images[j]? = some x → x.2.id ≠ img.id)
      (d : List (Nat × M)) (hd : masks[i]? = some d) (hno : ∀ e ∈ d, e.1 ≠ src.id) :
      HasMask T img src none

/-- What a source contributes to an image: its rendering with its own mask; nothing if masks are
expected and it has none. -/
def Contributes (W : World R M) (T : Tractor R M) (img : Image R) (src : Source R)
    (p : Option (Patch R)) : Prop :=
  ∃ mask, HasMask T img src mask ∧
    p = if T.expectModelMasks = true ∧ mask = none then none else W.render src img mask

/-- `p` lists what the sources contribute, in order; missing sources contribute nothing. -/
def Contributions (W : World R M) (T : Tractor R M) (img : Image R) :
    List (Option (Source R)) → List (Option (Patch R)) → Prop :=
  List.Forall₂ (fun s p => match s with
    | none => p = none
    | some src => Contributes W T img src p)

/-- Value at pixel (x, y) of an optional patch. -/
def patchAt [Zero R] (p : Option (Patch R)) (x y : Nat) : R :=
  match p with
  | none => 0
  | some p => p.at x y

/-- Two arrays have the same shape and pixels. -/
def SameArr (A B : Arr R) : Prop :=
  A.h = B.h ∧ A.w = B.w ∧ ∀ r c, r < A.h → c < A.w → A.px r c = B.px r c

/-! Derivatives.  The tractor's parameter vector consists of one block per object: first the images,
then the sources; the block of a frozen object is empty. -/

/-- Sizes of the blocks. -/
def blocks (T : Tractor R M) : List Nat :=
  T.images.map (fun x =>
    if T.imagesThawed && x.1 then (thawedValues (.multi x.2.par)).length else 0) ++
  T.catalog.map (fun x =>
    if T.catalogThawed && x.1 then
      match x.2 with
      | some s => (thawedValues s.par).length
      | none => 0
    else 0)

/-- Parameter `k` of the tractor is parameter `j` of object `o`. -/
def Located (T : Tractor R M) (k o j : Nat) : Prop :=
  ∃ n, (blocks T)[o]? = some n ∧ j < n ∧ k = ((blocks T).take o).sum + j

/-- The calibrations of an image: number, flag, parameters. -/
def calibs : Nat → Subs R → List (Nat × Bool × Par R)
  | _, .nil => []
  | k, .cons _ b s rest => (k, b, s) :: calibs (k + 1) rest
  | k, .missing _ _ rest => calibs (k + 1) rest

/-- What an image's thawed calibrations report, parameter by parameter: their own list if they have the
method, "compute it for me" otherwise. -/
def reported (hook : Nat → Option (List (Deriv R))) (par : Subs R) : List (Deriv R) :=
  (calibs 0 par).flatMap (fun x =>
    if x.2.1 then (hook x.1).getD (List.replicate (thawedValues x.2.2).length .false) else [])

/-- Every thawed calibration with the method reports as many derivatives as it has parameters. -/
def HooksOK (hook : Nat → Option (List (Deriv R))) (par : Subs R) : Prop :=
  ∀ x ∈ calibs 0 par, x.2.1 = true → ∀ l, hook x.1 = some l → l.length = (thawedValues x.2.2).length

/-- The derivatives a source reports in an image: with its own mask; None for every parameter if masks
are expected and it has none. -/
def Reports (W : World R M) (T : Tractor R M) (src : Source R) (img : Image R)
    (ds : List (Option (Patch R))) : Prop :=
  ∃ mask, HasMask T img src mask ∧
    ds = if T.expectModelMasks = true ∧ mask = none then
        List.replicate (thawedValues src.par).length none
      else W.srcDerivs src img mask

/-- The finite-difference derivative of `getDerivs` for parameter `k` of the tractor, a parameter of
image `i`: difference of the model images at `p_k + h` and `p_k`, over the step size `h`. -/
def IsFiniteDifference [Field R] (model : Tractor R M → Image R → Except PyErr (Arr R))
    (T : Tractor R M) (k i : Nat) (q : Patch R) : Prop :=
  ∃ (T1 : Tractor R M) (b : Bool) (im im1 : Image R) (p h : R) (m0 m1 D : Arr R),
    -- T1 is the tractor after setParam(k, p_k + h)
    (getParams T.par)[k]? = some p ∧ (getStepSizes T.par)[k]? = some h ∧
    T1.par = (setParam T.par k (p + h)).1 ∧
    T1.modelMasks = T.modelMasks ∧ T1.expectModelMasks = T.expectModelMasks ∧
    T.images[i]? = some (b, im) ∧ T1.images[i]? = some (b, im1) ∧
    im1.id = im.id ∧ im1.data = im.data ∧ im1.inverr = im.inverr ∧
    model T im = .ok m0 ∧ model T1 im1 = .ok m1 ∧
    q = ⟨0, 0, some D⟩ ∧ D.h = im.data.h ∧ D.w = im.data.w ∧
    ∀ y x, D.px y x = (m1.px y x - m0.px y x) / h

/-- The entry for parameter `k`, a parameter of image `i`, whose calibration reports `d`. -/
def ImageEntry [Field R] (model : Tractor R M → Image R → Except PyErr (Arr R))
    (T : Tractor R M) (k i : Nat) : Deriv R → Option (Patch R) → Prop
  | .patch p, e => e = some p
  | .none, e => e = none
  | .false, e => ∃ q, e = some q ∧ IsFiniteDifference model T k i q

/-- The entries image `i` adds to the list of a source's parameter `j`, given what the source reports
there: its derivative if it is not None. -/
def entryOf (ds : List (Option (Patch R))) (i j : Nat) : List (DerivEntry R) :=
  match ds[j]? with
  | some (some p) => [(some p, i)]
  | _ => []

end Verif.Engine
