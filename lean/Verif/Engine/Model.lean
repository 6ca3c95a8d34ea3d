import Verif.Num
import Verif.Params.Model
import Verif.Patch.Model
import Mathlib.Algebra.Field.Defs
import Mathlib.Algebra.BigOperators.Group.List.Basic

/-!
# Model of the Tractor object (tractor/engine.py)

Images and sources are compared by identity in the code (no `__eq__` is defined on them), hence the
`id` fields.  Rendering of sources and the derivatives they and the image calibrations report are
external code here (`World`), arbitrary functions of the objects' state.  Floating point rounding and
the single precision of `modtype` are not modelled.
-/

namespace Verif.Engine

open Verif Verif.Params Verif.Patches

variable {R M : Type}

/-- `Image` (image.py 15-64): identity, the parameter tree [psf, wcs, photocal, sky], pixels and inverse
errors. -/
structure Image (R : Type) where
  id : Nat
  par : Subs R
  data : Arr R
  inverr : Arr R

/-- A source: identity and parameters. -/
structure Source (R : Type) where
  id : Nat
  par : Par R

/-- `Tractor` (engine.py 92-134).  `imagesThawed`, `catalogThawed` are its own two flags; the lists carry
the flags of `Images` and `Catalog`.  `modelMasks` is a list of dictionaries keyed by source. -/
structure Tractor (R M : Type) where
  imagesThawed : Bool
  images : List (Bool × Image R)
  catalogThawed : Bool
  catalog : List (Bool × Option (Source R))
  modelMasks : Option (List (List (Nat × M)))
  expectModelMasks : Bool

/-- Sky models: `NullSky` (sky.py 6-11, ducks `addTo` does nothing), `ConstantSky` (14-44), and any sky
that adds a fixed field of values (e.g. `SplineSky.addTo`). -/
inductive Sky (R : Type) where
  | null
  | constant (v : R)
  | field (f : Nat → Nat → R)

/-- External code: `src.getModelPatch(img, modelMask=mask)`, the sky of an image, and
`src.getParamDerivatives(img, modelMask=mask)`. -/
structure World (R M : Type) where
  render : Source R → Image R → Option M → Option (Patch R)
  sky : Image R → Sky R
  srcDerivs : Source R → Image R → Option M → List (Option (Patch R))

/-- `sky.addTo(mod)`: ducks.py `Sky.addTo`, sky.py 28-31 (`ConstantSky` returns at once if the value is
zero). -/
def Sky.addTo [Zero R] [DecidableEq R] [Add R] : Sky R → Arr R → Arr R
  | .null, A => A
  | .constant v, A => if v = 0 then A else A.map (· + v)
  | .field f, A => ⟨A.h, A.w, fun r c => A.px r c + f r c⟩

/-- `Tractor.setModelMasks(masks, assumeMasks)`, engine.py 341-361.  The attribute is assigned before
the length check. -/
def setModelMasks (T : Tractor R M) (masks : Option (List (List (Nat × M)))) (assume : Bool) :
    Tractor R M × Option PyErr :=
  let T := { T with modelMasks := masks }
  match masks with
  | none => ({ T with expectModelMasks := false }, none)
  | some l =>
    if l.length = T.images.length then ({ T with expectModelMasks := assume }, none)
    else (T, some .assertion)

/-- `Tractor._getModelMaskFor(image, src)`, engine.py 363-370: ValueError if the image is not one of the
tractor's, IndexError if there are fewer dictionaries than images, None if the source has no entry. -/
def maskFor (T : Tractor R M) (img : Image R) (src : Source R) : Except PyErr (Option M) :=
  match T.modelMasks with
  | none => .ok none
  | some masks =>
    match T.images.findIdx? (fun x => x.2.id = img.id) with
    | none => .error .value
    | some i =>
      match masks[i]? with
      | none => .error .index
      | some d => .ok ((d.find? (fun e => e.1 = src.id)).map (·.2))

/-- `Tractor.getModelPatch(img, src)`, engine.py 414-422. -/
def getModelPatch (W : World R M) (T : Tractor R M) (img : Image R) (src : Source R) :
    Except PyErr (Option (Patch R)) :=
  match maskFor T img src with
  | .error e => .error e
  | .ok mask =>
    if T.expectModelMasks && mask.isNone then .ok none
    else .ok (W.render src img mask)

/-- The loop over sources of `getModelImage`, engine.py 437-444. -/
def addSources [Zero R] [One R] [Add R] [Mul R] (W : World R M) (T : Tractor R M) (img : Image R) :
    List (Option (Source R)) → Arr R → Except PyErr (Arr R)
  | [], mod => .ok mod
  | none :: srcs, mod => addSources W T img srcs mod
  | some src :: srcs, mod =>
    match getModelPatch W T img src with
    | .error e => .error e
    | .ok none => addSources W T img srcs mod
    | .ok (some patch) =>
      match patch.addTo mod 1 with
      | .error e => .error e
      | .ok mod' => addSources W T img srcs mod'

/-- `Tractor.getModelImage(img, srcs, sky)`, engine.py 424-445; `srcs = none` means the whole catalog,
whatever is frozen (`MultiParams.__iter__`, utils.py 973). -/
def getModelImage [Zero R] [One R] [Add R] [Mul R] [DecidableEq R] (W : World R M) (T : Tractor R M)
    (img : Image R) (srcs : Option (List (Option (Source R)))) (sky : Bool) : Except PyErr (Arr R) :=
  let mod := Arr.zeros img.data.h img.data.w
  let mod := if sky then (W.sky img).addTo mod else mod
  addSources W T img (srcs.getD (T.catalog.map (·.2))) mod

/-- `(img.getImage() - mod) * img.getInvError()`, engine.py 459; arrays of different shape raise
(numpy would broadcast axes of length one). -/
def chiArr [Sub R] [Mul R] (d m e : Arr R) : Except PyErr (Arr R) :=
  if d.h = m.h ∧ d.w = m.w ∧ d.h = e.h ∧ d.w = e.w then
    .ok ⟨d.h, d.w, fun r c => (d.px r c - m.px r c) * e.px r c⟩
  else .error .value

/-- `Tractor.getChiImage(img=img)`, engine.py 455-473 (the diagnostics printed for non-finite values
left out). -/
def getChiImage [Ring R] [DecidableEq R] (W : World R M) (T : Tractor R M) (img : Image R)
    (srcs : Option (List (Option (Source R)))) : Except PyErr (Arr R) :=
  match getModelImage W T img srcs true with
  | .error e => .error e
  | .ok mod => chiArr img.data mod img.inverr

/-- The accumulation loop of `getLogLikelihood`, engine.py 476-478. -/
def chisqLoop [Ring R] [DecidableEq R] (W : World R M) (T : Tractor R M) :
    List (Image R) → R → Except PyErr R
  | [], acc => .ok acc
  | img :: imgs, acc =>
    match getChiImage W T img none with
    | .error e => .error e
    | .ok chi => chisqLoop W T imgs (acc + (chi.ravel.map (fun x => x ^ 2)).sum)

/-- `Tractor.getLogLikelihood()`, engine.py 475-479. -/
def getLogLikelihood [Field R] [DecidableEq R] (W : World R M) (T : Tractor R M) : Except PyErr R :=
  (chisqLoop W T (T.images.map (·.2)) 0).map (fun chisq => -(1 / 2) * chisq)

/-- `Tractor.getLogProb()`, engine.py 481-497: `prior` is `getLogPrior()`, `like` the (possibly raising)
call of `getLogLikelihood()`. -/
def getLogProb [Add R] (prior : Num R) (like : Unit → Except PyErr (Num R)) : Except PyErr (Num R) :=
  match prior with
  | .ninf => .ok .ninf
  | _ =>
    match like () with
    | .error e => .error e
    | .ok lnl =>
      let lnp := prior.add lnl
      if lnp.isNan then .ok .ninf else .ok lnp

/-! ### Derivatives -/

/-- What `getParamDerivatives` of an image calibration may report for one parameter: a patch, None, or
False ("compute it for me"). -/
inductive Deriv (R : Type) where
  | patch (p : Patch R)
  | none
  | false

/-- The parameter tree of the tractor: `MultiParams(images, catalog)`. -/
def catalogSubs : List (Bool × Option (Source R)) → Subs R
  | [] => .nil
  | (b, some s) :: rest => .cons [] b s.par (catalogSubs rest)
  | (b, none) :: rest => .missing [] b (catalogSubs rest)

/-- `Images`, engine.py 79-90. -/
def imagesSubs : List (Bool × Image R) → Subs R
  | [] => .nil
  | (b, i) :: rest => .cons [] b (.multi i.par) (imagesSubs rest)

/-- The tractor as a parameter object, engine.py 105-125. -/
def Tractor.par (T : Tractor R M) : Par R :=
  .multi (.cons ["images"] T.imagesThawed (.multi (imagesSubs T.images))
    (.cons ["catalog"] T.catalogThawed (.multi (catalogSubs T.catalog)) .nil))

/-- The loop of `Image.getParamDerivatives`, image.py 110-120, over the active sub-objects; `hook k` is
`subs[k].getParamDerivatives(tractor, img, srcs)` if the sub-object has that method. -/
def imageDerivs (hook : Nat → Option (List (Deriv R))) : Nat → Subs R → Except PyErr (List (Deriv R))
  | _, .nil => .ok []
  | k, .missing _ _ rest => imageDerivs hook (k + 1) rest
  | k, .cons _ liquid s rest =>
    if liquid then
      match hook k with
      | some sd =>
        if sd.length = numberOfParams s then (imageDerivs hook (k + 1) rest).map (sd ++ ·)
        else .error .assertion
      | none =>
        (imageDerivs hook (k + 1) rest).map (List.replicate (numberOfParams s) .false ++ ·)
    else imageDerivs hook (k + 1) rest

/-- `images[i] = img` as seen from the tractor: the image object is shared, so changing a parameter of
it changes the tractor. -/
def withImage (T : Tractor R M) (i : Nat) (img : Image R) : Tractor R M :=
  { T with images := T.images.modify i (fun x => (x.1, img)) }

/-- One entry of the list for one parameter: the derivative (None possible, see below) and the index of
the image. -/
abbrev DerivEntry (R : Type) := Option (Patch R) × Nat

/-- Body of the loop over the derivatives of image `i`, engine.py 303-320: `model T` is
`getModelImage(img)`.  `di` is the number of the parameter, `mod0`, `p0`, `steps` are evaluated once
before (in the code at the first `False`; nothing changes in between). -/
def imageLoop [Field R] (model : Tractor R M → Image R → Except PyErr (Arr R)) (i : Nat)
    (p0 steps : List R) (mod0 : Except PyErr (Arr R)) :
    Nat → List (Deriv R) → Tractor R M → Image R →
      Tractor R M × Image R × Except PyErr (List (List (DerivEntry R)))
  | _, [], T, img => (T, img, .ok [])
  | di, d :: ds, T, img =>
    let r : Tractor R M × Image R × Except PyErr (Option (Patch R)) :=
      match d with
      | .patch p => (T, img, .ok (some p))
      | .none => (T, img, .ok none)
      | .false =>
        match mod0, p0[di]?, steps[di]? with
        | .error e, _, _ => (T, img, .error e)
        | .ok m0, some p, some h =>
          match setParamSubs img.par di (p + h) with
          | (par1, .error e) => (withImage T i { img with par := par1 }, { img with par := par1 }, .error e)
          | (par1, .ok oldval) =>
            let img1 := { img with par := par1 }
            let T1 := withImage T i img1
            match model T1 img1 with
            | .error e => (T1, img1, .error e)
            | .ok m1 =>
              match setParamSubs par1 di oldval with
              | (par2, .error e) =>
                (withImage T1 i { img with par := par2 }, { img with par := par2 }, .error e)
              | (par2, .ok _) =>
                let img2 := { img with par := par2 }
                (withImage T1 i img2, img2,
                  if m1.h = m0.h ∧ m1.w = m0.w then
                    .ok (some ⟨0, 0, some ⟨m0.h, m0.w, fun r c => (m1.px r c - m0.px r c) / h⟩⟩)
                  else .error .value)
        | .ok _, _, _ => (T, img, .error .index)
    match r with
    | (T', img', .error e) => (T', img', .error e)
    | (T', img', .ok deriv) =>
      match imageLoop model i p0 steps mod0 (di + 1) ds T' img' with
      | (T'', img'', .error e) => (T'', img'', .error e)
      | (T'', img'', .ok rest) => (T'', img'', .ok ([(deriv, i)] :: rest))

/-- The loop over thawed images, engine.py 297-322.  `hooks T i k` are the derivatives reported by the
`k`-th calibration of image `i`. -/
def imagesLoop [Field R] (model : Tractor R M → Image R → Except PyErr (Arr R))
    (hooks : Nat → Nat → Option (List (Deriv R))) :
    List Nat → Tractor R M → Tractor R M × Except PyErr (List (List (DerivEntry R)))
  | [], T => (T, .ok [])
  | i :: is, T =>
    match T.images[i]? with
    | none => (T, .error .index)
    | some (_, img) =>
      match imageDerivs (hooks i) 0 img.par with
      | .error e => (T, .error e)
      | .ok ds =>
        match imageLoop model i (getParamsSubs img.par) (getStepSizesSubs img.par) (model T img) 0 ds T img with
        | (T', _, .error e) => (T', .error e)
        | (T', _, .ok l) =>
          match imagesLoop model hooks is T' with
          | (T'', .error e) => (T'', .error e)
          | (T'', .ok l') => (T'', .ok (l ++ l'))

/-- `Tractor._getSourceDerivatives(src, img)`, engine.py 389-412. -/
def sourceDerivs (W : World R M) (T : Tractor R M) (src : Source R) (img : Image R) :
    Except PyErr (List (Option (Patch R))) :=
  match maskFor T img src with
  | .error e => .error e
  | .ok mask =>
    if T.expectModelMasks && mask.isNone then .ok (List.replicate (numberOfParams src.par) none)
    else .ok (W.srcDerivs src img mask)

/-- `for k, deriv in enumerate(derivs): if deriv is None: continue; srcderivs[k].append((deriv, img))`,
engine.py 328-331. -/
def appendDerivs (i : Nat) : Nat → List (Option (Patch R)) → List (List (DerivEntry R)) →
    Except PyErr (List (List (DerivEntry R)))
  | _, [], acc => .ok acc
  | k, none :: ds, acc => appendDerivs i (k + 1) ds acc
  | k, some p :: ds, acc =>
    if k < acc.length then
      appendDerivs i (k + 1) ds (acc.modify k (· ++ [(some p, i)]))
    else .error .index

/-- `for img in self.images: ...` for one source, engine.py 326-331. -/
def sourceLoop (W : World R M) (T : Tractor R M) (src : Source R) :
    Nat → List (Bool × Image R) → List (List (DerivEntry R)) → Except PyErr (List (List (DerivEntry R)))
  | _, [], acc => .ok acc
  | i, (_, img) :: imgs, acc =>
    match sourceDerivs W T src img with
    | .error e => .error e
    | .ok ds =>
      match appendDerivs i 0 ds acc with
      | .error e => .error e
      | .ok acc' => sourceLoop W T src (i + 1) imgs acc'

/-- `for src in srcs: ...; allderivs.extend(srcderivs)`, engine.py 324-332. -/
def sourcesLoop (W : World R M) (T : Tractor R M) :
    List (Source R) → Except PyErr (List (List (DerivEntry R)))
  | [] => .ok []
  | src :: srcs =>
    match sourceLoop W T src 0 T.images (List.replicate (numberOfParams src.par) []) with
    | .error e => .error e
    | .ok l => (sourcesLoop W T srcs).map (l ++ ·)

/-- Indices of the set flags (`getThawedParamIndices`, utils.py 621-624), from `k` on. -/
def thawedIndices : Nat → List Bool → List Nat
  | _, [] => []
  | k, true :: bs => k :: thawedIndices (k + 1) bs
  | k, false :: bs => thawedIndices (k + 1) bs

/-- `list(self.catalog.getThawedSources())`, engine.py 65-66, 287, utils.py 1028-1032. -/
def thawedSources (T : Tractor R M) : List (Source R) :=
  T.catalog.filterMap (fun x => if x.1 then x.2 else none)

/-- `Tractor.getDerivs()`, engine.py 279-339: the tractor afterwards and the nested list.  Keyword
arguments are left out (the code passes them to `Image.getParamDerivatives`, which accepts none). -/
def getDerivs [Field R] (W : World R M) (model : Tractor R M → Image R → Except PyErr (Arr R))
    (hooks : Nat → Nat → Option (List (Deriv R))) (T : Tractor R M) :
    Tractor R M × Except PyErr (List (List (DerivEntry R))) :=
  let srcs := if T.catalogThawed then thawedSources T else []
  let r := if T.imagesThawed then
      imagesLoop model hooks (thawedIndices 0 (T.images.map (·.1))) T
    else (T, .ok [])
  match r with
  | (T', .error e) => (T', .error e)
  | (T', .ok l) =>
    match sourcesLoop W T' srcs with
    | .error e => (T', .error e)
    | .ok l' =>
      if (l ++ l').length = numberOfParams T'.par then (T', .ok (l ++ l'))
      else (T', .error .assertion)

end Verif.Engine
