import Verif.Engine.Model

/-!
# Settings of a tractor, and pickling

tractor/engine.py: `model_kwargs` (138-140) and the methods that read it, `__getstate__` and `__setstate__`.

`Verif/Engine/Model.lean` leaves keyword arguments out; here rendering depends on them.
-/

namespace Verif.Multi

open Verif Verif.Params Verif.Patches Verif.Engine

variable {R M : Type}

/-- A value of a keyword argument. -/
inductive Setting (R : Type) where
  | none
  | num (r : R)
  | other (n : Nat)
deriving DecidableEq

abbrev Kw (R : Type) := List (String × Setting R)

/-- `kw = d.copy(); kw.update(e)`. -/
def update (d e : Kw R) : Kw R := e ++ d.filter (fun p => (e.lookup p.1).isNone)

/-- External code, given keyword arguments (what a function can see of a dictionary: the value of each key). -/
structure KwWorld (R M : Type) where
  render : (String → Option (Setting R)) → Source R → Image R → Option M → Option (Patch R)
  sky : Image R → Sky R
  srcDerivs : (String → Option (Setting R)) → Source R → Image R → Option M → List (Option (Patch R))

/-- A tractor with the attributes `Verif.Engine.Tractor` leaves out: `settings` is `model_kwargs`, none if the attribute is not
set; `D` and `O` are the types of `modtype` and `optimizer`. -/
structure Obj (R M D O : Type) where
  core : Tractor R M
  modtype : D
  optimizer : O
  settings : Option (Kw R)

variable {D O : Type}

/-- `Tractor.getModelPatch(img, src, **kwargs)`, engine.py 414-422. -/
def kwPatch (W : KwWorld R M) (o : Obj R M D O) (img : Image R) (kw : Kw R) (src : Source R) :
    Except PyErr (Option (Patch R)) :=
  match maskFor o.core img src with
  | .error e => .error e
  | .ok mask =>
    if o.core.expectModelMasks && mask.isNone then .ok none
    else match o.settings with
      | none => .error .attribute
      | some d => .ok (W.render (fun k => (update d kw).lookup k) src img mask)

/-- The loop over sources of `getModelImage`, engine.py 437-444. -/
def kwSources [Zero R] [One R] [Add R] [Mul R] (W : KwWorld R M) (o : Obj R M D O) (img : Image R) (kw : Kw R) :
    List (Option (Source R)) → Arr R → Except PyErr (Arr R)
  | [], mod => .ok mod
  | none :: srcs, mod => kwSources W o img kw srcs mod
  | some src :: srcs, mod =>
    match kwPatch W o img kw src with
    | .error e => .error e
    | .ok none => kwSources W o img kw srcs mod
    | .ok (some patch) =>
      match patch.addTo mod 1 with
      | .error e => .error e
      | .ok mod' => kwSources W o img kw srcs mod'

/-- `Tractor.getModelImage(img, srcs, sky, minsb, **kwargs)`, engine.py 424-445: `minsb` is a named argument, passed on
whatever its value. -/
def kwModelImage [Zero R] [One R] [Add R] [Mul R] [DecidableEq R] (W : KwWorld R M) (o : Obj R M D O) (img : Image R)
    (srcs : Option (List (Option (Source R)))) (sky : Bool) (minsb : Setting R) (kw : Kw R) : Except PyErr (Arr R) :=
  let mod := Arr.zeros img.data.h img.data.w
  let mod := if sky then (W.sky img).addTo mod else mod
  kwSources W o img (("minsb", minsb) :: kw) (srcs.getD (o.core.catalog.map (·.2))) mod

/-- `Tractor.getChiImage(img=img, srcs=srcs, minsb=minsb, **kwargs)`, engine.py 455-473. -/
def kwChiImage [Ring R] [DecidableEq R] (W : KwWorld R M) (o : Obj R M D O) (img : Image R)
    (srcs : Option (List (Option (Source R)))) (minsb : Setting R) (kw : Kw R) : Except PyErr (Arr R) :=
  match kwModelImage W o img srcs true minsb kw with
  | .error e => .error e
  | .ok mod => chiArr img.data mod img.inverr

/-- `Tractor.getDerivs(**kwargs)`, engine.py 279-339.  `Image.getParamDerivatives(tractor, srcs)` (image.py 101) takes no
keyword arguments: TypeError at the first thawed image if there are any.  Source derivatives get the arguments of the call
only (line 329). -/
def kwDerivs [Field R] [DecidableEq R] (W : KwWorld R M) (hooks : Nat → Nat → Option (List (Deriv R))) (o : Obj R M D O)
    (kw : Kw R) : Tractor R M × Except PyErr (List (List (DerivEntry R))) :=
  match o.settings with
  | none => (o.core, .error .attribute)
  | some d =>
    if o.core.imagesThawed && !(Engine.thawedIndices 0 (o.core.images.map (·.1))).isEmpty && !(update d kw).isEmpty then
      (o.core, .error .typeErr)
    else
      getDerivs ⟨fun _ _ _ => none, W.sky, W.srcDerivs (fun k => kw.lookup k)⟩
        (fun T img => kwModelImage W { o with core := T } img none true .none kw) hooks o.core

/-- `Tractor.optimize(**kwargs)`, `optimize_loop`, `optimize_forced_photometry`, engine.py 236-238, 265-277: `call` is the
method of the optimizer. -/
def callOptimizer {β : Type} (call : O → Obj R M D O → Kw R → Except PyErr β) (o : Obj R M D O) (kw : Kw R) :
    Except PyErr β :=
  match o.settings with
  | none => .error .attribute
  | some d => call o.optimizer o (update d kw)

/-- The states `__setstate__` may get: tuples of eight, six or any other number of elements. -/
inductive State (R M D O : Type) where
  | eight (version : Nat) (images : List (Bool × Image R)) (catalog : List (Bool × Option (Source R)))
      (liquid : Bool × Bool) (modtype : D) (masks : Option (List (List (Nat × M)))) (expect : Bool) (optimizer : O)
  | six (images : List (Bool × Image R)) (catalog : List (Bool × Option (Source R)))
      (liquid : Bool × Bool) (modtype : D) (masks : Option (List (List (Nat × M)))) (expect : Bool)
  | other

/-- `Tractor.__getstate__`, engine.py 160-165. -/
def getState (o : Obj R M D O) : State R M D O :=
  .eight 1 o.core.images o.core.catalog (o.core.imagesThawed, o.core.catalogThawed) o.modtype o.core.modelMasks
    o.core.expectModelMasks o.optimizer

/-- `Tractor.__setstate__`, engine.py 167-177, on an object made by `__new__`; `lsqr` is a new `LsqrOptimizer()`.  A tuple of
another length leaves the local `images` unbound. -/
def setState (lsqr : O) : State R M D O → Except PyErr (Obj R M D O)
  | .eight _ images catalog liquid modtype masks expect opt =>
    .ok ⟨⟨liquid.1, images, liquid.2, catalog, masks, expect⟩, modtype, opt, none⟩
  | .six images catalog liquid modtype masks expect =>
    .ok ⟨⟨liquid.1, images, liquid.2, catalog, masks, expect⟩, modtype, lsqr, none⟩
  | .other => .error .nameErr

/-- A copied image, with its new identity. -/
def renImage (f : Nat → Nat) (img : Image R) : Image R := { img with id := f img.id }

/-- A copied source. -/
def renSource (f : Nat → Nat) (s : Source R) : Source R := { s with id := f s.id }

/-- Copies of images. -/
def renImages (f : Nat → Nat) (l : List (Bool × Image R)) : List (Bool × Image R) := l.map (fun x => (x.1, renImage f x.2))

/-- Copies of sources. -/
def renCatalog (f : Nat → Nat) (l : List (Bool × Option (Source R))) : List (Bool × Option (Source R)) :=
  l.map (fun x => (x.1, x.2.map (renSource f)))

/-- Copies of mask dictionaries: the keys are the copies of the sources. -/
def renMasks (f : Nat → Nat) (l : List (List (Nat × M))) : List (List (Nat × M)) := l.map (·.map (fun e => (f e.1, e.2)))

/-- The pickle module: writing and reading a state copies the objects in it.  Within one pickle an object is copied once, so
that `f` gives the identity of the copy. -/
def transfer (f : Nat → Nat) : State R M D O → State R M D O
  | .eight v images catalog liquid modtype masks expect opt =>
    .eight v (renImages f images) (renCatalog f catalog) liquid modtype (masks.map (renMasks f)) expect opt
  | .six images catalog liquid modtype masks expect =>
    .six (renImages f images) (renCatalog f catalog) liquid modtype (masks.map (renMasks f)) expect
  | .other => .other

/-- `pickle.loads(pickle.dumps(tractor))`. -/
def reload (f : Nat → Nat) (lsqr : O) (o : Obj R M D O) : Except PyErr (Obj R M D O) :=
  setState lsqr (transfer f (getState o))

end Verif.Multi
