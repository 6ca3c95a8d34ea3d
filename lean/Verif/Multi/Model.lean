import Verif.Engine.Model

/-!
# Derivatives with several processes, and pickling of tractors

tractor/multiproc.py `TractorMultiprocMixin`, tractor/engine.py `__getstate__`, `__setstate__` and the methods that read
`model_kwargs`.

`mp.map` and `mp.map_async(...).get()` are `map`: workers get copies of their arguments, so a call changes nothing here
(with a single process the functions restore the parameter they change).
-/

namespace Verif.Multi

open Verif Verif.Params Verif.Patches Verif.Engine

variable {R M : Type}

/-- Which of the names used by multiproc.py are defined in the module. -/
structure Names where
  logverb : Bool
  patch : Bool
  np : Bool
  images : Bool

/-- The names multiproc.py defines or imports: none of these (lines 1-12). -/
def shipped : Names := ⟨false, false, false, false⟩

/-- `list.pop()`: last element and the rest. -/
def pop {β : Type} (l : List β) : Except PyErr (β × List β) :=
  match l.getLast? with
  | some x => .ok (x, l.dropLast)
  | none => .error .index

/-- `getmodelimagestep`, multiproc.py 162-168. -/
def modelStep [Add R] (model : Tractor R M → Image R → Except PyErr (Arr R)) (T : Tractor R M) (a : Nat × Nat × R × R) :
    Except PyErr (Arr R) :=
  match T.images[a.1]? with
  | none => .error .index
  | some (_, img) =>
    match setParamSubs img.par a.2.1 (a.2.2.1 + a.2.2.2) with
    | (_, .error e) => .error e
    | (par1, .ok _) => model (withImage T a.1 { img with par := par1 }) { img with par := par1 }

/-- `getmodelimagefunc`, multiproc.py 193-195. -/
def modelAt (model : Tractor R M → Image R → Except PyErr (Arr R)) (T : Tractor R M) (i : Nat) : Except PyErr (Arr R) :=
  match T.images[i]? with
  | none => .error .index
  | some (_, img) => model T img

/-- `imderivs` with the images, multiproc.py 44-47. -/
def imDerivs (hooks : Nat → Nat → Option (List (Deriv R))) (T : Tractor R M) (i : Nat) :
    Except PyErr (Nat × Image R × List (Deriv R)) :=
  match T.images[i]? with
  | none => .error .index
  | some (_, img) => (imageDerivs (hooks i) 0 img.par).map (fun ds => (i, img, ds))

/-- `[k for k,d in enumerate(derivs) if d is False]`, multiproc.py 53-57. -/
def needed : Nat → List (Deriv R) → List Nat
  | _, [] => []
  | k, .false :: ds => k :: needed (k + 1) ds
  | k, _ :: ds => needed (k + 1) ds

/-- The arguments for the parameters of one image, multiproc.py 77-81. -/
def stepArgs [One R] (x : Nat × Image R × List (Deriv R)) : Except PyErr (List (Nat × Nat × R × R)) :=
  (needed 0 x.2.2).mapM (fun k =>
    match (getParamsSubs x.2.1.par)[k]?, (getStepSizesSubs x.2.1.par)[k]? with
    | some p, some s => .ok (x.1, k, p, s)
    | _, _ => .error .index)

/-- One derivative of an image, multiproc.py 105-112: `j` tells whether that variable is bound (line 111), which it is by the
loop over sources (line 88) if there are any. -/
def mpEntry [Field R] (N : Names) (j : Bool) (mod0s : List (Nat × Arr R)) (i : Nat) (img : Image R) (k : Nat) (d : Deriv R)
    (stack : List (Arr R)) : Except PyErr (Option (Patch R) × List (Arr R)) :=
  match d with
  | .patch p => .ok (some p, stack)
  | .none => .ok (none, stack)
  | .false =>
    match mod0s.lookup i with
    | none => .error .key
    | some m0 =>
      match (getStepSizesSubs img.par)[k]? with
      | none => .error .index
      | some h =>
        match pop stack with
        | .error e => .error e
        | .ok (m1, stack') =>
          if !N.patch then .error .nameErr else
          if !(m1.h = m0.h ∧ m1.w = m0.w) then .error .value else
          if !j then .error .nameErr else
          .ok (some ⟨0, 0, some ⟨m0.h, m0.w, fun r c => (m1.px r c - m0.px r c) / h⟩⟩, stack')

/-- The derivatives of one image. -/
def mpImage [Field R] (N : Names) (j : Bool) (mod0s : List (Nat × Arr R)) (i : Nat) (img : Image R) :
    Nat → List (Deriv R) → List (Arr R) → Except PyErr (List (List (DerivEntry R)) × List (Arr R))
  | _, [], stack => .ok ([], stack)
  | k, d :: ds, stack =>
    match mpEntry N j mod0s i img k d stack with
    | .error e => .error e
    | .ok (e, stack') =>
      match mpImage N j mod0s i img (k + 1) ds stack' with
      | .error e => .error e
      | .ok (out, stack'') => .ok ([(e, i)] :: out, stack'')

/-- All images, multiproc.py 103-112. -/
def mpImages [Field R] (N : Names) (j : Bool) (mod0s : List (Nat × Arr R)) :
    List (Nat × Image R × List (Deriv R)) → List (Arr R) → Except PyErr (List (List (DerivEntry R)) × List (Arr R))
  | [], stack => .ok ([], stack)
  | x :: xs, stack =>
    match mpImage N j mod0s x.1 x.2.1 0 x.2.2 stack with
    | .error e => .error e
    | .ok (out, stack') =>
      match mpImages N j mod0s xs stack' with
      | .error e => .error e
      | .ok (out', stack'') => .ok (out ++ out', stack'')

/-- The checks of source derivatives, multiproc.py 150-153: `finite` tells whether all pixels are. -/
def checkDerivs (N : Names) (finite : Arr R → Bool) : List (Option (Patch R)) → Except PyErr Unit
  | [] => .ok ()
  | none :: ds => checkDerivs N finite ds
  | some p :: ds =>
    if !N.np then .error .nameErr else
    match p.patch with
    | none => .error .attribute
    | some a => if finite a then checkDerivs N finite ds else .error .assertion

/-- The images of one source, multiproc.py 129-154. -/
def mpSource (N : Names) (finite : Arr R → Bool) (src : Source R) :
    Nat → List (Bool × Image R) → List (List (DerivEntry R)) → List (List (Option (Patch R))) →
      Except PyErr (List (List (DerivEntry R)) × List (List (Option (Patch R))))
  | _, [], acc, stack => .ok (acc, stack)
  | i, _ :: imgs, acc, stack =>
    match pop stack with
    | .error e => .error e
    | .ok (ds, stack') =>
      if ds.length ≠ numberOfParams src.par then .error .assertion else
      match checkDerivs N finite ds with
      | .error e => .error e
      | .ok _ =>
        match appendDerivs i 0 ds acc with
        | .error e => .error e
        | .ok acc' => mpSource N finite src (i + 1) imgs acc' stack'

/-- All sources, multiproc.py 128-155. -/
def mpSources (N : Names) (finite : Arr R → Bool) (imgs : List (Bool × Image R)) :
    List (Source R) → List (List (Option (Patch R))) → Except PyErr (List (List (DerivEntry R)))
  | [], _ => .ok []
  | src :: srcs, stack =>
    match mpSource N finite src 0 imgs (List.replicate (numberOfParams src.par) []) stack with
    | .error e => .error e
    | .ok (l, stack') => (mpSources N finite imgs srcs stack').map (l ++ ·)

/-- `TractorMultiprocMixin.getDerivs`, multiproc.py 28-158.  `mp` tells whether the object has the attribute `mp` (which
`__init__`, lines 6-10, does not set). -/
def getDerivsMP [Field R] (mp : Bool) (N : Names) (finite : Arr R → Bool) (W : World R M)
    (model : Tractor R M → Image R → Except PyErr (Arr R)) (hooks : Nat → Nat → Option (List (Deriv R))) (T : Tractor R M) :
    Except PyErr (List (List (DerivEntry R))) := do
  let srcs := if T.catalogThawed then thawedSources T else []
  let imjs := if T.imagesThawed then Engine.thawedIndices 0 (T.images.map (·.1)) else []
  -- self._map
  if !mp then .error .attribute
  let imderivs ← imjs.mapM (imDerivs hooks T)
  let need := imderivs.filter (fun x => !(needed 0 x.2.2).isEmpty)
  if !N.logverb then .error .nameErr
  let args ← need.mapM stepArgs
  if T.modelMasks.isSome then .error .assertion
  let pairs := srcs.flatMap (fun src => T.images.map (fun x => (src, x.2)))
  -- workers
  let mod0s ← need.mapM (fun x => modelAt model T x.1)
  let mod1s ← args.flatten.reverse.mapM (modelStep model T)
  let sderivs := pairs.reverse.map (fun a => W.srcDerivs a.1 a.2 none)
  -- unpacking
  let (l, rest) ← mpImages N (!srcs.isEmpty) ((need.map (·.1)).zip mod0s) imderivs mod1s
  if rest.length ≠ 0 then .error .assertion
  let l' ← mpSources N finite T.images srcs sderivs
  if (l ++ l').length = numberOfParams T.par then .ok (l ++ l') else .error .assertion

/-- `TractorMultiprocMixin.getModelImages`, multiproc.py 18-26: the images of the tractor afterwards, and what is returned
(None). -/
def getModelImagesMP (mp : Bool) (N : Names) (model : Tractor R M → Image R → Except PyErr (Arr R)) (T : Tractor R M) :
    Tractor R M × Except PyErr Unit :=
  if !N.images then (T, .error .nameErr) else
  let T0 := { T with images := [] }
  if !mp then (T0, .error .attribute) else
  match (T.images.map (·.2)).mapM (model T0) with
  | .error e => (T0, .error e)
  | .ok _ => (T, .ok ())

end Verif.Multi
