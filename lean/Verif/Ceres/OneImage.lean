import Verif.Engine.Model

/-!
# Model: derivatives with respect to one image, for Ceres (ceres_optimizer.py 151-227)
-/

namespace Verif.Ceres

open Verif Verif.Params Verif.Patches Verif.Engine

variable {R M : Type}

/-- `for j, deriv in enumerate(derivs): ...; allderivs.append((parami + j, deriv))` leaving out None and False,
ceres_optimizer.py 179-185. -/
def given (parami : Nat) (ds : List (Deriv R)) : List (Nat × Patch R) :=
  ds.zipIdx.filterMap (fun t => match t.1 with
    | .patch p => some (parami + t.2, p)
    | .none => none
    | .false => none)

/-- `needj`, ceres_optimizer.py 178-184. -/
def needed (ds : List (Deriv R)) : List Nat :=
  ds.zipIdx.filterMap (fun t => match t.1 with
    | .patch _ => none
    | .none => none
    | .false => some t.2)

/-- `for j in needj: ...`, ceres_optimizer.py 191-197.  The image object is shared with the tractor.  The parameter is put
back to `p0[j]`. -/
def stepLoop [Field R] (model : Tractor R M → Image R → Except PyErr (Arr R)) (parami i : Nat)
    (p0 ss : List R) (mod0 : Arr R) :
    List Nat → Tractor R M → Image R → Tractor R M × Except PyErr (List (Nat × Patch R))
  | [], T, _ => (T, .ok [])
  | j :: js, T, img =>
    match ss[j]?, p0[j]? with
    | some step, some p =>
      match setParamSubs img.par j (p + step) with
      | (par1, .error e) => (withImage T i { img with par := par1 }, .error e)
      | (par1, .ok _) =>
        let img1 := { img with par := par1 }
        let T1 := withImage T i img1
        match model T1 img1 with
        | .error e => (T1, .error e)
        | .ok modj =>
          match setParamSubs par1 j p with
          | (par2, .error e) => (withImage T1 i { img with par := par2 }, .error e)
          | (par2, .ok _) =>
            let img2 := { img with par := par2 }
            let T2 := withImage T1 i img2
            if modj.h = mod0.h ∧ modj.w = mod0.w then
              match stepLoop model parami i p0 ss mod0 js T2 img2 with
              | (T3, .error e) => (T3, .error e)
              | (T3, .ok rest) =>
                (T3, .ok ((parami + j, ⟨0, 0, some ⟨mod0.h, mod0.w, fun r c => (modj.px r c - mod0.px r c) / step⟩⟩) :: rest))
            else (T2, .error .value)
    | _, _ => (T, .error .index)

/-- The body of `if i == imgi`, ceres_optimizer.py 174-197. -/
def thisImage [Field R] (model : Tractor R M → Image R → Except PyErr (Arr R))
    (hooks : Nat → Nat → Option (List (Deriv R))) (parami i : Nat) (T : Tractor R M) (img : Image R) :
    Tractor R M × Except PyErr (List (Nat × Patch R)) :=
  match imageDerivs (hooks i) 0 img.par with
  | .error e => (T, .error e)
  | .ok ds =>
    if (needed ds).length = 0 then (T, .ok (given parami ds))
    else
      match model T img with
      | .error e => (T, .error e)
      | .ok mod0 =>
        match stepLoop model parami i (getParamsSubs img.par) (getStepSizesSubs img.par) mod0 (needed ds) T img with
        | (T', .error e) => (T', .error e)
        | (T', .ok l) => (T', .ok (given parami ds ++ l))

/-- `for i in tractor.images.getThawedParamIndices()`, ceres_optimizer.py 172-199: the derivatives and `parami`
afterwards. -/
def imagePart [Field R] (model : Tractor R M → Image R → Except PyErr (Arr R))
    (hooks : Nat → Nat → Option (List (Deriv R))) (imgi : Nat) :
    List Nat → Nat → Tractor R M → Tractor R M × Except PyErr (List (Nat × Patch R) × Nat)
  | [], parami, T => (T, .ok ([], parami))
  | i :: is, parami, T =>
    match T.images[i]? with
    | none => (T, .error .index)
    | some (_, img) =>
      match (if i = imgi then thisImage model hooks parami i T img else (T, .ok [])) with
      | (T', .error e) => (T', .error e)
      | (T', .ok l) =>
        match imagePart model hooks imgi is (parami + numberOfParamsSubs img.par) T' with
        | (T'', .error e) => (T'', .error e)
        | (T'', .ok (l', n)) => (T'', .ok (l ++ l', n))

/-- The loop over thawed sources, ceres_optimizer.py 203-210. -/
def sourcePart (W : World R M) (T : Tractor R M) (img : Image R) :
    List (Source R) → Nat → Except PyErr (List (Nat × Patch R) × Nat)
  | [], parami => .ok ([], parami)
  | src :: srcs, parami =>
    match sourceDerivs W T src img with
    | .error e => .error e
    | .ok ds =>
      match sourcePart W T img srcs (parami + numberOfParams src.par) with
      | .error e => .error e
      | .ok (l, n) =>
        .ok (ds.zipIdx.filterMap (fun t => t.1.map (fun p => (parami + t.2, p))) ++ l, n)

/-- The part for the images, ceres_optimizer.py 168-201. -/
def imagesPart [Field R] (model : Tractor R M → Image R → Except PyErr (Arr R))
    (hooks : Nat → Nat → Option (List (Deriv R))) (T : Tractor R M) (imgi : Nat) :
    Tractor R M × Except PyErr (List (Nat × Patch R) × Nat) :=
  if T.imagesThawed then
    match imagePart model hooks imgi (Engine.thawedIndices 0 (T.images.map (·.1))) 0 T with
    | (T', .error e) => (T', .error e)
    | (T', .ok (l, n)) =>
      if n = numberOfParamsSubs (imagesSubs T'.images) then (T', .ok (l, n)) else (T', .error .assertion)
  else (T, .ok ([], 0))

/-- `CeresOptimizer._getOneImageDerivs` up to line 212: the list `allderivs`.  The sources are those thawed in the catalog,
whether or not the catalog is frozen in the tractor. -/
def allDerivs [Field R] (W : World R M) (model : Tractor R M → Image R → Except PyErr (Arr R))
    (hooks : Nat → Nat → Option (List (Deriv R))) (T : Tractor R M) (imgi : Nat) :
    Tractor R M × Except PyErr (List (Nat × Patch R)) :=
  match imagesPart model hooks T imgi with
  | (T', .error e) => (T', .error e)
  | (T', .ok (l, n)) =>
    match T'.images[imgi]? with
    | none => (T', .error .index)
    | some (_, img) =>
      match sourcePart W T' img (thawedSources T') n with
      | .error e => (T', .error e)
      | .ok (l', n') =>
        if n' = numberOfParams T'.par then (T', .ok (l ++ l')) else (T', .error .assertion)

/-- `-1. * d.patch * ie[d.getSlice()]`, ceres_optimizer.py 221; arrays of different shape raise (numpy would broadcast
axes of length one). -/
def chiPatch [Ring R] (ie : Arr R) (q : Patch R) (A : Arr R) : Except PyErr (Arr R) :=
  let s := ie.slice (some q.y0) (some (q.y0 + A.h)) (some q.x0) (some (q.x0 + A.w))
  if s.h = A.h ∧ s.w = A.w then .ok ⟨A.h, A.w, fun r c => -1 * A.px r c * s.px r c⟩ else .error .value

/-- The final loop, ceres_optimizer.py 217-222: index, x0, y0, derivative of chi.  (The patches are clipped in place; they
are fresh objects unless a source hands out a cached patch.) -/
def chiDerivs [Ring R] (H W : Nat) (ie : Arr R) : List (Nat × Patch R) → Except PyErr (List (Nat × Int × Int × Arr R))
  | [] => .ok []
  | (ind, d) :: rest =>
    match d.clipTo W H with
    | (_, .error e) => .error e
    | (q, .ok _) =>
      match q.patch with
      | none => chiDerivs H W ie rest
      | some A =>
        match chiPatch ie q A with
        | .error e => .error e
        | .ok D =>
          match chiDerivs H W ie rest with
          | .error e => .error e
          | .ok l => .ok ((ind, q.x0, q.y0, D) :: l)

/-- `CeresOptimizer._getOneImageDerivs(tractor, imgi)`, ceres_optimizer.py 151-227. -/
def oneImageDerivs [Field R] (W : World R M) (model : Tractor R M → Image R → Except PyErr (Arr R))
    (hooks : Nat → Nat → Option (List (Deriv R))) (T : Tractor R M) (imgi : Nat) :
    Tractor R M × Except PyErr (List (Nat × Int × Int × Arr R)) :=
  match allDerivs W model hooks T imgi with
  | (T', .error e) => (T', .error e)
  | (T', .ok l) =>
    match T'.images[imgi]? with
    | none => (T', .error .index)
    | some (_, img) => (T', chiDerivs img.data.h img.data.w img.inverr l)

end Verif.Ceres
