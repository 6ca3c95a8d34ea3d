import Verif.Src.Model

/-!
# Sersic galaxies

tractor/sersic.py `SersicIndex`, `SersicGalaxy.copy`, `getParamDerivatives`, `getDerivativeShearedProfiles`; tractor/galaxy.py
`HoggGalaxy.getDerivativeShearedProfiles`.
-/

namespace Verif.Src

open Verif.Params

variable {R M K : Type} [Field R] [LinearOrder R]

/-- `SersicIndex(val)`, sersic.py 344-352. -/
def mkIndex (v : R) : Scalar R := ⟨"SersicIndex", v, some (29 / 100), some (63 / 10), some (1 / 10), 1 / 100, none⟩

/-- `SersicIndex.isLegal`, sersic.py 354-355, with both bounds set. -/
def indexLegal (i : Scalar R) : Bool :=
  match i.lower, i.upper with
  | some lo, some hi => decide (i.val ≤ hi ∧ lo ≤ i.val)
  | _, _ => false

/-- A Sersic galaxy: a galaxy with a fourth parameter. -/
structure Sersic (R : Type) where
  gal : Galaxy R
  indexLiquid : Bool
  index : Scalar R

/-- The source as a `MultiParams`. -/
def Sersic.tree (s : Sersic R) : Par R :=
  .multi (.cons ["pos"] s.gal.posLiquid (.plist s.gal.pos) (.cons ["brightness"] s.gal.brightLiquid s.gal.bright
    (.cons ["shape"] s.gal.shapeLiquid s.gal.shape (.cons ["sersicindex"] s.indexLiquid (.scalar s.index) .nil))))

/-- `SersicGalaxy.copy`, sersic.py 389-391: a new galaxy from copies of the parameters. -/
def Sersic.copy (s : Sersic R) : Except PyErr (Sersic R) :=
  match Params.copy s.gal.bright with
  | .error e => .error e
  | .ok b =>
    match Params.copy s.gal.shape with
    | .error e => .error e
    | .ok g => .ok ⟨⟨true, copyPList s.gal.pos, true, b, true, g⟩, true, mkIndex s.index.val⟩

/-- The step and the stepped index, sersic.py 424-430: backwards when the upper bound would be exceeded (TypeError when there is none). -/
def indexStep (i : Scalar R) : Except PyErr (R × R) :=
  match i.upper with
  | none => .error .typeErr
  | some up =>
    let step := i.step.getD i.defstep
    if up < i.val + step then .ok (step * -1, i.val + step * -1) else .ok (step, i.val + step)

/-- The derivative with respect to the index, sersic.py 417-443: the stepped galaxy is rendered with the default `minval=0.` in the mask
that was given.  When it does not render, None is appended and then subtracted from (TypeError). -/
def indexDeriv [AddCommGroup M] [Module R M] (W : R → GalaxyWorld R M K) (mask : Option K) (counts : R) (patch0 : M) (s : Sersic R) :
    Sersic R × Except PyErr (List (Option M)) :=
  match indexStep s.index with
  | .error e => (s, .error e)
  | .ok (step, newval) =>
    let s1 := { s with index := { s.index with val := newval } }
    let newpatch := (W s1.index.val).unit s1.gal.pos s1.gal.shape (some 0) mask
    let s2 := { s1 with index := { s1.index with val := s.index.val } }
    match newpatch with
    | none => (s2, .error .typeErr)
    | some p => (s2, (pyDiv counts step).map (fun x => [some (x • (p - patch0))]))

/-- `SersicGalaxy.getParamDerivatives`, sersic.py 402-444.  `patch0` is the patch the superclass rendered, galaxy.py 146-154, which
returns one None per parameter when there is none. -/
def sersicDerivs [AddCommGroup M] [Module R M] (I : Image R) (W : R → GalaxyWorld R M K) (mask : Option K) (s : Sersic R) :
    Sersic R × Except PyErr (List (Option M)) :=
  match (W s.index.val).unit s.gal.pos s.gal.shape (minvalOf I.minsb (I.counts s.gal.bright)) mask with
  | none => (s, .ok (List.replicate (numberOfParams s.tree) none ++ [none]))
  | some patch0 =>
    match galaxyDerivs I (W s.index.val) mask s.gal with
    | (g, .error e) => ({ s with gal := g }, .error e)
    | (g, .ok ds) =>
      let s := { s with gal := g }
      if s.indexLiquid then
        match indexDeriv W mask (I.counts s.gal.bright) patch0 s with
        | (s, .error e) => (s, .error e)
        | (s, .ok di) => (s, .ok (ds ++ di))
      else (s, .ok ds)

/-- `HoggGalaxy.getDerivativeShearedProfiles`, galaxy.py 693-709: names, profiles and steps.  `P shape` is `_getShearedProfile`. -/
def shapeProfiles {A : Type} (P : Par R → A) (liquid : Bool) (shape : Par R) : Par R × Except PyErr (List (String × A × R)) :=
  if liquid then
    match stepEach (fun st t => .ok (P t, st)) (getStepSizes shape) (getParams shape) 0 shape with
    | (g, .error e) => (g, .error e)
    | (g, .ok l) => (g, .ok (List.zipWith (fun n p => ("shape." ++ n, p.1, p.2)) (getParamNames shape) l))
  else (shape, .ok [])

/-- The loop body for the index, sersic.py 459-483.  `P index` is `_getShearedProfile`, with `count` Gaussians; `n0` is the number for the
index of the galaxy. -/
def indexProfile {A : Type} (P : R → A) (count : A → Nat) (n0 : Nat) (i : Scalar R) : Scalar R × Except PyErr (A × R) :=
  match i.upper, i.lower with
  | some up, some lo =>
    let old := i.val
    let step := i.step.getD i.defstep
    if ¬ 0 < step then (i, .error .assertion)
    else
      let step1 := if up < old + step then step * -1 else step
      if up < old + step ∧ ¬ lo < old + step1 then (i, .error .assertion)
      else
        let i1 := { i with val := old + step1 }
        let pro := P i1.val
        let (i2, pro, step2) :=
          if count pro ≠ n0 then
            let new2 := old - step1
            if new2 < up ∧ lo < new2 then
              let i2 := { i1 with val := new2 }
              let pro2 := P i2.val
              if count pro2 = n0 then (i2, pro2, step1 * -1) else (i2, pro, step1)
            else (i1, pro, step1)
          else (i1, pro, step1)
        ({ i2 with val := old }, .ok (pro, step2))
  | _, _ => (i, .error .typeErr)

/-- `SersicGalaxy.getDerivativeShearedProfiles`, sersic.py 446-485. -/
def sersicProfiles {A : Type} (P : Par R → R → A) (count : A → Nat) (s : Sersic R) :
    Sersic R × Except PyErr (List (String × A × R)) :=
  match shapeProfiles (fun t => P t s.index.val) s.gal.shapeLiquid s.gal.shape with
  | (g, .error e) => ({ s with gal := { s.gal with shape := g } }, .error e)
  | (g, .ok l) =>
    let s := { s with gal := { s.gal with shape := g } }
    if s.indexLiquid then
      match indexProfile (P s.gal.shape) count (count (P s.gal.shape s.index.val)) s.index with
      | (i, .error e) => ({ s with index := i }, .error e)
      | (i, .ok p) => ({ s with index := i }, .ok (l ++ [("sersicindex." ++ s.index.cls, p.1, p.2)]))
    else (s, .ok l)

end Verif.Src
