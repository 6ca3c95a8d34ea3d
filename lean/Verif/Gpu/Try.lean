import Verif.Gpu.Model
import Verif.Opt.Model

/-!
# The line search of the GPU optimizer

tractor/gpu_optimizer.py `gpu_one_source_try_updates` (184-465), `_gpu_checks` (139-182).  The tractor is the tree of
its parameters; what is computed from them (positions, counts, priors, unit-flux models) are functions of that tree.
Plots are left out.
-/

namespace Verif.Gpu

open Verif Verif.Psf Verif.Params Verif.Opt

variable {R : Type}

/-- A point source or galaxy: `positionToPixel`, `brightnessToCounts` in each image, and its unit-flux model on the
grid of the image for a subpixel position, `gpu_get_unitflux_psf` or `gpu_get_unitflux_galaxy_profiles`. -/
structure Source (R : Type) where
  pos : Par R → Tim R → R × R
  cnt : Par R → Tim R → R
  unit : Par R → Tim R → Padded R → R → R → Except PyErr (Arr R)

/-- The tractor: the images that have masks (`_gpu_checks`, gpu_optimizer.py 161-182), the source, the surface
brightness in counts per pixel, the log-prior. -/
structure Job (R : Type) where
  tims : List (Tim R)
  src : Option (Source R)
  sb : Option (Par R → Tim R → R)
  prior : Par R → Num R

/-- The entries of `idx_grid`, `idy_grid`, `mux_grid`, `muy_grid`, `counts_grid`, `sb_counts_grid` for one image and one
step, gpu_optimizer.py 224-235. -/
structure Shot (R : Type) where
  dx : Int
  dy : Int
  mux : R
  muy : R
  cnt : R
  sb : R

/-- One step with its log-prior and its entries for all images. -/
structure Shown (R : Type) where
  cand : Cand R
  par : Par R
  prior : Num R
  shots : List (Shot R)

variable [Field R] [LinearOrder R]

/-- Position used for the arrays, gpu_optimizer.py 200-208: that of the source, or the middle of the mask. -/
def startPos (job : Job R) (t : Par R) (tim : Tim R) : R × R :=
  match job.src with
  | some s => s.pos t tim
  | none => ((tim.x0 + tim.x1) / 2, (tim.y0 + tim.y1) / 2)

/-- Positions beyond a million pixels, gpu_optimizer.py 248. -/
def tooFar (job : Job R) (t : Par R) : Bool :=
  match job.src with
  | some s => job.tims.any (fun tim => decide ((s.pos t tim).1 < -1000000) || decide ((s.pos t tim).1 > 1000000) ||
      decide ((s.pos t tim).2 < -1000000) || decide ((s.pos t tim).2 > 1000000))
  | none => false

/-- The entries for one image, gpu_optimizer.py 264-288. -/
def shotOf (rnd : R → Int) (job : Job R) (t : Par R) (tim : Tim R) (p : Padded R) : Except PyErr (Shot R) :=
  let sb := match job.sb with
    | some f => f t tim
    | none => 0
  match job.src with
  | none => .ok ⟨0, 0, 0, 0, 0, sb⟩
  | some s =>
    let px := (s.pos t tim).1
    let py := (s.pos t tim).2
    let ix := rnd px
    let iy := rnd py
    let mux := px - ix
    let muy := py - iy
    if ¬ (|mux| ≤ 1 / 2) ∨ ¬ (|muy| ≤ 1 / 2) then .error .assertion
    else .ok ⟨ix - p.ipx, iy - p.ipy, mux, muy, s.cnt t tim, sb⟩

/-- The loop over the steps, gpu_optimizer.py 237-292: the tractor afterwards and the steps before the first one that
is too far. -/
def evalSteps (rnd : R → Int) (job : Job R) (P : Params R) :
    List (Cand R) → Par R → Par R × Except PyErr (List (Shown R))
  | [], t => (t, .ok [])
  | c :: cs, t =>
    match setParams t c.p with
    | (t', some e) => (t', .error e)
    | (t', none) =>
      if tooFar job t' then (t', .ok [])
      else
        match (job.tims.zip P.ims).mapM (fun tp => shotOf rnd job t' tp.1 tp.2) with
        | .error e => (t', .error e)
        | .ok shots =>
          match evalSteps rnd job P cs t' with
          | (u, .error e) => (u, .error e)
          | (u, .ok rest) => (u, .ok (⟨c, t', job.prior t', shots⟩ :: rest))

/-- The shifts go beyond the limits of the arrays, gpu_optimizer.py 294-298. -/
def clipped (P : Params R) (steps : List (Shown R)) : Bool :=
  steps.any (fun s => (P.ims.zip s.shots).any (fun pz =>
    (decide (pz.2.dx > 0) && decide (pz.2.dx > pz.1.maxdx)) || (decide (pz.2.dx < 0) && decide (pz.2.dx < pz.1.mindx)) ||
    (decide (pz.2.dy > 0) && decide (pz.2.dy > pz.1.maxdy)) || (decide (pz.2.dy < 0) && decide (pz.2.dy < pz.1.mindy))))

/-- `(pix_slice, mod_slice)` on one axis, gpu_optimizer.py 395-413. -/
def shiftSlices (d : Int) : (Option Int × Option Int) × (Option Int × Option Int) :=
  if d > 0 then ((some d, none), (none, some (-d)))
  else if d = 0 then ((none, none), (none, none))
  else ((none, some d), (some (-d), none))

/-- Chi of one image and one step, gpu_optimizer.py 355-365 and 385-416; `mod` is the model of the source.  Arrays of
the same shape are multiplied. -/
def chiOf (p : Padded R) (z : Shot R) (mod : Arr R) : Except PyErr (Arr R) :=
  if z.dx = 0 ∧ z.dy = 0 then
    .ok ⟨p.padpix.h, p.padpix.w, fun r c => (p.padpix.px r c - (mod.px r c + z.sb)) * p.padie.px r c⟩
  else do
    let xs := shiftSlices z.dx
    let ys := shiftSlices z.dy
    let work ← (p.padpix.map (· - z.sb)).modify ys.1.1 ys.1.2 xs.1.1 xs.1.2 (· - ·)
      (mod.slice ys.2.1 ys.2.2 xs.2.1 xs.2.2)
    .ok ⟨work.h, work.w, fun r c => work.px r c * p.padie.px r c⟩

/-- The model of the source in one image, gpu_optimizer.py 313-325. -/
def sourceModel (job : Job R) (sz : Nat) (par : Par R) (tim : Tim R) (p : Padded R) (z : Shot R) : Except PyErr (Arr R) :=
  match job.src with
  | none => .ok (Arr.zeros sz sz)
  | some s => do
    let m ← s.unit par tim p z.mux z.muy
    .ok (m.map (· * z.cnt))

/-- Chi of all images for one step. -/
def chisOf (job : Job R) (P : Params R) (s : Shown R) : Except PyErr (List (Arr R)) :=
  ((job.tims.zip P.ims).zip s.shots).mapM (fun x => do
    let m ← sourceModel job P.sz s.par x.1.1 x.1.2 x.2
    chiOf x.1.2 x.2 m)

/-- `2 * sum(chi0 * dchi) + sum(dchi**2)` with `dchi = chi - chi0`, gpu_optimizer.py 367-374, 417-425. -/
def dchisqOf (chi0 chi : Arr R) : R :=
  let dchi : Arr R := ⟨chi.h, chi.w, fun r c => chi.px r c - chi0.px r c⟩
  2 * (Arr.ravel ⟨chi.h, chi.w, fun r c => chi0.px r c * dchi.px r c⟩).sum +
    (Arr.ravel (dchi.map (fun x => x * x))).sum

/-- `dlogprobs`, gpu_optimizer.py 436, of the steps after the first. -/
def dlogprobOf (s0 s : Shown R) (chi0 chi : List (Arr R)) : Num R :=
  (s.prior.sub s0.prior).sub (.fin ((List.zipWith dchisqOf chi0 chi).sum / 2))

/-- The loop of the line search, gpu_optimizer.py 438-463: `dlogprob_best`, `alpha_best`, `p_best`. -/
def searchLoop : List (Cand R × Num R) → OptFlags → Num R → R → List R → Par R →
    Par R × OptFlags × Except PyErr (Num R × R × List R)
  | [], fl, best, aBest, pBest, t => (t, fl, .ok (best, aBest, pBest))
  | (c, d) :: cs, fl, best, aBest, pBest, t =>
    let fl := if c.hitLimit then { fl with stepLimited := true, hitLimit := true } else fl
    if d.isFinite = false then
      match setParams t c.p with
      | (t', some e) => (t', fl, .error e)
      | (t', none) => (t', fl, .ok (best, aBest, pBest))
    else if d.lt (best.sub (.fin 1)) then (t, fl, .ok (best, aBest, pBest))
    else if best.lt d then
      searchLoop cs { fl with lastStepHitLimit := c.hitLimit } d c.alpha c.p t
    else searchLoop cs fl best aBest pBest t

/-- From the steps on, gpu_optimizer.py 212-465.  `cached`: the arrays are `self.image_params`; then the result is
`none` if the shifts go beyond their limits. -/
def tryBody (rnd : R → Int) (tiny : R) (job : Job R) (P : Params R) (cached : Bool) (fl : OptFlags) (t : Par R)
    (X alphas : List R) : Par R × OptFlags × Except PyErr (Option (Num R × R)) :=
  let p0 := getParams t
  match getParameterSteps tiny t X alphas with
  | (b, .error e) => (t, { fl with stepLimited := fl.stepLimited || b }, .error e)
  | (b, .ok cs) =>
    let fl := { fl with stepLimited := fl.stepLimited || b }
    match evalSteps rnd job P (⟨0, p0, false, false⟩ :: cs) t with
    | (t1, .error e) => (t1, fl, .error e)
    | (t1, .ok []) =>
      match setParams t1 p0 with
      | (t2, some e) => (t2, fl, .error e)
      | (t2, none) => (t2, fl, .ok (some (.fin 0, 0)))
    | (t1, .ok (s0 :: ss)) =>
      if cached && clipped P (s0 :: ss) then (t1, fl, .ok none)
      else
        match chisOf job P s0, ss.mapM (fun s => (chisOf job P s).map (fun chi => (s, chi))) with
        | .error e, _ => (t1, fl, .error e)
        | _, .error e => (t1, fl, .error e)
        | .ok chi0, .ok rest =>
          match searchLoop (rest.map (fun sc => (sc.1.cand, dlogprobOf s0 sc.1 chi0 sc.2))) fl
              ((s0.prior.sub s0.prior).sub (.fin 0)) 0 p0 t1 with
          | (t2, fl', .error e) => (t2, fl', .error e)
          | (t2, fl', .ok (best, aBest, pBest)) =>
            match setParams t2 pBest with
            | (t3, some e) => (t3, fl', .error e)
            | (t3, none) => (t3, fl', .ok (some (best, aBest)))

/-- `gpu_one_source_try_updates(tr, X, alphas)`, gpu_optimizer.py 184-465: the tractor, the flags and
`self.image_params` afterwards, and the result.  Beyond the limits of cached arrays the search is made again without
the cache, which an exception leaves empty; that second search is never itself repeated. -/
def oneSourceTryUpdates (rnd : R → Int) (tiny : R) (job : Job R) (cache : Option (Params R)) (fl : OptFlags) (t : Par R)
    (X alphas : List R) : Par R × OptFlags × Option (Params R) × Except PyErr (Num R × R) :=
  if job.tims.length = 0 then (t, fl, cache, .ok (.fin 0, 0))
  else
    match getImageParams rnd cache job.tims (startPos job t) with
    | .error e => (t, fl, cache, .error e)
    | .ok P =>
      match tryBody rnd tiny job P cache.isSome fl t X alphas with
      | (t1, fl1, .error e) => (t1, fl1, cache, .error e)
      | (t1, fl1, .ok (some r)) => (t1, fl1, cache, .ok r)
      | (t1, fl1, .ok none) =>
        match setParams t1 (getParams t) with
        | (t2, some e) => (t2, fl1, none, .error e)
        | (t2, none) =>
          match getImageParams rnd none job.tims (startPos job t2) with
          | .error e => (t2, fl1, none, .error e)
          | .ok P' =>
            match tryBody rnd tiny job P' false fl1 t2 X alphas with
            | (t3, fl3, .error e) => (t3, fl3, none, .error e)
            | (t3, fl3, .ok (some r)) => (t3, fl3, cache, .ok r)
            | (t3, fl3, .ok none) => (t3, fl3, none, .error .runtime)

/-- A point source in these terms, gpu_optimizer.py 315-316. -/
def pointSource (lz : R → R) (junk junk' : Nat → Nat → R) (pos : Par R → Tim R → R × R) (cnt : Par R → Tim R → R) :
    Source R :=
  ⟨pos, cnt, fun _ _ p mux muy => unitFluxPsf lz junk junk' p.psfPad mux muy⟩

end Verif.Gpu
