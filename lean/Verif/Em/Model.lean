import Verif.Arr
import Verif.Gauss.Model

/-!
# Fitting a mixture of Gaussians to an image

emfit.i `em_fit_2d_reg`, emfit2.c `em_fit_2d_reg2`, fitpsf.py `em_init_params`, psf.py `GaussianMixturePSF.fromStamp` (variants
`v2=False` and `v2=True`).

Numbers are real numbers.  A component whose mean was divided by zero is `none`: its entries are not numbers.  The arrays `amp`, `mean`,
`var` of the C code are one list of components; `po_img` etc. are taken to have the right types and shapes.
-/

namespace Verif.Em

open Verif
open Verif.Mog (Comp Mix)
open Verif.Gauss (tpd)

noncomputable section

/-- A pixel: coordinates and value. -/
structure Px where
  x : ℝ
  y : ℝ
  v : ℝ

/-- The pixels of an image with its origin at `(x0, y0)` in the order of the loops `for (iy..) for (ix..)`, `i = iy*NX + ix`. -/
def pixels (img : Arr ℝ) (x0 y0 : Int) : List Px :=
  (List.range img.h).flatMap (fun (iy : Nat) => (List.range img.w).map (fun (ix : Nat) =>
    ⟨((x0 + (ix : Int) : Int) : ℝ), ((y0 + (iy : Int) : Int) : ℝ), img.px iy ix⟩))

/-- `Z[i*K + k]` before it is normalised, emfit.i 396-441: zero ten or more standard deviations away. -/
def zraw (c : Comp ℝ) (x y : ℝ) : ℝ :=
  let det := c.vxx * c.vyy - c.vxy * c.vyx
  let dx := x - c.mx
  let dy := y - c.my
  let dsq := c.vyy / det * dx * dx + -c.vxy / det * dx * dy + -c.vyx / det * dx * dy + c.vxx / det * dy * dy
  if dsq ≥ 100 then 0 else c.amp / Real.sqrt (tpd * det) * Real.exp (-0.5 * dsq)

/-- `zsum`, emfit.i 420, 440. -/
def zsum (m : Mix ℝ) (x y : ℝ) : ℝ := (m.map (fun c => zraw c x y)).sum

/-- `Z[i*K + k]` after the E step, emfit.i 444-458. -/
def zfrac (m : Mix ℝ) (x y : ℝ) (c : Comp ℝ) : ℝ :=
  if zsum m x y = 0 then zraw c x y else zraw c x y / zsum m x y

/-- `wi`, emfit.i 474, 499. -/
def weight (m : Mix ℝ) (c : Comp ℝ) (p : Px) : ℝ := p.v * zfrac m p.x p.y c

/-- A sum over the pixels with weights. -/
def wsum (px : List Px) (m : Mix ℝ) (c : Comp ℝ) (f : Px → ℝ) : ℝ := (px.map (fun p => weight m c p * f p)).sum

/-- The M step for one component, emfit.i 466-516, where no division by zero occurs. -/
def updated (alpha : ℝ) (px : List Px) (m : Mix ℝ) (c : Comp ℝ) : Comp ℝ :=
  let w := wsum px m c (fun _ => 1)
  let mx := wsum px m c (fun p => p.x) / w
  let my := wsum px m c (fun p => p.y) / w
  { amp := w, mx := mx, my := my
    vxx := (alpha + wsum px m c (fun p => (p.x - mx) * (p.x - mx))) / (w + alpha)
    vxy := wsum px m c (fun p => (p.x - mx) * (p.y - my)) / (w + alpha)
    vyx := wsum px m c (fun p => (p.y - my) * (p.x - mx)) / (w + alpha)
    vyy := (alpha + wsum px m c (fun p => (p.y - my) * (p.y - my))) / (w + alpha) }

/-- The M step for one component; `none`: not a number. -/
def update (alpha : ℝ) (px : List Px) (m : Mix ℝ) (c : Comp ℝ) : Option (Comp ℝ) :=
  if wsum px m c (fun _ => 1) = 0 ∨ wsum px m c (fun _ => 1) + alpha = 0 then none else some (updated alpha px m c)

/-- The arrays `amp`, `mean`, `var`. -/
abbrev State := List (Option (Comp ℝ))

/-- All components, if all are numbers. -/
def State.all : State → Option (Mix ℝ)
  | [] => some []
  | none :: _ => none
  | some c :: s => (State.all s).map (c :: ·)

/-- The determinant of a component is found to be positive (or not a number) in emfit.i 402-409. -/
def detOK : Option (Comp ℝ) → Prop
  | none => True
  | some c => 0 < c.vxx * c.vyy - c.vxy * c.vyx

open Classical in
/-- One step, emfit.i 368-517; `none`: "Got non-positive determinant" (the arrays are as before).  If an entry is not a number then so are
all `Z` and hence all results. -/
def step (alpha : ℝ) (px : List Px) (s : State) : Option State :=
  if ∀ c ∈ s, detOK c then
    some (match State.all s with
      | some m => m.map (update alpha px m)
      | none => s.map (fun _ => none))
  else none

/-- `steps` steps; the arrays afterwards, and whether 0 is returned. -/
def run (alpha : ℝ) (px : List Px) : Nat → State → State × Bool
  | 0, s => (s, true)
  | n + 1, s =>
    match step alpha px s with
    | none => (s, false)
    | some s' => run alpha px n s'

/-- `em_fit_2d_reg(img, x0, y0, amp, mean, var, alpha, steps)`, emfit.i 274-556. -/
def fitReg (img : Arr ℝ) (x0 y0 : Int) (alpha : ℝ) (steps : Nat) (s : State) : State × Bool :=
  run alpha (pixels img x0 y0) steps s

/-- `em_init_params(K, None, None, None)`, fitpsf.py 72-87. -/
def initParams (K : Nat) : Mix ℝ :=
  (List.range K).map (fun (i : Nat) => ⟨1 / (K : ℝ) / ((K : ℝ) * (1 / (K : ℝ))), 0, 0, (i : ℝ) + 1, 0, 0, (i : ℝ) + 1⟩)

/-- `np.sum(stamp)`. -/
def total (img : Arr ℝ) : ℝ := img.ravel.sum

/-- `stamp /= stamp.sum(); stamp = np.maximum(stamp, 0)`, psf.py 591-592. -/
def prepared (stamp : Arr ℝ) : Arr ℝ := stamp.map (fun v => max (v / total stamp) 0)

/-- `GaussianMixturePSF.fromStamp(stamp, N, P0, xy0, alpha, emsteps)` with `v2=False, v3=False`, psf.py 536-597: the mixture of the PSF
(whatever `em_fit_2d_reg` returned).  The sum of the stamp is taken to be different from zero. -/
def fromStamp (stamp : Arr ℝ) (N : Nat) (p0 : Option State) (xy0 : Option (Int × Int)) (alpha : ℝ) (emsteps : Nat) : State :=
  let s := p0.getD ((initParams N).map some)
  let o := xy0.getD (-((stamp.w : Int) / 2), -((stamp.h : Int) / 2))
  (fitReg (prepared stamp) o.1 o.2 alpha emsteps s).1

/-! ## With a sky -/

/-- `maxD[k]`, emfit2.c 151-168 (`approx > 0`; the off-diagonal entries are averaged). -/
def maxD (approx : ℝ) (c : Comp ℝ) : ℝ :=
  let v12 := (c.vxy + c.vyx) / 2
  Real.log (approx * Real.sqrt (tpd * (c.vxx * c.vyy - v12 * v12))) / -0.5

/-- `Zi[k]`, emfit2.c 144-220. -/
def zraw2 (approx : ℝ) (c : Comp ℝ) (x y : ℝ) : ℝ :=
  let v12 := (c.vxy + c.vyx) / 2
  let det := c.vxx * c.vyy - v12 * v12
  let dx := x - c.mx
  let dy := y - c.my
  let dsq := c.vyy / det * dx * dx + -2 * v12 / det * dx * dy + c.vxx / det * dy * dy
  if dsq ≥ maxD approx c then 0 else c.amp / Real.sqrt (tpd * det) * Real.exp (-0.5 * dsq)

/-- `zsum` before the sky is added. -/
def zsum2 (approx : ℝ) (m : Mix ℝ) (x y : ℝ) : ℝ := (m.map (fun c => zraw2 approx c x y)).sum

/-- `wi`, emfit2.c 195-226, 232: nothing for pixels that are not positive or that no component reaches. -/
def weight2 (approx psky : ℝ) (m : Mix ℝ) (c : Comp ℝ) (p : Px) : ℝ :=
  if p.v ≤ 0 then 0
  else if zsum2 approx m p.x p.y = 0 then 0
  else p.v * zraw2 approx c p.x p.y / (zsum2 approx m p.x p.y + psky)

/-- What a pixel adds to `skyamp`, emfit2.c 199-227. -/
def skyShare (approx psky : ℝ) (m : Mix ℝ) (p : Px) : ℝ :=
  if p.v ≤ 0 then |p.v|
  else if zsum2 approx m p.x p.y = 0 then p.v
  else p.v * (psky / (zsum2 approx m p.x p.y + psky))

/-- A sum over the pixels with weights. -/
def wsum2 (approx psky : ℝ) (px : List Px) (m : Mix ℝ) (c : Comp ℝ) (f : Px → ℝ) : ℝ :=
  (px.map (fun p => weight2 approx psky m c p * f p)).sum

/-- The M step for one component, emfit2.c 176-188, 229-254, where no division by zero occurs: the variances are about the old mean. -/
def updated2 (approx psky alpha : ℝ) (px : List Px) (m : Mix ℝ) (c : Comp ℝ) : Comp ℝ :=
  let w := wsum2 approx psky px m c (fun _ => 1)
  let vxy := wsum2 approx psky px m c (fun p => (p.x - c.mx) * (p.y - c.my)) / (w + alpha)
  { amp := w
    mx := wsum2 approx psky px m c (fun p => p.x) / w
    my := wsum2 approx psky px m c (fun p => p.y) / w
    vxx := (alpha + wsum2 approx psky px m c (fun p => (p.x - c.mx) * (p.x - c.mx))) / (w + alpha)
    vxy := vxy
    vyx := vxy
    vyy := (alpha + wsum2 approx psky px m c (fun p => (p.y - c.my) * (p.y - c.my))) / (w + alpha) }

/-- The M step for one component; `none`: not a number (its mean, at least). -/
def update2 (approx psky alpha : ℝ) (px : List Px) (m : Mix ℝ) (c : Comp ℝ) : Option (Comp ℝ) :=
  if wsum2 approx psky px m c (fun _ => 1) = 0 ∨ wsum2 approx psky px m c (fun _ => 1) + alpha = 0 then none
  else some (updated2 approx psky alpha px m c)

/-- The determinant check of emfit2.c 152-159. -/
def detOK2 : Option (Comp ℝ) → Prop
  | none => True
  | some c => 0 < c.vxx * c.vyy - (c.vxy + c.vyx) / 2 * ((c.vxy + c.vyx) / 2)

/-- Components and sky; the sky level `none`: not a number. -/
structure State2 where
  comps : State
  psky : Option ℝ

open Classical in
/-- One step after the first line, emfit2.c 143-256; `npix = NX*NY`.  `none`: "Got non-positive determinant". -/
def step2 (approx alpha : ℝ) (npix : Nat) (px : List Px) (s : State2) : Option State2 :=
  if ∀ c ∈ s.comps, detOK2 c then
    some (match State.all s.comps, s.psky with
      | some m, some psky =>
        ⟨m.map (update2 approx psky alpha px m), some ((px.map (skyShare approx psky m)).sum / npix)⟩
      | _, _ => ⟨s.comps.map (fun _ => none), none⟩)
  else none

/-- `steps` steps. -/
def run2 (approx alpha : ℝ) (npix : Nat) (px : List Px) : Nat → State2 → State2 × Bool
  | 0, s => (s, true)
  | n + 1, s =>
    match step2 approx alpha npix px s with
    | none => (s, false)
    | some s' => run2 approx alpha npix px n s'

/-- `em_fit_2d_reg2(img, x0, y0, amp, mean, var, alpha, steps, approx)`, emfit2.c: arrays, sky level, whether 0 is returned.  The sky starts
with a hundredth of the flux (and is 0 if there are no steps).  For images that have pixels. -/
def fitReg2 (img : Arr ℝ) (x0 y0 : Int) (alpha : ℝ) (steps : Nat) (approx : ℝ) (s : State) : State2 × Bool :=
  let npix := img.w * img.h
  let psky := if steps = 0 then 0 else 0.01 * total img / npix
  run2 approx alpha npix (pixels img x0 y0) steps ⟨s, some psky⟩

end

end Verif.Em
