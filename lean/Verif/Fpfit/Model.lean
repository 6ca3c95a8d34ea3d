import Verif.Linmod.Model

/-!
# Forced photometry of a list of images

The objective function of tractor/lsqr_optimizer.py `_lsqr_forced_photom` for the images and the catalog of a tractor, without priors and
without regions of interest, and tractor/engine.py `Tractor.getLogLikelihood`.  One image and its linear model are in `Verif.Linmod`, the loop
that changes the fluxes is in `Verif.Forced`.
-/

namespace Verif.Fpfit

open Verif Patches Forced Linmod

variable {R M : Type}

/-- An image: data and inverse errors, the rest of `Verif.Linmod.Img`, and the models of the sources in it. -/
structure Tim (R M : Type) where
  data : Arr R
  ie : Arr R
  band : String
  scale : R
  sky : R
  minval : R
  W : World R M

/-- The image as `Verif.Linmod` has it: model images have the shape of the data (image.py `getModelShape`). -/
def Tim.img (t : Tim R M) : Img R := ⟨t.data.h, t.data.w, t.band, t.scale, t.sky, t.minval⟩

/-- `tractor.images.setParams(levels)`: the only thawed parameter of an image is its sky level.  (A list of another length is an
AssertionError, which is not represented: levels that are missing are left alone.) -/
def setSky : List (Tim R M) → List R → List (Tim R M)
  | [], _ => []
  | t :: ts, l => { t with sky := l.headD t.sky } :: setSky ts l.tail

/-- `catalog.getParams()`: the thawed bands of the thawed sources. -/
def getParams (cat : List (Source R)) : List R :=
  ((cat.filter (·.thawed)).map (fun s => (s.parts.map (fun b => b.thawed.map b.flux)).flatten)).flatten

section
variable [Field R]

/-- `(chi ** 2).sum()`. -/
def sumSq (A : Arr R) : R := (A.ravel.map (fun v => v * v)).sum

/-- The sum over images, `chisq += (chi.astype(float) ** 2).sum()`. -/
def chisqOf (l : List (Arr R)) : R := (l.map sumSq).sum

variable [LinearOrder R]

/-- The chi image of `_getims` for an image of which the sky has the value `level`; unit-flux models and `mod0` are those of the catalog
`cat` with which forced photometry was called. -/
def fitChi (minsb : R) (sky : Bool) (cat : List (Source R)) (p : List R) (t : Tim R M) (level : R) : Except PyErr (Arr R) :=
  match prepare t.W t.img minsb sky cat with
  | .error e => .error e
  | .ok (u, m) =>
    match getim none (fun A => if sky then addSky { t.img with sky := level } A else A) p ⟨t.data, t.ie, none⟩ u m t.scale with
    | .error e => .error e
    | .ok (_, chi) => .ok chi

/-- The chi images of `_getims`, optimize.py 465-520. -/
def fitChis (minsb : R) (sky : Bool) (cat : List (Source R)) (p : List R) : List (Tim R M) → List R → Except PyErr (List (Arr R))
  | [], _ => .ok []
  | t :: ts, l =>
    match fitChi minsb sky cat p t (l.headD t.sky) with
    | .error e => .error e
    | .ok c =>
      match fitChis minsb sky cat p ts l.tail with
      | .error e => .error e
      | .ok cs => .ok (c :: cs)

/-- What `_lnp_for_update` sums up, lsqr_optimizer.py 243-247. -/
def objective (minsb : R) (sky : Bool) (tims : List (Tim R M)) (cat : List (Source R)) : Obj R where
  prior := fun _ _ => .fin 0
  chisq := fun p l =>
    match fitChis minsb sky cat p tims l with
    | .error e => .error e
    | .ok cs => .ok (chisqOf cs)

/-- The tractor as the loop sees it. -/
def start (tims : List (Tim R M)) (cat : List (Source R)) : St R := ⟨getParams cat, tims.map (·.sky), true⟩

/-- `Tractor.getChiImage`, engine.py 455-473. -/
def chiImage (minsb : R) (cat : List (Source R)) (t : Tim R M) : Except PyErr (Arr R) :=
  match modelImage t.W t.img minsb true cat with
  | .error e => .error e
  | .ok m =>
    match bc (· - ·) t.data m with
    | .error e => .error e
    | .ok d => bc (· * ·) d t.ie

/-- `Tractor.getChiImages`, engine.py 451-453. -/
def chiImages (minsb : R) (cat : List (Source R)) : List (Tim R M) → Except PyErr (List (Arr R))
  | [] => .ok []
  | t :: ts =>
    match chiImage minsb cat t with
    | .error e => .error e
    | .ok c =>
      match chiImages minsb cat ts with
      | .error e => .error e
      | .ok cs => .ok (c :: cs)

/-- `Tractor.getLogLikelihood(minsb=minsb)`, engine.py 475-479. -/
def logLike (minsb : R) (tims : List (Tim R M)) (cat : List (Source R)) : Except PyErr R :=
  match chiImages minsb cat tims with
  | .error e => .error e
  | .ok cs => .ok (-(1 / 2) * chisqOf cs)

end

end Verif.Fpfit
