import Verif.Gpu.Try
import Verif.Mog.Model

/-!
# Galaxy profiles on the GPU

tractor/gpu_optimizer.py `gpu_get_unitflux_galaxy_profiles` (927-1102).  Arrays with an axis for the images and one for the
profiles are functions of both indices; padding with zeros is a component of zero amplitude and variance.
-/

namespace Verif.Gpu

open Verif Verif.Psf Verif.Mog Verif.Params Verif.Opt

variable {R : Type}

/-- Functions of the library and the frequencies `img_params.v`, `img_params.w` (gpu_optimizer.py 1164-1168). -/
structure Lib (R : Type) where
  sqrt : R → R
  exp : R → R
  pi : R
  v : Nat → R
  w : Nat → R

/-- The PSF of one image: `back F` is `irfft2(F * P[i])` with its transform `P[i]`; `mog` is its mixture. -/
structure ImPsf (R : Type) where
  back : (Nat → Nat → R) → Nat → Nat → R
  mog : Mix R

variable [Field R]

/-- Padding. -/
def noComp : Comp R := ⟨0, 0, 0, 0, 0, 0, 0⟩

/-- `mix_amps[i, j, k]`, `mix_vars[i, j, k, :]`, gpu_optimizer.py 950-959. -/
def compAt (mogs : List (List (Mix R))) (i j k : Nat) : Comp R := ((mogs.getD i []).getD j []).getD k noComp

/-- `Kmax`, gpu_optimizer.py 945-948. -/
def kMax (mogs : List (List (Mix R))) : Nat := (mogs.flatten.map List.length).foldl max 0

/-- `Nprofiles`, gpu_optimizer.py 944. -/
def nProf (mogs : List (List (Mix R))) : Nat := (mogs.map List.length).foldl max 0

/-- `vv`, gpu_optimizer.py 966. -/
def size2 (c : Comp R) : R := c.vxx + c.vyy

variable [LinearOrder R]

/-- An entry of `IM`, gpu_optimizer.py 965-967. -/
def inMogs (sz : Nat) (c : Comp R) : Bool := decide (((sz : R) / 2) ^ 2 < 4 ^ 2 * size2 c) && decide (c.amp ≠ 0)

/-- An entry of `IF`, gpu_optimizer.py 968. -/
def inFfts (sz : Nat) (c : Comp R) : Bool := decide (((sz : R) / 2) ^ 2 > 3 ^ 2 * size2 c) && decide (c.amp ≠ 0)

/-- `np.flatnonzero(I.max(axis=(0,1)))`, gpu_optimizer.py 974-975. -/
def hotK (I : Comp R → Bool) (mogs : List (List (Mix R))) : List Nat :=
  (List.range (kMax mogs)).filter (fun k => (List.range mogs.length).any (fun i => (List.range (nProf mogs)).any (fun j =>
    I (compAt mogs i j k))))

/-- `Nmog`, gpu_optimizer.py 976-979. -/
def nMogOf (sz : Nat) (mogs : List (List (Mix R))) : Nat :=
  match (hotK (inMogs sz) mogs).min? with
  | some a => kMax mogs - a
  | none => 0

/-- `Nfft`, gpu_optimizer.py 980-983. -/
def nFftOf (sz : Nat) (mogs : List (List (Mix R))) : Nat :=
  match (hotK (inFfts sz) mogs).max? with
  | some a => 1 + a
  | none => 0

/-- `np.sum(I[:, :, lo:hi])`. -/
def countK (I : Comp R → Bool) (mogs : List (List (Mix R))) (lo hi : Nat) : Nat :=
  ((List.range mogs.length).map (fun i => ((List.range (nProf mogs)).map (fun j =>
    ((List.range' lo (hi - lo)).filter (fun k => I (compAt mogs i j k))).length)).sum)).sum

/-- `np.clip(x, 0., 1.)`. -/
def clip01 (x : R) : R := min (max x 0) 1

/-- `ns`, gpu_optimizer.py 1001. -/
def nSig (E : Lib R) (sz : Nat) (c : Comp R) : R := (sz : R) / 2 / max (1 / 1000000) (E.sqrt (size2 c))

/-- An entry of `mog_mix_amps`, gpu_optimizer.py 989, 1002-1005: `ramp` is `Nmog + Nfft > Kmax`. -/
def mogAmp (E : Lib R) (sz : Nat) (ramp : Bool) (c : Comp R) : R :=
  if ramp then clip01 ((4 - nSig E sz c) / (4 - 3)) * (if inMogs sz c then 1 else 0) * c.amp else c.amp

/-- An entry of `fft_mix_amps`, gpu_optimizer.py 990, 1003-1007. -/
def fftAmp (E : Lib R) (sz : Nat) (ramp : Bool) (c : Comp R) : R :=
  if ramp then clip01 ((nSig E sz c - 3) / (4 - 3)) * (if inFfts sz c then 1 else 0) * c.amp else c.amp

/-- The Fourier transform of a component of unit amplitude in the entry in row `a`, column `b`, gpu_optimizer.py 1028-1032. -/
def ftOf (E : Lib R) (c : Comp R) (a b : Nat) : R :=
  E.exp (-2 * E.pi ^ 2 * (c.vxx * E.v b ^ 2 + 2 * c.vxy * (E.v b * E.w a) + c.vyy * E.w a ^ 2))

/-- `Fsum`, gpu_optimizer.py 1025-1032. -/
def fSum (E : Lib R) (sz : Nat) (ramp : Bool) (mogs : List (List (Mix R))) (nfft i j : Nat) (a b : Nat) : R :=
  ((List.range nfft).map (fun k => fftAmp E sz ramp (compAt mogs i j k) * ftOf E (compAt mogs i j k) a b)).sum

/-- The entries of `conv_vars` (00, 01, 11), gpu_optimizer.py 1056. -/
def convVar (c p : Comp R) : R × R × R := (c.vxx + p.vxx, c.vxy + p.vxy, c.vyy + p.vyy)

/-- `det`, gpu_optimizer.py 1059. -/
def detOf (v : R × R × R) : R := v.1 * v.2.2 - v.2.1 ^ 2

/-- One Gaussian with the amplitude `amp` in the pixel in row `r`, column `q`, gpu_optimizer.py 1063-1088. -/
def gaussAt (E : Lib R) (sz : Nat) (amp : R) (v : R × R × R) (r q : Nat) : R :=
  let det := max (detOf v) (1 / 10 ^ 30)
  let iv0 := v.2.2 / det
  let iv1 := -2 * v.2.1 / det
  let iv2 := v.1 / det
  let scale := amp / (2 * E.pi * E.sqrt det)
  let x : R := q - ((sz / 2 : Nat) : R)
  let y : R := r - ((sz / 2 : Nat) : R)
  E.exp (-(1 / 2) * (iv0 * x ^ 2 + iv1 * (x * y) + iv2 * y ^ 2)) * scale

/-- `Npsfmog`: the largest number of components of a PSF, gpu_optimizer.py 1107-1113. -/
def nPsf (psfs : List (ImPsf R)) : Nat := (psfs.map (fun p => p.mog.length)).foldl max 0

/-- `psf_amps[i, l]`, `psf_vars[i, l, :]`, gpu_optimizer.py 1116-1124. -/
def psfAt (psfs : List (ImPsf R)) (i l : Nat) : Comp R := ((psfs.map ImPsf.mog).getD i []).getD l noComp

/-- `img_params.P[i]` in this role. -/
def backAt (psfs : List (ImPsf R)) (i : Nat) (F : Nat → Nat → R) (r q : Nat) : R :=
  match psfs[i]? with
  | some p => p.back F r q
  | none => 0

/-- The sum over the components drawn as Gaussians, gpu_optimizer.py 1053-1095. -/
def mogSum (E : Lib R) (sz : Nat) (ramp : Bool) (mogs : List (List (Mix R))) (psfs : List (ImPsf R)) (lo i j : Nat)
    (r q : Nat) : R :=
  ((List.range' lo (kMax mogs - lo)).map (fun k => ((List.range (nPsf psfs)).map (fun l =>
    gaussAt E sz (mogAmp E sz ramp (compAt mogs i j k) * (psfAt psfs i l).amp) (convVar (compAt mogs i j k) (psfAt psfs i l))
      r q)).sum)).sum

/-- The assertion about the determinants, gpu_optimizer.py 1061. -/
def detsOK (E : Lib R) (sz : Nat) (ramp : Bool) (mogs : List (List (Mix R))) (psfs : List (ImPsf R)) (lo : Nat) : Bool :=
  (List.range mogs.length).all (fun i => (List.range (nProf mogs)).all (fun j =>
    (List.range' lo (kMax mogs - lo)).all (fun k => (List.range (nPsf psfs)).all (fun l =>
      let det := detOf (convVar (compAt mogs i j k) (psfAt psfs i l))
      decide (0 < det) || (decide (det = 0) && decide (mogAmp E sz ramp (compAt mogs i j k) * (psfAt psfs i l).amp = 0))))))

/-- `G[i, j]` before the shift, gpu_optimizer.py 1035-1037, 1092-1095. -/
def rawProfile (E : Lib R) (sz : Nat) (psfs : List (ImPsf R)) (mogs : List (List (Mix R))) (i j : Nat) : Arr R :=
  let nmog := nMogOf sz mogs
  let nfft := nFftOf sz mogs
  let lo := if nmog = 0 then 0 else kMax mogs - nmog
  let ramp : Bool := decide (nmog + nfft > kMax mogs)
  ⟨sz, sz, fun r q => (if nfft > 0 then backAt psfs i (fSum E sz ramp mogs nfft i j) r q else 0) +
    (if nmog > 0 then mogSum E sz ramp mogs psfs lo i j r q else 0)⟩

/-- `gpu_get_unitflux_galaxy_profiles(mogs, img_params, mux, muy)`, gpu_optimizer.py 927-1102: for each image the models of
all profiles.  `psfs` is what `img_params` knows about the images.  Without images or profiles there is no maximum
(ValueError); without any component of non-zero amplitude `G` stays None (AttributeError).  With `Nmog = 0` the slice
`-Nmog:` is everything, but it is not used. -/
def galaxyProfiles (E : Lib R) (lz : R → R) (junk : Nat → Nat → Nat → Nat → R) (sz : Nat) (psfs : List (ImPsf R))
    (mogs : List (List (Mix R))) (mux muy : Nat → Nat → R) : Except PyErr (List (List (Arr R))) :=
  if mogs.length = 0 ∨ nProf mogs = 0 then .error .value
  else
    let kmog := hotK (inMogs sz) mogs
    let kfft := hotK (inFfts sz) mogs
    let nmog := nMogOf sz mogs
    let nfft := nFftOf sz mogs
    let lo := if nmog = 0 then 0 else kMax mogs - nmog
    if !(kmog.all (fun k => decide (k ≥ kMax mogs - nmog)) && kfft.all (fun k => decide (k < nfft))) then .error .assertion
    else if countK (inMogs sz) mogs 0 (kMax mogs) ≠ countK (inMogs sz) mogs lo (kMax mogs) ∨
        countK (inFfts sz) mogs 0 (kMax mogs) ≠ countK (inFfts sz) mogs 0 nfft then .error .assertion
    else
      let ramp : Bool := decide (nmog + nfft > kMax mogs)
      if nmog = 0 ∧ nfft = 0 then .error .attribute
      else if decide (nmog > 0) && !detsOK E sz ramp mogs psfs lo then .error .assertion
      else
        (List.range mogs.length).mapM (fun i => (List.range (nProf mogs)).mapM (fun j =>
          let G := rawProfile E sz psfs mogs i j
          correlate (kernPy lz (mux i j)) (kernPy lz (muy i j)) G ⟨sz, sz, junk i j⟩ G))

/-- A galaxy in the line search, gpu_optimizer.py 290-292, 317-319.  There the profiles of all images and steps are one
batch; C110_batch shows that each is what a batch of its own gives.  `prof` is `_getShearedProfile` at the position of the
source; `lib` and `psf` belong to arrays of the given size. -/
def galaxySource (lib : Nat → Lib R) (lz : R → R) (junk : Nat → Nat → Nat → Nat → R) (psf : Nat → Tim R → ImPsf R)
    (prof : Par R → Tim R → Mix R) (pos : Par R → Tim R → R × R) (cnt : Par R → Tim R → R) : Source R :=
  ⟨pos, cnt, fun par tim p mux muy => do
    let G ← galaxyProfiles (lib p.padpix.h) lz junk p.padpix.h [psf p.padpix.h tim] [[prof par tim]]
      (fun _ _ => mux) (fun _ _ => muy)
    match G with
    | [[A]] => .ok A
    | _ => .error .index⟩

end Verif.Gpu
