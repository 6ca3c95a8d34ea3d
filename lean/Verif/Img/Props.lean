import Verif.Img.Lemmas
import Mathlib.Algebra.Order.Field.Rat
import Mathlib.Tactic.NormNum

/-!
# C120: images in FITS files and copies of images
-/

namespace Verif.Img

open Verif.Mog (MogParams NCirc)

variable {R I : Type}

/-- The inverse errors survive squaring and the square root. -/
theorem sqrt_square [Field R] [LinearOrder R] {sqrt : R → R} (hs : ∀ v : R, 0 ≤ v → sqrt (v ^ 2) = v) {ie : List (List R)}
    (h : ∀ row ∈ ie, ∀ v ∈ row, 0 ≤ v) : setInvvar sqrt (ie.map (·.map (fun v => v ^ 2))) = ie := by
  unfold setInvvar
  rw [List.map_map]
  conv_rhs => rw [← List.map_id ie]
  refine List.map_congr_left (fun row hr => ?_)
  rw [Function.comp_apply, List.map_map]
  conv_rhs => rw [id, ← List.map_id row]
  exact List.map_congr_left (fun v hv => hs v (h row hr v hv))

/-- Skies are read as written. -/
theorem readSky_eq {H : Header R} {pre : String} {s : Sky R} (h1 : record H (classKey pre "SKY") = some (.str s.name))
    (h2 : readFrom pre "SKY" H 100 0 = s.written.take 100) : readSky H pre = .ok s := by
  unfold readSky className
  rw [h1, h2]
  cases s with
  | null => rfl
  | constant v => rfl

/-- A file that was written has the header of the image. -/
theorem toFits_ok [Field R] {im : Image R I} {h : Header R} {pre : String} {f : File R} (hf : toFits im h pre = .ok f) :
    ∃ psf ie, im.psf = some psf ∧ im.inverr = some ie ∧ fitsHeader im h pre = .ok f.header ∧ f.data = im.data ∧
      f.invvar = ie.map (·.map (fun v => v ^ 2)) := by
  unfold toFits at hf
  cases hh : fitsHeader im h pre with
  | error e => rw [hh] at hf; cases hf
  | ok H =>
    rw [hh] at hf
    cases hp : im.psf with
    | none => unfold fitsHeader at hh; rw [hp] at hh; cases hh
    | some psf =>
      cases hi : im.inverr with
      | none => unfold getInvvar at hf; rw [hi] at hf; cases hf
      | some ie =>
        unfold getInvvar at hf
        rw [hi] at hf
        cases hf
        exact ⟨psf, ie, rfl, rfl, rfl, rfl, rfl⟩

/-- **C120.** An image with inverse errors, a Gaussian-mixture PSF of at most 16 components with nothing frozen, the plain pixel WCS and
photometric calibration, and no or a constant sky is written to a FITS file under any prefix, into any header without records of an image
under that prefix, and read back: the pixels, the inverse errors and all four calibrations are those of the image.  Nothing else is kept:
the image read has no name, time or plotting range, `modelMinval` 0 and all calibrations thawed. -/
theorem C120_roundtrip_partial [Field R] [LinearOrder R] {sqrt : R → R} (hs : ∀ v : R, 0 ≤ v → sqrt (v ^ 2) = v) (im : Image R I)
    (ie : List (List R)) (m : MogParams R) (hp : Plain im ie m) (h : Header R) (pre : String) (hc : Clean h pre) :
    ∃ f, toFits im h pre = .ok f ∧
      (readFromFits sqrt f pre : Except PyErr (Image R I)) =
        .ok ⟨im.data, im.inverr, im.psf, im.wcs, im.phot, im.sky, none, none, none, 0, [true, true, true, true]⟩ ∧
      (Default im → im.name = none → im.time = none → (readFromFits sqrt f pre : Except PyErr (Image R I)) = .ok im) := by
  have hH : ∃ H, fitsHeader im h pre = .ok H := by unfold fitsHeader; rw [hp.psf]; exact ⟨_, rfl⟩
  obtain ⟨H, hH⟩ := hH
  have hf : toFits im h pre = .ok ⟨H, im.data, ie.map (·.map (fun v => v ^ 2))⟩ := by
    unfold toFits getInvvar
    rw [hH, hp.inverr]
  obtain ⟨c1, c2, c3, c4, p1, p2, p3, p4⟩ := header_facts hc hp.psf hH
  have hlen : m.getAllParams.length = 6 * m.mog.length := Mog.getThings_length m.mog
  have hw : (Psf.mixture m : Psf R I).written.take 100 = m.getAllParams := by
    show (m.getAllParams.take (m.liquid.filter id).length).take 100 = m.getAllParams
    rw [hp.thawed]
    have hl : (List.filter id (List.replicate (6 * m.mog.length) true)).length = 6 * m.mog.length := by
      rw [List.filter_replicate]; simp
    rw [hl, List.take_of_length_le (le_of_eq hlen), List.take_of_length_le (by have := hp.few; omega)]
  have rp : (readPsf H pre : Except PyErr (Psf R I)) = .ok (.mixture m) := by
    unfold readPsf className
    rw [c1, p1, hw]
    simp only [Psf.name, if_true]
    have h1 := hp.some
    rw [if_neg (by rw [hlen]; omega), hlen, Nat.mul_div_cancel_left _ (by omega), fresh_set m hp.ok hp.thawed]
  have rw' : readWcs H pre = .ok im.wcs := by
    unfold readWcs className
    rw [c2, p2, hp.wcs]
    rfl
  have rph : readPhot H pre = .ok im.phot := by
    unfold readPhot className
    rw [c4, p4, hp.phot]
    rfl
  have main : (readFromFits sqrt ⟨H, im.data, ie.map (·.map (fun v => v ^ 2))⟩ pre : Except PyErr (Image R I)) =
        .ok ⟨im.data, im.inverr, im.psf, im.wcs, im.phot, im.sky, none, none, none, 0, [true, true, true, true]⟩ := by
    unfold readFromFits
    simp only
    rw [if_neg, rp, rw', readSky_eq c3 p3, rph]
    · show Except.ok (mkImage im.data (setInvvar sqrt _) (some (Psf.mixture m)) im.wcs im.phot im.sky none none) = _
      rw [sqrt_square hs hp.nonneg]
      unfold mkImage
      rw [hp.inverr, hp.psf]
    · rw [not_not, hp.shape, List.map_map]
      refine List.map_congr_left (fun row _ => ?_)
      simp
  refine ⟨_, hf, main, ?_⟩
  rintro ⟨d1, d2, d3⟩ d4 d5
  rw [main]
  cases im
  simp only at d1 d2 d3 d4 d5
  subst d1 d2 d3 d4 d5
  rfl

/-- **C120, what can be read.** For any image, PSF, calibrations and frozen state, written into a header without such records: if the file can
be read at all then the PSF was a Gaussian mixture, the WCS a `NullWCS` and the calibration a `NullPhotoCal`; and the image read has the
pixels and the sky, but always the `NullWCS` without offset and of pixel scale 1.  (So images with any other of the PSFs, WCS and
photometric calibrations modelled here are written without complaint and cannot be read.) -/
theorem C120_readable_partial [Field R] (sqrt : R → R) (im im' : Image R I) (h : Header R) (pre : String) (hc : Clean h pre) (f : File R)
    (hf : toFits im h pre = .ok f) (hr : readFromFits sqrt f pre = .ok im') :
    (∃ m, im.psf = some (.mixture m)) ∧ (∃ s dx dy, im.wcs = .null s dx dy) ∧ im.phot = .null ∧
      im'.data = im.data ∧ im'.sky = im.sky ∧ im'.wcs = .null 1 0 0 ∧ im'.phot = .null := by
  obtain ⟨psf, ie, e1, e2, e3, e4, e5⟩ := toFits_ok hf
  obtain ⟨c1, c2, c3, c4, p1, p2, p3, p4⟩ := header_facts hc e1 e3
  unfold readFromFits at hr
  split at hr
  · cases hr
  · cases hp : (readPsf f.header pre : Except PyErr (Psf R I)) with
    | error e => rw [hp] at hr; cases hr
    | ok psf' =>
      cases hw : readWcs f.header pre with
      | error e => rw [hp, hw] at hr; cases hr
      | ok wcs' =>
        cases hph : readPhot f.header pre with
        | error e => rw [hp, hw, readSky_eq c3 p3, hph] at hr; cases hr
        | ok ph' =>
          rw [hp, hw, readSky_eq c3 p3, hph] at hr
          have hr' : mkImage f.data (setInvvar sqrt f.invvar) (some psf') wcs' ph' im.sky none none = im' := Except.ok.inj hr
          have q1 : ∃ m, psf = .mixture m := by
            cases psf with
            | mixture m => exact ⟨m, rfl⟩
            | circ p =>
              exfalso
              unfold readPsf className at hp
              rw [c1] at hp
              simp [Psf.name] at hp
            | pixels p =>
              exfalso
              unfold readPsf className at hp
              rw [c1] at hp
              simp [Psf.name] at hp
          have q2 : (∃ s dx dy, im.wcs = .null s dx dy) ∧ wcs' = .null 1 0 0 := by
            unfold readWcs className at hw
            rw [c2, p2] at hw
            cases hx : im.wcs with
            | null s dx dy =>
              rw [hx] at hw
              exact ⟨⟨s, dx, dy, rfl⟩, (Except.ok.inj hw).symm⟩
            | fits w x y =>
              exfalso
              rw [hx] at hw
              simp [Wcs.name] at hw
          have q3 : im.phot = .null ∧ ph' = .null := by
            unfold readPhot className at hph
            rw [c4, p4] at hph
            cases hx : im.phot with
            | null =>
              rw [hx] at hph
              exact ⟨rfl, (Except.ok.inj hph).symm⟩
            | linear s b => rw [hx] at hph; simp [Phot.name] at hph
            | mags b z => rw [hx] at hph; simp [Phot.name] at hph
            | fluxes b => rw [hx] at hph; simp [Phot.name] at hph
          obtain ⟨m, rfl⟩ := q1
          refine ⟨⟨m, e1⟩, q2.1, q3.1, ?_⟩
          rw [← hr', q2.2, q3.2, ← e4]
          exact ⟨rfl, rfl, rfl, rfl⟩

/-- **C120, negation.** The number of parameters read is that of the thawed ones and at most 100; unless it is a positive multiple of 6, reading
is a RuntimeError.  So a mixture of 17 or more components cannot be read, nor one of at most 16 components with a frozen parameter unless
a multiple of 6 is frozen; also a mixture of nothing. -/
theorem C120_components_false [Field R] (sqrt : R → R) (im : Image R I) (h : Header R) (pre : String) (hc : Clean h pre) (f : File R)
    (hf : toFits im h pre = .ok f) (m : MogParams R) (hm : im.psf = some (.mixture m)) (ho : m.OK)
    (hsh : ∀ ie, im.inverr = some ie → im.data.map List.length = ie.map List.length) :
    (¬ (6 ∣ min 100 (m.liquid.filter id).length) ∨ (m.liquid.filter id).length = 0 →
      (readFromFits sqrt f pre : Except PyErr (Image R I)) = .error .runtime) ∧
    (17 ≤ m.mog.length → m.liquid = List.replicate (6 * m.mog.length) true →
      (readFromFits sqrt f pre : Except PyErr (Image R I)) = .error .runtime) := by
  obtain ⟨psf, ie, e1, e2, e3, e4, e5⟩ := toFits_ok hf
  obtain ⟨c1, c2, c3, c4, p1, p2, p3, p4⟩ := header_facts hc e1 e3
  rw [hm] at e1
  cases e1
  have hlen : m.getAllParams.length = 6 * m.mog.length := Mog.getThings_length m.mog
  have hle : (m.liquid.filter id).length ≤ 6 * m.mog.length := by rw [← ho.1]; exact List.length_filter_le _ _
  have hw : ((Psf.mixture m : Psf R I).written.take 100).length = min 100 (m.liquid.filter id).length := by
    unfold Psf.written
    simp only [List.length_take]
    rw [hlen]
    omega
  have main : ¬ (6 ∣ min 100 (m.liquid.filter id).length) ∨ (m.liquid.filter id).length = 0 →
      (readFromFits sqrt f pre : Except PyErr (Image R I)) = .error .runtime := by
    intro hn
    have rp : (readPsf f.header pre : Except PyErr (Psf R I)) = .error .runtime := by
      unfold readPsf className
      rw [c1, p1]
      simp only [Psf.name, if_true]
      rw [if_pos]
      rw [hw]
      rcases hn with hn | hn
      · exact Or.inr (fun hh => hn (Nat.dvd_of_mod_eq_zero hh))
      · left; omega
    unfold readFromFits
    rw [if_neg, rp]
    · rfl
    · rw [not_not, e4, e5, hsh ie e2, List.map_map]
      refine List.map_congr_left (fun row _ => ?_)
      simp
  refine ⟨main, fun h17 hl => main (Or.inl ?_)⟩
  rw [hl, List.filter_replicate]
  simp only [id, if_true, List.length_replicate]
  rw [Nat.min_eq_left (by omega)]
  decide

/-! ### Witnesses -/

/-- A mixture of one round Gaussian. -/
def oneGauss : MogParams ℚ := ⟨[⟨1, 0, 0, 2, 0, 0, 2⟩], List.replicate 6 true⟩

/-- A mixture of two. -/
def twoGauss : MogParams ℚ := ⟨[⟨3/4, 0, 0, 2, 0, 0, 2⟩, ⟨1/4, 1, 0, 5, 1, 1, 6⟩], List.replicate 12 true⟩

/-- A small image. -/
def small : Image ℚ Unit :=
  ⟨[[1, 2]], some [[1, 1]], some (.mixture twoGauss), .null 1 0 0, .null, .constant 7, none, none, none, 0, [true, true, true, true]⟩

theorem small_plain : Plain small [[1, 1]] twoGauss := by
  refine ⟨rfl, rfl, ?_, rfl, ⟨rfl, ?_⟩, rfl, by decide, by decide, rfl, rfl⟩
  · intro row hr v hv
    simp only [List.mem_singleton] at hr
    subst hr
    simp only [List.mem_cons, List.not_mem_nil, or_false, or_self] at hv
    rw [hv]
    exact zero_le_one
  · intro c hc
    simp only [twoGauss, List.mem_cons, List.not_mem_nil, or_false] at hc
    rcases hc with rfl | rfl <;> rfl

example : ∃ f, toFits small [] "A_" = .ok f ∧ readFromFits (fun v => if v = 1 then 1 else 0) f "A_" = .ok small := by
  refine ⟨_, rfl, ?_⟩
  decide +kernel

example : ∃ f, toFits ({ small with psf := some (.mixture { oneGauss with liquid := [false, true, true, true, true, true] }) } : Image ℚ Unit) [] "" = .ok f ∧
    (readFromFits (fun v => if v = 1 then 1 else 0) f "" : Except PyErr (Image ℚ Unit)) = .error .runtime := by
  refine ⟨_, rfl, ?_⟩
  decide +kernel

example : ∃ f, toFits ({ small with phot := .linear 3 none } : Image ℚ Unit) [] "" = .ok f ∧
    (readFromFits (fun v => if v = 1 then 1 else 0) f "" : Except PyErr (Image ℚ Unit)) = .error .typeErr := by
  refine ⟨_, rfl, ?_⟩
  decide +kernel

example : (Clean ([("X", .num 3), ("A_PSF_P0", .num 5)] : Header ℚ) "B_") := by
  intro tag ht i
  unfold record
  rw [List.find?_cons_of_neg, List.find?_cons_of_neg, List.find?_nil, Option.map_none]
  all_goals
    simp only [decide_eq_true_eq]
    intro e
    have := congrArg (fun s => s.toList.head?) e
    simp at this

/-- **C120, negation.** Writing and reading an image whose `NullWCS` has an offset and a pixel scale gives, without complaint, an image whose
sources are elsewhere. -/
theorem C120_null_wcs_false :
    ∃ f, ∃ im' : Image ℚ Unit, toFits ({ small with wcs := .null 2 10 0 } : Image ℚ Unit) [] "" = .ok f ∧ readFromFits (fun v => if v = 1 then 1 else 0) f "" = .ok im' ∧
      im'.wcs = .null 1 0 0 ∧ (∀ base, (Wcs.null 2 10 0 : Wcs ℚ).toPixel base 3 4 = (13, 4) ∧ im'.wcs.toPixel base 3 4 = (3, 4)) ∧
      im'.data = small.data ∧ im'.sky = small.sky ∧ im'.psf = small.psf := by
  refine ⟨_, small, rfl, ?_, rfl, ?_, rfl, rfl, rfl⟩
  · decide +kernel
  · intro base
    simp only [Wcs.toPixel, small]
    norm_num

/-- **C120, negation.** With six of the twelve parameters of the PSF frozen, the file is read without complaint: the PSF has one component instead of
two, its centre is the amplitude of the missing one, and its variance along x is 0. -/
theorem C120_frozen_false :
    ∃ f, ∃ im' : Image ℚ Unit, toFits ({ small with psf := some (.mixture { twoGauss with liquid := List.replicate 6 true ++ List.replicate 6 false }) } : Image ℚ Unit) [] "" = .ok f ∧
      readFromFits (fun v => if v = 1 then 1 else 0) f "" = .ok im' ∧
      im'.psf = some (.mixture ⟨[⟨3/4, 1/4, 0, 0, 0, 0, 1⟩], List.replicate 6 true⟩) := by
  refine ⟨_, { small with psf := some (.mixture ⟨[⟨3/4, 1/4, 0, 0, 0, 0, 1⟩], List.replicate 6 true⟩) }, rfl, ?_, rfl⟩
  decide +kernel

/-- **C120, negation.** The header given to `toFits` is changed; used for the next image, whose PSF has one component instead of two, it
makes that image be read with two components, centred 2 pixels from the centre, made of the new and the old parameters; and a constant sky of the previous
image followed by none makes the file unreadable. -/
theorem C120_header_reused_false :
    ∃ f g, ∃ im' : Image ℚ Unit, toFits small [] "" = .ok f ∧ toFits ({ small with psf := some (.mixture oneGauss) } : Image ℚ Unit) f.header "" = .ok g ∧
      readFromFits (fun v => if v = 1 then 1 else 0) g "" = .ok im' ∧
      im'.psf = some (.mixture ⟨[⟨1, 0, 2, 2, 0, 0, 2⟩, ⟨0, 2, 0, 5, 1, 1, 6⟩], List.replicate 12 true⟩) ∧
      ∃ k, toFits ({ small with sky := .null } : Image ℚ Unit) f.header "" = .ok k ∧
        (readFromFits (fun v => if v = 1 then 1 else 0) k "" : Except PyErr (Image ℚ Unit)) = .error .assertion := by
  refine ⟨_, _, { small with psf := some (.mixture ⟨[⟨1, 0, 2, 2, 0, 0, 2⟩, ⟨0, 2, 0, 5, 1, 1, 6⟩], List.replicate 12 true⟩) },
    rfl, rfl, ?_, rfl, _, rfl, ?_⟩
  · decide +kernel
  · decide +kernel

/-- **C120, negation.** Images without inverse errors, and images without a PSF, can be neither written nor copied. -/
theorem C120_incomplete_false [Field R] (im : Image R I) (h : Header R) (pre : String) (hn : im.inverr = none ∨ im.psf = none) :
    toFits im h pre = .error .attribute ∧ im.copy = .error .attribute := by
  refine ⟨?_, ?_⟩
  · unfold toFits
    cases hp : im.psf with
    | none => unfold fitsHeader; rw [hp]
    | some psf =>
      rcases hn with hn | hn
      · unfold fitsHeader getInvvar
        rw [hp, hn]
      · rw [hp] at hn; cases hn
  · unfold Image.copy
    rcases hn with hn | hn
    · rw [hn]
    · cases hi : im.inverr with
      | none => rfl
      | some ie => rw [hn]

/-- **C120, copies.** The copy of an image with inverse errors and a Gaussian-mixture or pixelized PSF has the pixels, inverse errors, PSF, sky,
photometric calibration, name and time of the image; the WCS too unless it is a `NullWCS`, which becomes the one without offset and of
pixel scale 1; the plotting range, `modelMinval` and what was frozen are reset.  So it is the same image if all these have their
defaults. -/
theorem C120_copy_partial [Field R] (h2 : (2 : R) ≠ 0) (im : Image R I) (hi : im.inverr ≠ none)
    (hp : (∃ m, im.psf = some (.mixture m) ∧ m.OK) ∨ ∃ p, im.psf = some (.pixels p)) :
    ∃ im', im.copy = .ok im' ∧ im'.data = im.data ∧ im'.inverr = im.inverr ∧ im'.psf = im.psf ∧ im'.sky = im.sky ∧ im'.phot = im.phot ∧
      im'.name = im.name ∧ im'.time = im.time ∧ (∀ w x y, im.wcs = .fits w x y → im'.wcs = im.wcs) ∧
      (∀ s x y, im.wcs = .null s x y → im'.wcs = .null 1 0 0) ∧ im'.zr = none ∧ im'.minval = 0 ∧ im'.liquid = [true, true, true, true] ∧
      (Default im → (∀ s x y, im.wcs = .null s x y → s = 1 ∧ x = 0 ∧ y = 0) → im' = im) := by
  obtain ⟨ie, hie⟩ := Option.ne_none_iff_exists'.mp hi
  have hc : ∃ psf, im.psf = some psf ∧ psf.copy = .ok psf := by
    rcases hp with ⟨m, e, ho⟩ | ⟨p, e⟩
    · exact ⟨_, e, by show Except.map Psf.mixture m.copy = _; rw [Mog.C45_copy h2 m ho]; rfl⟩
    · exact ⟨_, e, rfl⟩
  obtain ⟨psf, e, hcopy⟩ := hc
  have hsky : im.sky.copy = im.sky := by cases im.sky <;> rfl
  have hph : im.phot.copy = im.phot := by cases im.phot <;> rfl
  have hcp : im.copy = .ok (mkImage im.data ie (some psf) im.wcs.copy im.phot im.sky im.name im.time) := by
    unfold Image.copy
    rw [hie, e]
    simp only
    rw [hcopy]
    simp only
    rw [hsky, hph]
  refine ⟨_, hcp, rfl, hie.symm, e.symm, rfl, rfl, rfl, rfl, ?_, ?_, rfl, rfl, rfl, ?_⟩
  · intro w x y hw; show im.wcs.copy = _; rw [hw]; rfl
  · intro s x y hw; show im.wcs.copy = _; rw [hw]; rfl
  · rintro ⟨d1, d2, d3⟩ hw
    have hwc : im.wcs.copy = im.wcs := by
      cases hx : im.wcs with
      | null s x y => obtain ⟨rfl, rfl, rfl⟩ := hw s x y hx; rfl
      | fits w x y => rfl
    unfold mkImage
    rw [hwc, ← e, ← hie, ← d1, ← d2, ← d3]

example : ({ small with wcs := .fits 0 3 4, phot := .linear 3 (some "r"), name := some "im" } : Image ℚ Unit).copy =
    .ok { small with wcs := .fits 0 3 4, phot := .linear 3 (some "r"), name := some "im" } := by decide +kernel

/-- **C120, copies, negation.** Copying an image with an offset in its `NullWCS`, with a `modelMinval` and with the PSF frozen: the source at
(3, 4) is ten pixels away in the copy, and the copy has no `modelMinval` and nothing frozen. -/
theorem C120_copy_false :
    ∃ im' : Image ℚ Unit, ({ small with wcs := .null 2 10 0, minval := 1, liquid := [false, true, true, true] } : Image ℚ Unit).copy = .ok im' ∧
      (∀ base, (Wcs.null 2 10 0 : Wcs ℚ).toPixel base 3 4 = (13, 4) ∧ im'.wcs.toPixel base 3 4 = (3, 4)) ∧
      im'.minval = 0 ∧ im'.liquid = [true, true, true, true] := by
  refine ⟨small, ?_, ?_, rfl, rfl⟩
  · decide +kernel
  · intro base
    simp only [Wcs.toPixel, small]
    norm_num

end Verif.Img
