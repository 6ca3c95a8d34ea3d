import Verif.Gpu.Lemmas4
import Verif.Psf.Props
import Mathlib.Tactic.Linarith
import Mathlib.Data.Rat.Floor

/-!
# C107, C108: the arrays of the GPU optimizer and the models it makes of point sources
-/

namespace Verif.Gpu

open Verif Verif.Psf

/-! ## C107: layout -/

section
variable {R : Type} [Field R] [LinearOrder R]

/-- **C107.** For images with a mask inside them, whatever the position of the source (also far outside the mask), the
arrays are made, all of the same size, a power of two; they show the pixels and inverse errors of the mask and zeros
elsewhere, the centre at the rounded position of the source, the stamp of the PSF centred in the same way, at least six
pixels around the mask, and the limits of the shifts are exactly those that keep all weighted pixels covered. -/
theorem C107_layout (rnd : R → Int) (tims : List (Tim R)) (pos : Tim R → R × R) (hne : tims ≠ [])
    (hf : ∀ t ∈ tims, Fits t) :
    ∃ P, getImageParams rnd none tims pos = .ok P ∧ (∃ k, P.sz = 2 ^ k) ∧ 12 ≤ P.sz ∧
      P.ims.length = tims.length ∧ ∀ (i : Nat) (t : Tim R) (p : Padded R), tims[i]? = some t → P.ims[i]? = some p →
        Layout t P.sz (rnd (pos t).1) (rnd (pos t).2) p := by
  obtain ⟨P, e, ⟨-, h1, h2⟩, h3, h4⟩ := params_ok rnd tims pos hne hf
  exact ⟨P, e, h2, h1, h3, h4⟩

/-- So a shift by up to six pixels is always within the limits. -/
theorem C107_six (t : Tim R) (sz : Nat) (ipx ipy : Int) (p : Padded R) (hw : Weighted t) (h : Layout t sz ipx ipy p) (d : Int)
    (hd : -6 ≤ d ∧ d ≤ 6) : p.mindx ≤ d ∧ d ≤ p.maxdx ∧ p.mindy ≤ d ∧ d ≤ p.maxdy := by
  have hx := (h.limits hw d).1.mpr (fun x y hin _ => by have := h.margin x y hin; omega)
  have hy := (h.limits hw d).2.mpr (fun x y hin _ => by have := h.margin x y hin; omega)
  exact ⟨hx.1, hx.2, hy.1, hy.2⟩

end

/-- An image of 8 by 10 pixels with a mask of 3 by 2 pixels and a 3 by 3 stamp. -/
def exTim : Tim ℚ :=
  { pix := ⟨8, 10, fun r c => 10 * r + c⟩, ie := ⟨8, 10, fun _ c => if c = 5 then 0 else 1⟩,
    psf := Arr.ofLists [[0, 1, 0], [1, 4, 2], [0, 1, 0]] 3,
    x0 := 4, x1 := 7, y0 := 3, y1 := 5, supported := true }

/-- Rounding for the examples. -/
def rnd (x : ℚ) : Int := ⌊x + 1 / 2⌋

theorem exTim_fits : Fits exTim := ⟨rfl, by decide, by decide, by decide⟩

theorem exTim_weighted : Weighted exTim := ⟨4, 3, by decide, by decide⟩

/-- What is read off `img_params` in the examples: the size; corner and limits of every image. -/
def shown (r : Except PyErr (Params ℚ)) : Except PyErr (Nat × List (List Int)) :=
  r.map (fun P => (P.sz, P.ims.map (fun p => [p.padx0, p.pady0, p.mindx, p.maxdx, p.mindy, p.maxdy])))

example : shown (getImageParams rnd none [exTim] (fun _ => (21 / 4, 4))) =
    .ok (16, [[-3, -4, -6, 7, -7, 7]]) := by decide +kernel

example : (match getImageParams rnd none [exTim] (fun _ => (21 / 4, 4)) with
    | .ok P => P.ims.map (fun p => ((List.range 4).map (fun r => (List.range 6).map (fun c => p.padpix.px (r + 6) (c + 6)))))
    | .error _ => []) =
    [[[0, 0, 0, 0, 0, 0], [0, 34, 35, 36, 0, 0], [0, 44, 45, 46, 0, 0], [0, 0, 0, 0, 0, 0]]] := by decide +kernel

example : ∃ P, getImageParams rnd none [exTim] (fun _ => (21 / 4, 4)) = .ok P ∧ 12 ≤ P.sz ∧
    ∀ p, P.ims[0]? = some p → p.mindx ≤ -6 ∧ 6 ≤ p.maxdy := by
  obtain ⟨P, e, -, h1, -, h⟩ := C107_layout rnd [exTim] (fun _ => (21 / 4, 4)) (by simp) (by simp [exTim_fits])
  refine ⟨P, e, h1, fun p hp => ?_⟩
  have hl := h 0 exTim p rfl hp
  exact ⟨(C107_six exTim P.sz _ _ p exTim_weighted hl (-6) (by omega)).1,
    (C107_six exTim P.sz _ _ p exTim_weighted hl 6 (by omega)).2.2.2⟩

/-- **C107 (fails).** Caching the arrays again for another position of the source does not renew them: the centre stays
where it was. -/
theorem C107_recache_false : ∃ (tims : List (Tim ℚ)) (pos pos' : Tim ℚ → ℚ × ℚ) (first second : Option (Params ℚ)),
    cacheImageParams rnd none tims pos = (first, none) ∧ cacheImageParams rnd first tims pos' = (second, none) ∧
    shown (getImageParams rnd second tims pos') = .ok (16, [[-3, -4, -6, 7, -7, 7]]) ∧
    shown (getImageParams rnd none tims pos') = .ok (16, [[-2, -4, -7, 6, -7, 7]]) := by
  obtain ⟨P, e, -⟩ := C107_layout rnd [exTim] (fun _ => (21 / 4, 4)) (by simp) (by simp [exTim_fits])
  refine ⟨[exTim], fun _ => (21 / 4, 4), fun _ => (6, 4), some P, some P, ?_, rfl, ?_, by decide +kernel⟩
  · unfold cacheImageParams; rw [e]
  · show shown (.ok P) = _
    rw [← e]
    decide +kernel

/-- The same image, the mask reaching one pixel beyond its right edge. -/
def exOut : Tim ℚ := { exTim with x0 := 8, x1 := 11 }

/-- **C107 (fails).** With a mask that reaches beyond the image no arrays are made: the shapes do not match. -/
theorem C107_outside_false : exOut.supported = true ∧ 0 ≤ exOut.x0 ∧ exOut.x0 < exOut.pix.w ∧
    shown (getImageParams rnd none [exOut] (fun _ => (9, 4))) = .error .value := by
  decide +kernel

/-! ## C108: models -/

section
variable {R : Type} [Field R] [LinearOrder R]

/-- The model of a point source of unit flux at `(px, py)` in the pixel in column `x`, row `y`, as on the CPU (C71): the
stamp of the PSF, its centre at the rounded position, shifted by the rest with the Lanczos weights. -/
def unitModel (rnd : R → Int) (lz : R → R) (psf : Arr R) (px py : R) (x y : Int) : R :=
  shiftedImage (weight lz) psf (px - rnd px) (py - rnd py) (y - (rnd py - (psf.h / 2 : Nat)))
    (x - (rnd px - (psf.w / 2 : Nat)))

/-- **C108 (interpolation).** `correlate7_2d_gpu` computes for every image of at least 6 by 6 pixels what
`lanczos_shift_image` computes on the CPU, whatever the work and output arrays contained. -/
theorem C108_interpolation (lz : R → R) (A : Arr R) (work out : Nat → Nat → R) (dx dy : R) (hh : 6 ≤ A.h) (hw : 6 ≤ A.w) :
    ∃ W, unitFluxPsf lz work out A dx dy = .ok W ∧ W.h = A.h ∧ W.w = A.w ∧
      ∀ r c, r < A.h → c < A.w → W.px r c = shiftedImage (weight lz) A dx dy r c := by
  rw [← weight_eq]
  exact unit_run lz work out A dx dy hh hw

/-- One image. -/
theorem modelOne_ok [IsStrictOrderedRing R] (rnd : R → Int) (hr : ∀ x, |x - rnd x| ≤ 1 / 2) (lz : R → R) (junk junk' : Nat → Nat → R) (t : Tim R)
    (hf : Fits t) (sz : Nat) (hs : sz % 2 = 0) (h12 : 12 ≤ sz) (ipx ipy : Int) (p : Padded R)
    (hl : Layout t sz ipx ipy p) (px py counts : R)
    (hm : (|rnd px - ipx| ≤ 3 ∧ |rnd py - ipy| ≤ 3) ∨
      (|rnd px - ipx| ≤ 6 ∧ |rnd py - ipy| ≤ 6 ∧ t.psf.h ≤ sz ∧ t.psf.w ≤ sz)) :
    ∃ m, modelOne rnd lz junk junk' t p px py counts = .ok m ∧ m.x0 = t.x0 ∧ m.y0 = t.y0 ∧
      (m.pix.h : Int) = t.y1 - t.y0 ∧ (m.pix.w : Int) = t.x1 - t.x0 ∧
      ∀ x y : Int, InMask t x y → m.pix.px (y - m.y0).toNat (x - m.x0).toNat = counts * unitModel rnd lz t.psf px py x y := by
  obtain ⟨l1, l2⟩ := hl.centre
  obtain ⟨o1, o2⟩ := hl.origin
  obtain ⟨-, -, -, -, q1, q2⟩ := hl.shapes
  have hx := hf.x
  have hy := hf.y
  have m0 := hl.margin t.x0 t.y0 (by unfold InMask; omega)
  have m1 := hl.margin (t.x1 - 1) (t.y1 - 1) (by unfold InMask; omega)
  obtain ⟨W, eW, w1, w2, w3⟩ := unit_run lz junk junk' p.psfPad (px - rnd px) (py - rnd py) (by omega) (by omega)
  have hb : -6 ≤ rnd px - ipx ∧ rnd px - ipx ≤ 6 ∧ -6 ≤ rnd py - ipy ∧ rnd py - ipy ≤ 6 := by
    rcases hm with ⟨a, b⟩ | ⟨a, b, -, -⟩ <;> rw [abs_le] at a b <;> omega
  obtain ⟨C, eC, c1, c2, c3⟩ := cut_ok (W.map (· * counts)) (t.x0 - p.padx0 - (rnd px - p.ipx))
    (t.x1 - p.padx0 - (rnd px - p.ipx)) (t.y0 - p.pady0 - (rnd py - p.ipy)) (t.y1 - p.pady0 - (rnd py - p.ipy))
    (by omega) (by omega) (by simp only [Arr.map]; omega) (by left; simp only [Arr.map]; omega)
  refine ⟨⟨t.x0, t.y0, C⟩, ?_, rfl, rfl, by simp only; omega, by simp only; omega, ?_⟩
  · unfold modelOne
    simp only
    rw [if_neg (by rintro (h | h) <;> exact h (hr _)), eW]
    simp only [bind, Except.bind]
    rw [eC]
  · intro x y hin
    have hmar := hl.margin x y hin
    unfold InMask at hin
    simp only
    rw [c3 _ _ (by omega) (by omega)]
    have ex : t.x0 - p.padx0 - (rnd px - p.ipx) + ((x - t.x0).toNat : Int) = x - p.padx0 - (rnd px - ipx) := by omega
    have ey : t.y0 - p.pady0 - (rnd py - p.ipy) + ((y - t.y0).toNat : Int) = y - p.pady0 - (rnd py - ipy) := by omega
    rw [ex, ey]
    obtain ⟨r, er⟩ := Int.eq_ofNat_of_zero_le (show 0 ≤ y - p.pady0 - (rnd py - ipy) by omega)
    obtain ⟨c, ec⟩ := Int.eq_ofNat_of_zero_le (show 0 ≤ x - p.padx0 - (rnd px - ipx) by omega)
    rw [er, ec, ext_in _ r c (by simp only [Arr.map]; omega) (by simp only [Arr.map]; omega)]
    show W.px r c * counts = _
    rw [w3 r c (by omega) (by omega), shifted_pad (kernPy lz) sz p.psfPad t.psf q1 q2 hl.psf, mul_comm, weight_eq]
    · unfold unitModel
      congr 2 <;> omega
    · rcases hm with ⟨a, b⟩ | ⟨a, b, c, d⟩
      · left
        rw [abs_le] at a b
        omega
      · right
        exact ⟨hs, c, d⟩

variable [IsStrictOrderedRing R]

/-- All images. -/
theorem models_run (rnd : R → Int) (hr : ∀ x, |x - rnd x| ≤ 1 / 2) (lz : R → R) (junk junk' : Nat → Nat → R)
    (tims : List (Tim R)) (pos pos0 : Tim R → R × R) (cnt : Tim R → R) (hf : ∀ t ∈ tims, Fits t) (P : Params R)
    (hs : P.sz % 2 = 0) (h12 : 12 ≤ P.sz) (hlen : P.ims.length = tims.length)
    (hl : ∀ (i : Nat) (t : Tim R) (p : Padded R), tims[i]? = some t → P.ims[i]? = some p →
      Layout t P.sz (rnd (pos0 t).1) (rnd (pos0 t).2) p)
    (hm : ∀ t ∈ tims, (|rnd (pos t).1 - rnd (pos0 t).1| ≤ 3 ∧ |rnd (pos t).2 - rnd (pos0 t).2| ≤ 3) ∨
      (|rnd (pos t).1 - rnd (pos0 t).1| ≤ 6 ∧ |rnd (pos t).2 - rnd (pos0 t).2| ≤ 6 ∧ t.psf.h ≤ P.sz ∧ t.psf.w ≤ P.sz)) :
    ∃ ms, (tims.zip P.ims).mapM (fun tp => modelOne rnd lz junk junk' tp.1 tp.2 (pos tp.1).1 (pos tp.1).2 (cnt tp.1)) =
        .ok ms ∧ ms.length = tims.length ∧
      ∀ (i : Nat) (t : Tim R) (m : Stamp R), tims[i]? = some t → ms[i]? = some m →
        m.x0 = t.x0 ∧ m.y0 = t.y0 ∧ (m.pix.h : Int) = t.y1 - t.y0 ∧ (m.pix.w : Int) = t.x1 - t.x0 ∧
        ∀ x y : Int, InMask t x y → m.pix.px (y - m.y0).toNat (x - m.x0).toNat =
          cnt t * unitModel rnd lz t.psf (pos t).1 (pos t).2 x y := by
  obtain ⟨ms, e, h1, h2⟩ := mapM_ex
    (fun tp : Tim R × Padded R => modelOne rnd lz junk junk' tp.1 tp.2 (pos tp.1).1 (pos tp.1).2 (cnt tp.1))
    (fun (tp : Tim R × Padded R) (m : Stamp R) => m.x0 = tp.1.x0 ∧ m.y0 = tp.1.y0 ∧ (m.pix.h : Int) = tp.1.y1 - tp.1.y0 ∧
      (m.pix.w : Int) = tp.1.x1 - tp.1.x0 ∧ ∀ x y : Int, InMask tp.1 x y → m.pix.px (y - m.y0).toNat (x - m.x0).toNat =
        cnt tp.1 * unitModel rnd lz tp.1.psf (pos tp.1).1 (pos tp.1).2 x y) (tims.zip P.ims) (by
      rintro ⟨t, p⟩ htp
      obtain ⟨i, hi⟩ := List.mem_iff_getElem?.mp htp
      rw [List.getElem?_zip_eq_some] at hi
      have ht : t ∈ tims := List.mem_iff_getElem?.mpr ⟨i, hi.1⟩
      exact modelOne_ok rnd hr lz junk junk' t (hf t ht) P.sz hs h12 _ _ p (hl i t p hi.1 hi.2) _ _ _ (hm t ht))
  refine ⟨ms, e, by rw [h1, List.length_zip]; omega, ?_⟩
  intro i t m a b
  have hi : i < P.ims.length := by
    rw [hlen]; exact (List.getElem?_eq_some_iff.mp a).1
  exact (h2 i (t, P.ims[i]) m (List.getElem?_zip_eq_some.mpr ⟨a, List.getElem?_eq_getElem hi⟩) b).2

/-- **C108.** `gpu_one_source_models` of a point source returns for each image a patch covering exactly the mask, with the
model that the CPU code makes, times the counts, in every pixel: whatever the size of the PSF stamp, the position of the
source and the contents of fresh arrays. -/
theorem C108_models (rnd : R → Int) (hr : ∀ x, |x - rnd x| ≤ 1 / 2) (lz : R → R) (junk junk' : Nat → Nat → R)
    (tims : List (Tim R)) (pos : Tim R → R × R) (cnt : Tim R → R) (hne : tims ≠ []) (hf : ∀ t ∈ tims, Fits t) :
    ∃ ms, oneSourceModels rnd lz junk junk' none tims pos cnt = .ok ms ∧ ms.length = tims.length ∧
      ∀ (i : Nat) (t : Tim R) (m : Stamp R), tims[i]? = some t → ms[i]? = some m →
        m.x0 = t.x0 ∧ m.y0 = t.y0 ∧ (m.pix.h : Int) = t.y1 - t.y0 ∧ (m.pix.w : Int) = t.x1 - t.x0 ∧
        ∀ x y : Int, InMask t x y → m.pix.px (y - m.y0).toNat (x - m.x0).toNat =
          cnt t * unitModel rnd lz t.psf (pos t).1 (pos t).2 x y := by
  obtain ⟨P, e, ⟨h1, h2, -⟩, h3, h4⟩ := params_ok rnd tims pos hne hf
  unfold oneSourceModels
  rw [e]
  exact models_run rnd hr lz junk junk' tims pos pos cnt hf P h1 h2 h3 h4 (fun t _ => by left; simp)

/-- **C108 (cached arrays, in part).** The same holds with arrays cached for another position of the source, as long as it has
moved by at most three pixels in each direction, or by at most six if the arrays are as large as the PSF stamps.
Missing: larger moves (`C108_moved_false`). -/
theorem C108_cached_partial (rnd : R → Int) (hr : ∀ x, |x - rnd x| ≤ 1 / 2) (lz : R → R) (junk junk' : Nat → Nat → R)
    (tims : List (Tim R)) (pos pos0 : Tim R → R × R) (cnt : Tim R → R) (hne : tims ≠ []) (hf : ∀ t ∈ tims, Fits t)
    (P : Params R) (hP : cacheImageParams rnd none tims pos0 = (some P, none))
    (hm : ∀ t ∈ tims, (|rnd (pos t).1 - rnd (pos0 t).1| ≤ 3 ∧ |rnd (pos t).2 - rnd (pos0 t).2| ≤ 3) ∨
      (|rnd (pos t).1 - rnd (pos0 t).1| ≤ 6 ∧ |rnd (pos t).2 - rnd (pos0 t).2| ≤ 6 ∧ t.psf.h ≤ P.sz ∧ t.psf.w ≤ P.sz)) :
    ∃ ms, oneSourceModels rnd lz junk junk' (some P) tims pos cnt = .ok ms ∧ ms.length = tims.length ∧
      ∀ (i : Nat) (t : Tim R) (m : Stamp R), tims[i]? = some t → ms[i]? = some m →
        m.x0 = t.x0 ∧ m.y0 = t.y0 ∧ (m.pix.h : Int) = t.y1 - t.y0 ∧ (m.pix.w : Int) = t.x1 - t.x0 ∧
        ∀ x y : Int, InMask t x y → m.pix.px (y - m.y0).toNat (x - m.x0).toNat =
          cnt t * unitModel rnd lz t.psf (pos t).1 (pos t).2 x y := by
  obtain ⟨P', e, ⟨h1, h2, -⟩, h3, h4⟩ := params_ok rnd tims pos0 hne hf
  unfold cacheImageParams at hP
  rw [e] at hP
  obtain rfl : P' = P := by simpa using hP
  exact models_run rnd hr lz junk junk' tims pos pos0 cnt hf P' h1 h2 h3 h4 hm

/-- **C108 (CPU).** So the patch agrees with the one `PixelizedPSF.getPointSourcePatch` makes for the same mask. -/
theorem C108_cpu (rnd : R → Int) (hr : ∀ x, |x - rnd x| ≤ 1 / 2) (lz : R → R) (junk junk' : Nat → Nat → R)
    (t : Tim R) (px py counts : R) (hf : Fits t) (hpsf : 0 < t.psf.h ∧ 0 < t.psf.w) (p : Stamp R)
    (hp : render rnd (weight lz) t.psf px py none (some ⟨t.x0, t.y0, (t.y1 - t.y0).toNat, (t.x1 - t.x0).toNat⟩) = .ok (some p)) :
    ∃ m, oneSourceModels rnd lz junk junk' none [t] (fun _ => (px, py)) (fun _ => counts) = .ok [m] ∧
      m.x0 = p.x0 ∧ m.y0 = p.y0 ∧ m.pix.h = p.pix.h ∧ m.pix.w = p.pix.w ∧
      ∀ r c, r < p.pix.h → c < p.pix.w → m.pix.px r c = counts * p.pix.px r c := by
  obtain ⟨ms, e, hl, h⟩ := C108_models rnd hr lz junk junk' [t] (fun _ => (px, py)) (fun _ => counts) (by simp) (by simpa using hf)
  obtain ⟨m, rfl⟩ := List.length_eq_one_iff.mp hl
  obtain ⟨a1, a2, a3, a4, a5⟩ := h 0 t m rfl rfl
  have hx := hf.x
  have hy := hf.y
  rcases C71_masked rnd (weight lz) t.psf px py ⟨t.x0, t.y0, (t.y1 - t.y0).toNat, (t.x1 - t.x0).toNat⟩ hpsf.1 hpsf.2
      (by simp only; omega) (by simp only; omega) with ⟨e', -⟩ | ⟨q, e', b1, b2, b3, b4, -, b5⟩
  · rw [hp] at e'; simp at e'
  · rw [hp] at e'
    obtain rfl : p = q := by simpa using e'
    simp only at b1 b2 b3 b4 b5
    refine ⟨m, e, by omega, by omega, by omega, by omega, ?_⟩
    intro r c hrr hc
    rw [b5 r c (by omega) (by omega)]
    have := a5 (t.x0 + c) (t.y0 + r) (by unfold InMask; omega)
    rw [show (t.y0 + (r : Int) - m.y0).toNat = r by omega, show (t.x0 + (c : Int) - m.x0).toNat = c by omega] at this
    rw [this]
    rfl

end

theorem rnd_half (x : ℚ) : |x - rnd x| ≤ 1 / 2 := by
  unfold rnd
  rw [abs_le]
  have h1 := Int.floor_le (x + 1 / 2)
  have h2 := Int.lt_floor_add_one (x + 1 / 2)
  constructor <;> linarith

/-- The patches of an example as lists. -/
def patches (r : Except PyErr (List (Stamp ℚ))) : Except PyErr (List (Int × Int × List (List ℚ))) :=
  r.map (fun ms => ms.map (fun m => (m.x0, m.y0, m.pix.toLists)))

example : patches (oneSourceModels rnd exLz (fun _ _ => 77) (fun _ _ => 88) none [exTim] (fun _ => (5, 4)) (fun _ => 2)) =
    .ok [(4, 3, [[0, 2, 0], [2, 8, 4]])] := by decide +kernel

example : patches (oneSourceModels rnd exLz (fun _ _ => 77) (fun _ _ => 88) none [exTim] (fun _ => (11 / 2, 4)) (fun _ => 2)) =
    .ok [(4, 3, [[4, 5, 6].map (fun x : Int => 2 * unitModel rnd exLz exTim.psf (11 / 2) 4 x 3),
      [4, 5, 6].map (fun x : Int => 2 * unitModel rnd exLz exTim.psf (11 / 2) 4 x 4)])] := by decide +kernel

/-- **C108 (fails).** With arrays cached for a position from which the source has moved far away in x, no model is
returned at all, although moving as far in y gives zeros. -/
theorem C108_moved_false :
    patches ((getImageParams rnd none [exTim] (fun _ => (5, 4))).bind (fun P =>
      oneSourceModels rnd exLz (fun _ _ => 77) (fun _ _ => 88) (some P) [exTim] (fun _ => (30, 4)) (fun _ => 2))) =
      .error .value ∧
    patches ((getImageParams rnd none [exTim] (fun _ => (5, 4))).bind (fun P =>
      oneSourceModels rnd exLz (fun _ _ => 77) (fun _ _ => 88) (some P) [exTim] (fun _ => (5, 30)) (fun _ => 2))) =
      .ok [(4, 3, [[0, 0, 0], [0, 0, 0]])] := by
  refine ⟨?_, ?_⟩ <;> decide +kernel

end Verif.Gpu
