import Verif.Psf.Lemmas
import Verif.Psf.Lemmas2
import Mathlib.Algebra.Order.Ring.Rat
import Mathlib.Algebra.Field.Rat
import Mathlib.Tactic.FieldSimp

/-!
# C48-C50, C70-C72: pixelized PSFs and PsfEx models

Images are described by `ext`: the pixel value, zero outside of the image.  `shiftedImage` (`Lemmas.lean`) is
the zero-continued stamp correlated with the interpolation weights in both directions.
-/

namespace Verif.Psf

variable {R : Type} [Field R]

/-! ## C49 -/

/-- **C49.** Embedding a stamp in an image of any size, larger or smaller in either direction: the result has
that size, and relative to the returned centre it shows exactly the stamp relative to its own centre pixel
(`h/2`, `w/2`), cut off at the border, and zero elsewhere. -/
theorem C49_pad (H W : Nat) (img : Arr R) :
    ∃ pad cx cy, padInImage H W img = .ok (pad, cx, cy) ∧ pad.h = H ∧ pad.w = W ∧
      ∀ i j : Int, ext pad (cy + j) (cx + i) =
        if 0 ≤ cy + j ∧ cy + j < H ∧ 0 ≤ cx + i ∧ cx + i < W then
          ext img ((img.h / 2 : Nat) + j) ((img.w / 2 : Nat) + i) else 0 := by
  have hax : ∀ n p : Nat, ∃ s m y c, padAxis n p = (s, m, y, c) ∧ s + m ≤ p ∧ y + m ≤ n ∧
      (s : Int) - y = (p / 2 : Nat) - c ∧ (m = p ∨ m = n) ∧ (p ≤ n → s = 0 ∧ m = p) ∧
      (n < p → y = 0 ∧ m = n) := by
    intro n p
    simp only [padAxis]
    split
    · exact ⟨_, _, _, _, rfl, by omega, by omega, by omega, by omega, by omega, by omega⟩
    · exact ⟨_, _, _, _, rfl, by omega, by omega, by omega, by omega, by omega, by omega⟩
  obtain ⟨sy, ny, y0, cy, ey, hy1, hy2, hy3, hy4, hy5, hy6⟩ := hax H img.h
  obtain ⟨sx, nx, x0, cx, ex, hx1, hx2, hx3, hx4, hx5, hx6⟩ := hax W img.w
  simp only [padInImage, ey, ex, Arr.modify, Arr.slice, Arr.zeros]
  simp only [axis_of img.h _ _ (show (0 : Int) ≤ (sy : Int) by omega)
      (show (0 : Int) ≤ ((sy + ny : Nat) : Int) by omega),
    axis_of img.w _ _ (show (0 : Int) ≤ (sx : Int) by omega)
      (show (0 : Int) ≤ ((sx + nx : Nat) : Int) by omega), Int.toNat_natCast]
  rw [show min (sy + ny) img.h - min sy img.h = ny by omega,
    show min (sx + nx) img.w - min sx img.w = nx by omega]
  simp only [axis_of H _ _ (show (0 : Int) ≤ (y0 : Int) by omega)
      (show (0 : Int) ≤ ((y0 + ny : Nat) : Int) by omega),
    axis_of W _ _ (show (0 : Int) ≤ (x0 : Int) by omega)
      (show (0 : Int) ≤ ((x0 + nx : Nat) : Int) by omega), Int.toNat_natCast]
  rw [if_pos (by omega)]
  refine ⟨_, cx, cy, rfl, rfl, rfl, ?_⟩
  intro i j
  simp only [ext]
  by_cases h : 0 ≤ (cy : Int) + j ∧ (cy : Int) + j < H ∧ 0 ≤ (cx : Int) + i ∧ (cx : Int) + i < W
  · rw [if_pos h, if_pos h]
    by_cases g : 0 ≤ ((img.h / 2 : Nat) : Int) + j ∧ ((img.h / 2 : Nat) : Int) + j < img.h ∧
        0 ≤ ((img.w / 2 : Nat) : Int) + i ∧ ((img.w / 2 : Nat) : Int) + i < img.w
    · rw [if_pos g, if_pos (by omega)]
      congr 1 <;> omega
    · rw [if_neg g, if_neg (by omega)]
  · rw [if_neg h, if_neg h]

/-- An example stamp. -/
def exStamp : Arr Rat := Arr.ofLists [[1, 2, 3], [4, 5, 6], [7, 8, 9]] 3

example : (padInImage 2 6 exStamp).map (fun p => (p.1.toLists, p.2)) =
    .ok ([[0, 1, 2, 3, 0, 0], [0, 4, 5, 6, 0, 0]], 2, 1) := by decide +kernel

/-! ## C50 -/

/-- What the radius cut keeps, for stamps with odd sizes (the constructor insists on that): pixels at most
`rad` from the centre, except that the last row and column of the stamp are always lost. -/
theorem C50_exact (img : Arr R) (rad : Nat) (hh : img.h % 2 = 1) (hw : img.w % 2 = 1) (i j : Int) :
    ext (cut img (some rad)) (((cut img (some rad)).h / 2 : Nat) + j) (((cut img (some rad)).w / 2 : Nat) + i) =
      if -rad ≤ i ∧ i ≤ rad ∧ -rad ≤ j ∧ j ≤ rad ∧ i < (img.w / 2 : Nat) ∧ j < (img.h / 2 : Nat) then
        ext img ((img.h / 2 : Nat) + j) ((img.w / 2 : Nat) + i) else 0 := by
  simp only [cut, Arr.slice, ext]
  simp only [axis_of img.h _ _ (show (0 : Int) ≤ max ((img.h : Int) / 2 - rad) 0 by omega)
      (show (0 : Int) ≤ min ((img.h : Int) / 2 + rad + 1) ((img.h : Int) - 1) by omega),
    axis_of img.w _ _ (show (0 : Int) ≤ max ((img.w : Int) / 2 - rad) 0 by omega)
      (show (0 : Int) ≤ min ((img.w : Int) / 2 + rad + 1) ((img.w : Int) - 1) by omega)]
  generalize hH : img.h = H at *
  generalize hW : img.w = W at *
  obtain ⟨a, rfl⟩ : ∃ a, H = 2 * a + 1 := ⟨H / 2, by omega⟩
  obtain ⟨b, rfl⟩ : ∃ b, W = 2 * b + 1 := ⟨W / 2, by omega⟩
  by_cases h : -(rad : Int) ≤ i ∧ i ≤ rad ∧ -(rad : Int) ≤ j ∧ j ≤ rad ∧ i < ((2 * b + 1) / 2 : Nat) ∧
      j < ((2 * a + 1) / 2 : Nat)
  · rw [if_pos h]
    by_cases g : 0 ≤ (((2 * a + 1) / 2 : Nat) : Int) + j ∧ (((2 * a + 1) / 2 : Nat) : Int) + j < ((2 * a + 1 : Nat) : Int) ∧
        0 ≤ (((2 * b + 1) / 2 : Nat) : Int) + i ∧ (((2 * b + 1) / 2 : Nat) : Int) + i < ((2 * b + 1 : Nat) : Int)
    · rw [if_pos g, if_pos (by omega)]
      congr 1 <;> omega
    · rw [if_neg g, if_neg (by omega)]
  · rw [if_neg h, if_neg (by omega)]

/-- **C50 (part).** If the radius is smaller than half the stamp in both directions, the cut stamp shows
around its centre pixel exactly the pixels at most `rad` away from the centre.  Missing: larger radii. -/
theorem C50_radius_partial (img : Arr R) (rad : Nat) (hh : img.h % 2 = 1) (hw : img.w % 2 = 1)
    (h1 : rad < img.h / 2) (h2 : rad < img.w / 2) (i j : Int) :
    ext (cut img (some rad)) (((cut img (some rad)).h / 2 : Nat) + j) (((cut img (some rad)).w / 2 : Nat) + i) =
      if -rad ≤ i ∧ i ≤ rad ∧ -rad ≤ j ∧ j ≤ rad then
        ext img ((img.h / 2 : Nat) + j) ((img.w / 2 : Nat) + i) else 0 := by
  rw [C50_exact img rad hh hw i j]
  by_cases h : -(rad : Int) ≤ i ∧ i ≤ rad ∧ -(rad : Int) ≤ j ∧ j ≤ rad
  · rw [if_pos h, if_pos (by omega)]
  · rw [if_neg h, if_neg (by omega)]

example : (cut (Arr.ofLists [[1, 2, 3, 4, 5], [6, 7, 8, 9, 10], [11, 12, 13, 14, 15], [1, 1, 1, 1, 1],
    [2, 2, 2, 2, 2]] 5 : Arr Rat) (some 1)).toLists = [[7, 8, 9], [12, 13, 14], [1, 1, 1]] := by decide +kernel

/-- **C50 is false for larger radii**: a radius that should keep the whole stamp drops its last row and
column; a stamp of one pixel disappears. -/
theorem C50_large_radius_false :
    (cut exStamp (some 1)).toLists = [[1, 2], [4, 5]] ∧ (cut exStamp (some 25)).toLists = [[1, 2], [4, 5]] ∧
    (cut (Arr.ofLists [[1]] 1 : Arr Rat) (some 1)).toLists = [] := by
  decide +kernel

/-! ## C71: rendering into a mask -/

/-- **C71 (no mask).** Without a mask: the stamp shifted by the sub-pixel part of the position, centre pixel
at the rounded position. -/
theorem C71_unmasked (rnd : R → Int) (kern : R → Nat → R) (img : Arr R) (px py : R) :
    ∃ p, render rnd kern img px py none none = .ok (some p) ∧ p.pix.h = img.h ∧ p.pix.w = img.w ∧
      p.x0 = rnd px - (img.w / 2 : Nat) ∧ p.y0 = rnd py - (img.h / 2 : Nat) ∧
      ∀ r c : Nat, r < img.h → c < img.w →
        p.pix.px r c = shiftedImage kern img (px - rnd px) (py - rnd py) r c :=
  ⟨_, rfl, rfl, rfl, rfl, rfl, fun r c _ hc => lanczos_px kern img _ _ r c hc⟩

/-- **C71 (mask).** With a mask, nothing is returned exactly if mask and stamp have no pixel in common;
otherwise the patch covers exactly the mask, and every one of its pixels is that of the shifted stamp (continued
beyond its border), as without a mask. -/
theorem C71_masked (rnd : R → Int) (kern : R → Nat → R) (img : Arr R) (px py : R) (m : Mask)
    (hh : 0 < img.h) (hw : 0 < img.w) (hm : 0 < m.h) (hm' : 0 < m.w) :
    let x0 := rnd px - (img.w / 2 : Nat)
    let y0 := rnd py - (img.h / 2 : Nat)
    (render rnd kern img px py none (some m) = .ok none ∧
      ¬ ∃ x y : Int, (x0 ≤ x ∧ x < x0 + img.w ∧ y0 ≤ y ∧ y < y0 + img.h) ∧
        m.x0 ≤ x ∧ x < m.x0 + m.w ∧ m.y0 ≤ y ∧ y < m.y0 + m.h) ∨
    ∃ p, render rnd kern img px py none (some m) = .ok (some p) ∧
      p.x0 = m.x0 ∧ p.y0 = m.y0 ∧ p.pix.h = m.h ∧ p.pix.w = m.w ∧
      (∃ x y : Int, (x0 ≤ x ∧ x < x0 + img.w ∧ y0 ≤ y ∧ y < y0 + img.h) ∧
        m.x0 ≤ x ∧ x < m.x0 + m.w ∧ m.y0 ≤ y ∧ y < m.y0 + m.h) ∧
      ∀ r c : Nat, r < m.h → c < m.w →
        p.pix.px r c = shiftedImage kern img (px - rnd px) (py - rnd py) (m.y0 + r - y0) (m.x0 + c - x0) := by
  intro x0 y0
  by_cases h : m.x0 ≥ x0 + img.w ∨ m.x0 + m.w ≤ x0 ∨ m.y0 ≥ y0 + img.h ∨ m.y0 + m.h ≤ y0
  · left
    refine ⟨?_, ?_⟩
    · simp only [render, cut]; exact if_pos h
    · rintro ⟨x, y, hx⟩; omega
  · right
    obtain ⟨p, e, h1, h2, h3⟩ := masked_ok kern img x0 y0 (px - rnd px) (py - rnd py) m (by omega) (by omega)
      (by omega) (by omega) hh hw
    refine ⟨⟨m.x0, m.y0, p⟩, ?_, rfl, rfl, h1, h2, ⟨max x0 m.x0, max y0 m.y0, by omega⟩, h3⟩
    simp only [render, cut]
    refine (if_neg h).trans ?_
    simp only [x0, y0] at e
    rw [e]; rfl

/-- So where the unmasked patch and the mask overlap, the two renderings agree. -/
theorem C71_agree (rnd : R → Int) (kern : R → Nat → R) (img : Arr R) (px py : R) (m : Mask)
    (hh : 0 < img.h) (hw : 0 < img.w) (hm : 0 < m.h) (hm' : 0 < m.w) (p q : Stamp R)
    (hp : render rnd kern img px py none none = .ok (some p))
    (hq : render rnd kern img px py none (some m) = .ok (some q)) (x y : Int)
    (h1 : q.x0 ≤ x ∧ x < q.x0 + q.pix.w ∧ q.y0 ≤ y ∧ y < q.y0 + q.pix.h)
    (h2 : p.x0 ≤ x ∧ x < p.x0 + p.pix.w ∧ p.y0 ≤ y ∧ y < p.y0 + p.pix.h) :
    q.pix.px (y - q.y0).toNat (x - q.x0).toNat = p.pix.px (y - p.y0).toNat (x - p.x0).toNat := by
  obtain ⟨p', e, a1, a2, a3, a4, a5⟩ := C71_unmasked rnd kern img px py
  rw [hp] at e
  obtain rfl : p = p' := by simpa using e
  rcases C71_masked rnd kern img px py m hh hw hm hm' with ⟨e', -⟩ | ⟨q', e', b1, b2, b3, b4, -, b5⟩
  · rw [hq] at e'; simp at e'
  · rw [hq] at e'
    obtain rfl : q = q' := by simpa using e'
    rw [b5 _ _ (by omega) (by omega), a5 _ _ (by omega) (by omega)]
    congr 1 <;> omega

/-- Weights for the examples: a shift by `d` mixes neighbouring pixels linearly. -/
def exKern (d : Rat) (i : Nat) : Rat := if i = 3 then 1 - d else if i = 2 then d else 0

def exRnd (x : Rat) : Int := x.floor

/-- Origin and pixels of a rendering. -/
def rendered (r : Except PyErr (Option (Stamp Rat))) : Option (Int × Int × List (List Rat)) :=
  match r with
  | .ok (some p) => some (p.x0, p.y0, p.pix.toLists)
  | _ => none

example : rendered (render exRnd exKern exStamp (21/2) 20 none (some ⟨8, 19, 2, 3⟩)) =
      some (8, 19, [[0, 1/2, 3/2], [0, 2, 9/2]]) ∧
    rendered (render exRnd exKern exStamp (21/2) 20 none none) =
      some (9, 19, [[1/2, 3/2, 5/2], [2, 9/2, 11/2], [7/2, 15/2, 17/2]]) := by
  decide +kernel

/-! ## C72: derivative images -/

/-- **C72.** With `derivs=True` and a mask, the second and third patches are the symmetric difference quotients
of the rendering in the same mask with respect to the position, for a step of one pixel, except that a margin
of one pixel is zero; provided rounding commutes with adding one (it does not at half-integers). -/
theorem C72_derivs_partial (rnd : R → Int) (kern : R → Nat → R) (img : Arr R) (px py : R) (m : Mask)
    (hh : 0 < img.h) (hw : 0 < img.w) (hm : 0 < m.h) (hm' : 0 < m.w) (p gx gy qp qm : Stamp R)
    (hd : renderDerivs rnd kern img px py none (some m) = .ok (.triple p gx gy))
    (hr : rnd (px + 1) = rnd px + 1) (hr' : rnd (px - 1) = rnd px - 1)
    (hqp : render rnd kern img (px + 1) py none (some m) = .ok (some qp))
    (hqm : render rnd kern img (px - 1) py none (some m) = .ok (some qm)) :
    gx.x0 = m.x0 ∧ gx.y0 = m.y0 ∧ gx.pix.h = m.h ∧ gx.pix.w = m.w ∧
    ∀ r c : Nat, r < m.h → c < m.w → gx.pix.px r c =
      if 1 ≤ r ∧ r + 1 < m.h ∧ 1 ≤ c ∧ c + 1 < m.w then (qp.pix.px r c - qm.pix.px r c) / 2 else 0 := by
  rcases C71_masked rnd kern img px py m hh hw hm hm' with ⟨e, -⟩ | ⟨q, e, b1, b2, b3, b4, -, b5⟩
  · simp [renderDerivs, e] at hd
  simp only [renderDerivs, e, Except.ok.injEq, Derivs.triple.injEq] at hd
  obtain ⟨rfl, rfl, rfl⟩ := hd
  rcases C71_masked rnd kern img (px + 1) py m hh hw hm hm' with ⟨e', -⟩ | ⟨q', e', -, -, -, -, -, c5⟩
  · rw [hqp] at e'; simp at e'
  rw [hqp] at e'
  obtain rfl : qp = q' := by simpa using e'
  rcases C71_masked rnd kern img (px - 1) py m hh hw hm hm' with ⟨e', -⟩ | ⟨q', e', -, -, -, -, -, d5⟩
  · rw [hqm] at e'; simp at e'
  rw [hqm] at e'
  obtain rfl : qm = q' := by simpa using e'
  refine ⟨b1, b2, b3, b4, ?_⟩
  intro r c h1 h2
  simp only [gradX, b3, b4]
  split
  · rename_i h
    rw [b5 _ _ h1 (by omega), b5 _ _ h1 (by omega), c5 _ _ h1 h2, d5 _ _ h1 h2, hr, hr']
    have f1 : (px + 1 - ((rnd px + 1 : Int) : R)) = px - rnd px := by push_cast; ring
    have f2 : (px - 1 - ((rnd px - 1 : Int) : R)) = px - rnd px := by push_cast; ring
    rw [f1, f2, show m.x0 + ((c + 1 : Nat) : Int) - (rnd px - (img.w / 2 : Nat)) =
        m.x0 + c - (rnd px - 1 - (img.w / 2 : Nat)) by push_cast; ring,
      show m.x0 + ((c - 1 : Nat) : Int) - (rnd px - (img.w / 2 : Nat)) =
        m.x0 + c - (rnd px + 1 - (img.w / 2 : Nat)) by rw [Nat.cast_sub (by omega)]; push_cast; ring]
    ring
  · rfl

/-- The same for y. -/
theorem C72_derivs_y_partial (rnd : R → Int) (kern : R → Nat → R) (img : Arr R) (px py : R) (m : Mask)
    (hh : 0 < img.h) (hw : 0 < img.w) (hm : 0 < m.h) (hm' : 0 < m.w) (p gx gy qp qm : Stamp R)
    (hd : renderDerivs rnd kern img px py none (some m) = .ok (.triple p gx gy))
    (hr : rnd (py + 1) = rnd py + 1) (hr' : rnd (py - 1) = rnd py - 1)
    (hqp : render rnd kern img px (py + 1) none (some m) = .ok (some qp))
    (hqm : render rnd kern img px (py - 1) none (some m) = .ok (some qm)) :
    gy.x0 = m.x0 ∧ gy.y0 = m.y0 ∧ gy.pix.h = m.h ∧ gy.pix.w = m.w ∧
    ∀ r c : Nat, r < m.h → c < m.w → gy.pix.px r c =
      if 1 ≤ r ∧ r + 1 < m.h ∧ 1 ≤ c ∧ c + 1 < m.w then (qp.pix.px r c - qm.pix.px r c) / 2 else 0 := by
  rcases C71_masked rnd kern img px py m hh hw hm hm' with ⟨e, -⟩ | ⟨q, e, b1, b2, b3, b4, -, b5⟩
  · simp [renderDerivs, e] at hd
  simp only [renderDerivs, e, Except.ok.injEq, Derivs.triple.injEq] at hd
  obtain ⟨rfl, rfl, rfl⟩ := hd
  rcases C71_masked rnd kern img px (py + 1) m hh hw hm hm' with ⟨e', -⟩ | ⟨q', e', -, -, -, -, -, c5⟩
  · rw [hqp] at e'; simp at e'
  rw [hqp] at e'
  obtain rfl : qp = q' := by simpa using e'
  rcases C71_masked rnd kern img px (py - 1) m hh hw hm hm' with ⟨e', -⟩ | ⟨q', e', -, -, -, -, -, d5⟩
  · rw [hqm] at e'; simp at e'
  rw [hqm] at e'
  obtain rfl : qm = q' := by simpa using e'
  refine ⟨b1, b2, b3, b4, ?_⟩
  intro r c h1 h2
  simp only [gradY, b3, b4]
  split
  · rename_i h
    rw [b5 _ _ (by omega) h2, b5 _ _ (by omega) h2, c5 _ _ h1 h2, d5 _ _ h1 h2, hr, hr']
    have f1 : (py + 1 - ((rnd py + 1 : Int) : R)) = py - rnd py := by push_cast; ring
    have f2 : (py - 1 - ((rnd py - 1 : Int) : R)) = py - rnd py := by push_cast; ring
    rw [f1, f2, show m.y0 + ((r + 1 : Nat) : Int) - (rnd py - (img.h / 2 : Nat)) =
        m.y0 + r - (rnd py - 1 - (img.h / 2 : Nat)) by push_cast; ring,
      show m.y0 + ((r - 1 : Nat) : Int) - (rnd py - (img.h / 2 : Nat)) =
        m.y0 + r - (rnd py + 1 - (img.h / 2 : Nat)) by rw [Nat.cast_sub (by omega)]; push_cast; ring]
    ring
  · rfl

example : (match renderDerivs exRnd exKern exStamp (21/2) 20 none (some ⟨9, 19, 3, 3⟩) with
    | .ok (.triple _ gx gy) => some (gx.pix.toLists, gy.pix.toLists)
    | _ => none) = some ([[0, 0, 0], [0, -7/4, 0], [0, 0, 0]], [[0, 0, 0], [0, -3, 0], [0, 0, 0]]) := by
  decide +kernel

/-- **C72 is false without a mask**: the argument `derivs` is ignored and a single patch is returned, which the
caller cannot unpack into three. -/
theorem C72_no_mask_false (rnd : R → Int) (kern : R → Nat → R) (img : Arr R) (px py : R) (rad : Option Nat) :
    ∃ p, renderDerivs rnd kern img px py rad none = .ok (.single p) := ⟨_, rfl⟩

/-! ## C12: copying pixelized PSFs -/

/-- Copying a PSF loses its sampling: the copy of an oversampled PSF is rendered as if it were not. -/
theorem C12_psf_copy_false : ∃ p q : Pixelized Rat, copyPixelized p = .ok q ∧ p.sampling ≠ q.sampling ∧
    p.lorder ≠ q.lorder := by
  refine ⟨⟨exStamp, 1/2, 5⟩, ⟨exStamp, 1, 3⟩, rfl, by decide +kernel, by decide⟩

/-! ## C48 -/

/-- **C48 (bijection).** The index of the monomial `x^j y^k` is between 0 and `(n+1)(n+2)/2`, and every index
in that range belongs to exactly one monomial of degree at most `n`. -/
theorem C48_bijection (n : Nat) :
    (∀ j k : Nat, j + k ≤ n → 0 ≤ termIndex n j k ∧ termIndex n j k < ((n + 1) * (n + 2) / 2 : Nat)) ∧
    ∀ i : Nat, i < (n + 1) * (n + 2) / 2 →
      ∃ p : Nat × Nat, (p.1 + p.2 ≤ n ∧ termIndex n p.1 p.2 = i) ∧
        ∀ q : Nat × Nat, q.1 + q.2 ≤ n → termIndex n q.1 q.2 = i → q = p := by
  refine ⟨fun j k h => ?_, fun i hi => ?_⟩
  · rw [termIndex_eq n j k h]
    have := index_lt n j k h
    omega
  · obtain ⟨j, k, h, e⟩ := index_onto n (n + 1) le_rfl i (by rw [off_last]; exact hi)
    refine ⟨(j, k), ⟨h, by rw [termIndex_eq n j k h, e]⟩, ?_⟩
    rintro ⟨j', k'⟩ h' e'
    rw [termIndex_eq n j' k' h'] at e'
    obtain ⟨a, b⟩ := index_inj n j' k' j k h' h (by omega)
    simp [a, b]

/-- **C48 (terms).** If there are `(n+1)(n+2)/2` basis images, `polynomials` succeeds and holds at the index of
each monomial its value. -/
theorem C48_terms (m : PsfEx R) (h : m.bases.length = (m.degree + 1) * (m.degree + 2) / 2) (x y : R) :
    ∃ terms, polynomials m x y = .ok terms ∧ terms.length = m.bases.length ∧
      ∀ j k : Nat, j + k ≤ m.degree → terms[(termIndex m.degree j k).toNat]? =
        some (((x - m.x0) / m.xscale) ^ j * ((y - m.y0) / m.yscale) ^ k) := by
  obtain ⟨t, e, l, h1, -⟩ := polyLoop_ok m.degree
    (fun j k => ((x - m.x0) / m.xscale) ^ j * ((y - m.y0) / m.yscale) ^ k) (powerPairs m.degree)
    (List.replicate m.bases.length 0) (fun p hp => (mem_powerPairs _ _ _).1 hp) (by simpa using h)
  refine ⟨t, e, by simpa using l, ?_⟩
  intro j k hjk
  rw [termIndex_eq _ _ _ hjk, Int.toNat_natCast]
  exact h1 j k ((mem_powerPairs _ _ _).2 hjk)

/-- **C48 (image).** The PSF image at `(x, y)` is the sum over all monomials of degree at most `n` of the
monomial times its basis image, each basis image used once. -/
theorem C48_at (m : PsfEx R) (h : m.bases.length = (m.degree + 1) * (m.degree + 2) / 2) (x y : R) (r c : Nat) :
    psfAt m x y r c = .ok (∑ p ∈ (Finset.range (m.degree + 1) ×ˢ Finset.range (m.degree + 1)).filter
      (fun p => p.1 + p.2 ≤ m.degree),
      ((x - m.x0) / m.xscale) ^ p.1 * ((y - m.y0) / m.yscale) ^ p.2 *
        ((m.bases[(termIndex m.degree p.1 p.2).toNat]?.map (fun b => b.px r c)).getD 0)) := by
  obtain ⟨t, e, l, h1⟩ := C48_terms m h x y
  simp only [psfAt, e, Except.map]
  rw [zip_sum (fun b : Arr R => b.px r c) t m.bases l]
  congr 1
  symm
  refine Finset.sum_nbij (fun p => (termIndex m.degree p.1 p.2).toNat) ?_ ?_ ?_ ?_
  · rintro ⟨j, k⟩ hp
    simp only [Finset.mem_filter] at hp
    have := (C48_bijection m.degree).1 j k hp.2
    simp only [Finset.mem_range, h]
    omega
  · rintro ⟨j, k⟩ hp ⟨j', k'⟩ hp' e
    simp only [Finset.coe_filter, Set.mem_ofPred_eq] at hp hp'
    simp only [termIndex_eq _ _ _ hp.2, termIndex_eq _ _ _ hp'.2, Int.toNat_natCast] at e
    obtain ⟨a, b⟩ := index_inj _ _ _ _ _ hp.2 hp'.2 e
    simp [a, b]
  · intro i hi
    simp only [Finset.coe_range, Set.mem_Iio] at hi
    obtain ⟨⟨j, k⟩, ⟨a, b⟩, -⟩ := (C48_bijection m.degree).2 i (by omega)
    refine ⟨(j, k), ?_, by simp [b]⟩
    simp only [Finset.coe_filter, Finset.mem_product, Finset.mem_range, Set.mem_ofPred_eq]
    simp only at a
    omega
  · rintro ⟨j, k⟩ hp
    simp only [Finset.mem_filter] at hp
    rw [List.getD_eq_getElem?_getD, h1 j k hp.2]
    simp

/-- Degree 2: the order is 1, x, x², y, xy, y². -/
example : (polynomials (⟨List.replicate 6 exStamp, 2, 0, 0, 1, 1, 1, 2, some 3⟩ : PsfEx Rat) 2 3) =
    .ok [1, 2, 4, 3, 6, 9] := by decide +kernel

/-! ## C70: shifted PsfEx models -/

/-- **C70.** The model shifted by `(dx, dy)` has at `(x, y)` the image that the model has at `(x + dx, y + dy)`;
shifting twice is shifting by the sum. -/
theorem C70_shifted (m : PsfEx R) (dx dy x y : R) (r c : Nat) :
    psfAt (shiftedPsfEx m dx dy) x y r c = psfAt m (x + dx) (y + dy) r c := by
  simp only [psfAt, polynomials, shiftedPsfEx]
  rw [show x - (m.x0 - dx) = x + dx - m.x0 by ring, show y - (m.y0 - dy) = y + dy - m.y0 by ring]

theorem C70_twice (m : PsfEx R) (a b c d : R) :
    shiftedPsfEx (shiftedPsfEx m a b) c d = shiftedPsfEx m (a + c) (b + d) := by
  simp only [shiftedPsfEx, sub_sub]

example : psfAt (shiftedPsfEx (⟨[exStamp, exStamp, exStamp], 1, 0, 0, 1, 1, 1, 2, some 3⟩ : PsfEx Rat) 10 20) 2 3 0 1
    = .ok (2 * (1 + 12 + 23)) := by decide +kernel

/-- A shifted copy has lost its `fwhm`, which `writeto` needs: also `copy()`, which is a shift by zero. -/
theorem C70_fwhm_false (m : PsfEx R) : (shiftedPsfEx m 0 0).fwhm = none := rfl

end Verif.Psf
