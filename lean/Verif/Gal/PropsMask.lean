import Verif.Gal.Lemmas
import Mathlib.Data.Rat.Floor
import Mathlib.Tactic.NormNum

/-!
# C95: galaxies with a pixelized PSF in a model mask
-/

namespace Verif.Gal

open Verif.Psf (Zeros)

variable {R : Type} [Field R] [LinearOrder R] [IsStrictOrderedRing R] [FloorRing R]

/-- **C95 (where the C library shifts).** A galaxy whose centre is in the mask, rendered with a pixelized PSF (stamp of odd
size), of which the mask or the stamp is more than 8 pixels across and the mask less than 2048 and the stamp at most 4096
across: no error is raised; the model has the origin and the shape of the mask; there are a power of two `n`, the stamp
padded to `n` by `n`, and a pixel `(ix, iy)` within half a pixel of the centre on each axis, such that the model in pixel
`(x, y)` is the convolution, interpolated at the sub-pixel shift `(px - ix, py - iy)`, in the pixel as far from the centre
of the padded stamp as `(x, y)` is from `(ix, iy)`, which is always inside the padded image.  Missing: the cases
of `C95_subpixel`, and centres outside the mask (`C95_outside_false`). -/
theorem C95_masked_partial (E : Env R) (hz : Zeros E.lz) (hl : E.lib = true) (S : Scene R) (img : Arr R) (g : Galaxy R)
    (a : Args R) (px py : R) (m : ModelMask) (h1 : px ≤ m.x0 + m.w - 1) (h1' : (m.x0 : R) ≤ px)
    (h2 : py ≤ m.y0 + m.h - 1) (h2' : (m.y0 : R) ≤ py) (hh : img.h % 2 = 1) (hw : img.w % 2 = 1)
    (h8 : 8 < m.w ∨ 8 < m.h ∨ 8 < img.w ∨ 8 < img.h) (h9 : m.w < 2048 ∧ m.h < 2048 ∧ img.w ≤ 4096 ∧ img.h ≤ 4096) :
    ∃ (n e : Nat) (pad G : Arr R) (ix iy : Int), n = 2 ^ e ∧
      unitPatch E S (.pix img) g a px py (some m) = .ok (some ⟨m.x0, m.y0, some G⟩) ∧ G.h = m.h ∧ G.w = m.w ∧
      Embedded img n pad ∧ (-(1 / 2) ≤ px - ix ∧ px - ix ≤ 1 / 2) ∧ (-(1 / 2) ≤ py - iy ∧ py - iy ≤ 1 / 2) ∧
      ∀ r c : Nat, r < m.h → c < m.w →
        (0 ≤ ((n / 2 : Nat) : Int) - 1 + (m.y0 + r - iy) ∧ ((n / 2 : Nat) : Int) - 1 + (m.y0 + r - iy) < n) ∧
        (0 ≤ ((n / 2 : Nat) : Int) - 1 + (m.x0 + c - ix) ∧ ((n / 2 : Nat) : Int) - 1 + (m.x0 + c - ix) < n) ∧
        G.px r c = convShifted E pad (some (g.sheared px py)) (px - ix) (py - iy)
          (((n / 2 : Nat) : Int) - 1 + (m.y0 + r - iy)) (((n / 2 : Nat) : Int) - 1 + (m.x0 + c - ix)) := by
  obtain ⟨pad, G, ix, iy, e, e1, e2, e3, -, e4, e5, e6, e7, -⟩ := mask_core E hz S (.pix img) img g a px py m h1 h1' h2 h2' hh hw
    _ rfl none (some (g.sheared px py)) rfl
  obtain ⟨b8, b9⟩ := mask_size px py m img h1 h1' h2 h2' h8 h9
  refine ⟨_, Nat.clog 2 ⌈2 * ((maskHalf px py m img.h img.w : Int) : R)⌉.toNat, pad, G, ix, iy, rfl, ?_, e1, e2, e3, e4, e5,
    fun r c hr hc => ⟨(e6 r c hr hc).1, (e6 r c hr hc).2, e7 hl b8 b9 r c hr hc⟩⟩
  unfold unitPatch
  simp only [e, addMog]
  rw [if_pos]
  simp [Patches.Patch.shape, e1, e2]

/-- A point source convolved with the stamp, brightened. -/
def exEnv (lib : Bool) : Env ℚ where
  sqrt := fun x => x
  lz := Psf.exLz
  lib := lib
  junk := fun _ => 77
  work := fun _ => 88
  conv := fun pad f r c => Mog.total f * pad.px r c
  value := fun _ y x => 100 * y + x
  valueMasked := fun _ y x => -100 * y - x
  approx := fun _ _ _ _ _ _ => .ok none

def exScene : Scene ℚ := ⟨20, 30, fun _ _ => 1⟩

def exGalaxy : Galaxy ℚ where
  affine := fun _ _ => [⟨3, 0, 0, 1, 0, 0, 1⟩]
  sheared := fun _ _ => [⟨3, 0, 0, 1, 0, 0, 1⟩]
  radius := 5
  patchSize := fun _ _ => 5

/-- A stamp of 3 by 5 pixels. -/
def exStamp : Arr ℚ := ⟨3, 5, fun r c => 10 * r + c + 1⟩

/-- Origin, shape and some pixels of a model. -/
def view (px : List (Nat × Nat)) : Except PyErr (Option (Patches.Patch ℚ)) → Option (List ℚ)
  | .ok (some ⟨x0, y0, some G⟩) => some ([(x0 : ℚ), y0, G.h, G.w] ++ px.map (fun p => G.px p.1 p.2))
  | _ => none

/-- A mask of 9 by 10 pixels, the centre of the galaxy in pixel (25, 11). -/
example : view [(3, 5), (4, 3)] (unitPatch (exEnv true) exScene (.pix exStamp) exGalaxy ⟨none, false, none⟩ (251 / 10) 11
      (some ⟨20, 8, 9, 10, none⟩)) =
    some [20, 8, 9, 10,
      Psf.shiftedImage (Psf.weight Psf.exLz) ⟨3, 5, fun r c => 3 * (10 * r + c + 1)⟩ (1 / 10) 0 1 2,
      Psf.shiftedImage (Psf.weight Psf.exLz) ⟨3, 5, fun r c => 3 * (10 * r + c + 1)⟩ (1 / 10) 0 2 0] := by
  decide +kernel

/-- **C95 (the sub-pixel position is lost).** Without the C library, or if the stamp and the mask are small, nothing is
interpolated: the model is the convolution moved by whole pixels, and does not tell where in its pixel the galaxy is. -/
theorem C95_subpixel (E : Env R) (hz : Zeros E.lz) (S : Scene R) (img : Arr R) (g : Galaxy R)
    (a : Args R) (px py : R) (m : ModelMask) (h1 : px ≤ m.x0 + m.w - 1) (h1' : (m.x0 : R) ≤ px)
    (h2 : py ≤ m.y0 + m.h - 1) (h2' : (m.y0 : R) ≤ py) (hh : img.h % 2 = 1) (hw : img.w % 2 = 1)
    (h8 : E.lib = false ∨ (m.w ≤ 3 ∧ m.h ≤ 3 ∧ img.w ≤ 7 ∧ img.h ≤ 7)) :
    ∃ (n : Nat) (pad G : Arr R) (ix iy : Int),
      unitPatch E S (.pix img) g a px py (some m) = .ok (some ⟨m.x0, m.y0, some G⟩) ∧ G.h = m.h ∧ G.w = m.w ∧
      Embedded img n pad ∧ (-(1 / 2) ≤ px - ix ∧ px - ix ≤ 1 / 2) ∧ (-(1 / 2) ≤ py - iy ∧ py - iy ≤ 1 / 2) ∧
      ∀ r c : Nat, r < m.h → c < m.w →
        G.px r c = convShifted E pad (some (g.sheared px py)) 0 0
          (((n / 2 : Nat) : Int) - 1 + (m.y0 + r - iy)) (((n / 2 : Nat) : Int) - 1 + (m.x0 + c - ix)) := by
  obtain ⟨pad, G, ix, iy, e, e1, e2, e3, -, e4, e5, -, -, e7⟩ := mask_core E hz S (.pix img) img g a px py m h1 h1' h2 h2' hh hw
    _ rfl none (some (g.sheared px py)) rfl
  have hq : E.lib = false ∨ fftSize ((maskHalf px py m img.h img.w : Int) : R) ≤ 8 ∨
      4096 < fftSize ((maskHalf px py m img.h img.w : Int) : R) := by
    rcases h8 with h | h
    · exact Or.inl h
    · right; left
      have := maskHalf_le px py m img.h img.w 4 h1 h1' h2 h2' (by omega) (by omega) (by omega) (by omega)
      exact fftSize_int_le (R := R) _ 3 (by norm_num; omega)
  refine ⟨_, pad, G, ix, iy, ?_, e1, e2, e3, e4, e5, e7 hq⟩
  unfold unitPatch
  simp only [e, addMog]
  rw [if_pos]
  simp [Patches.Patch.shape, e1, e2]

/-- **C95 (independence of the mask).** Two masks that contain the centre and call for Fourier transforms of the same size
give the same model in the pixels they share, unless the centre is exactly between two pixels; the array of booleans of a mask
does not matter. -/
theorem C95_independent (E : Env R) (hz : Zeros E.lz) (S S' : Scene R) (img : Arr R) (g : Galaxy R)
    (a a' : Args R) (px py : R) (m m' : ModelMask) (h1 : px ≤ m.x0 + m.w - 1) (h1' : (m.x0 : R) ≤ px)
    (h2 : py ≤ m.y0 + m.h - 1) (h2' : (m.y0 : R) ≤ py) (k1 : px ≤ m'.x0 + m'.w - 1) (k1' : (m'.x0 : R) ≤ px)
    (k2 : py ≤ m'.y0 + m'.h - 1) (k2' : (m'.y0 : R) ≤ py) (hh : img.h % 2 = 1) (hw : img.w % 2 = 1)
    (hn : fftSize ((maskHalf px py m img.h img.w : Int) : R) = fftSize ((maskHalf px py m' img.h img.w : Int) : R))
    (ht : ∀ i : Int, px - i ≠ 1 / 2 ∧ py - i ≠ 1 / 2) :
    ∃ G G' : Arr R, unitPatch E S (.pix img) g a px py (some m) = .ok (some ⟨m.x0, m.y0, some G⟩) ∧
      unitPatch E S' (.pix img) g a' px py (some m') = .ok (some ⟨m'.x0, m'.y0, some G'⟩) ∧
      ∀ r c r' c' : Nat, r < m.h → c < m.w → r' < m'.h → c' < m'.w → m.y0 + r = m'.y0 + r' → m.x0 + c = m'.x0 + c' →
        G.px r c = G'.px r' c' := by
  obtain ⟨pad, G, ix, iy, e, e1, e2, -, e3, e4, e5, -, e6, e7⟩ := mask_core E hz S (.pix img) img g a px py m h1 h1' h2 h2' hh hw
    _ rfl none (some (g.sheared px py)) rfl
  obtain ⟨pad', G', ix', iy', f, f1, f2, -, f3, f4, f5, -, f6, f7⟩ := mask_core E hz S' (.pix img) img g a' px py m' k1 k1' k2 k2'
    hh hw _ hn none (some (g.sheared px py)) rfl
  rw [e3] at f3
  injection f3 with f3
  simp only [Prod.mk.injEq, and_true] at f3
  subst f3
  have uniq : ∀ (p : R) (i j : Int), (∀ i : Int, p - i ≠ 1 / 2) → (-(1 / 2) ≤ p - i ∧ p - i ≤ 1 / 2) →
      (-(1 / 2) ≤ p - j ∧ p - j ≤ 1 / 2) → i = j := by
    intro p i j ht hi hj
    have lt : ∀ i : Int, (-(1 / 2) ≤ p - i ∧ p - i ≤ 1 / 2) → -(1 / 2) < p - i ∧ p - i < 1 / 2 := by
      intro i hi
      refine ⟨lt_of_le_of_ne hi.1 ?_, lt_of_le_of_ne hi.2 (ht i)⟩
      intro hc
      apply ht (i - 1)
      push_cast
      linarith
    rw [← round_unique p i (lt i hi).1 (lt i hi).2, ← round_unique p j (lt j hj).1 (lt j hj).2]
  have ex := uniq px ix ix' (fun i => (ht i).1) e4 f4
  have ey := uniq py iy iy' (fun i => (ht i).2) e5 f5
  subst ex ey
  refine ⟨G, G', ?_, ?_, ?_⟩
  · unfold unitPatch
    simp only [e, addMog]
    rw [if_pos]
    simp [Patches.Patch.shape, e1, e2]
  · unfold unitPatch
    simp only [f, addMog]
    rw [if_pos]
    simp [Patches.Patch.shape, f1, f2]
  · intro r c r' c' hr hc hr' hc' hy hx
    by_cases hq : E.lib = true ∧ 8 < fftSize ((maskHalf px py m img.h img.w : Int) : R) ∧
        fftSize ((maskHalf px py m img.h img.w : Int) : R) ≤ 4096
    · rw [e6 hq.1 hq.2.1 hq.2.2 r c hr hc, f6 hq.1 hq.2.1 hq.2.2 r' c' hr' hc', hy, hx]
    · have hq' : E.lib = false ∨ fftSize ((maskHalf px py m img.h img.w : Int) : R) ≤ 8 ∨
          4096 < fftSize ((maskHalf px py m img.h img.w : Int) : R) := by
        by_cases h : E.lib = true
        · right
          by_contra hh
          exact hq ⟨h, by omega, by omega⟩
        · left; simpa using h
      rw [e7 hq' r c hr hc, f7 hq' r' c' hr' hc', hy, hx]

/-- The square of the distance between a point and the rectangle of a mask. -/
def dist2 (px py : R) (m : ModelMask) : R :=
  (max 0 (max (m.x0 - px) (px - (m.x0 + m.w)))) ^ 2 + (max 0 (max (m.y0 - py) (py - (m.y0 + m.h)))) ^ 2

/-- The centre is among the pixels of the mask. -/
def Inside (px py : R) (m : ModelMask) : Prop :=
  (m.x0 : R) ≤ px ∧ px ≤ m.x0 + m.w - 1 ∧ (m.y0 : R) ≤ py ∧ py ≤ m.y0 + m.h - 1

/-- **C95 (centre outside the mask).** A galaxy whose centre is outside the mask: no model if the mask is farther away than its
radius; else a `RuntimeError`, unless the PSF is a hybrid, in which case the analytic model in the mask is returned.
Note that "outside" begins at the centres of the outermost pixels, so a galaxy in the outer half of an outermost pixel
raises `RuntimeError`. -/
theorem C95_outside (E : Env R) (hs : ∀ x, 0 ≤ x → 0 ≤ E.sqrt x ∧ E.sqrt x ^ 2 = x) (S : Scene R) (img : Arr R) (g : Galaxy R)
    (n : Option (R × R)) (v : Option R) (mix : R → R → Mog.Mix R) (px py : R) (m : ModelMask) (ho : ¬ Inside px py m)
    (rad : R) (hr : rad = g.radius / S.pixscale (m.x0 + (m.w : R) / 2) (m.y0 + (m.h : R) / 2)) (hr0 : 0 ≤ rad) :
    (rad ^ 2 < dist2 px py m → unitPatch E S (.pix img) g ⟨n, false, v⟩ px py (some m) = .ok none ∧
      unitPatch E S (.hybrid img mix) g ⟨n, false, v⟩ px py (some m) = .ok none) ∧
    (dist2 px py m ≤ rad ^ 2 → unitPatch E S (.pix img) g ⟨n, false, v⟩ px py (some m) = .error .runtime ∧
      unitPatch E S (.hybrid img mix) g ⟨n, false, v⟩ px py (some m) =
        .ok (some ⟨m.x0, m.y0, some (mogInMask E (Mog.convolve (g.affine px py) (mix px py)) m)⟩)) := by
  have hout : sourceOut px py m = true := by
    by_contra hc
    apply ho
    rw [Bool.not_eq_true] at hc
    unfold sourceOut at hc
    simp only [Bool.or_eq_false_iff, decide_eq_false_iff_not, not_lt, gt_iff_lt] at hc
    exact ⟨hc.1.1.1, hc.1.1.2, hc.1.2, hc.2⟩
  have hfar : tooFar E S g px py m = decide (rad ^ 2 < dist2 px py m) := by
    have e1 : ∀ p lo hi : R, lo ≤ hi → (if p > hi then p - hi else if p < lo then lo - p else 0) =
        max 0 (max (lo - p) (p - hi)) := by
      intro p lo hi h
      by_cases ha : p > hi
      · rw [if_pos ha, max_eq_right (by linarith : lo - p ≤ p - hi), max_eq_right (by linarith)]
      · rw [if_neg ha]
        by_cases hb : p < lo
        · rw [if_pos hb, max_eq_left (by linarith : p - hi ≤ lo - p), max_eq_right (by linarith)]
        · rw [if_neg hb, max_eq_left]
          exact max_le (by linarith) (by linarith)
    have hw : (0 : R) ≤ m.w := Nat.cast_nonneg _
    have hh : (0 : R) ≤ m.h := Nat.cast_nonneg _
    unfold tooFar
    simp only
    rw [e1 px m.x0 _ (by linarith), e1 py m.y0 _ (by linarith)]
    have ec : S.pixscale (((m.x0 : R) + (m.x0 + m.w)) / 2) (((m.y0 : R) + (m.y0 + m.h)) / 2) =
        S.pixscale (m.x0 + (m.w : R) / 2) (m.y0 + (m.h : R) / 2) := by congr 1 <;> ring
    rw [ec, ← hr]
    change decide (E.sqrt (dist2 px py m) > rad) = _
    have hd : 0 ≤ dist2 px py m := by unfold dist2; positivity
    obtain ⟨s0, s2⟩ := hs _ hd
    congr 1
    apply propext
    constructor
    · intro h
      rw [← s2]
      exact pow_lt_pow_left₀ h hr0 (by norm_num)
    · intro h
      rw [← s2] at h
      exact lt_of_pow_lt_pow_left₀ 2 s0 h
  constructor
  · intro h
    constructor
    · simp [unitPatch, renderMaskFft, hout, hfar, h]
    · simp [unitPatch, renderMaskFft, hout, hfar, h]
  · intro h
    constructor
    · simp [unitPatch, renderMaskFft, hout, hfar, not_lt.mpr h]
    · simp [unitPatch, renderMaskFft, hout, hfar, not_lt.mpr h, mogInMask, Patches.Patch.shape]

/-- **C95 (negation).** The centre of the galaxy is in the outer half of the rightmost pixel (29) of the mask. -/
theorem C95_outside_false :
    (unitPatch (exEnv true) exScene (.pix exStamp) exGalaxy ⟨none, false, none⟩ (293 / 10) 11
      (some ⟨20, 8, 9, 10, none⟩)).map (fun p => p.isSome) = .error .runtime := by
  decide +kernel

/-- **C95 (negation).** A small mask and a small stamp: two centres 0.4 pixels apart give the same model; with a larger mask
they do not. -/
theorem C95_subpixel_false :
    view [(0, 0), (0, 1), (0, 2), (1, 0), (1, 1), (1, 2), (2, 0), (2, 1), (2, 2)] (unitPatch (exEnv true) exScene (.pix exStamp)
        exGalaxy ⟨none, false, none⟩ (248 / 10) 11 (some ⟨24, 10, 3, 3, none⟩)) =
      some [24, 10, 3, 3, 6, 9, 12, 36, 39, 42, 66, 69, 72] ∧
    view [(0, 0), (0, 1), (0, 2), (1, 0), (1, 1), (1, 2), (2, 0), (2, 1), (2, 2)] (unitPatch (exEnv true) exScene (.pix exStamp)
        exGalaxy ⟨none, false, none⟩ (252 / 10) 11 (some ⟨24, 10, 3, 3, none⟩)) =
      some [24, 10, 3, 3, 6, 9, 12, 36, 39, 42, 66, 69, 72] ∧
    view [(2, 4)] (unitPatch (exEnv true) exScene (.pix exStamp) exGalaxy ⟨none, false, none⟩ (248 / 10) 11
        (some ⟨20, 8, 9, 10, none⟩)) ≠
      view [(2, 4)] (unitPatch (exEnv true) exScene (.pix exStamp) exGalaxy ⟨none, false, none⟩ (252 / 10) 11
        (some ⟨20, 8, 9, 10, none⟩)) := by
  decide +kernel

/-- Two masks, one a part of the other. -/
example : view [(3, 5), (4, 3)] (unitPatch (exEnv true) exScene (.pix exStamp) exGalaxy ⟨none, false, none⟩ (251 / 10) 11
      (some ⟨20, 8, 7, 8, none⟩)) =
    (view [(3, 4), (4, 2)] (unitPatch (exEnv true) exScene (.pix exStamp) exGalaxy ⟨none, false, none⟩ (251 / 10) 11
      (some ⟨21, 8, 7, 6, some fun _ _ => false⟩))).map (fun l => [20, 8, 7, 8] ++ l.drop 4) := by
  decide +kernel

end Verif.Gal
