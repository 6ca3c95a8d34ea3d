import Verif.Psf.LanczosLemmas
import Verif.Psf.Lemmas
import Mathlib.Algebra.Order.Ring.Rat
import Mathlib.Algebra.Field.Rat

/-!
# C82, C83: shifting an image by a fraction of a pixel
-/

namespace Verif.Psf

variable {R : Type} [Field R] [LinearOrder R] [IsStrictOrderedRing R]

/-- The Lanczos-3 window: 1 at 0, supported in (-3, 3). -/
def window (lz : R → R) (x : R) : R := if x = 0 then 1 else if -3 < x ∧ x < 3 then lz x else 0

/-- The seven interpolation weights for a shift `d`, normalised to preserve flux. -/
def weight (lz : R → R) (d : R) (i : Nat) : R :=
  window lz ((i : R) - 3 + d) / ((List.range 7).map (fun k : Nat => window lz ((k : R) - 3 + d))).sum

/-- `lz x = 3 sin(pi x) sin(pi x / 3) / (pi x)^2` has zeros at the integers. -/
def Zeros (lz : R → R) : Prop := lz 1 = 0 ∧ lz (-1) = 0 ∧ lz 2 = 0 ∧ lz (-2) = 0

omit [IsStrictOrderedRing R] in
theorem window_eq (lz : R → R) : lanczosFn lz = window lz := by
  funext x
  unfold lanczosFn window
  by_cases h : x = 0
  · rw [if_pos h, if_pos h]
  · rw [if_neg h, if_neg h]
    by_cases h' : -3 < x ∧ x < 3
    · rw [if_pos h', if_pos ⟨h'.2, h'.1⟩]
    · rw [if_neg h', if_neg (fun c => h' ⟨c.2, c.1⟩)]

omit [IsStrictOrderedRing R] in
theorem weight_eq (lz : R → R) : kernPy lz = weight lz := by
  funext d i
  unfold kernPy weight
  rw [window_eq]

omit [LinearOrder R] [IsStrictOrderedRing R] in
theorem corrY_congr (f g f' g' : Nat → R) (A : Arr R) (h : ∀ i, i < 7 → f i = f' i) (h' : ∀ i, i < 7 → g i = g' i) :
    corrY g (corrX f A) = corrY g' (corrX f' A) := by
  have e : corrX f A = corrX f' A := by
    unfold corrX
    simp only [Arr.mk.injEq, true_and]
    funext r c
    congr 1
    exact List.map_congr_left (fun k hk => by rw [h k (List.mem_range.mp hk)])
  rw [e]
  unfold corrY
  simp only [Arr.mk.injEq, true_and]
  funext r c
  congr 1
  exact List.map_congr_left (fun k hk => by rw [h' k (List.mem_range.mp hk)])

omit [Field R] [LinearOrder R] [IsStrictOrderedRing R] in
theorem writes_other (ws : List (Nat × R)) (a n : Nat) (h : ∀ w ∈ ws, w.1 < n) (ha : n ≤ a) : ∀ mem : Mem R,
    mem.writes ws a = mem a := by
  induction ws with
  | nil => intro mem; rfl
  | cons w ws ih =>
    intro mem
    show Mem.writes (mem.write w.1 w.2) ws a = mem a
    rw [ih (fun w hw => h w (by simp [hw]))]
    unfold Mem.write
    rw [if_neg]
    have := h w (by simp)
    omega

/-- A call of the C function with admissible arguments. -/
theorem shift3f_ok (lz : R → R) (hz : Zeros lz) (img : Arr R) (dx dy : R) (junk work : Mem R) (wh ww : Nat)
    (hH : 8 < img.h) (hW : 8 < img.w) (h1 : img.h ≤ wh) (h2 : img.w ≤ ww)
    (hx : -(1 / 2) ≤ dx ∧ dx ≤ 1 / 2) (hy : -(1 / 2) ≤ dy ∧ dy ≤ 1 / 2) :
    ∃ out w', shift3f lz img.h img.w (Arr.toMem img) junk dx dy work wh ww = .ok (out, w') ∧
      (∀ r c, r < img.h → c < img.w → out (r * img.w + c) = shiftedImage (weight lz) img dx dy r c) ∧
      (∀ a, img.h * img.w ≤ a → out a = junk a) ∧ (∀ a, img.h * img.w ≤ a → w' a = work a) := by
  obtain ⟨fx, ex, gx⟩ := filter3_ok lz hz dx hx
  obtain ⟨fy, ey, gy⟩ := filter3_ok lz hz dy hy
  refine ⟨junk.writes (passWrites fy img.w img.h (work.writes (passWrites fx img.h img.w (Arr.toMem img)))),
    work.writes (passWrites fx img.h img.w (Arr.toMem img)), ?_, ?_, ?_, ?_⟩
  · unfold shift3f
    rw [if_neg (by omega), if_neg (by omega), ex, ey]
    simp only
    unfold correlate7
    rw [if_neg (by omega), if_neg (by omega), if_neg (by omega), if_neg (by omega)]
  · intro r c hr hc
    rw [correlate_ok fx fy img junk work hH hW r c hr hc, ← weight_eq, ← lanczos_px (kernPy lz) img dx dy r c hc]
    unfold lanczosShift
    rw [corrY_congr fx fy (kernPy lz dx) (kernPy lz dy) img gx gy]
  · intro a ha
    exact writes_other _ a (img.h * img.w) (fun w hw => pass_addr fy img.w img.h _ hH w hw) ha junk
  · intro a ha
    exact writes_other _ a (img.h * img.w)
      (fun w hw => by have := pass_addr fx img.h img.w _ hW w hw; rwa [Nat.mul_comm] at this) ha work

/-- **C82.** `lanczos_shift_image` by at most half a pixel returns the image of the same shape whose pixels are the
Lanczos-weighted sums of the image continued by zeros, whatever the size of the image, whether or not the C library is there, and
whatever the scratch array and the fresh output array contained. -/
theorem C82_shift (lz : R → R) (hz : Zeros lz) (lib force : Bool) (junk work : Mem R) (wh ww : Nat) (img : Arr R)
    (dx dy : R) (inplace : Bool) (hx : -(1 / 2) ≤ dx ∧ dx ≤ 1 / 2) (hy : -(1 / 2) ≤ dy ∧ dy ≤ 1 / 2) :
    ∃ out img', shiftImage lz lib force junk work wh ww img dx dy inplace = .ok (out, img') ∧
      out.h = img.h ∧ out.w = img.w ∧
      ∀ r c, r < img.h → c < img.w → out.px r c = shiftedImage (weight lz) img dx dy r c := by
  unfold shiftImage
  by_cases h : (!lib || force || decide (img.w ≤ 8) || decide (img.h ≤ 8) || decide (img.h > wh) ||
      decide (img.w > ww)) = true
  · rw [if_pos h]
    refine ⟨_, _, rfl, rfl, rfl, fun r c _ hc => ?_⟩
    rw [lanczos_px _ _ _ _ _ _ hc, weight_eq]
  · rw [if_neg h]
    simp only [Bool.or_eq_true, decide_eq_true_eq, not_or, Bool.not_eq_true] at h
    obtain ⟨out, w', e, h1, _, _⟩ := shift3f_ok lz hz img dx dy junk work wh ww (by omega) (by omega) (by omega)
      (by omega) hx hy
    rw [e]
    exact ⟨_, _, rfl, rfl, rfl, fun r c hr hc => h1 r c hr hc⟩

omit [IsStrictOrderedRing R] in
/-- **C82.** The weights sum to one. -/
theorem C82_flux (lz : R → R) (d : R)
    (h : ((List.range 7).map (fun k : Nat => window lz ((k : R) - 3 + d))).sum ≠ 0) :
    ((List.range 7).map (weight lz d)).sum = 1 := by
  have key : ∀ (l : List Nat) (f : Nat → R) (s : R), (l.map (fun i => f i / s)).sum = (l.map f).sum / s := by
    intro l f s
    induction l with
    | nil => simp
    | cons a l ih => rw [List.map_cons, List.sum_cons, ih, List.map_cons, List.sum_cons, add_div]
  unfold weight
  rw [key, div_self h]

/-- **C82.** The C code writes neither outside the output image nor outside the first `H * W` cells of the scratch
array. -/
theorem C82_in_bounds (lz : R → R) (hz : Zeros lz) (img : Arr R) (dx dy : R) (junk work : Mem R) (wh ww : Nat)
    (hH : 8 < img.h) (hW : 8 < img.w) (h1 : img.h ≤ wh) (h2 : img.w ≤ ww)
    (hx : -(1 / 2) ≤ dx ∧ dx ≤ 1 / 2) (hy : -(1 / 2) ≤ dy ∧ dy ≤ 1 / 2) :
    ∃ out w', shift3f lz img.h img.w (Arr.toMem img) junk dx dy work wh ww = .ok (out, w') ∧
      (∀ a, img.h * img.w ≤ a → out a = junk a) ∧ (∀ a, wh * ww ≤ a → w' a = work a) := by
  obtain ⟨out, w', e, _, h3, h4⟩ := shift3f_ok lz hz img dx dy junk work wh ww hH hW h1 h2 hx hy
  exact ⟨out, w', e, h3, fun a ha => h4 a (le_trans (Nat.mul_le_mul h1 h2) ha)⟩

/-- A window with the required zeros. -/
def exLz (x : ℚ) : ℚ := (1 - x ^ 2) * (4 - x ^ 2) / 4

example : Zeros exLz := by unfold Zeros; decide +kernel

/-- A 9 by 10 image with one bright pixel. -/
def exStar : Arr ℚ := ⟨9, 10, fun r c => if r = 1 ∧ c = 8 then 6 else 0⟩

example : (shiftImage exLz true false (fun _ => 77) (fun _ => 88) 4096 4096 exStar (1 / 2) 0 false).map
    (fun o => ((List.range 10).map (o.1.px 1), o.1.px 2 8)) =
    .ok ((List.range 10).map (fun c : Nat => shiftedImage (weight exLz) exStar (1 / 2) 0 1 c), 0) := by
  decide +kernel

example : (List.range 10).map (fun c : Nat => shiftedImage (weight exLz) exStar (1 / 2) 0 1 c) ≠
    (List.range 10).map (fun c => exStar.px 1 c) := by
  decide +kernel

/-- **C83 (in part).** Without `inplace` the caller's image is left alone; with it and the C library, the caller's
image becomes the shifted image.  Missing: `inplace` when the Python code runs (`C83_inplace_false`). -/
theorem C83_inplace_partial (lz : R → R) (hz : Zeros lz) (lib force : Bool) (junk work : Mem R) (wh ww : Nat)
    (img : Arr R) (dx dy : R) (inplace : Bool) (hx : -(1 / 2) ≤ dx ∧ dx ≤ 1 / 2) (hy : -(1 / 2) ≤ dy ∧ dy ≤ 1 / 2)
    (hc : inplace = true → lib = true ∧ force = false ∧ 8 < img.h ∧ 8 < img.w ∧ img.h ≤ wh ∧ img.w ≤ ww) :
    ∃ out img', shiftImage lz lib force junk work wh ww img dx dy inplace = .ok (out, img') ∧
      (inplace = false → img' = img) ∧ (inplace = true → img' = out) := by
  cases inplace with
  | false =>
    unfold shiftImage
    by_cases h : (!lib || force || decide (img.w ≤ 8) || decide (img.h ≤ 8) || decide (img.h > wh) ||
        decide (img.w > ww)) = true
    · rw [if_pos h]
      exact ⟨_, _, rfl, fun _ => rfl, by intro h; cases h⟩
    · rw [if_neg h]
      simp only [Bool.or_eq_true, decide_eq_true_eq, not_or, Bool.not_eq_true] at h
      obtain ⟨out, w', e, _⟩ := shift3f_ok lz hz img dx dy junk work wh ww (by omega) (by omega) (by omega)
        (by omega) hx hy
      rw [e]
      exact ⟨_, _, rfl, fun _ => rfl, by intro h; cases h⟩
  | true =>
    obtain ⟨rfl, rfl, a, b, c, d⟩ := hc rfl
    unfold shiftImage
    rw [if_neg (by simp; omega)]
    obtain ⟨out, w', e, _⟩ := shift3f_ok lz hz img dx dy junk work wh ww a b c d hx hy
    rw [e]
    exact ⟨_, _, rfl, fun h => absurd h (by decide), fun _ => rfl⟩

example : (shiftImage exLz true false (fun _ => 77) (fun _ => 88) 4096 4096 exStar (1 / 2) 0 true).map
    (fun o => (o.2.px 1 8, exStar.px 1 8)) = .ok (shiftedImage (weight exLz) exStar (1 / 2) 0 1 8, 6) := by
  decide +kernel

/-- **C83 (negation).** A small image, or any image without the C library, is not changed by `inplace=True`, though
the image returned is another. -/
theorem C83_inplace_false :
    (shiftImage exLz true false (fun _ => 77) (fun _ => 88) 4096 4096 ⟨8, 8, fun _ c => if c = 4 then 6 else 0⟩
      (1 / 2) 0 true).map (fun o => (o.2.px 1 4, decide (o.1.px 1 4 = 6))) = .ok (6, false) ∧
    (shiftImage exLz false false (fun _ => 77) (fun _ => 88) 4096 4096 exStar (1 / 2) 0 true).map
      (fun o => (o.2.px 1 8, decide (o.1.px 1 8 = 6))) = .ok (6, false) := by
  decide +kernel

end Verif.Psf
