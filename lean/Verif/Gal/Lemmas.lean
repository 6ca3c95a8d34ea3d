import Verif.Gal.Spec
import Mathlib.Algebra.Order.Floor.Ring
import Mathlib.Tactic.Linarith
import Mathlib.Tactic.Ring
import Mathlib.Tactic.NormNum

/-! Helper lemmas for rendering galaxies. -/

namespace Verif.Gal

open Verif.Psf (ext shiftedImage weight Zeros)

variable {R : Type} [Field R] [LinearOrder R] [IsStrictOrderedRing R]

section
variable [FloorRing R]

theorem round_bounds (x : R) : -(1 / 2) ≤ x - roundEven x ∧ x - roundEven x ≤ 1 / 2 := by
  have h1 := Int.floor_le x
  have h2 := Int.lt_floor_add_one x
  unfold roundEven
  simp only
  split
  · constructor <;> linarith
  · split
    · push_cast; constructor <;> linarith
    · split
      · constructor <;> linarith
      · push_cast; constructor <;> linarith

theorem round_le (x : R) (n : Int) (h : x ≤ n) : roundEven x ≤ n := by
  by_contra hc
  have h1 : (n : R) + 1 ≤ roundEven x := by exact_mod_cast (show n + 1 ≤ roundEven x by omega)
  have := round_bounds x
  linarith

theorem le_round (x : R) (n : Int) (h : (n : R) ≤ x) : n ≤ roundEven x := by
  by_contra hc
  have h1 : (roundEven x : R) + 1 ≤ n := by exact_mod_cast (show roundEven x + 1 ≤ n by omega)
  have := round_bounds x
  linarith

/-- Another integer at most half a pixel away is the same unless there is a tie. -/
theorem round_unique (x : R) (n : Int) (h1 : -(1 / 2) < x - n) (h2 : x - n < 1 / 2) : roundEven x = n := by
  have hb := round_bounds x
  have a : (roundEven x : R) < n + 1 := by linarith
  have b : (n : R) < roundEven x + 1 := by linarith
  have a' : roundEven x < n + 1 := by exact_mod_cast a
  have b' : n < roundEven x + 1 := by exact_mod_cast b
  omega

theorem fftSize_ge (h : R) : 2 * h ≤ (fftSize h : R) := by
  have h1 : ⌈2 * h⌉.toNat ≤ fftSize h := Nat.le_pow_clog (by norm_num) _
  have h2 : 2 * h ≤ ((⌈2 * h⌉ : Int) : R) := Int.le_ceil _
  have h3 : (⌈2 * h⌉ : Int) ≤ ((fftSize h : Nat) : Int) := by omega
  have h4 : ((⌈2 * h⌉ : Int) : R) ≤ ((fftSize h : Nat) : R) := by exact_mod_cast h3
  linarith

theorem fftSize_even (h : R) (hh : 1 ≤ h) : ∃ k : Nat, 0 < k ∧ fftSize h = 2 * k := by
  have h2 : (2 : R) ≤ ((⌈2 * h⌉ : Int) : R) := le_trans (by linarith) (Int.le_ceil _)
  have h3 : (2 : Int) ≤ ⌈2 * h⌉ := by exact_mod_cast h2
  have h4 : 0 < Nat.clog 2 ⌈2 * h⌉.toNat := Nat.clog_pos (by norm_num) (by omega)
  obtain ⟨k, hk⟩ : ∃ k, Nat.clog 2 ⌈2 * h⌉.toNat = k + 1 := ⟨_, (Nat.succ_pred_eq_of_pos h4).symm⟩
  exact ⟨2 ^ k, by positivity, by unfold fftSize; rw [hk, pow_succ]; ring⟩

theorem fftSize_int_le (h : Int) (k : Nat) (hk : 2 * h ≤ 2 ^ k) : fftSize (h : R) ≤ 2 ^ k := by
  unfold fftSize
  have e : ⌈2 * (h : R)⌉ = 2 * h := by
    have : (2 * (h : R)) = ((2 * h : Int) : R) := by push_cast; ring
    rw [this, Int.ceil_intCast]
  rw [e]
  refine Nat.pow_le_pow_right (by norm_num) ?_
  refine Nat.clog_le_of_le_pow ?_
  have : (2 * h).toNat ≤ ((2 : Int) ^ k).toNat := Int.toNat_le_toNat hk
  rwa [show ((2 : Int) ^ k).toNat = 2 ^ k by
    rw [show ((2 : Int) ^ k) = ((2 ^ k : Nat) : Int) by push_cast; rfl, Int.toNat_natCast]] at this

end

/-! ### The padded stamp -/

omit [LinearOrder R] [IsStrictOrderedRing R] in
theorem pad_ok (img : Arr R) (k : Nat) (hk : 0 < k) (hh : img.h % 2 = 1) (hw : img.w % 2 = 1)
    (h1 : img.h ≤ 2 * k) (h2 : img.w ≤ 2 * k) :
    ∃ pad, Psf.padInImage (2 * k) (2 * k) img = .ok (pad, k - 1, k - 1) ∧ Embedded img (2 * k) pad := by
  obtain ⟨pad, cx, cy, e, e1, e2, e3⟩ := Psf.C49_pad (2 * k) (2 * k) img
  have hc : cx = k - 1 ∧ cy = k - 1 := by
    simp only [Psf.padInImage, Psf.padAxis] at e
    rw [if_pos h1, if_pos h2] at e
    simp only at e
    cases hm : (Arr.zeros (2 * k) (2 * k) : Arr R).modify
        (some ((2 * k - img.h) / 2 : Nat)) _ (some ((2 * k - img.w) / 2 : Nat)) _ (fun _ b => b) _ with
    | error er => rw [hm] at e; simp [Except.map] at e
    | ok v =>
      rw [hm] at e
      simp only [Except.map, Except.ok.injEq, Prod.mk.injEq] at e
      omega
  obtain ⟨rfl, rfl⟩ := hc
  refine ⟨pad, e, e1, e2, ?_⟩
  intro i j
  have h := e3 i j
  rw [show 2 * k / 2 = k by omega]
  rw [show ((k : Nat) : Int) - 1 + j = ((k - 1 : Nat) : Int) + j by omega,
    show ((k : Nat) : Int) - 1 + i = ((k - 1 : Nat) : Int) + i by omega, h]
  split
  · rfl
  · rename_i hc
    unfold ext
    rw [if_neg]
    omega

/-! ### Placing -/

omit [Field R] [LinearOrder R] [IsStrictOrderedRing R] in
theorem slice_to (A : Arr R) (mh mw : Nat) (h1 : mh ≤ A.h) (h2 : mw ≤ A.w) :
    A.slice none (some (mh : Int)) none (some (mw : Int)) = ⟨mh, mw, A.px⟩ := by
  simp only [Arr.slice, Arr.axis, Arr.bound, Option.map_none, Option.map_some, Option.getD_none, Option.getD_some]
  rw [if_neg (by omega), if_neg (by omega)]
  simp only [Int.toNat_natCast, Nat.sub_zero, Nat.zero_add, Arr.mk.injEq]
  exact ⟨by omega, by omega, trivial⟩

omit [LinearOrder R] [IsStrictOrderedRing R] in
theorem place_ok (G : Arr R) (sx sy : Int) (mh mw : Nat) (h0 : 0 < mh) (h0' : 0 < mw) (hx : sx ≤ 0) (hx' : -sx + mw ≤ G.w)
    (hy : sy ≤ 0) (hy' : -sy + mh ≤ G.h) :
    ∃ A, placeMask G sx sy mh mw = .ok A ∧ A.h = mh ∧ A.w = mw ∧
      ∀ r c : Nat, r < mh → c < mw → A.px r c = G.px (r - sy).toNat (c - sx).toNat := by
  by_cases h : sx ≠ 0 ∨ sy ≠ 0
  · unfold placeMask
    simp only [if_pos h]
    rw [Psf.overlap_some _ _ _ (by omega) (by omega) (by omega) (by omega),
      Psf.overlap_some _ _ _ (by omega) (by omega) (by omega) (by omega)]
    simp only [Arr.modify, Arr.slice, Arr.zeros]
    simp only [Psf.axis_of mh _ _ (show 0 ≤ max (-sy) 0 - -sy by omega)
        (show 0 ≤ min (-sy + mh - 1) ((G.h : Int) - 1) - -sy + 1 by omega),
      Psf.axis_of mw _ _ (show 0 ≤ max (-sx) 0 - -sx by omega)
        (show 0 ≤ min (-sx + mw - 1) ((G.w : Int) - 1) - -sx + 1 by omega),
      Psf.axis_of G.h _ _ (show 0 ≤ max (-sy) 0 by omega)
        (show 0 ≤ min (-sy + mh - 1) ((G.h : Int) - 1) + 1 by omega),
      Psf.axis_of G.w _ _ (show 0 ≤ max (-sx) 0 by omega)
        (show 0 ≤ min (-sx + mw - 1) ((G.w : Int) - 1) + 1 by omega)]
    rw [if_pos (by omega)]
    simp only
    have key : ∀ r c : Nat, r < mh → c < mw → (if min (max (-sy) 0 - -sy).toNat mh ≤ r ∧ r < min (max (-sy) 0 - -sy).toNat mh +
        (min (min (-sy + mh - 1) ((G.h : Int) - 1) - -sy + 1).toNat mh - min (max (-sy) 0 - -sy).toNat mh) ∧
        min (max (-sx) 0 - -sx).toNat mw ≤ c ∧ c < min (max (-sx) 0 - -sx).toNat mw +
        (min (min (-sx + mw - 1) ((G.w : Int) - 1) - -sx + 1).toNat mw - min (max (-sx) 0 - -sx).toNat mw) then
        G.px (min (max (-sy) 0).toNat G.h + (r - min (max (-sy) 0 - -sy).toNat mh))
          (min (max (-sx) 0).toNat G.w + (c - min (max (-sx) 0 - -sx).toNat mw)) else 0) =
        G.px (r - sy).toNat (c - sx).toNat := by
      intro r c hr hc
      rw [if_pos (by omega)]
      congr 1 <;> omega
    by_cases hs : G.h > mh ∨ G.w > mw
    · simp only [if_pos hs]
      have a1 : ∀ n : Nat, Arr.axis n none (some (n : Int)) = (0, n) := by
        intro n
        simp only [Arr.axis, Arr.bound, Option.map_none, Option.map_some, Option.getD_none, Option.getD_some]
        rw [if_neg (by omega)]
        simp
      simp only [a1, Nat.zero_add, and_self, if_true]
      exact ⟨_, rfl, rfl, rfl, key⟩
    · simp only [if_neg hs, and_self, if_true]
      exact ⟨_, rfl, rfl, rfl, key⟩
  · unfold placeMask
    simp only [if_neg h]
    have e1 : sx = 0 := by omega
    have e2 : sy = 0 := by omega
    subst e1 e2
    by_cases hs : G.h > mh ∨ G.w > mw
    · rw [if_pos hs, slice_to G mh mw (by omega) (by omega)]
      simp only [and_self, if_true]
      exact ⟨_, rfl, rfl, rfl, fun r c _ _ => by simp⟩
    · rw [if_neg hs, if_pos (by omega)]
      exact ⟨_, rfl, by omega, by omega, fun r c _ _ => by simp⟩

/-! ### The FFT image -/

omit [IsStrictOrderedRing R] in
theorem weight_zero (lz : R → R) (hz : Zeros lz) [IsStrictOrderedRing R] (i : Nat) (hi : i < 7) :
    weight lz 0 i = if i = 3 then 1 else 0 := by
  obtain ⟨h1, h2, h3, h4⟩ := hz
  have w0 : Psf.window lz 0 = 1 := by simp [Psf.window]
  have w : ∀ k : Nat, k < 7 → Psf.window lz ((k : R) - 3 + 0) = if k = 3 then 1 else 0 := by
    intro k hk
    have e : k = 0 ∨ k = 1 ∨ k = 2 ∨ k = 3 ∨ k = 4 ∨ k = 5 ∨ k = 6 := by omega
    rcases e with rfl | rfl | rfl | rfl | rfl | rfl | rfl
    · unfold Psf.window; rw [if_neg (by norm_num), if_neg (by norm_num)]; rfl
    · unfold Psf.window; rw [if_neg (by norm_num), if_pos (by norm_num)]
      rw [show ((1 : Nat) : R) - 3 + 0 = -2 by norm_num, h4]; rfl
    · unfold Psf.window; rw [if_neg (by norm_num), if_pos (by norm_num)]
      rw [show ((2 : Nat) : R) - 3 + 0 = -1 by norm_num, h2]; rfl
    · rw [show ((3 : Nat) : R) - 3 + 0 = 0 by norm_num, w0]; rfl
    · unfold Psf.window; rw [if_neg (by norm_num), if_pos (by norm_num)]
      rw [show ((4 : Nat) : R) - 3 + 0 = 1 by norm_num, h1]; rfl
    · unfold Psf.window; rw [if_neg (by norm_num), if_pos (by norm_num)]
      rw [show ((5 : Nat) : R) - 3 + 0 = 2 by norm_num, h3]; rfl
    · unfold Psf.window; rw [if_neg (by norm_num), if_neg (by norm_num)]; rfl
  unfold weight
  rw [List.map_congr_left (fun k hk => w k (List.mem_range.mp hk)), w i hi]
  have : ((List.range 7).map (fun k => if k = 3 then (1 : R) else 0)).sum = 1 := by
    simp [List.range_succ]
  rw [this, div_one]

/-- Shifting by nothing. -/
theorem shifted_zero (lz : R → R) (hz : Zeros lz) (A : Arr R) (y x : Int) :
    shiftedImage (weight lz) A 0 0 y x = ext A y x := by
  have s : ∀ f : Nat → R, ((List.range 7).map (fun i => weight lz 0 i * f i)).sum = f 3 := by
    intro f
    rw [List.map_congr_left (fun k hk => by rw [weight_zero lz hz k (List.mem_range.mp hk)])]
    simp [List.range_succ]
  unfold shiftedImage
  rw [s, s]
  congr 1 <;> omega

theorem fftImage_ok (E : Env R) (hz : Zeros E.lz) (hl : E.lib = true) (pad : Arr R) (f : Option (Mog.Mix R)) (mux muy : R)
    (h1 : 8 < pad.h) (h2 : 8 < pad.w) (h3 : pad.h ≤ 4096) (h4 : pad.w ≤ 4096)
    (hx : -(1 / 2) ≤ mux ∧ mux ≤ 1 / 2) (hy : -(1 / 2) ≤ muy ∧ muy ≤ 1 / 2) :
    ∃ G, fftImage E pad f mux muy = .ok G ∧ G.h = pad.h ∧ G.w = pad.w ∧
      ∀ r c : Nat, r < pad.h → c < pad.w → G.px r c = convShifted E pad f mux muy r c := by
  cases f with
  | none => exact ⟨_, rfl, rfl, rfl, fun _ _ _ _ => rfl⟩
  | some f =>
  unfold fftImage convShifted
  by_cases h : mux ≠ 0 ∨ muy ≠ 0
  · simp only [if_pos h]
    unfold Psf.shiftImage
    have hc : (!E.lib || false || decide (pad.w ≤ 8) || decide (pad.h ≤ 8) || decide (pad.h > 4096) ||
      decide (pad.w > 4096)) = false := by
      simp [hl]; omega
    simp only [hc, Bool.false_eq_true, if_false]
    obtain ⟨out, w', e, h5, -, -⟩ := Psf.shift3f_ok E.lz hz ⟨pad.h, pad.w, E.conv pad f⟩ mux muy E.junk E.work 4096 4096
      h1 h2 h3 h4 hx hy
    simp only at e
    rw [e]
    exact ⟨_, rfl, rfl, rfl, fun r c hr hc => h5 r c hr hc⟩
  · simp only [if_neg h]
    push Not at h
    obtain ⟨rfl, rfl⟩ := h
    refine ⟨_, rfl, rfl, rfl, fun r c hr hc => ?_⟩
    rw [shifted_zero E.lz hz]
    exact (Psf.ext_in (⟨pad.h, pad.w, E.conv pad f⟩ : Arr R) r c hr hc).symm

/-- Without the C library, or with few or many pixels: no shift. -/
theorem fftImage_unshifted (E : Env R) (pad : Arr R) (f : Option (Mog.Mix R)) (mux muy : R)
    (h : E.lib = false ∨ pad.h ≤ 8 ∨ 4096 < pad.h ∨ pad.w ≤ 8 ∨ 4096 < pad.w) (hz : Zeros E.lz) :
    ∃ G, fftImage E pad f mux muy = .ok G ∧ G.h = pad.h ∧ G.w = pad.w ∧
      ∀ r c : Nat, r < pad.h → c < pad.w → G.px r c = convShifted E pad f 0 0 r c := by
  cases f with
  | none => exact ⟨_, rfl, rfl, rfl, fun _ _ _ _ => rfl⟩
  | some f =>
  refine ⟨⟨pad.h, pad.w, E.conv pad f⟩, ?_, rfl, rfl, fun r c hr hc => ?_⟩
  · unfold fftImage Psf.shiftImage
    simp only
    split
    · rw [if_pos (by simp; tauto)]
      rfl
    · rfl
  · unfold convShifted
    simp only
    rw [shifted_zero E.lz hz]
    exact (Psf.ext_in (⟨pad.h, pad.w, E.conv pad f⟩ : Arr R) r c hr hc).symm

/-! ### Rendering in a mask -/

section
variable [FloorRing R]

omit [IsStrictOrderedRing R] in
theorem maskHalf_ge (px py : R) (m : ModelMask) (h w : Nat) :
    1 + px - m.x0 ≤ (maskHalf px py m h w : R) ∧ 1 + (m.x0 + m.w) - px ≤ (maskHalf px py m h w : R) ∧
    1 + py - m.y0 ≤ (maskHalf px py m h w : R) ∧ 1 + (m.y0 + m.h) - py ≤ (maskHalf px py m h w : R) ∧
    (w : R) / 2 ≤ (maskHalf px py m h w : R) ∧ (h : R) / 2 ≤ (maskHalf px py m h w : R) ∧
    (m.w : R) / 2 ≤ (maskHalf px py m h w : R) ∧ (m.h : R) / 2 ≤ (maskHalf px py m h w : R) := by
  have hc := Int.le_ceil (max (max (max ((m.h : R) / 2) ((m.w : R) / 2)) (max (max (1 + px - m.x0) (1 + (m.x0 + m.w : R) - px))
    (max (1 + py - m.y0) (1 + (m.y0 + m.h : R) - py)))) (max ((w : R) / 2) ((h : R) / 2)))
  simp only [max_le_iff] at hc
  unfold maskHalf
  simp only
  tauto

theorem maskHalf_le (px py : R) (m : ModelMask) (h w : Nat) (n : Int)
    (h1 : px ≤ m.x0 + m.w - 1) (h1' : (m.x0 : R) ≤ px) (h2 : py ≤ m.y0 + m.h - 1) (h2' : (m.y0 : R) ≤ py)
    (h3 : (m.w : Int) + 1 ≤ n) (h4 : (m.h : Int) + 1 ≤ n) (h5 : (w : Int) ≤ 2 * n) (h6 : (h : Int) ≤ 2 * n) :
    maskHalf px py m h w ≤ n := by
  have a3 : (m.w : R) + 1 ≤ n := by exact_mod_cast h3
  have a4 : (m.h : R) + 1 ≤ n := by exact_mod_cast h4
  have a5 : (w : R) ≤ 2 * n := by exact_mod_cast h5
  have a6 : (h : R) ≤ 2 * n := by exact_mod_cast h6
  have b3 : (0 : R) ≤ m.w := Nat.cast_nonneg _
  have b4 : (0 : R) ≤ m.h := Nat.cast_nonneg _
  unfold maskHalf
  simp only
  rw [Int.ceil_le]
  simp only [max_le_iff]
  refine ⟨⟨⟨?_, ?_⟩, ⟨?_, ?_⟩, ?_, ?_⟩, ?_, ?_⟩ <;> linarith

/-- The geometry of the FFT rendering in a mask. -/
theorem mask_geometry (px py : R) (m : ModelMask) (img : Arr R) (h1 : px ≤ m.x0 + m.w - 1) (h1' : (m.x0 : R) ≤ px)
    (h2 : py ≤ m.y0 + m.h - 1) (h2' : (m.y0 : R) ≤ py) (hh : img.h % 2 = 1) (hw : img.w % 2 = 1) :
    ∃ (k : Nat) (pad : Arr R), 0 < k ∧ fftSize ((maskHalf px py m img.h img.w : Int) : R) = 2 * k ∧
      Psf.padInImage (2 * k) (2 * k) img = .ok (pad, k - 1, k - 1) ∧ Embedded img (2 * k) pad ∧ 0 < m.h ∧ 0 < m.w ∧
      roundEven (px - ((k - 1 : Nat) : R) - m.x0) ≤ 0 ∧ roundEven (py - ((k - 1 : Nat) : R) - m.y0) ≤ 0 ∧
      -roundEven (px - ((k - 1 : Nat) : R) - m.x0) + m.w ≤ 2 * k ∧ -roundEven (py - ((k - 1 : Nat) : R) - m.y0) + m.h ≤ 2 * k ∧
      ((maskHalf px py m img.h img.w : Int) : R) ≤ k := by
  obtain ⟨g1, g2, g3, g4, g5, g6, -, -⟩ := maskHalf_ge px py m img.h img.w
  have hone : (1 : R) ≤ ((maskHalf px py m img.h img.w : Int) : R) := by linarith
  obtain ⟨k, hk, ek⟩ := fftSize_even _ hone
  have hge := fftSize_ge ((maskHalf px py m img.h img.w : Int) : R)
  rw [ek] at hge
  push_cast at hge
  have hle : ((maskHalf px py m img.h img.w : Int) : R) ≤ k := by linarith
  have b1 : img.w ≤ 2 * k := by
    have : (img.w : R) ≤ ((2 * k : Nat) : R) := by push_cast; linarith
    exact_mod_cast this
  have b2 : img.h ≤ 2 * k := by
    have : (img.h : R) ≤ ((2 * k : Nat) : R) := by push_cast; linarith
    exact_mod_cast this
  obtain ⟨pad, e, emb⟩ := pad_ok img k hk hh hw b2 b1
  have kc : ((k - 1 : Nat) : R) = (k : R) - 1 := by rw [Nat.cast_sub hk]; simp
  have p1 : 0 < m.w := by
    have : (0 : R) < m.w := by linarith
    exact_mod_cast this
  have p2 : 0 < m.h := by
    have : (0 : R) < m.h := by linarith
    exact_mod_cast this
  refine ⟨k, pad, hk, ek, e, emb, p2, p1, ?_, ?_, ?_, ?_, hle⟩
  · exact round_le _ 0 (by rw [kc]; push_cast; linarith)
  · exact round_le _ 0 (by rw [kc]; push_cast; linarith)
  · have := le_round (px - ((k - 1 : Nat) : R) - m.x0) ((m.w : Int) - 2 * k) (by rw [kc]; push_cast; linarith)
    omega
  · have := le_round (py - ((k - 1 : Nat) : R) - m.y0) ((m.h : Int) - 2 * k) (by rw [kc]; push_cast; linarith)
    omega

omit [IsStrictOrderedRing R] [FloorRing R] in
theorem not_out (px py : R) (m : ModelMask) (h1 : px ≤ m.x0 + m.w - 1) (h1' : (m.x0 : R) ≤ px)
    (h2 : py ≤ m.y0 + m.h - 1) (h2' : (m.y0 : R) ≤ py) : sourceOut px py m = false := by
  unfold sourceOut
  simp only [Bool.or_eq_false_iff, decide_eq_false_iff_not, not_lt, gt_iff_lt]
  exact ⟨⟨⟨h1', h1⟩, h2'⟩, h2⟩

/-- `maskFft`: the rendering in a mask once the parts of the profile are known, with a possible shift `q`
(all of it or nothing). -/
theorem mask_core (E : Env R) (hz : Zeros E.lz) (S : Scene R) (psf : PsfModel R) (img : Arr R) (g : Galaxy R) (a : Args R)
    (px py : R) (m : ModelMask) (h1 : px ≤ m.x0 + m.w - 1) (h1' : (m.x0 : R) ≤ px)
    (h2 : py ≤ m.y0 + m.h - 1) (h2' : (m.y0 : R) ≤ py) (hh : img.h % 2 = 1) (hw : img.w % 2 = 1)
    (n : Nat) (hn : n = fftSize ((maskHalf px py m img.h img.w : Int) : R)) (mm ff : Option (Mog.Mix R))
    (hp : parts E psf a.nsigma n px py (g.sheared px py) = .ok (mm, ff)) :
    ∃ (pad G : Arr R) (ix iy : Int),
      renderMaskFft E S psf img g a px py m =
        .ok (some ⟨m.x0, m.y0, some (addMog E (psf.mixAt px py) mm m G)⟩) ∧ G.h = m.h ∧ G.w = m.w ∧
      Embedded img n pad ∧ Psf.padInImage n n img = .ok (pad, n / 2 - 1, n / 2 - 1) ∧
      (-(1 / 2) ≤ px - ix ∧ px - ix ≤ 1 / 2) ∧ (-(1 / 2) ≤ py - iy ∧ py - iy ≤ 1 / 2) ∧
      (∀ r c : Nat, r < m.h → c < m.w →
        (0 ≤ ((n / 2 : Nat) : Int) - 1 + (m.y0 + r - iy) ∧ ((n / 2 : Nat) : Int) - 1 + (m.y0 + r - iy) < n) ∧
        (0 ≤ ((n / 2 : Nat) : Int) - 1 + (m.x0 + c - ix) ∧ ((n / 2 : Nat) : Int) - 1 + (m.x0 + c - ix) < n)) ∧
      (E.lib = true → 8 < n → n ≤ 4096 → ∀ r c : Nat, r < m.h → c < m.w → G.px r c =
        convShifted E pad ff (px - ix) (py - iy) (((n / 2 : Nat) : Int) - 1 + (m.y0 + r - iy))
          (((n / 2 : Nat) : Int) - 1 + (m.x0 + c - ix))) ∧
      ((E.lib = false ∨ n ≤ 8 ∨ 4096 < n) → ∀ r c : Nat, r < m.h → c < m.w → G.px r c =
        convShifted E pad ff 0 0 (((n / 2 : Nat) : Int) - 1 + (m.y0 + r - iy))
          (((n / 2 : Nat) : Int) - 1 + (m.x0 + c - ix))) := by
  obtain ⟨k, pad, hk, ek, e, emb, p2, p1, sx0, sy0, sx1, sy1, -⟩ := mask_geometry px py m img h1 h1' h2 h2' hh hw
  rw [ek] at hn
  subst hn
  have emb0 := emb
  obtain ⟨eh, ew, -⟩ := emb
  have kc : ((k - 1 : Nat) : R) = (k : R) - 1 := by rw [Nat.cast_sub hk]; simp
  obtain ⟨sx, esx⟩ : ∃ sx, roundEven (px - ((k - 1 : Nat) : R) - m.x0) = sx := ⟨_, rfl⟩
  obtain ⟨sy, esy⟩ : ∃ sy, roundEven (py - ((k - 1 : Nat) : R) - m.y0) = sy := ⟨_, rfl⟩
  have bx := round_bounds (px - ((k - 1 : Nat) : R) - m.x0)
  have by' := round_bounds (py - ((k - 1 : Nat) : R) - m.y0)
  rw [esx] at sx0 sx1 bx
  rw [esy] at sy0 sy1 by'
  have ekk : 2 * k / 2 = k := by omega
  have cxe : px - ((m.x0 + sx + (k - 1) : Int) : R) = px - ((k - 1 : Nat) : R) - m.x0 - sx := by rw [kc]; push_cast; ring
  have cye : py - ((m.y0 + sy + (k - 1) : Int) : R) = py - ((k - 1 : Nat) : R) - m.y0 - sy := by rw [kc]; push_cast; ring
  -- the image before it is cut
  obtain ⟨G0, eG, hG, wG, aG, bG⟩ : ∃ G0, fftImage E pad ff (px - ((k - 1 : Nat) : R) - m.x0 - sx)
      (py - ((k - 1 : Nat) : R) - m.y0 - sy) = .ok G0 ∧ G0.h = 2 * k ∧ G0.w = 2 * k ∧
      (E.lib = true → 8 < 2 * k → 2 * k ≤ 4096 → ∀ r c : Nat, r < 2 * k → c < 2 * k → G0.px r c =
        convShifted E pad ff (px - ((k - 1 : Nat) : R) - m.x0 - sx) (py - ((k - 1 : Nat) : R) - m.y0 - sy) r c) ∧
      ((E.lib = false ∨ 2 * k ≤ 8 ∨ 4096 < 2 * k) → ∀ r c : Nat, r < 2 * k → c < 2 * k → G0.px r c =
        convShifted E pad ff 0 0 r c) := by
    by_cases hc : E.lib = true ∧ 8 < 2 * k ∧ 2 * k ≤ 4096
    · obtain ⟨G0, e1, e2, e3, e4⟩ := fftImage_ok E hz hc.1 pad ff _ _ (by omega) (by omega) (by omega) (by omega) bx by'
      refine ⟨G0, e1, by omega, by omega, fun _ _ _ r c hr hc => e4 r c (by omega) (by omega), ?_⟩
      rintro (h | h | h)
      · rw [h] at hc; cases hc.1
      · omega
      · omega
    · have hc' : E.lib = false ∨ 2 * k ≤ 8 ∨ 4096 < 2 * k := by
        by_cases h : E.lib = true
        · right
          by_contra hh
          exact hc ⟨h, by omega, by omega⟩
        · left; simpa using h
      obtain ⟨G0, e1, e2, e3, e4⟩ := fftImage_unshifted E pad ff (px - ((k - 1 : Nat) : R) - m.x0 - sx)
        (py - ((k - 1 : Nat) : R) - m.y0 - sy) (by rw [eh, ew]; tauto) hz
      exact ⟨G0, e1, by omega, by omega, fun a b c => absurd ⟨a, b, c⟩ hc, fun _ r c hr hc => e4 r c (by omega) (by omega)⟩
  obtain ⟨A, eA, hA, wA, pA⟩ := place_ok G0 sx sy m.h m.w p2 p1 sx0 (by omega) sy0 (by omega)
  have hrun : renderMaskFft E S psf img g a px py m =
        .ok (some ⟨m.x0, m.y0, some (addMog E (psf.mixAt px py) mm m A)⟩) := by
    unfold renderMaskFft
    simp only [not_out px py m h1 h1' h2 h2', Bool.false_eq_true, if_false]
    rw [ek, e]
    simp only [esx, esy, ew]
    rw [hp]
    simp only
    rw [eG]
    simp only
    rw [eA]
  have idx : ∀ r : Nat, ∀ y0 s : Int, s ≤ 0 → ((2 * k / 2 : Nat) : Int) - 1 + (y0 + r - (y0 + s + (k - 1))) =
      (((r : Int) - s).toNat : Nat) := by
    intro r y0 s hs
    omega
  refine ⟨pad, A, m.x0 + sx + (k - 1), m.y0 + sy + (k - 1), hrun, hA, wA, emb0, by rw [ekk]; exact e, ?_, ?_, ?_, ?_, ?_⟩
  · rw [cxe]; exact bx
  · rw [cye]; exact by'
  · intro r c hr hc
    omega
  · intro hl h8 h9 r c hr hc
    rw [pA r c hr hc, aG hl h8 h9 _ _ (by omega) (by omega), cxe, cye, idx r _ _ sy0, idx c _ _ sx0]
  · intro hq r c hr hc
    rw [pA r c hr hc, bG hq _ _ (by omega) (by omega), idx r _ _ sy0, idx c _ _ sx0]

theorem mask_size (px py : R) (m : ModelMask) (img : Arr R) (h1 : px ≤ m.x0 + m.w - 1) (h1' : (m.x0 : R) ≤ px)
    (h2 : py ≤ m.y0 + m.h - 1) (h2' : (m.y0 : R) ≤ py) (h8 : 8 < m.w ∨ 8 < m.h ∨ 8 < img.w ∨ 8 < img.h)
    (h9 : m.w < 2048 ∧ m.h < 2048 ∧ img.w ≤ 4096 ∧ img.h ≤ 4096) :
    8 < fftSize ((maskHalf px py m img.h img.w : Int) : R) ∧ fftSize ((maskHalf px py m img.h img.w : Int) : R) ≤ 4096 := by
  obtain ⟨-, -, -, -, g5, g6, g7, g8⟩ := maskHalf_ge px py m img.h img.w
  have hge := fftSize_ge ((maskHalf px py m img.h img.w : Int) : R)
  have b8 : 8 < fftSize ((maskHalf px py m img.h img.w : Int) : R) := by
    have key : ∀ k : Nat, 8 < k → (k : R) / 2 ≤ ((maskHalf px py m img.h img.w : Int) : R) →
        8 < fftSize ((maskHalf px py m img.h img.w : Int) : R) := by
      intro k hk h
      have h3 : (k : R) ≤ (fftSize ((maskHalf px py m img.h img.w : Int) : R) : R) := by linarith
      have h4 : k ≤ fftSize ((maskHalf px py m img.h img.w : Int) : R) := by exact_mod_cast h3
      omega
    rcases h8 with h | h | h | h
    · exact key _ h g7
    · exact key _ h g8
    · exact key _ h g5
    · exact key _ h g6
  have b9 : fftSize ((maskHalf px py m img.h img.w : Int) : R) ≤ 4096 := by
    have := maskHalf_le px py m img.h img.w 2048 h1 h1' h2 h2' (by omega) (by omega) (by omega) (by omega)
    exact fftSize_int_le (R := R) _ 12 (by norm_num; omega)
  exact ⟨b8, b9⟩

end

end Verif.Gal
