import Verif.Gal.Lemmas
import Verif.Patch.Lemmas

/-! Helper lemmas for galaxies rendered without a mask. -/

namespace Verif.Gal

open Verif.Psf (Zeros)

variable {R : Type} [Field R] [LinearOrder R] [IsStrictOrderedRing R]

omit [Field R] [LinearOrder R] [IsStrictOrderedRing R] in
theorem clip_ok (G : Arr R) (ix0 iy0 x0 x1 y0 y1 : Int) (hx : max ix0 x0 ≤ x1) (hy : max iy0 y0 ≤ y1) :
    ∃ A, clipFree G ix0 iy0 x0 x1 y0 y1 = (max ix0 x0, max iy0 y0, A) ∧
      A.w = min (G.w - (max ix0 x0 - ix0).toNat) (x1 - max ix0 x0).toNat ∧
      A.h = min (G.h - (max iy0 y0 - iy0).toNat) (y1 - max iy0 y0).toNat ∧
      ∀ r c : Nat, r < A.h → c < A.w → A.px r c = G.px ((max iy0 y0 - iy0).toNat + r) ((max ix0 x0 - ix0).toNat + c) := by
  -- the first two steps
  obtain ⟨B, eB, wB, hB, pB⟩ : ∃ B : Arr R, (let (G, ix0) := if x0 > ix0 then (G.slice none none (some (x0 - ix0)) none, x0) else (G, ix0)
      let (G, iy0) := if y0 > iy0 then (G.slice (some (y0 - iy0)) none none none, y0) else (G, iy0)
      (ix0, iy0, G)) = (max ix0 x0, max iy0 y0, B) ∧ B.w = G.w - (max ix0 x0 - ix0).toNat ∧
      B.h = G.h - (max iy0 y0 - iy0).toNat ∧ ∀ r c : Nat, r < B.h → c < B.w →
        B.px r c = G.px ((max iy0 y0 - iy0).toNat + r) ((max ix0 x0 - ix0).toNat + c) := by
    by_cases h1 : x0 > ix0 <;> by_cases h2 : y0 > iy0
    · simp only [if_pos h1, if_pos h2, Patches.slice_left G _ (show 0 ≤ x0 - ix0 by omega),
        Patches.slice_top _ _ (show 0 ≤ y0 - iy0 by omega)]
      rw [max_eq_right (show ix0 ≤ x0 by omega), max_eq_right (show iy0 ≤ y0 by omega)]
      refine ⟨_, rfl, rfl, rfl, fun r c hr hc => ?_⟩
      simp only at hr hc ⊢
      congr 1 <;> omega
    · simp only [if_pos h1, if_neg h2, Patches.slice_left G _ (show 0 ≤ x0 - ix0 by omega)]
      rw [max_eq_right (show ix0 ≤ x0 by omega), max_eq_left (show y0 ≤ iy0 by omega)]
      refine ⟨_, rfl, rfl, by simp, fun r c hr hc => ?_⟩
      simp only at hr hc ⊢
      congr 1 <;> omega
    · simp only [if_neg h1, if_pos h2, Patches.slice_top G _ (show 0 ≤ y0 - iy0 by omega)]
      rw [max_eq_left (show x0 ≤ ix0 by omega), max_eq_right (show iy0 ≤ y0 by omega)]
      refine ⟨_, rfl, by simp, rfl, fun r c hr hc => ?_⟩
      simp only at hr hc ⊢
      congr 1 <;> omega
    · simp only [if_neg h1, if_neg h2]
      rw [max_eq_left (show x0 ≤ ix0 by omega), max_eq_left (show y0 ≤ iy0 by omega)]
      exact ⟨_, rfl, by simp, by simp, fun r c hr hc => by congr 1 <;> omega⟩
  have e : clipFree G ix0 iy0 x0 x1 y0 y1 = (max ix0 x0, max iy0 y0,
      (let A := if B.w + max ix0 x0 > x1 then B.slice none none none (some (x1 - max ix0 x0)) else B
       if B.h + max iy0 y0 > y1 then A.slice none (some (y1 - max iy0 y0)) none none else A)) := by
    unfold clipFree
    simp only [Prod.mk.injEq] at eB ⊢
    obtain ⟨e1, e2, e3⟩ := eB
    rw [e1, e2, e3]
    exact ⟨rfl, rfl, rfl⟩
  rw [e]
  refine ⟨_, rfl, ?_⟩
  simp only
  by_cases h1 : (B.w : Int) + max ix0 x0 > x1 <;> by_cases h2 : (B.h : Int) + max iy0 y0 > y1
  · simp only [if_pos h1, if_pos h2, Arr.slice, Patches.axis_full, Patches.axis_to _ _ (show 0 ≤ x1 - max ix0 x0 by omega),
      Patches.axis_to _ _ (show 0 ≤ y1 - max iy0 y0 by omega), Nat.zero_add]
    exact ⟨by omega, by omega, fun r c hr hc => pB r c (by omega) (by omega)⟩
  · simp only [if_pos h1, if_neg h2, Arr.slice, Patches.axis_full, Patches.axis_to _ _ (show 0 ≤ x1 - max ix0 x0 by omega),
      Nat.zero_add]
    exact ⟨by omega, by omega, fun r c hr hc => pB r c (by omega) (by omega)⟩
  · simp only [if_neg h1, if_pos h2, Arr.slice, Patches.axis_full, Patches.axis_to _ _ (show 0 ≤ y1 - max iy0 y0 by omega),
      Nat.zero_add]
    exact ⟨by omega, by omega, fun r c hr hc => pB r c (by omega) (by omega)⟩
  · simp only [if_neg h1, if_neg h2]
    exact ⟨by omega, by omega, fun r c hr hc => pB r c (by omega) (by omega)⟩

variable [FloorRing R]

omit [IsStrictOrderedRing R] in
/-- The region rendered. -/
theorem freeBox_some (S : Scene R) (px py h : R) (x0 x1 y0 y1 : Int) (e : freeBox S px py h = some (x0, x1, y0, y1)) :
    x0 = max ⌊px - h⌋ 0 ∧ x1 = min ⌈px + h + 1⌉ ((S.W : Int) - 1) + 1 ∧ y0 = max ⌊py - h⌋ 0 ∧
      y1 = min ⌈py + h + 1⌉ ((S.H : Int) - 1) + 1 ∧ x0 < x1 ∧ y0 < y1 := by
  unfold freeBox at e
  have sx := (Patches.overlap_spec ⌊px - h⌋ ⌈px + h + 1⌉ 0 ((S.W : Int) - 1)).2
  have sy := (Patches.overlap_spec ⌊py - h⌋ ⌈py + h + 1⌉ 0 ((S.H : Int) - 1)).2
  cases ex : overlapRegion ⌊px - h⌋ ⌈px + h + 1⌉ 0 ((S.W : Int) - 1) with
  | none => rw [ex] at e; cases e
  | some rx =>
    cases ey : overlapRegion ⌊py - h⌋ ⌈py + h + 1⌉ 0 ((S.H : Int) - 1) with
    | none => rw [ex, ey] at e; cases e
    | some ry =>
      rw [ex, ey] at e
      obtain ⟨rfl, -⟩ := sx rx ex
      obtain ⟨rfl, -⟩ := sy ry ey
      have := sx _ ex
      have := sy _ ey
      simp only [Option.some.injEq, Prod.mk.injEq] at e
      omega

theorem freeBox_none (S : Scene R) (px py h : R) (e : freeBox S px py h = none) (x y : Int) (hx : 0 ≤ x)
    (hx' : x < S.W) (hy : 0 ≤ y) (hy' : y < S.H) : ¬ (px - h ≤ x ∧ (x : R) ≤ px + h ∧ py - h ≤ y ∧ (y : R) ≤ py + h) := by
  rintro ⟨a, b, c, d⟩
  have fa : ⌊px - h⌋ ≤ x := by
    have : (⌊px - h⌋ : R) ≤ x := le_trans (Int.floor_le _) a
    exact_mod_cast this
  have fc : ⌊py - h⌋ ≤ y := by
    have : (⌊py - h⌋ : R) ≤ y := le_trans (Int.floor_le _) c
    exact_mod_cast this
  have fb : x ≤ ⌈px + h + 1⌉ := by
    have : (x : R) ≤ ⌈px + h + 1⌉ := le_trans (by linarith) (Int.le_ceil _)
    exact_mod_cast this
  have fd : y ≤ ⌈py + h + 1⌉ := by
    have : (y : R) ≤ ⌈py + h + 1⌉ := le_trans (by linarith) (Int.le_ceil _)
    exact_mod_cast this
  unfold freeBox at e
  rw [Psf.overlap_some _ _ _ (by omega) (by omega) (by omega) (by omega),
    Psf.overlap_some _ _ _ (by omega) (by omega) (by omega) (by omega)] at e
  cases e

/-- One axis: where the rendering begins and ends. -/
theorem free_axis (px h : R) (k : Nat) (W : Nat) (hk : 0 < k) (hh : h ≤ k) (hb : px ≤ W + h - 1)
    (x0 x1 : Int) (e0 : x0 = max ⌊px - h⌋ 0) (e1 : x1 = min ⌈px + h + 1⌉ ((W : Int) - 1) + 1) (hlt : x0 < x1)
    (h0 : 0 ≤ h) (i : Int) (hi : i = roundEven (px - ((k - 1 : Nat) : R))) :
    max i x0 ≤ x1 ∧ ∀ x : Int, 0 ≤ x → x < W → px - h + 1 ≤ x → (x : R) ≤ px + h - 1 →
      max i x0 ≤ x ∧ x < max i x0 + min (2 * k - (max i x0 - i).toNat : Nat) (x1 - max i x0).toNat := by
  have kc : ((k - 1 : Nat) : R) = (k : R) - 1 := by rw [Nat.cast_sub hk]; simp
  have i1 : i ≤ W := by
    rw [hi]
    exact round_le _ _ (by rw [kc]; push_cast; linarith)
  have i2 : i ≤ ⌈px + h + 1⌉ + 1 := by
    rw [hi]
    refine round_le _ _ ?_
    have := Int.le_ceil (px + h + 1)
    have hk0 : (1 : R) ≤ k := by exact_mod_cast hk
    rw [kc]; push_cast; linarith
  refine ⟨by omega, ?_⟩
  intro x hx hx' ha hb'
  have fa : ⌊px - h⌋ ≤ x := by
    have : (⌊px - h⌋ : R) ≤ x := le_trans (Int.floor_le _) (by linarith)
    exact_mod_cast this
  have fb : x ≤ ⌈px + h + 1⌉ := by
    have : (x : R) ≤ ⌈px + h + 1⌉ := le_trans (by linarith) (Int.le_ceil _)
    exact_mod_cast this
  have i3 : i ≤ x := by
    rw [hi]
    exact round_le _ _ (by rw [kc]; linarith)
  have i4 : x - (2 * k - 1) ≤ i := by
    rw [hi]
    refine le_round _ _ ?_
    rw [kc]; push_cast; linarith
  omega

theorem free_index (s x0 x1 j : Int) (k w c : Nat) (hj : j = max s x0) (hw : w = min (2 * k - (j - s).toNat) (x1 - j).toNat)
    (hc : c < w) : (0 ≤ ((2 * k / 2 : Nat) : Int) - 1 + (j + c - (s + (k - 1))) ∧
      ((2 * k / 2 : Nat) : Int) - 1 + (j + c - (s + (k - 1))) < (2 * k : Nat)) ∧ (j - s).toNat + c < 2 * k ∧
      (((j - s).toNat + c : Nat) : Int) = ((2 * k / 2 : Nat) : Int) - 1 + (j + c - (s + (k - 1))) := by
  omega

theorem fftSize_le_4096 (h : R) (h4 : h ≤ 2048) : fftSize h ≤ 4096 := by
  have e12 : (4096 : Nat) = 2 ^ 12 := by norm_num
  rw [e12]
  unfold fftSize
  refine Nat.pow_le_pow_right (by norm_num) (Nat.clog_le_of_le_pow ?_)
  have : ⌈2 * h⌉ ≤ 4096 := by rw [Int.ceil_le]; push_cast; linarith
  omega

/-- The rendering without a mask once the parts of the profile are known. -/
theorem free_core (E : Env R) (hz : Zeros E.lz) (hl : E.lib = true) (S : Scene R) (psf : PsfModel R) (img : Arr R) (g : Galaxy R)
    (a : Args R) (px py h : R) (hg : g.patchSize px py = h) (h4 : 4 < h) (h4' : h ≤ 2048) (hh : img.h % 2 = 1)
    (hw : img.w % 2 = 1) (hh' : (img.h : R) ≤ 2 * h) (hw' : (img.w : R) ≤ 2 * h)
    (hb : px ≤ S.W + h - 1) (hb' : py ≤ S.H + h - 1) (x0 x1 y0 y1 : Int) (e : freeBox S px py h = some (x0, x1, y0, y1))
    (n : Nat) (hn : n = fftSize h) (mm ff : Option (Mog.Mix R))
    (hp : parts E psf a.nsigma n px py (g.sheared px py) = .ok (mm, ff)) :
    ∃ (pad G : Arr R) (ix iy jx jy : Int),
      renderFreeFft E psf img g a px py x0 x1 y0 y1 =
        .ok (some ⟨jx, jy, some (addMog E (psf.mixAt px py) mm ⟨jx, jy, G.h, G.w, none⟩ G)⟩) ∧
      Embedded img n pad ∧ (-(1 / 2) ≤ px - ix ∧ px - ix ≤ 1 / 2) ∧ (-(1 / 2) ≤ py - iy ∧ py - iy ≤ 1 / 2) ∧
      0 ≤ jx ∧ 0 ≤ jy ∧ jx + G.w ≤ S.W ∧ jy + G.h ≤ S.H ∧
      (∀ x y : Int, 0 ≤ x → x < S.W → 0 ≤ y → y < S.H → px - h + 1 ≤ x → (x : R) ≤ px + h - 1 → py - h + 1 ≤ y →
        (y : R) ≤ py + h - 1 → jx ≤ x ∧ x < jx + G.w ∧ jy ≤ y ∧ y < jy + G.h) ∧
      (∀ r c : Nat, r < G.h → c < G.w →
        (0 ≤ ((n / 2 : Nat) : Int) - 1 + (jy + r - iy) ∧ ((n / 2 : Nat) : Int) - 1 + (jy + r - iy) < n) ∧
        (0 ≤ ((n / 2 : Nat) : Int) - 1 + (jx + c - ix) ∧ ((n / 2 : Nat) : Int) - 1 + (jx + c - ix) < n) ∧
        G.px r c = convShifted E pad ff (px - ix) (py - iy) (((n / 2 : Nat) : Int) - 1 + (jy + r - iy))
          (((n / 2 : Nat) : Int) - 1 + (jx + c - ix))) := by
  obtain ⟨k, hk, ek⟩ := fftSize_even h (by linarith)
  have hge := fftSize_ge h
  have hle := fftSize_le_4096 h h4'
  rw [ek] at hn hge hle
  push_cast at hge
  subst hn
  have hhk : h ≤ k := by linarith
  have k4 : 4 < k := by
    have : (4 : R) < k := by linarith
    exact_mod_cast this
  have b1 : img.w ≤ 2 * k := by
    have : (img.w : R) ≤ ((2 * k : Nat) : R) := by push_cast; linarith
    exact_mod_cast this
  have b2 : img.h ≤ 2 * k := by
    have : (img.h : R) ≤ ((2 * k : Nat) : R) := by push_cast; linarith
    exact_mod_cast this
  obtain ⟨pad, epad, emb⟩ := pad_ok img k hk hh hw b2 b1
  have emb0 := emb
  obtain ⟨eh, ew, -⟩ := emb
  have kc : ((k - 1 : Nat) : R) = (k : R) - 1 := by rw [Nat.cast_sub hk]; simp
  obtain ⟨sx, esx⟩ : ∃ sx, roundEven (px - ((k - 1 : Nat) : R)) = sx := ⟨_, rfl⟩
  obtain ⟨sy, esy⟩ : ∃ sy, roundEven (py - ((k - 1 : Nat) : R)) = sy := ⟨_, rfl⟩
  have bx := round_bounds (px - ((k - 1 : Nat) : R))
  have by' := round_bounds (py - ((k - 1 : Nat) : R))
  rw [esx] at bx
  rw [esy] at by'
  obtain ⟨f1, f2, f3, f4, f5, f6⟩ := freeBox_some S px py h x0 x1 y0 y1 e
  obtain ⟨ax, ax'⟩ := free_axis px h k S.W hk hhk hb x0 x1 f1 f2 f5 (by linarith) sx esx.symm
  obtain ⟨ay, ay'⟩ := free_axis py h k S.H hk hhk hb' y0 y1 f3 f4 f6 (by linarith) sy esy.symm
  obtain ⟨G0, eG, hG, wG, pG⟩ := fftImage_ok E hz hl pad ff _ _ (by omega) (by omega) (by omega) (by omega) bx by'
  obtain ⟨A, eA, wA, hA, pA⟩ := clip_ok G0 sx sy x0 x1 y0 y1 ax ay
  have hrun : renderFreeFft E psf img g a px py x0 x1 y0 y1 =
        .ok (some ⟨max sx x0, max sy y0, some (addMog E (psf.mixAt px py) mm ⟨max sx x0, max sy y0, A.h, A.w, none⟩ A)⟩) := by
    unfold renderFreeFft
    simp only [hg]
    rw [ek, epad]
    simp only [esx, esy, ew]
    rw [hp]
    simp only
    rw [eG]
    simp only
    rw [eA]
  have cxe : px - ((sx + (k - 1) : Int) : R) = px - ((k - 1 : Nat) : R) - sx := by rw [kc]; push_cast; ring
  have cye : py - ((sy + (k - 1) : Int) : R) = py - ((k - 1 : Nat) : R) - sy := by rw [kc]; push_cast; ring
  rw [hG, eh] at hA
  rw [wG, ew] at wA
  obtain ⟨jx, ejx⟩ : ∃ jx, jx = max sx x0 := ⟨_, rfl⟩
  obtain ⟨jy, ejy⟩ : ∃ jy, jy = max sy y0 := ⟨_, rfl⟩
  rw [← ejx] at hrun wA ax ax' pA
  rw [← ejy] at hrun hA ay ay' pA
  have jx0 : 0 ≤ jx := by clear * - f1 ejx; omega
  have jy0 : 0 ≤ jy := by clear * - f3 ejy; omega
  have jx1 : jx + A.w ≤ S.W := by clear * - f2 ax wA; omega
  have jy1 : jy + A.h ≤ S.H := by clear * - f4 ay hA; omega
  refine ⟨pad, A, sx + (k - 1), sy + (k - 1), jx, jy, hrun, emb0, ?_, ?_, jx0, jy0, jx1, jy1, ?_, ?_⟩
  · rw [cxe]; exact bx
  · rw [cye]; exact by'
  · intro x y hx hx' hy hy' p1 p2 p3 p4
    have q1 := ax' x hx hx' p1 p2
    have q2 := ay' y hy hy' p3 p4
    rw [wA, hA]
    push_cast at q1 q2 ⊢
    exact ⟨q1.1, q1.2, q2.1, q2.2⟩
  · intro r c hr hc
    obtain ⟨i1, i2, i3⟩ := free_index sx x0 x1 jx k A.w c ejx wA hc
    obtain ⟨i4, i5, i6⟩ := free_index sy y0 y1 jy k A.h r ejy hA hr
    refine ⟨i4, i1, ?_⟩
    rw [pA r c hr hc, pG _ _ (by rw [eh]; exact i5) (by rw [ew]; exact i2), cxe, cye, i3, i6]

end Verif.Gal
