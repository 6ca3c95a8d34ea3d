import Verif.Tile.Spec
import Verif.Patch.Lemmas
import Mathlib.Tactic.Linarith
import Mathlib.Tactic.Ring
import Mathlib.Tactic.Positivity

namespace Verif.Tile

open Verif Verif.Patches Verif.Coords

variable {R B : Type}

theorem at_shift [Zero R] (a b : Int) (A : Option (Arr R)) (x y : Int) (x0 y0 : Int) :
    Patch.at (⟨a - x0, b - y0, A⟩ : Patch R) x y = Patch.at (⟨a, b, A⟩ : Patch R) (x + x0) (y + y0) := by
  cases A with
  | none => rfl
  | some A =>
    simp only [Patch.at]
    by_cases h : a ≤ x + x0 ∧ x + x0 < a + A.w ∧ b ≤ y + y0 ∧ y + y0 < b + A.h
    · rw [if_pos h, if_pos (by omega)]
      congr 2 <;> omega
    · rw [if_neg h, if_neg (by omega)]

theorem at_out [Zero R] (p : Patch R) (A : Arr R) (hp : p.patch = some A) (x y : Int)
    (h : x < p.x0 ∨ p.x0 + A.w ≤ x ∨ y < p.y0 ∨ p.y0 + A.h ≤ y) : p.at x y = 0 := by
  simp only [Patch.at, hp]
  rw [if_neg (by omega)]

section
variable [Field R] [LinearOrder R] [IsStrictOrderedRing R] [FloorRing R]

theorem round_le (x : R) : (pyRound x : R) ≤ x + 1 / 2 := by
  have h1 := Int.floor_le x
  have h2 := Int.lt_floor_add_one x
  unfold pyRound
  split
  · linarith
  · split
    · push_cast; linarith
    · split
      · linarith
      · push_cast; linarith

theorem le_round (x : R) : x - 1 / 2 ≤ (pyRound x : R) := by
  have h1 := Int.floor_le x
  have h2 := Int.lt_floor_add_one x
  unfold pyRound
  split
  · linarith
  · split
    · push_cast; linarith
    · split
      · linarith
      · push_cast; linarith

theorem round_shift (x : R) (n : Nat) (h : Int.fract x ≠ 1 / 2 ∨ 2 ∣ n) :
    pyRound (x - (n : R)) = pyRound x - n := by
  have hf : ⌊x - (n : R)⌋ = ⌊x⌋ - (n : Int) := Int.floor_sub_natCast x n
  have e : x - (n : R) - ((⌊x⌋ - (n : Int) : Int) : R) = x - (⌊x⌋ : R) := by push_cast; ring
  unfold pyRound
  rw [hf, e]
  split
  · rfl
  · rename_i h1
    split
    · omega
    · rename_i h2
      have hh : x - (⌊x⌋ : R) = 1 / 2 := le_antisymm (not_lt.1 h2) (not_lt.1 h1)
      rcases h with h | h
      · exact absurd hh h
      · have : (⌊x⌋ - (n : Int)) % 2 = ⌊x⌋ % 2 := by omega
        rw [this]
        split <;> omega

omit [Field R] [IsStrictOrderedRing R] [FloorRing R] [LinearOrder R] in
theorem cut_size (img : Arr R) (rad : Nat) :
    (Psf.cut img (some rad)).w ≤ 2 * rad + 1 ∧ (Psf.cut img (some rad)).h ≤ 2 * rad + 1 := by
  simp only [Psf.cut, Arr.slice, Arr.axis, Arr.bound, Option.map_some, Option.getD_some]
  constructor <;> (split <;> split <;> omega)

omit [IsStrictOrderedRing R] in
/-- What a stamp gives. -/
theorem stamp_eq (kern : R → Nat → R) (img : Arr R) (px py : R) (radius : Option R) :
    stampPatch kern img px py radius = .ok (some
      ⟨pyRound px - ((Psf.cut img (radius.map (fun r => ⌈r⌉.toNat))).w / 2 : Nat),
       pyRound py - ((Psf.cut img (radius.map (fun r => ⌈r⌉.toNat))).h / 2 : Nat),
       some (Psf.lanczosShift kern (Psf.cut img (radius.map (fun r => ⌈r⌉.toNat)))
         (px - (pyRound px : Int)) (py - (pyRound py : Int)))⟩) := rfl

theorem stamp_shift (kern : R → Nat → R) (img : Arr R) (px py : R) (radius : Option R) (x0 y0 : Nat)
    (hx : Int.fract px ≠ 1 / 2 ∨ 2 ∣ x0) (hy : Int.fract py ≠ 1 / 2 ∨ 2 ∣ y0) :
    ∃ p q, stampPatch kern img px py radius = .ok (some p) ∧
      stampPatch kern img (px - (x0 : R)) (py - (y0 : R)) radius = .ok (some q) ∧
      ∀ x y : Int, q.at x y = p.at (x + x0) (y + y0) := by
  refine ⟨_, _, stamp_eq kern img px py radius, stamp_eq kern img _ _ radius, fun x y => ?_⟩
  have ex : px - (x0 : R) - ((pyRound px - (x0 : Int) : Int) : R) = px - (pyRound px : Int) := by
    push_cast; ring
  have ey : py - (y0 : R) - ((pyRound py - (y0 : Int) : Int) : R) = py - (pyRound py : Int) := by
    push_cast; ring
  rw [round_shift px x0 hx, round_shift py y0 hy, ex, ey, ← at_shift _ _ _ _ _ (x0 : Int) (y0 : Int)]
  congr 2 <;> omega

/-- One axis: a stamp too far away does not reach the tile. -/
theorem stamp_far (psfr : R) (fixed : Option R) (W : Nat) (hW : (W : R) ≤ 2 * psfr) (w : Nat) (q : R)
    (hw : (fixed = none → w = W) ∧ ∀ r ∈ fixed, w ≤ 2 * ⌈r⌉.toNat + 1) (n : Nat) (x : Int)
    (hx : 0 ≤ x ∧ x < n)
    (hr : ∀ r ∈ fixed, 0 ≤ r ∧ (0 ≤ q + r ∨ q + r ≤ -(3 / 2)) ∧ (q - r ≤ (n : R) ∨ (n : R) + 1 / 2 ≤ q - r))
    (hf : q + fixed.getD psfr < 0 ∨ q - fixed.getD psfr > (n : R)) :
    x < pyRound q - (w / 2 : Nat) ∨ pyRound q - (w / 2 : Nat) + (w : Int) ≤ x := by
  have r1 := round_le q
  have r2 := le_round q
  cases fixed with
  | none =>
    obtain rfl : w = W := hw.1 rfl
    simp only [Option.getD_none] at hf
    rcases hf with hf | hf
    · right
      have : (2 * pyRound q + w : Int) < 1 := by
        have : ((2 * pyRound q + w : Int) : R) < ((1 : Int) : R) := by push_cast; linarith
        exact_mod_cast this
      omega
    · left
      have : (2 * n - 1 : Int) < 2 * pyRound q - w + 0 := by
        have : ((2 * n - 1 : Int) : R) < ((2 * pyRound q - w + 0 : Int) : R) := by
          push_cast
          have := hf
          linarith
        exact_mod_cast this
      omega
  | some r =>
    obtain ⟨h0, h1, h2⟩ := hr r rfl
    simp only [Option.getD_some] at hf
    have hw2 := hw.2 r rfl
    have hc : (⌈r⌉ : R) < r + 1 := Int.ceil_lt_add_one r
    have hc0 : 0 ≤ ⌈r⌉ := Int.ceil_nonneg h0
    obtain ⟨k, hk⟩ := Int.eq_ofNat_of_zero_le hc0
    rw [hk] at hc hw2
    simp only [Int.toNat_natCast] at hw2
    rcases hf with hf | hf
    · right
      have h1 : q + r ≤ -(3 / 2) := h1.resolve_left (not_le.2 hf)
      have : (pyRound q + k : Int) < 0 := by
        have : ((pyRound q + k : Int) : R) < ((0 : Int) : R) := by push_cast at hc ⊢; linarith
        exact_mod_cast this
      omega
    · left
      have h2 : (n : R) + 1 / 2 ≤ q - r := h2.resolve_left (not_le.2 hf)
      have : (n : Int) - 1 < pyRound q - k := by
        have : (((n : Int) - 1 : Int) : R) < ((pyRound q - k : Int) : R) := by push_cast at hc ⊢; linarith
        exact_mod_cast this
      omega

omit [IsStrictOrderedRing R] [FloorRing R] in
theorem box_at (m : Mog R) (px py : R) (x0 x1 y0 y1 x y : Int) :
    valueAt (mogBox m px py 0 none x0 x1 y0 y1) x y =
      if x0 ≤ x ∧ x < x1 ∧ y0 ≤ y ∧ y < y1 then m.val ((x : R) - px) ((y : R) - py) else 0 := by
  unfold mogBox
  by_cases h1 : x0 ≥ x1 ∨ y0 ≥ y1
  · rw [if_pos h1, if_neg (by omega)]; rfl
  · rw [if_neg h1, if_neg (by simp)]
    simp only [valueAt, Patch.at]
    by_cases g : x0 ≤ x ∧ x < x1 ∧ y0 ≤ y ∧ y < y1
    · rw [if_pos g, if_pos (by omega)]
      congr 2
      · congr 1; omega
      · congr 1; omega
    · rw [if_neg g, if_neg (by omega)]

omit [IsStrictOrderedRing R] in
/-- What a mixture gives at a pixel of the image. -/
theorem mog_at (m : Mog R) (pr px py : R) (fixed : Option R) (w h : Int) (x y : Int)
    (hx : 0 ≤ x ∧ x < w) (hy : 0 ≤ y ∧ y < h) :
    valueAt (mogPatch m pr px py 0 fixed none (some (0, w, 0, h))) x y =
      if ⌊px - fixed.getD pr⌋ ≤ x ∧ x ≤ ⌈px + fixed.getD pr⌉ ∧
          ⌊py - fixed.getD pr⌋ ≤ y ∧ y ≤ ⌈py + fixed.getD pr⌉ then m.val ((x : R) - px) ((y : R) - py) else 0 := by
  refine (box_at m px py _ _ _ _ x y).trans ?_
  refine if_congr ?_ rfl rfl
  rw [max_le_iff, max_le_iff, lt_min_iff, lt_min_iff]
  omega

omit [LinearOrder R] [IsStrictOrderedRing R] [FloorRing R] in
theorem psfex_shift (m : Psf.PsfEx R) (px py a b : R) :
    psfExImage (Psf.shiftedPsfEx m a b) (px - a) (py - b) = psfExImage m px py := by
  have e : Psf.polynomials (Psf.shiftedPsfEx m a b) (px - a) (py - b) = Psf.polynomials m px py := by
    simp only [Psf.polynomials, Psf.shiftedPsfEx, sub_sub_sub_cancel_right]
  unfold psfExImage
  rw [e]
  rfl

omit [LinearOrder R] [IsStrictOrderedRing R] [FloorRing R] in
theorem psfex_size (m : Psf.PsfEx R) (px py : R) (img : Arr R) (h : psfExImage m px py = .ok img) :
    ∃ b, m.bases.head? = some b ∧ img.w = b.w ∧ img.h = b.h := by
  unfold psfExImage at h
  split at h
  · cases h
  · rename_i b l hb
    refine ⟨b, by rw [hb]; rfl, ?_⟩
    cases hp : Psf.polynomials m px py with
    | error e => rw [hp] at h; cases h
    | ok t => rw [hp] at h; cases h; exact ⟨rfl, rfl⟩

omit [FloorRing R] in
theorem half_diag (r w h : R) (hr : 0 ≤ r) (hd : w ^ 2 + h ^ 2 ≤ (2 * r) ^ 2) : w ≤ 2 * r ∧ h ≤ 2 * r :=
  ⟨le_of_sq_le_sq (by nlinarith [sq_nonneg h]) (by linarith),
    le_of_sq_le_sq (by nlinarith [sq_nonneg w]) (by linarith)⟩

/-- A stamp that is given up does not reach the tile. -/
theorem stamp_given_up (kern : R → Nat → R) (img : Arr R) (pr : R) (hr : 0 ≤ pr)
    (hd : (img.w : R) ^ 2 + (img.h : R) ^ 2 ≤ (2 * pr) ^ 2) (qx qy : R) (fixed : Option R) (w h : Nat)
    (hx : ∀ r ∈ fixed, 0 ≤ r ∧ (0 ≤ qx + r ∨ qx + r ≤ -(3 / 2)) ∧ (qx - r ≤ (w : R) ∨ (w : R) + 1 / 2 ≤ qx - r))
    (hy : ∀ r ∈ fixed, 0 ≤ r ∧ (0 ≤ qy + r ∨ qy + r ≤ -(3 / 2)) ∧ (qy - r ≤ (h : R) ∨ (h : R) + 1 / 2 ≤ qy - r))
    (hf : qx + fixed.getD pr < 0 ∨ qx - fixed.getD pr > (w : R) ∨ qy + fixed.getD pr < 0 ∨
      qy - fixed.getD pr > (h : R)) (q : Patch R) (hq : stampPatch kern img qx qy fixed = .ok (some q))
    (x y : Int) (bx : 0 ≤ x ∧ x < w) (bY : 0 ≤ y ∧ y < h) : q.at x y = 0 := by
  obtain ⟨d1, d2⟩ := half_diag pr _ _ hr hd
  rw [stamp_eq] at hq
  cases hq
  refine at_out _ _ rfl x y ?_
  have hw : (fixed = none → (Psf.cut img (fixed.map (fun r => ⌈r⌉.toNat))).w = img.w) ∧
      ∀ r ∈ fixed, (Psf.cut img (fixed.map (fun r => ⌈r⌉.toNat))).w ≤ 2 * ⌈r⌉.toNat + 1 := by
    refine ⟨fun e => by subst e; rfl, fun r e => ?_⟩
    cases e
    exact (cut_size img _).1
  have hh : (fixed = none → (Psf.cut img (fixed.map (fun r => ⌈r⌉.toNat))).h = img.h) ∧
      ∀ r ∈ fixed, (Psf.cut img (fixed.map (fun r => ⌈r⌉.toNat))).h ≤ 2 * ⌈r⌉.toNat + 1 := by
    refine ⟨fun e => by subst e; rfl, fun r e => ?_⟩
    cases e
    exact (cut_size img _).2
  have hf : (qx + fixed.getD pr < 0 ∨ qx - fixed.getD pr > (w : R)) ∨
      (qy + fixed.getD pr < 0 ∨ qy - fixed.getD pr > (h : R)) := by tauto
  rcases hf with hf | hf
  · have := stamp_far pr fixed img.w d1 _ qx hw w x bx hx hf
    simp only [Psf.lanczosShift, Psf.corrY, Psf.corrX]
    omega
  · have := stamp_far pr fixed img.h d2 _ qy hh h y bY hy hf
    simp only [Psf.lanczosShift, Psf.corrY, Psf.corrX]
    omega

end

end Verif.Tile
