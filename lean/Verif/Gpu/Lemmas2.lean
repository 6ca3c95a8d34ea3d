import Verif.Gpu.Lemmas
import Mathlib.Tactic.Ring

namespace Verif.Gpu

open Verif Verif.Psf

variable {R : Type} [Field R]

/-! ### The filters -/

theorem axis_to (n : Nat) (k : Nat) (h : k ≤ n) : Arr.axis n none (some (k : Int)) = (0, k) := by
  simp only [Arr.axis, Arr.bound, Option.map_some, Option.map_none, Option.getD_some, Option.getD_none, Prod.mk.injEq,
    true_and]
  rw [if_neg (by omega)]
  omega

theorem axis_from_end (n : Nat) (k : Nat) (h : k ≤ n) (h0 : 0 < k) : Arr.axis n (some (-(k : Int))) none = (n - k, k) := by
  simp only [Arr.axis, Arr.bound, Option.map_some, Option.map_none, Option.getD_some, Option.getD_none, Prod.mk.injEq]
  rw [if_pos (by omega)]
  constructor <;> omega

theorem axis_upto_end (n : Nat) (h : 6 ≤ n) : Arr.axis n none (some (-6)) = (0, n - 6) := by
  simp only [Arr.axis, Arr.bound, Option.map_some, Option.map_none, Option.getD_some, Option.getD_none, Prod.mk.injEq]
  rw [if_pos (by omega)]
  refine ⟨trivial, ?_⟩
  omega

theorem axis_from (n : Nat) (h : 6 ≤ n) : Arr.axis n (some 6) none = (6, n - 6) := by
  simp only [Arr.axis, Arr.bound, Option.map_some, Option.map_none, Option.getD_some, Option.getD_none, Prod.mk.injEq]
  rw [if_neg (by omega)]
  constructor <;> simp <;> omega

theorem axis_both (n : Nat) (k : Nat) (h : 6 ≤ n) (hk : 0 < k) (hk' : k < 6) :
    Arr.axis n (some (k : Int)) (some (-((6 - k : Nat) : Int))) = (k, n - 6) := by
  simp only [Arr.axis, Arr.bound, Option.map_some, Option.getD_some, Prod.mk.injEq]
  rw [if_neg (by omega), if_pos (by omega)]
  constructor <;> omega

/-- What the filter computes away from the edges. -/
def midVal (f : Nat → R) (g : Nat → R) (c : Nat) : R :=
  g (c - 3) * f 0 + g (c - 2) * f 1 + g (c - 1) * f 2 + g c * f 3 + g (c + 1) * f 4 + g (c + 2) * f 5 + g (c + 3) * f 6

/-- What the filter computes: the sum over the neighbours, zeros beyond the edges. -/
def tapVal (f : Nat → R) (g : Nat → R) (n c : Nat) : R :=
  ((List.range 7).map (fun i : Nat => f i * (if 3 ≤ c + i ∧ c + i < n + 3 then g (c + i - 3) else 0))).sum

theorem tap_mid (f g : Nat → R) (n c : Nat) (h : 3 ≤ c ∧ c < n - 3) : midVal f g c = tapVal f g n c := by
  unfold midVal tapVal
  obtain ⟨c, rfl⟩ := Nat.exists_eq_add_of_le h.1
  rw [show List.range 7 = [0, 1, 2, 3, 4, 5, 6] from rfl]
  simp only [List.map_cons, List.map_nil, List.sum_cons, List.sum_nil]
  rw [if_pos (by omega), if_pos (by omega), if_pos (by omega), if_pos (by omega), if_pos (by omega), if_pos (by omega),
    if_pos (by omega)]
  rw [show 3 + c - 3 = c by omega, show 3 + c - 2 = c + 1 by omega, show 3 + c - 1 = c + 2 by omega,
    show 3 + c + 0 - 3 = c by omega, show 3 + c + 1 - 3 = c + 1 by omega, show 3 + c + 2 - 3 = c + 2 by omega,
    show 3 + c + 3 - 3 = c + 3 by omega, show 3 + c + 4 - 3 = c + 4 by omega, show 3 + c + 5 - 3 = c + 5 by omega,
    show 3 + c + 6 - 3 = c + 6 by omega, show 3 + c = c + 3 by omega, show c + 3 + 1 = c + 4 by omega,
    show c + 3 + 2 = c + 5 by omega, show c + 3 + 3 = c + 6 by omega]
  ring

theorem tap_left (f g : Nat → R) (n c : Nat) (hn : 6 ≤ n) (h : c < 3) :
    ((List.range (4 + c)).map (fun k => g k * f (3 - c + k))).sum = tapVal f g n c := by
  unfold tapVal
  rw [show List.range 7 = [0, 1, 2, 3, 4, 5, 6] from rfl]
  have : c = 0 ∨ c = 1 ∨ c = 2 := by omega
  rcases this with rfl | rfl | rfl
  · rw [show List.range (4 + 0) = [0, 1, 2, 3] from rfl]
    simp only [List.map_cons, List.map_nil, List.sum_cons, List.sum_nil]
    rw [if_neg (by omega), if_neg (by omega), if_neg (by omega), if_pos (by omega), if_pos (by omega), if_pos (by omega),
      if_pos (by omega)]
    norm_num; ring
  · rw [show List.range (4 + 1) = [0, 1, 2, 3, 4] from rfl]
    simp only [List.map_cons, List.map_nil, List.sum_cons, List.sum_nil]
    rw [if_neg (by omega), if_neg (by omega), if_pos (by omega), if_pos (by omega), if_pos (by omega), if_pos (by omega),
      if_pos (by omega)]
    norm_num; ring
  · rw [show List.range (4 + 2) = [0, 1, 2, 3, 4, 5] from rfl]
    simp only [List.map_cons, List.map_nil, List.sum_cons, List.sum_nil]
    rw [if_neg (by omega), if_pos (by omega), if_pos (by omega), if_pos (by omega), if_pos (by omega), if_pos (by omega),
      if_pos (by omega)]
    norm_num; ring

theorem tap_right (f g : Nat → R) (n c : Nat) (hn : 6 ≤ n) (h : c < 3) :
    ((List.range (4 + c)).map (fun k => g (n - (4 + c) + k) * f (0 + k))).sum = tapVal f g n (n - 1 - c) := by
  unfold tapVal
  obtain ⟨m, rfl⟩ := Nat.exists_eq_add_of_le hn
  rw [show List.range 7 = [0, 1, 2, 3, 4, 5, 6] from rfl]
  have : c = 0 ∨ c = 1 ∨ c = 2 := by omega
  rcases this with rfl | rfl | rfl
  · rw [show List.range (4 + 0) = [0, 1, 2, 3] from rfl]
    simp only [List.map_cons, List.map_nil, List.sum_cons, List.sum_nil]
    rw [if_pos (by omega), if_pos (by omega), if_pos (by omega), if_pos (by omega), if_neg (by omega), if_neg (by omega),
      if_neg (by omega)]
    rw [show 6 + m - (4 + 0) + 0 = m + 2 by omega, show 6 + m - (4 + 0) + 1 = m + 3 by omega,
      show 6 + m - (4 + 0) + 2 = m + 4 by omega, show 6 + m - (4 + 0) + 3 = m + 5 by omega,
      show 6 + m - 1 - 0 + 0 - 3 = m + 2 by omega, show 6 + m - 1 - 0 + 1 - 3 = m + 3 by omega,
      show 6 + m - 1 - 0 + 2 - 3 = m + 4 by omega, show 6 + m - 1 - 0 + 3 - 3 = m + 5 by omega]
    norm_num; ring
  · rw [show List.range (4 + 1) = [0, 1, 2, 3, 4] from rfl]
    simp only [List.map_cons, List.map_nil, List.sum_cons, List.sum_nil]
    rw [if_pos (by omega), if_pos (by omega), if_pos (by omega), if_pos (by omega), if_pos (by omega), if_neg (by omega),
      if_neg (by omega)]
    rw [show 6 + m - (4 + 1) + 0 = m + 1 by omega, show 6 + m - (4 + 1) + 1 = m + 2 by omega,
      show 6 + m - (4 + 1) + 2 = m + 3 by omega, show 6 + m - (4 + 1) + 3 = m + 4 by omega,
      show 6 + m - (4 + 1) + 4 = m + 5 by omega,
      show 6 + m - 1 - 1 + 0 - 3 = m + 1 by omega, show 6 + m - 1 - 1 + 1 - 3 = m + 2 by omega,
      show 6 + m - 1 - 1 + 2 - 3 = m + 3 by omega, show 6 + m - 1 - 1 + 3 - 3 = m + 4 by omega,
      show 6 + m - 1 - 1 + 4 - 3 = m + 5 by omega]
    norm_num; ring
  · rw [show List.range (4 + 2) = [0, 1, 2, 3, 4, 5] from rfl]
    simp only [List.map_cons, List.map_nil, List.sum_cons, List.sum_nil]
    rw [if_pos (by omega), if_pos (by omega), if_pos (by omega), if_pos (by omega), if_pos (by omega), if_pos (by omega),
      if_neg (by omega)]
    rw [show 6 + m - (4 + 2) + 0 = m by omega, show 6 + m - (4 + 2) + 1 = m + 1 by omega,
      show 6 + m - (4 + 2) + 2 = m + 2 by omega, show 6 + m - (4 + 2) + 3 = m + 3 by omega,
      show 6 + m - (4 + 2) + 4 = m + 4 by omega, show 6 + m - (4 + 2) + 5 = m + 5 by omega,
      show 6 + m - 1 - 2 + 0 - 3 = m by omega, show 6 + m - 1 - 2 + 1 - 3 = m + 1 by omega,
      show 6 + m - 1 - 2 + 2 - 3 = m + 2 by omega, show 6 + m - 1 - 2 + 3 - 3 = m + 3 by omega,
      show 6 + m - 1 - 2 + 4 - 3 = m + 4 by omega, show 6 + m - 1 - 2 + 5 - 3 = m + 5 by omega]
    norm_num; ring

theorem filterX_ok (f : Nat → R) (inp work : Arr R) (hw : 6 ≤ inp.w) (h1 : work.h = inp.h) (h2 : work.w = inp.w) :
    ∃ W, filterX f inp work = .ok W ∧ W.h = inp.h ∧ W.w = inp.w ∧ ∀ r c, r < inp.h → c < inp.w →
      W.px r c = tapVal f (inp.px r) inp.w c := by
  unfold filterX
  rw [if_neg (by omega)]
  have s4 := slice_of inp none none none (some 4) _ _ _ _ (axis_all inp.h) (axis_to inp.w 4 (by omega))
  have s5 := slice_of inp none none none (some 5) _ _ _ _ (axis_all inp.h) (axis_to inp.w 5 (by omega))
  have s6 := slice_of inp none none none (some 6) _ _ _ _ (axis_all inp.h) (axis_to inp.w 6 (by omega))
  have e4 := slice_of inp none none (some (-4)) none _ _ _ _ (axis_all inp.h) (axis_from_end inp.w 4 (by omega) (by omega))
  have e5 := slice_of inp none none (some (-5)) none _ _ _ _ (axis_all inp.h) (axis_from_end inp.w 5 (by omega) (by omega))
  have e6 := slice_of inp none none (some (-6)) none _ _ _ _ (axis_all inp.h) (axis_from_end inp.w 6 (by omega) (by omega))
  have m0 := slice_of inp none none none (some (-6)) _ _ _ _ (axis_all inp.h) (axis_upto_end inp.w hw)
  have m1 := slice_of inp none none (some 1) (some (-5)) _ _ _ _ (axis_all inp.h) (axis_both inp.w 1 hw (by omega) (by omega))
  have m2 := slice_of inp none none (some 2) (some (-4)) _ _ _ _ (axis_all inp.h) (axis_both inp.w 2 hw (by omega) (by omega))
  have m3 := slice_of inp none none (some 3) (some (-3)) _ _ _ _ (axis_all inp.h) (axis_both inp.w 3 hw (by omega) (by omega))
  have m4 := slice_of inp none none (some 4) (some (-2)) _ _ _ _ (axis_all inp.h) (axis_both inp.w 4 hw (by omega) (by omega))
  have m5 := slice_of inp none none (some 5) (some (-1)) _ _ _ _ (axis_all inp.h) (axis_both inp.w 5 hw (by omega) (by omega))
  have m6 := slice_of inp none none (some 6) none _ _ _ _ (axis_all inp.h) (axis_from inp.w hw)
  simp only [s4, s5, s6, e4, e5, e6, m0, m1, m2, m3, m4, m5, m6, Arr.map]
  have key : ∀ (w : Arr R) (op : R → R → R) (g : Nat → Nat → R), w.h = inp.h → w.w = inp.w →
      w.modify none none (some 3) (some (-3)) op ⟨inp.h, inp.w - 6, g⟩ = .ok ⟨w.h, w.w, fun r c =>
        if r < w.h ∧ 3 ≤ c ∧ c < w.w - 3 then op (w.px r c) (g r (c - 3)) else w.px r c⟩ := by
    intro w op g a b
    exact modify_cols w op ⟨inp.h, inp.w - 6, g⟩ (by omega) a.symm (by rw [b])
  rw [key _ _ _ (by simp only [setCol]; omega) (by simp only [setCol]; omega)]
  simp only [bind, Except.bind]
  rw [key _ _ _ (by simp only [setCol]; omega) (by simp only [setCol]; omega)]
  simp only
  rw [key _ _ _ (by simp only [setCol]; omega) (by simp only [setCol]; omega)]
  simp only
  rw [key _ _ _ (by simp only [setCol]; omega) (by simp only [setCol]; omega)]
  simp only
  rw [key _ _ _ (by simp only [setCol]; omega) (by simp only [setCol]; omega)]
  simp only
  rw [key _ _ _ (by simp only [setCol]; omega) (by simp only [setCol]; omega)]
  simp only
  rw [key _ _ _ (by simp only [setCol]; omega) (by simp only [setCol]; omega)]
  refine ⟨_, rfl, h1, h2, ?_⟩
  intro r c hr hc
  simp only [setCol, dotCols, h1, h2]
  by_cases hm : r < inp.h ∧ 3 ≤ c ∧ c < inp.w - 3
  · simp only [if_pos hm]
    rw [← tap_mid f (inp.px r) inp.w c hm.2]
    unfold midVal
    obtain ⟨c, rfl⟩ := Nat.exists_eq_add_of_le hm.2.1
    simp only [Nat.zero_add, show 3 + c - 3 = c by omega, show 3 + c - 2 = 1 + c by omega, show 3 + c - 1 = 2 + c by omega,
      show 3 + c + 1 = 4 + c by omega, show 3 + c + 2 = 5 + c by omega, show 3 + c + 3 = 6 + c by omega]
  · simp only [if_neg hm]
    have hc' : (c = 0 ∨ c = 1 ∨ c = 2) ∨ (c = inp.w - 1 ∨ c = inp.w - 2 ∨ c = inp.w - 3) := by omega
    by_cases h3 : c = inp.w - 3
    · rw [if_pos h3, h3, show inp.w - 3 = inp.w - 1 - 2 by omega, ← tap_right f (inp.px r) inp.w 2 hw (by omega)]
      simp only [Nat.zero_add]
    · rw [if_neg h3]
      by_cases h4 : c = inp.w - 2
      · rw [if_pos h4, h4, show inp.w - 2 = inp.w - 1 - 1 by omega, ← tap_right f (inp.px r) inp.w 1 hw (by omega)]
        simp only [Nat.zero_add]
      · rw [if_neg h4]
        by_cases h5 : c = inp.w - 1
        · rw [if_pos h5, h5, show inp.w - 1 = inp.w - 1 - 0 by omega, ← tap_right f (inp.px r) inp.w 0 hw (by omega)]
          simp only [Nat.zero_add]
        · rw [if_neg h5]
          have : c = 0 ∨ c = 1 ∨ c = 2 := by omega
          rcases this with rfl | rfl | rfl
          · rw [if_neg (by omega), if_neg (by omega), if_pos rfl, ← tap_left f (inp.px r) inp.w 0 hw (by omega)]
            simp only [Nat.zero_add]
          · rw [if_neg (by omega), if_pos rfl, ← tap_left f (inp.px r) inp.w 1 hw (by omega)]
            simp only [Nat.zero_add]
          · rw [if_pos rfl, ← tap_left f (inp.px r) inp.w 2 hw (by omega)]
            simp only [Nat.zero_add]

theorem filterY_ok (f : Nat → R) (inp work : Arr R) (hw : 6 ≤ inp.h) (h1 : work.h = inp.h) (h2 : work.w = inp.w) :
    ∃ W, filterY f inp work = .ok W ∧ W.h = inp.h ∧ W.w = inp.w ∧ ∀ r c, r < inp.h → c < inp.w →
      W.px r c = tapVal f (fun r => inp.px r c) inp.h r := by
  unfold filterY
  rw [if_neg (by omega)]
  have s4 := slice_of inp none (some 4) none none _ _ _ _ (axis_to inp.h 4 (by omega)) (axis_all inp.w)
  have s5 := slice_of inp none (some 5) none none _ _ _ _ (axis_to inp.h 5 (by omega)) (axis_all inp.w)
  have s6 := slice_of inp none (some 6) none none _ _ _ _ (axis_to inp.h 6 (by omega)) (axis_all inp.w)
  have e4 := slice_of inp (some (-4)) none none none _ _ _ _ (axis_from_end inp.h 4 (by omega) (by omega)) (axis_all inp.w)
  have e5 := slice_of inp (some (-5)) none none none _ _ _ _ (axis_from_end inp.h 5 (by omega) (by omega)) (axis_all inp.w)
  have e6 := slice_of inp (some (-6)) none none none _ _ _ _ (axis_from_end inp.h 6 (by omega) (by omega)) (axis_all inp.w)
  have m0 := slice_of inp none (some (-6)) none none _ _ _ _ (axis_upto_end inp.h hw) (axis_all inp.w)
  have m1 := slice_of inp (some 1) (some (-5)) none none _ _ _ _ (axis_both inp.h 1 hw (by omega) (by omega)) (axis_all inp.w)
  have m2 := slice_of inp (some 2) (some (-4)) none none _ _ _ _ (axis_both inp.h 2 hw (by omega) (by omega)) (axis_all inp.w)
  have m3 := slice_of inp (some 3) (some (-3)) none none _ _ _ _ (axis_both inp.h 3 hw (by omega) (by omega)) (axis_all inp.w)
  have m4 := slice_of inp (some 4) (some (-2)) none none _ _ _ _ (axis_both inp.h 4 hw (by omega) (by omega)) (axis_all inp.w)
  have m5 := slice_of inp (some 5) (some (-1)) none none _ _ _ _ (axis_both inp.h 5 hw (by omega) (by omega)) (axis_all inp.w)
  have m6 := slice_of inp (some 6) none none none _ _ _ _ (axis_from inp.h hw) (axis_all inp.w)
  simp only [s4, s5, s6, e4, e5, e6, m0, m1, m2, m3, m4, m5, m6, Arr.map]
  have key : ∀ (w : Arr R) (op : R → R → R) (g : Nat → Nat → R), w.h = inp.h → w.w = inp.w →
      w.modify (some 3) (some (-3)) none none op ⟨inp.h - 6, inp.w, g⟩ = .ok ⟨w.h, w.w, fun r c =>
        if c < w.w ∧ 3 ≤ r ∧ r < w.h - 3 then op (w.px r c) (g (r - 3) c) else w.px r c⟩ := by
    intro w op g a b
    exact modify_rows w op ⟨inp.h - 6, inp.w, g⟩ (by omega) b.symm (by rw [a])
  rw [key _ _ _ (by simp only [setRow]; omega) (by simp only [setRow]; omega)]
  simp only [bind, Except.bind]
  rw [key _ _ _ (by simp only [setRow]; omega) (by simp only [setRow]; omega)]
  simp only
  rw [key _ _ _ (by simp only [setRow]; omega) (by simp only [setRow]; omega)]
  simp only
  rw [key _ _ _ (by simp only [setRow]; omega) (by simp only [setRow]; omega)]
  simp only
  rw [key _ _ _ (by simp only [setRow]; omega) (by simp only [setRow]; omega)]
  simp only
  rw [key _ _ _ (by simp only [setRow]; omega) (by simp only [setRow]; omega)]
  simp only
  rw [key _ _ _ (by simp only [setRow]; omega) (by simp only [setRow]; omega)]
  refine ⟨_, rfl, h1, h2, ?_⟩
  intro r c hr hc
  simp only [setRow, dotRows, h1, h2]
  by_cases hm : c < inp.w ∧ 3 ≤ r ∧ r < inp.h - 3
  · simp only [if_pos hm]
    rw [← tap_mid f (fun r => inp.px r c) inp.h r hm.2]
    unfold midVal
    obtain ⟨r, rfl⟩ := Nat.exists_eq_add_of_le hm.2.1
    simp only [Nat.zero_add, show 3 + r - 3 = r by omega, show 3 + r - 2 = 1 + r by omega, show 3 + r - 1 = 2 + r by omega,
      show 3 + r + 1 = 4 + r by omega, show 3 + r + 2 = 5 + r by omega, show 3 + r + 3 = 6 + r by omega]
  · simp only [if_neg hm]
    have hc' : (r = 0 ∨ r = 1 ∨ r = 2) ∨ (r = inp.h - 1 ∨ r = inp.h - 2 ∨ r = inp.h - 3) := by omega
    by_cases h3 : r = inp.h - 3
    · rw [if_pos h3, h3, show inp.h - 3 = inp.h - 1 - 2 by omega, ← tap_right f (fun r => inp.px r c) inp.h 2 hw (by omega)]
      simp only [Nat.zero_add]
    · rw [if_neg h3]
      by_cases h4 : r = inp.h - 2
      · rw [if_pos h4, h4, show inp.h - 2 = inp.h - 1 - 1 by omega, ← tap_right f (fun r => inp.px r c) inp.h 1 hw (by omega)]
        simp only [Nat.zero_add]
      · rw [if_neg h4]
        by_cases h5 : r = inp.h - 1
        · rw [if_pos h5, h5, show inp.h - 1 = inp.h - 1 - 0 by omega, ← tap_right f (fun r => inp.px r c) inp.h 0 hw (by omega)]
          simp only [Nat.zero_add]
        · rw [if_neg h5]
          have : r = 0 ∨ r = 1 ∨ r = 2 := by omega
          rcases this with rfl | rfl | rfl
          · rw [if_neg (by omega), if_neg (by omega), if_pos rfl, ← tap_left f (fun r => inp.px r c) inp.h 0 hw (by omega)]
            simp only [Nat.zero_add]
          · rw [if_neg (by omega), if_pos rfl, ← tap_left f (fun r => inp.px r c) inp.h 1 hw (by omega)]
            simp only [Nat.zero_add]
          · rw [if_pos rfl, ← tap_left f (fun r => inp.px r c) inp.h 2 hw (by omega)]
            simp only [Nat.zero_add]

end Verif.Gpu
