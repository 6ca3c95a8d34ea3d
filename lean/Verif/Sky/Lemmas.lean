import Verif.Sky.Model
import Mathlib.Tactic.Ring
import Mathlib.Tactic.Linarith
import Mathlib.Tactic.FieldSimp

namespace Verif.Sky

theorem rem_eq (n hb : Nat) : (n : Int) - ((gridCount n hb : Int) - 2) * hb = ((n % hb : Nat) : Int) := by
  have := Nat.div_add_mod n hb
  simp only [gridCount]
  have e : ((n / hb + 2 : Nat) : Int) - 2 = ((n / hb : Nat) : Int) := by omega
  rw [e, ← Nat.cast_mul, Nat.mul_comm]
  omega

theorem gridPos_zero (n hb : Nat) : gridPos n hb 0 = ((n % hb) / 2 : Nat) - ((hb / 2 : Nat) : Int) := by
  simp only [gridPos, rem_eq]
  rw [show (hb : Int) * (2 * (0 : Nat) - 1) = -(hb : Int) by push_cast; ring, Int.neg_tdiv]
  rw [Int.tdiv_eq_ediv_of_nonneg (by omega)]
  omega

theorem gridPos_succ (n hb i : Nat) :
    gridPos n hb (i + 1) = ((n % hb) / 2 : Nat) + ((hb * i : Nat) : Int) + ((hb / 2 : Nat) : Int) := by
  simp only [gridPos, rem_eq]
  rw [show (hb : Int) * (2 * ((i + 1 : Nat) : Int) - 1) = 2 * ((hb * i : Nat) : Int) + hb by push_cast; ring]
  rw [Int.tdiv_eq_ediv_of_nonneg (by omega)]
  omega

theorem increasing_iff : ∀ l : List Int, increasing l = true ↔ l.Pairwise (· < ·)
  | [] => by simp [increasing]
  | [a] => by simp [increasing]
  | a :: b :: l => by
    have e : increasing (a :: b :: l) = (decide (a < b) && increasing (b :: l)) := rfl
    rw [e, Bool.and_eq_true, increasing_iff (b :: l), decide_eq_true_eq]
    constructor
    · rintro ⟨h1, h2⟩
      refine List.pairwise_cons.2 ⟨?_, h2⟩
      intro x hx
      rcases List.mem_cons.1 hx with rfl | hx
      · exact h1
      · exact h1.trans ((List.pairwise_cons.1 h2).1 x hx)
    · intro h
      have h := List.pairwise_cons.1 h
      exact ⟨h.1 b (by simp), h.2⟩

theorem gridPos_lt (n hb : Nat) (h : 2 ≤ hb) (i j : Nat) (hij : i < j) : gridPos n hb i < gridPos n hb j := by
  obtain ⟨j, rfl⟩ : ∃ k, j = k + 1 := ⟨j - 1, by omega⟩
  rcases Nat.eq_zero_or_pos i with rfl | hi
  · rw [gridPos_zero, gridPos_succ]; omega
  · obtain ⟨i, rfl⟩ : ∃ k, i = k + 1 := ⟨i - 1, by omega⟩
    rw [gridPos_succ, gridPos_succ]
    have : hb * i < hb * j := Nat.mul_lt_mul_of_pos_left (by omega) (by omega)
    omega

theorem grid_increasing (n hb : Nat) (h : hb ≠ 0) :
    increasing ((List.range (gridCount n hb)).map (gridPos n hb)) = true ↔ 2 ≤ hb := by
  constructor
  · intro hi
    by_contra c
    have : hb = 1 := by omega
    subst this
    obtain ⟨k, hk⟩ : ∃ k, gridCount n 1 = k + 2 := ⟨n / 1, rfl⟩
    rw [increasing_iff, hk, List.range_succ_eq_map, List.map_cons, List.pairwise_cons] at hi
    have := hi.1 (gridPos n 1 1) (by simp; exact ⟨0, by omega, rfl⟩)
    rw [gridPos_zero, gridPos_succ] at this
    omega
  · intro h2
    rw [increasing_iff, List.pairwise_map]
    exact List.pairwise_lt_range.imp (fun hab => gridPos_lt n hb h2 _ _ hab)

theorem axisOk_iff (n hb : Nat) (h : hb ≠ 0) :
    axisOk ((List.range (gridCount n hb)).map (gridPos n hb)) = true ↔ 2 ≤ hb ∧ 2 * hb ≤ n := by
  rw [axisOk, Bool.and_eq_true, grid_increasing n hb h, decide_eq_true_eq]
  simp only [List.length_map, List.length_range, gridCount]
  have := Nat.le_div_iff_mul_le (k := hb) (x := 2) (y := n) (by omega)
  constructor
  · rintro ⟨a, b⟩; exact ⟨a, this.1 (by omega)⟩
  · rintro ⟨a, b⟩; exact ⟨a, by have := this.2 b; omega⟩

/-! ### The prior -/

variable {R : Type} [Field R]

/-- Row `k` of the matrix applied to the vector `d`. -/
def applyRow (A : List (Nat × Nat × R)) (d : Nat → R) (k : Nat) : R :=
  (A.map (fun e => if e.1 = k then e.2.2 * d e.2.1 else 0)).sum

theorem applyRow_append (A B : List (Nat × Nat × R)) (d : Nat → R) (k : Nat) :
    applyRow (A ++ B) d k = applyRow A d k + applyRow B d k := by simp [applyRow]

theorem applyRow_block_aux (v : R) (d : Nat → R) (k : Nat) : ∀ (cols : List Nat) (o : Nat),
    ((cols.zipIdx o).map (fun ck => if ck.2 = k then v * d ck.1 else 0)).sum =
      if o ≤ k ∧ k < o + cols.length then v * d (cols.getD (k - o) 0) else 0
  | [], o => by simp
  | c :: cols, o => by
    rw [List.zipIdx_cons, List.map_cons, List.sum_cons, applyRow_block_aux v d k cols (o + 1)]
    by_cases h : o = k
    · subst h
      simp
    · rw [if_neg h, zero_add]
      by_cases g : o ≤ k ∧ k < o + (c :: cols).length
      · rw [if_pos g, if_pos (by simp only [List.length_cons] at g; omega)]
        obtain ⟨t, ht⟩ : ∃ t, k - o = t + 1 := ⟨k - o - 1, by omega⟩
        rw [ht, show k - (o + 1) = t by omega]
        simp
      · rw [if_neg g, if_neg (by simp only [List.length_cons] at g; omega)]

theorem applyRow_block (off : Nat) (cols : List Nat) (v : R) (d : Nat → R) (k : Nat) :
    applyRow (block off cols v) d k =
      if off ≤ k ∧ k < off + cols.length then v * d (cols.getD (k - off) 0) else 0 := by
  have h := applyRow_block_aux v d k cols off
  rw [← h, applyRow, block, List.map_map, List.zipIdx_eq_map_add (l := cols) (i := off), List.map_map]
  rfl

theorem ravel2_map {A B : Type} (g : A → B) (h w : Nat) (f : Nat → Nat → A) :
    (ravel2 h w f).map g = ravel2 h w (fun r c => g (f r c)) := by
  simp [ravel2, List.map_flatMap, Function.comp_def]

theorem ravel2_length {A : Type} (h w : Nat) (f : Nat → Nat → A) : (ravel2 h w f).length = h * w := by
  simp [ravel2, List.length_flatMap]

theorem ravel2_sum (h w : Nat) (f : Nat → Nat → R) : (ravel2 h w f).sum = sum2 h w f := by
  simp only [ravel2, sum2]
  induction (List.range h) with
  | nil => rfl
  | cons a l ih => simp [ih]

theorem getD_map {A B : Type} (l : List A) (g : A → B) (i : Nat) (a : A) (b : B) (hi : i < l.length) :
    (l.map g).getD i b = g (l.getD i a) := by
  simp [List.getD_eq_getElem?_getD, hi]

/-- Row and column of element `i` of a ravelled array. -/
def rc (h w i : Nat) : Nat × Nat := (ravel2 h w Prod.mk).getD i (0, 0)

theorem ravel2_getD {A : Type} (h w : Nat) (F : Nat → Nat → A) (a : A) (i : Nat) (hi : i < h * w) :
    (ravel2 h w F).getD i a = F (rc h w i).1 (rc h w i).2 := by
  have e : ravel2 h w F = (ravel2 h w Prod.mk).map (fun p => F p.1 p.2) := by rw [ravel2_map]
  have hl : i < (ravel2 h w Prod.mk).length := by rw [ravel2_length]; exact hi
  rw [e, getD_map _ _ _ (0, 0) _ hl]
  rfl

theorem list_sum_range (l : List R) : l.sum = ((List.range l.length).map (fun i => l.getD i 0)).sum := by
  congr 1
  apply List.ext_getElem
  · simp
  · intro i h1 h2
    simp [List.getD_eq_getElem?_getD, h1]

theorem sum2_rc (h w : Nat) (F : Nat → Nat → R) :
    sum2 h w F = ((List.range (h * w)).map (fun i => F (rc h w i).1 (rc h w i).2)).sum := by
  rw [← ravel2_sum, list_sum_range, ravel2_length]
  congr 1
  refine List.map_congr_left (fun i hi => ?_)
  exact ravel2_getD h w F 0 i (List.mem_range.1 hi)

/-- The rows of one direction. -/
theorem rows_sum (h w off : Nat) (sig : R) (P D : Nat → Nat → R) (I J : Nat → Nat → Nat) (d : Nat → R) (b : Nat → R)
    (row : Nat → R)
    (hb : ∀ i, i < h * w → b (off + i) = (ravel2 h w P).getD i 0 / sig)
    (hrow : ∀ i, i < h * w → row (off + i) =
      1 / sig * d ((ravel2 h w I).getD i 0) + -1 / sig * d ((ravel2 h w J).getD i 0))
    (hD : ∀ r c, D r c = P r c - (d (I r c) - d (J r c))) :
    ((List.range (h * w)).map (fun i => (b (off + i) - row (off + i)) ^ 2)).sum =
      sum2 h w (fun r c => (D r c) ^ 2) / sig ^ 2 := by
  have e : sum2 h w (fun r c => (D r c) ^ 2) / sig ^ 2 = sum2 h w (fun r c => (D r c / sig) ^ 2) := by
    rw [sum2_rc, sum2_rc]
    induction (List.range (h * w)) with
    | nil => simp
    | cons a l ih => rw [List.map_cons, List.map_cons, List.sum_cons, List.sum_cons, add_div, ih, div_pow]
  rw [e, sum2_rc]
  congr 1
  refine List.map_congr_left (fun i hi => ?_)
  have hi := List.mem_range.1 hi
  rw [hb i hi, hrow i hi, ravel2_getD h w P 0 i hi, ravel2_getD h w I 0 i hi, ravel2_getD h w J 0 i hi, hD]
  ring

end Verif.Sky
