import Verif.Ceres.Dice
import Verif.Patch.Props
import Verif.Psf.Lemmas
import Mathlib.Tactic.Ring
import Mathlib.Algebra.BigOperators.Group.List.Basic

/-! Lemmas for the dicing of images. -/

namespace Verif.Ceres

open Verif Patches

variable {R : Type}

/-! ### Grids -/

/-- Row-major list of `n` rows of `m`. -/
def grid {β : Type} (n m : Nat) (g : Nat → Nat → β) : List β :=
  (List.range n).flatMap (fun i => (List.range m).map (g i))

theorem grid_succ {β : Type} (n m : Nat) (g : Nat → Nat → β) :
    grid (n + 1) m g = grid n m g ++ (List.range m).map (g n) := by
  simp [grid, List.range_succ, List.flatMap_append]

theorem grid_length {β : Type} (m : Nat) (g : Nat → Nat → β) : ∀ n, (grid n m g).length = n * m
  | 0 => by simp [grid]
  | n + 1 => by rw [grid_succ, List.length_append, grid_length m g n]; simp; ring

theorem grid_get {β : Type} (m : Nat) (hm : 0 < m) (g : Nat → Nat → β) : ∀ n k,
    (grid n m g)[k]? = if k < n * m then some (g (k / m) (k % m)) else none
  | 0, k => by simp [grid]
  | n + 1, k => by
    have e : (n + 1) * m = n * m + m := by ring
    rw [grid_succ, List.getElem?_append, grid_length, grid_get m hm g n k]
    by_cases h : k < n * m
    · rw [if_pos h, if_pos h, if_pos (by omega)]
    · rw [if_neg h]
      by_cases h2 : k < n * m + m
      · have hd : k / m = n := Nat.div_eq_of_lt_le (by omega) (by rw [e]; exact h2)
        have hr : k % m = k - n * m := by
          have := Nat.div_add_mod k m
          rw [hd, Nat.mul_comm] at this
          omega
        rw [if_pos (by rw [e]; exact h2), hd, hr]
        simp only [List.getElem?_map]
        rw [List.getElem?_range (by omega)]
        rfl
      · rw [if_neg (by rw [e]; exact h2)]
        simp only [List.getElem?_map]
        rw [List.getElem?_eq_none (by rw [List.length_range]; omega)]
        rfl

theorem grid_congr {β : Type} (n m : Nat) (g g' : Nat → Nat → β) (h : ∀ i j, i < n → j < m → g i j = g' i j) :
    grid n m g = grid n m g' := by
  refine List.flatMap_congr (fun i hi => List.map_congr_left (fun j hj => ?_))
  exact h i j (List.mem_range.1 hi) (List.mem_range.1 hj)

theorem grid_modify {β : Type} (n m : Nat) (g : Nat → Nat → β) (f : β → β) (i j : Nat) (hj : j < m) :
    (grid n m g).modify (i * m + j) f = grid n m (fun i' j' => if i' = i ∧ j' = j then f (g i' j') else g i' j') := by
  apply List.ext_getElem?
  intro k
  have hm : 0 < m := by omega
  rw [List.getElem?_modify, grid_get m hm, grid_get m hm]
  by_cases hk : k < n * m
  · rw [if_pos hk, if_pos hk]
    by_cases e : i * m + j = k
    · have h1 : k / m = i := by
        rw [← e, Nat.mul_comm, Nat.mul_add_div hm, Nat.div_eq_of_lt hj, Nat.add_zero]
      have h2 : k % m = j := by
        rw [← e, Nat.mul_comm, Nat.mul_add_mod, Nat.mod_eq_of_lt hj]
      simp [e, h1, h2]
    · have : ¬ (k / m = i ∧ k % m = j) := by
        rintro ⟨rfl, rfl⟩
        apply e
        rw [Nat.mul_comm]
        exact Nat.div_add_mod k m
      simp [e, this]
  · rw [if_neg hk, if_neg hk]; simp

theorem modify_mid {β : Type} (a b c : List β) (f : β → β) (k : Nat) (hk : k < b.length) :
    (a ++ b ++ c).modify (a.length + k) f = a ++ b.modify k f ++ c := by
  apply List.ext_getElem?
  intro j
  simp only [List.getElem?_modify, List.getElem?_append, List.length_append, List.length_modify]
  by_cases h1 : j < a.length
  · have e : ¬ a.length + k = j := by omega
    simp [h1, e, show j < a.length + b.length by omega]
  · by_cases h2 : j < a.length + b.length
    · have e : (a.length + k = j) = (k = j - a.length) := by apply propext; omega
      simp [h1, h2, e]
    · have e : ¬ a.length + k = j := by omega
      simp [h2, e]

/-! ### Sums -/

section
variable [AddCommMonoid R]

theorem sum_flatMap {β γ : Type} (l : List β) (g : β → List γ) (f : γ → R) :
    ((l.flatMap g).map f).sum = (l.map (fun b => ((g b).map f).sum)).sum := by
  induction l with
  | nil => simp
  | cons b l ih => simp [List.flatMap_cons, ih]

theorem sum_add_map {β : Type} (l : List β) (f g : β → R) :
    (l.map (fun a => f a + g a)).sum = (l.map f).sum + (l.map g).sum := by
  induction l with
  | nil => simp
  | cons b l ih => simp only [List.map_cons, List.sum_cons, ih]; exact add_add_add_comm ..

theorem sum_zero_map {β : Type} (l : List β) : (l.map (fun _ => (0 : R))).sum = 0 := by
  induction l with
  | nil => simp
  | cons b l ih => simp only [List.map_cons, List.sum_cons, ih, add_zero]

theorem sum_swap {β γ : Type} (l : List β) (m : List γ) (f : β → γ → R) :
    (l.map (fun a => (m.map (f a)).sum)).sum = (m.map (fun b => (l.map (fun a => f a b)).sum)).sum := by
  induction l with
  | nil => simp
  | cons a l ih => simp only [List.map_cons, List.sum_cons, ih, ← sum_add_map]

end

/-- The pieces of `range n` in order. -/
theorem range_pieces (B n : Nat) : ∀ k,
    (List.range k).flatMap (fun i => (List.range (min (i * B + B) n - i * B)).map (fun r => i * B + r)) =
      List.range (min (k * B) n)
  | 0 => by simp
  | k + 1 => by
    rw [List.range_succ, List.flatMap_append, range_pieces B n k, List.flatMap_singleton]
    have e : (k + 1) * B = k * B + B := by ring
    rw [e]
    generalize k * B = t
    by_cases h : t ≤ n
    · rw [Nat.min_eq_left h]
      rw [show min (t + B) n = t + (min (t + B) n - t) by omega, List.range_add,
        show t + (min (t + B) n - t) - t = min (t + B) n - t by omega]
    · rw [show min (t + B) n - t = 0 by omega, show min (t + B) n = min t n by omega]; simp

theorem nblocks_le (B n : Nat) (hB : 0 < B) : n ≤ nblocks B n * B := by
  have := Nat.div_add_mod (n + B - 1) B
  have h2 := Nat.mod_lt (n + B - 1) hB
  rw [nblocks, Nat.mul_comm]
  omega

theorem range_dice (B n : Nat) (hB : 0 < B) :
    (List.range (nblocks B n)).flatMap (fun i => (List.range (min (i * B + B) n - i * B)).map (fun r => i * B + r)) =
      List.range n := by
  rw [range_pieces, Nat.min_eq_right (nblocks_le B n hB)]

theorem div_lt_nblocks (B n y : Nat) (hB : 0 < B) (hy : y < n) : y / B < nblocks B n := by
  rw [Nat.div_lt_iff_lt_mul hB]
  have := nblocks_le B n hB
  omega

theorem nblocks_start (B n i : Nat) (hB : 0 < B) (hi : i < nblocks B n) : i * B < n := by
  have h1 : (i + 1) * B ≤ n + B - 1 := (Nat.le_div_iff_mul_le hB).1 (by rw [nblocks] at hi; omega)
  have : (i + 1) * B = i * B + B := by ring
  omega

/-! ### Diced images -/

/-- A diced image: position, image, fixed model, and what is attached to the block in row `iy`, column `ix`. -/
structure Q (R : Type) where
  key : Nat
  im : Im R
  mod0 : Arr R
  A : Nat → Nat → List (Src R)

def Q.nbh (B : Nat) (q : Q R) : Nat := nblocks B q.im.img.h
def Q.nbw (B : Nat) (q : Q R) : Nat := nblocks B q.im.img.w

/-- Its blocks. -/
def Q.blocks (B : Nat) (q : Q R) : List (Block R) :=
  grid (q.nbh B) (q.nbw B) (fun iy ix => (blockData B q.im q.mod0 iy ix, q.A iy ix))

/-- All blocks. -/
def allBlocks (B : Nat) (Qs : List (Q R)) : List (Block R) := Qs.flatMap (Q.blocks B)

/-- `blockstart`. -/
def startsOf (B : Nat) : Nat → List (Q R) → List (Nat × Nat × Nat × Nat)
  | _, [] => []
  | b, q :: qs => (q.key, b, q.nbw B, q.nbh B) :: startsOf B (b + (q.blocks B).length) qs

theorem startsOf_append (B : Nat) : ∀ (a b : List (Q R)) (n : Nat),
    startsOf B n (a ++ b) = startsOf B n a ++ startsOf B (n + (allBlocks B a).length) b
  | [], b, n => by simp [startsOf, allBlocks]
  | q :: a, b, n => by
    simp only [List.cons_append, startsOf, startsOf_append B a b]
    simp [allBlocks, List.flatMap_cons, Nat.add_assoc]

theorem startsOf_find (B : Nat) (key : Nat) : ∀ (Qs : List (Q R)) (n : Nat) (s : Nat × Nat × Nat × Nat),
    (startsOf B n Qs).find? (fun s => s.1 = key) = some s →
    ∃ Q1 q Q2, Qs = Q1 ++ q :: Q2 ∧ q.key = key ∧ s = (key, n + (allBlocks B Q1).length, q.nbw B, q.nbh B)
  | [], n, s, h => by simp [startsOf] at h
  | q :: qs, n, s, h => by
    simp only [startsOf, List.find?_cons] at h
    split at h
    · rename_i hk
      injection h with h
      have hk := of_decide_eq_true hk
      exact ⟨[], q, qs, rfl, hk, by rw [← h, hk]; simp [allBlocks]⟩
    · obtain ⟨Q1, q', Q2, rfl, h2, h3⟩ := startsOf_find B key qs _ s h
      refine ⟨q :: Q1, q', Q2, rfl, h2, ?_⟩
      rw [h3]
      simp [allBlocks, List.flatMap_cons, Nat.add_assoc]

theorem startsOf_find_none (B : Nat) (key : Nat) : ∀ (Qs : List (Q R)) (n : Nat),
    (startsOf B n Qs).find? (fun s => s.1 = key) = none → key ∉ Qs.map Q.key
  | [], n, h => by simp
  | q :: qs, n, h => by
    simp only [startsOf, List.find?_cons] at h
    split at h
    · exact absurd h (by simp)
    · rename_i hk
      have hk := of_decide_eq_false hk
      have := startsOf_find_none B key qs _ h
      simp only [List.map_cons, List.mem_cons, not_or]
      exact ⟨fun e => hk e.symm, this⟩

/-- The same image with other attachments. -/
def Q.with (q : Q R) (A : Nat → Nat → List (Src R)) : Q R := ⟨q.key, q.im, q.mod0, A⟩

theorem Q.blocks_length (B : Nat) (q : Q R) : (q.blocks B).length = q.nbh B * q.nbw B := grid_length ..

theorem Q.with_length (B : Nat) (q : Q R) (A : Nat → Nat → List (Src R)) :
    ((q.with A).blocks B).length = (q.blocks B).length := by
  rw [Q.blocks_length, Q.blocks_length]; rfl

theorem startsOf_with (B : Nat) (Q1 Q2 : List (Q R)) (q : Q R) (A : Nat → Nat → List (Src R)) (n : Nat) :
    startsOf B n (Q1 ++ q.with A :: Q2) = startsOf B n (Q1 ++ q :: Q2) := by
  rw [startsOf_append, startsOf_append]
  simp only [startsOf, Q.with_length]
  rfl

theorem appendAt_ok (B : Nat) (Q1 Q2 : List (Q R)) (q : Q R) (d : Src R) (c : Int × Int)
    (h1 : 0 ≤ c.1) (h2 : c.1 < q.nbh B) (h3 : 0 ≤ c.2) (h4 : c.2 < q.nbw B) :
    appendAt (allBlocks B (Q1 ++ q :: Q2)) (((allBlocks B Q1).length : Int) + (c.1 * q.nbw B + c.2)) d =
      .ok (allBlocks B (Q1 ++ q.with (fun iy ix => if ((iy : Int), (ix : Int)) = c then q.A iy ix ++ [d] else q.A iy ix) :: Q2)) := by
  obtain ⟨⟨i, hi⟩, ⟨j, hj⟩⟩ : (∃ i : Nat, c.1 = i) ∧ ∃ j : Nat, c.2 = j :=
    ⟨⟨c.1.toNat, by omega⟩, ⟨c.2.toNat, by omega⟩⟩
  have hc : c = ((i : Int), (j : Int)) := Prod.ext hi hj
  subst hc
  simp only at *
  have e : (((allBlocks B Q1).length : Int) + ((i : Int) * (q.nbw B : Nat) + j)) =
      (((allBlocks B Q1).length + (i * q.nbw B + j) : Nat) : Int) := by push_cast; rfl
  have hlt : i * q.nbw B + j < (q.blocks B).length := by
    rw [Q.blocks_length]
    have : (i + 1) * q.nbw B ≤ q.nbh B * q.nbw B := Nat.mul_le_mul_right _ (by omega)
    have e2 : (i + 1) * q.nbw B = i * q.nbw B + q.nbw B := by ring
    omega
  have hall : ∀ q : Q R, allBlocks B (Q1 ++ q :: Q2) = allBlocks B Q1 ++ q.blocks B ++ allBlocks B Q2 := by
    intro q; simp [allBlocks, List.flatMap_append, List.flatMap_cons]
  rw [e, appendAt]
  simp only [if_neg (show ¬ (((allBlocks B Q1).length + (i * q.nbw B + j) : Nat) : Int) < 0 by omega)]
  rw [if_pos ⟨by omega, by rw [hall]; simp only [List.length_append]; omega⟩]
  congr 1
  rw [Int.toNat_natCast, hall, hall, modify_mid _ _ _ _ _ hlt]
  congr 2
  rw [Q.blocks, grid_modify _ _ _ _ _ _ (by omega)]
  refine grid_congr _ _ _ _ (fun iy ix _ _ => ?_)
  by_cases h : iy = i ∧ ix = j
  · obtain ⟨rfl, rfl⟩ := h; simp [Q.with]
  · have : ¬ (((iy : Int), (ix : Int)) = ((i : Int), (j : Int))) := by
      intro e; simp only [Prod.mk.injEq] at e; exact h ⟨by omega, by omega⟩
    simp [h, Q.with]

theorem attachAll_ok (B : Nat) (Q1 Q2 : List (Q R)) (d : Src R) : ∀ (cs : List (Int × Int)) (q : Q R),
    (∀ c ∈ cs, 0 ≤ c.1 ∧ c.1 < q.nbh B ∧ 0 ≤ c.2 ∧ c.2 < q.nbw B) → cs.Nodup →
    attachAll (allBlocks B Q1).length (q.nbw B) d cs (allBlocks B (Q1 ++ q :: Q2)) =
      .ok (allBlocks B (Q1 ++ q.with (fun iy ix => if ((iy : Int), (ix : Int)) ∈ cs then q.A iy ix ++ [d] else q.A iy ix) :: Q2))
  | [], q, _, _ => by simp [attachAll, Q.with]
  | c :: cs, q, h, hn => by
    obtain ⟨h1, h2, h3, h4⟩ := h c (List.mem_cons_self ..)
    rw [attachAll, appendAt_ok B Q1 Q2 q d c h1 h2 h3 h4]
    simp only
    obtain ⟨hn1, hn2⟩ := List.nodup_cons.1 hn
    have := attachAll_ok B Q1 Q2 d cs
      (q.with (fun iy ix => if ((iy : Int), (ix : Int)) = c then q.A iy ix ++ [d] else q.A iy ix))
      (fun c' hc' => h c' (List.mem_cons_of_mem _ hc')) hn2
    have hA : (fun (iy ix : Nat) => if ((iy : Int), (ix : Int)) ∈ cs then
          (if ((iy : Int), (ix : Int)) = c then q.A iy ix ++ [d] else q.A iy ix) ++ [d]
        else if ((iy : Int), (ix : Int)) = c then q.A iy ix ++ [d] else q.A iy ix) =
        (fun (iy ix : Nat) => if ((iy : Int), (ix : Int)) ∈ c :: cs then q.A iy ix ++ [d] else q.A iy ix) := by
      funext iy ix
      by_cases e : ((iy : Int), (ix : Int)) = c
      · have e' : ((iy : Int), (ix : Int)) ∉ cs := by rw [e]; exact hn1
        rw [if_neg e', if_pos e, if_pos (by rw [e]; exact List.mem_cons_self ..)]
      · rw [if_neg e]
        by_cases e' : ((iy : Int), (ix : Int)) ∈ cs
        · rw [if_pos e', if_pos (List.mem_cons_of_mem _ e')]
        · rw [if_neg e', if_neg (by rw [List.mem_cons]; exact fun h => h.elim e e')]
    rw [← hA]
    exact this

/-! ### Which blocks -/

theorem mem_pyRange (a b x : Int) : x ∈ pyRange a b ↔ a ≤ x ∧ x < b := by
  simp only [pyRange, List.mem_map, List.mem_range]
  constructor
  · rintro ⟨i, hi, rfl⟩; omega
  · rintro ⟨h1, h2⟩; exact ⟨(x - a).toNat, by omega, by omega⟩

theorem pyRange_nodup (a b : Int) : (pyRange a b).Nodup := by
  refine List.Nodup.map (fun x y h => ?_) List.nodup_range
  simpa using h

theorem mem_blockRange (B nbw nbh : Nat) (x0 y0 : Int) (pw ph : Nat) (y x : Int) :
    (y, x) ∈ blockRange B nbw nbh x0 y0 pw ph ↔
      (clip (floorDiv y0 B) 0 ((nbh : Int) - 1) ≤ y ∧ y ≤ clip (ceilDiv (y0 + ph) B) 0 ((nbh : Int) - 1)) ∧
      clip (floorDiv x0 B) 0 ((nbw : Int) - 1) ≤ x ∧ x ≤ clip (ceilDiv (x0 + pw) B) 0 ((nbw : Int) - 1) := by
  simp only [blockRange, List.mem_flatMap, List.mem_map, mem_pyRange, Prod.mk.injEq]
  constructor
  · rintro ⟨a, ha, b, hb, rfl, rfl⟩; exact ⟨⟨ha.1, by omega⟩, hb.1, by omega⟩
  · rintro ⟨h1, h2⟩; exact ⟨y, ⟨h1.1, by omega⟩, x, ⟨h2.1, by omega⟩, rfl, rfl⟩

theorem pairs_nodup {β γ : Type} (L : List β) (M : List γ) (hL : L.Nodup) (hM : M.Nodup) :
    (L.flatMap (fun y => M.map (fun x => (y, x)))).Nodup := by
  induction L with
  | nil => simp
  | cons a L ih =>
    obtain ⟨h1, h2⟩ := List.nodup_cons.1 hL
    rw [List.flatMap_cons, List.nodup_append]
    refine ⟨List.Nodup.map (fun x y h => (Prod.mk.inj h).2) hM, ih h2, ?_⟩
    intro p hp p' hp' e
    subst e
    simp only [List.mem_map, List.mem_flatMap] at hp hp'
    obtain ⟨x, _, rfl⟩ := hp
    obtain ⟨y, hy, x', _, e⟩ := hp'
    injection e with e1 e2
    exact h1 (e1 ▸ hy)

theorem blockRange_nodup (B nbw nbh : Nat) (x0 y0 : Int) (pw ph : Nat) : (blockRange B nbw nbh x0 y0 pw ph).Nodup :=
  pairs_nodup _ _ (pyRange_nodup ..) (pyRange_nodup ..)

theorem blockRange_ok (B nbw nbh : Nat) (x0 y0 : Int) (pw ph : Nat) (hw : 0 < nbw) (hh : 0 < nbh) :
    ∀ c ∈ blockRange B nbw nbh x0 y0 pw ph, 0 ≤ c.1 ∧ c.1 < nbh ∧ 0 ≤ c.2 ∧ c.2 < nbw := by
  rintro ⟨y, x⟩ h
  rw [mem_blockRange] at h
  simp only [clip] at h
  omega

/-- The block of a pixel covered by the model is among those it is attached to. -/
theorem blockRange_cover (B nbw nbh : Nat) (x0 y0 : Int) (pw ph : Nat) (hB : 0 < B) (y x : Nat)
    (hy : y / B < nbh) (hx : x / B < nbw) (h1 : y0 ≤ y) (h2 : (y : Int) < y0 + ph) (h3 : x0 ≤ x) (h4 : (x : Int) < x0 + pw) :
    (((y / B : Nat) : Int), ((x / B : Nat) : Int)) ∈ blockRange B nbw nbh x0 y0 pw ph := by
  have key : ∀ (a : Int) (n : Nat) (v N : Nat), v / B < N → a ≤ v → (v : Int) < a + n →
      clip (floorDiv a B) 0 ((N : Int) - 1) ≤ ((v / B : Nat) : Int) ∧
        ((v / B : Nat) : Int) ≤ clip (ceilDiv (a + n) B) 0 ((N : Int) - 1) := by
    intro a n v N hv ha hb
    have hB' : (0 : Int) < B := by omega
    have e1 : floorDiv a B ≤ ((v / B : Nat) : Int) := by
      rw [floorDiv, Int.natCast_ediv]
      exact Int.ediv_le_ediv hB' ha
    have e2 : ((v / B : Nat) : Int) ≤ ceilDiv (a + n) B := by
      rw [ceilDiv, Int.natCast_ediv]
      have d1 := Int.mul_ediv_add_emod (v : Int) B
      have d2 := Int.emod_nonneg (v : Int) (show (B : Int) ≠ 0 by omega)
      have d3 := Int.mul_ediv_add_emod (-(a + n)) B
      have d4 := Int.emod_nonneg (-(a + n)) (show (B : Int) ≠ 0 by omega)
      by_contra hc
      have h5 : -(-(a + (n : Int)) / B) + 1 ≤ (v : Int) / B := by omega
      have h6 : (B : Int) * (-(-(a + (n : Int)) / B) + 1) ≤ B * ((v : Int) / B) := Int.mul_le_mul_of_nonneg_left h5 (by omega)
      rw [Int.mul_add, Int.mul_neg] at h6
      have d5 := Int.emod_lt_of_pos (-(a + n)) hB'
      omega
    have e3 := Int.natCast_nonneg (v / B)
    have e4 : ((v / B : Nat) : Int) < N := by exact_mod_cast hv
    generalize ((v / B : Nat) : Int) = t at *
    generalize floorDiv a B = f at *
    generalize ceilDiv (a + n) B = g at *
    simp only [clip]
    omega
  rw [mem_blockRange]
  exact ⟨key y0 ph y nbh hy h1 h2, key x0 pw x nbw hx h3 h4⟩

end Verif.Ceres
