import Verif.Lsq.Spec
import Verif.Patch.Props
import Mathlib.Algebra.BigOperators.Ring.Finset
import Mathlib.Tactic.Ring
import Mathlib.Tactic.Linarith

/-!
# Lemmas: blocks of the sparse matrix
-/

namespace Verif.Lsq

open Verif Verif.Params Verif.Patches

variable {R : Type}

theorem zipWith_flatMap {ι α β γ : Type} (g : α → β → γ) (a : ι → List α) (b : ι → List β) (l : List ι)
    (h : ∀ x ∈ l, (a x).length = (b x).length) :
    List.zipWith g (l.flatMap a) (l.flatMap b) = l.flatMap (fun x => List.zipWith g (a x) (b x)) := by
  induction l with
  | nil => rfl
  | cons x l ih =>
    simp only [List.flatMap_cons]
    rw [List.zipWith_append (h x (by simp)), ih (fun y hy => h y (by simp [hy]))]

theorem zipWith_ravel {α β γ : Type} (g : α → β → γ) (n m : Nat) (a : Nat → Nat → α) (b : Nat → Nat → β) :
    List.zipWith g ((List.range n).flatMap (fun j => (List.range m).map (a j)))
      ((List.range n).flatMap (fun j => (List.range m).map (b j))) =
    (List.range n).flatMap (fun j => (List.range m).map (fun i => g (a j i) (b j i))) := by
  rw [zipWith_flatMap _ _ _ _ (by simp)]
  apply List.flatMap_congr
  intro j _
  rw [List.zipWith_map, List.zipWith_self]

section field
variable [Field R]

/-- Sum of the values with a given key. -/
def keySum (l : List (Int × R)) (k : Int) : R := ((l.filter (fun e => e.1 = k)).map (·.2)).sum

theorem keySum_not_mem (l : List (Int × R)) (k : Int) (h : ∀ e ∈ l, e.1 ≠ k) : keySum l k = 0 := by
  have : l.filter (fun e => e.1 = k) = [] := by
    rw [List.filter_eq_nil_iff]; intro e he; simpa using h e he
  simp [keySum, this]

theorem keySum_mem (l : List (Int × R)) (hn : (l.map (·.1)).Nodup) (e : Int × R) (he : e ∈ l) :
    keySum l e.1 = e.2 := by
  induction l with
  | nil => simp at he
  | cons a l ih =>
    simp only [List.map_cons, List.nodup_cons, List.mem_map, not_exists, not_and] at hn
    rcases List.mem_cons.1 he with rfl | he
    · have := keySum_not_mem l e.1 (fun x hx h => hn.1 x hx h)
      simp only [keySum] at this ⊢
      simp [this]
    · have hne : a.1 ≠ e.1 := fun h => hn.1 e he h.symm
      have := ih hn.2 he
      simp only [keySum] at this ⊢
      rw [List.filter_cons_of_neg (by simpa using hne)]
      exact this

/-- With distinct keys the values are the sums by key. -/
theorem keySum_total (l : List (Int × R)) (hn : (l.map (·.1)).Nodup) (row0 n : Nat)
    (hk : ∀ e ∈ l, (row0 : Int) ≤ e.1 ∧ e.1 < row0 + n) (f : R → R) (hf : f 0 = 0) :
    (l.map (fun e => f e.2)).sum = ∑ k ∈ Finset.range n, f (keySum l ((row0 : Int) + k)) := by
  induction l with
  | nil => simp [keySum, hf]
  | cons a l ih =>
    simp only [List.map_cons, List.nodup_cons] at hn
    rw [List.map_cons, List.sum_cons, ih hn.2 (fun e he => hk e (by simp [he]))]
    obtain ⟨k0, hk0⟩ : ∃ k0 : Nat, a.1 = (row0 : Int) + k0 := ⟨(a.1 - row0).toNat, by
      have := hk a (by simp); omega⟩
    have hlt : k0 < n := by have := hk a (by simp); omega
    have h0 : keySum l ((row0 : Int) + k0) = 0 := by
      apply keySum_not_mem
      intro e he h
      exact hn.1 (List.mem_map.2 ⟨e, he, by rw [h, hk0]⟩)
    have hmem : k0 ∈ Finset.range n := Finset.mem_range.2 hlt
    rw [← Finset.add_sum_erase _ _ hmem, ← Finset.add_sum_erase (Finset.range n)
      (fun k => f (keySum (a :: l) ((row0 : Int) + k))) hmem, h0, hf, zero_add]
    congr 1
    · simp only [keySum] at h0 ⊢
      rw [List.filter_cons_of_pos (by simpa using hk0), List.map_cons, List.sum_cons, h0, add_zero]
    · apply Finset.sum_congr rfl
      intro k hk'
      have hne : k ≠ k0 := (Finset.mem_erase.1 hk').1
      simp only [keySum]
      rw [List.filter_cons_of_neg (by simp only [decide_eq_true_eq]; omega)]

theorem sum_range_mul (h w : Nat) (g : Nat → R) :
    ∑ k ∈ Finset.range (h * w), g k = ∑ y ∈ Finset.range h, ∑ x ∈ Finset.range w, g (y * w + x) := by
  induction h with
  | zero => simp
  | succ h ih => rw [Nat.succ_mul, Finset.sum_range_add, ih, Finset.sum_range_succ]

variable [LinearOrder R]

/-- Everything about the block made from one derivative. -/
theorem derivBlock_ok (im : Img R) (row0 col : Nat) (d : Patch R) (h1 : im.inverr.h = im.h)
    (h2 : im.inverr.w = im.w) (hsz : im.w * im.h < 2 ^ 31) :
    ∃ l : List (Int × R),
      derivBlock im row0 col d = .ok (if l.isEmpty then none else some ⟨l.map (·.1), col, l.map (·.2)⟩) ∧
      (l.map (·.1)).Nodup ∧ (∀ e ∈ l, e.2 ≠ 0) ∧
      (∀ e ∈ l, (row0 : Int) ≤ e.1 ∧ e.1 < row0 + im.npix) ∧
      (∀ y x : Nat, y < im.h → x < im.w →
        keySum l ((row0 : Int) + (y * im.w + x : Nat)) = d.at x y * im.inverr.px y x) := by
  obtain ⟨q, b, hq, hcut, -, -⟩ := clipTo_ok d im.w im.h
  obtain ⟨hcov, hat⟩ := hcut
  have hatd : ∀ y x : Nat, y < im.h → x < im.w → d.at x y = q.at x y := fun y x hy hx =>
    (hat x y (by omega)).symm
  simp only [derivBlock, hq]
  by_cases hE : q.getPixelIndices im.w = []
  · refine ⟨[], by simp [hE], by simp, by simp, by simp, ?_⟩
    intro y x hy hx
    have : q.at x y = 0 := by
      simp only [Patch.at]
      cases hA : q.patch with
      | none => rfl
      | some A =>
        simp only [Patch.getPixelIndices, hA, List.flatMap_eq_nil_iff, List.mem_range,
          List.map_eq_nil_iff, List.range_eq_nil] at hE
        simp only
        rw [if_neg]
        intro hc
        have := hE 0 (by omega)
        omega
    rw [hatd y x hy hx, this, keySum_not_mem _ _ (by simp), zero_mul]
  · cases hA : q.patch with
    | none => exact absurd (by simp [Patch.getPixelIndices, hA]) hE
    | some A =>
      have hpos : 0 < A.h ∧ 0 < A.w := by
        constructor <;> by_contra hz
        · exact hE (by simp [Patch.getPixelIndices, hA, show A.h = 0 by omega])
        · exact hE (by simp [Patch.getPixelIndices, hA, show A.w = 0 by omega])
      have hc : ∀ x y : Int, q.covers x y → 0 ≤ x ∧ x < im.w ∧ 0 ≤ y ∧ y < im.h := fun x y hxy => by
        have := (hcov x y).1 hxy; omega
      simp only [Patch.covers, hA] at hc
      have c1 := hc q.x0 q.y0 (by omega)
      have c2 := hc (q.x0 + A.w - 1) (q.y0 + A.h - 1) (by omega)
      have hx0 : 0 ≤ q.x0 := c1.1
      have hy0 : 0 ≤ q.y0 := c1.2.2.1
      have hx1 : q.x0 + A.w ≤ im.w := by omega
      have hy1 : q.y0 + A.h ≤ im.h := by omega
      obtain ⟨hpix, hin, hnd, hsl, hsl'⟩ := C28_pixel_indices q A hA im.w im.h hx0 hy0 hx1 hy1 hsz
      have hslice : q.getSliceIn im.h im.w = some ((q.y0, q.y0 + A.h), (q.x0, q.x0 + A.w)) := by
        rw [hsl', hsl]
      have hw := slice_range im.inverr q.y0 (q.y0 + A.h) q.x0 (q.x0 + A.w) hy0 (by omega) (by omega)
        hx0 (by omega) (by omega)
      have hall : ¬ ¬ (q.getPixelIndices im.w).all (fun k => k < im.npix) = true := by
        rw [not_not, List.all_eq_true]
        intro k hk
        have := (hin k hk).2.1
        have e : ((im.npix : Nat) : Int) = (im.w : Int) * im.h := by
          simp only [Img.npix]; push_cast; exact Int.mul_comm _ _
        rw [decide_eq_true_eq, e]
        exact this
      have hEb : ¬ (q.getPixelIndices im.w).isEmpty = true := by simpa using hE
      rw [if_neg hEb, if_neg hall]
      simp only [hslice, hw]
      rw [if_pos (by constructor <;> omega)]
      have e1 : (q.y0 + (A.h : Int) - q.y0).toNat = A.h := by omega
      have e2 : (q.x0 + (A.w : Int) - q.x0).toNat = A.w := by omega
      have hzip : (q.getPixelIndices im.w).zip (List.zipWith (· * ·) A.ravel
          (Arr.ravel ⟨(q.y0 + (A.h : Int) - q.y0).toNat, (q.x0 + (A.w : Int) - q.x0).toNat,
            fun r c => im.inverr.px (q.y0.toNat + r) (q.x0.toNat + c)⟩)) =
          (List.range A.h).flatMap (fun j : Nat => (List.range A.w).map (fun i : Nat =>
            ((q.y0 + (j : Int)) * (im.w : Int) + (q.x0 + (i : Int)),
              A.px j i * im.inverr.px (q.y0.toNat + j) (q.x0.toNat + i)))) := by
        simp only [Arr.ravel, e1, e2, hpix]
        rw [zipWith_ravel, List.zip, zipWith_ravel]
      rw [hzip]
      set L := (List.range A.h).flatMap (fun j : Nat => (List.range A.w).map (fun i : Nat =>
            ((q.y0 + (j : Int)) * (im.w : Int) + (q.x0 + (i : Int)),
              A.px j i * im.inverr.px (q.y0.toNat + j) (q.x0.toNat + i)))) with hL
      have hLfst : L.map (·.1) = q.getPixelIndices im.w := by
        rw [hpix, hL, List.map_flatMap]
        apply List.flatMap_congr
        intro j _
        simp
      have hLmem : ∀ (e : Int × R), e ∈ L → e.1 ∈ q.getPixelIndices im.w := fun e he => by
        rw [← hLfst]; exact List.mem_map_of_mem he
      refine ⟨(L.filter (fun e => e.2 ≠ 0)).map (fun e => ((row0 : Int) + e.1, e.2)), ?_, ?_, ?_, ?_, ?_⟩
      · by_cases hz : (L.filter (fun e => e.2 ≠ 0)).isEmpty
        · rw [if_pos hz, if_pos (by simpa using hz)]
        · rw [if_neg hz, if_neg (by simpa using hz)]
          simp [List.map_map, Function.comp_def]
      · rw [List.map_map]
        have : (L.map (·.1)).Nodup := hLfst ▸ hnd
        have h3 : ((L.filter (fun e => e.2 ≠ 0)).map (·.1)).Nodup :=
          this.sublist (List.filter_sublist.map _)
        have h4 := h3.map (f := fun k => (row0 : Int) + k) (fun a b h => by simpa using h)
        rwa [List.map_map] at h4
      · intro e he
        simp only [List.mem_map, List.mem_filter] at he
        obtain ⟨e', ⟨-, hne⟩, rfl⟩ := he
        simpa using hne
      · intro e he
        simp only [List.mem_map, List.mem_filter] at he
        obtain ⟨e', ⟨hm, -⟩, rfl⟩ := he
        have := hin _ (hLmem e' hm)
        have e : ((im.npix : Nat) : Int) = (im.w : Int) * im.h := by
          simp only [Img.npix]; push_cast; exact Int.mul_comm _ _
        simp only [e]
        omega
      · intro y x hy hx
        rw [hatd y x hy hx]
        have hks : ∀ k : Int, keySum ((L.filter (fun e => e.2 ≠ 0)).map
            (fun e => ((row0 : Int) + e.1, e.2))) (row0 + k) = keySum L k := by
          intro k
          simp only [keySum, List.filter_map, List.map_map, List.filter_filter, Function.comp_def,
            add_right_inj]
          clear hLmem hLfst
          induction L with
          | nil => rfl
          | cons a L ih =>
            by_cases hk : a.1 = k
            · by_cases hz : a.2 = 0
              · rw [List.filter_cons_of_neg (by simp [hz]), List.filter_cons_of_pos (by simp [hk])]
                simp only [List.map_cons, List.sum_cons, hz, zero_add]
                exact ih
              · rw [List.filter_cons_of_pos (by simp [hz, hk]), List.filter_cons_of_pos (by simp [hk])]
                simp only [List.map_cons, List.sum_cons]
                rw [ih]
            · rw [List.filter_cons_of_neg (by simp [hk]), List.filter_cons_of_neg (by simp [hk])]
              exact ih
        rw [hks]
        by_cases hcv : q.x0 ≤ (x : Int) ∧ (x : Int) < q.x0 + A.w ∧ q.y0 ≤ (y : Int) ∧ (y : Int) < q.y0 + A.h
        · have hm : (((y * im.w + x : Nat) : Int), q.at x y * im.inverr.px y x) ∈ L := by
            rw [hL]
            simp only [List.mem_flatMap, List.mem_map, List.mem_range]
            refine ⟨(y - q.y0).toNat, by omega, (x - q.x0).toNat, by omega, ?_⟩
            have e3 : q.y0 + (((y : Int) - q.y0).toNat : Int) = y := by omega
            have e4 : q.x0 + (((x : Int) - q.x0).toNat : Int) = x := by omega
            have e5 : q.y0.toNat + ((y : Int) - q.y0).toNat = y := by omega
            have e6 : q.x0.toNat + ((x : Int) - q.x0).toNat = x := by omega
            rw [e3, e4, e5, e6]
            simp only [Patch.at, hA, if_pos hcv]
            push_cast
            rfl
          exact keySum_mem L (hLfst ▸ hnd) _ hm
        · have hz : q.at x y = 0 := by simp only [Patch.at, hA, if_neg hcv]
          rw [hz, zero_mul]
          apply keySum_not_mem
          intro e he hee
          have := (hin _ (hLmem e he)).2.2
          rw [hee] at this
          simp only [Patch.covers, hA] at this
          have m1 : ((y * im.w + x : Nat) : Int) % im.w = x := by
            push_cast
            rw [Int.add_comm, Int.mul_comm, Int.add_mul_emod_self_left, Int.emod_eq_of_lt] <;> omega
          have m2 : ((y * im.w + x : Nat) : Int) / im.w = y := by
            push_cast
            rw [Int.add_comm, Int.mul_comm, Int.add_mul_ediv_left _ _ (by omega),
              Int.ediv_eq_zero_of_lt (by omega) (by omega)]
            omega
          rw [m1, m2] at this
          exact hcv this

omit [LinearOrder R] in
/-- Every value of a block is a weighted derivative. -/
theorem value_of_key (im : Img R) (row0 : Nat) (d : Patch R) (l : List (Int × R)) (hn : (l.map (·.1)).Nodup)
    (hr : ∀ e ∈ l, (row0 : Int) ≤ e.1 ∧ e.1 < row0 + im.npix)
    (hk : ∀ y x : Nat, y < im.h → x < im.w →
        keySum l ((row0 : Int) + (y * im.w + x : Nat)) = d.at x y * im.inverr.px y x) :
    ∀ e ∈ l, ∃ y x : Nat, y < im.h ∧ x < im.w ∧ e.2 = d.at x y * im.inverr.px y x := by
  intro e he
  have h := hr e he
  obtain ⟨k, hk0⟩ : ∃ k : Nat, e.1 = (row0 : Int) + k := ⟨(e.1 - row0).toNat, by omega⟩
  have hlt : k < im.h * im.w := by simp only [Img.npix] at h; omega
  have hw : 0 < im.w := by
    rcases Nat.eq_zero_or_pos im.w with h0 | h0
    · rw [h0] at hlt; omega
    · exact h0
  have hy : k / im.w < im.h := by rw [Nat.div_lt_iff_lt_mul hw]; exact hlt
  have hx : k % im.w < im.w := Nat.mod_lt _ hw
  refine ⟨k / im.w, k % im.w, hy, hx, ?_⟩
  rw [← hk _ _ hy hx, Nat.div_add_mod', ← hk0, keySum_mem l hn e he]

end field

end Verif.Lsq
