import Verif.Sky.Lemmas
import Verif.Psf.Lemmas
import Mathlib.Algebra.Field.Rat

/-!
# Spline sky models: properties

* C54: the boxes in which `BlantonMethod` estimates the sky cover the image.
* C73: when `BlantonMethod` makes a sky at all.
* C53: the smoothness prior and its derivatives.
-/

namespace Verif.Sky

variable {R : Type}

/-! ### Specification -/

/-- `S` is the part of `A` within `hb` pixels of the point (`x`, `y`): columns `x - hb ≤ c < x + hb`, rows likewise.
`top`, `left` say where it starts. -/
def Window {α : Type} (A S : Arr α) (x y hb : Int) (top left : Nat) : Prop :=
  (∀ r : Nat, (top ≤ r ∧ r < top + S.h) ↔ (r < A.h ∧ y - hb ≤ r ∧ r < y + hb)) ∧
  (∀ c : Nat, (left ≤ c ∧ c < left + S.w) ↔ (c < A.w ∧ x - hb ≤ c ∧ c < x + hb)) ∧
  ∀ i j, S.px i j = A.px (top + i) (left + j)

/-! ### The grid -/

/-- The box of grid position `i` is not empty, as a slice. -/
theorem axis_box (n hb i : Nat) (hn : 0 < n) (h : hb ≠ 0) (hi : i < gridCount n hb) :
    let b := box n hb (gridPos n hb i)
    let ax := Arr.axis n (some b.1) (some b.2)
    0 < ax.2 ∧ ∀ c : Nat, (ax.1 ≤ c ∧ c < ax.1 + ax.2) ↔
      (c < n ∧ gridPos n hb i - hb ≤ c ∧ (c : Int) < gridPos n hb i + hb) := by
  intro b ax
  have hlo : -((hb / 2 : Nat) : Int) ≤ gridPos n hb i := by
    rcases Nat.eq_zero_or_pos i with rfl | hi0
    · rw [gridPos_zero]; omega
    · obtain ⟨k, rfl⟩ : ∃ k, i = k + 1 := ⟨i - 1, by omega⟩
      rw [gridPos_succ]; omega
  have hhi : gridPos n hb i - hb < n := by
    have hd := Nat.div_add_mod n hb
    have hm := Nat.mod_lt n (show 0 < hb by omega)
    rcases Nat.eq_zero_or_pos i with rfl | hi0
    · rw [gridPos_zero]; omega
    · obtain ⟨k, rfl⟩ : ∃ k, i = k + 1 := ⟨i - 1, by omega⟩
      rw [gridPos_succ]
      simp only [gridCount] at hi
      have : hb * k ≤ hb * (n / hb) := Nat.mul_le_mul_left hb (by omega)
      omega
  simp only [ax, b, box]
  generalize gridPos n hb i = x at *
  have e := Psf.axis_of n (max 0 (x - hb)) (min n (x + hb)) (by omega) (by omega)
  rw [e]
  constructor
  · simp only []; omega
  · intro c; simp only []; omega

/-- Every pixel is within the box of some grid position. -/
theorem covered (n hb c : Nat) (h : hb ≠ 0) (hc : c < n) :
    ∃ i, i < gridCount n hb ∧ gridPos n hb i - hb ≤ c ∧ (c : Int) < gridPos n hb i + hb := by
  have hd := Nat.div_add_mod c hb
  have hm := Nat.mod_lt c (show 0 < hb by omega)
  have hm' := Nat.mod_lt n (show 0 < hb by omega)
  have hle := Nat.div_le_div_right (c := hb) (show c ≤ n by omega)
  refine ⟨c / hb + 1, by simp only [gridCount]; omega, ?_⟩
  rw [gridPos_succ]
  omega

theorem window_slice {α : Type} (A : Arr α) (hb iy ix : Nat) (hh : 0 < A.h) (hw : 0 < A.w) (h : hb ≠ 0)
    (hy : iy < gridCount A.h hb) (hx : ix < gridCount A.w hb) :
    let yb := box A.h hb (gridPos A.h hb iy)
    let xb := box A.w hb (gridPos A.w hb ix)
    let S := A.slice (some yb.1) (some yb.2) (some xb.1) (some xb.2)
    0 < S.h ∧ 0 < S.w ∧ Window A S (gridPos A.w hb ix) (gridPos A.h hb iy) hb
      (Arr.axis A.h (some yb.1) (some yb.2)).1 (Arr.axis A.w (some xb.1) (some xb.2)).1 := by
  intro yb xb S
  have ey := axis_box A.h hb iy hh h hy
  have ex := axis_box A.w hb ix hw h hx
  exact ⟨ey.1, ex.1, ey.2, ex.2, fun i j => rfl⟩

/-- **C54** (with a mask).  When `BlantonMethod` makes a sky for an image that is not empty, the value at every
grid point is the estimate from a non-empty box of pixels, namely those within half the grid size of the grid
point, and every pixel of the image is in the box of some grid point. -/
theorem C54_cover_partial (est : Arr R → Arr Bool → R) (image : Arr R) (mask : Arr Bool) (gridsize : Nat) (g : Grid R)
    (hh : 0 < image.h) (hw : 0 < image.w) (hmh : mask.h = image.h) (hmw : mask.w = image.w)
    (h : blanton est image (some mask) gridsize = .ok g) :
    g.vals.w = g.xgrid.length ∧ g.vals.h = g.ygrid.length ∧
    (∀ iy ix, iy < g.vals.h → ix < g.vals.w → ∃ S M top left, g.vals.px iy ix = est S M ∧ 0 < S.h ∧ 0 < S.w ∧
      Window image S (g.xgrid.getD ix 0) (g.ygrid.getD iy 0) (gridsize / 2 : Nat) top left ∧
      Window mask M (g.xgrid.getD ix 0) (g.ygrid.getD iy 0) (gridsize / 2 : Nat) top left) ∧
    (∀ r c, r < image.h → c < image.w → ∃ iy ix, iy < g.vals.h ∧ ix < g.vals.w ∧
      g.ygrid.getD iy 0 - (gridsize / 2 : Nat) ≤ r ∧ (r : Int) < g.ygrid.getD iy 0 + (gridsize / 2 : Nat) ∧
      g.xgrid.getD ix 0 - (gridsize / 2 : Nat) ≤ c ∧ (c : Int) < g.xgrid.getD ix 0 + (gridsize / 2 : Nat)) := by
  simp only [blanton] at h
  generalize gridsize / 2 = hb at *
  split at h
  · exact absurd h (by simp)
  · rename_i h0
    split at h
    swap
    · exact absurd h (by simp)
    · injection h with h
      subst h
      have gx : ∀ n i, i < gridCount n hb → ((List.range (gridCount n hb)).map (gridPos n hb)).getD i 0 = gridPos n hb i := by
        intro n i hi
        simp [List.getD_eq_getElem?_getD, hi]
      refine ⟨by simp, by simp, ?_, ?_⟩
      · intro iy ix hy hx
        simp only [] at hy hx
        have w := window_slice image hb iy ix hh hw h0 hy hx
        have wm := window_slice mask hb iy ix (by omega) (by omega) h0 (by rw [hmh]; exact hy) (by rw [hmw]; exact hx)
        refine ⟨_, _, (Arr.axis image.h (some (box image.h hb (gridPos image.h hb iy)).1)
            (some (box image.h hb (gridPos image.h hb iy)).2)).1, (Arr.axis image.w (some (box image.w hb (gridPos image.w hb ix)).1)
            (some (box image.w hb (gridPos image.w hb ix)).2)).1, rfl, w.1, w.2.1, ?_, ?_⟩
        · simp only []
          rw [gx _ _ hx, gx _ _ hy]
          exact w.2.2
        · simp only []
          rw [gx _ _ hx, gx _ _ hy]
          simp only [hmh, hmw] at wm
          exact wm.2.2
      · intro r c hr hc
        obtain ⟨iy, hy, hy'⟩ := covered image.h hb r h0 hr
        obtain ⟨ix, hx, hx'⟩ := covered image.w hb c h0 hc
        refine ⟨iy, ix, hy, hx, ?_⟩
        simp only []
        rw [gx _ _ hx, gx _ _ hy]
        exact ⟨hy'.1, hy'.2, hx'.1, hx'.2⟩

/-- Sum of a box of pixels. -/
def total (A : Arr Rat) : Rat := ((List.range A.h).map (fun r => ((List.range A.w).map (A.px r)).sum)).sum

/-- A 9 by 10 image, grid size 5: six by seven grid points from -1 to 9 and -1 to 10. -/
example : (match blanton (fun A _ => total A) ⟨9, 10, fun r c => (r * c : Nat)⟩ (some ⟨9, 10, fun _ _ => true⟩) 5 with
    | .ok g => some (g.xgrid, g.ygrid, g.vals.px 0 0, g.vals.px 1 1)
    | .error _ => none) = some ([-1, 1, 3, 5, 7, 9, 11], [-1, 1, 3, 5, 7, 9], 0, 9) := by decide +kernel

/-- **C54**, negation for the default.  `mask=None` is documented as "no masking", but the call then fails for every
image and every grid size of at least two: no sky is made. -/
theorem C54_mask_none_false (est : Arr R → Arr Bool → R) (image : Arr R) (gridsize : Nat) (h : 2 ≤ gridsize) :
    (match blanton est image none gridsize with | .ok _ => none | .error e => some e) = some PyErr.nameErr := by
  have h0 : ¬ gridsize / 2 = 0 := by omega
  simp only [blanton]
  rw [if_neg h0]

example : (match blanton (fun A _ => total A) ⟨9, 10, fun r c => (r * c : Nat)⟩ none 5 with
    | .ok _ => none | .error e => some e) = some PyErr.nameErr := by decide +kernel

/-- **C73**.  With a mask, `BlantonMethod` makes a sky exactly when the grid size is at least four and no larger
than (for odd sizes: one more than) the image in both directions. -/
theorem C73_succeeds_iff (est : Arr R → Arr Bool → R) (image : Arr R) (mask : Arr Bool) (gridsize : Nat) :
    (∃ g, blanton est image (some mask) gridsize = .ok g) ↔
      (4 ≤ gridsize ∧ gridsize ≤ image.w + gridsize % 2 ∧ gridsize ≤ image.h + gridsize % 2) := by
  by_cases h0 : gridsize / 2 = 0
  · simp only [blanton, if_pos h0]
    constructor
    · rintro ⟨g, hg⟩; exact absurd hg (by simp)
    · intro h; omega
  · simp only [blanton]
    rw [if_neg h0]
    have ex := axisOk_iff image.w _ h0
    have ey := axisOk_iff image.h _ h0
    constructor
    · rintro ⟨g, hg⟩
      split at hg
      · rename_i hb
        rw [Bool.and_eq_true, ex, ey] at hb
        omega
      · exact absurd hg (by simp)
    · intro h
      refine ⟨_, if_pos ?_⟩
      rw [Bool.and_eq_true, ex, ey]
      omega

/-- Grid size 3 (half of it, rounded down, is 1): the first two grid points coincide, and the spline refuses them. -/
example : (match blanton (fun A _ => total A) ⟨9, 10, fun r c => (r * c : Nat)⟩ (some ⟨9, 10, fun _ _ => true⟩) 3 with
    | .ok _ => none | .error e => some e) = some PyErr.value := by decide +kernel

/-- Grid size 11 for an image of 10 rows is accepted. -/
example : (match blanton (fun A _ => total A) ⟨10, 12, fun r c => (r * c : Nat)⟩ (some ⟨10, 12, fun _ _ => true⟩) 11 with
    | .ok g => some g.ygrid | .error _ => none) = some [-2, 2, 7, 12] := by decide +kernel

/-! ### The smoothness prior -/

section
variable [Field R]

/-- `-1/2 |b - A d|²`. -/
def chi2 (t : PriorTerms R) (d : Nat → R) : R :=
  -(1 / 2) * ((List.range t.b.length).map (fun k => (t.b.getD k 0 - applyRow t.A d k) ^ 2)).sum

theorem coef_add (v d : List R) (h : v.length = d.length) (i : Nat) :
    coef (v.zipWith (· + ·) d) i = coef v i + coef d i := by
  simp only [coef, List.getD_eq_getElem?_getD]
  rcases Nat.lt_or_ge i v.length with g | g
  · have g' : i < d.length := by omega
    simp [g, g']
  · have g' : d.length ≤ i := by omega
    simp [g, g']

theorem getD_append_left' (a b : List R) (i : Nat) (h : i < a.length) : (a ++ b).getD i 0 = a.getD i 0 := by
  simp [List.getD_eq_getElem?_getD, List.getElem?_append_left h]

theorem getD_append_right' (a b : List R) (i : Nat) : (a ++ b).getD (a.length + i) 0 = b.getD i 0 := by
  simp [List.getD_eq_getElem?_getD, List.getElem?_append_right]

theorem getD_div (l : List R) (s : R) (i : Nat) : (l.map (· / s)).getD i 0 = l.getD i 0 / s := by
  rcases Nat.lt_or_ge i l.length with g | g
  · rw [getD_map l _ i 0 0 g]
  · simp [List.getD_eq_getElem?_getD, g]

/-- **C53** (consistency).  For a smoothness prior on any grid, with nothing frozen: the log-prior after adding `d`
to the coefficients is `-1/2 |b - A d|²` with the matrix and right-hand side that `getLogPriorDerivatives` returns
before. -/
theorem C53_consistent (W H : Nat) (vals d : List R) (sig : R) (hv : vals.length = W * H) (hd : d.length = W * H) :
    ∃ t, logPriorDerivs ⟨W, H, vals, some sig⟩ = .ok (some t) ∧
      logPrior ⟨W, H, vals.zipWith (· + ·) d, some sig⟩ = .ok (chi2 t (coef d)) := by
  have hv' : (vals.zipWith (· + ·) d).length = W * H := by simp [hv, hd]
  simp only [logPriorDerivs, logPrior, paramGrid, if_pos hv, if_pos hv', Except.map]
  refine ⟨_, rfl, ?_⟩
  congr 1
  have hc := coef_add vals d (by omega)
  simp only [hc, chi2]
  have l1 := ravel2_length H (W - 1) (fun r c => coef vals (r * W + (c + 1)) - coef vals (r * W + c))
  have l2 := ravel2_length (H - 1) W (fun r c => coef vals ((r + 1) * W + c) - coef vals (r * W + c))
  have split : ∀ (n m : Nat) (f : Nat → R), ((List.range (n + m)).map f).sum =
      ((List.range n).map (fun i => f (0 + i))).sum + ((List.range m).map (fun i => f (n + i))).sum := by
    intro n m f
    rw [List.range_add, List.map_append, List.sum_append, List.map_map]
    simp [Function.comp_def]
  rw [List.length_append, List.length_map, List.length_map, l1, l2, split]
  have L := ravel2_length (A := Nat)
  have hbx : ∀ i, i < H * (W - 1) → ((ravel2 H (W - 1) (fun r c => coef vals (r * W + (c + 1)) - coef vals (r * W + c))).map (· / sig) ++
      (ravel2 (H - 1) W (fun r c => coef vals ((r + 1) * W + c) - coef vals (r * W + c))).map (· / sig)).getD (0 + i) 0 =
      (ravel2 H (W - 1) (fun r c => coef vals (r * W + (c + 1)) - coef vals (r * W + c))).getD i 0 / sig := by
    intro i hi
    rw [Nat.zero_add, getD_append_left' _ _ _ (by rw [List.length_map, l1]; exact hi), getD_div]
  have hby : ∀ i, i < (H - 1) * W → ((ravel2 H (W - 1) (fun r c => coef vals (r * W + (c + 1)) - coef vals (r * W + c))).map (· / sig) ++
      (ravel2 (H - 1) W (fun r c => coef vals ((r + 1) * W + c) - coef vals (r * W + c))).map (· / sig)).getD (H * (W - 1) + i) 0 =
      (ravel2 (H - 1) W (fun r c => coef vals ((r + 1) * W + c) - coef vals (r * W + c))).getD i 0 / sig := by
    intro i hi
    have := getD_append_right' ((ravel2 H (W - 1) (fun r c => coef vals (r * W + (c + 1)) - coef vals (r * W + c))).map (· / sig))
      ((ravel2 (H - 1) W (fun r c => coef vals ((r + 1) * W + c) - coef vals (r * W + c))).map (· / sig)) i
    rw [List.length_map, l1] at this
    rw [this, getD_div]
  generalize (ravel2 H (W - 1) (fun r c => coef vals (r * W + (c + 1)) - coef vals (r * W + c))).map (· / sig) ++
      (ravel2 (H - 1) W (fun r c => coef vals ((r + 1) * W + c) - coef vals (r * W + c))).map (· / sig) = B at *
  have hrx : ∀ i, i < H * (W - 1) → applyRow (block 0 (ravel2 H (W - 1) (fun r c => r * W + c)) (1 / sig) ++
          block 0 (ravel2 H (W - 1) (fun r c => r * W + (c + 1))) (-1 / sig) ++
          block (H * (W - 1)) (ravel2 (H - 1) W (fun r c => r * W + c)) (1 / sig) ++
          block (H * (W - 1)) (ravel2 (H - 1) W (fun r c => (r + 1) * W + c)) (-1 / sig)) (coef d) (0 + i) =
        1 / sig * coef d ((ravel2 H (W - 1) (fun r c => r * W + c)).getD i 0) +
          -1 / sig * coef d ((ravel2 H (W - 1) (fun r c => r * W + (c + 1))).getD i 0) := by
    intro i hi
    simp only [applyRow_append, applyRow_block, L]
    rw [if_pos (by omega), if_pos (by omega), if_neg (by omega), if_neg (by omega)]
    simp
  have hry : ∀ i, i < (H - 1) * W → applyRow (block 0 (ravel2 H (W - 1) (fun r c => r * W + c)) (1 / sig) ++
          block 0 (ravel2 H (W - 1) (fun r c => r * W + (c + 1))) (-1 / sig) ++
          block (H * (W - 1)) (ravel2 (H - 1) W (fun r c => r * W + c)) (1 / sig) ++
          block (H * (W - 1)) (ravel2 (H - 1) W (fun r c => (r + 1) * W + c)) (-1 / sig)) (coef d) (H * (W - 1) + i) =
        1 / sig * coef d ((ravel2 (H - 1) W (fun r c => r * W + c)).getD i 0) +
          -1 / sig * coef d ((ravel2 (H - 1) W (fun r c => (r + 1) * W + c)).getD i 0) := by
    intro i hi
    simp only [applyRow_append, applyRow_block, L]
    rw [if_neg (by omega), if_neg (by omega), if_pos (by omega), if_pos (by omega)]
    rw [Nat.add_sub_cancel_left]
    ring
  generalize (block 0 (ravel2 H (W - 1) (fun r c => r * W + c)) (1 / sig) ++
          block 0 (ravel2 H (W - 1) (fun r c => r * W + (c + 1))) (-1 / sig) ++
          block (H * (W - 1)) (ravel2 (H - 1) W (fun r c => r * W + c)) (1 / sig) ++
          block (H * (W - 1)) (ravel2 (H - 1) W (fun r c => (r + 1) * W + c)) (-1 / sig)) = A at *
  have r1 := rows_sum H (W - 1) 0 sig
      (fun r c => coef vals (r * W + (c + 1)) - coef vals (r * W + c))
      (fun r c => coef vals (r * W + (c + 1)) + coef d (r * W + (c + 1)) - (coef vals (r * W + c) + coef d (r * W + c)))
      (fun r c => r * W + c) (fun r c => r * W + (c + 1)) (coef d) (fun k => B.getD k 0) (applyRow A (coef d)) hbx hrx
      (fun r c => by ring)
  have r2 := rows_sum (H - 1) W (H * (W - 1)) sig
      (fun r c => coef vals ((r + 1) * W + c) - coef vals (r * W + c))
      (fun r c => coef vals ((r + 1) * W + c) + coef d ((r + 1) * W + c) - (coef vals (r * W + c) + coef d (r * W + c)))
      (fun r c => r * W + c) (fun r c => (r + 1) * W + c) (coef d) (fun k => B.getD k 0) (applyRow A (coef d)) hby hry
      (fun r c => by ring)
  beta_reduce at r1 r2
  rw [r1, r2]
  ring

/-- 2 by 3 grid (not square): before the step the log-prior is `-1/2 |b|²`, after it `-1/2 |b - A d|²`. -/
example : (match logPriorDerivs (⟨2, 3, [1, 5, 2, 0, 3, 7], some 2⟩ : Smooth Rat),
      logPrior (⟨2, 3, [1, 5, 2, 0, 3, 7].zipWith (· + ·) [1, 0, -2, 0, 1, 4], some 2⟩ : Smooth Rat) with
    | .ok (some t), .ok l => some (t.b, chi2 t (coef [1, 0, -2, 0, 1, 4]), l)
    | _, _ => none) = some ([2, -1, 2, 1 / 2, -5 / 2, 1 / 2, 7 / 2], -28, -28) := by decide +kernel

/-! ### Which coefficients are coupled -/

/-- Two coefficients that appear in one term of the prior. -/
def Coupled (t : PriorTerms R) (a b : Nat) : Prop := a ≠ b ∧ ∃ k v w, (k, a, v) ∈ t.A ∧ (k, b, w) ∈ t.A

/-- Neighbours on the grid. -/
def Adjacent (p q : Nat × Nat) : Prop :=
  (p.1 = q.1 ∧ (p.2 + 1 = q.2 ∨ q.2 + 1 = p.2)) ∨ (p.2 = q.2 ∧ (p.1 + 1 = q.1 ∨ q.1 + 1 = p.1))

omit [Field R] in
theorem mem_block_ravel (off h w : Nat) (I : Nat → Nat → Nat) (v u : R) (k a : Nat) :
    (k, a, u) ∈ block off (ravel2 h w I) v ↔
      ∃ i, i < h * w ∧ k = off + i ∧ a = I (rc h w i).1 (rc h w i).2 ∧ u = v := by
  simp only [block, List.mem_map, Prod.mk.injEq]
  constructor
  · rintro ⟨⟨c, i⟩, hm, rfl, rfl, rfl⟩
    have := List.mem_zipIdx_iff_getElem?.1 hm
    have hl : i < h * w := by
      rw [← ravel2_length h w I]
      exact (List.getElem?_eq_some_iff.1 this).1
    refine ⟨i, hl, rfl, ?_, rfl⟩
    rw [← ravel2_getD h w I 0 i hl]
    simp only [] at this
    simp [List.getD_eq_getElem?_getD, this]
  · rintro ⟨i, hl, rfl, rfl, rfl⟩
    refine ⟨(_, i), List.mem_zipIdx_iff_getElem?.2 ?_, rfl, rfl, rfl⟩
    rw [← ravel2_getD h w I 0 i hl]
    have : i < (ravel2 h w I).length := by rw [ravel2_length]; exact hl
    simp [List.getD_eq_getElem?_getD, this]

theorem rc_lt (h w i : Nat) (hi : i < h * w) : (rc h w i).1 < h ∧ (rc h w i).2 < w := by
  have hl : i < (ravel2 h w Prod.mk).length := by rw [ravel2_length]; exact hi
  have : rc h w i ∈ ravel2 h w Prod.mk := by
    simp only [rc, List.getD_eq_getElem?_getD, hl, List.getElem?_eq_getElem, Option.getD_some]
    exact List.getElem_mem hl
  simp only [ravel2, List.mem_flatMap, List.mem_range, List.mem_map] at this
  obtain ⟨r, hr, c, hc, e⟩ := this
  rw [← e]; exact ⟨hr, hc⟩

theorem rc_surj (h w r c : Nat) (hr : r < h) (hc : c < w) : ∃ i, i < h * w ∧ rc h w i = (r, c) := by
  have : (r, c) ∈ ravel2 h w Prod.mk := by
    simp only [ravel2, List.mem_flatMap, List.mem_range, List.mem_map]
    exact ⟨r, hr, c, hc, rfl⟩
  obtain ⟨i, hi, e⟩ := List.getElem_of_mem this
  rw [ravel2_length] at hi
  refine ⟨i, hi, ?_⟩
  simp only [rc, List.getD_eq_getElem?_getD]
  rw [List.getElem?_eq_getElem (by rw [ravel2_length]; exact hi), Option.getD_some, e]

/-- The coupled pairs are those that are neighbours in the array with `W` columns. -/
theorem coupled_iff (W H : Nat) (vals : List R) (sig : R) (hv : vals.length = W * H) (t : PriorTerms R)
    (ht : logPriorDerivs ⟨W, H, vals, some sig⟩ = .ok (some t)) (a b : Nat) :
    Coupled t a b ↔ a ≠ b ∧
      ((∃ r c, r < H ∧ c < W - 1 ∧ (a = r * W + c ∨ a = r * W + (c + 1)) ∧ (b = r * W + c ∨ b = r * W + (c + 1))) ∨
       (∃ r c, r < H - 1 ∧ c < W ∧ (a = r * W + c ∨ a = (r + 1) * W + c) ∧ (b = r * W + c ∨ b = (r + 1) * W + c))) := by
  simp only [logPriorDerivs, paramGrid, if_pos hv, Except.map, Except.ok.injEq, Option.some.injEq] at ht
  subst ht
  simp only [Coupled, List.mem_append, mem_block_ravel, ravel2_length]
  refine and_congr_right (fun hne => ?_)
  constructor
  · rintro ⟨k, v, w, h1, h2⟩
    by_cases hk : k < H * (W - 1)
    · left
      have hl := rc_lt H (W - 1) k hk
      refine ⟨_, _, hl.1, hl.2, ?_, ?_⟩
      · rcases h1 with ((⟨i, hi, e, e2, -⟩ | ⟨i, hi, e, e2, -⟩) | ⟨i, hi, e, -⟩) | ⟨i, hi, e, -⟩
        · rw [Nat.zero_add] at e; subst e; exact .inl e2
        · rw [Nat.zero_add] at e; subst e; exact .inr e2
        · omega
        · omega
      · rcases h2 with ((⟨i, hi, e, e2, -⟩ | ⟨i, hi, e, e2, -⟩) | ⟨i, hi, e, -⟩) | ⟨i, hi, e, -⟩
        · rw [Nat.zero_add] at e; subst e; exact .inl e2
        · rw [Nat.zero_add] at e; subst e; exact .inr e2
        · omega
        · omega
    · right
      have hk' : k - H * (W - 1) < (H - 1) * W := by
        rcases h1 with ((⟨i, hi, e, -⟩ | ⟨i, hi, e, -⟩) | ⟨i, hi, e, -⟩) | ⟨i, hi, e, -⟩ <;> omega
      have hl := rc_lt (H - 1) W _ hk'
      refine ⟨_, _, hl.1, hl.2, ?_, ?_⟩
      · rcases h1 with ((⟨i, hi, e, e2, -⟩ | ⟨i, hi, e, e2, -⟩) | ⟨i, hi, e, e2, -⟩) | ⟨i, hi, e, e2, -⟩
        · omega
        · omega
        · rw [show k - H * (W - 1) = i by omega]; exact .inl e2
        · rw [show k - H * (W - 1) = i by omega]; exact .inr e2
      · rcases h2 with ((⟨i, hi, e, e2, -⟩ | ⟨i, hi, e, e2, -⟩) | ⟨i, hi, e, e2, -⟩) | ⟨i, hi, e, e2, -⟩
        · omega
        · omega
        · rw [show k - H * (W - 1) = i by omega]; exact .inl e2
        · rw [show k - H * (W - 1) = i by omega]; exact .inr e2
  · rintro (⟨r, c, hr, hc, ha, hb⟩ | ⟨r, c, hr, hc, ha, hb⟩)
    · obtain ⟨i, hi, e⟩ := rc_surj H (W - 1) r c hr hc
      have go : ∀ x, (x = r * W + c ∨ x = r * W + (c + 1)) → ∃ v : R,
          (((∃ j, j < H * (W - 1) ∧ i = 0 + j ∧ x = (rc H (W - 1) j).1 * W + (rc H (W - 1) j).2 ∧ v = 1 / sig) ∨
            ∃ j, j < H * (W - 1) ∧ i = 0 + j ∧ x = (rc H (W - 1) j).1 * W + ((rc H (W - 1) j).2 + 1) ∧ v = -1 / sig)) := by
        rintro x (hx | hx)
        · exact ⟨_, .inl ⟨i, hi, by omega, by rw [e]; exact hx, rfl⟩⟩
        · exact ⟨_, .inr ⟨i, hi, by omega, by rw [e]; exact hx, rfl⟩⟩
      obtain ⟨v, hv1⟩ := go a ha
      obtain ⟨w, hw1⟩ := go b hb
      exact ⟨i, v, w, .inl (.inl hv1), .inl (.inl hw1)⟩
    · obtain ⟨i, hi, e⟩ := rc_surj (H - 1) W r c hr hc
      have hsucc : ∀ x, x = (r + 1) * W + c → x = ((rc (H - 1) W i).1 + 1) * W + (rc (H - 1) W i).2 := by
        intro x hx; rw [e]; exact hx
      have hsame : ∀ x, x = r * W + c → x = (rc (H - 1) W i).1 * W + (rc (H - 1) W i).2 := by
        intro x hx; rw [e]; exact hx
      have ha' : ∃ v : R, (∃ j, j < (H - 1) * W ∧ H * (W - 1) + i = H * (W - 1) + j ∧
            a = (rc (H - 1) W j).1 * W + (rc (H - 1) W j).2 ∧ v = 1 / sig) ∨
          ∃ j, j < (H - 1) * W ∧ H * (W - 1) + i = H * (W - 1) + j ∧
            a = ((rc (H - 1) W j).1 + 1) * W + (rc (H - 1) W j).2 ∧ v = -1 / sig := by
        rcases ha with h | h
        · exact ⟨_, .inl ⟨i, hi, rfl, hsame a h, rfl⟩⟩
        · exact ⟨_, .inr ⟨i, hi, rfl, hsucc a h, rfl⟩⟩
      have hb' : ∃ v : R, (∃ j, j < (H - 1) * W ∧ H * (W - 1) + i = H * (W - 1) + j ∧
            b = (rc (H - 1) W j).1 * W + (rc (H - 1) W j).2 ∧ v = 1 / sig) ∨
          ∃ j, j < (H - 1) * W ∧ H * (W - 1) + i = H * (W - 1) + j ∧
            b = ((rc (H - 1) W j).1 + 1) * W + (rc (H - 1) W j).2 ∧ v = -1 / sig := by
        rcases hb with h | h
        · exact ⟨_, .inl ⟨i, hi, rfl, hsame b h, rfl⟩⟩
        · exact ⟨_, .inr ⟨i, hi, rfl, hsucc b h, rfl⟩⟩
      obtain ⟨v, hv1⟩ := ha'
      obtain ⟨w, hw1⟩ := hb'
      refine ⟨H * (W - 1) + i, v, w, ?_, ?_⟩
      · rcases hv1 with h | h
        · exact .inl (.inr h)
        · exact .inr h
      · rcases hw1 with h | h
        · exact .inl (.inr h)
        · exact .inr h

theorem gridPoint_mul (H r c : Nat) (hc : c < H) : gridPoint H (r * H + c) = (r, c) := by
  simp only [gridPoint]
  rw [Nat.mul_comm, Nat.mul_add_div (by omega), Nat.mul_add_mod, Nat.div_eq_of_lt hc, Nat.mod_eq_of_lt hc, Nat.add_zero]

/-- **C53** (adjacency).  Coefficient `k` belongs to grid point `(k / H, k % H)`.  Every term of the prior couples
two neighbouring grid points if the grid is square — and only then. -/
theorem C53_adjacent_partial (W H : Nat) (vals : List R) (sig : R) (hv : vals.length = W * H) (hW : 2 ≤ W) (hH : 2 ≤ H)
    (t : PriorTerms R) (ht : logPriorDerivs ⟨W, H, vals, some sig⟩ = .ok (some t)) :
    (∀ a b, Coupled t a b → Adjacent (gridPoint H a) (gridPoint H b)) ↔ W = H := by
  have key := coupled_iff W H vals sig hv t ht
  constructor
  · intro h
    by_contra hne
    rcases Nat.lt_or_gt_of_ne hne with hlt | hgt
    · have := h 0 W ((key 0 W).2 ⟨by omega, .inr ⟨0, 0, by omega, by omega, .inl (by omega), .inr (by omega)⟩⟩)
      simp only [gridPoint, Nat.zero_div, Nat.zero_mod, Nat.div_eq_of_lt hlt, Nat.mod_eq_of_lt hlt, Adjacent] at this
      omega
    · have := h (H - 1) H ((key (H - 1) H).2 ⟨by omega, .inl ⟨0, H - 1, by omega, by omega, .inl (by omega), .inr (by omega)⟩⟩)
      have h1 : H - 1 < H := by omega
      simp only [gridPoint, Nat.div_eq_of_lt h1, Nat.mod_eq_of_lt h1, Nat.mod_self, Nat.div_self (show 0 < H by omega),
        Adjacent] at this
      omega
  · rintro rfl a b hab
    obtain ⟨hne, h⟩ := (key a b).1 hab
    rcases h with ⟨r, c, hr, hc, ha, hb⟩ | ⟨r, c, hr, hc, ha, hb⟩
    · have e1 := gridPoint_mul W r c (by omega)
      have e2 := gridPoint_mul W r (c + 1) (by omega)
      rcases ha with ha | ha <;> rcases hb with hb | hb <;> subst ha <;> subst hb <;>
        first | exact absurd rfl hne | (rw [e1, e2]; simp [Adjacent])
    · have e1 := gridPoint_mul W r c (by omega)
      have e2 := gridPoint_mul W (r + 1) c (by omega)
      rcases ha with ha | ha <;> rcases hb with hb | hb <;> subst ha <;> subst hb <;>
        first | exact absurd rfl hne | (rw [e1, e2]; simp [Adjacent])

/-- **C53**, negation.  On a grid of 2 by 3 points the prior couples coefficients 2 and 3, which belong to the grid
points (0, 2) and (1, 0): not neighbours. -/
theorem C53_non_square_false : ∃ t : PriorTerms Rat,
    logPriorDerivs ⟨2, 3, [1, 5, 2, 0, 3, 7], some 2⟩ = .ok (some t) ∧ Coupled t 2 3 ∧
      ¬ Adjacent (gridPoint 3 2) (gridPoint 3 3) := by
  refine ⟨_, rfl, ?_, by simp [Adjacent, gridPoint]⟩
  exact (coupled_iff 2 3 [1, 5, 2, 0, 3, 7] 2 rfl _ rfl 2 3).2 ⟨by omega, .inl ⟨1, 0, by omega, by omega, .inl rfl, .inr rfl⟩⟩

/-- Square grid: coefficients 3 and 6 are coupled and belong to the neighbours (1, 0) and (2, 0). -/
example : ∃ t : PriorTerms Rat, logPriorDerivs ⟨3, 3, [1, 5, 2, 0, 3, 7, 0, 0, 1], some 2⟩ = .ok (some t) ∧
    Coupled t 3 6 ∧ Adjacent (gridPoint 3 3) (gridPoint 3 6) := by
  refine ⟨_, rfl, ?_, by simp [Adjacent, gridPoint]⟩
  exact (coupled_iff 3 3 [1, 5, 2, 0, 3, 7, 0, 0, 1] 2 rfl _ rfl 3 6).2
    ⟨by omega, .inr ⟨1, 0, by omega, by omega, .inl rfl, .inr rfl⟩⟩

end
end Verif.Sky
