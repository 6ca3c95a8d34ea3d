import Verif.Patch.Lemmas2
import Mathlib.Algebra.Order.Ring.Int
import Mathlib.Data.List.Nodup

/-!
# Properties C23–C28, C61, C62: image patches

`p.covers x y`: the patch has a pixel at image position `(x, y)`; `p.at x y`: its value there, 0
outside the footprint (`Verif/Patch/Spec.lean`).
-/

namespace Verif.Patches

open Verif

variable {α : Type}

/-- A 2×2 patch at (3, 4). -/
def exA : Patch Int := ⟨3, 4, some (Arr.ofLists [[1, 2], [3, 4]] 2)⟩
/-- A 1×3 patch at (-1, 5), overlapping `exA` nowhere but inside its rows. -/
def exB : Patch Int := ⟨-1, 5, some (Arr.ofLists [[10, 20, 30]] 3)⟩
/-- A 1×3 patch at (2, 5) overlapping `exA`. -/
def exC : Patch Int := ⟨2, 5, some (Arr.ofLists [[10, 20, 30]] 3)⟩

/-- The pixels of a patch as rows (for examples). -/
def Patch.rows (p : Patch α) : Option (List (List α)) := p.patch.map Arr.toLists

/-! ## C23 -/

/-- **C23.** For patches holding an image, at any offsets and of any sizes, `a + b` and `a - b` do not
raise, every pixel is the sum (difference) of the zero-extended patches, and the footprint is the
bounding box of the two. -/
theorem C23_add_sub [AddGroup α] (p q : Patch α) (A B : Arr α) (hA : p.patch = some A)
    (hB : q.patch = some B) :
    (∃ r, p.add q = .ok r ∧ (∀ x y, r.at x y = p.at x y + q.at x y) ∧
      (∀ x y, p.covers x y ∨ q.covers x y → r.covers x y) ∧
      r.extent = (min p.x0 q.x0, max (p.x0 + A.w) (q.x0 + B.w),
        min p.y0 q.y0, max (p.y0 + A.h) (q.y0 + B.h))) ∧
    (∃ r, p.sub q = .ok r ∧ (∀ x y, r.at x y = p.at x y - q.at x y) ∧
      (∀ x y, p.covers x y ∨ q.covers x y → r.covers x y) ∧
      r.extent = (min p.x0 q.x0, max (p.x0 + A.w) (q.x0 + B.w),
        min p.y0 q.y0, max (p.y0 + A.h) (q.y0 + B.h))) :=
  ⟨arith_ok (· + ·) (by simp) p q A B hA hB, arith_ok (· - ·) (by simp) p q A B hA hB⟩

/-- **C23 (None images).** A patch without image cannot be combined with one at another place: the
operation raises. -/
theorem C23_none_raises [AddGroup α] (p q : Patch α) (h : ¬ (p.x0 = q.x0 ∧ p.y0 = q.y0 ∧ p.shape = q.shape)) :
    (p.patch = none → p.add q = .error .attribute ∧ p.sub q = .error .attribute) ∧
    (∀ A, p.patch = some A → q.patch = none →
      p.add q = .error .typeErr ∧ p.sub q = .error .typeErr) := by
  constructor
  · intro hp
    simp only [Patch.add, Patch.sub, Patch.arith, if_neg h, hp, and_self]
  · intro A hp hq
    constructor <;> first | rw [Patch.add, Patch.arith, if_neg h] | rw [Patch.sub, Patch.arith, if_neg h]
    all_goals simp only [hp, hq, Patch.shape]
    all_goals rw [modify_range _ _ _ _ _ _ _ (by omega) (by omega) (by simp only [Arr.zeros]; omega)
      (by omega) (by omega) (by simp only [Arr.zeros]; omega) (by omega) (by omega)]

example : (exA.add exC).map (fun r => (r.x0, r.y0, r.rows)) =
    .ok (2, 4, some [[0, 1, 2], [10, 23, 34]]) := by decide
example : (exA.sub exB).map (fun r => (r.x0, r.y0, r.rows)) =
    .ok (-1, 4, some [[0, 0, 0, 0, 1, 2], [-10, -20, -30, 0, 3, 4]]) := by decide

/-! ## C24 -/

/-- **C24.** `p.addTo(img, scale)` never raises, keeps the image shape, adds `scale * p(x, y)` at every
image pixel covered by the patch, and leaves every other pixel alone. -/
theorem C24_addTo [Add α] [Mul α] [Zero α] (p : Patch α) (img : Arr α) (s : α) :
    ∃ r, p.addTo img s = .ok r ∧ r.h = img.h ∧ r.w = img.w ∧
      ∀ y x : Nat, y < img.h → x < img.w →
        (p.covers x y → r.px y x = img.px y x + p.at x y * s) ∧
        (¬ p.covers x y → r.px y x = img.px y x) := by
  obtain ⟨r, h1, h2, h3, h4⟩ := addTo_ok p img s
  refine ⟨r, h1, h2, h3, ?_⟩
  intro y x hy hx
  have := h4 y x hy hx
  constructor
  · intro h; rw [this, if_pos h]
  · intro h; rw [this, if_neg h]

example : (exB.addTo (Arr.zeros 7 3) 2).map Arr.toLists =
    .ok [[0, 0, 0], [0, 0, 0], [0, 0, 0], [0, 0, 0], [0, 0, 0], [40, 60, 0], [0, 0, 0]] := by decide
example : (exA.addTo (Arr.zeros 2 2) 1).map Arr.toLists = .ok [[0, 0], [0, 0]] := by decide

/-! ## C25 -/

/-- **C25 (partial).** `p.clipTo(W, H)` never raises; afterwards the patch covers exactly the pixels it
covered inside the image, with unchanged values; it returns False exactly when the patch has no image
afterwards, which is when it had none or starts right of or below the image.
Missing: when the patch lies entirely left of or above the image nothing is left but the result is
True (`C25_true_though_empty_false`). -/
theorem C25_clipTo_partial [Zero α] (p : Patch α) (W H : Nat) :
    ∃ q b, p.clipTo W H = (q, .ok b) ∧
      (∀ x y, q.covers x y ↔ p.covers x y ∧ 0 ≤ x ∧ x < W ∧ 0 ≤ y ∧ y < H) ∧
      (∀ x y, q.covers x y → q.at x y = p.at x y) ∧
      (b = false ↔ q.patch = none) ∧
      (b = false ↔ (p.patch = none ∨ (W : Int) ≤ p.x0 ∨ (H : Int) ≤ p.y0)) ∧
      (b = false → q.isEmpty) := by
  obtain ⟨q, b, h1, ⟨h2, h3⟩, h4, h5⟩ := clipTo_ok p W H
  refine ⟨q, b, h1, h2, ?_, h5, h4, ?_⟩
  · intro x y h; exact h3 x y ((h2 x y).1 h).2
  · intro hb x y; rw [h5] at hb; simp [Patch.covers, hb]

example : ((exC.clipTo 3 6).1.rows, (exC.clipTo 3 6).1.x0) = (some [[10]], 2) ∧
    ((exB.clipTo 3 6).1.rows, (exB.clipTo 3 6).1.x0) = (some [[20, 30]], 0) ∧
    (exA.clipTo 3 9).1.rows = none := by decide

/-- **C25 (negation).** A patch entirely to the left of the image: nothing is left, yet the result is
True (and the image is an array without columns). -/
theorem C25_true_though_empty_false :
    ∃ (p q : Patch Int), p.clipTo 5 9 = (q, .ok true) ∧ (∃ x y, p.covers x y) ∧ q.isEmpty := by
  refine ⟨⟨-10, 4, some (Arr.ofLists [[1, 2], [3, 4]] 2)⟩, _, rfl, ⟨-10, 4, by decide⟩, ?_⟩
  intro x y
  simp [Patch.covers, Arr.slice, Arr.axis, Arr.bound, Arr.ofLists]
  omega

/-! ## C26 -/

/-- **C26.** `p.clipToRoi(x0, x1, y0, y1)` for a proper ROI: afterwards the patch covers exactly the
pixels it covered inside the ROI, with unchanged values (coordinates stay those of the image); it
returns False exactly when no image is left; and for a nonempty patch and ROI exactly when no pixel
of the patch was inside the ROI. -/
theorem C26_clipToRoi [Zero α] (p : Patch α) (x0 x1 y0 y1 : Int) (hx : x0 ≤ x1) (hy : y0 ≤ y1) :
    (∀ x y, (p.clipToRoi x0 x1 y0 y1).1.covers x y ↔
      p.covers x y ∧ x0 ≤ x ∧ x < x1 ∧ y0 ≤ y ∧ y < y1) ∧
    (∀ x y, (p.clipToRoi x0 x1 y0 y1).1.covers x y →
      (p.clipToRoi x0 x1 y0 y1).1.at x y = p.at x y) ∧
    ((p.clipToRoi x0 x1 y0 y1).2 = false ↔ (p.clipToRoi x0 x1 y0 y1).1.patch = none) ∧
    (x0 < x1 → y0 < y1 → ¬ p.isEmpty →
      ((p.clipToRoi x0 x1 y0 y1).2 = true ↔ ¬ (p.clipToRoi x0 x1 y0 y1).1.isEmpty)) := by
  obtain ⟨⟨h1, h2⟩, h3, h4⟩ := clipToRoi_ok p x0 x1 y0 y1 hx hy
  refine ⟨h1, fun x y h => h2 x y ((h1 x y).1 h).2, h3, ?_⟩
  intro hx' hy' hne
  rw [h4]
  simp only [Patch.isEmpty, not_forall, not_not] at hne ⊢
  obtain ⟨x, y, hxy⟩ := hne
  cases hA : p.patch with
  | none => simp [Patch.covers, hA] at hxy
  | some A =>
    simp only [Patch.covers, hA] at hxy
    constructor
    · rintro ⟨B, hB, hb⟩
      cases hB
      refine ⟨max p.x0 x0, max p.y0 y0, ?_⟩
      rw [h1]
      simp only [Patch.covers, hA]
      omega
    · rintro ⟨x', y', hc⟩
      rw [h1] at hc
      simp only [Patch.covers, hA] at hc
      exact ⟨A, rfl, by omega⟩

example : ((exC.clipToRoi 3 5 0 9).1.rows, (exC.clipToRoi 3 5 0 9).1.x0) = (some [[20, 30]], 3) ∧
    (exC.clipToRoi 6 9 0 9).2 = false := by decide

/-! ## C27 -/

/-- First and last row and column each contain a nonzero pixel. -/
def TightBox [Zero α] (A : Arr α) : Prop :=
  (∃ c, c < A.w ∧ A.px 0 c ≠ 0) ∧ (∃ c, c < A.w ∧ A.px (A.h - 1) c ≠ 0) ∧
  (∃ r, r < A.h ∧ A.px r 0 ≠ 0) ∧ (∃ r, r < A.h ∧ A.px r (A.w - 1) ≠ 0)

/-- **C27 (partial).** `trimToNonZero()` changes no pixel of the zero-extended patch and does not grow
the footprint; afterwards the patch is empty or its box is tight.
Missing: a single-pixel patch of value 0, which is left as it is (`C27_single_zero_false`). -/
theorem C27_trim_partial [Zero α] [DecidableEq α] (p : Patch α) :
    (∀ x y, p.trimToNonZero.at x y = p.at x y) ∧
    (∀ x y, p.trimToNonZero.covers x y → p.covers x y) ∧
    (¬ (∃ A, p.patch = some A ∧ A.h = 1 ∧ A.w = 1 ∧ A.px 0 0 = 0) →
      p.trimToNonZero.isEmpty ∨ ∃ B, p.trimToNonZero.patch = some B ∧ TightBox B) := by
  obtain ⟨h1, h2, h3⟩ := trim_ok p
  refine ⟨h1, h2, ?_⟩
  intro hn
  rcases h3 with h | ⟨B, hB, ht⟩ | h
  · exact .inl h
  · exact .inr ⟨B, hB, ht.2.2⟩
  · exact absurd h hn

example :
    let p : Patch Int := ⟨10, 20, some (Arr.ofLists [[0, 0, 0, 0], [0, 5, 0, 0], [0, 0, 6, 0]] 4)⟩
    (p.trimToNonZero.x0, p.trimToNonZero.y0, p.trimToNonZero.rows) =
      (11, 21, some [[5, 0], [0, 6]]) := by decide
example : (⟨0, 0, some (Arr.zeros 3 4)⟩ : Patch Int).trimToNonZero.rows = none := by decide

/-- **C27 (negation).** The 1×1 zero patch is neither emptied nor tight. -/
theorem C27_single_zero_false :
    ∃ (p : Patch Int), p.trimToNonZero.rows = some [[0]] ∧ ¬ p.trimToNonZero.isEmpty := by
  refine ⟨⟨0, 0, some (Arr.zeros 1 1)⟩, by decide, ?_⟩
  intro h
  exact h 0 0 (by decide)

/-! ## C28 -/

/-- **C28.** For a patch inside an image of width `W` and height `H` with fewer than 2³¹ pixels,
`getPixelIndices` lists, for the patch pixels in row-major order, the row-major index of the image
pixel at the same position; all lie in `[0, W*H)`, none occurs twice; and the positions are those
given by `getSlice`. -/
theorem C28_pixel_indices (p : Patch α) (A : Arr α) (hA : p.patch = some A) (W H : Nat)
    (hx : 0 ≤ p.x0) (hy : 0 ≤ p.y0) (hx1 : p.x0 + A.w ≤ W) (hy1 : p.y0 + A.h ≤ H)
    (hsz : W * H < 2 ^ 31) :
    p.getPixelIndices W = (List.range A.h).flatMap (fun j : Nat => (List.range A.w).map (fun i : Nat =>
      (p.y0 + j) * W + (p.x0 + i))) ∧
    (∀ k ∈ p.getPixelIndices W, 0 ≤ k ∧ k < W * H ∧ p.covers (k % W) (k / W)) ∧
    (p.getPixelIndices W).Nodup ∧
    p.getSlice = some ((p.y0, p.y0 + A.h), (p.x0, p.x0 + A.w)) ∧
    p.getSliceIn H W = p.getSlice := by
  have heq := pixelIndices_ok p A hA W H hx hy hx1 hy1 hsz
  refine ⟨heq, ?_, ?_, by simp [Patch.getSlice, hA], ?_⟩
  · intro k hk
    rw [heq] at hk
    simp only [List.mem_flatMap, List.mem_map, List.mem_range] at hk
    obtain ⟨j, hj, i, hi, rfl⟩ := hk
    have hmul : (p.y0 + j + 1) * (W : Int) ≤ (W : Int) * H := by
      rw [Int.mul_comm]
      apply Int.mul_le_mul_of_nonneg_left <;> omega
    have hmul0 : 0 ≤ (p.y0 + j) * (W : Int) := by apply Int.mul_nonneg <;> omega
    rw [Int.add_mul, Int.one_mul] at hmul
    refine ⟨by omega, by omega, ?_⟩
    have e1 : ((p.y0 + j) * (W : Int) + (p.x0 + i)) % W = p.x0 + i := by
      rw [Int.add_comm, Int.mul_comm, Int.add_mul_emod_self_left, Int.emod_eq_of_lt] <;> omega
    have e2 : ((p.y0 + j) * (W : Int) + (p.x0 + i)) / W = p.y0 + j := by
      rw [Int.add_comm, Int.mul_comm, Int.add_mul_ediv_left _ _ (by omega),
        Int.ediv_eq_zero_of_lt (by omega) (by omega)]
      omega
    rw [e1, e2]
    simp only [Patch.covers, hA]
    omega
  · rw [heq]
    rw [List.nodup_flatMap]
    constructor
    · intro j hj
      apply List.Nodup.map_on _ List.nodup_range
      intro a ha b hb hab
      omega
    · apply List.Pairwise.imp_of_mem _ List.nodup_range
      intro j j' hj hj' hne k hk hk'
      simp only [List.mem_map, List.mem_range] at hk hk' hj hj'
      obtain ⟨i, hi, rfl⟩ := hk
      obtain ⟨i', hi', he⟩ := hk'
      have h1 : ((p.y0 + j) * (W : Int) + (p.x0 + i)) / W = p.y0 + j := by
        rw [Int.add_comm, Int.mul_comm, Int.add_mul_ediv_left _ _ (by omega),
          Int.ediv_eq_zero_of_lt (by omega) (by omega)]
        omega
      have h2 : ((p.y0 + j') * (W : Int) + (p.x0 + i')) / W = p.y0 + j' := by
        rw [Int.add_comm, Int.mul_comm, Int.add_mul_ediv_left _ _ (by omega),
          Int.ediv_eq_zero_of_lt (by omega) (by omega)]
        omega
      rw [he, h1] at h2
      exact hne (by omega)
  · simp only [Patch.getSliceIn, Patch.getSlice, hA, Option.map_some, Option.some.injEq, Prod.mk.injEq]
    omega

/-- **C28 (limit).** The default index type is 32 bits: in an image with more than 2³¹ pixels indices
come out negative. -/
theorem C28_int32_overflow_false :
    ∃ p : Patch Int, p.getPixelIndices 50000 = [-2144967296] := by
  refine ⟨⟨0, 43000, some (Arr.zeros 1 1)⟩, by decide⟩

example : exA.getPixelIndices 10 = [43, 44, 53, 54] := by decide

/-! ## C61 -/

/-- **C61.** `getSlices((H, W))` returns slices `(iy, ix)` into the patch and `(oy, ox)` into the image
that are in range, have equal sizes, select exactly the image pixels covered by the patch, and
correspond pixel by pixel (their offset is the patch origin). -/
theorem C61_getSlices (p : Patch α) (H W : Nat) (iy ix oy ox : Int × Int)
    (h : p.getSlices H W = ((iy, ix), (oy, ox))) :
    (0 ≤ ix.1 ∧ ix.1 ≤ ix.2 ∧ ix.2 ≤ p.shape.2 ∧ 0 ≤ iy.1 ∧ iy.1 ≤ iy.2 ∧ iy.2 ≤ p.shape.1) ∧
    (0 ≤ ox.1 ∧ ox.1 ≤ ox.2 ∧ ox.2 ≤ W ∧ 0 ≤ oy.1 ∧ oy.1 ≤ oy.2 ∧ oy.2 ≤ H) ∧
    (ix.2 - ix.1 = ox.2 - ox.1 ∧ iy.2 - iy.1 = oy.2 - oy.1) ∧
    (∀ x y : Int, (ox.1 ≤ x ∧ x < ox.2 ∧ oy.1 ≤ y ∧ y < oy.2) ↔
      (p.covers x y ∧ 0 ≤ x ∧ x < W ∧ 0 ≤ y ∧ y < H)) ∧
    (ox.1 < ox.2 → oy.1 < oy.2 → ox.1 - ix.1 = p.x0 ∧ oy.1 - iy.1 = p.y0) :=
  getSlices_ok p H W iy ix oy ox h

example : exB.getSlices 9 9 = (((0, 1), (1, 3)), ((5, 6), (0, 2))) ∧
    exA.getSlices 2 2 = (((0, 0), (0, 0)), ((0, 0), (0, 0))) := by decide

/-! ## C62 -/

/-- **C62 (partial).** For nonempty patches with non-negative pixels, `hasNonzeroOverlapWith` does not
raise and is True exactly when some pixel is nonzero in both; and (any pixels) `hasBboxOverlapWith`
is True exactly when some pixel is covered by both.
Missing: pixels of both signs, whose products can cancel (`C62_cancel_false`); patches without
pixels (`C62_empty_false`). -/
theorem C62_overlap_partial [Ring α] [LinearOrder α] [IsStrictOrderedRing α] (p q : Patch α)
    (A B : Arr α) (hA : p.patch = some A) (hB : q.patch = some B)
    (h1 : 0 < A.h ∧ 0 < A.w) (h2 : 0 < B.h ∧ 0 < B.w) :
    (p.overlapsBbox q.extent = true ↔ ∃ x y, p.covers x y ∧ q.covers x y) ∧
    ((∀ x y, 0 ≤ p.at x y) → (∀ x y, 0 ≤ q.at x y) →
      ∃ b, p.hasNonzeroOverlapWith q = .ok b ∧ (b = true ↔ ∃ x y, p.at x y ≠ 0 ∧ q.at x y ≠ 0)) := by
  refine ⟨?_, fun hp hq => nonzeroOverlap_ok p q A B hA hB h1 h2 hp hq⟩
  simp only [Patch.overlapsBbox, Patch.extent, Patch.shape, hA, hB, Int.sub_zero, Int.add_zero,
    Patch.covers]
  constructor
  · intro h
    split_ifs at h with hd
    exact ⟨max p.x0 q.x0, max p.y0 q.y0, by omega⟩
  · rintro ⟨x, y, h⟩
    rw [if_neg (by omega)]

example : exA.hasNonzeroOverlapWith exC = .ok true ∧ exA.hasNonzeroOverlapWith exB = .ok false := by
  decide

/-- **C62 (negation: signs).** Two patches that are both nonzero at a common pixel, reported as not
overlapping because the sum of products is not positive. -/
theorem C62_cancel_false :
    ∃ p q : Patch Int, (∃ x y, p.at x y ≠ 0 ∧ q.at x y ≠ 0) ∧
      p.hasNonzeroOverlapWith q = .ok false :=
  ⟨⟨0, 0, some (Arr.ofLists [[1]] 1)⟩, ⟨0, 0, some (Arr.ofLists [[-1]] 1)⟩, ⟨0, 0, by decide⟩, by decide⟩

/-- **C62 (negation: no image).** With a patch without image lying inside the other's box the call
raises. -/
theorem C62_empty_false :
    ∃ p q : Patch Int, p.hasNonzeroOverlapWith q = .error .attribute :=
  ⟨⟨4, 5, none⟩, exA, by decide⟩

end Verif.Patches
