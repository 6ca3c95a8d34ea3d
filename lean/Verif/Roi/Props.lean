import Verif.Roi.Model

/-!
# C51: regions of interest
-/

namespace Verif.Roi

/-- The pixel `(x, y)` is in the region. -/
def Region.Has (r : Region) (x y : Int) : Prop := r.x0 ≤ x ∧ x < r.x1 ∧ r.y0 ≤ y ∧ y < r.y1

/-- The pixel `(x, y)` is in an image of height `H` and width `W`. -/
def InImage (H W : Nat) (x y : Int) : Prop := 0 ≤ x ∧ x < W ∧ 0 ≤ y ∧ y < H

/-- `out` is the answer to the request for the pixels `Want` of an `H` x `W` image: None if there are none;
otherwise a region with exactly the wanted pixels of the image, and a flag telling whether pixels of the image are
missing from it. -/
def Answers (H W : Nat) (Want : Int → Int → Prop) (out : Option (Region × Bool)) : Prop :=
  match out with
  | none => ¬ ∃ x y, InImage H W x y ∧ Want x y
  | some (r, partOnly) =>
    (∀ x y, r.Has x y ↔ InImage H W x y ∧ Want x y) ∧ (∃ x y, r.Has x y) ∧
    (partOnly = true ↔ ∃ x y, InImage H W x y ∧ ¬ r.Has x y)

theorem isEmpty_iff (r : Region) : r.isEmpty = true ↔ r.x0 = r.x1 ∨ r.y0 = r.y1 := by
  simp [Region.isEmpty]

/-- Regions clipped to the image answer the request for a rectangle `a ≤ x < b`, `c ≤ y < d`. -/
theorem clipped_answers (H W : Nat) (a b c d : Int) (hab : a < b) (hcd : c < d) :
    let r : Region := ⟨clip a W, clip b W, clip c H, clip d H⟩
    Answers H W (fun x y => a ≤ x ∧ x < b ∧ c ≤ y ∧ y < d)
      (if r.isEmpty then none
        else some (r, decide (r.x0 ≠ 0) || decide (r.y0 ≠ 0) || decide (r.x1 ≠ W) || decide (r.y1 ≠ H))) := by
  intro r
  by_cases h : r.isEmpty
  · rw [if_pos h]
    simp only [isEmpty_iff, r, clip] at h
    rintro ⟨x, y, h1, h2⟩
    simp only [InImage] at h1
    omega
  · rw [if_neg h]
    simp only [isEmpty_iff, r, clip, not_or] at h
    have hc : ∀ x y, r.Has x y ↔ InImage H W x y ∧ a ≤ x ∧ x < b ∧ c ≤ y ∧ y < d := by
      intro x y
      simp only [r, Region.Has, InImage, clip]
      omega
    refine ⟨hc, ⟨r.x0, r.y0, ?_⟩, ?_⟩
    · simp only [r, Region.Has, clip]; omega
    · simp only [Bool.or_eq_true, decide_eq_true_eq]
      constructor
      · intro hd
        by_cases h0 : r.x0 = 0
        · by_cases h1 : r.y0 = 0
          · by_cases h2 : r.x1 = W
            · refine ⟨0, r.y1, ?_⟩
              simp only [r, Region.Has, InImage, clip] at *; omega
            · refine ⟨r.x1, 0, ?_⟩
              simp only [r, Region.Has, InImage, clip] at *; omega
          · refine ⟨0, 0, ?_⟩
            simp only [r, Region.Has, InImage, clip] at *; omega
        · refine ⟨0, 0, ?_⟩
          simp only [r, Region.Has, InImage, clip] at *; omega
      · rintro ⟨x, y, h1, h2⟩
        simp only [r, Region.Has, InImage, clip] at *; omega

/-- **C51 (position and half-size).** Whatever `roi` is given besides. -/
theorem C51_size (H W : Nat) (roi : Option Region) (xc yc : Int) (S : Nat) :
    Answers H W (fun x y => xc - S ≤ x ∧ x < xc + S + 1 ∧ yc - S ≤ y ∧ y < yc + S + 1)
      (interpretRoi H W roi (some (xc, yc, (S : Int))) none) := by
  have := clipped_answers H W (xc - S) (xc + S + 1) (yc - S) (yc + S + 1) (by omega) (by omega)
  exact this

theorem minOf_spec (a b c d : Int) : minOf a [b, c, d] = min (min (min a b) c) d := rfl

theorem maxOf_spec (a b c d : Int) : maxOf a [b, c, d] = max (max (max a b) c) d := rfl

/-- A list of pixels spans a rectangle with the pixel. -/
def Spanned (cs : List (Int × Int)) (x y : Int) : Prop :=
  (∃ p ∈ cs, p.1 ≤ x) ∧ (∃ p ∈ cs, x ≤ p.1) ∧ (∃ p ∈ cs, p.2 ≤ y) ∧ (∃ p ∈ cs, y ≤ p.2)

/-- **C51 (box).** The smallest rectangle containing the pixels of the four corners, whatever `roi` is given. -/
theorem C51_box (H W : Nat) (roi : Option Region) (c0 c1 c2 c3 : Int × Int) :
    Answers H W (Spanned [c0, c1, c2, c3]) (interpretRoi H W roi none (some (c0, c1, c2, c3))) := by
  have := clipped_answers H W (minOf c0.1 [c1.1, c2.1, c3.1]) (maxOf c0.1 [c1.1, c2.1, c3.1] + 1)
    (minOf c0.2 [c1.2, c2.2, c3.2]) (maxOf c0.2 [c1.2, c2.2, c3.2] + 1)
    (by simp only [minOf_spec, maxOf_spec]; omega) (by simp only [minOf_spec, maxOf_spec]; omega)
  have e : Spanned [c0, c1, c2, c3] = (fun x y => minOf c0.1 [c1.1, c2.1, c3.1] ≤ x ∧
      x < maxOf c0.1 [c1.1, c2.1, c3.1] + 1 ∧ minOf c0.2 [c1.2, c2.2, c3.2] ≤ y ∧
      y < maxOf c0.2 [c1.2, c2.2, c3.2] + 1) := by
    funext x y
    simp only [Spanned, minOf_spec, maxOf_spec, List.mem_cons, List.not_mem_nil, or_false, exists_eq_or_imp,
      exists_eq_left, eq_iff_iff]
    omega
  rw [e]
  exact this

/-- Without a request the whole image; a region given as `roi` is returned as it is, with the flag telling
whether it is the full image. -/
theorem C51_given (H W : Nat) (r : Region) :
    interpretRoi H W none none none = some (⟨0, W, 0, H⟩, false) ∧
    ∃ f, interpretRoi H W (some r) none none = some (r, f) ∧ (f = false ↔ r = ⟨0, W, 0, H⟩) := by
  refine ⟨by simp [interpretRoi], _, rfl, ?_⟩
  cases r
  simp [Region.mk.injEq]
  omega

example : interpretRoi 100 200 none (some (5, 50, 10)) none = some (⟨0, 16, 40, 61⟩, true) ∧
    interpretRoi 100 200 none (some (50, 50, 500)) none = some (⟨0, 200, 0, 100⟩, false) ∧
    interpretRoi 100 200 none (some (-11, 50, 10)) none = none ∧
    interpretRoi 100 200 none none (some ((3, 4), (10, 2), (5, 150), (7, 8))) = some (⟨3, 11, 2, 100⟩, true) := by
  decide +kernel

/-- A negative half-size gives a region with its ends exchanged, not None. -/
theorem C51_negative_size_false : interpretRoi 100 200 none (some (50, 50, -5)) none =
    some (⟨55, 46, 55, 46⟩, true) := by decide +kernel

end Verif.Roi
