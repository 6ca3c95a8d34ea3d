import Verif.Read.Props

/-!
# C140: images read from SDSS frames

Spec: the image shows the region of the frame: data and positions of the same pixels, no weight where a pixel is masked, weights of the frame or the
constant weight at its centre; the PSF is that at its centre; it is the part of the frame that was asked for.
-/

namespace Verif.Read

open Verif Roi

variable {P R : Type} [Field R] [LinearOrder R]

/-- The image `t` shows its region of the frame `s`.  Pixel coordinates of AsTrans count from the lower left corner of a pixel, those of images from its
centre. -/
structure ShowsFrame (s : Sdss P R) (t : STim P R) : Prop where
  inside : Inside s.img.h s.img.w t.roi
  size : (t.data.h : Int) = t.roi.y1 - t.roi.y0 ∧ (t.data.w : Int) = t.roi.x1 - t.roi.x0
  data : ∀ y x, y < t.data.h → x < t.data.w → t.data.px y x = s.img.px (t.roi.y0.toNat + y) (t.roi.x0.toNat + x)
  pos : ∀ p, s.raw p = ((t.pix p).1 + t.roi.x0 + 1 / 2, (t.pix p).2 + t.roi.y0 + 1 / 2)
  psf : t.psfAt.1 = ((t.roi.x0 + t.roi.x1 : Int) : R) / 2 ∧ t.psfAt.2 = ((t.roi.y0 + t.roi.y1 : Int) : R) / 2

/-- The weights are an array of the shape of the image: 0 at masked pixels and `w` (of a pixel of the frame) at others. -/
def Weights (s : Sdss P R) (t : STim P R) (w : Nat → Nat → R) : Prop :=
  ∃ a, t.invvar = .arr a ∧ a.h = t.data.h ∧ a.w = t.data.w ∧ ∀ y x, y < a.h → x < a.w →
    a.px y x = if s.mask (t.roi.y0.toNat + y) (t.roi.x0.toNat + x) then 0 else w (t.roi.y0.toNat + y) (t.roi.x0.toNat + x)

/-- The pixel in the middle of the region, rounded down. -/
def Middle (r : Region) (x y : Int) : Prop := (2 * x = r.x0 + r.x1 ∨ 2 * x + 1 = r.x0 + r.x1) ∧ (2 * y = r.y0 + r.y1 ∨ 2 * y + 1 = r.y0 + r.y1)

/-- **C140.** An image from an SDSS frame shows its region of it.  Weights are those of the frame, for `invvarAtCenter` the one number at the middle of
the region, for `invvarAtCenterImage` that number for all pixels; except for `invvarAtCenter` alone masked pixels have none.  None if the region asked
for and the frame have no pixel in common.  Missing: `invvarAtCenterImage` without a region, which is a TypeError or gives one number
(`C140_whole_false`).  Inverse variances have the shape of the frame, and a region given by the caller lies in it. -/
theorem C140_image_partial [IsStrictOrderedRing R] (rnd : R → Int) (s : Sdss P R) (ignore atCenter atCenterImage : Bool) (q : Request P)
    (hsh : ∀ b, (s.iv b).h = s.img.h ∧ (s.iv b).w = s.img.w) (hq : ∀ r, q.roi = some r → Inside s.img.h s.img.w r)
    (hpart : atCenterImage = true → ∀ r, ask rnd s.raw s.img.h s.img.w q ≠ some (r, false)) :
    match sdssImage rnd s ignore atCenter atCenterImage q with
    | .error _ => False
    | .ok none => ask rnd s.raw s.img.h s.img.w q = none
    | .ok (some t) => (∃ b, ask rnd s.raw s.img.h s.img.w q = some (t.roi, b)) ∧ ShowsFrame s t ∧
      (atCenter = false → atCenterImage = false → Weights s t (fun y x => (s.iv ignore).px y x)) ∧
      (atCenter = true → atCenterImage = false → ∃ x y, Middle t.roi x y ∧ t.invvar = .const (s.ivAt ignore x y)) ∧
      (atCenterImage = true → ∃ x y, Middle t.roi x y ∧ Weights s t (fun _ _ => s.ivAt ignore x y)) := by
  unfold sdssImage
  dsimp only
  cases ha : ask rnd s.raw s.img.h s.img.w q with
  | none => trivial
  | some rb =>
    obtain ⟨r, b⟩ := rb
    have hin := ask_inside rnd s.raw _ _ q hq r b ha
    obtain ⟨d1, d2, d3⟩ := cut_ok s.img r hin
    obtain ⟨i1, i2, i3⟩ := cut_ok (s.iv ignore) r (by rw [(hsh ignore).1, (hsh ignore).2]; exact hin)
    obtain ⟨p1, p2, p3, p4, p5, p6⟩ := hin
    -- without a region the cut-out is the frame
    have whole : b = false → r = ⟨0, s.img.w, 0, s.img.h⟩ := by
      intro hb
      subst hb
      unfold ask at ha
      have hr : ∀ (roi : Option Region) size box, interpretRoi s.img.h s.img.w roi size box = some (r, false) → r = ⟨0, s.img.w, 0, s.img.h⟩ := by
        intro roi size box h
        unfold interpretRoi at h
        dsimp only at h
        have h := ite_some (ite_some h)
        simp only [Option.some.injEq, Prod.mk.injEq, Bool.or_eq_false_iff, decide_eq_false_iff_not, not_not] at h
        obtain ⟨e, ⟨⟨h1, h2⟩, h3⟩, h4⟩ := h
        rw [e] at h1 h2 h3 h4
        cases r
        simp only at h1 h2 h3 h4
        subst h1 h2 h3 h4
        rfl
      exact hr _ _ _ ha
    have img : ∃ A : Arr R, (if b then cut s.img r else s.img) = A ∧ (A.h : Int) = r.y1 - r.y0 ∧ (A.w : Int) = r.x1 - r.x0 ∧
        ∀ y x, A.px y x = s.img.px (r.y0.toNat + y) (r.x0.toNat + x) := by
      cases b
      · refine ⟨_, rfl, ?_⟩
        rw [whole rfl]
        simp
      · exact ⟨_, rfl, d1, d2, d3⟩
    obtain ⟨A, eA, a1, a2, a3⟩ := img
    have iva : ∃ B : Arr R, (if b then cut (s.iv ignore) r else s.iv ignore) = B ∧ B.h = A.h ∧ B.w = A.w ∧
        ∀ y x, B.px y x = (s.iv ignore).px (r.y0.toNat + y) (r.x0.toNat + x) := by
      cases b
      · refine ⟨_, rfl, ?_⟩
        have hw := whole rfl
        rw [hw] at a1 a2 ⊢
        refine ⟨?_, ?_, by simp⟩
        · have := (hsh ignore).1; simp at a1 ⊢; omega
        · have := (hsh ignore).2; simp at a2 ⊢; omega
      · exact ⟨_, rfl, by simp only [if_true]; omega, by simp only [if_true]; omega, i3⟩
    obtain ⟨B, eB, b1, b2, b3⟩ := iva
    have shows : ∀ v, ShowsFrame s ⟨A, v, subPix s.raw (r.x0 + 1 / 2) (r.y0 + 1 / 2), r, ((r.x0 : R) + A.w / 2, (r.y0 : R) + A.h / 2)⟩ := by
      intro v
      refine ⟨⟨p1, p2, p3, p4, p5, p6⟩, ⟨a1, a2⟩, fun y x _ _ => a3 y x, fun p => ?_, ?_, ?_⟩
      · unfold subPix
        ext
        · dsimp only; ring
        · dsimp only; ring
      · dsimp only
        have : (A.w : R) = ((r.x1 - r.x0 : Int) : R) := by rw [← a2]; simp
        rw [this]; push_cast; ring
      · dsimp only
        have : (A.h : R) = ((r.y1 - r.y0 : Int) : R) := by rw [← a1]; simp
        rw [this]; push_cast; ring
    have mid : Middle r (half (r.x0 + r.x1)) (half (r.y0 + r.y1)) := by
      unfold Middle half
      rw [Int.tdiv_eq_ediv_of_nonneg (by omega), Int.tdiv_eq_ediv_of_nonneg (by omega)]
      omega
    have wmid : (if b then s.ivAt ignore (half (r.x0 + r.x1)) (half (r.y0 + r.y1)) else s.ivAt ignore (half s.img.w) (half s.img.h)) =
        s.ivAt ignore (half (r.x0 + r.x1)) (half (r.y0 + r.y1)) := by
      cases b
      · rw [whole rfl]; simp
      · rfl
    dsimp only
    rw [wmid, eA]
    cases hi : atCenterImage with
    | false =>
      cases hc : atCenter with
      | false =>
        simp only [Bool.or_self, Bool.false_eq_true, if_false]
        have e : (if b then IV.arr (cut (s.iv ignore) r) else IV.arr (s.iv ignore)) = IV.arr B := by
          rw [← eB]; cases b <;> rfl
        rw [e]
        simp only [Bool.not_false, Bool.true_or, if_true]
        unfold setMasked
        refine ⟨⟨b, rfl⟩, shows _, fun _ _ => ?_, fun h => by simp at h, fun h => by simp at h⟩
        refine ⟨_, rfl, b1, b2, fun y x _ _ => ?_⟩
        dsimp only
        rw [b3]
      | true =>
        simp only [Bool.or_false, if_true, Bool.false_eq_true, if_false, Bool.not_true, Bool.or_self]
        refine ⟨⟨b, rfl⟩, shows _, fun h => by simp at h, fun _ _ => ⟨_, _, mid, ?_⟩, fun h => by simp at h⟩
        cases b <;> rfl
    | true =>
      have hb : b = true := by
        cases hb : b
        · exact absurd (by rw [ha, hb]) (hpart hi r)
        · rfl
      subst hb
      simp only [Bool.or_true, if_true]
      unfold setMasked
      refine ⟨⟨true, rfl⟩, shows _, fun _ h => by simp at h, fun _ h => by simp at h, fun _ => ⟨_, _, mid, ?_⟩⟩
      exact ⟨_, rfl, rfl, rfl, fun y x _ _ => rfl⟩

omit [LinearOrder R] in
/-- **C140 (negation).** `invvarAtCenterImage` for a whole frame: the inverse variance stays one number; with any masked pixel the call raises TypeError,
without any the image has a number for its inverse variance. -/
theorem C140_whole_false (rnd : R → Int) (s : Sdss P R) (ignore atCenter : Bool) :
    sdssImage rnd s ignore atCenter true ⟨none, none, none⟩ = (if s.rects then .error .typeErr else
      .ok (some ⟨s.img, .const (s.ivAt ignore (half s.img.w) (half s.img.h)), subPix s.raw (0 + 1 / 2) (0 + 1 / 2), ⟨0, s.img.w, 0, s.img.h⟩,
        (0 + s.img.w / 2, 0 + s.img.h / 2)⟩)) := by
  unfold sdssImage
  have : ask rnd s.raw s.img.h s.img.w ⟨none, none, none⟩ = some (⟨0, s.img.w, 0, s.img.h⟩, false) := by
    unfold ask interpretRoi
    simp
  dsimp only
  rw [this]
  dsimp only
  simp only [Bool.or_true, if_true, Bool.false_eq_true, if_false]
  unfold setMasked
  dsimp only
  by_cases h : s.rects
  · rw [if_pos h, if_pos h]
  · rw [if_neg h, if_neg h]
    simp

/-- **C140.** Asked for a position and a half-size, the image has all pixels of the frame nearer than the half-size (in each direction) and none farther
than one pixel more; but it is not centred: what it is centred on is half a pixel off in each direction (`C140_centre_false`). -/
theorem C140_centre_partial [IsStrictOrderedRing R] (rnd : R → Int) (hr : Rounds rnd) (s : Sdss P R) (ignore atCenter : Bool) (p : P) (n : Nat)
    (hsh : ∀ b, (s.iv b).h = s.img.h ∧ (s.iv b).w = s.img.w) (t : STim P R)
    (ht : sdssImage rnd s ignore atCenter false ⟨none, some (p, n), none⟩ = .ok (some t)) :
    Around ((t.pix p).1 + 1 / 2, (t.pix p).2 + 1 / 2) n (fun x y => InImage s.img.h s.img.w (x + t.roi.x0) (y + t.roi.y0)) (InImage t.data.h t.data.w) ∧
    (∀ x y : Int, InImage s.img.h s.img.w (x + t.roi.x0) (y + t.roi.y0) → |(x : R) - (t.pix p).1| < n → |(y : R) - (t.pix p).2| < n →
      InImage t.data.h t.data.w x y) ∧
    ∀ x y : Int, InImage t.data.h t.data.w x y → |(x : R) - (t.pix p).1| ≤ n + 1 ∧ |(y : R) - (t.pix p).2| ≤ n + 1 := by
  have h := C140_image_partial rnd s ignore atCenter false ⟨none, some (p, n), none⟩ hsh (by simp) (by simp)
  rw [ht] at h
  obtain ⟨⟨b, h4⟩, h5, _⟩ := h
  have ha := C51_size s.img.h s.img.w none (rnd (s.raw p).1) (rnd (s.raw p).2) n
  have h4 : interpretRoi s.img.h s.img.w none (some (rnd (s.raw p).1, rnd (s.raw p).2, (n : Int))) none = some (t.roi, b) := h4
  rw [h4] at ha
  obtain ⟨ha, _, _⟩ := ha
  have hp := h5.pos p
  have s1 := h5.size
  have e1 : ∀ x : Int, (x : R) - ((t.pix p).1 + 1 / 2) = ((x + t.roi.x0 : Int) : R) - (s.raw p).1 := by
    intro x; rw [hp]; push_cast; ring
  have e2 : ∀ y : Int, (y : R) - ((t.pix p).2 + 1 / 2) = ((y + t.roi.y0 : Int) : R) - (s.raw p).2 := by
    intro y; rw [hp]; push_cast; ring
  have key : ∀ x y : Int, InImage t.data.h t.data.w x y ↔ t.roi.Has (x + t.roi.x0) (y + t.roi.y0) := by
    intro x y
    unfold InImage Region.Has
    omega
  have main : Around ((t.pix p).1 + 1 / 2, (t.pix p).2 + 1 / 2) n (fun x y => InImage s.img.h s.img.w (x + t.roi.x0) (y + t.roi.y0))
      (InImage t.data.h t.data.w) := by
    refine ⟨fun x y hf hx hy => ?_, fun x y h => ?_⟩
    · dsimp only at hx hy
      rw [e1] at hx
      rw [e2] at hy
      have hx := (near_of rnd hr (s.raw p).1 n _).1 hx
      have hy := (near_of rnd hr (s.raw p).2 n _).1 hy
      rw [key, ha]
      exact ⟨hf, hx.1, hx.2, hy.1, hy.2⟩
    · rw [key, ha] at h
      obtain ⟨g, g1, g2, g3, g4⟩ := h
      refine ⟨g, ?_, ?_⟩
      · dsimp only; rw [e1]; exact (near_of rnd hr (s.raw p).1 n _).2 ⟨g1, g2⟩
      · dsimp only; rw [e2]; exact (near_of rnd hr (s.raw p).2 n _).2 ⟨g3, g4⟩
  refine ⟨main, fun x y hf hx hy => main.1 x y hf ?_ ?_, fun x y h => ?_⟩
  · rw [abs_lt] at hx ⊢
    dsimp only
    constructor <;> linarith [hx.1, hx.2]
  · rw [abs_lt] at hy ⊢
    dsimp only
    constructor <;> linarith [hy.1, hy.2]
  · obtain ⟨_, h1, h2⟩ := main.2 x y h
    dsimp only at h1 h2
    rw [abs_le] at h1 h2
    rw [abs_le, abs_le]
    refine ⟨⟨?_, ?_⟩, ?_, ?_⟩ <;> linarith [h1.1, h1.2, h2.1, h2.2]

/-! #### Examples -/

/-- A frame of 30 x 40 pixels with one masked pixel. -/
def exSdss : Sdss (ℚ × ℚ) ℚ := ⟨⟨30, 40, fun y x => 100 * y + x⟩, id, fun b => ⟨30, 40, fun y x => if b then 7 else 100 * y + x⟩,
  fun _ x y => 100 * y + x, fun y x => y = 10 ∧ x = 21, true⟩

example : (match sdssImage exRnd exSdss false false false ⟨none, some ((20, 10), 1), none⟩ with
    | .ok (some t) => some (t.data.toLists, (match t.invvar with | .arr a => a.toLists | .const _ => []), t.pix (20, 10), t.psfAt)
    | _ => none) = some ([[919, 920, 921], [1019, 1020, 1021], [1119, 1120, 1121]], [[919, 920, 921], [1019, 1020, 0], [1119, 1120, 1121]], (1 / 2, 1 / 2),
      (41 / 2, 21 / 2)) ∧
    (match sdssImage exRnd exSdss false true true ⟨some ⟨19, 22, 9, 11⟩, none, none⟩ with
    | .ok (some t) => some (match t.invvar with | .arr a => a.toLists | .const _ => [])
    | _ => none) = some [[1020, 1020, 1020], [1020, 1020, 0]] ∧
    (match sdssImage exRnd exSdss false false true ⟨none, none, none⟩ with | .error .typeErr => true | _ => false) = true := by
  decide +kernel

/-- A frame with room for a half-size of `n`. -/
def exBig (n : Nat) : Sdss (ℚ × ℚ) ℚ := { exSdss with img := ⟨2 * n + 30, 2 * n + 40, fun y x => 100 * y + x⟩, iv := fun _ => ⟨2 * n + 30, 2 * n + 40, fun _ _ => 1⟩ }

/-- **C140 (negation).** A position 0.2 pixels from the centre of its pixel in each direction: for no half-size is the image centred on it; for a
half-size of 0 the position is not even on the image, which is another pixel. -/
theorem C140_centre_false (n : Nat) : ∃ (s : Sdss (ℚ × ℚ) ℚ) (p : ℚ × ℚ) (t : STim (ℚ × ℚ) ℚ), (∀ b, (s.iv b).h = s.img.h ∧ (s.iv b).w = s.img.w) ∧
    sdssImage exRnd s false false false ⟨none, some (p, n), none⟩ = .ok (some t) ∧
    ¬ Around (t.pix p) n (fun x y => InImage s.img.h s.img.w (x + t.roi.x0) (y + t.roi.y0)) (InImage t.data.h t.data.w) ∧
    t.pix p = ((n : ℚ) - 8 / 10, (n : ℚ) - 8 / 10) ∧ t.data.h = 2 * n + 1 ∧ t.data.w = 2 * n + 1 := by
  have hsh : ∀ b, ((exBig n).iv b).h = (exBig n).img.h ∧ ((exBig n).iv b).w = (exBig n).img.w := fun b => ⟨rfl, rfl⟩
  have h := C140_image_partial exRnd (exBig n) false false false ⟨none, some (((n : ℚ) + 207 / 10, (n : ℚ) + 107 / 10), n), none⟩ hsh (by simp) (by simp)
  have ha : ask exRnd (exBig n).raw (2 * n + 30) (2 * n + 40) ⟨none, some (((n : ℚ) + 207 / 10, (n : ℚ) + 107 / 10), n), none⟩ =
      interpretRoi (2 * n + 30) (2 * n + 40) none (some ((n : Int) + 21, (n : Int) + 11, (n : Int))) none := by
    have e1 : exRnd ((n : ℚ) + 207 / 10) = n + 21 := by
      unfold exRnd
      rw [add_assoc, Int.floor_natCast_add]
      congr 1
      rw [Int.floor_eq_iff]
      norm_num
    have e2 : exRnd ((n : ℚ) + 107 / 10) = n + 11 := by
      unfold exRnd
      rw [add_assoc, Int.floor_natCast_add]
      congr 1
      rw [Int.floor_eq_iff]
      norm_num
    unfold ask
    simp only [Option.map_some, Option.map_none]
    change interpretRoi _ _ none (some (exRnd ((n : ℚ) + 207 / 10), exRnd ((n : ℚ) + 107 / 10), (n : Int))) none = _
    rw [e1, e2]
  have hroi : ∃ b, interpretRoi (2 * n + 30) (2 * n + 40) none (some ((n : Int) + 21, (n : Int) + 11, (n : Int))) none =
      some (⟨21, 2 * n + 22, 11, 2 * n + 12⟩, b) := by
    have e : sizeRegion (2 * n + 30) (2 * n + 40) ((n : Int) + 21) ((n : Int) + 11) (n : Int) = ⟨21, 2 * n + 22, 11, 2 * n + 12⟩ := by
      simp only [sizeRegion, clip, Region.mk.injEq]
      push_cast
      omega
    unfold interpretRoi
    dsimp only
    rw [e]
    have e0 : (⟨21, 2 * n + 22, 11, 2 * n + 12⟩ : Region).isEmpty = false := by
      simp only [Region.isEmpty, Bool.or_eq_false_iff, decide_eq_false_iff_not]
      omega
    simp only [Option.map_some, e0, Option.getD_some, Option.isSome_none, Bool.and_false, Bool.false_eq_true, if_false]
    exact ⟨_, rfl⟩
  obtain ⟨b, hroi⟩ := hroi
  replace ha : ask exRnd (exBig n).raw (exBig n).img.h (exBig n).img.w ⟨none, some (((n : ℚ) + 207 / 10, (n : ℚ) + 107 / 10), n), none⟩ = _ := ha
  cases ht : sdssImage exRnd (exBig n) false false false ⟨none, some (((n : ℚ) + 207 / 10, (n : ℚ) + 107 / 10), n), none⟩ with
  | error e => rw [ht] at h; exact h.elim
  | ok o =>
    rw [ht] at h
    cases o with
    | none =>
      rw [ha, hroi] at h
      cases h
    | some t =>
      obtain ⟨⟨b', h4⟩, h5, _⟩ := h
      rw [ha, hroi] at h4
      simp only [Option.some.injEq, Prod.mk.injEq] at h4
      have hr := h4.1.symm
      have hp := h5.pos ((n : ℚ) + 207 / 10, (n : ℚ) + 107 / 10)
      have hsz := h5.size
      rw [hr] at hp hsz
      dsimp only at hsz
      have h1 : (t.pix ((n : ℚ) + 207 / 10, (n : ℚ) + 107 / 10)).1 = n - 8 / 10 := by
        have := congrArg Prod.fst hp
        change (n : ℚ) + 207 / 10 = _ at this
        push_cast at this
        linarith
      have h2 : (t.pix ((n : ℚ) + 207 / 10, (n : ℚ) + 107 / 10)).2 = n - 8 / 10 := by
        have := congrArg Prod.snd hp
        change (n : ℚ) + 107 / 10 = _ at this
        push_cast at this
        linarith
      refine ⟨exBig n, _, t, hsh, ht, fun ha => ?_, Prod.ext h1 h2, by omega, by omega⟩
      have := ha.1 (-1) (-1) (by
        rw [hr]
        change InImage (2 * n + 30) (2 * n + 40) (-1 + 21) (-1 + 11)
        unfold InImage
        refine ⟨by norm_num, ?_, by norm_num, ?_⟩ <;> push_cast <;> omega) (by
        rw [h1, abs_lt]
        push_cast
        constructor <;> linarith) (by
        rw [h2, abs_lt]
        push_cast
        constructor <;> linarith)
      unfold InImage at this
      omega

end Verif.Read
