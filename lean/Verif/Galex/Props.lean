import Verif.Galex.Model
import Mathlib.Tactic.Ring
import Mathlib.Tactic.Linarith
import Mathlib.Data.Rat.Floor

/-!
# C177: which pixels of a GALEX image are read, and how wide its PSF is
-/

namespace Verif.Galex

variable {K A : Type} [Field K] [LinearOrder K] [FloorRing K]

/-- The region `(ralo, rahi, declo, dechi)` has a corner at `q`, in pixels of the file counted from 0. -/
def Corner (lib : Wcslib K) (r : K × K × K × K) (q : K × K) : Prop :=
  ∃ ra ∈ [r.1, r.2.1], ∃ dec ∈ [r.2.2.1, r.2.2.2], q = ((lib.radec2pixelxy ra dec).1 - 1, (lib.radec2pixelxy ra dec).2 - 1)

/-- The pixel is less than one pixel away from the rectangle around the four corners, in each direction. -/
def Near (lib : Wcslib K) (r : K × K × K × K) (i j : Nat) : Prop :=
  (∃ q, Corner lib r q ∧ q.1 - 1 < i) ∧ (∃ q, Corner lib r q ∧ (i : K) < q.1 + 1) ∧ (∃ q, Corner lib r q ∧ q.2 - 1 < j) ∧ ∃ q, Corner lib r q ∧ (j : K) < q.2 + 1

/-- The size of the pixel of the file at `x`, `y` (from 0), in arcseconds, by steps of one pixel. -/
def scaleAt (cosd sqrt : K → K) (lib : Wcslib K) (x y : K) : K :=
  let p := lib.pixelxy2radec (x + 1) (y + 1)
  let px := lib.pixelxy2radec (x + 1 + 1) (y + 1)
  let py := lib.pixelxy2radec (x + 1) (y + 1 + 1)
  sqrt |(px.1 - p.1) * cosd p.2 * (py.2 - p.2) - (py.1 - p.1) * cosd p.2 * (px.2 - p.2)| * 3600

omit [FloorRing K] in
theorem corners_mem (lib : Wcslib K) (r : K × K × K × K) (q : K × K) : q ∈ corners ⟨lib, 0, 0⟩ r ↔ Corner lib r q := by
  simp only [corners, Wcs.positionToPixel, sub_zero, List.mem_cons, List.not_mem_nil, or_false, Corner, exists_eq_or_imp, exists_eq_left]
  tauto

omit [Field K] [FloorRing K] in
theorem foldl_min_lt (l : List K) : ∀ (a z : K), l.foldl min a < z ↔ a < z ∨ ∃ b ∈ l, b < z := by
  induction l with
  | nil => simp
  | cons b l ih =>
    intro a z
    rw [List.foldl_cons, ih, min_lt_iff]
    simp [or_assoc]

omit [Field K] [FloorRing K] in
theorem lt_foldl_max (l : List K) : ∀ (a z : K), z < l.foldl max a ↔ z < a ∨ ∃ b ∈ l, z < b := by
  induction l with
  | nil => simp
  | cons b l ih =>
    intro a z
    rw [List.foldl_cons, ih, lt_max_iff]
    simp [or_assoc]

omit [FloorRing K] in
theorem low_lt (l : List K) (h : l ≠ []) (z : K) : low l < z ↔ ∃ b ∈ l, b < z := by
  cases l with
  | nil => exact absurd rfl h
  | cons a l =>
    unfold low
    rw [List.tail_cons, List.headD_cons, foldl_min_lt]
    simp

omit [FloorRing K] in
theorem lt_high (l : List K) (h : l ≠ []) (z : K) : z < high l ↔ ∃ b ∈ l, z < b := by
  cases l with
  | nil => exact absurd rfl h
  | cons a l =>
    unfold high
    rw [List.tail_cons, List.headD_cons, lt_foldl_max]
    simp

theorem clip_range (a b : Int) (n i : Nat) : clip a n ≤ i ∧ (i : Int) < clip b n ↔ i < n ∧ a ≤ i ∧ (i : Int) < b := by
  unfold clip
  omega

theorem clip_le (a b : Int) (n : Nat) (h : a ≤ b) : 0 ≤ clip a n ∧ clip a n ≤ clip b n ∧ clip b n ≤ n := by
  unfold clip
  omega

variable [IsStrictOrderedRing K]

/-- The columns (or rows) that are read. -/
theorem range_iff (l : List K) (h : l ≠ []) (n i : Nat) :
    clip ⌊low l⌋ n ≤ i ∧ (i : Int) < clip ⌈high l + 1⌉ n ↔ i < n ∧ (∃ b ∈ l, b - 1 < i) ∧ ∃ b ∈ l, (i : K) < b + 1 := by
  rw [clip_range]
  have h1 : ⌊low l⌋ ≤ (i : Int) ↔ ∃ b ∈ l, b - 1 < i := by
    rw [← Int.lt_add_one_iff, Int.floor_lt]
    push_cast
    rw [low_lt l h]
    simp only [sub_lt_iff_lt_add]
  have h2 : (i : Int) < ⌈high l + 1⌉ ↔ ∃ b ∈ l, (i : K) < b + 1 := by
    rw [Int.lt_ceil]
    push_cast
    rw [← sub_lt_iff_lt_add, lt_high l h]
    simp only [sub_lt_iff_lt_add]
  rw [h1, h2]

theorem low_le_high (l : List K) (h : l ≠ []) : low l ≤ high l := by
  by_contra hc
  have hc := not_le.mp hc
  obtain ⟨b, hb, hlt⟩ := (low_lt l h (low l + 1)).mp (by linarith)
  have h1 : ¬ b < low l := fun hh => lt_irrefl _ ((low_lt l h (low l)).mpr ⟨b, hb, hh⟩)
  have h2 : ¬ high l < b := fun hh => lt_irrefl _ ((lt_high l h (high l)).mpr ⟨b, hb, hh⟩)
  exact absurd (not_lt.mp h2) (not_le.mpr (lt_of_lt_of_le hc (not_lt.mp h1)))

theorem bounds_le (l : List K) (h : l ≠ []) (n : Nat) :
    0 ≤ clip ⌊low l⌋ n ∧ clip ⌊low l⌋ n ≤ clip ⌈high l + 1⌉ n ∧ clip ⌈high l + 1⌉ n ≤ n := by
  apply clip_le
  have h1 : ((⌊low l⌋ : Int) : K) ≤ low l := Int.floor_le _
  have h2 : high l + 1 ≤ ((⌈high l + 1⌉ : Int) : K) := Int.le_ceil _
  have h3 := low_le_high l h
  exact_mod_cast (by linarith : ((⌊low l⌋ : Int) : K) ≤ ((⌈high l + 1⌉ : Int) : K))

/-- The bounds of what is read. -/
theorem near_iff (lib : Wcslib K) (r : K × K × K × K) (W H i j : Nat) :
    ((clip ⌊low ((corners ⟨lib, 0, 0⟩ r).map (·.1))⌋ W ≤ i ∧ (i : Int) < clip ⌈high ((corners ⟨lib, 0, 0⟩ r).map (·.1)) + 1⌉ W) ∧
      clip ⌊low ((corners ⟨lib, 0, 0⟩ r).map (·.2))⌋ H ≤ j ∧ (j : Int) < clip ⌈high ((corners ⟨lib, 0, 0⟩ r).map (·.2)) + 1⌉ H) ↔
    i < W ∧ j < H ∧ Near lib r i j := by
  rw [range_iff _ (by simp [corners]), range_iff _ (by simp [corners])]
  simp only [List.mem_map, exists_exists_and_eq_and, corners_mem, Near]
  tauto

omit [FloorRing K] [LinearOrder K] [IsStrictOrderedRing K] in
theorem bands (band : String) : (zeropoint (K := K) band = none ∧ ¬ (band = "NUV" ∨ band = "FUV")) ∨
    ∃ zp : K, zeropoint band = some zp ∧ fwhm (K := K) band = some 6 ∧ ((band = "NUV" ∧ zp = 2008 / 100) ∨ (band = "FUV" ∧ zp = 1882 / 100)) := by
  by_cases h1 : band = "NUV"
  · exact .inr ⟨2008 / 100, by simp [zeropoint, h1], by simp [fwhm, h1], .inl ⟨h1, rfl⟩⟩
  · by_cases h2 : band = "FUV"
    · exact .inr ⟨1882 / 100, by simp [zeropoint, h2], by simp [fwhm, h2], .inr ⟨h2, rfl⟩⟩
    · exact .inl ⟨by simp [zeropoint, h1, h2], by simp [h1, h2]⟩

omit [IsStrictOrderedRing K] in
/-- **Whole images** cannot be read: without `radecroi`, its default, NameError (UnboundLocalError). -/
theorem C177_whole (cosd sqrt : K → K) (img : Intensity A) (lib : Wcslib K) (nanomaggies : Bool) (band : String) :
    readImage cosd sqrt img lib none nanomaggies band = .error .nameErr := rfl

/-- **No pixels**: None is returned exactly if no pixel of the image is near the rectangle of the region, for every band. -/
theorem C177_empty (cosd sqrt : K → K) (img : Intensity A) (lib : Wcslib K) (r : K × K × K × K) (nanomaggies : Bool) (band : String) :
    readImage cosd sqrt img lib (some r) nanomaggies band = .ok none ↔ ¬ ∃ i j, i < img.w ∧ j < img.h ∧ Near lib r i j := by
  have hx := bounds_le ((corners ⟨lib, 0, 0⟩ r).map (·.1)) (by simp [corners]) img.w
  have hy := bounds_le ((corners ⟨lib, 0, 0⟩ r).map (·.2)) (by simp [corners]) img.h
  simp only [← near_iff lib r img.w img.h]
  unfold readImage
  dsimp only
  generalize clip ⌊low ((corners ⟨lib, 0, 0⟩ r).map (·.1))⌋ img.w = x0 at *
  generalize clip ⌈high ((corners ⟨lib, 0, 0⟩ r).map (·.1)) + 1⌉ img.w = x1 at *
  generalize clip ⌊low ((corners ⟨lib, 0, 0⟩ r).map (·.2))⌋ img.h = y0 at *
  generalize clip ⌈high ((corners ⟨lib, 0, 0⟩ r).map (·.2)) + 1⌉ img.h = y1 at *
  unfold cut
  by_cases h : x0 = x1 ∨ y0 = y1
  · rw [if_pos h]
    refine iff_of_true rfl ?_
    rintro ⟨i, j, h1, h2⟩
    omega
  · rw [if_neg h, if_neg (by omega), if_neg (by omega)]
    refine iff_of_false ?_ (fun hn => hn ⟨x0.toNat, y0.toNat, by omega, by omega⟩)
    rcases nanomaggies
    · exact fun hh => by cases hh
    · rw [if_neg (by simp)]
      rcases bands (K := K) band with ⟨h1, _⟩ | ⟨zp, h1, h2, _⟩
      · dsimp only
        rw [h1]
        exact fun hh => by cases hh
      · dsimp only
        rw [h1, h2]
        exact fun hh => by cases hh

/-- **The image**: if some pixel is near the rectangle, `nanomaggies=False` is an AssertionError, a band other than NUV and FUV a KeyError, and otherwise an image is returned that has
exactly the pixels near the rectangle: a pixel of the file is at its place less the offset, and so is every position of the sky in the WCS of the image.  Its zeropoint is that of
the band, and its PSF has a width of 6 arcseconds over 2.35, in pixels of the size at *twice* the offset. -/
theorem C177_image (cosd sqrt : K → K) (img : Intensity A) (lib : Wcslib K) (r : K × K × K × K) (nanomaggies : Bool) (band : String)
    (hp : ∃ i j, i < img.w ∧ j < img.h ∧ Near lib r i j) :
    (nanomaggies = false → readImage cosd sqrt img lib (some r) nanomaggies band = .error .assertion) ∧
    (nanomaggies = true → ¬ (band = "NUV" ∨ band = "FUV") → readImage cosd sqrt img lib (some r) nanomaggies band = .error .key) ∧
    (nanomaggies = true → (band = "NUV" ∨ band = "FUV") → ∃ (tim : Tim K A) (x0 y0 : Nat),
      readImage cosd sqrt img lib (some r) nanomaggies band = .ok (some tim) ∧
      tim.extent = (((x0 : Int), ((x0 + tim.w : Nat) : Int), (y0 : Int), ((y0 + tim.h : Nat) : Int))) ∧
      (∀ i j, (∃ i' j', i' < tim.w ∧ j' < tim.h ∧ i = x0 + i' ∧ j = y0 + j') ↔ i < img.w ∧ j < img.h ∧ Near lib r i j) ∧
      (∀ i' j', i' < tim.w → j' < tim.h → tim.data j' i' = img.at' (y0 + j') (x0 + i')) ∧
      (∀ ra dec, tim.wcs.positionToPixel ra dec = ((lib.radec2pixelxy ra dec).1 - 1 - x0, (lib.radec2pixelxy ra dec).2 - 1 - y0)) ∧
      tim.zp = (if band = "NUV" then 2008 / 100 else 1882 / 100) ∧
      tim.sigma = 6 / (235 / 100) / scaleAt cosd sqrt lib (2 * x0) (2 * y0)) := by
  have hx := bounds_le ((corners ⟨lib, 0, 0⟩ r).map (·.1)) (by simp [corners]) img.w
  have hy := bounds_le ((corners ⟨lib, 0, 0⟩ r).map (·.2)) (by simp [corners]) img.h
  simp only [← near_iff lib r img.w img.h] at hp ⊢
  unfold readImage
  dsimp only
  generalize clip ⌊low ((corners ⟨lib, 0, 0⟩ r).map (·.1))⌋ img.w = x0 at *
  generalize clip ⌈high ((corners ⟨lib, 0, 0⟩ r).map (·.1)) + 1⌉ img.w = x1 at *
  generalize clip ⌊low ((corners ⟨lib, 0, 0⟩ r).map (·.2))⌋ img.h = y0 at *
  generalize clip ⌈high ((corners ⟨lib, 0, 0⟩ r).map (·.2)) + 1⌉ img.h = y1 at *
  obtain ⟨i, j, hp⟩ := hp
  obtain ⟨a, rfl⟩ := Int.eq_ofNat_of_zero_le hx.1
  obtain ⟨b, rfl⟩ := Int.eq_ofNat_of_zero_le hy.1
  unfold cut
  rw [if_neg (by omega), if_neg (by omega), if_neg (by omega)]
  refine ⟨fun h => ?_, fun h hb => ?_, fun h hb => ?_⟩
  · rw [h]
    rfl
  · rw [h, if_neg (by simp)]
    rcases bands (K := K) band with ⟨h1, _⟩ | ⟨zp, h1, h2, h3⟩
    · dsimp only
      rw [h1]
    · exact absurd (h3.imp (·.1) (·.1)) hb
  · rw [h, if_neg (by simp)]
    rcases bands (K := K) band with ⟨_, h2⟩ | ⟨zp, h1, h2, h3⟩
    · exact absurd hb h2
    · dsimp only
      rw [h1, h2]
      refine ⟨_, a, b, rfl, ?_, ?_, ?_, ?_, ?_, ?_⟩
      · dsimp only
        refine Prod.ext rfl (Prod.ext ?_ (Prod.ext rfl ?_))
        · dsimp only
          omega
        · dsimp only
          omega
      · intro i j
        dsimp only
        constructor
        · rintro ⟨i', j', h1, h2, rfl, rfl⟩
          omega
        · rintro ⟨⟨h1, h2⟩, h3, h4⟩
          exact ⟨i - a, j - b, by omega, by omega, by omega, by omega⟩
      · intro i' j' _ _
        rfl
      · intro ra dec
        simp [Wcs.positionToPixel]
      · dsimp only
        rcases h3 with ⟨rfl, rfl⟩ | ⟨rfl, rfl⟩
        · rfl
        · rfl
      · have e1 : ∀ z : K, z + 1 + z = 2 * z + 1 := fun z => by ring
        have e2 : ∀ z : K, z + 2 + z = 2 * z + 1 + 1 := fun z => by ring
        simp only [Wcs.pixelScale, Wcs.cdAtPixel, scaleAt, Int.cast_natCast, e1, e2]

/-! A file of 8 by 8 pixels of 1 degree in the first direction, in the second of 1, 3, 5, ... degrees; the square root is left out. -/

def exLib : Wcslib ℚ := ⟨fun ra dec => (ra + 1, dec + 1), fun x y => (x - 1, (y - 1) * (y - 1))⟩
def exImg : Intensity Nat := ⟨8, 8, fun j i => 10 * j + i⟩

theorem exNear : ∃ i j, i < exImg.w ∧ j < exImg.h ∧ Near exLib (2, 4, 3, 5) i j := by
  refine ⟨2, 3, by decide, by decide, ?_, ?_, ?_, ?_⟩ <;>
    exact ⟨((2 : ℚ) + 1 - 1, (3 : ℚ) + 1 - 1), ⟨2, by simp, 3, by simp, rfl⟩, by norm_num⟩

/-- **The width of the PSF is not that of the pixels of the image**: the pixels at the corner of the image read here are 7 square degrees, those from which the width is computed 13. -/
theorem C177_scale_false : (readImage (fun _ => 1) id exImg exLib (some (2, 4, 3, 5)) true "NUV").map (·.map fun tim => (tim.extent, tim.sigma)) =
      .ok (some ((2, 5, 3, 6), 6 / (235 / 100) / (13 * 3600))) ∧ scaleAt (fun _ => 1) id exLib 2 3 = 7 * 3600 := by
  constructor <;> decide +kernel

example : (readImage (fun _ => 1) id exImg exLib (some (2, 4, 3, 5)) true "NUV").map (·.map fun tim => (tim.data 0 0, tim.w, tim.h)) = .ok (some (32, 3, 3)) := by
  decide +kernel

-- a region that is not in the image
example : (readImage (fun _ => 1) id exImg exLib (some (9, 11, 3, 5)) true "NUV").map (·.isNone) = .ok true := by decide +kernel

example : readImage (fun _ => 1) id exImg exLib (some (2, 4, 3, 5)) true "r" = .error .key :=
  (C177_image (fun _ => 1) id exImg exLib (2, 4, 3, 5) true "r" exNear).2.1 rfl (by decide)

example : readImage (fun _ => 1) id exImg exLib (some (2, 4, 3, 5)) true "r" ≠ .ok none :=
  fun h => (C177_empty (fun _ => 1) id exImg exLib (2, 4, 3, 5) true "r").mp h exNear

end Verif.Galex
