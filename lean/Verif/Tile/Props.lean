import Verif.Tile.Lemmas2
import Verif.Engine.Lemmas
import Mathlib.Data.Rat.Floor

/-!
# Properties of subimages
-/

namespace Verif.Tile

open Verif Verif.Patches Verif.Coords

variable {R B : Type}

/-! Examples: positions are pixel coordinates; a 3 by 3 stamp, shifted by linear interpolation. -/

/-- `ra`, `dec` are zero-based pixel coordinates. -/
def exExt : Ext Rat := ⟨fun a b => (a + 1, b + 1), fun x y => (x - 1, y - 1), ⟨1, 0, 0, 1⟩, fun _ => 1⟩

/-- Linear interpolation. -/
def exKern (d : Rat) (i : Nat) : Rat :=
  if i = 3 then 1 - |d| else if i = 2 then max d 0 else if i = 4 then max (-d) 0 else 0

/-- A function through no points. -/
def exFit : List Rat → List Rat → List (List Rat) → Nat → Rat → Rat → Rat := fun _ _ _ _ x y => x + 2 * y

/-- Six columns, four rows. -/
def exIm : Image Rat Rat where
  data := ⟨4, 6, fun r c => 10 * r + c⟩
  inverr := some ⟨4, 6, fun _ _ => 1⟩
  psf := .pixelized (.ofLists [[0, 1, 0], [1, 4, 2], [0, 1, 0]] 3) 3
  wcs := .fits exExt 0 0
  sky := .spline [0, 1] [0, 1] 1 (fun x y => x + 2 * y) 0 0 none
  photo := fun b => .fin b
  name := some "im"
  time := none
  modelMinval := 0

/-- Two stars. -/
def exSrcs : List (Source Rat Rat) := [⟨.radec 2 1, 1, none, none⟩, ⟨.radec (13 / 4) 2, 8, none, none⟩]

/-- The rows of the model image. -/
def whole (im : Image Rat Rat) (srcs : List (Source Rat Rat)) : Option (List (List Rat)) :=
  (modelImage exKern im srcs).toOption.map Arr.toLists

/-- The rows of the model image of a tile. -/
def tile (im : Image Rat Rat) (srcs : List (Source Rat Rat)) (x0 x1 y0 y1 : Int) : Option (List (List Rat)) :=
  ((subimage exFit im x0 x1 y0 y1).toOption.bind (fun s => (modelImage exKern s srcs).toOption)).map Arr.toLists

/-- A mixture that is constant, 1. -/
def exMog : Mog Rat := ⟨fun _ _ => 1, fun _ _ _ _ _ _ _ _ => none⟩

section
variable [Field R] [LinearOrder R] [IsStrictOrderedRing R] [FloorRing R]

/-! ## C102 -/

/-- **C102 (part).** For an image with a FITS WCS, a pixelized or PsfEx PSF or a constant mixture, any of the
skies, and exact rendering: `subimage(x0, x1, y0, y1)` with bounds inside the image succeeds, its pixels and
inverse errors are those of the rectangle, it can be cut again, and the model image it gets from a list of
point sources is the rectangle of the model image of the whole, pixel by pixel.

Missing (false, see below): sources in a narrow strip outside the edge, stamps half-way between pixels and odd
offsets, `VaryingGaussianPSF`, `NullWCS`, `modelMinval` not zero, negative bounds. -/
theorem C102_subimage_partial (fit : List R → List R → List (List R) → Nat → R → R → R) (kern : R → Nat → R)
    (im : Image R B) (ie : Arr R) (hie : im.inverr = some ie) (hsh : ie.h = im.data.h ∧ ie.w = im.data.w)
    (srcs : List (Source R B)) (x0 x1 y0 y1 : Nat) (hx : x0 ≤ x1 ∧ x1 ≤ im.data.w)
    (hy : y0 ≤ y1 ∧ y1 ≤ im.data.h) (ho : ImageOK fit im) (hs : ∀ s ∈ srcs, SourceOK im s x0 x1 y0 y1) :
    ∃ sub, subimage fit im x0 x1 y0 y1 = .ok sub ∧ PartOf sub.data im.data x0 y0 (x1 - x0) (y1 - y0) ∧
      (∃ ie', sub.inverr = some ie' ∧ PartOf ie' ie x0 y0 (x1 - x0) (y1 - y0)) ∧
      sub.name = im.name ∧ sub.time = im.time ∧ ImageOK fit sub ∧
      ∀ M, modelImage kern im srcs = .ok M → ∃ m, modelImage kern sub srcs = .ok m ∧
        PartOf m M x0 y0 (x1 - x0) (y1 - y0) := by
  obtain ⟨sub, h1, h2, h3, h4, h5, h6, h7⟩ := image_rel fit kern im ie hie srcs x0 x1 y0 y1 hx hy ho hs
  refine ⟨sub, h1, ?_, ⟨_, h3, ?_⟩, h4, h5, h6, h7⟩
  · rw [h2]; exact slice_part _ _ _ _ _ hx hy
  · exact slice_part _ _ _ _ _ (by rw [hsh.2]; exact hx) (by rw [hsh.1]; exact hy)

example : ImageOK exFit exIm :=
  ⟨⟨_, _, _, rfl⟩, by refine ⟨?_, ?_⟩ <;> norm_num [exIm, Arr.ofLists], fun _ _ => rfl, rfl⟩

example : ∀ s ∈ exSrcs, SourceOK exIm s 3 6 1 4 := by
  have h2 : ∀ n : Nat, 2 ∣ n ∨ Int.fract (2 : Rat) ≠ 1 / 2 := fun n => Or.inr (by decide +kernel)
  intro s hs
  simp only [exSrcs, List.mem_cons, List.not_mem_nil, or_false] at hs
  rcases hs with rfl | rfl
  · refine ⟨fun h => h.elim, fun px py hp => ?_⟩
    cases hp
    exact ⟨⟨fun h => h.elim, fun _ r hr => by cases hr⟩, ⟨fun h => h.elim, fun _ r hr => by cases hr⟩,
      fun _ => Or.inl (by decide +kernel), fun _ => Or.inl (by decide +kernel)⟩
  · refine ⟨fun h => h.elim, fun px py hp => ?_⟩
    cases hp
    exact ⟨⟨fun h => h.elim, fun _ r hr => by cases hr⟩, ⟨fun h => h.elim, fun _ r hr => by cases hr⟩,
      fun _ => Or.inl (by decide +kernel), fun _ => Or.inl (by decide +kernel)⟩

-- the whole, and its corner from column 3 and row 1
example : whole exIm exSrcs =
    some [[0, 1, 3, 3, 4, 5], [2, 4, 8, 13, 8, 7], [4, 5, 13, 33, 28, 9], [6, 7, 8, 15, 12, 11]] := by
  decide +kernel
example : tile exIm exSrcs 3 6 1 4 = some [[13, 8, 7], [33, 28, 9], [15, 12, 11]] := by decide +kernel

end

/-- **C102, edge (negation).** A source outside a tile is dropped although its patch reaches it: a stamp with
`fixedRadius` 2 at -2.4 has its last column at 0; a mixture with radius 2 at -2.4 is evaluated up to column 0.
The whole image shows the light in column 5, the tile from column 5 on does not. -/
theorem C102_edge_false :
    (∃ (im : Image Rat Rat) (s : Source Rat Rat), ImageOK exFit im ∧ s.fixedRadius = some 2 ∧
      whole im [s] = some [[0, 1, 1, 1, 1, 3 / 5, 0]] ∧ tile im [s] 5 7 0 1 = some [[0, 0]]) ∧
    (∃ (im : Image Rat Rat) (s : Source Rat Rat), ImageOK exFit im ∧ s.fixedRadius = none ∧
      whole im [s] = some [[1, 1, 1, 1, 1, 1, 0]] ∧ tile im [s] 5 7 0 1 = some [[0, 0]]) := by
  refine ⟨⟨{ exIm with data := ⟨1, 7, fun _ _ => 0⟩, inverr := some ⟨1, 7, fun _ _ => 1⟩,
                       sky := .null, psf := .pixelized ⟨7, 7, fun _ _ => 1⟩ 5 },
      ⟨.radec (13 / 5) 0, 1, some 2, none⟩, ⟨⟨_, _, _, rfl⟩, ?_, trivial, rfl⟩, rfl,
      by decide +kernel, by decide +kernel⟩,
    ⟨{ exIm with data := ⟨1, 7, fun _ _ => 0⟩, inverr := some ⟨1, 7, fun _ _ => 1⟩, sky := .null
                 psf := .gauss exMog 2 },
      ⟨.radec (13 / 5) 0, 1, none, none⟩, ⟨⟨_, _, _, rfl⟩, trivial, trivial, rfl⟩, rfl,
      by decide +kernel, by decide +kernel⟩⟩
  refine ⟨?_, ?_⟩ <;> norm_num

/-- **C102, rounding (negation).** A star exactly half-way between two columns: Python rounds to the even one,
which is another one in a tile starting at an odd column.  With a one-pixel stamp the light of the star is in
column 2 of the image and, seen from the tile, in column 1. -/
theorem C102_rounding_false : ∃ (im : Image Rat Rat) (s : Source Rat Rat), ImageOK exFit im ∧
    s.fixedRadius = none ∧ whole im [s] = some [[0, 0, 1 / 2, 0]] ∧
    tile im [s] 0 4 0 1 = some [[0, 0, 1 / 2, 0]] ∧ tile im [s] 1 4 0 1 = some [[1 / 2, 0, 0]] := by
  refine ⟨{ exIm with data := ⟨1, 4, fun _ _ => 0⟩, inverr := some ⟨1, 4, fun _ _ => 1⟩, sky := .null
                      psf := .pixelized ⟨1, 1, fun _ _ => 1⟩ 1 },
    ⟨.radec (3 / 2) 0, 1, none, none⟩, ⟨⟨_, _, _, rfl⟩, ?_, trivial, rfl⟩, rfl,
    by decide +kernel, by decide +kernel, by decide +kernel⟩
  refine ⟨?_, ?_⟩ <;> norm_num

/-- **C102, bounds and coordinates (negation).** A negative lower bound counts from the end for the pixels but
not for the coordinates: the tile is the last column, and a star in that column is outside the tile.  With
`NullWCS` the coordinates are not shifted at all.  The approximation level `modelMinval` of the image is lost. -/
theorem C102_bounds_false :
    (∃ (im : Image Rat Rat) (s : Source Rat Rat), ImageOK exFit im ∧
      ((subimage exFit im (-1) 3 0 1).toOption.map (fun t => t.data.toLists)) = some [[2]] ∧
      whole im [s] = some [[0, 0, 1]] ∧ tile im [s] (-1) 3 0 1 = some [[0]] ∧ tile im [s] 2 3 0 1 = some [[1]]) ∧
    (∃ (im : Image Rat Rat) (s : Source Rat Rat), im.wcs = .null 1 0 0 ∧
      whole im [s] = some [[0, 0, 1]] ∧ tile im [s] 2 3 0 1 = some [[0]]) ∧
    (∀ minval : Rat, ∃ sub, subimage exFit { exIm with modelMinval := minval } 0 6 0 4 = .ok sub ∧
      sub.modelMinval = 0) := by
  refine ⟨⟨{ exIm with data := ⟨1, 3, fun _ c => c⟩, inverr := some ⟨1, 3, fun _ _ => 1⟩, sky := .null
                       psf := .pixelized ⟨1, 1, fun _ _ => 1⟩ 1 },
      ⟨.radec 2 0, 1, none, none⟩, ⟨⟨_, _, _, rfl⟩, ?_, trivial, rfl⟩, by decide +kernel, by decide +kernel,
      by decide +kernel, by decide +kernel⟩,
    ⟨{ exIm with data := ⟨1, 3, fun _ c => c⟩, inverr := some ⟨1, 3, fun _ _ => 1⟩, sky := .null
                 psf := .pixelized ⟨1, 1, fun _ _ => 1⟩ 1, wcs := .null 1 0 0 },
      ⟨.pix 2 0, 1, none, none⟩, rfl, by decide +kernel, by decide +kernel⟩,
    fun _ => ⟨_, rfl, rfl⟩⟩
  refine ⟨?_, ?_⟩ <;> norm_num

section
variable [Field R] [LinearOrder R] [IsStrictOrderedRing R] [FloorRing R]

omit [IsStrictOrderedRing R] in
/-- **C102, varying mixtures (negation).** With a `VaryingGaussianPSF` the tile gets a `ShiftedPsf`, which moves
the position to the coordinates of the whole image but passes the limits of the tile on as they are: in a tile
that starts at least its own width from the left edge no point source appears at all, wherever it is; the model
image is the sky. -/
theorem C102_varying_false (fit : List R → List R → List (List R) → Nat → R → R → R) (kern : R → Nat → R)
    (im : Image R B) (mogAt : R → R → Mog R) (r i : R) (hpsf : im.psf = .varying mogAt r i)
    (x0 x1 y0 y1 : Nat) (hx : x1 - x0 ≤ x0 ∧ x0 ≤ x1 ∧ x1 ≤ im.data.w) (hy : y0 ≤ y1 ∧ y1 ≤ im.data.h)
    (sub : Image R B) (hsub : subimage fit im x0 x1 y0 y1 = .ok sub) (srcs : List (Source R B))
    (hmin : ∀ s ∈ srcs, s.minRadius = none) (m : Arr R) (hm : modelImage kern sub srcs = .ok m)
    (y x : Nat) (by' : y < y1 - y0) (bx : x < x1 - x0) :
    m.px y x = (sub.sky.addTo (Arr.zeros (y1 - y0) (x1 - x0))).px y x := by
  obtain ⟨d1, d2, -⟩ := slice_part im.data x0 x1 y0 y1 hx.2 hy
  unfold subimage at hsub
  cases hie : im.inverr with
  | none => rw [hie] at hsub; cases hsub
  | some ie =>
    rw [hie] at hsub
    cases hw : shiftedBy im.wcs ((x0 : Int) : R) ((y0 : Int) : R) with
    | error e => simp only [hw] at hsub; cases hsub
    | ok w =>
      simp only [hw, hpsf, Psf.getShifted] at hsub
      cases hsub
      obtain ⟨ps, g1, g2, g3, g4⟩ := addSources_at kern _ srcs _ m hm
      simp only [d1, d2] at g1 g4
      have fh : ∀ (sky : Sky R) (a b : Nat), (sky.addTo (Arr.zeros a b)).h = a ∧
          (sky.addTo (Arr.zeros a b)).w = b := by
        intro sky a b
        cases sky with
        | null => exact ⟨rfl, rfl⟩
        | constant v => simp only [Sky.addTo]; split <;> exact ⟨rfl, rfl⟩
        | spline => exact ⟨rfl, rfl⟩
      rw [g4 y x (by rw [(fh _ _ _).1]; exact by') (by rw [(fh _ _ _).2]; exact bx)]
      suffices h : (ps.map (fun p => valueAt p x y)).sum = 0 by rw [h, add_zero]
      apply List.sum_eq_zero
      intro v hv
      obtain ⟨p, hp, rfl⟩ := List.mem_map.1 hv
      obtain ⟨n, hn, rfl⟩ := List.getElem_of_mem hp
      have hn' : n < srcs.length := by rw [g1.length_eq]; exact hn
      have hs := g1.get hn' hn
      have hmr := hmin _ (List.getElem_mem hn')
      simp only [List.get_eq_getElem] at hs
      generalize srcs[n] = s at hs hmr
      generalize ps[n] = p at hs
      exact varying_none kern _ mogAt r i x0 y0 rfl rfl (by simp only [d2]; exact_mod_cast hx.1) s hmr p hs x y
        (by omega)

/-- The image of the examples with a varying mixture: the second star is in the middle of the tile. -/
example : whole { exIm with psf := .varying (fun _ _ => exMog) 1 1 } exSrcs =
      some [[0, 2, 3, 4, 4, 5], [2, 4, 13, 14, 14, 15], [4, 6, 15, 16, 16, 17], [6, 7, 16, 17, 18, 19]] ∧
    tile { exIm with psf := .varying (fun _ _ => exMog) 1 1 } exSrcs 3 6 1 4 =
      some [[5, 6, 7], [7, 8, 9], [9, 10, 11]] := by
  constructor <;> decide +kernel

/-! ## C103 -/

/-- **C103 (part).** Chi-squared adds up over tiles: if rectangles cover every pixel of the image exactly once,
the chi-squared of the image (when it can be computed) is the sum of those of its subimages, each of which can
be computed.  Under the conditions of C102 for each tile. -/
theorem C103_tiles_partial (fit : List R → List R → List (List R) → Nat → R → R → R) (kern : R → Nat → R)
    (im : Image R B) (srcs : List (Source R B)) (ts : List Rect) (ho : ImageOK fit im)
    (ht : Tiling ts im.data.w im.data.h) (hs : ∀ t ∈ ts, ∀ s ∈ srcs, SourceOK im s t.x0 t.x1 t.y0 t.y1)
    (v : R) (hv : chisq kern im srcs = .ok v) :
    ∃ vs : List R, List.Forall₂ (fun t u => ∃ sub, subimage fit im t.x0 t.x1 t.y0 t.y1 = .ok sub ∧
      chisq kern sub srcs = .ok u) ts vs ∧ vs.sum = v := by
  unfold chisq at hv
  cases hM : modelImage kern im srcs with
  | error e => rw [hM] at hv; cases hv
  | ok M =>
    cases hie : im.inverr with
    | none => rw [hM, hie] at hv; cases hv
    | some ie =>
      simp only [hM, hie] at hv
      split at hv
      case isFalse => cases hv
      case isTrue hsz =>
      obtain ⟨s1, s2, s3, s4⟩ := hsz
      cases hv
      rw [Engine.ravel_sum]
      refine ⟨ts.map (fun t => ∑ y ∈ Finset.range im.data.h, ∑ x ∈ Finset.range im.data.w,
        if t.has x y then ((im.data.px y x - M.px y x) * ie.px y x) ^ 2 else 0), ?_, ?_⟩
      · rw [List.forall₂_map_right_iff, List.forall₂_same]
        intro t hmem
        obtain ⟨w1, w2, w3, w4⟩ := ht.1 t hmem
        obtain ⟨sub, h1, h2, h3, -, -, -, h4⟩ := image_rel fit kern im ie hie srcs t.x0 t.x1 t.y0 t.y1 ⟨w1, w2⟩
          ⟨w3, w4⟩ ho (hs t hmem)
        obtain ⟨m, h5, h6⟩ := h4 M hM
        refine ⟨sub, h1, ?_⟩
        obtain ⟨a1, a2, a3⟩ := slice_part im.data t.x0 t.x1 t.y0 t.y1 ⟨w1, w2⟩ ⟨w3, w4⟩
        obtain ⟨b1, b2, b3⟩ := slice_part ie t.x0 t.x1 t.y0 t.y1 ⟨w1, s4 ▸ w2⟩ ⟨w3, s3 ▸ w4⟩
        obtain ⟨c1, c2, c3⟩ := h6
        rw [← h2] at a1 a2 a3
        simp only [chisq, h5, h3]
        rw [if_pos ⟨a1.trans c1.symm, a2.trans c2.symm, a1.trans b1.symm, a2.trans b2.symm⟩, Engine.ravel_sum]
        simp only [a1, a2]
        rw [tile_sum t _ _ ⟨w1, w2, w3, w4⟩ (fun y x => ((im.data.px y x - M.px y x) * ie.px y x) ^ 2)]
        refine congrArg Except.ok ?_
        refine Finset.sum_congr rfl (fun y hy => Finset.sum_congr rfl (fun x hx => ?_))
        rw [Finset.mem_range] at hx hy
        rw [a3 y x hy hx, b3 y x hy hx, c3 y x hy hx, Nat.add_comm y, Nat.add_comm x]
      · rw [cover_sum ts _ _ ht]

/-- Four rectangles, stars on several of them. -/
example : Tiling [⟨0, 3, 0, 1⟩, ⟨3, 6, 0, 1⟩, ⟨0, 3, 1, 4⟩, ⟨3, 6, 1, 4⟩] 6 4 := by
  refine ⟨by unfold Rect.within; decide, fun x y hx hy => ?_⟩
  have : ∀ x < 6, ∀ y < 4, (List.filter (fun t : Rect => t.has x y)
    [⟨0, 3, 0, 1⟩, ⟨3, 6, 0, 1⟩, ⟨0, 3, 1, 4⟩, ⟨3, 6, 1, 4⟩]).length = 1 := by decide
  exact this x hx y hy

example : (chisq exKern exIm exSrcs).toOption = some 4307 ∧
    ([(0, 3, 0, 1), (3, 6, 0, 1), (0, 3, 1, 4), (3, 6, 1, 4)].map (fun t : Int × Int × Int × Int =>
      (subimage exFit exIm t.1 t.2.1 t.2.2.1 t.2.2.2).toOption.bind
        (fun s => (chisq exKern s exSrcs).toOption))) = [some 1, some 0, some 2450, some 1856] := by
  constructor <;> decide +kernel

end

end Verif.Tile
