import Mathlib.Algebra.BigOperators.Intervals
import Verif.Tile.Lemmas

namespace Verif.Tile

open Verif Verif.Patches Verif.Coords

variable {R B : Type}
variable [Field R] [LinearOrder R] [IsStrictOrderedRing R] [FloorRing R]

/-- A source that both the image and the tile render. -/
theorem point_rel (kern : R → Nat → R) (psf psf' : Psf R) (x0 y0 : Nat) (hs : psf.getShifted x0 y0 = .ok psf')
    (hp : PsfOK psf) (px py : R) (fixed minR : Option R) (hm : psf.isMog → minR = none)
    (hrx : RoundOK psf px x0) (hry : RoundOK psf py y0) (W H w h : Nat) (hW : x0 + w ≤ W) (hH : y0 + h ≤ H)
    (p : Option (Patch R))
    (he : psf.getPointSourcePatch kern px py 0 fixed minR (some (0, (W : Int), 0, (H : Int))) = .ok p) :
    ∃ q, psf'.getPointSourcePatch kern (px - (x0 : R)) (py - (y0 : R)) 0 fixed minR
        (some (0, (w : Int), 0, (h : Int))) = .ok q ∧
      ∀ x y : Int, 0 ≤ x ∧ x < w → 0 ≤ y ∧ y < h → valueAt q x y = valueAt p (x + x0) (y + y0) := by
  cases psf with
  | pixelized img r =>
    cases hs
    obtain ⟨p', q, h1, h2, h3⟩ := stamp_shift kern img px py fixed x0 y0 (hrx id) (hry id)
    have : p = some p' := by
      have := he.symm.trans h1
      cases this; rfl
    subst this
    exact ⟨some q, h2, fun x y _ _ => h3 x y⟩
  | psfex m r =>
    cases hs
    simp only [Psf.getPointSourcePatch] at he ⊢
    rw [Int.cast_natCast, Int.cast_natCast, psfex_shift]
    cases hi : psfExImage m px py with
    | error e => rw [hi] at he; cases he
    | ok img =>
      rw [hi] at he
      obtain ⟨p', q, h1, h2, h3⟩ := stamp_shift kern img px py fixed x0 y0 (hrx id) (hry id)
      have : p = some p' := by
        have := he.symm.trans h1
        cases this; rfl
      subst this
      exact ⟨some q, h2, fun x y _ _ => h3 x y⟩
  | gauss m r =>
    cases hs
    obtain rfl : minR = none := hm trivial
    simp only [Psf.getPointSourcePatch] at he ⊢
    cases he
    refine ⟨_, rfl, fun x y hx hy => ?_⟩
    rw [mog_at m r _ _ fixed w h x y hx hy, mog_at m r _ _ fixed W H _ _ (by omega) (by omega)]
    have ax : px - (x0 : R) - fixed.getD r = px - fixed.getD r - (x0 : R) := by ring
    have bx : px - (x0 : R) + fixed.getD r = px + fixed.getD r - (x0 : R) := by ring
    have ay : py - (y0 : R) - fixed.getD r = py - fixed.getD r - (y0 : R) := by ring
    have bY : py - (y0 : R) + fixed.getD r = py + fixed.getD r - (y0 : R) := by ring
    rw [ax, bx, ay, bY, Int.floor_sub_natCast, Int.floor_sub_natCast, Int.ceil_sub_natCast,
      Int.ceil_sub_natCast]
    have ex : (x : R) - (px - (x0 : R)) = ((x + x0 : Int) : R) - px := by push_cast; ring
    have ey : (y : R) - (py - (y0 : R)) = ((y + y0 : Int) : R) - py := by push_cast; ring
    rw [ex, ey]
    refine if_congr ?_ rfl rfl
    omega
  | varying => exact hp.elim
  | shifted => exact hp.elim

/-- A source that the tile gives up does not reach it. -/
theorem point_far (kern : R → Nat → R) (psf psf' : Psf R) (x0 y0 : Nat) (hs : psf.getShifted x0 y0 = .ok psf')
    (hp : PsfOK psf) (px py : R) (fixed minR : Option R) (hm : psf.isMog → minR = none)
    (hrx : RoundOK psf px x0) (hry : RoundOK psf py y0) (W H w h : Nat) (hW : x0 + w ≤ W) (hH : y0 + h ≤ H)
    (hex : EdgeOK psf fixed (px - (x0 : R)) (w : R)) (hey : EdgeOK psf fixed (py - (y0 : R)) (h : R))
    (hf : px - (x0 : R) + fixed.getD psf.getRadius < 0 ∨ px - (x0 : R) - fixed.getD psf.getRadius > (w : R) ∨
      py - (y0 : R) + fixed.getD psf.getRadius < 0 ∨ py - (y0 : R) - fixed.getD psf.getRadius > (h : R))
    (p : Option (Patch R))
    (he : psf.getPointSourcePatch kern px py 0 fixed minR (some (0, (W : Int), 0, (H : Int))) = .ok p)
    (x y : Int) (hx : 0 ≤ x ∧ x < w) (hy : 0 ≤ y ∧ y < h) : valueAt p (x + x0) (y + y0) = 0 := by
  cases psf with
  | pixelized img r =>
    cases hs
    obtain ⟨p', q, h1, h2, h3⟩ := stamp_shift kern img px py fixed x0 y0 (hrx id) (hry id)
    have : p = some p' := by
      have := he.symm.trans h1
      cases this; rfl
    subst this
    exact (h3 x y).symm.trans (stamp_given_up kern img r hp.1 hp.2 _ _ fixed w h (hex.2 id) (hey.2 id) hf q h2
      x y hx hy)
  | psfex m r =>
    cases hs
    simp only [Psf.getPointSourcePatch] at he
    cases hi : psfExImage m px py with
    | error e => rw [hi] at he; cases he
    | ok img =>
      rw [hi] at he
      obtain ⟨b, hb, hw', hh'⟩ := psfex_size m px py img hi
      obtain ⟨g1, g2⟩ := hp b hb
      rw [← hw', ← hh'] at g2
      obtain ⟨p', q, h1, h2, h3⟩ := stamp_shift kern img px py fixed x0 y0 (hrx id) (hry id)
      have : p = some p' := by
        have := he.symm.trans h1
        cases this; rfl
      subst this
      exact (h3 x y).symm.trans (stamp_given_up kern img r g1 g2 _ _ fixed w h (hex.2 id) (hey.2 id) hf q h2
        x y hx hy)
  | gauss m r =>
    cases hs
    obtain rfl : minR = none := hm trivial
    simp only [Psf.getPointSourcePatch] at he
    cases he
    rw [mog_at m r _ _ fixed W H _ _ (by omega) (by omega), if_neg]
    have hex := hex.1 trivial
    have hey := hey.1 trivial
    simp only [Psf.getRadius] at hf hex hey
    rintro ⟨g1, g2, g3, g4⟩
    have far : ∀ (c : R) (c0 n : Nat) (z : Int), z < n → ⌊c - fixed.getD r⌋ ≤ z + c0 →
        ¬ (c - (c0 : R) - fixed.getD r > (n : R)) := by
      intro c c0 n z hz h1 h2
      have h3 := Int.lt_floor_add_one (c - fixed.getD r)
      have h4 : ((⌊c - fixed.getD r⌋ : Int) : R) ≤ ((z + c0 : Int) : R) := by exact_mod_cast h1
      have h5 : ((z + 1 : Int) : R) ≤ ((n : Int) : R) := by exact_mod_cast hz
      push_cast at h4 h5
      linarith
    have near : ∀ (c : R) (c0 : Nat) (z : Int), 0 ≤ z → z + c0 ≤ ⌈c + fixed.getD r⌉ →
        (0 ≤ c - (c0 : R) + fixed.getD r ∨ c - (c0 : R) + fixed.getD r ≤ -1) →
        ¬ (c - (c0 : R) + fixed.getD r < 0) := by
      intro c c0 z hz h1 h6 h2
      have h7 := h6.resolve_left (not_le.2 h2)
      have h3 := Int.ceil_lt_add_one (c + fixed.getD r)
      have h4 : ((z + c0 : Int) : R) ≤ ((⌈c + fixed.getD r⌉ : Int) : R) := by exact_mod_cast h1
      have h5 : ((0 : Int) : R) ≤ ((z : Int) : R) := by exact_mod_cast hz
      push_cast at h4 h5
      linarith
    rcases hf with hf | hf | hf | hf
    · exact near px x0 x hx.1 g2 hex hf
    · exact far px x0 w x hx.2 g1 hf
    · exact near py y0 y hy.1 g4 hey hf
    · exact far py y0 h y hy.2 g3 hf
  | varying => exact hp.elim
  | shifted => exact hp.elim

omit [LinearOrder R] [IsStrictOrderedRing R] [FloorRing R] in
theorem radius_shifted (psf psf' : Psf R) (x0 y0 : Int) (hs : psf.getShifted x0 y0 = .ok psf') :
    psf'.getRadius = psf.getRadius := by
  cases psf <;> cases hs <;> rfl

omit [LinearOrder R] [IsStrictOrderedRing R] [FloorRing R] in
theorem pos_shifted (w w' : Wcs R) (hw : ∃ e a b, w = .fits e a b) (dx dy : R) (hs : shiftedBy w dx dy = .ok w')
    (p : Pos R) : positionToPixel w' p = (positionToPixel w p).map (fun q => (q.1 - dx, q.2 - dy)) := by
  obtain ⟨e, a, b, rfl⟩ := hw
  cases hs
  cases p <;> simp only [positionToPixel, Except.map]
  congr 2 <;> ring

/-- One source, unit flux. -/
theorem unit_rel (kern : R → Nat → R) (im sub : Image R B) (s : Source R B) (x0 x1 y0 y1 : Nat)
    (hx : x0 ≤ x1 ∧ x1 ≤ im.data.w) (hy : y0 ≤ y1 ∧ y1 ≤ im.data.h)
    (hw : ∃ e a b, im.wcs = .fits e a b) (hp : PsfOK im.psf) (ho : SourceOK im s x0 x1 y0 y1)
    (h1 : shiftedBy im.wcs (x0 : R) (y0 : R) = .ok sub.wcs) (h2 : im.psf.getShifted x0 y0 = .ok sub.psf)
    (h3 : sub.data.w = x1 - x0) (h4 : sub.data.h = y1 - y0) (p : Option (Patch R))
    (he : unitPatch kern im s 0 = .ok p) :
    ∃ q, unitPatch kern sub s 0 = .ok q ∧ ∀ x y : Int, 0 ≤ x ∧ x < (x1 - x0 : Nat) → 0 ≤ y ∧ y < (y1 - y0 : Nat) →
      valueAt q x y = valueAt p (x + x0) (y + y0) := by
  have hpos := pos_shifted _ _ hw _ _ h1 s.pos
  unfold unitPatch at he ⊢
  rw [hpos, radius_shifted _ _ _ _ h2, h3, h4]
  cases hpp : positionToPixel im.wcs s.pos with
  | error e => rw [hpp] at he; cases he
  | ok v =>
    obtain ⟨px, py⟩ := v
    rw [hpp] at he
    obtain ⟨ex, ey, rx, ry⟩ := ho.2 px py hpp
    simp only [Except.map] at he ⊢
    have cw : (((x1 - x0 : Nat) : Nat) : R) = (x1 : R) - x0 := by
      rw [Nat.cast_sub hx.1]
    have ch : (((y1 - y0 : Nat) : Nat) : R) = (y1 : R) - y0 := by
      rw [Nat.cast_sub hy.1]
    rw [← cw] at ex
    rw [← ch] at ey
    by_cases hf : px - (x0 : R) + s.fixedRadius.getD im.psf.getRadius < 0 ∨
        px - (x0 : R) - s.fixedRadius.getD im.psf.getRadius > ((x1 - x0 : Nat) : R) ∨
        py - (y0 : R) + s.fixedRadius.getD im.psf.getRadius < 0 ∨
        py - (y0 : R) - s.fixedRadius.getD im.psf.getRadius > ((y1 - y0 : Nat) : R)
    · rw [if_pos hf]
      refine ⟨none, rfl, fun x y bx bY => ?_⟩
      split at he
      · cases he; rfl
      · exact (point_far kern im.psf sub.psf x0 y0 h2 hp px py _ _ ho.1 rx ry _ _ _ _ (by omega) (by omega)
          ex ey hf p he x y bx bY).symm
    · rw [if_neg hf]
      have b1 : (x1 : R) ≤ (im.data.w : R) := Nat.cast_le.2 hx.2
      have b2 : (y1 : R) ≤ (im.data.h : R) := Nat.cast_le.2 hy.2
      have b3 : (0 : R) ≤ (x0 : R) := Nat.cast_nonneg _
      have b4 : (0 : R) ≤ (y0 : R) := Nat.cast_nonneg _
      rw [cw, ch] at hf
      simp only [not_or, not_lt, gt_iff_lt] at hf
      obtain ⟨f1, f2, f3, f4⟩ := hf
      rw [if_neg (by
        simp only [not_or, not_lt, gt_iff_lt]
        refine ⟨?_, ?_, ?_, ?_⟩ <;> linarith)] at he
      exact point_rel kern im.psf sub.psf x0 y0 h2 hp px py _ _ ho.1 rx ry _ _ _ _ (by omega) (by omega) p he

omit [LinearOrder R] [IsStrictOrderedRing R] [FloorRing R] in
theorem at_mul (p : Patch R) (k : R) (x y : Int) : (p.mul k).at x y = p.at x y * k := by
  cases hp : p.patch with
  | none => simp [Patch.mul, Patch.at, hp]
  | some A =>
    simp only [Patch.mul, Patch.at, hp, Option.map_some, Arr.map]
    split
    · rfl
    · rw [zero_mul]

/-- One source. -/
theorem source_rel (kern : R → Nat → R) (im sub : Image R B) (s : Source R B) (x0 x1 y0 y1 : Nat)
    (hx : x0 ≤ x1 ∧ x1 ≤ im.data.w) (hy : y0 ≤ y1 ∧ y1 ≤ im.data.h)
    (hw : ∃ e a b, im.wcs = .fits e a b) (hp : PsfOK im.psf) (ho : SourceOK im s x0 x1 y0 y1)
    (hm : im.modelMinval = 0) (hm' : sub.modelMinval = 0) (hph : sub.photo = im.photo)
    (h1 : shiftedBy im.wcs (x0 : R) (y0 : R) = .ok sub.wcs) (h2 : im.psf.getShifted x0 y0 = .ok sub.psf)
    (h3 : sub.data.w = x1 - x0) (h4 : sub.data.h = y1 - y0) (p : Option (Patch R))
    (he : modelPatch kern im s = .ok p) :
    ∃ q, modelPatch kern sub s = .ok q ∧ ∀ x y : Int, 0 ≤ x ∧ x < (x1 - x0 : Nat) → 0 ≤ y ∧ y < (y1 - y0 : Nat) →
      valueAt q x y = valueAt p (x + x0) (y + y0) := by
  unfold modelPatch at he ⊢
  rw [hph]
  cases hc : im.photo s.bright with
  | fin counts =>
    rw [hc] at he
    simp only [hm, hm', zero_div] at he ⊢
    by_cases h0 : counts = 0
    · rw [if_pos h0] at he ⊢
      cases he
      exact ⟨none, rfl, fun _ _ _ _ => rfl⟩
    · rw [if_neg h0] at he ⊢
      cases hu : unitPatch kern im s 0 with
      | error e => rw [hu] at he; cases he
      | ok u =>
        obtain ⟨v, g1, g2⟩ := unit_rel kern im sub s x0 x1 y0 y1 hx hy hw hp ho h1 h2 h3 h4 u hu
        rw [hu] at he
        rw [g1]
        cases u with
        | none =>
          cases he
          cases v with
          | none => exact ⟨none, rfl, fun _ _ _ _ => rfl⟩
          | some v =>
            refine ⟨_, rfl, fun x y bx bY => ?_⟩
            have := g2 x y bx bY
            simp only [valueAt] at this ⊢
            rw [at_mul, this, zero_mul]
        | some u =>
          cases he
          cases v with
          | none =>
            refine ⟨_, rfl, fun x y bx bY => ?_⟩
            have := g2 x y bx bY
            simp only [valueAt] at this ⊢
            rw [at_mul, ← this, zero_mul]
          | some v =>
            refine ⟨_, rfl, fun x y bx bY => ?_⟩
            have := g2 x y bx bY
            simp only [valueAt] at this ⊢
            rw [at_mul, at_mul, this]
  | nan => rw [hc] at he; cases he; exact ⟨none, rfl, fun _ _ _ _ => rfl⟩
  | ninf => rw [hc] at he; cases he; exact ⟨none, rfl, fun _ _ _ _ => rfl⟩
  | pinf => rw [hc] at he; cases he; exact ⟨none, rfl, fun _ _ _ _ => rfl⟩

omit [LinearOrder R] [IsStrictOrderedRing R] [FloorRing R] in
/-- Adding a patch adds its values. -/
theorem addTo_at (p : Patch R) (A : Arr R) : ∃ r, p.addTo A 1 = .ok r ∧ r.h = A.h ∧ r.w = A.w ∧
    ∀ y x : Nat, y < A.h → x < A.w → r.px y x = A.px y x + p.at x y := by
  obtain ⟨r, h1, h2, h3, h4⟩ := addTo_ok p A (1 : R)
  refine ⟨r, h1, h2, h3, fun y x hy hx => ?_⟩
  rw [h4 y x hy hx, mul_one]
  split
  · rfl
  · rename_i hc
    have : p.at x y = 0 := by
      unfold Patch.at
      unfold Patch.covers at hc
      cases hpp : p.patch with
      | none => rfl
      | some A =>
        rw [hpp] at hc
        simp only at hc ⊢
        rw [if_neg hc]
    rw [this, add_zero]

omit [IsStrictOrderedRing R] in
/-- What the loop over sources does. -/
theorem addSources_at (kern : R → Nat → R) (im : Image R B) : ∀ (srcs : List (Source R B)) (A M : Arr R),
    addSources kern im srcs A = .ok M → ∃ ps, List.Forall₂ (fun s p => modelPatch kern im s = .ok p) srcs ps ∧
      M.h = A.h ∧ M.w = A.w ∧ ∀ y x : Nat, y < A.h → x < A.w →
        M.px y x = A.px y x + (ps.map (fun p => valueAt p x y)).sum
  | [], A, M, h => by cases h; exact ⟨[], .nil, rfl, rfl, by simp⟩
  | s :: srcs, A, M, h => by
    unfold addSources at h
    cases hs : modelPatch kern im s with
    | error e => rw [hs] at h; cases h
    | ok p =>
      rw [hs] at h
      cases p with
      | none =>
        obtain ⟨ps, g1, g2, g3, g4⟩ := addSources_at kern im srcs A M h
        exact ⟨none :: ps, .cons hs g1, g2, g3, fun y x hy hx => by rw [g4 y x hy hx]; simp [valueAt]⟩
      | some p =>
        obtain ⟨r, r1, r2, r3, r4⟩ := addTo_at p A
        simp only [r1] at h
        obtain ⟨ps, g1, g2, g3, g4⟩ := addSources_at kern im srcs r M h
        refine ⟨some p :: ps, .cons hs g1, by rw [g2, r2], by rw [g3, r3], fun y x hy hx => ?_⟩
        rw [g4 y x (by rw [r2]; exact hy) (by rw [r3]; exact hx), r4 y x hy hx]
        simp only [List.map_cons, List.sum_cons, valueAt]
        ring

omit [IsStrictOrderedRing R] in
/-- If every source renders, the loop succeeds. -/
theorem addSources_run (kern : R → Nat → R) (im : Image R B) : ∀ (srcs : List (Source R B))
    (ps : List (Option (Patch R))) (A : Arr R), List.Forall₂ (fun s p => modelPatch kern im s = .ok p) srcs ps →
    ∃ M, addSources kern im srcs A = .ok M ∧ M.h = A.h ∧ M.w = A.w ∧ ∀ y x : Nat, y < A.h → x < A.w →
        M.px y x = A.px y x + (ps.map (fun p => valueAt p x y)).sum
  | [], _, A, .nil => ⟨A, rfl, rfl, rfl, by simp⟩
  | s :: srcs, p :: ps, A, .cons hs hr => by
    unfold addSources
    rw [hs]
    cases p with
    | none =>
      obtain ⟨M, g1, g2, g3, g4⟩ := addSources_run kern im srcs ps A hr
      exact ⟨M, g1, g2, g3, fun y x hy hx => by rw [g4 y x hy hx]; simp [valueAt]⟩
    | some p =>
      obtain ⟨r, r1, r2, r3, r4⟩ := addTo_at p A
      obtain ⟨M, g1, g2, g3, g4⟩ := addSources_run kern im srcs ps r hr
      refine ⟨M, by simp only [r1, g1], by rw [g2, r2], by rw [g3, r3], fun y x hy hx => ?_⟩
      rw [g4 y x (by rw [r2]; exact hy) (by rw [r3]; exact hx), r4 y x hy hx]
      simp only [List.map_cons, List.sum_cons, valueAt]
      ring

omit [LinearOrder R] [IsStrictOrderedRing R] [FloorRing R] in
theorem sky_rel [DecidableEq R] (fit : List R → List R → List (List R) → Nat → R → R → R) (sky : Sky R)
    (hs : SkyOK fit sky) (x0 y0 h w H W : Nat) :
    PartOf ((sky.shifted fit x0 y0).addTo (Arr.zeros h w)) (sky.addTo (Arr.zeros H W)) x0 y0 w h := by
  cases sky with
  | null => exact ⟨rfl, rfl, fun _ _ _ _ => rfl⟩
  | constant v =>
    simp only [Sky.shifted, Sky.addTo]
    split
    · exact ⟨rfl, rfl, fun _ _ _ _ => rfl⟩
    · exact ⟨rfl, rfl, fun _ _ _ _ => rfl⟩
  | spline xg yg order spl a b sm =>
    refine ⟨rfl, rfl, fun y x _ _ => ?_⟩
    simp only [Sky.shifted, Sky.addTo, Arr.zeros]
    rw [hs]
    congr 2
    · push_cast; ring
    · push_cast; ring

omit [Field R] [LinearOrder R] [IsStrictOrderedRing R] [FloorRing R] in
theorem slice_part (A : Arr R) (x0 x1 y0 y1 : Nat) (hx : x0 ≤ x1 ∧ x1 ≤ A.w) (hy : y0 ≤ y1 ∧ y1 ≤ A.h) :
    PartOf (A.slice (some (y0 : Int)) (some (y1 : Int)) (some (x0 : Int)) (some (x1 : Int))) A x0 y0
      (x1 - x0) (y1 - y0) := by
  have b : ∀ n i : Nat, i ≤ n → Arr.bound n (i : Int) = i := by
    intro n i h
    unfold Arr.bound
    rw [if_neg (by omega)]
    omega
  have e1 : Arr.axis A.h (some (y0 : Int)) (some (y1 : Int)) = (y0, y1 - y0) := by
    simp only [Arr.axis, Option.map_some, Option.getD_some, b _ _ hy.2, b _ _ (hy.1.trans hy.2)]
  have e2 : Arr.axis A.w (some (x0 : Int)) (some (x1 : Int)) = (x0, x1 - x0) := by
    simp only [Arr.axis, Option.map_some, Option.getD_some, b _ _ hx.2, b _ _ (hx.1.trans hx.2)]
  simp only [Arr.slice, e1, e2]
  exact ⟨rfl, rfl, fun _ _ _ _ => rfl⟩

/-- The whole image. -/
theorem image_rel (fit : List R → List R → List (List R) → Nat → R → R → R) (kern : R → Nat → R)
    (im : Image R B) (ie : Arr R) (hie : im.inverr = some ie) (srcs : List (Source R B)) (x0 x1 y0 y1 : Nat)
    (hx : x0 ≤ x1 ∧ x1 ≤ im.data.w) (hy : y0 ≤ y1 ∧ y1 ≤ im.data.h) (ho : ImageOK fit im)
    (hs : ∀ s ∈ srcs, SourceOK im s x0 x1 y0 y1) :
    ∃ sub, subimage fit im x0 x1 y0 y1 = .ok sub ∧
      sub.data = im.data.slice (some (y0 : Int)) (some (y1 : Int)) (some (x0 : Int)) (some (x1 : Int)) ∧
      sub.inverr = some (ie.slice (some (y0 : Int)) (some (y1 : Int)) (some (x0 : Int)) (some (x1 : Int))) ∧
      sub.name = im.name ∧ sub.time = im.time ∧ ImageOK fit sub ∧
      ∀ M, modelImage kern im srcs = .ok M → ∃ m, modelImage kern sub srcs = .ok m ∧
        PartOf m M x0 y0 (x1 - x0) (y1 - y0) := by
  obtain ⟨e, a, b, hw⟩ := ho.wcs
  have h1 : shiftedBy im.wcs (x0 : R) (y0 : R) = .ok (.fits e (a + x0) (b + y0)) := by rw [hw]; rfl
  obtain ⟨psf', h2, hp'⟩ : ∃ psf', im.psf.getShifted x0 y0 = .ok psf' ∧ PsfOK psf' := by
    have hp := ho.psf
    cases hpsf : im.psf with
    | pixelized i r => rw [hpsf] at hp; exact ⟨_, rfl, hp⟩
    | psfex m r => rw [hpsf] at hp; exact ⟨_, rfl, hp⟩
    | gauss m r => rw [hpsf] at hp; exact ⟨_, rfl, hp⟩
    | varying => rw [hpsf] at hp; exact hp.elim
    | shifted => rw [hpsf] at hp; exact hp.elim
  obtain ⟨d1, d2, d3⟩ := slice_part im.data x0 x1 y0 y1 hx hy
  have hsub : subimage fit im x0 x1 y0 y1 = .ok
      { data := im.data.slice (some (y0 : Int)) (some (y1 : Int)) (some (x0 : Int)) (some (x1 : Int))
        inverr := some (ie.slice (some (y0 : Int)) (some (y1 : Int)) (some (x0 : Int)) (some (x1 : Int)))
        psf := psf', wcs := .fits e (a + x0) (b + y0), sky := im.sky.shifted fit x0 y0, photo := im.photo
        name := im.name, time := im.time, modelMinval := 0 } := by
    unfold subimage
    rw [hie]
    simp only [Int.cast_natCast, h1, h2]
  refine ⟨_, hsub, rfl, rfl, rfl, rfl, ⟨⟨_, _, _, rfl⟩, hp', ?_, rfl⟩, fun M hM => ?_⟩
  · have hsk := ho.sky
    cases hsky : im.sky with
    | null => trivial
    | constant v => trivial
    | spline xg yg order spl u v sm =>
      rw [hsky] at hsk
      intro x y
      have e : fit xg yg (yg.map (fun y => xg.map (fun x => spl x y))) order = spl := by
        funext x y; exact hsk x y
      rw [e]
      exact hsk x y
  · obtain ⟨ps, g1, g2, g3, g4⟩ := addSources_at kern im srcs _ M hM
    set sub : Image R B := { data := im.data.slice (some (y0 : Int)) (some (y1 : Int)) (some (x0 : Int)) (some (x1 : Int))
                             inverr := some (ie.slice (some (y0 : Int)) (some (y1 : Int)) (some (x0 : Int)) (some (x1 : Int)))
                             psf := psf', wcs := .fits e (a + x0) (b + y0), sky := im.sky.shifted fit x0 y0, photo := im.photo
                             name := im.name, time := im.time, modelMinval := 0 } with hsubdef
    have key : ∀ (ss : List (Source R B)) (ps : List (Option (Patch R))),
        (∀ s ∈ ss, SourceOK im s x0 x1 y0 y1) → List.Forall₂ (fun s p => modelPatch kern im s = .ok p) ss ps →
        ∃ qs, List.Forall₂ (fun s p => modelPatch kern sub s = .ok p) ss qs ∧
          ∀ x y : Nat, x < x1 - x0 → y < y1 - y0 → (qs.map (fun p => valueAt p x y)).sum =
            (ps.map (fun p => valueAt p ((x0 + x : Nat) : Int) ((y0 + y : Nat) : Int))).sum := by
      intro ss ps hss hf
      induction hf with
      | nil => exact ⟨[], .nil, fun _ _ _ _ => rfl⟩
      | @cons s p ss ps hsp _ ih =>
        obtain ⟨qs, q1, q2⟩ := ih (fun s' hs' => hss s' (List.mem_cons_of_mem _ hs'))
        obtain ⟨q, r1, r2⟩ := source_rel kern im sub s x0 x1 y0 y1 hx hy ho.wcs ho.psf (hss s (by simp))
          ho.minval rfl rfl h1 h2 d2 d1 p hsp
        refine ⟨q :: qs, .cons r1 q1, fun x y bx bY => ?_⟩
        rw [List.map_cons, List.map_cons, List.sum_cons, List.sum_cons, q2 x y bx bY,
          r2 x y (by omega) (by omega)]
        congr 2
        · omega
        · omega
    obtain ⟨qs, q1, q2⟩ := key srcs ps hs g1
    obtain ⟨m, m1, m2, m3, m4⟩ := addSources_run kern sub srcs qs
      (sub.sky.addTo (Arr.zeros sub.data.h sub.data.w)) q1
    have hsky := sky_rel fit im.sky ho.sky x0 y0 (y1 - y0) (x1 - x0) im.data.h im.data.w
    have eh : sub.data.h = y1 - y0 := d1
    have ew : sub.data.w = x1 - x0 := d2
    rw [eh, ew] at m1 m2 m3 m4
    have fh : (im.sky.addTo (Arr.zeros im.data.h im.data.w)).h = im.data.h ∧
        (im.sky.addTo (Arr.zeros im.data.h im.data.w)).w = im.data.w := by
      cases im.sky with
      | null => exact ⟨rfl, rfl⟩
      | constant v => simp only [Sky.addTo]; split <;> exact ⟨rfl, rfl⟩
      | spline => exact ⟨rfl, rfl⟩
    obtain ⟨k1, k2, k3⟩ := hsky
    refine ⟨m, by unfold modelImage; rw [eh, ew]; exact m1, m2.trans k1, m3.trans k2, fun y x hy' hx' => ?_⟩
    rw [m4 y x (by rw [k1]; exact hy') (by rw [k2]; exact hx'), k3 y x hy' hx', q2 x y hx' hy',
      g4 (y0 + y) (x0 + x) (by rw [fh.1]; omega) (by rw [fh.2]; omega)]

omit [IsStrictOrderedRing R] in
/-- A mixture clipped to the columns before `w` gives nothing beyond. -/
theorem mog_out (m : Mog R) (pr px py : R) (fixed : Option R) (w h x y : Int) (hx : w ≤ x) :
    valueAt (mogPatch m pr px py 0 fixed none (some (0, w, 0, h))) x y = 0 := by
  refine (box_at m px py _ _ _ _ x y).trans (if_neg ?_)
  rw [lt_min_iff, lt_min_iff]
  omega

omit [IsStrictOrderedRing R] in
/-- Sources in a tile with a shifted varying PSF. -/
theorem varying_none (kern : R → Nat → R) (sub : Image R B) (mogAt : R → R → Mog R) (r i : R) (x0 y0 : Int)
    (hpsf : sub.psf = .shifted (.varying mogAt r i) x0 y0) (hmv : sub.modelMinval = 0)
    (hw : (sub.data.w : Int) ≤ x0) (s : Source R B) (hmr : s.minRadius = none) (p : Option (Patch R))
    (he : modelPatch kern sub s = .ok p) (x y : Int) (hx : 0 ≤ x) : valueAt p x y = 0 := by
  have hu : ∀ u, unitPatch kern sub s 0 = .ok (some u) → u.at x y = 0 := by
    intro u hu
    unfold unitPatch at hu
    cases hpos : positionToPixel sub.wcs s.pos with
    | error e => rw [hpos] at hu; cases hu
    | ok q =>
      obtain ⟨px, py⟩ := q
      rw [hpos, hpsf, hmr] at hu
      simp only [Psf.getPointSourcePatch, Except.map] at hu
      split at hu
      · cases hu
      · cases hmp : mogPatch (mogAt ((x0 : R) + px) ((y0 : R) + py)) i ((x0 : R) + px) ((y0 : R) + py) 0 s.fixedRadius none
            (some (0, (sub.data.w : Int), 0, (sub.data.h : Int))) with
        | none => rw [hmp] at hu; cases hu
        | some q =>
          rw [hmp] at hu
          cases hu
          rw [at_shift]
          have := mog_out (mogAt ((x0 : R) + px) ((y0 : R) + py)) i ((x0 : R) + px) ((y0 : R) + py) s.fixedRadius
            (sub.data.w : Int) (sub.data.h : Int) (x + x0) (y + y0) (by omega)
          rw [hmp] at this
          exact this
  unfold modelPatch at he
  split at he
  · split at he
    · cases he; rfl
    · rw [hmv, zero_div] at he
      cases hup : unitPatch kern sub s 0 with
      | error e => rw [hup] at he; cases he
      | ok u =>
        rw [hup] at he
        cases u with
        | none => cases he; rfl
        | some u =>
          cases he
          simp only [valueAt]
          rw [at_mul, hu u hup, zero_mul]
  · cases he; rfl

omit [LinearOrder R] [IsStrictOrderedRing R] [FloorRing R] in
/-- A sum over the part of an axis. -/
theorem axis_sum (n a b : Nat) (h : a ≤ b ∧ b ≤ n) (g : Nat → R) :
    ∑ i ∈ Finset.range (b - a), g (i + a) = ∑ i ∈ Finset.range n, if a ≤ i ∧ i < b then g i else 0 := by
  rw [← Finset.sum_filter]
  have e : (Finset.range n).filter (fun i => a ≤ i ∧ i < b) = Finset.Ico a b := by
    ext i
    simp only [Finset.mem_filter, Finset.mem_range, Finset.mem_Ico]
    omega
  rw [e, Finset.sum_Ico_eq_sum_range]
  exact Finset.sum_congr rfl (fun i _ => by rw [Nat.add_comm])

omit [LinearOrder R] [IsStrictOrderedRing R] [FloorRing R] in
/-- A sum over a rectangle. -/
theorem tile_sum (t : Rect) (w h : Nat) (ht : t.within w h) (f : Nat → Nat → R) :
    (∑ y ∈ Finset.range h, ∑ x ∈ Finset.range w, if t.has x y then f y x else 0) =
      ∑ y ∈ Finset.range (t.y1 - t.y0), ∑ x ∈ Finset.range (t.x1 - t.x0), f (y + t.y0) (x + t.x0) := by
  obtain ⟨h1, h2, h3, h4⟩ := ht
  rw [axis_sum h t.y0 t.y1 ⟨h3, h4⟩ (fun y => ∑ x ∈ Finset.range (t.x1 - t.x0), f y (x + t.x0))]
  refine Finset.sum_congr rfl (fun y _ => ?_)
  rw [axis_sum w t.x0 t.x1 ⟨h1, h2⟩ (f y)]
  by_cases hy : t.y0 ≤ y ∧ y < t.y1
  · rw [if_pos hy]
    refine Finset.sum_congr rfl (fun x _ => ?_)
    simp [Rect.has, hy.1, hy.2]
  · rw [if_neg hy]
    refine Finset.sum_eq_zero (fun x _ => if_neg ?_)
    simp only [Rect.has, decide_eq_true_eq]
    tauto

omit [LinearOrder R] [IsStrictOrderedRing R] [FloorRing R] in
/-- The tiles together cover each pixel once. -/
theorem cover_sum (ts : List Rect) (w h : Nat) (ht : Tiling ts w h) (f : Nat → Nat → R) :
    (ts.map (fun t => ∑ y ∈ Finset.range h, ∑ x ∈ Finset.range w, if t.has x y then f y x else 0)).sum =
      ∑ y ∈ Finset.range h, ∑ x ∈ Finset.range w, f y x := by
  have h1 : ∀ l : List Rect,
      (l.map (fun t => ∑ y ∈ Finset.range h, ∑ x ∈ Finset.range w, if t.has x y then f y x else 0)).sum =
      ∑ y ∈ Finset.range h, ∑ x ∈ Finset.range w, ((l.filter (fun t => t.has x y)).length : R) * f y x := by
    intro l
    induction l with
    | nil => simp
    | cons t l ih =>
      rw [List.map_cons, List.sum_cons, ih, ← Finset.sum_add_distrib]
      refine Finset.sum_congr rfl (fun y _ => ?_)
      rw [← Finset.sum_add_distrib]
      refine Finset.sum_congr rfl (fun x _ => ?_)
      rw [List.filter_cons]
      split
      · rw [List.length_cons, Nat.cast_succ]; ring
      · rw [zero_add]
  rw [h1]
  refine Finset.sum_congr rfl (fun y hy => Finset.sum_congr rfl (fun x hx => ?_))
  rw [ht.2 x y (Finset.mem_range.1 hx) (Finset.mem_range.1 hy), Nat.cast_one, one_mul]

end Verif.Tile
