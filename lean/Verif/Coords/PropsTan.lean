import Verif.Coords.LemmasTan
import Mathlib.Tactic.NormNum

/-!
# Claim C124: the parameters of a projection
-/

namespace Verif.Coords

open Verif Verif.Params

variable {R : Type} [Field R] [DecidableEq R]

/-- A tangent projection without curvature, for the examples: `CD (pix - crpix) = sky - crval`. -/
def flatLib : TanLib Rat where
  toPix t ra dec :=
    let det := t.cd.a * t.cd.d - t.cd.b * t.cd.c
    (t.crpix1 + (t.cd.d * (ra - t.crval1) - t.cd.b * (dec - t.crval2)) / det,
     t.crpix2 + (t.cd.a * (dec - t.crval2) - t.cd.c * (ra - t.crval1)) / det)
  toSky t x y :=
    (t.crval1 + t.cd.a * (x - t.crpix1) + t.cd.b * (y - t.crpix2), t.crval2 + t.cd.c * (x - t.crpix1) + t.cd.d * (y - t.crpix2))
  scale t := 3600 * (t.cd.a * t.cd.d - t.cd.b * t.cd.c)

/-- A projection for the examples. -/
def flatTan : TanObj Rat := ⟨10, 20, 50, 60, ⟨1, 0, 0, 1⟩⟩

/-- The object made of it. -/
def flatWcs : TanWcs Rat := ⟨flatTan, 0, 0, ⟨1, 0, 0, 1⟩, ⟨1, 0, 0, 1⟩, 3600, List.replicate 10 true⟩

/-- Python 3 has no name `basestring`: no `TanWcs` can be made, copied or shifted. -/
theorem C124_python3_false (lib : TanLib R) (t : TanObj R) (w : TanWcs R) (dx dy : R) :
    newTan lib false t = .error .nameErr ∧ w.copy lib false = .error .nameErr ∧ w.shifted lib false dx dy = .error .nameErr :=
  ⟨rfl, rfl, rfl⟩

/-- The history of C124's examples: freeze the matrix and the offset, step all four thawed numbers, then one, then fail at a fifth. -/
def exOps : List (TanOp Rat) :=
  [.setFlag 4 false, .setFlag 5 false, .setFlag 6 false, .setFlag 7 false, .setFlag 8 false, .setFlag 9 false,
   .setParams [11, 21, 51, 61], .setParam 2 52, .setParam 4 7, .setParam (-1) 7, .setX0Y0 3 4]

/-- Where the name exists: after any history of setting parameters, freezing, thawing and moving the offset, the object is ten numbers with
flags: all are read back, thawed ones are those listed, steps are one per thawed number, and conversions use exactly these numbers. -/
theorem C124_history (lib : TanLib R) (t : TanObj R) (w : TanWcs R) (h : newTan lib true t = .ok w) (ops : List (TanOp R)) :
    let s := ops.foldl specStep
      ([t.crval1, t.crval2, t.crpix1, t.crpix2, t.cd.a, t.cd.b, t.cd.c, t.cd.d, 0, 0].map (fun v => (true, v)))
    let w' := tanRun w ops
    w'.getAllParams = s.map (·.2) ∧ w'.getParams = thawed s ∧ w'.numberOfParams = (thawed s).length ∧
      (w'.getStepSizes lib).length = (thawed s).length ∧
      ∀ ra dec, some (w'.positionToPixel lib ra dec) = tenToPix lib (s.map (·.2)) ra dec := by
  have hw : w.liquid = List.replicate 10 true ∧ w.wcs = t ∧ w.x0 = 0 ∧ w.y0 = 0 := by
    simp only [newTan, if_true] at h
    split at h
    · simp at h
    · have := Except.ok.inj h
      subst this
      exact ⟨rfl, rfl, rfl, rfl⟩
  obtain ⟨hw1, hw2, hw3, hw4⟩ := hw
  have hinit : w.liquid.zip w.things =
      [t.crval1, t.crval2, t.crpix1, t.crpix2, t.cd.a, t.cd.b, t.cd.c, t.cd.d, 0, 0].map (fun v => (true, v)) := by
    rw [hw1]
    simp only [TanWcs.things, hw2, hw3, hw4]
    rfl
  obtain ⟨h1, h2, _⟩ := tanRun_spec ops w (by rw [hw1]; rfl)
  rw [hinit] at h1
  have hall : (tanRun w ops).things = (ops.foldl specStep
      ([t.crval1, t.crval2, t.crpix1, t.crpix2, t.cd.a, t.cd.b, t.cd.c, t.cd.d, 0, 0].map (fun v => (true, v)))).map (·.2) := by
    rw [← h1, map_snd_zip _ _ (by rw [h2]; rfl)]
  have hthaw : (tanRun w ops).getParams = thawed (ops.foldl specStep
      ([t.crval1, t.crval2, t.crpix1, t.crpix2, t.cd.a, t.cd.b, t.cd.c, t.cd.d, 0, 0].map (fun v => (true, v)))) := by
    rw [← h1, thawed_zip]
    rfl
  have hlen := liquidArray_length (tanRun w ops).liquid (tanRun w ops).things (by rw [h2]; rfl)
  refine ⟨hall, hthaw, ?_, ?_, ?_⟩
  · rw [← hthaw]; exact hlen.symm
  · rw [← hthaw]
    refine Eq.trans ?_ hlen.symm
    exact liquidArray_length _ _ (by rw [h2]; rfl)
  · intro ra dec
    rw [← hall]
    simp only [TanWcs.things, tenToPix, TanWcs.positionToPixel, sub_sub]

example : newTan flatLib true flatTan = .ok flatWcs ∧ (tanRun flatWcs exOps).getParams = [11, 21, 52, 61] ∧
    (tanRun flatWcs exOps).getAllParams = [11, 21, 52, 61, 1, 0, 0, 1, 3, 4] ∧
    (tanRun flatWcs exOps).positionToPixel flatLib 12 22 = (49, 57) :=
  ⟨by decide +kernel, by decide +kernel, by decide +kernel, by decide +kernel⟩

omit [Field R] [DecidableEq R] in
/-- `setParams` fails exactly when there are too few values; `setParam` exactly for an index that is not that of a thawed number, and
otherwise returns the old value. -/
theorem C124_raises (w : TanWcs R) (hl : w.liquid.length = 10) (p : List R) (i : Int) (v : R) :
    (w.setParams p).2 = (if p.length < w.numberOfParams then some .index else none) ∧
    (w.setParam i v).2 = (if i < 0 then .error .index else
      match w.getParams[i.toNat]? with
      | some x => .ok x
      | none => .error .index) := by
  constructor
  · obtain ⟨q, _, _, _, _, _, _, _, h8⟩ := setLoop_spec w.liquid w [] w.things p 0 rfl rfl (by rw [hl]; rfl)
    exact h8
  · by_cases hi : i < 0
    · rw [if_pos hi]
      simp only [TanWcs.setParam, indexLiquid_err w.liquid i (Or.inl hi)]
    · rw [if_neg hi]
      obtain ⟨n, rfl⟩ : ∃ n : Nat, i = n := ⟨i.toNat, by omega⟩
      have hlen := liquidArray_length w.liquid w.things (by rw [hl]; rfl)
      by_cases hn : n < countLiquid w.liquid
      · obtain ⟨ii, e1, e2, e3⟩ := indexLiquid_ok w.liquid n hn
        have hii : ii < 10 := by
          obtain ⟨hlt, _⟩ := List.getElem?_eq_some_iff.1 e2
          omega
        obtain ⟨x, hx1, hx2⟩ := getThing_spec w ii hii
        obtain ⟨w', hw', _⟩ := setThing_spec w ii v hii
        have hg := liquidArray_get w.liquid w.things (by rw [hl]; rfl) ii e2
        rw [e3, hx2] at hg
        simp only [TanWcs.setParam, e1, hx1, hw', TanWcs.getParams, Int.toNat_natCast, hg]
      · have hnone : w.getParams[n]? = none := by
          rw [List.getElem?_eq_none_iff]
          exact hlen.trans_le (by omega)
        simp only [TanWcs.setParam, indexLiquid_err w.liquid n (Or.inr (by omega)), Int.toNat_natCast, hnone]

example : newTan flatLib true flatTan = .ok flatWcs ∧ ((tanRun flatWcs exOps).setParam 3 0).2 = .ok 61 ∧
    ((tanRun flatWcs exOps).setParam 4 0).2 = .error .index ∧ ((tanRun flatWcs exOps).setParams [1, 2, 3]).2 = some .index :=
  ⟨by decide +kernel, by decide +kernel, by decide +kernel, by decide +kernel⟩

omit [DecidableEq R] in
/-- Pixels go to the sky and back, in any state, if they do so in the library. -/
theorem C124_round (lib : TanLib R) (hlib : ∀ t x y, lib.toPix t (lib.toSky t x y).1 (lib.toSky t x y).2 = (x, y)) (w : TanWcs R) (x y : R) :
    w.positionToPixel lib (w.pixelToPosition lib x y).1 (w.pixelToPosition lib x y).2 = (x, y) := by
  simp only [TanWcs.positionToPixel, TanWcs.pixelToPosition, hlib]
  ext <;> ring

example : newTan flatLib true flatTan = .ok flatWcs ∧ (tanRun flatWcs exOps).pixelToPosition flatLib 49 57 = (12, 22) :=
  ⟨by decide +kernel, by decide +kernel⟩

/-- With the matrix frozen, the matrix, its inverse and the pixel scale that renderers use are those of the parameters. -/
theorem C124_matrix_partial (lib : TanLib R) (hlib : ∀ t t', t.cd = t'.cd → lib.scale t = lib.scale t') (t : TanObj R) (w : TanWcs R)
    (h : newTan lib true t = .ok w) (ops : List (TanOp R)) (hops : ∀ op ∈ ops, sparesMatrix op) :
    let w' := tanRun ((((w.setFlag 4 false).setFlag 5 false).setFlag 6 false).setFlag 7 false) ops
    tenCd w'.getAllParams = some w'.cdAtPixel ∧ w'.wcs.cd.inv = .ok w'.cdInverse ∧ w'.pixscale = lib.scale w'.wcs := by
  obtain ⟨w0, hw0⟩ : ∃ w0, (((w.setFlag 4 false).setFlag 5 false).setFlag 6 false).setFlag 7 false = w0 := ⟨_, rfl⟩
  rw [hw0]
  simp only [newTan, if_true] at h
  split at h
  · simp at h
  · rename_i inv hinv
    have := Except.ok.inj h
    subst this
    subst hw0
    obtain ⟨h1, h2, h3, h4, h5⟩ := tanRun_spec ops ((((TanWcs.setFlag (R := R)
      { wcs := t, x0 := 0, y0 := 0, cd := t.cd, cdInverse := inv, pixscale := lib.scale t, liquid := List.replicate 10 true }
      4 false).setFlag 5 false).setFlag 6 false).setFlag 7 false) rfl
    generalize tanRun _ ops = w' at *
    have g4 : (w'.liquid.zip w'.things)[4]? = some (false, t.cd.a) := by rw [h1]; exact run_frozen ops _ 4 (by simp) hops t.cd.a rfl
    have g5 : (w'.liquid.zip w'.things)[5]? = some (false, t.cd.b) := by rw [h1]; exact run_frozen ops _ 5 (by simp) hops t.cd.b rfl
    have g6 : (w'.liquid.zip w'.things)[6]? = some (false, t.cd.c) := by rw [h1]; exact run_frozen ops _ 6 (by simp) hops t.cd.c rfl
    have g7 : (w'.liquid.zip w'.things)[7]? = some (false, t.cd.d) := by rw [h1]; exact run_frozen ops _ 7 (by simp) hops t.cd.d rfl
    have val : ∀ (k : Nat) x, (w'.liquid.zip w'.things)[k]? = some (false, x) → w'.things[k]? = some x := by
      intro k x hx
      exact (List.getElem?_zip_eq_some.1 hx).2
    have hcd : w'.wcs.cd = t.cd := by
      have a4 : some w'.wcs.cd.a = some t.cd.a := val 4 _ g4
      have a5 : some w'.wcs.cd.b = some t.cd.b := val 5 _ g5
      have a6 : some w'.wcs.cd.c = some t.cd.c := val 6 _ g6
      have a7 : some w'.wcs.cd.d = some t.cd.d := val 7 _ g7
      rcases hm : w'.wcs.cd with ⟨a, b, c, d⟩
      rw [hm] at a4 a5 a6 a7
      rcases hn : t.cd with ⟨a', b', c', d'⟩
      rw [hn] at a4 a5 a6 a7
      simp only [Option.some.injEq] at a4 a5 a6 a7
      rw [a4, a5, a6, a7]
    refine ⟨?_, ?_, ?_⟩
    · show some (Mat.mk w'.wcs.cd.a w'.wcs.cd.b w'.wcs.cd.c w'.wcs.cd.d) = some w'.cd
      rw [hcd, h3]
      rfl
    · rw [hcd, h4]
      exact hinv
    · rw [h5]
      exact hlib _ _ hcd.symm

example : newTan flatLib true flatTan = .ok flatWcs ∧
    tenCd (tanRun flatWcs [.setFlag 4 false, .setFlag 5 false, .setFlag 6 false, .setFlag 7 false, .setParams [1, 2, 3, 4, 5, 6]]).getAllParams =
      some ⟨1, 0, 0, 1⟩ :=
  ⟨by decide +kernel, by decide +kernel⟩

/-- Once an entry of the matrix is set, `cdAtPixel`, its inverse and the pixel scale stay those of the constructor, so galaxies are rendered
with the old matrix; a copy has the new one. -/
theorem C124_matrix_false : ∃ w c, newTan flatLib true flatTan = .ok w ∧ (w.setParam 4 2).1.copy flatLib true = .ok c ∧
    tenCd (w.setParam 4 2).1.getAllParams = some ⟨2, 0, 0, 1⟩ ∧ (w.setParam 4 2).1.cdAtPixel = ⟨1, 0, 0, 1⟩ ∧ c.cdAtPixel = ⟨2, 0, 0, 1⟩ ∧
    (w.setParam 4 2).1.pixscale = 3600 ∧ c.pixscale = 7200 :=
  ⟨flatWcs, ⟨⟨10, 20, 50, 60, ⟨2, 0, 0, 1⟩⟩, 0, 0, ⟨2, 0, 0, 1⟩, ⟨1 / 2, 0, 0, 1⟩, 7200, List.replicate 10 true⟩, by decide +kernel, by decide +kernel, by decide +kernel, by decide +kernel, by decide +kernel, by decide +kernel, by decide +kernel⟩

/-- A copy has the same ten numbers and converts alike; a shifted one converts to pixels of the cutout. -/
theorem C124_copy_partial (lib : TanLib R) (w c d : TanWcs R) (dx dy : R) (hc : w.copy lib true = .ok c) (hd : w.shifted lib true dx dy = .ok d) :
    c.getAllParams = w.getAllParams ∧
    ∀ ra dec, c.positionToPixel lib ra dec = w.positionToPixel lib ra dec ∧
      d.positionToPixel lib ra dec = ((w.positionToPixel lib ra dec).1 - dx, (w.positionToPixel lib ra dec).2 - dy) := by
  simp only [TanWcs.shifted, hc] at hd
  have hd := Except.ok.inj hd
  subst hd
  simp only [TanWcs.copy, newTan, if_true] at hc
  split at hc
  · simp at hc
  · rename_i c0 h0
    have hc := Except.ok.inj hc
    subst hc
    split at h0
    · simp at h0
    · have h0 := Except.ok.inj h0
      subst h0
      refine ⟨rfl, fun ra dec => ⟨rfl, ?_⟩⟩
      simp only [TanWcs.positionToPixel]
      ext <;> simp only [] <;> ring

example : ∃ c d, flatWcs.copy flatLib true = .ok c ∧ flatWcs.shifted flatLib true 3 4 = .ok d ∧
    c.positionToPixel flatLib 12 22 = (51, 61) ∧ d.positionToPixel flatLib 12 22 = (48, 57) :=
  ⟨flatWcs, { flatWcs with x0 := 3, y0 := 4 }, by decide +kernel, by decide +kernel, by decide +kernel, by decide +kernel⟩

/-- Copies forget what was frozen. -/
theorem C124_copy_false : ∃ w c, newTan flatLib true flatTan = .ok w ∧ (tanRun w exOps).copy flatLib true = .ok c ∧
    (tanRun w exOps).getParams = [11, 21, 52, 61] ∧ c.getParams = [11, 21, 52, 61, 1, 0, 0, 1, 3, 4] :=
  ⟨flatWcs, ⟨⟨11, 21, 52, 61, ⟨1, 0, 0, 1⟩⟩, 3, 4, ⟨1, 0, 0, 1⟩, ⟨1, 0, 0, 1⟩, 3600, List.replicate 10 true⟩, by decide +kernel, by decide +kernel,
    by decide +kernel, by decide +kernel⟩

omit [Field R] [DecidableEq R] in
/-- No bounds are given for the thawed parameters: in the bounds of an image the bounds of whatever follows are those of the projection. -/
theorem C124_bounds_false (w : TanWcs R) : w.getLowerBounds = [] := by
  simp only [TanWcs.getLowerBounds]
  cases w.liquid with
  | nil => rfl
  | cons b fs => cases b <;> rfl

example : newTan flatLib true flatTan = .ok flatWcs ∧ flatWcs.numberOfParams = 10 ∧ flatWcs.getLowerBounds = [] :=
  ⟨by decide +kernel, by decide +kernel, by decide +kernel⟩

omit [Field R] [DecidableEq R] in
/-- Names mean what they say; the offset has no name. -/
theorem C124_names (w : TanWcs R) :
    w.getNamed "crval1" = .ok w.wcs.crval1 ∧ w.getNamed "crval2" = .ok w.wcs.crval2 ∧ w.getNamed "crpix1" = .ok w.wcs.crpix1 ∧
    w.getNamed "crpix2" = .ok w.wcs.crpix2 ∧ w.getNamed "cd1_1" = .ok w.wcs.cd.a ∧ w.getNamed "cd1_2" = .ok w.wcs.cd.b ∧
    w.getNamed "cd2_1" = .ok w.wcs.cd.c ∧ w.getNamed "cd2_2" = .ok w.wcs.cd.d ∧ w.getNamed "x0" = .error .key :=
  ⟨rfl, rfl, rfl, rfl, rfl, rfl, rfl, rfl, rfl⟩

end Verif.Coords
