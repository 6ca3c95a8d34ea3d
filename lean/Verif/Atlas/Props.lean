import Verif.Atlas.Lemmas

/-!
# Property theorems: unWISE tiles that touch an image
-/

namespace Verif.Atlas

open Verif.Coords (TanObj)

/-- **C127 (none missed).** Of any table of tiles, with any target whose directions are all within its radius of its centre, every tile that
shares a direction with the target is returned (without the test of polygons). -/
theorem C127_complete (T : List (Tile ℝ)) (hT : ∀ t ∈ T, -90 ≤ t.dec ∧ t.dec ≤ 90) (trad r d : ℝ) (hd : -90 ≤ d ∧ d ≤ 90)
    (target : Vec → Prop) (htarget : ∀ v, target v → sep (dir r d) v ≤ trad) (meets : Tile ℝ → Bool) (t : Tile ℝ) (ht : t ∈ T)
    (v : Vec) (hv : target v) (hvt : Within (tileWcs t.ra t.dec tileW tileH tileScale) tileW tileH v) :
    t ∈ touching degreesBetween (√2) T trad r d false meets := by
  have h1 := htarget v hv
  have h2 := tile_sep t.ra t.dec v hvt
  have h3 := sep_triangle (dir t.ra t.dec) v (dir r d)
  rw [sep_comm v] at h3
  have h4 : degreesBetween t.ra t.dec r d < trad + wrad (√2) := by
    rw [sep_dir]
    linarith
  have h5 : |t.dec - d| < trad + wrad (√2) := by
    refine (dec_le_sep t.ra t.dec r d (hT t ht) hd).trans_lt ?_
    rw [← sep_dir]
    exact h4
  rw [touching_eq, List.mem_filter]
  simp [ht, h4, h5]

/-- A tile that contains the middle of the target is found, for any radius. -/
example (t : Tile ℝ) (h : -90 ≤ t.dec ∧ t.dec ≤ 90) : t ∈ touching degreesBetween (√2) [t] 0 t.ra t.dec false (fun _ => false) := by
  refine C127_complete [t] (by simpa using h) 0 t.ra t.dec h (fun v => v = dir t.ra t.dec) ?_ _ t (by simp) (dir t.ra t.dec) rfl ?_
  · rintro v rfl
    have h0 : dir t.ra t.dec ≠ 0 := by
      intro h0
      have := norm_dir t.ra t.dec
      rw [h0, norm_zero] at this
      exact zero_ne_one this
    simp [sep, InnerProductGeometry.angle_self h0]
  · refine ⟨(2048 + 1) / 2, (2048 + 1) / 2, by norm_num, by norm_num [tileW], by norm_num, by norm_num [tileH], 1, one_pos, ?_⟩
    simp [look, tileWcs, tileW, tileH, rad]

/-- **C127 (targets).** This holds for any tangent-plane image of square pixels, rotated, mirrored or cut out in any way (its reference pixel
may be anywhere, also outside), with half its diagonal as radius: every tile with which it shares a direction is returned. -/
theorem C127_tan (T : List (Tile ℝ)) (hT : ∀ t ∈ T, -90 ≤ t.dec ∧ t.dec ≤ 90) (w : TanObj ℝ) (W H : Nat) (s : ℝ) (hs : 0 < s)
    (h1 : w.cd.a ^ 2 + w.cd.c ^ 2 = s ^ 2) (h2 : w.cd.b ^ 2 + w.cd.d ^ 2 = s ^ 2) (h3 : w.cd.a * w.cd.b + w.cd.c * w.cd.d = 0)
    (r d : ℝ) (hd : -90 ≤ d ∧ d ≤ 90) (k : ℝ) (hk : 0 < k) (hc : dir r d = k • look w (((W : ℝ) + 1) / 2) (((H : ℝ) + 1) / 2))
    (meets : Tile ℝ → Bool) (t : Tile ℝ) (ht : t ∈ T) (v : Vec) (hv : Within w W H v)
    (hvt : Within (tileWcs t.ra t.dec tileW tileH tileScale) tileW tileH v) :
    t ∈ touching degreesBetween (√2) T (s * √((W : ℝ) ^ 2 + (H : ℝ) ^ 2) / 2) r d false meets := by
  refine C127_complete T hT _ r d hd (Within w W H) (fun u hu => ?_) meets t ht v hv hvt
  rw [hc, sep_comm, sep_smul _ _ _ hk, sep_comm]
  exact target_sep w W H s hs h1 h2 h3 u hu

/-- Two tiles that share a direction are found from each other. -/
example (t u : Tile ℝ) (ht : -90 ≤ t.dec ∧ t.dec ≤ 90) (hu : -90 ≤ u.dec ∧ u.dec ≤ 90) (v : Vec)
    (h1 : Within (tileWcs t.ra t.dec tileW tileH tileScale) tileW tileH v) (h2 : Within (tileWcs u.ra u.dec tileW tileH tileScale) tileW tileH v) :
    t ∈ touching degreesBetween (√2) [u, t] (275 / 100 / 3600 * √((tileW : ℝ) ^ 2 + (tileH : ℝ) ^ 2) / 2) u.ra u.dec false (fun _ => true) := by
  refine C127_tan [u, t] (by simp [ht, hu]) (tileWcs u.ra u.dec tileW tileH tileScale) tileW tileH (275 / 100 / 3600) (by norm_num) ?_ ?_ ?_
    u.ra u.dec hu 1 one_pos ?_ _ t (by simp) v h2 h1
  · simp only [tileWcs, tileScale]; norm_num
  · simp only [tileWcs, tileScale]; norm_num
  · simp only [tileWcs, tileScale]; norm_num
  · simp [look, tileWcs, rad]

section
variable {R : Type} [Field R] [LinearOrder R]

/-- **C127 (rows).** The rows returned are those of the table, in its order, whose centre is closer than the sum of the radii (and whose
declination differs by less than that) and, with polygons, whose polygon intersects that of the target; with polygons the result is part of
that without. -/
theorem C127_rows (deg : R → R → R → R → R) (sqrt2 : R) (T : List (Tile R)) (trad r d : R) (polygons : Bool) (meets : Tile R → Bool) :
    (touching deg sqrt2 T trad r d polygons meets).Sublist T ∧
    (touching deg sqrt2 T trad r d true meets) = (touching deg sqrt2 T trad r d false meets).filter meets ∧
    ∀ t, t ∈ touching deg sqrt2 T trad r d polygons meets ↔
      t ∈ T ∧ deg t.ra t.dec r d < trad + wrad sqrt2 ∧ |t.dec - d| < trad + wrad sqrt2 ∧ (polygons = true → meets t = true) := by
  refine ⟨?_, ?_, fun t => ?_⟩
  · rw [touching_eq]
    exact List.filter_sublist
  · rw [touching_eq, touching_eq, List.filter_filter]
    simp
  · rw [touching_eq, List.mem_filter]
    simp only [Bool.and_eq_true, Bool.or_eq_true, Bool.not_eq_true', decide_eq_true_eq]
    cases polygons <;> tauto

end

/-- With distances along the equator only (for this example). -/
example : (touching (fun a _ b _ => |a - b|) (7 / 5 : Rat) [⟨10, 0, "0100p000"⟩, ⟨12, 0, "0120p000"⟩, ⟨13/2, 0, "0065p000"⟩, ⟨10, 9, "0100p090"⟩]
      1 9 0 false (fun _ => true)).map Tile.coaddId = ["0100p000"] ∧
    (touching (fun a _ b _ => |a - b|) (7 / 5 : Rat) [⟨10, 0, "0100p000"⟩, ⟨8, 0, "0080p000"⟩] 1 9 0 true (fun t => decide (t.ra < 9))).map
      Tile.coaddId = ["0080p000"] := by decide +kernel

end Verif.Atlas
