import Verif.Atlas.Spec
import Mathlib.Analysis.SpecialFunctions.Trigonometric.Bounds
import Mathlib.Analysis.SpecialFunctions.Trigonometric.ArctanDeriv
import Mathlib.Analysis.Calculus.Deriv.MeanValue
import Mathlib.Tactic.Module
import Mathlib.Tactic.LinearCombination
import Mathlib.Tactic.Ring
import Mathlib.Tactic.Linarith
import Mathlib.Tactic.FieldSimp

/-! Helper lemmas: unWISE tiles. -/

namespace Verif.Atlas

open Verif.Coords (TanObj)
open InnerProductGeometry

theorem inner_vec (u v : Vec) : inner ℝ u v = u 0 * v 0 + u 1 * v 1 + u 2 * v 2 := by
  simp [PiLp.inner_apply, Fin.sum_univ_three, mul_comm]

theorem inner_dir (a b c d : ℝ) : inner ℝ (dir a b) (dir c d) =
    Real.cos (rad b) * Real.cos (rad d) * Real.cos (rad a - rad c) + Real.sin (rad b) * Real.sin (rad d) := by
  rw [inner_vec, Real.cos_sub]
  simp [dir]
  ring

theorem norm_dir (a b : ℝ) : ‖dir a b‖ = 1 := by
  have h : ‖dir a b‖ ^ 2 = 1 := by
    rw [← real_inner_self_eq_norm_sq, inner_dir]
    simp only [sub_self, Real.cos_zero]
    have := Real.sin_sq_add_cos_sq (rad b)
    linarith
  nlinarith [norm_nonneg (dir a b)]

theorem sep_dir (a b c d : ℝ) : degreesBetween a b c d = sep (dir a b) (dir c d) := by
  unfold degreesBetween sep InnerProductGeometry.angle
  rw [inner_dir, norm_dir, norm_dir]
  simp

theorem sep_triangle (u v w : Vec) : sep u w ≤ sep u v + sep v w := by
  unfold sep
  rw [← add_mul]
  exact mul_le_mul_of_nonneg_right (angle_le_angle_add_angle u v w) (by positivity)

theorem sep_comm (u v : Vec) : sep u v = sep v u := by
  unfold sep
  rw [angle_comm]

theorem sep_smul (u v : Vec) (k : ℝ) (hk : 0 < k) : sep u (k • v) = sep u v := by
  unfold sep
  rw [angle_smul_right_of_pos _ _ hk]

theorem rad_mul (x : ℝ) : rad x * (180 / Real.pi) = x := by
  unfold rad
  have := Real.pi_pos.ne'
  field_simp

/-- The angle from the pole. -/
theorem sep_pole (a b : ℝ) (h1 : -90 ≤ b) (h2 : b ≤ 90) : sep (dir a b) (dir 0 90) = 90 - b := by
  rw [← sep_dir]
  unfold degreesBetween
  have e : rad 90 = Real.pi / 2 := by unfold rad; ring
  rw [e, Real.cos_pi_div_two, Real.sin_pi_div_two, mul_zero, zero_mul, zero_add, mul_one, Real.arccos]
  have hb1 : -(Real.pi / 2) ≤ rad b := by unfold rad; nlinarith [Real.pi_pos]
  have hb2 : rad b ≤ Real.pi / 2 := by unfold rad; nlinarith [Real.pi_pos]
  rw [Real.arcsin_sin hb1 hb2, sub_mul, rad_mul]
  have := Real.pi_pos.ne'
  field_simp
  ring

/-- Declinations differ by no more than the angle. -/
theorem dec_le_sep (a b c d : ℝ) (hb : -90 ≤ b ∧ b ≤ 90) (hd : -90 ≤ d ∧ d ≤ 90) : |b - d| ≤ sep (dir a b) (dir c d) := by
  have h1 := sep_triangle (dir a b) (dir c d) (dir 0 90)
  have h2 := sep_triangle (dir c d) (dir a b) (dir 0 90)
  rw [sep_pole _ _ hb.1 hb.2, sep_pole _ _ hd.1 hd.2] at h1 h2
  rw [sep_comm (dir c d)] at h2
  rw [abs_le]
  constructor <;> linarith

theorem arctan_lt_self (t : ℝ) (ht : 0 < t) : Real.arctan t < t := by
  have h := Real.lt_tan (Real.arctan_pos.2 ht) (Real.arctan_lt_pi_div_two t)
  rwa [Real.tan_arctan] at h

theorem plane_norm (a b p q : ℝ) : ‖p • east a + q • north a b‖ ^ 2 = p ^ 2 + q ^ 2 := by
  rw [← real_inner_self_eq_norm_sq, inner_vec]
  simp [east, north]
  have h1 := Real.sin_sq_add_cos_sq (rad a)
  have h2 := Real.sin_sq_add_cos_sq (rad b)
  have h1' : Real.cos (rad a) ^ 2 = 1 - Real.sin (rad a) ^ 2 := by linarith
  have h2' : Real.cos (rad b) ^ 2 = 1 - Real.sin (rad b) ^ 2 := by linarith
  ring_nf
  rw [h1', h2']
  ring

theorem plane_perp (a b p q : ℝ) : inner ℝ (dir a b) (p • east a + q • north a b) = 0 := by
  rw [inner_vec]
  simp [east, north, dir]
  have h1 := Real.sin_sq_add_cos_sq (rad a)
  have h1' : Real.cos (rad a) ^ 2 = 1 - Real.sin (rad a) ^ 2 := by linarith
  ring_nf
  rw [h1']
  ring

/-- How far from the reference point a point of the tangent plane is. -/
theorem sep_plane (a b p q k : ℝ) (hk : 0 < k) (h : p ^ 2 + q ^ 2 ≤ k ^ 2) :
    sep (dir a b) (dir a b + (rad p • east a + rad q • north a b)) < k := by
  have hn : ‖dir a b‖ = 1 := norm_dir a b
  have hne : dir a b ≠ 0 := by
    intro h0
    rw [h0, norm_zero] at hn
    exact zero_ne_one hn
  unfold sep
  rw [angle_add_eq_arctan_of_inner_eq_zero (plane_perp a b _ _) hne, hn, div_one]
  have hpi := Real.pi_pos
  set n := ‖rad p • east a + rad q • north a b‖ with hnn
  have h2 : n ^ 2 = rad p ^ 2 + rad q ^ 2 := plane_norm a b _ _
  have h0 : 0 ≤ n := norm_nonneg _
  have h3 : n ≤ rad k := by
    have hk' : 0 ≤ rad k := by unfold rad; positivity
    refine abs_le_of_sq_le_sq' ?_ hk' |>.2
    rw [h2]
    unfold rad
    nlinarith [sq_nonneg (Real.pi / 180)]
  have h4 : Real.arctan n < rad k := by
    rcases h0.eq_or_lt with h5 | h5
    · rw [← h5, Real.arctan_zero]
      unfold rad
      positivity
    · exact (arctan_lt_self n h5).trans_le h3
  calc Real.arctan n * (180 / Real.pi) < rad k * (180 / Real.pi) := mul_lt_mul_of_pos_right h4 (by positivity)
    _ = k := rad_mul k

theorem wrad_pos : 0 < wrad (√2 : ℝ) := by
  unfold wrad
  positivity

/-- Everything in a tile is within `wrad` of its centre. -/
theorem tile_sep (a b : ℝ) (v : Vec) (h : Within (tileWcs a b tileW tileH tileScale) tileW tileH v) : sep (dir a b) v < wrad (√2 : ℝ) := by
  obtain ⟨x, y, hx1, hx2, hy1, hy2, k, hk, rfl⟩ := h
  rw [sep_smul _ _ _ hk]
  unfold look
  refine sep_plane a b _ _ _ wrad_pos ?_
  simp only [tileWcs, tileW, tileH, tileScale, wrad] at *
  push_cast at *
  have h2 : (√2 : ℝ) ^ 2 = 2 := Real.sq_sqrt (by norm_num)
  have hx : (x - (2048 + 1) / 2) ^ 2 ≤ 1024 ^ 2 := by
    rw [sq_le_sq, abs_le]
    rw [abs_of_pos (by norm_num : (0:ℝ) < 1024)]
    constructor <;> linarith
  have hy : (y - (2048 + 1) / 2) ^ 2 ≤ 1024 ^ 2 := by
    rw [sq_le_sq, abs_le]
    rw [abs_of_pos (by norm_num : (0:ℝ) < 1024)]
    constructor <;> linarith
  have e : ((√2 : ℝ) / 2 * 2048 * (275 / 100) / 3600) ^ 2 = 2 * 1024 ^ 2 * ((275 / 100) / 3600) ^ 2 := by
    have h3 : ((√2 : ℝ) / 2 * 2048 * (275 / 100) / 3600) ^ 2 = (√2 : ℝ) ^ 2 * 1024 ^ 2 * ((275 / 100) / 3600) ^ 2 := by ring
    rw [h3, h2]
  rw [e]
  have e2 : (-(275 / 100) / 3600 * (x - (2048 + 1) / 2) + 0 * (y - (2048 + 1) / 2)) ^ 2 +
      (0 * (x - (2048 + 1) / 2) + 275 / 100 / 3600 * (y - (2048 + 1) / 2)) ^ 2 =
      ((x - (2048 + 1) / 2) ^ 2 + (y - (2048 + 1) / 2) ^ 2) * ((275 / 100) / 3600) ^ 2 := by ring
  rw [e2]
  exact mul_le_mul_of_nonneg_right (by linarith) (by positivity)

theorem arctan_sub_le (x y : ℝ) (h : x ≤ y) : Real.arctan y - Real.arctan x ≤ y - x := by
  have hm : Monotone (fun t : ℝ => t - Real.arctan t) := by
    refine monotone_of_deriv_nonneg (differentiable_id.sub Real.differentiable_arctan) (fun t => ?_)
    have hd : HasDerivAt (fun t : ℝ => t - Real.arctan t) (1 - 1 / (1 + t ^ 2)) t := (hasDerivAt_id t).sub (Real.hasDerivAt_arctan t)
    rw [hd.deriv]
    have : 1 / (1 + t ^ 2) ≤ 1 := by
      rw [div_le_one (by positivity)]
      nlinarith [sq_nonneg t]
    linarith
  have := hm h
  simp only at this
  linarith

/-- Two points of the tangent plane are seen under an angle no larger than their distance. -/
theorem angle_le_dist (n u v : Vec) (hn : ‖n‖ = 1) (hu : inner ℝ n u = (1 : ℝ)) (hv : inner ℝ n v = (1 : ℝ)) : angle u v ≤ ‖v - u‖ := by
  by_cases huv : v - u = 0
  · have h1 : v = u := sub_eq_zero.1 huv
    have h2 : u ≠ 0 := by
      rintro rfl
      simp at hu
    rw [h1, angle_self h2]
    simp
  set l := ‖v - u‖ with hl
  have hlp : 0 < l := norm_pos_iff.2 huv
  set e : Vec := (1 / l) • (v - u) with he
  have hee : inner ℝ e e = (1 : ℝ) := by
    rw [he, real_inner_smul_left, real_inner_smul_right, real_inner_self_eq_norm_sq, ← hl]
    field_simp
  have hv' : v = u + l • e := by
    rw [he, smul_smul, mul_one_div_cancel hlp.ne', one_smul]
    abel
  have hne : inner ℝ n e = (0 : ℝ) := by
    rw [he, real_inner_smul_right, inner_sub_right, hu, hv]
    simp
  set α : ℝ := inner ℝ u e with hα
  set p : Vec := u - α • e with hp
  have hu' : u = p + α • e := by rw [hp]; abel
  have hpe : inner ℝ p e = (0 : ℝ) := by
    rw [hp, inner_sub_left, real_inner_smul_left, hee, ← hα]
    ring
  have hnp : inner ℝ n p = (1 : ℝ) := by
    rw [hp, inner_sub_right, real_inner_smul_right, hne, hu]
    ring
  set h := ‖p‖ with hh
  have h1 : 1 ≤ h := by
    have := real_inner_le_norm n p
    rw [hnp, hn, one_mul] at this
    exact this
  have hv2 : v = p + (α + l) • e := by
    rw [hv', hu']
    module
  have hpp : inner ℝ p p = h ^ 2 := real_inner_self_eq_norm_sq p
  have hep : inner ℝ e p = (0 : ℝ) := by rw [real_inner_comm]; exact hpe
  clear_value h p α e
  have key : ∀ a b : ℝ, inner ℝ (p + a • e) (p + b • e) = h ^ 2 + a * b := by
    intro a b
    rw [inner_add_left, inner_add_right, inner_add_right, real_inner_smul_left, real_inner_smul_right, real_inner_smul_left,
      real_inner_smul_right, hpp, hpe, hep, hee]
    ring
  have hnorm : ∀ a : ℝ, ‖p + a • e‖ = h * √(1 + (a / h) ^ 2) := by
    intro a
    have h2 : ‖p + a • e‖ ^ 2 = h ^ 2 * (1 + (a / h) ^ 2) := by
      rw [← real_inner_self_eq_norm_sq, key]
      field_simp
    have h3 : 0 ≤ h * √(1 + (a / h) ^ 2) := by positivity
    rw [← Real.sqrt_sq (norm_nonneg (p + a • e)), h2, Real.sqrt_mul (by positivity), Real.sqrt_sq (by linarith)]
  have hang : angle u v = Real.arctan ((α + l) / h) - Real.arctan (α / h) := by
    have hle : Real.arctan (α / h) ≤ Real.arctan ((α + l) / h) :=
      Real.arctan_strictMono.monotone (div_le_div_of_nonneg_right (by linarith) (by linarith))
    have hb1 := Real.arctan_lt_pi_div_two ((α + l) / h)
    have hb2 := Real.neg_pi_div_two_lt_arctan (α / h)
    unfold InnerProductGeometry.angle
    rw [← Real.arccos_cos (x := Real.arctan ((α + l) / h) - Real.arctan (α / h)) (by linarith) (by linarith)]
    congr 1
    rw [Real.cos_sub, Real.cos_arctan, Real.cos_arctan, Real.sin_arctan, Real.sin_arctan]
    conv_lhs => rw [hu', hv2]
    rw [key, hnorm, hnorm]
    have hs1 : √(1 + (α / h) ^ 2) ≠ 0 := by positivity
    have hs2 : √(1 + ((α + l) / h) ^ 2) ≠ 0 := by positivity
    have hh0 : h ≠ 0 := by positivity
    field_simp
  rw [hang]
  refine (arctan_sub_le _ _ (div_le_div_of_nonneg_right (by linarith) (by linarith))).trans ?_
  rw [← sub_div, add_sub_cancel_left]
  exact div_le_self hlp.le h1

/-- Everything in an image is within half a diagonal of its middle. -/
theorem target_sep (t : TanObj ℝ) (W H : Nat) (s : ℝ) (hs : 0 < s) (h1 : t.cd.a ^ 2 + t.cd.c ^ 2 = s ^ 2) (h2 : t.cd.b ^ 2 + t.cd.d ^ 2 = s ^ 2)
    (h3 : t.cd.a * t.cd.b + t.cd.c * t.cd.d = 0) (v : Vec) (hv : Within t W H v) :
    sep (look t (((W : ℝ) + 1) / 2) (((H : ℝ) + 1) / 2)) v ≤ s * √((W : ℝ) ^ 2 + (H : ℝ) ^ 2) / 2 := by
  obtain ⟨x, y, hx1, hx2, hy1, hy2, k, hk, rfl⟩ := hv
  rw [sep_smul _ _ _ hk]
  have hone : ∀ p q : ℝ, inner ℝ (dir t.crval1 t.crval2) (dir t.crval1 t.crval2 + (p • east t.crval1 + q • north t.crval1 t.crval2)) = (1 : ℝ) := by
    intro p q
    rw [inner_add_right, plane_perp, real_inner_self_eq_norm_sq, norm_dir]
    norm_num
  have hle := angle_le_dist (dir t.crval1 t.crval2) (look t (((W : ℝ) + 1) / 2) (((H : ℝ) + 1) / 2)) (look t x y) (norm_dir _ _) (hone _ _) (hone _ _)
  set u : ℝ := x - ((W : ℝ) + 1) / 2 with hu
  set w : ℝ := y - ((H : ℝ) + 1) / 2 with hw
  have hd : look t x y - look t (((W : ℝ) + 1) / 2) (((H : ℝ) + 1) / 2) =
      rad (t.cd.a * u + t.cd.b * w) • east t.crval1 + rad (t.cd.c * u + t.cd.d * w) • north t.crval1 t.crval2 := by
    unfold look rad
    rw [hu, hw]
    module
  rw [hd] at hle
  set m := ‖rad (t.cd.a * u + t.cd.b * w) • east t.crval1 + rad (t.cd.c * u + t.cd.d * w) • north t.crval1 t.crval2‖ with hm
  have hm2 : m ^ 2 = (rad s) ^ 2 * (u ^ 2 + w ^ 2) := by
    rw [hm, plane_norm]
    unfold rad
    have e : (t.cd.a * u + t.cd.b * w) ^ 2 + (t.cd.c * u + t.cd.d * w) ^ 2 = s ^ 2 * (u ^ 2 + w ^ 2) := by
      have : (t.cd.a * u + t.cd.b * w) ^ 2 + (t.cd.c * u + t.cd.d * w) ^ 2 = (t.cd.a ^ 2 + t.cd.c ^ 2) * u ^ 2 + (t.cd.b ^ 2 + t.cd.d ^ 2) * w ^ 2 +
        2 * (t.cd.a * t.cd.b + t.cd.c * t.cd.d) * u * w := by ring
      rw [this, h1, h2, h3]
      ring
    linear_combination (Real.pi / 180) ^ 2 * e
  have hu2 : u ^ 2 ≤ ((W : ℝ) / 2) ^ 2 := by
    rw [sq_le_sq, abs_le, abs_of_nonneg (by positivity : (0 : ℝ) ≤ (W : ℝ) / 2)]
    constructor <;> linarith
  have hw2 : w ^ 2 ≤ ((H : ℝ) / 2) ^ 2 := by
    rw [sq_le_sq, abs_le, abs_of_nonneg (by positivity : (0 : ℝ) ≤ (H : ℝ) / 2)]
    constructor <;> linarith
  have hpi := Real.pi_pos
  have hB : 0 ≤ rad (s * √((W : ℝ) ^ 2 + (H : ℝ) ^ 2) / 2) := by unfold rad; positivity
  have hmle : m ≤ rad (s * √((W : ℝ) ^ 2 + (H : ℝ) ^ 2) / 2) := by
    refine (abs_le_of_sq_le_sq' ?_ hB).2
    rw [hm2]
    have e : rad (s * √((W : ℝ) ^ 2 + (H : ℝ) ^ 2) / 2) ^ 2 = (rad s) ^ 2 * (((W : ℝ) / 2) ^ 2 + ((H : ℝ) / 2) ^ 2) := by
      have h5 : √((W : ℝ) ^ 2 + (H : ℝ) ^ 2) ^ 2 = (W : ℝ) ^ 2 + (H : ℝ) ^ 2 := Real.sq_sqrt (by positivity)
      have h6 : rad (s * √((W : ℝ) ^ 2 + (H : ℝ) ^ 2) / 2) ^ 2 = (rad s) ^ 2 * (√((W : ℝ) ^ 2 + (H : ℝ) ^ 2) ^ 2 / 4) := by unfold rad; ring
      rw [h6, h5]
      ring
    rw [e]
    exact mul_le_mul_of_nonneg_left (by linarith) (by positivity)
  unfold sep
  calc _ ≤ rad (s * √((W : ℝ) ^ 2 + (H : ℝ) ^ 2) / 2) * (180 / Real.pi) := mul_le_mul_of_nonneg_right (hle.trans hmle) (by positivity)
    _ = _ := rad_mul _

section
variable {R : Type} [Field R] [LinearOrder R]

omit [Field R] [LinearOrder R] in
theorem rows_filter (T : List (Tile R)) (P : Tile R → Bool) :
    rows T ((List.range T.length).filter (fun (i : Nat) => (T[i]?).any P)) = T.filter P := by
  unfold rows
  induction T using List.reverseRecOn with
  | nil => rfl
  | append_singleton T t ih =>
    rw [List.length_append, List.length_singleton, List.range_succ, List.filter_append, List.filterMap_append, List.filter_append]
    congr 1
    · rw [← ih]
      have h : ∀ i ∈ List.range T.length, (T ++ [t])[i]? = T[i]? := fun i hi => List.getElem?_append_left (List.mem_range.1 hi)
      rw [List.filter_congr (fun i hi => by rw [h i hi])]
      exact List.filterMap_congr (fun i hi => h i (List.mem_filter.1 hi).1)
    · simp only [List.filter_cons, List.filter_nil, List.getElem?_concat_length, Option.any_some]
      cases P t <;> simp

omit [Field R] [LinearOrder R] in
theorem any_and (o : Option (Tile R)) (P Q : Tile R → Bool) : (o.any P && o.any Q) = o.any (fun t => P t && Q t) := by
  cases o <;> rfl

theorem touching_eq (deg : R → R → R → R → R) (sqrt2 : R) (T : List (Tile R)) (trad r d : R) (polygons : Bool) (meets : Tile R → Bool) :
    touching deg sqrt2 T trad r d polygons meets = T.filter (fun t => (!polygons || meets t) &&
      (decide (deg t.ra t.dec r d < trad + wrad sqrt2) && decide (|t.dec - d| < trad + wrad sqrt2))) := by
  unfold touching nearIndices decIndices
  cases polygons
  · simp only [Bool.not_false, if_true, List.filter_filter, any_and, rows_filter, Bool.true_or, Bool.true_and]
  · simp only [Bool.not_true, Bool.false_eq_true, if_false, List.filter_filter, any_and, rows_filter, Bool.false_or]

end

end Verif.Atlas
