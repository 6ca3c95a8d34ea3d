import Verif.Star.Derivs
import Verif.Star.PropsMin
import Verif.Src.Props
import Mathlib.Analysis.Calculus.Deriv.Slope

/-!
# C166: derivatives by the position of a star with a PSF of Gaussians
-/

namespace Verif.Star

open Verif Verif.Params
open Verif.Patches (Patch)
open Verif.Mog (Comp Mix)
open Verif.Gal (ModelMask)
open Verif.Gauss
open Filter Topology

/-- A position with two thawed coordinates `(a, b)` and a step size for both; the rest as in `t`. -/
def posAt (t : PList ℝ) (n0 n1 : List String) (h a b : ℝ) : PList ℝ :=
  { t with slots := [⟨n0, true, a⟩, ⟨n1, true, b⟩], steps := some [h, h] }

/-- The density as the position moves along a curve. -/
theorem density_curve (c : Comp ℝ) (x y : ℝ) (X Y : ℝ → ℝ) (X' Y' t : ℝ) (hX : HasDerivAt X X' t) (hY : HasDerivAt Y Y' t) :
    HasDerivAt (fun t => density c (x - X t) (y - Y t)) (X' * slopeX c (x - X t) (y - Y t) + Y' * slopeY c (x - X t) (y - Y t)) t := by
  have h1 : HasDerivAt (fun t : ℝ => x - X t - c.mx) (-X') t := (hX.const_sub x).sub_const c.mx
  have h2 : HasDerivAt (fun t : ℝ => y - Y t - c.my) (-Y') t := (hY.const_sub y).sub_const c.my
  have h3 : HasDerivAt (fun t : ℝ => -(distSq c (x - X t) (y - Y t)) / 2)
      ((X' * (c.vyy * (x - X t - c.mx) - c.vxy * (y - Y t - c.my)) + Y' * (c.vxx * (y - Y t - c.my) - c.vxy * (x - X t - c.mx))) /
        (c.vxx * c.vyy - c.vxy ^ 2)) t := by
    unfold distSq
    have := (((((h1.pow 2).const_mul c.vyy).sub ((h1.mul h2).const_mul (2 * c.vxy))).add
      ((h2.pow 2).const_mul c.vxx)).div_const (c.vxx * c.vyy - c.vxy ^ 2)).neg.div_const 2
    refine this.congr_deriv ?_
    simp only [Nat.cast_ofNat]
    ring
  have h4 := (h3.exp).const_mul (c.amp / (2 * Real.pi * Real.sqrt (c.vxx * c.vyy - c.vxy ^ 2)))
  refine h4.congr_deriv ?_
  unfold slopeX slopeY density
  ring

theorem densityMix_curve (m : Mix ℝ) (x y : ℝ) (X Y : ℝ → ℝ) (X' Y' t : ℝ) (hX : HasDerivAt X X' t) (hY : HasDerivAt Y Y' t) :
    HasDerivAt (fun t => densityMix m (x - X t) (y - Y t))
      (X' * (m.map (fun c => slopeX c (x - X t) (y - Y t))).sum + Y' * (m.map (fun c => slopeY c (x - X t) (y - Y t))).sum) t := by
  induction m with
  | nil => simpa [densityMix] using hasDerivAt_const t (0 : ℝ)
  | cons c m ih =>
    simp only [List.map_cons, List.sum_cons]
    refine ((density_curve c x y X Y X' Y' t hX hY).add ih).congr_deriv ?_
    ring

/-- Where all components are near, `evaluate_grid_masked` gives the slopes of the density. -/
theorem masked_slopes {m : Mix ℝ} (hm : ∀ c ∈ m, Proper c) (mask : Int → Int → Bool) (fx fy : ℝ) (x y : Int) (h : mask y x = true)
    (hd : ∀ c ∈ m, distSq c (x - fx) (y - fy) ≤ 60) :
    (masked m mask fx fy x y).2 = ((m.map (fun c => slopeX c (x - fx) (y - fy))).sum, (m.map (fun c => slopeY c (x - fx) (y - fy))).sum) := by
  rw [masked_eq hm, if_pos h, evalDxy_eq hm, List.filter_eq_self.mpr (fun c hc => by
    have := hd c hc; simp only [decide_eq_true_eq]; linarith)]

theorem render_steps (f : Field) (t : PList ℝ) (n0 n1 : List String) (h a b : ℝ) : f.at (posAt t n0 n1 h a b) = f.pix a b := rfl


theorem posAt_steps (t : PList ℝ) (n0 n1 : List String) (h a b : ℝ) (hh : h ≠ 0) : Src.GoodSteps (.plist (posAt t n0 n1 h a b)) := by
  refine ⟨rfl, ?_⟩
  intro s hs
  have : getStepSizes (.plist (posAt t n0 n1 h a b)) = [h, h] := rfl
  rw [this] at hs
  simp only [List.mem_cons, List.not_mem_nil, or_false, or_self] at hs
  rw [hs]; exact hh

/-- The first entries of the list are the difference quotients of the model image, if no derivatives come with the patch. -/
theorem quotient_at (I : Src.Image ℝ) (f : Field) (approx : PList ℝ → ℝ → Pic × Pic) (ov : Pic → Bool)
    (minval : Option ℝ) (mask : Option ModelMask) (t : PList ℝ) (n0 n1 : List String) (h a b : ℝ) (hh : h ≠ 0) (bl : Bool) (bright : Par ℝ) :
    Src.quotient (Src.pointModel I (f.world approx ov) minval mask) (Src.PointSource.tree ⟨true, posAt t n0 n1 h a b, bl, bright⟩) 0 =
      h⁻¹ • (I.counts bright • (f.render (posAt t n0 n1 h (a + h) b) minval mask).getD 0 -
        I.counts bright • (f.render (posAt t n0 n1 h a b) minval mask).getD 0) ∧
    Src.quotient (Src.pointModel I (f.world approx ov) minval mask) (Src.PointSource.tree ⟨true, posAt t n0 n1 h a b, bl, bright⟩) 1 =
      h⁻¹ • (I.counts bright • (f.render (posAt t n0 n1 h a (b + h)) minval mask).getD 0 -
        I.counts bright • (f.render (posAt t n0 n1 h a b) minval mask).getD 0) := by
  unfold Src.PointSource.tree
  rw [Src.quotient_multi, Src.quotient_multi, Src.quotientSubs_lt _ _ _ _ (posAt_steps t n0 n1 h a b hh) 0 (by show 0 < 2; omega),
    Src.quotientSubs_lt _ _ _ _ (posAt_steps t n0 n1 h a b hh) 1 (by show 1 < 2; omega)]
  exact ⟨rfl, rfl⟩

/-- The rendering in a mask, where the star is within reach of the image. -/
theorem render_mask (f : Field) (hm : ∀ c ∈ f.psf.mog, Proper c) (r : ℝ) (hr : f.fixedRadius.or f.psf.radius = some r) (pos : PList ℝ)
    (hin : 0 ≤ (f.at pos).1 + r ∧ (f.at pos).1 - r ≤ f.W ∧ 0 ≤ (f.at pos).2 + r ∧ (f.at pos).2 - r ≤ f.H) (minval : Option ℝ) (k : ModelMask) :
    ∃ q, f.render pos minval (some k) = some q ∧ ∀ i j : Nat, i < k.h → j < k.w → (∀ set, k.mask = some set → set i j = true) →
      (∀ c ∈ f.psf.mog, distSq c (((k.x0 + j : Int) : ℝ) - (f.at pos).1) (((k.y0 + i : Int) : ℝ) - (f.at pos).2) ≤ 60) →
      q (k.x0 + j) (k.y0 + i) = densityMix f.psf.mog (((k.x0 + j : Int) : ℝ) - (f.at pos).1) (((k.y0 + i : Int) : ℝ) - (f.at pos).2) := by
  obtain ⟨q, h1, _, h3⟩ := C165_mask f.psf hm { px := (f.at pos).1, py := (f.at pos).2, fixedRadius := f.fixedRadius } r hr f.H f.W hin minval k
  refine ⟨shown (some q), ?_, fun i j hi hj hset hd => ((h3 i j hi hj).2 hset).2 hd⟩
  unfold Field.render
  rw [h1]

/-- With a mask that has an array the entries for the position are the exact derivatives, by the coordinates of the position, of the flux times
the density of the PSF, in all pixels that are set (and not so far that a component is left out); they are zero in the others.  The matrix of the WCS has
to be that of the derivatives of the pixel position. -/
theorem C166_masked (f : Field) (hm : ∀ c ∈ f.psf.mog, Proper c) (r : ℝ) (hr : f.fixedRadius.or f.psf.radius = some r)
    (approx : PList ℝ → ℝ → Pic × Pic) (ov : Pic → Bool) (I : Src.Image ℝ) (t : PList ℝ) (n0 n1 : List String)
    (h a b : ℝ) (hh : h ≠ 0)
    (hin : 0 ≤ (f.pix a b).1 + r ∧ (f.pix a b).1 - r ≤ f.W ∧ 0 ≤ (f.pix a b).2 + r ∧ (f.pix a b).2 - r ≤ f.H)
    (k : ModelMask) (set : Nat → Nat → Bool) (hk : k.mask = some set) (bl : Bool) (bright : Par ℝ) (hb : bl = true → Src.GoodSteps bright)
    (hov : ∀ q, f.render (posAt t n0 n1 h a b) (Src.minvalOf I.minsb (I.counts bright)) (some k) = some q → ov q = true)
    (ha1 : HasDerivAt (fun u => (f.pix u b).1) (I.cdi (posAt t n0 n1 h a b)).1.1 a)
    (ha2 : HasDerivAt (fun u => (f.pix u b).2) (I.cdi (posAt t n0 n1 h a b)).2.1 a)
    (hb1 : HasDerivAt (fun u => (f.pix a u).1) (I.cdi (posAt t n0 n1 h a b)).1.2 b)
    (hb2 : HasDerivAt (fun u => (f.pix a u).2) (I.cdi (posAt t n0 n1 h a b)).2.2 b) :
    ∃ ds da db, Src.pointDerivs I (f.world approx ov) true (some k) ⟨true, posAt t n0 n1 h a b, bl, bright⟩ =
        (⟨true, posAt t n0 n1 h a b, bl, bright⟩, .ok ds) ∧ ds[0]? = some da ∧ ds[1]? = some db ∧
      ∀ i j : Nat, i < k.h → j < k.w →
        (set i j = false → da.getD 0 (k.x0 + j) (k.y0 + i) = 0 ∧ db.getD 0 (k.x0 + j) (k.y0 + i) = 0) ∧
        (set i j = true →
          (∀ c ∈ f.psf.mog, distSq c (((k.x0 + j : Int) : ℝ) - (f.pix a b).1) (((k.y0 + i : Int) : ℝ) - (f.pix a b).2) ≤ 60) →
          HasDerivAt (fun u => I.counts bright *
            densityMix f.psf.mog (((k.x0 + j : Int) : ℝ) - (f.pix u b).1) (((k.y0 + i : Int) : ℝ) - (f.pix u b).2))
            (da.getD 0 (k.x0 + j) (k.y0 + i)) a ∧
          HasDerivAt (fun u => I.counts bright *
            densityMix f.psf.mog (((k.x0 + j : Int) : ℝ) - (f.pix a u).1) (((k.y0 + i : Int) : ℝ) - (f.pix a u).2))
            (db.getD 0 (k.x0 + j) (k.y0 + i)) b) := by
  set pos := posAt t n0 n1 h a b with hpos
  have hwd : ∀ mv, (f.world approx ov).withDerivs pos mv (some k) =
      (f.render pos mv (some k)).map (fun q => (q, some (slopes f.psf.mog k set (f.pix a b).1 (f.pix a b).2))) := by
    intro mv
    show f.renderDerivs approx pos mv (some k) = _
    unfold Field.renderDerivs
    dsimp only
    rw [hk]
    rfl
  obtain ⟨ds, h1, h2, h3⟩ := Src.C41_point I (f.world approx ov) true (some k) ⟨true, pos, bl, bright⟩ (by show 2 ≤ 2; omega)
    (fun _ => posAt_steps t n0 n1 h a b hh) hb (fun mv => by
      rw [hwd, Option.map_map]
      show Option.map id _ = f.render pos mv (some k)
      rw [Option.map_id]; rfl)
  obtain ⟨q, hq, _⟩ := render_mask f hm r hr pos hin (Src.minvalOf I.minsb (I.counts bright)) k
  have hn : 2 ≤ ds.length := by
    rw [h2]
    show 2 ≤ numberOfParamsSubs _
    rw [Src.posCount_eq]
    show 2 ≤ 2 + _
    omega
  have e0 : ds[0]? = some ds[0] := List.getElem?_eq_getElem (by omega)
  have e1 : ds[1]? = some ds[1] := List.getElem?_eq_getElem (by omega)
  refine ⟨ds, _, _, h1, e0, e1, fun i j hi hj => ?_⟩
  have key := h3 q hq (hov q hq)
  have c0 := (key 0 _ e0).2 (by show 0 < 2; omega) rfl _ _ (by rw [hwd]; show Option.map _ (f.render pos _ _) = _; rw [hq]; rfl) 0 _ rfl rfl rfl
  have c1 := (key 1 _ e1).2 (by show 1 < 2; omega) rfl _ _ (by rw [hwd]; show Option.map _ (f.render pos _ _) = _; rw [hq]; rfl) 1 _ rfl rfl rfl
  have ei : (k.y0 + (i : Int) - k.y0).toNat = i := by omega
  have ej : (k.x0 + (j : Int) - k.x0).toNat = j := by omega
  have hins : (k.x0 ≤ k.x0 + (j : Int) ∧ k.x0 + (j : Int) < k.x0 + k.w) ∧ (k.y0 ≤ k.y0 + (i : Int) ∧ k.y0 + (i : Int) < k.y0 + k.h) := by omega
  have hs : ((slopes f.psf.mog k set (f.pix a b).1 (f.pix a b).2).1 (k.x0 + j) (k.y0 + i),
      (slopes f.psf.mog k set (f.pix a b).1 (f.pix a b).2).2 (k.x0 + j) (k.y0 + i)) =
      (masked f.psf.mog (fun y x => set (y - k.y0).toNat (x - k.x0).toNat) (f.pix a b).1 (f.pix a b).2 (k.x0 + j) (k.y0 + i)).2 := by
    unfold slopes
    dsimp only
    rw [if_pos hins, if_pos hins]
  have d0 : ds[0].getD 0 (k.x0 + j) (k.y0 + i) = I.counts bright * ((I.cdi pos).1.1 * (slopes f.psf.mog k set (f.pix a b).1 (f.pix a b).2).1 (k.x0 + j) (k.y0 + i) +
      (I.cdi pos).2.1 * (slopes f.psf.mog k set (f.pix a b).1 (f.pix a b).2).2 (k.x0 + j) (k.y0 + i)) := by
    rw [c0]; rfl
  have d1 : ds[1].getD 0 (k.x0 + j) (k.y0 + i) = I.counts bright * ((I.cdi pos).1.2 * (slopes f.psf.mog k set (f.pix a b).1 (f.pix a b).2).1 (k.x0 + j) (k.y0 + i) +
      (I.cdi pos).2.2 * (slopes f.psf.mog k set (f.pix a b).1 (f.pix a b).2).2 (k.x0 + j) (k.y0 + i)) := by
    rw [c1]; rfl
  rw [d0, d1]
  refine ⟨fun hf => ?_, fun ht hd => ?_⟩
  · have := (C99_masked f.psf.mog hm (fun y x => set (y - k.y0).toNat (x - k.x0).toNat) (f.pix a b).1 (f.pix a b).2 (k.x0 + j) (k.y0 + i)).1
      (by rw [ei, ej]; exact hf)
    rw [this] at hs
    have g1 : (slopes f.psf.mog k set (f.pix a b).1 (f.pix a b).2).1 (k.x0 + j) (k.y0 + i) = 0 := congrArg Prod.fst hs
    have g2 : (slopes f.psf.mog k set (f.pix a b).1 (f.pix a b).2).2 (k.x0 + j) (k.y0 + i) = 0 := congrArg Prod.snd hs
    rw [g1, g2]
    constructor <;> ring
  · rw [masked_slopes hm _ _ _ _ _ (by rw [ei, ej]; exact ht) hd] at hs
    have g1 := congrArg Prod.fst hs
    have g2 := congrArg Prod.snd hs
    dsimp only at g1 g2
    rw [g1, g2]
    exact ⟨(densityMix_curve f.psf.mog _ _ (fun u => (f.pix u b).1) (fun u => (f.pix u b).2) _ _ a ha1 ha2).const_mul _,
      (densityMix_curve f.psf.mog _ _ (fun u => (f.pix a u).1) (fun u => (f.pix a u).2) _ _ b hb1 hb2).const_mul _⟩

theorem world_image (f : Field) (approx : PList ℝ → ℝ → Pic × Pic) (ov : Pic → Bool) (pos : PList ℝ) (mv : Option ℝ) (mask : Option ModelMask) :
    ((f.world approx ov).withDerivs pos mv mask).map (·.1) = (f.world approx ov).unit pos mv mask := by
  show (f.renderDerivs approx pos mv mask).map (·.1) = f.render pos mv mask
  unfold Field.renderDerivs
  have key : ∀ (o : Option Pic) (e : Option (Pic × Pic)), (o.map (fun q => (q, e))).map (·.1) = o := by
    intro o e; cases o <;> rfl
  cases mask with
  | none => exact key _ _
  | some k =>
    dsimp only
    cases k.mask with
    | none => exact key _ _
    | some set => exact key _ _

/-- The entries for the position, for all step sizes, if no derivatives come with the patch. -/
theorem steps_entries (f : Field) (approx : PList ℝ → ℝ → Pic × Pic) (ov : Pic → Bool) (I : Src.Image ℝ) (t : PList ℝ) (n0 n1 : List String)
    (a b : ℝ) (fast : Bool) (mask : Option ModelMask) (bl : Bool) (bright : Par ℝ) (hb : bl = true → Src.GoodSteps bright) (q : Pic)
    (hq : ∀ h, f.render (posAt t n0 n1 h a b) (Src.minvalOf I.minsb (I.counts bright)) mask = some q) (hov : ov q = true)
    (hplain : ∀ h, f.renderDerivs approx (posAt t n0 n1 h a b) (Src.minvalOf I.minsb (I.counts bright)) mask = some (q, none)) :
    ∃ D : ℝ → List (Option Pic), ∀ h, h ≠ 0 →
      Src.pointDerivs I (f.world approx ov) fast mask ⟨true, posAt t n0 n1 h a b, bl, bright⟩ =
        (⟨true, posAt t n0 n1 h a b, bl, bright⟩, .ok (D h)) ∧
      ∃ da db, (D h)[0]? = some da ∧ (D h)[1]? = some db ∧
        da.getD 0 = h⁻¹ • (I.counts bright • (f.render (posAt t n0 n1 0 (a + h) b) (Src.minvalOf I.minsb (I.counts bright)) mask).getD 0 -
          I.counts bright • q) ∧
        db.getD 0 = h⁻¹ • (I.counts bright • (f.render (posAt t n0 n1 0 a (b + h)) (Src.minvalOf I.minsb (I.counts bright)) mask).getD 0 -
          I.counts bright • q) := by
  have each : ∀ h, ∃ ds, h ≠ 0 → Src.pointDerivs I (f.world approx ov) fast mask ⟨true, posAt t n0 n1 h a b, bl, bright⟩ =
        (⟨true, posAt t n0 n1 h a b, bl, bright⟩, .ok ds) ∧
      ∃ da db, ds[0]? = some da ∧ ds[1]? = some db ∧
        da.getD 0 = h⁻¹ • (I.counts bright • (f.render (posAt t n0 n1 0 (a + h) b) (Src.minvalOf I.minsb (I.counts bright)) mask).getD 0 -
          I.counts bright • q) ∧
        db.getD 0 = h⁻¹ • (I.counts bright • (f.render (posAt t n0 n1 0 a (b + h)) (Src.minvalOf I.minsb (I.counts bright)) mask).getD 0 -
          I.counts bright • q) := by
    intro h
    by_cases hh : h = 0
    · exact ⟨[], fun h' => absurd hh h'⟩
    obtain ⟨ds, h1, h2, h3⟩ := Src.C41_point I (f.world approx ov) fast mask ⟨true, posAt t n0 n1 h a b, bl, bright⟩ (by show 2 ≤ 2; omega)
      (fun _ => posAt_steps t n0 n1 h a b hh) hb (fun mv => world_image f approx ov _ mv mask)
    have hn : 2 ≤ ds.length := by
      rw [h2]
      show 2 ≤ numberOfParamsSubs _
      rw [Src.posCount_eq]
      show 2 ≤ 2 + _
      omega
    have e0 : ds[0]? = some ds[0] := List.getElem?_eq_getElem (by omega)
    have e1 : ds[1]? = some ds[1] := List.getElem?_eq_getElem (by omega)
    have key := h3 q (hq h) hov
    obtain ⟨q0, q1⟩ := quotient_at I f approx ov (Src.minvalOf I.minsb (I.counts bright)) mask t n0 n1 h a b hh bl bright
    rw [hq h] at q0 q1
    exact ⟨ds, fun _ => ⟨h1, _, _, e0, e1, ((key 0 _ e0).1 (Or.inr (Or.inr (hplain h)))).trans q0, ((key 1 _ e1).1 (Or.inr (Or.inr (hplain h)))).trans q1⟩⟩
  choose D hD using each
  exact ⟨D, fun h hh => hD h hh⟩

/-- Difference quotients of what is shown, where that is the density near the position. -/
theorem quotient_limit (C : ℝ) (S : ℝ → ℝ) (E : ℝ → ℝ) (δ a : ℝ) (hS : ∀ᶠ u in 𝓝 a, S u = E u) (hE : HasDerivAt (fun u => C * E u) δ a) :
    Tendsto (fun h => h⁻¹ * (C * S (a + h) - C * S a)) (𝓝[≠] 0) (𝓝 δ) := by
  have hC : (fun u => C * S u) =ᶠ[𝓝 a] (fun u => C * E u) := hS.mono (fun u hu => by beta_reduce; rw [hu])
  have h1 : HasDerivAt (fun u => C * S u) δ a := hE.congr_of_eventuallyEq hC
  have := hasDerivAt_iff_tendsto_slope_zero.mp h1
  simpa [smul_eq_mul] using this

/-- What entry `k` of a list of derivatives shows in a pixel. -/
def entry (ds : List (Option Pic)) (k : Nat) (x y : Int) : ℝ := ((ds[k]?).getD none).getD 0 x y

theorem entry_some {ds : List (Option Pic)} {k : Nat} {d : Option Pic} (h : ds[k]? = some d) (x y : Int) : entry ds k x y = d.getD 0 x y := by
  unfold entry; rw [h]; rfl

/-- Without a minimum value. -/
theorem minvalOf_nonpos {minsb c : ℝ} (h : minsb ≤ 0 ∨ c ≤ 0) : ∀ v, Src.minvalOf minsb c = some v → v ≤ 0 := by
  intro v hv
  unfold Src.minvalOf at hv
  by_cases hc : 0 < c
  · rw [if_pos hc] at hv
    injection hv with hv
    rw [← hv]
    exact div_nonpos_of_nonpos_of_nonneg (h.resolve_right (by linarith)) hc.le
  · rw [if_neg hc] at hv; simp at hv

theorem distSq_continuousAt (c : Comp ℝ) (x y : ℝ) (P : ℝ → ℝ × ℝ) (a : ℝ) (hP : ContinuousAt P a) :
    ContinuousAt (fun u => distSq c (x - (P u).1) (y - (P u).2)) a := by
  have h1 : ContinuousAt (fun u => (P u).1) a := hP.fst
  have h2 : ContinuousAt (fun u => (P u).2) a := hP.snd
  unfold distSq
  fun_prop

/-- Near components stay near. -/
theorem stays_near (m : Mix ℝ) (B x y : ℝ) (P : ℝ → ℝ × ℝ) (a : ℝ) (hP : ContinuousAt P a)
    (hd : ∀ c ∈ m, distSq c (x - (P a).1) (y - (P a).2) < B) : ∀ᶠ u in 𝓝 a, ∀ c ∈ m, distSq c (x - (P u).1) (y - (P u).2) < B := by
  induction m with
  | nil => exact Eventually.of_forall (fun u c hc => by simp at hc)
  | cons c m ih =>
    have h1 := (distSq_continuousAt c x y P a hP).eventually_lt (continuousAt_const (y := B)) (hd c (by simp))
    filter_upwards [h1, ih (fun c' hc' => hd c' (by simp [hc']))] with u hu hu' c' hc'
    rcases List.mem_cons.mp hc' with rfl | h
    · exact hu
    · exact hu' c' h

/-- What is shown without a mask, where the pixel lies strictly within the radius. -/
theorem render_none_near (f : Field) (hm : ∀ c ∈ f.psf.mog, Proper c) (r : ℝ) (hr : f.fixedRadius.or f.psf.radius = some r)
    (minval : Option ℝ) (hv : ∀ v, minval = some v → v ≤ 0) (pos : PList ℝ) (x y : Int) (hi : InImage f.H f.W x y)
    (hn : Near (f.at pos).1 (f.at pos).2 r x y) :
    ∃ q, f.render pos minval none = some q ∧
      ((∀ c ∈ f.psf.mog, distSq c (x - (f.at pos).1) (y - (f.at pos).2) < 100) →
        q x y = densityMix f.psf.mog (x - (f.at pos).1) (y - (f.at pos).2)) := by
  obtain ⟨res, h1, _, h3⟩ := C165_star f.psf hm { px := (f.at pos).1, py := (f.at pos).2, fixedRadius := f.fixedRadius } r hr rfl f.H f.W minval hv
  obtain ⟨⟨q, hq, _⟩, _, h5⟩ := (h3 x y hi).1 hn
  refine ⟨shown (some q), ?_, fun hd => by rw [← hq]; exact h5 hd⟩
  unfold Field.render
  rw [h1, hq]

/-- Without a mask and without a minimum value the entries for the position are difference quotients, and they tend to the derivative of the flux
times the density of the PSF as the step size goes to zero: in all pixels of the image strictly within the radius (and not so far
that a component is left out).  The matrix of the WCS plays no part. -/
theorem C166_steps (f : Field) (hm : ∀ c ∈ f.psf.mog, Proper c) (r : ℝ) (hr : f.fixedRadius.or f.psf.radius = some r)
    (approx : PList ℝ → ℝ → Pic × Pic) (ov : Pic → Bool) (I : Src.Image ℝ) (t : PList ℝ) (n0 n1 : List String) (a b : ℝ) (fast : Bool)
    (bl : Bool) (bright : Par ℝ) (hb : bl = true → Src.GoodSteps bright) (hv : I.minsb ≤ 0 ∨ I.counts bright ≤ 0)
    (hov : ∀ q, f.render (posAt t n0 n1 0 a b) (Src.minvalOf I.minsb (I.counts bright)) none = some q → ov q = true)
    (hca : ContinuousAt (fun u => f.pix u b) a) (hcb : ContinuousAt (fun u => f.pix a u) b)
    (x y : Int) (hi : InImage f.H f.W x y) (hx : |(x : ℝ) - (f.pix a b).1| < r) (hy : |(y : ℝ) - (f.pix a b).2| < r)
    (hd : ∀ c ∈ f.psf.mog, distSq c (x - (f.pix a b).1) (y - (f.pix a b).2) < 100) :
    ∃ D : ℝ → List (Option Pic),
      (∀ h, h ≠ 0 → Src.pointDerivs I (f.world approx ov) fast none ⟨true, posAt t n0 n1 h a b, bl, bright⟩ =
        (⟨true, posAt t n0 n1 h a b, bl, bright⟩, .ok (D h))) ∧
      (∀ δ, HasDerivAt (fun u => I.counts bright * densityMix f.psf.mog (x - (f.pix u b).1) (y - (f.pix u b).2)) δ a →
        Tendsto (fun h => entry (D h) 0 x y) (𝓝[≠] 0) (𝓝 δ)) ∧
      (∀ δ, HasDerivAt (fun u => I.counts bright * densityMix f.psf.mog (x - (f.pix a u).1) (y - (f.pix a u).2)) δ b →
        Tendsto (fun h => entry (D h) 1 x y) (𝓝[≠] 0) (𝓝 δ)) := by
  have hmv := minvalOf_nonpos hv
  obtain ⟨q, hq, _⟩ := render_none_near f hm r hr _ hmv (posAt t n0 n1 0 a b) x y hi ⟨hx.le, hy.le⟩
  obtain ⟨D, hD⟩ := steps_entries f approx ov I t n0 n1 a b fast none bl bright hb q (fun _ => hq) (hov q hq) (fun h => by
    unfold Field.renderDerivs
    dsimp only
    have : f.render (posAt t n0 n1 h a b) (Src.minvalOf I.minsb (I.counts bright)) none = some q := hq
    rw [this, if_neg ?_]
    · rfl
    · cases hmm : Src.minvalOf I.minsb (I.counts bright) with
      | none => simp
      | some v => simpa using hmv v hmm)
  have near : ∀ (P : ℝ → ℝ × ℝ) (R : ℝ → PList ℝ) (u0 : ℝ), (∀ u, f.at (R u) = P u) → P u0 = f.pix a b → ContinuousAt P u0 →
      ∀ᶠ u in 𝓝 u0, (f.render (R u) (Src.minvalOf I.minsb (I.counts bright)) none).getD 0 x y =
        densityMix f.psf.mog (x - (P u).1) (y - (P u).2) := by
    intro P R u0 hRP hP0 hP
    have hc1 : ContinuousAt (fun u => |(x : ℝ) - (P u).1|) u0 := (continuousAt_const.sub hP.fst).abs
    have hc2 : ContinuousAt (fun u => |(y : ℝ) - (P u).2|) u0 := (continuousAt_const.sub hP.snd).abs
    have h1 := hc1.eventually_lt (continuousAt_const (y := r)) (by rw [hP0]; exact hx)
    have h2 := hc2.eventually_lt (continuousAt_const (y := r)) (by rw [hP0]; exact hy)
    have h3 := stays_near f.psf.mog 100 x y P u0 hP (by rw [hP0]; exact hd)
    filter_upwards [h1, h2, h3] with u g1 g2 g3
    obtain ⟨q', e1, e2⟩ := render_none_near f hm r hr _ hmv (R u) x y hi (by rw [hRP]; exact ⟨g1.le, g2.le⟩)
    rw [e1]
    rw [hRP] at e2
    exact e2 g3
  refine ⟨D, fun h hh => (hD h hh).1, fun δ hδ => ?_, fun δ hδ => ?_⟩
  · refine (quotient_limit (I.counts bright)
      (fun u => (f.render (posAt t n0 n1 0 u b) (Src.minvalOf I.minsb (I.counts bright)) none).getD 0 x y) _ δ a
      (near (fun u => f.pix u b) (fun u => posAt t n0 n1 0 u b) a (fun _ => rfl) rfl hca) hδ).congr' ?_
    filter_upwards [self_mem_nhdsWithin] with h hh
    obtain ⟨_, da, db, e0, e1, d0, d1⟩ := hD h hh
    rw [entry_some e0, d0, hq]
    rfl
  · refine (quotient_limit (I.counts bright)
      (fun u => (f.render (posAt t n0 n1 0 a u) (Src.minvalOf I.minsb (I.counts bright)) none).getD 0 x y) _ δ b
      (near (fun u => f.pix a u) (fun u => posAt t n0 n1 0 a u) b (fun _ => rfl) rfl hcb) hδ).congr' ?_
    filter_upwards [self_mem_nhdsWithin] with h hh
    obtain ⟨_, da, db, e0, e1, d0, d1⟩ := hD h hh
    rw [entry_some e1, d1, hq]
    rfl

/-- The same in a mask without an array, for all its pixels, whatever the minimum value. -/
theorem C166_rectangle (f : Field) (hm : ∀ c ∈ f.psf.mog, Proper c) (r : ℝ) (hr : f.fixedRadius.or f.psf.radius = some r)
    (approx : PList ℝ → ℝ → Pic × Pic) (ov : Pic → Bool) (I : Src.Image ℝ) (t : PList ℝ) (n0 n1 : List String) (a b : ℝ) (fast : Bool)
    (hin : (0 < (f.pix a b).1 + r ∧ (f.pix a b).1 - r < f.W) ∧ 0 < (f.pix a b).2 + r ∧ (f.pix a b).2 - r < f.H)
    (k : ModelMask) (hk : k.mask = none) (bl : Bool) (bright : Par ℝ) (hb : bl = true → Src.GoodSteps bright)
    (hov : ∀ q, f.render (posAt t n0 n1 0 a b) (Src.minvalOf I.minsb (I.counts bright)) (some k) = some q → ov q = true)
    (hca : ContinuousAt (fun u => f.pix u b) a) (hcb : ContinuousAt (fun u => f.pix a u) b) :
    ∃ D : ℝ → List (Option Pic),
      (∀ h, h ≠ 0 → Src.pointDerivs I (f.world approx ov) fast (some k) ⟨true, posAt t n0 n1 h a b, bl, bright⟩ =
        (⟨true, posAt t n0 n1 h a b, bl, bright⟩, .ok (D h))) ∧
      ∀ i j : Nat, i < k.h → j < k.w →
        (∀ c ∈ f.psf.mog, distSq c (((k.x0 + j : Int) : ℝ) - (f.pix a b).1) (((k.y0 + i : Int) : ℝ) - (f.pix a b).2) < 60) →
        (∀ δ, HasDerivAt (fun u => I.counts bright *
            densityMix f.psf.mog (((k.x0 + j : Int) : ℝ) - (f.pix u b).1) (((k.y0 + i : Int) : ℝ) - (f.pix u b).2)) δ a →
          Tendsto (fun h => entry (D h) 0 (k.x0 + j) (k.y0 + i)) (𝓝[≠] 0) (𝓝 δ)) ∧
        (∀ δ, HasDerivAt (fun u => I.counts bright *
            densityMix f.psf.mog (((k.x0 + j : Int) : ℝ) - (f.pix a u).1) (((k.y0 + i : Int) : ℝ) - (f.pix a u).2)) δ b →
          Tendsto (fun h => entry (D h) 1 (k.x0 + j) (k.y0 + i)) (𝓝[≠] 0) (𝓝 δ)) := by
  obtain ⟨q, hq, _⟩ := render_mask f hm r hr (posAt t n0 n1 0 a b) ⟨hin.1.1.le, hin.1.2.le, hin.2.1.le, hin.2.2.le⟩
    (Src.minvalOf I.minsb (I.counts bright)) k
  obtain ⟨D, hD⟩ := steps_entries f approx ov I t n0 n1 a b fast (some k) bl bright hb q (fun _ => hq) (hov q hq) (fun h => by
    unfold Field.renderDerivs
    dsimp only
    rw [hk]
    have : f.render (posAt t n0 n1 h a b) (Src.minvalOf I.minsb (I.counts bright)) (some k) = some q := hq
    dsimp only
    rw [this]
    rfl)
  have near : ∀ (i j : Nat), i < k.h → j < k.w →
      (∀ c ∈ f.psf.mog, distSq c (((k.x0 + j : Int) : ℝ) - (f.pix a b).1) (((k.y0 + i : Int) : ℝ) - (f.pix a b).2) < 60) →
      ∀ (P : ℝ → ℝ × ℝ) (R : ℝ → PList ℝ) (u0 : ℝ), (∀ u, f.at (R u) = P u) → P u0 = f.pix a b → ContinuousAt P u0 →
      ∀ᶠ u in 𝓝 u0, (f.render (R u) (Src.minvalOf I.minsb (I.counts bright)) (some k)).getD 0 (k.x0 + j) (k.y0 + i) =
        densityMix f.psf.mog (((k.x0 + j : Int) : ℝ) - (P u).1) (((k.y0 + i : Int) : ℝ) - (P u).2) := by
    intro i j hi hj hd P R u0 hRP hP0 hP
    have c1 : ContinuousAt (fun u => (P u).1) u0 := hP.fst
    have c2 : ContinuousAt (fun u => (P u).2) u0 := hP.snd
    have h1 := (continuousAt_const (y := (0 : ℝ))).eventually_lt (c1.add_const r) (by beta_reduce; rw [hP0]; exact hin.1.1)
    have h2 := (c1.sub_const r).eventually_lt (continuousAt_const (y := (f.W : ℝ))) (by beta_reduce; rw [hP0]; exact hin.1.2)
    have h3 := (continuousAt_const (y := (0 : ℝ))).eventually_lt (c2.add_const r) (by beta_reduce; rw [hP0]; exact hin.2.1)
    have h4 := (c2.sub_const r).eventually_lt (continuousAt_const (y := (f.H : ℝ))) (by beta_reduce; rw [hP0]; exact hin.2.2)
    have h5 := stays_near f.psf.mog 60 _ _ P u0 hP (by rw [hP0]; exact hd)
    filter_upwards [h1, h2, h3, h4, h5] with u g1 g2 g3 g4 g5
    obtain ⟨q', e1, e2⟩ := render_mask f hm r hr (R u) (by rw [hRP]; exact ⟨g1.le, g2.le, g3.le, g4.le⟩) (Src.minvalOf I.minsb (I.counts bright)) k
    rw [e1]
    rw [hRP] at e2
    exact e2 i j hi hj (fun set hs => by rw [hk] at hs; simp at hs) (fun c hc => (g5 c hc).le)
  refine ⟨D, fun h hh => (hD h hh).1, fun i j hi hj hd => ⟨fun δ hδ => ?_, fun δ hδ => ?_⟩⟩
  · refine (quotient_limit (I.counts bright)
      (fun u => (f.render (posAt t n0 n1 0 u b) (Src.minvalOf I.minsb (I.counts bright)) (some k)).getD 0 (k.x0 + j) (k.y0 + i)) _ δ a
      (near i j hi hj hd (fun u => f.pix u b) (fun u => posAt t n0 n1 0 u b) a (fun _ => rfl) rfl hca) hδ).congr' ?_
    filter_upwards [self_mem_nhdsWithin] with h hh
    obtain ⟨_, da, db, e0, e1, d0, d1⟩ := hD h hh
    rw [entry_some e0, d0, hq]
    rfl
  · refine (quotient_limit (I.counts bright)
      (fun u => (f.render (posAt t n0 n1 0 a u) (Src.minvalOf I.minsb (I.counts bright)) (some k)).getD 0 (k.x0 + j) (k.y0 + i)) _ δ b
      (near i j hi hj hd (fun u => f.pix a u) (fun u => posAt t n0 n1 0 a u) b (fun _ => rfl) rfl hcb) hδ).congr' ?_
    filter_upwards [self_mem_nhdsWithin] with h hh
    obtain ⟨_, da, db, e0, e1, d0, d1⟩ := hD h hh
    rw [entry_some e1, d1, hq]
    rfl

/-- The PSF of the first example in an image of 40 by 30 pixels whose pixel positions are the coordinates themselves. -/
noncomputable def exField : Field := ⟨exPsf, 30, 40, fun a b => (a, b), none⟩

/-- Ten counts; the matrix of the derivatives of `exField.pix`. -/
noncomputable def exImage : Src.Image ℝ := { counts := fun _ => 10, cdi := fun _ => ((1, 0), (0, 1)), minsb := 0 }

theorem exField_slope : HasDerivAt (fun u => exImage.counts (.multi .nil) *
      densityMix exField.psf.mog (((3 : Int) : ℝ) - (exField.pix u 3).1) (((3 : Int) : ℝ) - (exField.pix u 3).2))
    (5 * (1 / (2 * Real.pi) * Real.exp (-(1 / 8)))) (5 / 2) := by
  refine ((densityMix_curve exField.psf.mog ((3 : Int) : ℝ) ((3 : Int) : ℝ) (fun u => u) (fun _ => 3) 1 0 (5 / 2) (hasDerivAt_id _)
    (hasDerivAt_const _ _)).const_mul (10 : ℝ)).congr_deriv ?_
  simp [exField, exPsf, slopeX, density, distSq]
  norm_num
  ring

theorem exField_near : ∀ c ∈ exField.psf.mog, distSq c (((3 : Int) : ℝ) - (exField.pix (5 / 2) 3).1) (((3 : Int) : ℝ) - (exField.pix (5 / 2) 3).2) < 60 := by
  intro c hc
  simp only [exField, exPsf, List.mem_singleton] at hc
  subst hc
  unfold distSq exField; norm_num

/-- The pixel half a pixel to the right of the star gains `10 * 1/2 * exp(-1/8) / 2 pi` per pixel that the star moves to the right. -/
example (approx : PList ℝ → ℝ → Pic × Pic) (t : PList ℝ) : ∃ ds da, Src.pointDerivs exImage (exField.world approx (fun _ => true)) true
      (some ⟨3, 3, 1, 1, some (fun _ _ => true)⟩) ⟨true, posAt t ["x"] ["y"] 1 (5 / 2) 3, false, .multi .nil⟩ =
        (⟨true, posAt t ["x"] ["y"] 1 (5 / 2) 3, false, .multi .nil⟩, .ok ds) ∧ ds[0]? = some da ∧
      da.getD 0 3 3 = 5 * (1 / (2 * Real.pi) * Real.exp (-(1 / 8))) := by
  obtain ⟨ds, da, db, h1, h2, _, h4⟩ := C166_masked exField exPsf_proper 25 rfl approx (fun _ => true) exImage t ["x"] ["y"] 1 (5 / 2) 3
    one_ne_zero (by unfold exField; norm_num) ⟨3, 3, 1, 1, some (fun _ _ => true)⟩ (fun _ _ => true) rfl false (.multi .nil) (fun h => by simp at h)
    (fun _ _ => rfl) (hasDerivAt_id _) (hasDerivAt_const _ _) (hasDerivAt_const _ _) (hasDerivAt_id _)
  refine ⟨ds, da, h1, h2, ?_⟩
  exact ((h4 0 0 (by decide) (by decide)).2 rfl (fun c hc => by simpa using (exField_near c hc).le)).1.unique (by simpa using exField_slope)

/-- The same number is the limit of the difference quotients without a mask. -/
example (approx : PList ℝ → ℝ → Pic × Pic) (t : PList ℝ) (fast : Bool) : ∃ D : ℝ → List (Option Pic),
      (∀ h, h ≠ 0 → Src.pointDerivs exImage (exField.world approx (fun _ => true)) fast none
          ⟨true, posAt t ["x"] ["y"] h (5 / 2) 3, false, .multi .nil⟩ =
        (⟨true, posAt t ["x"] ["y"] h (5 / 2) 3, false, .multi .nil⟩, .ok (D h))) ∧
      Tendsto (fun h => entry (D h) 0 3 3) (𝓝[≠] 0) (𝓝 (5 * (1 / (2 * Real.pi) * Real.exp (-(1 / 8))))) := by
  obtain ⟨D, h1, h2, _⟩ := C166_steps exField exPsf_proper 25 rfl approx (fun _ => true) exImage t ["x"] ["y"] (5 / 2) 3 fast false (.multi .nil)
    (fun h => by simp at h) (Or.inl le_rfl) (fun _ _ => rfl) (by unfold exField; fun_prop) (by unfold exField; fun_prop) 3 3
    (by unfold InImage exField; norm_num) (by unfold exField; norm_num [abs_lt]) (by unfold exField; norm_num)
    (fun c hc => (exField_near c hc).trans (by norm_num))
  exact ⟨D, h1, h2 _ exField_slope⟩

/-- And in a rectangle. -/
example (approx : PList ℝ → ℝ → Pic × Pic) (t : PList ℝ) (fast : Bool) : ∃ D : ℝ → List (Option Pic),
      (∀ h, h ≠ 0 → Src.pointDerivs exImage (exField.world approx (fun _ => true)) fast (some ⟨3, 3, 1, 1, none⟩)
          ⟨true, posAt t ["x"] ["y"] h (5 / 2) 3, false, .multi .nil⟩ =
        (⟨true, posAt t ["x"] ["y"] h (5 / 2) 3, false, .multi .nil⟩, .ok (D h))) ∧
      Tendsto (fun h => entry (D h) 0 3 3) (𝓝[≠] 0) (𝓝 (5 * (1 / (2 * Real.pi) * Real.exp (-(1 / 8))))) := by
  obtain ⟨D, h1, h2⟩ := C166_rectangle exField exPsf_proper 25 rfl approx (fun _ => true) exImage t ["x"] ["y"] (5 / 2) 3 fast
    (by unfold exField; norm_num) ⟨3, 3, 1, 1, none⟩ rfl false (.multi .nil)
    (fun h => by simp at h) (fun _ _ => rfl) (by unfold exField; fun_prop) (by unfold exField; fun_prop)
  refine ⟨D, h1, ?_⟩
  have := (h2 0 0 (by decide) (by decide) (fun c hc => by simpa using exField_near c hc)).1 _ (by simpa using exField_slope)
  simpa using this

end Verif.Star
