import Verif.Star.Light

/-!
# What a fixed composite galaxy shows, with a PSF of Gaussians
-/

namespace Verif.Star

open Verif.Patches (Patch)
open Verif.Mog (Comp Mix Mat)
open Verif.Gal (ModelMask HasImage pixel countsOf ofMix Kernel)
open Verif.Gauss

variable {B : Type}

/-- One Gaussian of unit amplitude by `c_gauss_2d_grid`. -/
noncomputable def gridKernel (x y : Int) : Kernel ℝ ℝ := fun mx my vxx vxy vyx vyy => gridTerm ⟨1, mx, my, vxx, vxy, vyx, vyy⟩ 0 0 x y 0

/-- One Gaussian of unit amplitude by `c_gauss_2d_masked`. -/
noncomputable def maskedKernel (x y : Int) : Kernel ℝ ℝ := fun mx my vxx vxy vyx vyy =>
  (dxyTerm (fun _ => -30) ⟨1, mx, my, vxx, vxy, vyx, vyy⟩ (x - 0) (y - 0) (0, 0, 0)).1

theorem gridTerm_add (c : Comp ℝ) (fx fy : ℝ) (x y : Int) (r : ℝ) :
    gridTerm c fx fy x y r = r + c.amp * gridTerm { c with amp := 1 } fx fy x y 0 := by
  unfold gridTerm
  dsimp only
  split
  · rw [mul_zero, add_zero]
  · ring

theorem grid_linear (x y : Int) (m : Mix ℝ) : evaluateGrid m 0 0 x y = ofMix (gridKernel x y) m := by
  have key : ∀ (m : Mix ℝ) (r : ℝ), m.foldl (fun r c => gridTerm c 0 0 x y r) r = r + ofMix (gridKernel x y) m := by
    intro m
    induction m with
    | nil => intro r; exact (add_zero r).symm
    | cons c m ih =>
      intro r
      rw [List.foldl_cons, ih, gridTerm_add]
      unfold ofMix gridKernel
      rw [List.map_cons, List.sum_cons, smul_eq_mul]
      ring
  unfold evaluateGrid
  rw [key, zero_add]

theorem dxyTermF_add (c : Comp ℝ) (x y : ℝ) (r : ℝ × ℝ × ℝ) :
    (dxyTermF (fun _ => -30) c x y r).1 = r.1 + c.amp * (dxyTerm (fun _ => -30) { c with amp := 1 } x y (0, 0, 0)).1 := by
  have hs : (prep c).scale = c.amp * (prep { c with amp := 1 }).scale := by
    unfold prep
    dsimp only
    ring
  have h1 : (dxyTerm (fun _ => -30) c x y r).1 = r.1 + c.amp * (dxyTerm (fun _ => -30) { c with amp := 1 } x y (0, 0, 0)).1 := by
    unfold dxyTerm
    dsimp only
    rw [hs]
    have e0 : (prep { c with amp := 1 }).i0 = (prep c).i0 := rfl
    have e1 : (prep { c with amp := 1 }).i1 = (prep c).i1 := rfl
    have e2 : (prep { c with amp := 1 }).i2 = (prep c).i2 := rfl
    rw [e0, e1, e2]
    by_cases h : ¬ (prep c).i0 * (x - c.mx) * (x - c.mx) + (prep c).i1 * (x - c.mx) * (y - c.my) + (prep c).i2 * (y - c.my) * (y - c.my) ≥ -30
    · rw [if_pos h, if_pos h, mul_zero, add_zero]
    · rw [if_neg h, if_neg h]
      dsimp only
      ring
  unfold dxyTermF
  by_cases h0 : (prep c).scale = 0
  · rw [if_pos h0]
    have hz : c.amp * (dxyTerm (fun _ => -30) { c with amp := 1 } x y (0, 0, 0)).1 = 0 := by
      unfold dxyTerm
      dsimp only
      rw [hs] at h0
      split
      · rw [mul_zero]
      · dsimp only
        rw [zero_add, ← mul_assoc, h0, zero_mul]
    rw [hz, add_zero]
  · rw [if_neg h0]
    exact h1

theorem masked_linear (x y : Int) (m : Mix ℝ) : (masked m (fun _ _ => true) 0 0 x y).1 = ofMix (maskedKernel x y) m := by
  have key : ∀ (m : Mix ℝ) (r : ℝ × ℝ × ℝ), (m.foldl (fun r c => dxyTermF (fun _ => -30) c ((x : ℝ) - 0) ((y : ℝ) - 0) r) r).1 =
      r.1 + ofMix (maskedKernel x y) m := by
    intro m
    induction m with
    | nil => intro r; exact (add_zero r.1).symm
    | cons c m ih =>
      intro r
      rw [List.foldl_cons, ih, dxyTermF_add]
      unfold ofMix maskedKernel
      rw [List.map_cons, List.sum_cons, smul_eq_mul]
      ring
  have hall : m.all (fun c => decide ((prep c).scale = 0)) = true →
      (m.foldl (fun r c => dxyTermF (fun _ => -30) c ((x : ℝ) - 0) ((y : ℝ) - 0) r) (0, 0, 0)) = (0, 0, 0) := by
    induction m with
    | nil => intro _; rfl
    | cons c m ih =>
      intro h
      rw [List.all_cons, Bool.and_eq_true] at h
      have hc : (prep c).scale = 0 := by simpa using h.1
      rw [List.foldl_cons]
      have : dxyTermF (fun _ => -30) c ((x : ℝ) - 0) ((y : ℝ) - 0) (0, 0, 0) = (0, 0, 0) := if_pos hc
      rw [this]
      exact ih h.2
  unfold masked
  by_cases h : m.all (fun c => decide ((prep c).scale = 0)) = true
  · rw [if_pos h]
    have := key m (0, 0, 0)
    rw [hall h, zero_add] at this
    exact this
  · rw [if_neg h]
    dsimp only
    rw [if_neg (by simp)]
    have := key m (0, 0, 0)
    rw [zero_add] at this
    exact this

/-- The routines in C evaluate mixtures component by component: what C113 asks of them. -/
theorem linear_env (E : Gal.Env ℝ) (hE : ∀ m r c, E.value m r c = evaluateGrid m 0 0 c r)
    (hE' : ∀ m r c, E.valueMasked m r c = (masked m (fun _ _ => true) 0 0 c r).1) : Gal.LinearEnv E :=
  ⟨fun y x => ⟨gridKernel x y, fun m => by rw [hE, grid_linear]⟩, fun y x => ⟨maskedKernel x y, fun m => by rw [hE', masked_linear]⟩⟩

/-- The fraction of the de Vaucouleurs galaxy. -/
noncomputable def Blend.frac (g : Blend) : ℝ := g.s.frac.clipped Real.exp

/-- The exponential galaxy of the same position and shape. -/
noncomputable def Blend.expPart (g : Blend) : Made :=
  ⟨g.px, g.py, g.P.exp, g.cdinv, g.s.expBasis, g.radius, fun _ _ => g.s.patchSize g.P Real.exp g.pixscale g.psfRadius⟩

/-- The de Vaucouleurs galaxy of the same position and shape. -/
noncomputable def Blend.devPart (g : Blend) : Made :=
  ⟨g.px, g.py, g.P.dev, g.cdinv, g.s.devBasis, g.radius, fun _ _ => g.s.patchSize g.P Real.exp g.pixscale g.psfRadius⟩

/-- Profiles of light 1 made of round Gaussians; both galaxies have an extent. -/
structure Blend.Sound (g : Blend) : Prop where
  exp : Mog.total g.P.exp = 1
  dev : Mog.total g.P.dev = 1
  expPart : g.expPart.Sound
  devPart : g.devPart.Sound

/-- What arrives of the light of the galaxy. -/
noncomputable def Blend.light (psf : GPsf) (g : Blend) (x y : Int) : ℝ :=
  g.frac * g.devPart.light psf x y + (1 - g.frac) * g.expPart.light psf x y

noncomputable def Blend.tol (psf : GPsf) (g : Blend) : ℝ := g.frac * g.devPart.tol psf + (1 - g.frac) * g.expPart.tol psf

theorem frac_range (g : Blend) : 0 ≤ g.frac ∧ g.frac ≤ 1 := by
  unfold Blend.frac Gal.Frac.clipped
  cases g.s.frac with
  | hard v => exact ⟨le_min (le_max_right _ _) zero_le_one, min_le_right _ _⟩
  | soft v =>
    have h := Real.exp_pos (4 * (1 / 2 - v))
    exact ⟨by positivity, by rw [div_le_one (by positivity)]; linarith⟩

/-- Two parts, weighted. -/
theorem Part.mix {mask : Option ModelMask} {near : Prop} {l l' t t' : ℝ} {x y : Int} {v v' f : ℝ} (h0 : 0 ≤ f) (h1 : f ≤ 1)
    (h : Part mask near l t x y v) (h' : Part mask near l' t' x y v') (hn : mask = none → (|l - v| ≤ t ∧ |l' - v'| ≤ t') ∨ ((v = 0 ∧ v' = 0) ∧ ¬ near)) :
    Part mask near (f * l + (1 - f) * l') (f * t + (1 - f) * t') x y (f * v + (1 - f) * v') := by
  have key : |l - v| ≤ t → |l' - v'| ≤ t' → |f * l + (1 - f) * l' - (f * v + (1 - f) * v')| ≤ f * t + (1 - f) * t' := by
    intro a b
    have e : f * l + (1 - f) * l' - (f * v + (1 - f) * v') = f * (l - v) + (1 - f) * (l' - v') := by ring
    rw [e]
    refine (abs_add_le _ _).trans (add_le_add ?_ ?_)
    · rw [abs_mul, abs_of_nonneg h0]
      exact mul_le_mul_of_nonneg_left a h0
    · rw [abs_mul, abs_of_nonneg (by linarith : 0 ≤ 1 - f)]
      exact mul_le_mul_of_nonneg_left b (by linarith)
  cases mask with
  | some k => exact ⟨fun o => key (h.1 o) (h'.1 o), fun o => by rw [h.2 o, h'.2 o]; ring⟩
  | none =>
    rcases hn rfl with ⟨a, b⟩ | ⟨⟨a, b⟩, n⟩
    · exact Or.inl (key a b)
    · exact Or.inr ⟨by rw [a, b]; ring, n⟩

/-- A fixed composite galaxy of one count. -/
theorem blend_unit (F : Frame B) (hF : F.Sound) (mask : Option ModelMask) (g : Blend) (hg : g.Sound) (v : ℝ) (hv : mask = none → v = 0) :
    ∃ u, F.unitBlend g v mask = .ok u ∧ HasImage u ∧ ∀ x y, InImage F.S.H F.S.W x y →
      Part mask (Near g.px g.py (g.s.patchSize g.P Real.exp g.pixscale g.psfRadius) x y) (g.light F.psf x y) (g.tol F.psf) x y (pixel u x y) := by
  obtain ⟨⟨f0, f1⟩, ⟨mm, h1, -, h2⟩, -⟩ := Gal.C113_profile g.P hg.exp hg.dev Real.exp Real.exp_pos g.s g.cdinv g.px g.py
  have haff : g.galaxy.affine g.px g.py = mm := by
    show (g.s.affine g.P Real.exp g.cdinv g.px g.py).toOption.getD [] = mm
    rw [h1]
    rfl
  cases mask with
  | some k =>
    obtain ⟨ue, e1, -, e3⟩ := gal_unit F hF (some k) g.expPart hg.expPart v (fun h => by simp at h)
    obtain ⟨ud, d1, -, d3⟩ := gal_unit F hF (some k) g.devPart hg.devPart v (fun h => by simp at h)
    obtain ⟨pf, pe, pd, r1, r2, r3, i1, -, -, hp⟩ := Gal.gauss_pixel F.E (linear_env F.E hF.value hF.masked) F.S (fun _ _ => F.psf.mog) g.galaxy
      g.expPart.galaxy g.devPart.galaxy ⟨some (3, 4), false, some v⟩ g.px g.py g.frac k (fun gg => by rw [haff]; exact h2 gg)
    obtain rfl : ue = pe := Except.ok.inj (e1.symm.trans (r2 (some v)))
    obtain rfl : ud = pd := Except.ok.inj (d1.symm.trans (r3 (some v)))
    refine ⟨pf, r1 (some v), i1, fun x y hi => ?_⟩
    rw [hp]
    exact Part.mix f0 f1 (d3 x y hi) (e3 x y hi) (fun h => by simp at h)
  | none =>
    have ha : (⟨some (3, 4), false, some v⟩ : Gal.Args ℝ).minval = none ∨ (⟨some (3, 4), false, some v⟩ : Gal.Args ℝ).minval = some 0 :=
      Or.inr (by rw [hv rfl])
    have hlin : ∀ x y : Int, evaluateGrid (Mog.convolve mm F.psf.mog) 0 0 x y =
        g.frac * evaluateGrid (Mog.convolve (Mog.applyAffine g.P.dev (g.px, g.py) (Gal.dot g.cdinv g.s.devBasis)) F.psf.mog) 0 0 x y +
        (1 - g.frac) * evaluateGrid (Mog.convolve (Mog.applyAffine g.P.exp (g.px, g.py) (Gal.dot g.cdinv g.s.expBasis)) F.psf.mog) 0 0 x y := by
      intro x y
      obtain ⟨g', h'⟩ := Gal.ofMix_convolve (gridKernel x y) F.psf.mog
      rw [grid_linear, grid_linear, grid_linear, h', h', h']
      exact h2 g'
    have hone : ∀ p : Made, p.Sound → ∀ x y : Int, |p.light F.psf x y -
        evaluateGrid (Mog.convolve (Mog.applyAffine p.profile (p.px, p.py) (Gal.dot p.cdinv p.basis)) F.psf.mog) 0 0 x y| ≤ p.tol F.psf := by
      intro p hp x y
      have hcp := affine_proper hp.1 (Gal.dot p.cdinv p.basis) hF.psf p.px p.py
      have h := (C99_grid _ hcp 0 0 x y).1
      rw [sub_zero, sub_zero] at h
      unfold Made.light
      rw [seen_eq hp.1 _ hp.2 _ hF.psf]
      refine h.trans ((mul_le_mul_of_nonneg_right (Real.exp_le_exp.mpr (by norm_num : (-50 : ℝ) ≤ -30)) (peaks_nonneg _)).trans ?_)
      exact mul_le_mul_of_nonneg_left (peaks_conv hp.1 _ hF.psf _ _) (Real.exp_pos _).le
    have hnear : ∀ x y, InImage F.S.H F.S.W x y → Near g.px g.py (g.s.patchSize g.P Real.exp g.pixscale g.psfRadius) x y →
        Gal.Near F.S g.px g.py (g.s.patchSize g.P Real.exp g.pixscale g.psfRadius) x y := by
      rintro x y ⟨⟨i1, i2⟩, i3, i4⟩ ⟨n1, n2⟩
      rw [abs_le] at n1 n2
      exact ⟨⟨i1, i2, i3, i4⟩, by linarith [n1.1], by linarith [n1.2], by linarith [n2.1], by linarith [n2.2]⟩
    rcases Gal.C96_gauss F.E F.S (fun _ _ => F.psf.mog) g.galaxy ⟨some (3, 4), false, some v⟩ ha g.px g.py _ rfl with
      ⟨hrun, hno⟩ | ⟨G, jx, jy, hrun, -, -, -, -, hall, hpx⟩
    · refine ⟨none, hrun, fun q hq => by simp at hq, fun x y hi => Or.inr ⟨rfl, fun hn => hno x y (hnear x y hi hn)⟩⟩
    · refine ⟨_, hrun, by rintro q ⟨⟩; exact ⟨G, rfl⟩, fun x y hi => ?_⟩
      have hpix : pixel (some ⟨jx, jy, some G⟩ : Option (Patch ℝ)) x y =
          if jx ≤ x ∧ x < jx + G.w ∧ jy ≤ y ∧ y < jy + G.h then G.px (y - jy).toNat (x - jx).toNat else 0 := rfl
      rw [hpix]
      by_cases hb : jx ≤ x ∧ x < jx + G.w ∧ jy ≤ y ∧ y < jy + G.h
      · rw [if_pos hb, hpx _ _ (by omega) (by omega), hF.value, haff, show jy + ((y - jy).toNat : Int) = y by omega,
          show jx + ((x - jx).toNat : Int) = x by omega, hlin]
        have hd := hone g.devPart hg.devPart x y
        have he := hone g.expPart hg.expPart x y
        exact Part.mix (mask := none) f0 f1 (Or.inl hd) (Or.inl he) (fun _ => Or.inl ⟨hd, he⟩)
      · rw [if_neg hb]
        exact Or.inr ⟨rfl, fun hn => hb (hall x y (hnear x y hi hn))⟩

end Verif.Star
