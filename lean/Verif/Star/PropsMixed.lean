import Verif.Star.PropsWhole

/-!
# C172: a fixed composite galaxy, with a PSF of Gaussians
-/

namespace Verif.Star

open Verif.Patches (Patch)
open Verif.Mog (Comp Mix Mat)
open Verif.Gal (ModelMask HasImage pixel countsOf)
open Verif.Gauss

variable {B : Type}

/-- The routines in C evaluate mixtures component by component: what C113 asks of them. -/
theorem C172_linear (E : Gal.Env ℝ) (hE : ∀ m r c, E.value m r c = evaluateGrid m 0 0 c r)
    (hE' : ∀ m r c, E.valueMasked m r c = (masked m (fun _ _ => true) 0 0 c r).1) : Gal.LinearEnv E := linear_env E hE hE'

/-- **A fixed composite galaxy** raises nothing, and shows its counts times the light that arrives of its two galaxies, weighted by the fraction: in the set pixels of
its mask, and nothing elsewhere; without a mask and without a minimum value, in its patch, which has every pixel of the image near the centre. -/
theorem C172_fixed (F : Frame B) (hF : F.Sound) (mask : Option ModelMask) (hv : mask = none → F.view.modelMinval = 0) (g : Blend) (hg : g.Sound) (b : B) :
    (0 ≤ g.frac ∧ g.frac ≤ 1) ∧ ∃ p, F.patch mask (.fixed g b) = .ok p ∧ ∀ x y, InImage F.S.H F.S.W x y →
      Part mask (Near g.px g.py (g.s.patchSize g.P Real.exp g.pixscale g.psfRadius) x y) (countsOf F.view b * g.light F.psf x y)
        (|countsOf F.view b| * g.tol F.psf) x y (pixel p x y) := by
  refine ⟨(Gal.C113_profile g.P hg.exp hg.dev Real.exp Real.exp_pos g.s g.cdinv g.px g.py).1, ?_⟩
  obtain ⟨u, h1, h2, h3⟩ := blend_unit F hF mask g hg (F.view.modelMinval / countsOf F.view b) (fun h => by rw [hv h, zero_div])
  obtain ⟨p, h4, _, h6⟩ := Gal.modelPatch_pixel F.view (F.unitBlend g) b none mask u h2 h1
  refine ⟨p, h4, fun x y hi => ?_⟩
  rw [h6]
  exact (h3 x y hi).scale _

/-- In masks it is the composite galaxy with the counts divided: what C113 promises, of the routines in C. -/
theorem C172_same (P : Gal.Profiles ℝ) (he : Mog.total P.exp = 1) (hd : Mog.total P.dev = 1) (F : Frame B) (hF : F.Sound) (g : Blend)
    (hP : g.P = P) (b be bd : B) (hbe : countsOf F.view be = (1 - g.frac) * countsOf F.view b) (hbd : countsOf F.view bd = g.frac * countsOf F.view b)
    (k : ModelMask) :
    ∃ r r', F.patch (some k) (.fixed g b) = .ok r ∧ F.patch (some k) (.two g.expPart g.devPart be bd) = .ok r' ∧ ∀ x y, pixel r x y = pixel r' x y := by
  subst hP
  obtain ⟨-, ⟨mm, h1, -, -⟩, -⟩ := Gal.C113_profile g.P he hd Real.exp Real.exp_pos g.s g.cdinv g.px g.py
  have hgf : g.s.affine g.P Real.exp g.cdinv g.px g.py = .ok (g.galaxy.affine g.px g.py) := by
    show _ = Except.ok ((g.s.affine g.P Real.exp g.cdinv g.px g.py).toOption.getD [])
    rw [h1]
    rfl
  obtain ⟨r, r', k1, k2, k3⟩ := Gal.C113_same g.P he hd Real.exp Real.exp_pos F.E (C172_linear F.E hF.value hF.masked) F.S (fun _ _ => F.psf.mog) g.s g.cdinv
    g.galaxy g.expPart.galaxy g.devPart.galaxy g.px g.py hgf rfl rfl F.view b be bd hbe hbd k ⟨some (3, 4), false, none⟩ none 0
  exact ⟨r, r', k1, k2, k3⟩

/-! A galaxy with a quarter of its light in a component twice as large, in the image of the examples of C170. -/

noncomputable def exBlend : Blend where
  px := 7
  py := 6
  cdinv := ⟨1, 0, 0, 1⟩
  pixscale := 1
  P := ⟨[⟨1, 0, 0, 1, 0, 0, 1⟩], 3, [⟨1, 0, 0, 1, 0, 0, 1⟩], 5⟩
  s := ⟨.hard (1 / 4), ⟨1, 0, 0, 1⟩, ⟨2, 0, 0, 2⟩, 1, 2, some 8⟩
  psfRadius := 25
  radius := 3

theorem exBlend_sound : exBlend.Sound := by
  refine ⟨?_, ?_, ⟨?_, ?_⟩, ?_, ?_⟩
  · simp [exBlend, Mog.total]
  · simp [exBlend, Mog.total]
  · intro c hc
    obtain rfl := List.mem_singleton.mp hc
    unfold Round
    norm_num
  · show (1 * 1 + 0 * 0 : ℝ) * (0 * 0 + 1 * 1) - (1 * 0 + 0 * 1) * (0 * 1 + 1 * 0) ≠ 0
    norm_num
  · intro c hc
    obtain rfl := List.mem_singleton.mp hc
    unfold Round
    norm_num
  · show (1 * 2 + 0 * 0 : ℝ) * (0 * 0 + 1 * 2) - (1 * 0 + 0 * 2) * (0 * 2 + 1 * 0) ≠ 0
    norm_num

theorem exBlend_frac : exBlend.frac = 1 / 4 := by
  show min (max (1 / 4 : ℝ) 0) 1 = 1 / 4
  norm_num

example : ∃ p, exFrame.patch none (.fixed exBlend 8) = .ok p ∧
    |8 * (1 / 4 * exBlend.devPart.light exPsf 6 6 + (1 - 1 / 4) * exBlend.expPart.light exPsf 6 6) - pixel p 6 6| ≤
      8 * (1 / 4 * exBlend.devPart.tol exPsf + (1 - 1 / 4) * exBlend.expPart.tol exPsf) := by
  obtain ⟨-, p, h1, h2⟩ := C172_fixed exFrame exFrame_sound none (fun _ => rfl) exBlend exBlend_sound 8
  refine ⟨p, h1, ?_⟩
  have hn : Near 7 6 8 6 6 := by unfold Near; norm_num
  rcases h2 6 6 ⟨⟨by norm_num, by norm_num [exFrame]⟩, by norm_num, by norm_num [exFrame]⟩ with h | ⟨-, h⟩
  · have h : |8 * exBlend.light exPsf 6 6 - pixel p 6 6| ≤ |(8 : ℝ)| * exBlend.tol exPsf := h
    unfold Blend.light Blend.tol at h
    rw [exBlend_frac, abs_of_pos (show (0 : ℝ) < 8 by norm_num)] at h
    exact h
  · exact absurd hn h

-- eight counts are six of the exponential and two of the de Vaucouleurs galaxy
example : ∃ r r', exFrame.patch (some exK) (.fixed exBlend 8) = .ok r ∧ exFrame.patch (some exK) (.two exBlend.expPart exBlend.devPart 6 2) = .ok r' ∧
    ∀ x y, pixel r x y = pixel r' x y := by
  refine C172_same exBlend.P exBlend_sound.exp exBlend_sound.dev exFrame exFrame_sound exBlend rfl 8 6 2 ?_ ?_ exK
  · rw [exBlend_frac]
    show (6 : ℝ) = (1 - 1 / 4) * 8
    norm_num
  · rw [exBlend_frac]
    show (2 : ℝ) = 1 / 4 * 8
    norm_num

example : Gal.LinearEnv exEnv := C172_linear exEnv (fun _ _ _ => rfl) (fun _ _ _ => rfl)

end Verif.Star
