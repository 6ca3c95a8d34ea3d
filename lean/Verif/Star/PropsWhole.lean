import Verif.Star.LightMixed
import Verif.Engine.Props

/-!
# C170: the model image of a field of stars and galaxies, with a PSF of Gaussians
-/

namespace Verif.Star

open Verif.Patches (Patch)
open Verif.Mog (Comp Mix Mat)
open Verif.Gal (ModelMask HasImage pixel countsOf)
open Verif.Gauss

variable {B : Type}

/-- What a galaxy of `c` counts shows in a pixel. -/
def Made.Shows (psf : GPsf) (mask : Option ModelMask) (g : Made) (c : ℝ) (x y : Int) (v : ℝ) : Prop :=
  Part mask (Near g.px g.py (g.patchSize g.px g.py) x y) (c * g.light psf x y) (|c| * g.tol psf) x y v

/-- What a source shows in a pixel. -/
def Shows (F : Frame B) (mask : Option ModelMask) (t : Thing B) (x y : Int) (v : ℝ) : Prop :=
  match t with
  | .star s b => ∀ r, s.fixedRadius.or F.psf.radius = some r →
      Part mask (Near s.px s.py r x y) (countsOf F.view b * starLight F.psf s x y) (|countsOf F.view b| * starTol F.psf) x y v
  | .galaxy g b => g.Shows F.psf mask (countsOf F.view b) x y v
  | .two e d be bd => ∃ ve vd, v = ve + vd ∧ e.Shows F.psf mask (countsOf F.view be) x y ve ∧ d.Shows F.psf mask (countsOf F.view bd) x y vd
  | .fixed g b => Part mask (Near g.px g.py (g.s.patchSize g.P Real.exp g.pixscale g.psfRadius) x y) (countsOf F.view b * g.light F.psf x y)
      (|countsOf F.view b| * g.tol F.psf) x y v

/-- Sources that can be drawn: a star must have a radius, no `minRadius`, and in a mask it must not be further outside the image than its radius. -/
def CanDraw (F : Frame B) (mask : Option ModelMask) : Thing B → Prop
  | .star s _ => s.minRadius = none ∧ ∃ r, s.fixedRadius.or F.psf.radius = some r ∧
      (mask ≠ none → 0 ≤ s.px + r ∧ s.px - r ≤ F.S.W ∧ 0 ≤ s.py + r ∧ s.py - r ≤ F.S.H)
  | .galaxy g _ => g.Sound
  | .two e d _ _ => e.Sound ∧ d.Sound
  | .fixed g _ => g.Sound

/-- A star of one count. -/
theorem star_unit (F : Frame B) (hF : F.Sound) (mask : Option ModelMask) (s : Star) (b : B) (hd : CanDraw F mask (.star s b)) (v : ℝ)
    (hv : mask = none → v ≤ 0) (r : ℝ) (hr : s.fixedRadius.or F.psf.radius = some r) :
    ∃ u, F.unitStar s v mask = .ok u ∧ HasImage u ∧ ∀ x y, InImage F.S.H F.S.W x y →
      Part mask (Near s.px s.py r x y) (starLight F.psf s x y) (starTol F.psf) x y (pixel u x y) := by
  obtain ⟨hmin, r', hr', hin⟩ := hd
  obtain rfl : r = r' := Option.some.inj (hr.symm.trans hr')
  cases mask with
  | some k =>
    obtain ⟨q, h1, h2, h3⟩ := C165_mask F.psf hF.psf s r hr F.S.H F.S.W (hin (by simp)) (some v) k
    refine ⟨some q, h1, ?_, fun x y _ => part_of_mask h2 (L := starLight F.psf s) (fun i j hi hj => ⟨(h3 i j hi hj).1, fun hs => ((h3 i j hi hj).2 hs).1⟩) x y⟩
    rintro p ⟨⟩
    have hfar : ¬ (s.px + r < 0 ∨ s.px - r > F.S.W ∨ s.py + r < 0 ∨ s.py - r > F.S.H) := by
      push Not
      exact hin (by simp)
    have hrun : starPatch F.psf s F.S.H F.S.W (some v) (some k) = .ok (some (match k.mask with
        | none => grid F.psf.mog ⟨k.x0, k.x0 + k.w, k.y0, k.y0 + k.h⟩ s.px s.py
        | some set => gridMasked F.psf.mog k set s.px s.py)) := by
      unfold starPatch; simp only [hr]; rw [if_neg hfar]
      unfold pointSourcePatch; dsimp only
      cases k.mask <;> rfl
    rw [hrun] at h1
    have hq := Option.some.inj (Except.ok.inj h1)
    rw [← hq]
    cases k.mask <;> exact ⟨_, rfl⟩
  | none =>
    obtain ⟨res, h1, h2, h3⟩ := C165_star F.psf hF.psf s r hr hmin F.S.H F.S.W (some v) (by rintro w ⟨⟩; exact hv rfl)
    have hgrid : res = none ∨ ∃ bx : Approx.Box, res = some (grid F.psf.mog bx s.px s.py) := by
      unfold starPatch at h1
      simp only [hr] at h1
      by_cases hfar : s.px + r < 0 ∨ s.px - r > F.S.W ∨ s.py + r < 0 ∨ s.py - r > F.S.H
      · rw [if_pos hfar] at h1
        exact Or.inl (Except.ok.inj h1).symm
      · rw [if_neg hfar] at h1
        unfold pointSourcePatch at h1
        dsimp only at h1
        have hmv : ¬ ((some v : Option ℝ).getD 0 > 0 ∨ s.minRadius.isSome) := by
          rw [hmin]
          simpa using hv rfl
        rw [if_neg hmv, hr] at h1
        dsimp only at h1
        generalize extent s.px s.py r (some (0, (F.S.W : Int), 0, (F.S.H : Int))) = bx at h1
        by_cases he : bx.x0 ≥ bx.x1 ∨ bx.y0 ≥ bx.y1
        · rw [if_pos he] at h1
          exact Or.inl (Except.ok.inj h1).symm
        · rw [if_neg he] at h1
          exact Or.inr ⟨bx, (Except.ok.inj h1).symm⟩
    refine ⟨res, h1, ?_, fun x y hi => ?_⟩
    · rintro p rfl
      rcases hgrid with h | ⟨bx, h⟩
      · simp at h
      · rw [Option.some.inj h]
        exact ⟨_, rfl⟩
    · have h50 : Real.exp (-50) * peaks F.psf.mog ≤ starTol F.psf :=
        mul_le_mul_of_nonneg_right (Real.exp_le_exp.mpr (by norm_num)) (peaks_nonneg _)
      rw [← shown_pixel]
      by_cases hn : Near s.px s.py r x y
      · exact Or.inl (((h3 x y hi).1 hn).2.1.trans h50)
      · rcases hgrid with rfl | ⟨bx, rfl⟩
        · exact Or.inr ⟨rfl, hn⟩
        · by_cases hI : Approx.Inside bx.x0 bx.x1 bx.y0 bx.y1 y x
          · refine Or.inl ?_
            rw [(shown_grid F.psf.mog bx s.px s.py x y).1 hI]
            exact ((C99_grid F.psf.mog hF.psf s.px s.py x y).1).trans h50
          · exact Or.inr ⟨(shown_grid F.psf.mog bx s.px s.py x y).2 hI, hn⟩

/-- A source: no exception, and what it shows. -/
theorem thing_shows (F : Frame B) (hF : F.Sound) (mask : Option ModelMask) (hv : mask = none → F.view.modelMinval = 0) (t : Thing B)
    (hd : CanDraw F mask t) :
    ∃ p, F.patch mask t = .ok p ∧ ∀ x y, InImage F.S.H F.S.W x y → Shows F mask t x y (pixel p x y) := by
  have hz : ∀ c : ℝ, mask = none → F.view.modelMinval / c = 0 := fun c h => by rw [hv h, zero_div]
  cases t with
  | star s b =>
    obtain ⟨-, r, hr, -⟩ := id hd
    obtain ⟨u, h1, h2, h3⟩ := star_unit F hF mask s b hd (F.view.modelMinval / countsOf F.view b) (fun h => (hz _ h).le) r hr
    obtain ⟨p, h4, _, h6⟩ := Gal.modelPatch_pixel F.view (F.unitStar s) b none mask u h2 h1
    refine ⟨p, h4, fun x y hi r' hr' => ?_⟩
    obtain rfl : r' = r := Option.some.inj (hr'.symm.trans hr)
    rw [h6]
    exact (h3 x y hi).scale _
  | galaxy g b =>
    obtain ⟨u, h1, h2, h3⟩ := gal_unit F hF mask g hd (F.view.modelMinval / countsOf F.view b) (hz _)
    obtain ⟨p, h4, _, h6⟩ := Gal.modelPatch_pixel F.view (F.unitGal g) b none mask u h2 h1
    refine ⟨p, h4, fun x y hi => ?_⟩
    rw [h6]
    exact (h3 x y hi).scale _
  | two e d be bd =>
    obtain ⟨u, h1, h2, h3⟩ := gal_unit F hF mask e hd.1 (F.view.modelMinval / countsOf F.view be) (hz _)
    obtain ⟨p, h4, h5, h6⟩ := Gal.modelPatch_pixel F.view (F.unitGal e) be none mask u h2 h1
    obtain ⟨u', k1, k2, k3⟩ := gal_unit F hF mask d hd.2 (F.view.modelMinval / countsOf F.view bd) (hz _)
    obtain ⟨p', k4, k5, k6⟩ := Gal.modelPatch_pixel F.view (F.unitGal d) bd none mask u' k2 k1
    obtain ⟨r, m1, m2⟩ := Gal.addPatches_pixel p p' h5 k5
    refine ⟨r, ?_, fun x y hi => ⟨_, _, m2 x y, ?_, ?_⟩⟩
    · unfold Frame.patch Gal.TwoPart.modelPatch Gal.TwoPart.modelPatches
      dsimp only
      rw [if_neg (by simp), h4]
      dsimp only
      rw [k4]
      exact m1
    · rw [h6]
      exact (h3 x y hi).scale _
    · rw [k6]
      exact (k3 x y hi).scale _
  | fixed g b =>
    obtain ⟨u, h1, h2, h3⟩ := blend_unit F hF mask g hd (F.view.modelMinval / countsOf F.view b) (hz _)
    obtain ⟨p, h4, _, h6⟩ := Gal.modelPatch_pixel F.view (F.unitBlend g) b none mask u h2 h1
    refine ⟨p, h4, fun x y hi => ?_⟩
    rw [h6]
    exact (h3 x y hi).scale _

/-- What the sources show in a pixel: each with its own mask; nothing where masks are expected and it has none; missing sources show nothing. -/
def AllShow (frame : Engine.Image ℝ → Frame B) (what : Engine.Source ℝ → Engine.Image ℝ → Thing B) (T : Engine.Tractor ℝ ModelMask)
    (img : Engine.Image ℝ) (x y : Int) : List (Option (Engine.Source ℝ)) → List ℝ → Prop :=
  List.Forall₂ (fun s v => match s with
    | none => v = 0
    | some src => ∃ mask, Engine.HasMask T img src mask ∧
        ((T.expectModelMasks = true ∧ mask = none) ∧ v = 0 ∨ ¬ (T.expectModelMasks = true ∧ mask = none) ∧ Shows (frame img) mask (what src img) x y v))

/-- **The model image**: the sky plus what the sources show, and no source raises an exception. -/
theorem C170_image (frame : Engine.Image ℝ → Frame B) (what : Engine.Source ℝ → Engine.Image ℝ → Thing B) (sky : Engine.Image ℝ → Engine.Sky ℝ)
    (T : Engine.Tractor ℝ ModelMask) (img : Engine.Image ℝ) (hT : Engine.MasksOK T img) (hF : (frame img).Sound)
    (hH : (frame img).S.H = img.data.h) (hW : (frame img).S.W = img.data.w) (srcs : Option (List (Option (Engine.Source ℝ))))
    (hd : ∀ src, some src ∈ srcs.getD (T.catalog.map (·.2)) → ∀ mask, Engine.HasMask T img src mask → ¬ (T.expectModelMasks = true ∧ mask = none) →
      CanDraw (frame img) mask (what src img) ∧ (mask = none → (frame img).view.modelMinval = 0)) (withSky : Bool) :
    (∀ src, some src ∈ srcs.getD (T.catalog.map (·.2)) → ∀ mask, Engine.HasMask T img src mask → ¬ (T.expectModelMasks = true ∧ mask = none) →
      ∃ p, (frame img).patch mask (what src img) = .ok p) ∧
    ∃ r, Engine.getModelImage (sceneWorld frame what sky) T img srcs withSky = .ok r ∧ r.h = img.data.h ∧ r.w = img.data.w ∧
      ∀ y x : Nat, y < img.data.h → x < img.data.w → ∃ vs, AllShow frame what T img x y (srcs.getD (T.catalog.map (·.2))) vs ∧
        r.px y x = (if withSky then (sky img).at x y else 0) + vs.sum := by
  refine ⟨fun src hs mask hm he => ?_, ?_⟩
  · obtain ⟨h1, h2⟩ := hd src hs mask hm he
    obtain ⟨p, h, -⟩ := thing_shows (frame img) hF mask h2 _ h1
    exact ⟨p, h⟩
  obtain ⟨⟨ps, hps⟩, h⟩ := Engine.C29_model_image (sceneWorld frame what sky) T img hT srcs
  obtain ⟨r, h1, h2, h3, h4⟩ := h ps hps withSky
  refine ⟨r, h1, h2, h3, fun y x hy hx => ⟨ps.map (fun p => Engine.patchAt p x y), ?_, h4 y x hy hx⟩⟩
  have hi : InImage (frame img).S.H (frame img).S.W x y := by
    unfold InImage
    omega
  unfold AllShow
  clear h h1 h4
  generalize srcs.getD (T.catalog.map (·.2)) = l at hd hps
  induction hps with
  | nil => exact .nil
  | @cons s p l ps hsp _ ih =>
    refine .cons ?_ (ih (fun src hs => hd src (List.mem_cons_of_mem _ hs)))
    cases s with
    | none =>
      dsimp only at hsp ⊢
      rw [hsp]
      rfl
    | some src =>
      obtain ⟨mask, hm, rfl⟩ := hsp
      refine ⟨mask, hm, ?_⟩
      by_cases he : T.expectModelMasks = true ∧ mask = none
      · exact Or.inl ⟨he, by rw [if_pos he]; rfl⟩
      · refine Or.inr ⟨he, ?_⟩
        obtain ⟨c1, c2⟩ := hd src List.mem_cons_self mask hm he
        obtain ⟨p, hp, hs⟩ := thing_shows (frame img) hF mask c2 _ c1
        have := hs x y hi
        rw [if_neg he]
        have e : (sceneWorld frame what sky).render src img mask = p := by
          show ((frame img).patch mask (what src img)).toOption.getD none = p
          rw [hp]
          rfl
        rw [e]
        exact this

/-- All the light that arrives in a pixel from a source. -/
noncomputable def Thing.light (F : Frame B) (x y : Int) : Thing B → ℝ
  | .star s b => countsOf F.view b * starLight F.psf s x y
  | .galaxy g b => countsOf F.view b * g.light F.psf x y
  | .two e d be bd => countsOf F.view be * e.light F.psf x y + countsOf F.view bd * d.light F.psf x y
  | .fixed g b => countsOf F.view b * g.light F.psf x y

/-- `exp(-30)` of its counts times the light of the profiles times the peaks of the PSF. -/
noncomputable def Thing.tol (F : Frame B) : Thing B → ℝ
  | .star _ b => |countsOf F.view b| * starTol F.psf
  | .galaxy g b => |countsOf F.view b| * g.tol F.psf
  | .two e d be bd => |countsOf F.view be| * e.tol F.psf + |countsOf F.view bd| * d.tol F.psf
  | .fixed g b => |countsOf F.view b| * g.tol F.psf

theorem Made.tol_nonneg (psf : GPsf) (g : Made) : 0 ≤ g.tol psf := by
  refine mul_nonneg (Real.exp_pos _).le (mul_nonneg (List.sum_nonneg (fun z hz => ?_)) (peaks_nonneg _))
  obtain ⟨c, _, rfl⟩ := List.mem_map.mp hz
  exact abs_nonneg _

theorem Blend.tol_nonneg (psf : GPsf) (g : Blend) (h : 0 ≤ g.frac ∧ g.frac ≤ 1) : 0 ≤ g.tol psf :=
  add_nonneg (mul_nonneg h.1 (g.devPart.tol_nonneg _)) (mul_nonneg (by linarith [h.2]) (g.expPart.tol_nonneg _))

theorem Thing.tol_nonneg (F : Frame B) (t : Thing B) : 0 ≤ t.tol F := by
  have hs : 0 ≤ starTol F.psf := mul_nonneg (Real.exp_pos _).le (peaks_nonneg _)
  cases t with
  | star s b => exact mul_nonneg (abs_nonneg _) hs
  | galaxy g b => exact mul_nonneg (abs_nonneg _) (g.tol_nonneg _)
  | two e d be bd => exact add_nonneg (mul_nonneg (abs_nonneg _) (e.tol_nonneg _)) (mul_nonneg (abs_nonneg _) (d.tol_nonneg _))
  | fixed g b => exact mul_nonneg (abs_nonneg _) (g.tol_nonneg _ (frac_range g))

open Classical in
theorem shows_mask {F : Frame B} {k : ModelMask} {t : Thing B} (hd : CanDraw F (some k) t) {x y : Int} {v : ℝ} (h : Shows F (some k) t x y v) :
    |v - (if OnMask k x y then t.light F x y else 0)| ≤ t.tol F := by
  have key : ∀ {near : Prop} {L tol v : ℝ}, 0 ≤ tol → Part (some k) near L tol x y v → |v - (if OnMask k x y then L else 0)| ≤ tol := by
    intro near L tol v ht h
    by_cases ho : OnMask k x y
    · rw [if_pos ho, abs_sub_comm]
      exact h.1 ho
    · rw [if_neg ho, h.2 ho, sub_zero, abs_zero]
      exact ht
  cases t with
  | star s b =>
    obtain ⟨-, r, hr, -⟩ := hd
    exact key (Thing.tol_nonneg F (.star s b)) (h r hr)
  | galaxy g b => exact key (near := Near g.px g.py (g.patchSize g.px g.py) x y) (Thing.tol_nonneg F (.galaxy g b)) h
  | fixed g b =>
    exact key (near := Near g.px g.py (g.s.patchSize g.P Real.exp g.pixscale g.psfRadius) x y) (Thing.tol_nonneg F (.fixed g b)) h
  | two e d be bd =>
    obtain ⟨ve, vd, rfl, he, hd'⟩ := h
    have h1 := key (mul_nonneg (abs_nonneg _) (e.tol_nonneg _)) he
    have h2 := key (mul_nonneg (abs_nonneg _) (d.tol_nonneg _)) hd'
    unfold Thing.light Thing.tol
    by_cases ho : OnMask k x y
    · rw [if_pos ho] at h1 h2 ⊢
      rw [abs_le] at h1 h2 ⊢
      constructor <;> linarith [h1.1, h1.2, h2.1, h2.2]
    · rw [if_neg ho] at h1 h2 ⊢
      rw [abs_le] at h1 h2 ⊢
      constructor <;> linarith [h1.1, h1.2, h2.1, h2.2]

open Classical in
/-- **In model masks**: a pixel of the model image is the sky plus the light that arrives there of every source whose mask the pixel is set in, up to `exp(-30)` of
the counts times the peaks of the PSF. -/
theorem C170_masks (frame : Engine.Image ℝ → Frame B) (what : Engine.Source ℝ → Engine.Image ℝ → Thing B) (sky : Engine.Image ℝ → Engine.Sky ℝ)
    (T : Engine.Tractor ℝ ModelMask) (img : Engine.Image ℝ) (hT : Engine.MasksOK T img) (hF : (frame img).Sound)
    (hH : (frame img).S.H = img.data.h) (hW : (frame img).S.W = img.data.w) (srcs : Option (List (Option (Engine.Source ℝ))))
    (k : Engine.Source ℝ → ModelMask) (hk : ∀ src, some src ∈ srcs.getD (T.catalog.map (·.2)) → Engine.HasMask T img src (some (k src)))
    (hd : ∀ src, some src ∈ srcs.getD (T.catalog.map (·.2)) → CanDraw (frame img) (some (k src)) (what src img)) :
    ∃ r, Engine.getModelImage (sceneWorld frame what sky) T img srcs true = .ok r ∧ r.h = img.data.h ∧ r.w = img.data.w ∧
      ∀ y x : Nat, y < img.data.h → x < img.data.w →
        |r.px y x - ((sky img).at x y + (((srcs.getD (T.catalog.map (·.2))).filterMap id).map
            (fun src => if OnMask (k src) x y then (what src img).light (frame img) x y else 0)).sum)| ≤
          (((srcs.getD (T.catalog.map (·.2))).filterMap id).map (fun src => (what src img).tol (frame img))).sum := by
  obtain ⟨-, r, h1, h2, h3, h4⟩ := C170_image frame what sky T img hT hF hH hW srcs (fun src hs mask hm _ => by
    obtain rfl := hm.unique (hk src hs)
    exact ⟨hd src hs, fun h => by simp at h⟩) true
  refine ⟨r, h1, h2, h3, fun y x hy hx => ?_⟩
  obtain ⟨vs, hv, hr⟩ := h4 y x hy hx
  rw [hr, if_pos rfl, add_sub_add_left_eq_sub]
  unfold AllShow at hv
  clear h1 h4 hr
  generalize srcs.getD (T.catalog.map (·.2)) = l at hk hd hv
  induction hv with
  | nil => simp
  | @cons s v l vs hsv _ ih =>
    have ih := ih (fun src hs => hk src (List.mem_cons_of_mem _ hs)) (fun src hs => hd src (List.mem_cons_of_mem _ hs))
    cases s with
    | none =>
      dsimp only at hsv
      rw [hsv, List.sum_cons, zero_add]
      exact ih
    | some src =>
      obtain ⟨mask, hm, hs⟩ := hsv
      obtain rfl := hm.unique (hk src List.mem_cons_self)
      rcases hs with ⟨⟨-, h⟩, -⟩ | ⟨-, hs⟩
      · simp at h
      have h := shows_mask (hd src List.mem_cons_self) hs
      rw [show (some src :: l).filterMap id = src :: l.filterMap id from rfl, List.map_cons, List.map_cons, List.sum_cons, List.sum_cons, List.sum_cons]
      rw [abs_le] at h ih ⊢
      constructor <;> linarith [h.1, h.2, ih.1, ih.2]

/-! An image of 30 by 40 pixels with a star of 10 counts at (5, 6) and a composite galaxy of 3 and 4 counts at (7, 6), with one mask for both, and a sky of 2. -/

noncomputable def exFrame : Frame ℝ := ⟨exEnv, ⟨30, 40, fun _ _ => 1⟩, exPsf, ⟨fun b => .fin b, fun _ => true, 0⟩⟩

theorem exFrame_sound : exFrame.Sound := ⟨fun _ _ _ => rfl, fun _ _ _ => rfl, exPsf_proper⟩

noncomputable def exMade (size : ℝ) : Made := ⟨7, 6, [⟨1, 0, 0, 1, 0, 0, 1⟩], ⟨1, 0, 0, 1⟩, ⟨size, 0, 0, size⟩, 3, fun _ _ => 8⟩

theorem exMade_sound (size : ℝ) (h : size ≠ 0) : (exMade size).Sound := by
  constructor
  · intro c hc
    obtain rfl := List.mem_singleton.mp hc
    unfold Round
    norm_num
  · show (1 * size + 0 * 0 : ℝ) * (0 * 0 + 1 * size) - (1 * 0 + 0 * size) * (0 * size + 1 * 0) ≠ 0
    simpa using h

noncomputable def exWhat (s : Engine.Source ℝ) : Thing ℝ := if s.id = 0 then .star { px := 5, py := 6 } 10 else .two (exMade 1) (exMade 2) 3 4

def exScene : Engine.Image ℝ := ⟨0, .nil, Arr.zeros 30 40, Arr.zeros 30 40⟩

def exSrcs (i : Nat) : Engine.Source ℝ := ⟨i, .multi .nil⟩

def exTractor (masks : Option (List (List (Nat × ModelMask)))) : Engine.Tractor ℝ ModelMask :=
  ⟨true, [(true, exScene)], true, [(true, some (exSrcs 0)), (true, none), (true, some (exSrcs 1))], masks, false⟩

def exK : ModelMask := ⟨4, 5, 3, 3, none⟩

-- in the mask the sky and both sources, outside only the sky
example : ∃ r, Engine.getModelImage (sceneWorld (fun _ => exFrame) (fun s _ => exWhat s) (fun _ => .constant 2))
      (exTractor (some [[(0, exK), (1, exK)]])) exScene none true = .ok r ∧
    |r.px 6 6 - (2 + (10 * starLight exPsf { px := 5, py := 6 } 6 6 + (3 * (exMade 1).light exPsf 6 6 + 4 * (exMade 2).light exPsf 6 6)))| ≤
      10 * starTol exPsf + (3 * (exMade 1).tol exPsf + 4 * (exMade 2).tol exPsf) ∧
    |r.px 6 9 - 2| ≤ 10 * starTol exPsf + (3 * (exMade 1).tol exPsf + 4 * (exMade 2).tol exPsf) := by
  have hT : Engine.MasksOK (exTractor (some [[(0, exK), (1, exK)]])) exScene := by
    intro masks h
    cases h
    exact ⟨rfl, (true, exScene), by simp [exTractor], rfl⟩
  have hk : ∀ i : Nat, i = 0 ∨ i = 1 → Engine.HasMask (exTractor (some [[(0, exK), (1, exK)]])) exScene (exSrcs i) (some exK) := by
    rintro i (rfl | rfl)
    · exact .entry _ rfl 0 true exScene rfl rfl (fun j _ h => absurd h (Nat.not_lt_zero j)) _ rfl [] [(1, exK)] exK (by simp) rfl
    · exact .entry _ rfl 0 true exScene rfl rfl (fun j _ h => absurd h (Nat.not_lt_zero j)) _ rfl [(0, exK)] [] exK (by simp [exSrcs]) rfl
  have hs : ∀ src, some src ∈ (exTractor (some [[(0, exK), (1, exK)]])).catalog.map (·.2) → src = exSrcs 0 ∨ src = exSrcs 1 := by
    intro src h
    simpa [exTractor] using h
  obtain ⟨r, h1, -, -, h4⟩ := C170_masks (fun _ => exFrame) (fun s _ => exWhat s) (fun _ => .constant 2) _ exScene hT exFrame_sound rfl rfl none
    (fun _ => exK) (fun src h => by rcases hs src h with rfl | rfl <;> exact hk _ (by simp)) (fun src h => by
      rcases hs src h with rfl | rfl
      · exact ⟨rfl, 25, rfl, fun _ => by norm_num [exFrame]⟩
      · exact ⟨exMade_sound 1 (by norm_num), exMade_sound 2 (by norm_num)⟩)
  have ht : (Thing.star { px := 5, py := 6 } 10 : Thing ℝ).tol exFrame + ((Thing.two (exMade 1) (exMade 2) 3 4 : Thing ℝ).tol exFrame + 0) =
      10 * starTol exPsf + (3 * (exMade 1).tol exPsf + 4 * (exMade 2).tol exPsf) := by
    show |(10 : ℝ)| * starTol exPsf + ((|(3 : ℝ)| * (exMade 1).tol exPsf + |(4 : ℝ)| * (exMade 2).tol exPsf) + 0) = _
    rw [abs_of_pos (by norm_num), abs_of_pos (by norm_num), abs_of_pos (by norm_num), add_zero]
  refine ⟨r, h1, ?_, ?_⟩
  · have h := h4 6 6 (by show 6 < 30; omega) (by show 6 < 40; omega)
    have ho : OnMask exK ((6 : Nat) : Int) ((6 : Nat) : Int) := ⟨by unfold exK; dsimp only; omega, fun set hs => by simp [exK] at hs⟩
    have e : ((none : Option (List (Option (Engine.Source ℝ)))).getD ((exTractor (some [[(0, exK), (1, exK)]])).catalog.map (·.2))).filterMap id =
        [exSrcs 0, exSrcs 1] := rfl
    rw [e] at h
    simp only [List.map_cons, List.map_nil, List.sum_cons, List.sum_nil] at h
    rw [if_pos ho, if_pos ho] at h
    rw [← ht]
    rw [add_zero] at h
    exact h
  · have h := h4 6 9 (by show 6 < 30; omega) (by show 9 < 40; omega)
    have ho : ¬ OnMask exK ((9 : Nat) : Int) ((6 : Nat) : Int) := by
      rintro ⟨h, -⟩
      unfold exK at h
      dsimp only at h
      omega
    have e : ((none : Option (List (Option (Engine.Source ℝ)))).getD ((exTractor (some [[(0, exK), (1, exK)]])).catalog.map (·.2))).filterMap id =
        [exSrcs 0, exSrcs 1] := rfl
    rw [e] at h
    simp only [List.map_cons, List.map_nil, List.sum_cons, List.sum_nil] at h
    rw [if_neg ho, if_neg ho, add_zero, add_zero, add_zero] at h
    rw [← ht]
    exact h

-- without masks and without a minimum both sources reach the pixel
example : ∃ r, Engine.getModelImage (sceneWorld (fun _ => exFrame) (fun s _ => exWhat s) (fun _ => .constant 2)) (exTractor none) exScene none true = .ok r ∧
    |r.px 6 6 - (2 + (10 * starLight exPsf { px := 5, py := 6 } 6 6 + (3 * (exMade 1).light exPsf 6 6 + 4 * (exMade 2).light exPsf 6 6)))| ≤
      10 * starTol exPsf + (3 * (exMade 1).tol exPsf + 4 * (exMade 2).tol exPsf) := by
  have hs : ∀ src, some src ∈ (exTractor none).catalog.map (·.2) → src = exSrcs 0 ∨ src = exSrcs 1 := by
    intro src h
    simpa [exTractor] using h
  obtain ⟨-, r, h1, -, -, h4⟩ := C170_image (fun _ => exFrame) (fun s _ => exWhat s) (fun _ => .constant 2) (exTractor none) exScene
    (fun _ h => by simp [exTractor] at h) exFrame_sound rfl rfl none (fun src h mask hm _ => by
      obtain rfl := hm.unique (.nomasks rfl)
      refine ⟨?_, fun _ => rfl⟩
      rcases hs src h with rfl | rfl
      · exact ⟨rfl, 25, rfl, fun h => absurd rfl h⟩
      · exact ⟨exMade_sound 1 (by norm_num), exMade_sound 2 (by norm_num)⟩) true
  refine ⟨r, h1, ?_⟩
  obtain ⟨vs, hv0, hr⟩ := h4 6 6 (by show 6 < 30; omega) (by show 6 < 40; omega)
  have hv : AllShow (fun _ => exFrame) (fun s _ => exWhat s) (exTractor none) exScene ((6 : Nat) : Int) ((6 : Nat) : Int)
    [some (exSrcs 0), none, some (exSrcs 1)] vs := hv0
  clear hv0
  unfold AllShow at hv
  obtain ⟨a, va, ha, hva, rfl⟩ := List.forall₂_cons_left_iff.mp hv
  obtain ⟨b, vb, hb, hvb, rfl⟩ := List.forall₂_cons_left_iff.mp hva
  obtain ⟨c, vc, hc, hvc, rfl⟩ := List.forall₂_cons_left_iff.mp hvb
  obtain rfl := List.forall₂_nil_left_iff.mp hvc
  have n5 : Near 5 6 25 ((6 : Nat) : Int) ((6 : Nat) : Int) := by unfold Near; norm_num
  have n7 : Near 7 6 8 ((6 : Nat) : Int) ((6 : Nat) : Int) := by unfold Near; norm_num
  obtain ⟨m, hm, ha⟩ := ha
  obtain rfl := hm.unique (.nomasks rfl)
  obtain ⟨m, hm, hc⟩ := hc
  obtain rfl := hm.unique (.nomasks rfl)
  rcases ha with ⟨⟨h, -⟩, -⟩ | ⟨-, ha⟩
  · simp [exTractor] at h
  rcases hc with ⟨⟨h, -⟩, -⟩ | ⟨-, hc⟩
  · simp [exTractor] at h
  have ha : Shows exFrame none (.star { px := 5, py := 6 } 10 : Thing ℝ) _ _ a := ha
  have hc : Shows exFrame none (.two (exMade 1) (exMade 2) 3 4 : Thing ℝ) _ _ c := hc
  obtain ⟨ve, vd, rfl, h1', h2'⟩ := hc
  have ha := ha 25 rfl
  rcases ha with ha | ⟨-, h⟩
  swap; · exact absurd n5 h
  rcases h1' with h1' | ⟨-, h⟩
  swap; · exact absurd n7 h
  rcases h2' with h2' | ⟨-, h⟩
  swap; · exact absurd n7 h
  have ha : |10 * starLight exPsf { px := 5, py := 6 } 6 6 - a| ≤ |(10 : ℝ)| * starTol exPsf := ha
  have h1' : |3 * (exMade 1).light exPsf 6 6 - ve| ≤ |(3 : ℝ)| * (exMade 1).tol exPsf := h1'
  have h2' : |4 * (exMade 2).light exPsf 6 6 - vd| ≤ |(4 : ℝ)| * (exMade 2).tol exPsf := h2'
  rw [abs_of_pos (show (0 : ℝ) < 10 by norm_num)] at ha
  rw [abs_of_pos (show (0 : ℝ) < 3 by norm_num)] at h1'
  rw [abs_of_pos (show (0 : ℝ) < 4 by norm_num)] at h2'
  have hb : b = 0 := hb
  have hr : r.px 6 6 = 2 + (a + (b + ((ve + vd) + 0))) := hr
  rw [hr, hb]
  rw [abs_le] at ha h1' h2' ⊢
  constructor <;> linarith [ha.1, ha.2, h1'.1, h1'.2, h2'.1, h2'.2]

end Verif.Star
