import Verif.Star.PropsUnmasked
import Verif.Star.PropsTruth

/-!
# C174: descriptions of the same scene have the same model image
-/

namespace Verif.Star

open Verif.Patches (Patch)
open Verif.Gal (ModelMask HasImage pixel countsOf)
open Verif.Gauss

variable {B : Type}

/-- A source that is drawn: as in C170; without a mask there is no minimum value. -/
def Drawn (F : Frame B) (z : Option ModelMask × Thing B) : Prop := CanDraw F z.1 z.2 ∧ (z.1 = none → F.view.modelMinval = 0)

/-- Two lists of sources with their masks that describe the same light. -/
inductive Same (F : Frame B) : List (Option ModelMask × Thing B) → List (Option ModelMask × Thing B) → Prop
  /-- in another order -/
  | perm {l l'} : l.Perm l' → Same F l l'
  | symm {l l'} : Same F l l' → Same F l' l
  | trans {l l' l''} : Same F l l' → Same F l' l'' → Same F l l''
  /-- next to other sources -/
  | beside (z) {l l'} : Same F l l' → Same F (z :: l) (z :: l')
  /-- sources without counts -/
  | darkStar (m s b) : Drawn F (m, .star s b) → countsOf F.view b = 0 → Same F [(m, .star s b)] []
  | darkGalaxy (m g b) : Drawn F (m, .galaxy g b) → countsOf F.view b = 0 → Same F [(m, .galaxy g b)] []
  /-- counts divided between two sources at the same place -/
  | stars (m s b b₁ b₂) : Drawn F (m, .star s b) → countsOf F.view b = countsOf F.view b₁ + countsOf F.view b₂ →
      Same F [(m, .star s b)] [(m, .star s b₁), (m, .star s b₂)]
  | galaxies (m g b b₁ b₂) : Drawn F (m, .galaxy g b) → countsOf F.view b = countsOf F.view b₁ + countsOf F.view b₂ →
      Same F [(m, .galaxy g b)] [(m, .galaxy g b₁), (m, .galaxy g b₂)]
  /-- a composite galaxy and its two galaxies -/
  | composite (m e d be bd) : Drawn F (m, .two e d be bd) → Same F [(m, .two e d be bd)] [(m, .galaxy e be), (m, .galaxy d bd)]
  /-- a fixed composite galaxy and the composite galaxy with the counts divided by the fraction -/
  | fixed (k g b be bd) : Drawn F (some k, .fixed g b) → countsOf F.view be = (1 - g.frac) * countsOf F.view b →
      countsOf F.view bd = g.frac * countsOf F.view b → Same F [(some k, .fixed g b)] [(some k, .two g.expPart g.devPart be bd)]

/-- The value of a source in a pixel (none where its patch is an exception; C174_image shows that none is). -/
noncomputable def pix (F : Frame B) (x y : Int) (z : Option ModelMask × Thing B) : ℝ := pixel ((F.patch z.1 z.2).toOption.getD none) x y

theorem unitStar_mask (F : Frame B) (s : Star) (k : ModelMask) (v w : ℝ) : F.unitStar s v (some k) = F.unitStar s w (some k) := by
  unfold Frame.unitStar starPatch
  cases s.fixedRadius.or F.psf.radius <;> rfl

theorem unitGal_mask (F : Frame B) (g : Made) (k : ModelMask) (v w : ℝ) : F.unitGal g v (some k) = F.unitGal g w (some k) := rfl

/-- A star in a pixel: its counts times a number that does not depend on them. -/
theorem star_pix (F : Frame B) (hF : F.Sound) (m : Option ModelMask) (s : Star) (b : B) (h : Drawn F (m, .star s b)) (x y : Int) :
    ∃ u : ℝ, ∀ b', pix F x y (m, .star s b') = countsOf F.view b' * u := by
  obtain ⟨-, r, hr, -⟩ := id h.1
  obtain ⟨u, h1, h2, -⟩ := star_unit F hF m s b h.1 0 (fun _ => le_refl 0) r hr
  refine ⟨pixel u x y, fun b' => ?_⟩
  have hu : F.unitStar s ((none : Option ℝ).getD F.view.modelMinval / countsOf F.view b') m = .ok u := by
    rw [← h1]
    cases m with
    | some k => exact unitStar_mask F s k _ _
    | none => rw [Option.getD_none, h.2 rfl, zero_div]
  obtain ⟨p, h4, _, h6⟩ := Gal.modelPatch_pixel F.view (F.unitStar s) b' none m u h2 hu
  have hp : F.patch m (.star s b') = .ok p := h4
  unfold pix
  dsimp only
  rw [hp]
  exact h6 x y

/-- A galaxy of any counts: its patch. -/
theorem gal_patch (F : Frame B) (hF : F.Sound) (m : Option ModelMask) (g : Made) (hg : g.Sound) (hm : m = none → F.view.modelMinval = 0) :
    ∃ u : Option (Patch ℝ), ∀ b', ∃ p, Gal.modelPatch F.view (F.unitGal g) b' none m = .ok p ∧ HasImage p ∧
      ∀ x y, pixel p x y = countsOf F.view b' * pixel u x y := by
  obtain ⟨u, h1, h2, -⟩ := gal_unit F hF m g hg 0 (fun _ => rfl)
  refine ⟨u, fun b' => ?_⟩
  have hu : F.unitGal g ((none : Option ℝ).getD F.view.modelMinval / countsOf F.view b') m = .ok u := by
    rw [← h1]
    cases m with
    | some k => exact unitGal_mask F g k _ _
    | none => rw [Option.getD_none, hm rfl, zero_div]
  exact Gal.modelPatch_pixel F.view (F.unitGal g) b' none m u h2 hu

theorem gal_pix (F : Frame B) (hF : F.Sound) (m : Option ModelMask) (g : Made) (b : B) (h : Drawn F (m, .galaxy g b)) (x y : Int) :
    ∃ u : ℝ, ∀ b', pix F x y (m, .galaxy g b') = countsOf F.view b' * u := by
  obtain ⟨u, hu⟩ := gal_patch F hF m g h.1 h.2
  refine ⟨pixel u x y, fun b' => ?_⟩
  obtain ⟨p, h4, _, h6⟩ := hu b'
  have hp : F.patch m (.galaxy g b') = .ok p := h4
  unfold pix
  dsimp only
  rw [hp]
  exact h6 x y

theorem two_pix (F : Frame B) (hF : F.Sound) (m : Option ModelMask) (e d : Made) (be bd : B) (h : Drawn F (m, .two e d be bd)) (x y : Int) :
    pix F x y (m, .two e d be bd) = pix F x y (m, .galaxy e be) + pix F x y (m, .galaxy d bd) := by
  obtain ⟨u, hu⟩ := gal_patch F hF m e h.1.1 h.2
  obtain ⟨w, hw⟩ := gal_patch F hF m d h.1.2 h.2
  obtain ⟨p, h4, h5, -⟩ := hu be
  obtain ⟨p', k4, k5, -⟩ := hw bd
  obtain ⟨r, m1, m2⟩ := Gal.addPatches_pixel p p' h5 k5
  have hr : F.patch m (.two e d be bd) = .ok r := by
    unfold Frame.patch Gal.TwoPart.modelPatch Gal.TwoPart.modelPatches
    dsimp only
    rw [if_neg (by simp), h4]
    dsimp only
    rw [k4]
    exact m1
  have he : F.patch m (.galaxy e be) = .ok p := h4
  have hd : F.patch m (.galaxy d bd) = .ok p' := k4
  unfold pix
  dsimp only
  rw [hr, he, hd]
  exact m2 x y

/-- **The same light**: lists of sources that describe it have the same sum in every pixel. -/
theorem C174_pixel (F : Frame B) (hF : F.Sound) (l l' : List (Option ModelMask × Thing B)) (h : Same F l l') (x y : Int) :
    (l.map (pix F x y)).sum = (l'.map (pix F x y)).sum := by
  induction h with
  | perm h => exact (h.map _).sum_eq
  | symm _ ih => exact ih.symm
  | trans _ _ ih ih' => exact ih.trans ih'
  | beside z _ ih => rw [List.map_cons, List.map_cons, List.sum_cons, List.sum_cons, ih]
  | darkStar m s b hd hc =>
    obtain ⟨u, hu⟩ := star_pix F hF m s b hd x y
    simp [hu, hc]
  | darkGalaxy m g b hd hc =>
    obtain ⟨u, hu⟩ := gal_pix F hF m g b hd x y
    simp [hu, hc]
  | stars m s b b₁ b₂ hd hc =>
    obtain ⟨u, hu⟩ := star_pix F hF m s b hd x y
    simp only [List.map_cons, List.map_nil, List.sum_cons, List.sum_nil, hu, hc]
    ring
  | galaxies m g b b₁ b₂ hd hc =>
    obtain ⟨u, hu⟩ := gal_pix F hF m g b hd x y
    simp only [List.map_cons, List.map_nil, List.sum_cons, List.sum_nil, hu, hc]
    ring
  | composite m e d be bd hd =>
    simp only [List.map_cons, List.map_nil, List.sum_cons, List.sum_nil, two_pix F hF m e d be bd hd]
    ring
  | fixed k g b be bd hd hbe hbd =>
    obtain ⟨r, r', k1, k2, k3⟩ := C172_same g.P hd.1.exp hd.1.dev F hF g rfl b be bd hbe hbd k
    simp only [List.map_cons, List.map_nil, List.sum_cons, List.sum_nil]
    unfold pix
    dsimp only
    rw [k1, k2]
    exact congrArg (· + 0) (k3 x y)

/-- The sources of a list that are drawn in the image, with their masks: not the missing ones, nor those without a mask where masks are expected. -/
inductive Listed (what : Engine.Source ℝ → Engine.Image ℝ → Thing B) (T : Engine.Tractor ℝ ModelMask) (img : Engine.Image ℝ) :
    List (Option (Engine.Source ℝ)) → List (Option ModelMask × Thing B) → Prop
  | nil : Listed what T img [] []
  | missing {l r} : Listed what T img l r → Listed what T img (none :: l) r
  | hidden (src) {l r} : Engine.HasMask T img src none → T.expectModelMasks = true → Listed what T img l r → Listed what T img (some src :: l) r
  | drawn (src mask) {l r} : Engine.HasMask T img src mask → ¬ (T.expectModelMasks = true ∧ mask = none) → Listed what T img l r →
      Listed what T img (some src :: l) ((mask, what src img) :: r)

theorem listed_sum (frame : Engine.Image ℝ → Frame B) (what : Engine.Source ℝ → Engine.Image ℝ → Thing B) (sky : Engine.Image ℝ → Engine.Sky ℝ)
    (T : Engine.Tractor ℝ ModelMask) (img : Engine.Image ℝ) (l : List (Option (Engine.Source ℝ))) (r : List (Option ModelMask × Thing B))
    (h : Listed what T img l r) (ps : List (Option (Patch ℝ))) (hps : Engine.Contributions (sceneWorld frame what sky) T img l ps) (x y : Nat) :
    (ps.map (fun p => Engine.patchAt p x y)).sum = (r.map (pix (frame img) x y)).sum := by
  induction h generalizing ps with
  | nil =>
    obtain rfl := List.forall₂_nil_left_iff.mp hps
    rfl
  | missing _ ih =>
    obtain ⟨p, ps', hp, hps', rfl⟩ := List.forall₂_cons_left_iff.mp hps
    dsimp only at hp
    rw [List.map_cons, List.sum_cons, ih ps' hps', hp]
    exact zero_add _
  | hidden src hm he _ ih =>
    obtain ⟨p, ps', ⟨mask, hm', hp⟩, hps', rfl⟩ := List.forall₂_cons_left_iff.mp hps
    obtain rfl := hm'.unique hm
    rw [if_pos ⟨he, rfl⟩] at hp
    rw [List.map_cons, List.sum_cons, ih ps' hps', hp]
    exact zero_add _
  | drawn src mask hm he _ ih =>
    obtain ⟨p, ps', ⟨mask', hm', hp⟩, hps', rfl⟩ := List.forall₂_cons_left_iff.mp hps
    obtain rfl := hm'.unique hm
    rw [if_neg he] at hp
    rw [List.map_cons, List.sum_cons, ih ps' hps', hp, List.map_cons, List.sum_cons]
    rfl

/-- **Descriptions of the same scene**: two tractors with catalogs that describe the same light have the same model image, and no source raises an exception. -/
theorem C174_image (frame : Engine.Image ℝ → Frame B) (what what' : Engine.Source ℝ → Engine.Image ℝ → Thing B) (sky : Engine.Image ℝ → Engine.Sky ℝ)
    (T T' : Engine.Tractor ℝ ModelMask) (img : Engine.Image ℝ) (hT : Engine.MasksOK T img) (hT' : Engine.MasksOK T' img) (hF : (frame img).Sound)
    (srcs srcs' : Option (List (Option (Engine.Source ℝ)))) (l l' : List (Option ModelMask × Thing B))
    (hl : Listed what T img (srcs.getD (T.catalog.map (·.2))) l) (hl' : Listed what' T' img (srcs'.getD (T'.catalog.map (·.2))) l')
    (hd : ∀ z ∈ l ++ l', Drawn (frame img) z) (hs : Same (frame img) l l') (withSky : Bool) :
    (∀ z ∈ l ++ l', ∃ p, (frame img).patch z.1 z.2 = .ok p) ∧
    ∃ r r', Engine.getModelImage (sceneWorld frame what sky) T img srcs withSky = .ok r ∧
      Engine.getModelImage (sceneWorld frame what' sky) T' img srcs' withSky = .ok r' ∧ r.h = r'.h ∧ r.w = r'.w ∧
      ∀ y x : Nat, y < img.data.h → x < img.data.w → r.px y x = r'.px y x := by
  refine ⟨fun z hz => ?_, ?_⟩
  · obtain ⟨p, hp, -⟩ := thing_shows (frame img) hF z.1 (hd z hz).2 z.2 (hd z hz).1
    exact ⟨p, hp⟩
  obtain ⟨⟨ps, hps⟩, h⟩ := Engine.C29_model_image (sceneWorld frame what sky) T img hT srcs
  obtain ⟨⟨ps', hps'⟩, h'⟩ := Engine.C29_model_image (sceneWorld frame what' sky) T' img hT' srcs'
  obtain ⟨r, h1, h2, h3, h4⟩ := h ps hps withSky
  obtain ⟨r', k1, k2, k3, k4⟩ := h' ps' hps' withSky
  refine ⟨r, r', h1, k1, h2.trans k2.symm, h3.trans k3.symm, fun y x hy hx => ?_⟩
  rw [h4 y x hy hx, k4 y x hy hx, listed_sum frame what sky T img _ l hl ps hps, listed_sum frame what' sky T' img _ l' hl' ps' hps',
    C174_pixel (frame img) hF l l' hs]
  rfl

/-- What relates the two tractors in an image. -/
structure SameScene (frame : Engine.Image ℝ → Frame B) (what what' : Engine.Source ℝ → Engine.Image ℝ → Thing B)
    (T T' : Engine.Tractor ℝ ModelMask) (img : Engine.Image ℝ) (l l' : List (Option ModelMask × Thing B)) : Prop where
  masks : Engine.MasksOK T img
  masks' : Engine.MasksOK T' img
  sound : (frame img).Sound
  errHigh : img.inverr.h = img.data.h
  errWide : img.inverr.w = img.data.w
  listed : Listed what T img (T.catalog.map (·.2)) l
  listed' : Listed what' T' img (T'.catalog.map (·.2)) l'
  drawn : ∀ z ∈ l ++ l', Drawn (frame img) z
  same : Same (frame img) l l'

/-- Two tractors with the same images and catalogs that describe the same light in each of them have the same log-likelihood. -/
theorem C174_likelihood (frame : Engine.Image ℝ → Frame B) (what what' : Engine.Source ℝ → Engine.Image ℝ → Thing B) (sky : Engine.Image ℝ → Engine.Sky ℝ)
    (T T' : Engine.Tractor ℝ ModelMask) (hi : T'.images.map (·.2) = T.images.map (·.2))
    (h : ∀ x ∈ T.images, ∃ l l', SameScene frame what what' T T' x.2 l l') :
    ∃ L, Engine.getLogLikelihood (sceneWorld frame what sky) T = .ok L ∧ Engine.getLogLikelihood (sceneWorld frame what' sky) T' = .ok L := by
  have key : ∀ (l : List (Engine.Image ℝ)) (acc : ℝ), (∀ img ∈ l, ∃ a b, SameScene frame what what' T T' img a b) →
      ∃ L, Engine.chisqLoop (sceneWorld frame what sky) T l acc = .ok L ∧ Engine.chisqLoop (sceneWorld frame what' sky) T' l acc = .ok L := by
    intro l
    induction l with
    | nil => exact fun acc _ => ⟨acc, rfl, rfl⟩
    | cons img l ih =>
      intro acc hl
      obtain ⟨a, b, hs⟩ := hl img (by simp)
      obtain ⟨-, r, r', h1, h2, h3, h4, h5⟩ := C174_image frame what what' sky T T' img hs.masks hs.masks' hs.sound none none a b hs.listed hs.listed' hs.drawn
        hs.same true
      obtain ⟨⟨_, hps⟩, k⟩ := Engine.C29_model_image (sceneWorld frame what sky) T img hs.masks none
      obtain ⟨q, q1, q2, q3, -⟩ := k _ hps true
      obtain rfl := Except.ok.inj (h1.symm.trans q1)
      have c1 : Engine.getChiImage (sceneWorld frame what sky) T img none =
          .ok ⟨img.data.h, img.data.w, fun y x => (img.data.px y x - r.px y x) * img.inverr.px y x⟩ := by
        unfold Engine.getChiImage
        rw [h1]
        exact if_pos ⟨q2.symm, q3.symm, hs.errHigh.symm, hs.errWide.symm⟩
      have c2 : Engine.getChiImage (sceneWorld frame what' sky) T' img none =
          .ok ⟨img.data.h, img.data.w, fun y x => (img.data.px y x - r'.px y x) * img.inverr.px y x⟩ := by
        unfold Engine.getChiImage
        rw [h2]
        exact if_pos ⟨(h3.symm.trans q2).symm, (h4.symm.trans q3).symm, hs.errHigh.symm, hs.errWide.symm⟩
      have e : (⟨img.data.h, img.data.w, fun y x => (img.data.px y x - r.px y x) * img.inverr.px y x⟩ : Arr ℝ).ravel =
          (⟨img.data.h, img.data.w, fun y x => (img.data.px y x - r'.px y x) * img.inverr.px y x⟩ : Arr ℝ).ravel := by
        unfold Arr.ravel
        refine List.flatMap_congr fun y hy => List.map_congr_left fun x hx => ?_
        dsimp only
        rw [h5 y x (List.mem_range.mp hy) (List.mem_range.mp hx)]
      unfold Engine.chisqLoop
      rw [c1, c2]
      dsimp only
      rw [e]
      exact ih _ (fun img hi => hl img (by simp [hi]))
  obtain ⟨L, h1, h2⟩ := key (T.images.map (·.2)) 0 (fun img hm => by
    obtain ⟨x, hx, rfl⟩ := List.mem_map.mp hm
    exact h x hx)
  refine ⟨-(1 / 2) * L, ?_, ?_⟩
  · unfold Engine.getLogLikelihood
    rw [h1]
    rfl
  · unfold Engine.getLogLikelihood
    rw [hi, h2]
    rfl

/-! The image of the examples of C170, with the composite galaxy as two galaxies, the star as two stars, a star without counts, and in another order. -/

noncomputable def exParts (s : Engine.Source ℝ) : Thing ℝ :=
  if s.id = 0 then .star { px := 5, py := 6 } 4 else if s.id = 1 then .galaxy (exMade 2) 4 else if s.id = 2 then .star { px := 5, py := 6 } 6
  else if s.id = 3 then .galaxy (exMade 1) 3 else .star { px := 20, py := 9 } 0

theorem exStar_drawn (s : Star) (h : s.fixedRadius = none ∧ s.minRadius = none) (b : ℝ) : Drawn exFrame (none, .star s b) :=
  ⟨⟨by rw [h.2], 25, by rw [h.1]; rfl, fun h => absurd rfl h⟩, fun _ => rfl⟩

theorem exOrder {α : Type} (a b c d e : α) : [a, b, c, d, e].Perm [c, b, d, a, e] :=
  ((List.perm_append_comm (l₁ := [a]) (l₂ := [b, c, d])).append_right [e]).trans (.swap _ _ _)

noncomputable def exWholes : List (Option ModelMask × Thing ℝ) := [(none, .star { px := 5, py := 6 } 10), (none, .two (exMade 1) (exMade 2) 3 4)]

noncomputable def exPieces : List (Option ModelMask × Thing ℝ) :=
  [(none, .star { px := 5, py := 6 } 4), (none, .galaxy (exMade 2) 4), (none, .star { px := 5, py := 6 } 6), (none, .galaxy (exMade 1) 3),
    (none, .star { px := 20, py := 9 } 0)]

def exList : List (Option (Engine.Source ℝ)) := [some (exSrcs 0), some (exSrcs 1), none, some (exSrcs 2), some (exSrcs 3), some (exSrcs 4)]

theorem exTwo_drawn : Drawn exFrame (none, .two (exMade 1) (exMade 2) 3 4) :=
  ⟨⟨exMade_sound 1 (by norm_num), exMade_sound 2 (by norm_num)⟩, fun _ => rfl⟩

theorem exSame : Same exFrame exWholes exPieces := by
  -- the composite galaxy divided, then the star, then the star without counts added
  refine .trans (.beside _ (.composite none _ _ _ _ exTwo_drawn)) ?_
  refine .trans (.perm (List.perm_append_comm (l₁ := [_]))) ?_
  refine .trans (.beside _ (.beside _ (.stars none _ 10 4 6 (exStar_drawn _ ⟨rfl, rfl⟩ _) ?_))) ?_
  · show (10 : ℝ) = 4 + 6
    norm_num
  refine .trans (.beside _ (.beside _ (.beside _ (.beside _ (.symm (.darkStar none { px := 20, py := 9 } 0 (exStar_drawn _ ⟨rfl, rfl⟩ _) rfl)))))) ?_
  exact .perm (exOrder _ _ _ _ _)

theorem exAll_drawn : ∀ z ∈ exWholes ++ exPieces, Drawn exFrame z := by
  intro z hz
  unfold exWholes exPieces at hz
  simp only [List.cons_append, List.nil_append, List.mem_cons, List.not_mem_nil, or_false] at hz
  rcases hz with rfl | rfl | rfl | rfl | rfl | rfl | rfl
  · exact exStar_drawn _ ⟨rfl, rfl⟩ _
  · exact exTwo_drawn
  · exact exStar_drawn _ ⟨rfl, rfl⟩ _
  · exact ⟨exMade_sound 2 (by norm_num), fun _ => rfl⟩
  · exact exStar_drawn _ ⟨rfl, rfl⟩ _
  · exact ⟨exMade_sound 1 (by norm_num), fun _ => rfl⟩
  · exact exStar_drawn _ ⟨rfl, rfl⟩ _

theorem exWholes_listed : Listed (fun s _ => exWhat s) (exTractor none) exScene ((exTractor none).catalog.map (·.2)) exWholes :=
  .drawn _ none (.nomasks rfl) (by simp [exTractor]) (.missing (.drawn _ none (.nomasks rfl) (by simp [exTractor]) .nil))

theorem exPieces_listed (T : Engine.Tractor ℝ ModelMask) (h : T.modelMasks = none) (he : T.expectModelMasks = false) :
    Listed (fun s _ => exParts s) T exScene exList exPieces := by
  have hm : ∀ src, Engine.HasMask T exScene src none := fun src => .nomasks h
  have he : ¬ (T.expectModelMasks = true ∧ (none : Option ModelMask) = none) := by simp [he]
  exact .drawn _ none (hm _) he (.drawn _ none (hm _) he (.missing (.drawn _ none (hm _) he (.drawn _ none (hm _) he (.drawn _ none (hm _) he .nil)))))

example : ∃ r r', Engine.getModelImage (sceneWorld (fun _ => exFrame) (fun s _ => exWhat s) (fun _ => .constant 2)) (exTractor none) exScene none true = .ok r ∧
    Engine.getModelImage (sceneWorld (fun _ => exFrame) (fun s _ => exParts s) (fun _ => .constant 2)) (exTractor none) exScene (some exList) true = .ok r' ∧
    r.px 6 6 = r'.px 6 6 := by
  obtain ⟨-, r, r', h1, h2, -, -, h3⟩ := C174_image (fun _ => exFrame) (fun s _ => exWhat s) (fun s _ => exParts s) (fun _ => .constant 2)
    (exTractor none) (exTractor none) exScene (fun _ h => by simp [exTractor] at h) (fun _ h => by simp [exTractor] at h) exFrame_sound none
    (some exList) exWholes exPieces exWholes_listed (exPieces_listed _ rfl rfl) exAll_drawn exSame true
  exact ⟨r, r', h1, h2, h3 6 6 (by show 6 < 30; omega) (by show 6 < 40; omega)⟩

example : ∃ L, Engine.getLogLikelihood (sceneWorld (fun _ => exFrame) (fun s _ => exWhat s) (fun _ => .constant 2)) (exTractor none) = .ok L ∧
    Engine.getLogLikelihood (sceneWorld (fun _ => exFrame) (fun s _ => exParts s) (fun _ => .constant 2))
      { exTractor none with catalog := exList.map (fun s => (true, s)) } = .ok L := by
  refine C174_likelihood (fun _ => exFrame) (fun s _ => exWhat s) (fun s _ => exParts s) (fun _ => .constant 2) _ _ rfl (fun x hx => ?_)
  obtain rfl : x = (true, exScene) := by simpa [exTractor] using hx
  exact ⟨exWholes, exPieces, fun _ h => by simp [exTractor] at h, fun _ h => by simp [exTractor] at h, exFrame_sound, rfl, rfl, exWholes_listed,
    exPieces_listed _ rfl rfl, exAll_drawn, exSame⟩

-- in a mask a fixed composite galaxy is the same as two galaxies
example (x y : Int) : pix exFrame x y (some exK, .fixed exBlend 8) =
    pix exFrame x y (some exK, .galaxy exBlend.expPart 6) + pix exFrame x y (some exK, .galaxy exBlend.devPart 2) := by
  have h := C174_pixel exFrame exFrame_sound [(some exK, .fixed exBlend 8)] [(some exK, .galaxy exBlend.expPart 6), (some exK, .galaxy exBlend.devPart 2)]
    (.trans (.fixed exK exBlend 8 6 2 ⟨exBlend_sound, fun h => by cases h⟩ ?_ ?_)
      (.composite _ _ _ _ _ ⟨⟨exBlend_sound.expPart, exBlend_sound.devPart⟩, fun h => by cases h⟩)) x y
  · simpa using h
  · rw [exBlend_frac]
    show (6 : ℝ) = (1 - 1 / 4) * 8
    norm_num
  · rw [exBlend_frac]
    show (2 : ℝ) = 1 / 4 * 8
    norm_num

end Verif.Star
