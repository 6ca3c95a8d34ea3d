import Verif.Star.PropsMixed

/-!
# C173: what model masks change in a model image
-/

namespace Verif.Star

open Verif.Gal (ModelMask pixel countsOf)
open Verif.Gauss

variable {B : Type}

/-- The pixel is within the radius of the star, or within the half size of the galaxy, of its centre, along both axes. -/
def Reaches (F : Frame B) (x y : Int) : Thing B → Prop
  | .star s _ => ∀ r, s.fixedRadius.or F.psf.radius = some r → Near s.px s.py r x y
  | .galaxy g _ => Near g.px g.py (g.patchSize g.px g.py) x y
  | .two e d _ _ => Near e.px e.py (e.patchSize e.px e.py) x y ∧ Near d.px d.py (d.patchSize d.px d.py) x y
  | .fixed g _ => Near g.px g.py (g.s.patchSize g.P Real.exp g.pixscale g.psfRadius) x y

theorem shows_free {F : Frame B} {t : Thing B} (hd : CanDraw F none t) {x y : Int} {v : ℝ} (h : Shows F none t x y v) (hn : Reaches F x y t) :
    |v - t.light F x y| ≤ t.tol F := by
  have key : ∀ {near : Prop} {L tol v : ℝ}, near → Part none near L tol x y v → |v - L| ≤ tol := by
    intro near L tol v hn h
    rcases h with h | ⟨-, h⟩
    · rw [abs_sub_comm]
      exact h
    · exact absurd hn h
  cases t with
  | star s b =>
    obtain ⟨-, r, hr, -⟩ := hd
    exact key (hn r hr) (h r hr)
  | galaxy g b => exact key (near := Near g.px g.py (g.patchSize g.px g.py) x y) hn h
  | fixed g b => exact key (near := Near g.px g.py (g.s.patchSize g.P Real.exp g.pixscale g.psfRadius) x y) hn h
  | two e d be bd =>
    obtain ⟨ve, vd, rfl, he, hd'⟩ := h
    have h1 := key hn.1 he
    have h2 := key hn.2 hd'
    unfold Thing.light Thing.tol
    rw [abs_le] at h1 h2 ⊢
    constructor <;> linarith [h1.1, h1.2, h2.1, h2.2]

/-- What can be drawn in a mask can be drawn without. -/
theorem CanDraw.free {F : Frame B} {mask : Option ModelMask} {t : Thing B} (h : CanDraw F mask t) : CanDraw F none t := by
  cases t with
  | star s b =>
    obtain ⟨h1, r, h2, -⟩ := h
    exact ⟨h1, r, h2, fun h => absurd rfl h⟩
  | galaxy g b => exact h
  | two e d be bd => exact h
  | fixed g b => exact h

/-- **Without model masks** a pixel that all sources reach is the sky plus the light of all sources. -/
theorem C173_free (frame : Engine.Image ℝ → Frame B) (what : Engine.Source ℝ → Engine.Image ℝ → Thing B) (sky : Engine.Image ℝ → Engine.Sky ℝ)
    (T : Engine.Tractor ℝ ModelMask) (hT : T.modelMasks = none) (hE : T.expectModelMasks = false) (img : Engine.Image ℝ) (hF : (frame img).Sound)
    (hmin : (frame img).view.modelMinval = 0)
    (hH : (frame img).S.H = img.data.h) (hW : (frame img).S.W = img.data.w) (srcs : Option (List (Option (Engine.Source ℝ))))
    (hd : ∀ src, some src ∈ srcs.getD (T.catalog.map (·.2)) → CanDraw (frame img) none (what src img)) :
    ∃ r, Engine.getModelImage (sceneWorld frame what sky) T img srcs true = .ok r ∧ r.h = img.data.h ∧ r.w = img.data.w ∧
      ∀ y x : Nat, y < img.data.h → x < img.data.w →
        (∀ src, some src ∈ srcs.getD (T.catalog.map (·.2)) → Reaches (frame img) x y (what src img)) →
        |r.px y x - ((sky img).at x y + (((srcs.getD (T.catalog.map (·.2))).filterMap id).map (fun src => (what src img).light (frame img) x y)).sum)| ≤
          (((srcs.getD (T.catalog.map (·.2))).filterMap id).map (fun src => (what src img).tol (frame img))).sum := by
  obtain ⟨-, r, h1, h2, h3, h4⟩ := C170_image frame what sky T img (fun _ h => by rw [hT] at h; simp at h) hF hH hW srcs (fun src hs mask hm _ => by
    obtain rfl := hm.unique (.nomasks hT)
    exact ⟨hd src hs, fun _ => hmin⟩) true
  refine ⟨r, h1, h2, h3, fun y x hy hx hn => ?_⟩
  obtain ⟨vs, hv, hr⟩ := h4 y x hy hx
  rw [hr, if_pos rfl, add_sub_add_left_eq_sub]
  unfold AllShow at hv
  clear h1 h4 hr
  generalize srcs.getD (T.catalog.map (·.2)) = l at hd hv hn
  induction hv with
  | nil => simp
  | @cons s v l vs hsv _ ih =>
    have ih := ih (fun src hs => hd src (List.mem_cons_of_mem _ hs)) (fun src hs => hn src (List.mem_cons_of_mem _ hs))
    cases s with
    | none =>
      dsimp only at hsv
      rw [hsv, List.sum_cons, zero_add]
      exact ih
    | some src =>
      obtain ⟨mask, hm, hs⟩ := hsv
      obtain rfl := hm.unique (.nomasks hT)
      rcases hs with ⟨⟨h, -⟩, -⟩ | ⟨-, hs⟩
      · rw [hE] at h
        simp at h
      have h := shows_free (hd src List.mem_cons_self) hs (hn src List.mem_cons_self)
      rw [show (some src :: l).filterMap id = src :: l.filterMap id from rfl, List.map_cons, List.map_cons, List.sum_cons, List.sum_cons, List.sum_cons]
      rw [abs_le] at h ih ⊢
      constructor <;> linarith [h.1, h.2, ih.1, ih.2]

/-- The tractor without masks: `modelMasks = None`, `expectModelMasks = False`. -/
def unmasked (T : Engine.Tractor ℝ ModelMask) : Engine.Tractor ℝ ModelMask := { T with modelMasks := none, expectModelMasks := false }

open Classical in
/-- **What masks take away**: in a pixel that all sources reach, the model image with masks is the one without masks, less the light of the sources whose mask the
pixel is not set in, up to twice the tolerance. -/
theorem C173_masks (frame : Engine.Image ℝ → Frame B) (what : Engine.Source ℝ → Engine.Image ℝ → Thing B) (sky : Engine.Image ℝ → Engine.Sky ℝ)
    (T : Engine.Tractor ℝ ModelMask) (img : Engine.Image ℝ) (hT : Engine.MasksOK T img) (hF : (frame img).Sound) (hmin : (frame img).view.modelMinval = 0)
    (hH : (frame img).S.H = img.data.h) (hW : (frame img).S.W = img.data.w) (srcs : Option (List (Option (Engine.Source ℝ))))
    (k : Engine.Source ℝ → ModelMask) (hk : ∀ src, some src ∈ srcs.getD (T.catalog.map (·.2)) → Engine.HasMask T img src (some (k src)))
    (hd : ∀ src, some src ∈ srcs.getD (T.catalog.map (·.2)) → CanDraw (frame img) (some (k src)) (what src img)) :
    ∃ r r', Engine.getModelImage (sceneWorld frame what sky) T img srcs true = .ok r ∧
      Engine.getModelImage (sceneWorld frame what sky) (unmasked T) img srcs true = .ok r' ∧ r.h = r'.h ∧ r.w = r'.w ∧
      ∀ y x : Nat, y < img.data.h → x < img.data.w →
        (∀ src, some src ∈ srcs.getD (T.catalog.map (·.2)) → Reaches (frame img) x y (what src img)) →
        |r.px y x - (r'.px y x - (((srcs.getD (T.catalog.map (·.2))).filterMap id).map
            (fun src => if OnMask (k src) x y then 0 else (what src img).light (frame img) x y)).sum)| ≤
          2 * (((srcs.getD (T.catalog.map (·.2))).filterMap id).map (fun src => (what src img).tol (frame img))).sum := by
  obtain ⟨r, h1, h2, h3, h4⟩ := C170_masks frame what sky T img hT hF hH hW srcs k hk hd
  obtain ⟨r', k1, k2, k3, k4⟩ := C173_free frame what sky (unmasked T) rfl rfl img hF hmin hH hW srcs (fun src hs => (hd src hs).free)
  refine ⟨r, r', h1, k1, h2.trans k2.symm, h3.trans k3.symm, fun y x hy hx hn => ?_⟩
  have a := h4 y x hy hx
  have b := k4 y x hy hx hn
  have b : |r'.px y x - ((sky img).at x y + (((srcs.getD (T.catalog.map (·.2))).filterMap id).map (fun src => (what src img).light (frame img) x y)).sum)| ≤
      (((srcs.getD (T.catalog.map (·.2))).filterMap id).map (fun src => (what src img).tol (frame img))).sum := b
  generalize (srcs.getD (T.catalog.map (·.2))).filterMap id = l at a b ⊢
  have e : (l.map (fun src => (what src img).light (frame img) x y)).sum =
      (l.map (fun src => if OnMask (k src) x y then (what src img).light (frame img) x y else 0)).sum +
      (l.map (fun src => if OnMask (k src) x y then 0 else (what src img).light (frame img) x y)).sum := by
    clear a b
    induction l with
    | nil => simp
    | cons s l ih =>
      rw [List.map_cons, List.map_cons, List.map_cons, List.sum_cons, List.sum_cons, List.sum_cons, ih]
      by_cases ho : OnMask (k s) x y
      · rw [if_pos ho, if_pos ho]
        ring
      · rw [if_neg ho, if_neg ho]
        ring
  rw [e] at b
  rw [abs_le] at a b ⊢
  constructor <;> linarith [a.1, a.2, b.1, b.2]

/-- In a pixel that is in the masks of all sources, masks make no difference but twice the tolerance. -/
theorem C173_same (frame : Engine.Image ℝ → Frame B) (what : Engine.Source ℝ → Engine.Image ℝ → Thing B) (sky : Engine.Image ℝ → Engine.Sky ℝ)
    (T : Engine.Tractor ℝ ModelMask) (img : Engine.Image ℝ) (hT : Engine.MasksOK T img) (hF : (frame img).Sound) (hmin : (frame img).view.modelMinval = 0)
    (hH : (frame img).S.H = img.data.h) (hW : (frame img).S.W = img.data.w) (srcs : Option (List (Option (Engine.Source ℝ))))
    (k : Engine.Source ℝ → ModelMask) (hk : ∀ src, some src ∈ srcs.getD (T.catalog.map (·.2)) → Engine.HasMask T img src (some (k src)))
    (hd : ∀ src, some src ∈ srcs.getD (T.catalog.map (·.2)) → CanDraw (frame img) (some (k src)) (what src img)) :
    ∃ r r', Engine.getModelImage (sceneWorld frame what sky) T img srcs true = .ok r ∧
      Engine.getModelImage (sceneWorld frame what sky) (unmasked T) img srcs true = .ok r' ∧
      ∀ y x : Nat, y < img.data.h → x < img.data.w →
        (∀ src, some src ∈ srcs.getD (T.catalog.map (·.2)) → Reaches (frame img) x y (what src img) ∧ OnMask (k src) x y) →
        |r.px y x - r'.px y x| ≤ 2 * (((srcs.getD (T.catalog.map (·.2))).filterMap id).map (fun src => (what src img).tol (frame img))).sum := by
  classical
  obtain ⟨r, r', h1, h2, -, -, h3⟩ := C173_masks frame what sky T img hT hF hmin hH hW srcs k hk hd
  refine ⟨r, r', h1, h2, fun y x hy hx hn => ?_⟩
  have h := h3 y x hy hx (fun src hs => (hn src hs).1)
  have e : (((srcs.getD (T.catalog.map (·.2))).filterMap id).map
      (fun src => if OnMask (k src) x y then 0 else (what src img).light (frame img) x y)).sum = 0 := by
    refine List.sum_eq_zero (fun z hz => ?_)
    obtain ⟨src, hs, rfl⟩ := List.mem_map.mp hz
    obtain ⟨o, ho, rfl⟩ := List.mem_filterMap.mp hs
    exact if_pos (hn src ho).2
  have h' : |r.px y x - (r'.px y x - 0)| ≤ 2 * (((srcs.getD (T.catalog.map (·.2))).filterMap id).map (fun src => (what src img).tol (frame img))).sum := by
    rw [← e]
    convert h using 6
  rw [sub_zero] at h'
  exact h'

/-! The image of the examples of C170 with a fixed composite galaxy for the second source: the same pixel with and without masks. -/

noncomputable def exWhat' (s : Engine.Source ℝ) : Thing ℝ := if s.id = 0 then .star { px := 5, py := 6 } 10 else .fixed exBlend 8

example : ∃ r r', Engine.getModelImage (sceneWorld (fun _ => exFrame) (fun s _ => exWhat' s) (fun _ => .constant 2))
      (exTractor (some [[(0, exK), (1, exK)]])) exScene none true = .ok r ∧
    Engine.getModelImage (sceneWorld (fun _ => exFrame) (fun s _ => exWhat' s) (fun _ => .constant 2)) (exTractor none) exScene none true = .ok r' ∧
    |r.px 6 6 - r'.px 6 6| ≤ 2 * (10 * starTol exPsf + 8 * exBlend.tol exPsf) := by
  have hT : Engine.MasksOK (exTractor (some [[(0, exK), (1, exK)]])) exScene := by
    intro masks h
    cases h
    exact ⟨rfl, (true, exScene), by simp [exTractor], rfl⟩
  have hk : ∀ i : Nat, i = 0 ∨ i = 1 → Engine.HasMask (exTractor (some [[(0, exK), (1, exK)]])) exScene (exSrcs i) (some exK) := by
    rintro i (rfl | rfl)
    · exact .entry _ rfl 0 true exScene rfl rfl (fun j _ h => absurd h (Nat.not_lt_zero j)) _ rfl [] [(1, exK)] exK (by simp) rfl
    · exact .entry _ rfl 0 true exScene rfl rfl (fun j _ h => absurd h (Nat.not_lt_zero j)) _ rfl [(0, exK)] [] exK (by simp [exSrcs]) rfl
  have hs : ∀ src, some src ∈ (exTractor (some [[(0, exK), (1, exK)]])).catalog.map (·.2) → src = exSrcs 0 ∨ src = exSrcs 1 := by
    intro src h
    simpa [exTractor] using h
  obtain ⟨r, r', h1, h2, h3⟩ := C173_same (fun _ => exFrame) (fun s _ => exWhat' s) (fun _ => .constant 2) _ exScene hT exFrame_sound rfl rfl rfl none
    (fun _ => exK) (fun src h => by rcases hs src h with rfl | rfl <;> exact hk _ (by simp)) (fun src h => by
      rcases hs src h with rfl | rfl
      · exact ⟨rfl, 25, rfl, fun _ => by norm_num [exFrame]⟩
      · exact exBlend_sound)
  refine ⟨r, r', h1, h2, ?_⟩
  have h := h3 6 6 (by show 6 < 30; omega) (by show 6 < 40; omega) (fun src hsrc => by
    refine ⟨?_, by unfold exK; dsimp only; omega, fun set hs => by simp [exK] at hs⟩
    have n5 : Near 5 6 25 ((6 : Nat) : Int) ((6 : Nat) : Int) := by unfold Near; norm_num
    have n7 : Near 7 6 8 ((6 : Nat) : Int) ((6 : Nat) : Int) := by unfold Near; norm_num
    rcases hs src hsrc with rfl | rfl
    · intro r hr
      obtain rfl : (25 : ℝ) = r := Option.some.inj hr
      exact n5
    · exact n7)
  have ht : (Thing.star { px := 5, py := 6 } 10 : Thing ℝ).tol exFrame + ((Thing.fixed exBlend 8 : Thing ℝ).tol exFrame + 0) =
      10 * starTol exPsf + 8 * exBlend.tol exPsf := by
    show |(10 : ℝ)| * starTol exPsf + (|(8 : ℝ)| * exBlend.tol exPsf + 0) = _
    rw [abs_of_pos (by norm_num), abs_of_pos (by norm_num), add_zero]
  rw [← ht]
  exact h

-- outside the masks, but in reach of both sources, the light of both is taken away
example : ∃ r r', Engine.getModelImage (sceneWorld (fun _ => exFrame) (fun s _ => exWhat' s) (fun _ => .constant 2))
      (exTractor (some [[(0, exK), (1, exK)]])) exScene none true = .ok r ∧
    Engine.getModelImage (sceneWorld (fun _ => exFrame) (fun s _ => exWhat' s) (fun _ => .constant 2)) (exTractor none) exScene none true = .ok r' ∧
    |r.px 6 9 - (r'.px 6 9 - (10 * starLight exPsf { px := 5, py := 6 } 9 6 + 8 * exBlend.light exPsf 9 6))| ≤
      2 * (10 * starTol exPsf + 8 * exBlend.tol exPsf) := by
  have hT : Engine.MasksOK (exTractor (some [[(0, exK), (1, exK)]])) exScene := by
    intro masks h
    cases h
    exact ⟨rfl, (true, exScene), by simp [exTractor], rfl⟩
  have hk : ∀ i : Nat, i = 0 ∨ i = 1 → Engine.HasMask (exTractor (some [[(0, exK), (1, exK)]])) exScene (exSrcs i) (some exK) := by
    rintro i (rfl | rfl)
    · exact .entry _ rfl 0 true exScene rfl rfl (fun j _ h => absurd h (Nat.not_lt_zero j)) _ rfl [] [(1, exK)] exK (by simp) rfl
    · exact .entry _ rfl 0 true exScene rfl rfl (fun j _ h => absurd h (Nat.not_lt_zero j)) _ rfl [(0, exK)] [] exK (by simp [exSrcs]) rfl
  have hs : ∀ src, some src ∈ (exTractor (some [[(0, exK), (1, exK)]])).catalog.map (·.2) → src = exSrcs 0 ∨ src = exSrcs 1 := by
    intro src h
    simpa [exTractor] using h
  obtain ⟨r, r', h1, h2, -, -, h3⟩ := C173_masks (fun _ => exFrame) (fun s _ => exWhat' s) (fun _ => .constant 2) _ exScene hT exFrame_sound rfl rfl rfl none
    (fun _ => exK) (fun src h => by rcases hs src h with rfl | rfl <;> exact hk _ (by simp)) (fun src h => by
      rcases hs src h with rfl | rfl
      · exact ⟨rfl, 25, rfl, fun _ => by norm_num [exFrame]⟩
      · exact exBlend_sound)
  refine ⟨r, r', h1, h2, ?_⟩
  have h := h3 6 9 (by show 6 < 30; omega) (by show 9 < 40; omega) (fun src hsrc => by
    have n5 : Near 5 6 25 ((9 : Nat) : Int) ((6 : Nat) : Int) := by unfold Near; norm_num
    have n7 : Near 7 6 8 ((9 : Nat) : Int) ((6 : Nat) : Int) := by unfold Near; norm_num
    rcases hs src hsrc with rfl | rfl
    · intro r hr
      obtain rfl : (25 : ℝ) = r := Option.some.inj hr
      exact n5
    · exact n7)
  have ho : ¬ OnMask exK ((9 : Nat) : Int) ((6 : Nat) : Int) := by
    rintro ⟨h, -⟩
    unfold exK at h
    dsimp only at h
    omega
  have e : ((none : Option (List (Option (Engine.Source ℝ)))).getD ((exTractor (some [[(0, exK), (1, exK)]])).catalog.map (·.2))).filterMap id =
      [exSrcs 0, exSrcs 1] := rfl
  rw [e] at h
  simp only [List.map_cons, List.map_nil, List.sum_cons, List.sum_nil] at h
  rw [if_neg ho, if_neg ho, add_zero] at h
  have ht : (Thing.star { px := 5, py := 6 } 10 : Thing ℝ).tol exFrame + ((Thing.fixed exBlend 8 : Thing ℝ).tol exFrame + 0) =
      10 * starTol exPsf + 8 * exBlend.tol exPsf := by
    show |(10 : ℝ)| * starTol exPsf + (|(8 : ℝ)| * exBlend.tol exPsf + 0) = _
    rw [abs_of_pos (by norm_num), abs_of_pos (by norm_num), add_zero]
  rw [← ht]
  exact h

-- without masks: the sky and the light of both
example : ∃ r, Engine.getModelImage (sceneWorld (fun _ => exFrame) (fun s _ => exWhat' s) (fun _ => .constant 2)) (exTractor none) exScene none true = .ok r ∧
    |r.px 6 9 - (2 + (10 * starLight exPsf { px := 5, py := 6 } 9 6 + (8 * exBlend.light exPsf 9 6 + 0)))| ≤
      10 * starTol exPsf + 8 * exBlend.tol exPsf := by
  have hs : ∀ src, some src ∈ (exTractor none).catalog.map (·.2) → src = exSrcs 0 ∨ src = exSrcs 1 := by
    intro src h
    simpa [exTractor] using h
  obtain ⟨r, h1, -, -, h3⟩ := C173_free (fun _ => exFrame) (fun s _ => exWhat' s) (fun _ => .constant 2) (exTractor none) rfl rfl exScene exFrame_sound rfl rfl rfl
    none (fun src h => by
      rcases hs src h with rfl | rfl
      · exact ⟨rfl, 25, rfl, fun h => absurd rfl h⟩
      · exact exBlend_sound)
  refine ⟨r, h1, ?_⟩
  have h := h3 6 9 (by show 6 < 30; omega) (by show 9 < 40; omega) (fun src hsrc => by
    have n5 : Near 5 6 25 ((9 : Nat) : Int) ((6 : Nat) : Int) := by unfold Near; norm_num
    have n7 : Near 7 6 8 ((9 : Nat) : Int) ((6 : Nat) : Int) := by unfold Near; norm_num
    rcases hs src hsrc with rfl | rfl
    · intro r hr
      obtain rfl : (25 : ℝ) = r := Option.some.inj hr
      exact n5
    · exact n7)
  have ht : (Thing.star { px := 5, py := 6 } 10 : Thing ℝ).tol exFrame + ((Thing.fixed exBlend 8 : Thing ℝ).tol exFrame + 0) =
      10 * starTol exPsf + 8 * exBlend.tol exPsf := by
    show |(10 : ℝ)| * starTol exPsf + (|(8 : ℝ)| * exBlend.tol exPsf + 0) = _
    rw [abs_of_pos (by norm_num), abs_of_pos (by norm_num), add_zero]
  rw [← ht]
  exact h

end Verif.Star
