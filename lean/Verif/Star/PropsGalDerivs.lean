import Verif.Star.GalDerivs
import Verif.Star.PropsSeen
import Verif.Star.PropsDerivs
import Mathlib.Analysis.Calculus.MeanValue

/-!
# C168: derivatives of a galaxy with a PSF of Gaussians
-/

namespace Verif.Star

open Verif Verif.Params
open Verif.Mog (Comp Mix Mat)
open Verif.Gal (ModelMask)
open Verif.Gauss

/-- What arrives in the pixel of a galaxy of this shape at the pixel position `(px, py)`, everything else (the PSF, the matrix of the WCS) as it is at the
position `pos`. -/
noncomputable def GalField.light (f : GalField) (pos : PList ℝ) (shape : Par ℝ) (px py : ℝ) (x y : Int) : ℝ :=
  seen (densityMix (f.mix (f.pix pos).1 (f.pix pos).2)) f.profile (Gal.dot (f.cdinv (f.pix pos).1 (f.pix pos).2) (f.basis shape)) px py x y

/-- The galaxy has an extent. -/
def GalField.Wide (f : GalField) (pos : PList ℝ) (shape : Par ℝ) : Prop :=
  Prof.det (Gal.dot (f.cdinv (f.pix pos).1 (f.pix pos).2) (f.basis shape)) ≠ 0

/-- `exp(-30)` of the light of the profile times the peaks of the PSF. -/
noncomputable def GalField.tol (f : GalField) (pos : PList ℝ) : ℝ :=
  Real.exp (-30) * ((f.profile.map (fun c => |c.amp|)).sum * peaks (f.mix (f.pix pos).1 (f.pix pos).2))

/-- The routines in C, a profile of round Gaussians, a PSF of Gaussians. -/
structure GalField.Sound (f : GalField) (pos : PList ℝ) : Prop where
  value : ∀ m r c, f.E.value m r c = evaluateGrid m 0 0 c r
  masked : ∀ m r c, f.E.valueMasked m r c = (masked m (fun _ _ => true) 0 0 c r).1
  round : ∀ c ∈ f.profile, Round c
  psf : ∀ c ∈ f.mix (f.pix pos).1 (f.pix pos).2, Proper c

/-- The pixel lies in the mask and is set. -/
def OnMask (k : ModelMask) (x y : Int) : Prop :=
  ((k.x0 ≤ x ∧ x < k.x0 + k.w) ∧ (k.y0 ≤ y ∧ y < k.y0 + k.h)) ∧ ∀ set, k.mask = some set → set (y - k.y0).toNat (x - k.x0).toNat = true

/-- The picture of a galaxy in the mask. -/
noncomputable def GalField.picture (f : GalField) (k : ModelMask) (pos : PList ℝ) (shape : Par ℝ) : Pic :=
  shown (some ⟨k.x0, k.y0, some (Gal.mogInMask f.E
    (Mog.convolve ((f.galaxy shape).affine (f.pix pos).1 (f.pix pos).2) (f.mix (f.pix pos).1 (f.pix pos).2)) k)⟩)

theorem render_picture (f : GalField) (k : ModelMask) (force : Bool) (pos : PList ℝ) (shape : Par ℝ) (minval : Option ℝ) :
    f.render k force pos shape minval = some (f.picture k pos shape) := by
  have h : Gal.unitPatch f.E f.S (.gauss f.mix) (f.galaxy shape) ⟨none, force, minval⟩ (f.pix pos).1 (f.pix pos).2 (some k) =
      .ok (some ⟨k.x0, k.y0, some (Gal.mogInMask f.E
        (Mog.convolve ((f.galaxy shape).affine (f.pix pos).1 (f.pix pos).2) (f.mix (f.pix pos).1 (f.pix pos).2)) k)⟩) := by
    unfold Gal.unitPatch
    dsimp only
    exact if_pos rfl
  unfold GalField.render
  rw [h]
  rfl

theorem picture_off (f : GalField) (k : ModelMask) (pos : PList ℝ) (shape : Par ℝ) (x y : Int) (h : ¬ OnMask k x y) :
    f.picture k pos shape x y = 0 := by
  unfold GalField.picture shown
  dsimp only
  generalize Mog.convolve ((f.galaxy shape).affine (f.pix pos).1 (f.pix pos).2) (f.mix (f.pix pos).1 (f.pix pos).2) = M
  by_cases hI : InPatch ⟨k.x0, k.y0, some (Gal.mogInMask f.E M k)⟩ x y
  · rw [if_pos hI]
    have hb : (k.x0 ≤ x ∧ x < k.x0 + k.w) ∧ (k.y0 ≤ y ∧ y < k.y0 + k.h) := hI
    unfold OnMask at h
    unfold Gal.mogInMask
    dsimp only
    cases hk : k.mask with
    | none => exact absurd ⟨hb, fun set hs => by rw [hk] at hs; simp at hs⟩ h
    | some set =>
      dsimp only
      refine if_neg (fun hs => h ⟨hb, fun set' h' => ?_⟩)
      rw [hk] at h'
      obtain rfl := Option.some.inj h'
      exact hs
  · rw [if_neg hI]

theorem picture_on (f : GalField) (k : ModelMask) (pos : PList ℝ) (hf : f.Sound pos) (shape : Par ℝ) (hT : f.Wide pos shape) (x y : Int)
    (h : OnMask k x y) : |f.light pos shape (f.pix pos).1 (f.pix pos).2 x y - f.picture k pos shape x y| ≤ f.tol pos := by
  obtain ⟨q, h1, _, h3⟩ := C167_mask f.E hf.value hf.masked f.S (f.galaxy shape) ⟨none, false, none⟩ f.profile hf.round
    (f.cdinv (f.pix pos).1 (f.pix pos).2) (f.basis shape) hT (f.pix pos).1 (f.pix pos).2 rfl f.mix hf.psf k
  have hr := render_picture f k false pos shape none
  unfold GalField.render at hr
  rw [h1] at hr
  have hq : shown (some q) = f.picture k pos shape := Option.some.inj hr
  obtain ⟨⟨⟨b1, b2⟩, b3, b4⟩, hs⟩ := h
  have := (h3 (y - k.y0).toNat (x - k.x0).toNat (by omega) (by omega)).2 hs
  rw [hq, show k.x0 + ((x - k.x0).toNat : Int) = x by omega, show k.y0 + ((y - k.y0).toNat : Int) = y by omega] at this
  exact this

/-- A galaxy moved by `(s, t)` is seen where it was seen `(s, t)` before. -/
theorem seen_move (psf : ℝ → ℝ → ℝ) (profile : Mix ℝ) (T : Mat ℝ) (px py x y s t : ℝ) :
    seen psf profile T (px + s) (py + t) x y = seen psf profile T px py (x - s) (y - t) := by
  unfold seen seenOf
  have e1 : x - (px + s) = x - s - px := by ring
  have e2 : y - (py + t) = y - t - py := by ring
  have e3 : ∀ a b : ℝ, x - (a + b + (px + s)) = x - s - (a + b + px) := fun a b => by ring
  have e4 : ∀ a b : ℝ, y - (a + b + (py + t)) = y - t - (a + b + py) := fun a b => by ring
  simp only [e1, e2, e3, e4]

theorem seen_diff {profile : Mix ℝ} (hp : ∀ c ∈ profile, Round c) (T : Mat ℝ) (hT : Prof.det T ≠ 0) (m : Mix ℝ) (hm : ∀ b ∈ m, Proper b)
    (px py x y : ℝ) : (∀ u, ∃ D, HasDerivAt (fun u => seen (densityMix m) profile T u py x y) D u) ∧
      ∀ u, ∃ D, HasDerivAt (fun u => seen (densityMix m) profile T px u x y) D u := by
  have e1 : ∀ u, seen (densityMix m) profile T u py x y =
      densityMix (Mog.convolve (Mog.applyAffine profile (px, py) T) m) (x - (u - px)) (y - 0) := by
    intro u
    have := seen_move (densityMix m) profile T px py x y (u - px) 0
    rw [show px + (u - px) = u by ring, add_zero] at this
    rw [this, seen_eq hp T hT m hm]
  have e2 : ∀ u, seen (densityMix m) profile T px u x y =
      densityMix (Mog.convolve (Mog.applyAffine profile (px, py) T) m) (x - 0) (y - (u - py)) := by
    intro u
    have := seen_move (densityMix m) profile T px py x y 0 (u - py)
    rw [show py + (u - py) = u by ring, add_zero] at this
    rw [this, seen_eq hp T hT m hm]
  constructor
  · intro u
    refine ⟨_, (densityMix_curve (Mog.convolve (Mog.applyAffine profile (px, py) T) m) x y (fun u => u - px) (fun _ => 0) 1 0 u ((hasDerivAt_id u).sub_const px) (hasDerivAt_const u 0)).congr_of_eventuallyEq ?_⟩
    exact Filter.Eventually.of_forall e1
  · intro u
    refine ⟨_, (densityMix_curve (Mog.convolve (Mog.applyAffine profile (px, py) T) m) x y (fun _ => 0) (fun u => u - py) 0 1 u (hasDerivAt_const u 0) ((hasDerivAt_id u).sub_const py)).congr_of_eventuallyEq ?_⟩
    exact Filter.Eventually.of_forall e2

/-- A difference quotient over two pixels is a derivative in between. -/
theorem mean_two (g : ℝ → ℝ) (hg : ∀ u, ∃ D, HasDerivAt g D u) (p : ℝ) :
    ∃ s D, -1 < s ∧ s < 1 ∧ HasDerivAt g D (p + s) ∧ (g (p + 1) - g (p - 1)) / 2 = D := by
  choose g' hg' using hg
  obtain ⟨c, ⟨c1, c2⟩, hc⟩ := exists_hasDerivAt_eq_slope g g' (show p - 1 < p + 1 by linarith)
    (fun u _ => (hg' u).continuousAt.continuousWithinAt) (fun u _ => hg' u)
  refine ⟨c - p, g' c, by linarith, by linarith, by rw [show p + (c - p) = c by ring]; exact hg' c, ?_⟩
  rw [hc]
  congr 1
  ring

theorem world_good (f : GalField) (k : ModelMask) : Src.MaskRenders (f.world k) ∧ Src.MaskStable (f.world k) := by
  constructor
  · intro pos shape mv u
    show (f.render k true pos shape mv).isSome = true
    rw [render_picture]
    rfl
  · intro pos shape mv mask p hp
    have hp : f.render k false pos shape mv = some p := hp
    show f.render k true pos shape mv = some p
    rw [render_picture] at hp ⊢
    exact hp

theorem thawed_before (pos : PList ℝ) (j : Nat) (c : Slot ℝ) (hc : pos.slots[j]? = some c) (hl : c.liquid = true) :
    ((pos.slots.take j).filter (·.liquid)).length < numberOfParams (.plist pos) := by
  show _ < countLiquid (flags pos)
  unfold countLiquid flags
  generalize pos.slots = l at hc
  induction l generalizing j with
  | nil => simp at hc
  | cons a l ih =>
    cases j with
    | zero =>
      obtain rfl := Option.some.inj hc
      simp [hl]
    | succ j =>
      have := ih j hc
      cases ha : a.liquid <;> simp_all

/-- **Shape.** `getParamDerivatives` in a mask succeeds, leaves the galaxy as it was and has an entry for each thawed parameter; the entry of a shape parameter
is the difference quotient, for the parameter's step size, of the counts times the light of the galaxy that arrives in each pixel of the mask that is set, up to twice the
tolerance over the step size, and zero in all other pixels. -/
theorem C168_shape (f : GalField) (k : ModelMask) (I : Src.Image ℝ) (s : Src.Galaxy ℝ) (hf : f.Sound s.pos) (hpos : s.pos.slots.length ≤ 2)
    (hps : s.posLiquid = true → Src.GoodSteps (.plist s.pos)) (hb : s.brightLiquid = true → Src.GoodSteps s.bright)
    (hg : s.shapeLiquid = true → Src.GoodSteps s.shape) (hT : f.Wide s.pos s.shape) :
    ∃ ds, Src.galaxyDerivs I (f.world k) (some ()) s = (s, .ok ds) ∧ ds.length = numberOfParams s.tree ∧
      ∀ (j : Nat) (v h : ℝ), s.shapeLiquid = true → (getParams s.shape)[j]? = some v → (getStepSizes s.shape)[j]? = some h →
        f.Wide s.pos (setParam s.shape j (v + h)).1 → ∀ x y,
        (¬ OnMask k x y → entry ds (Src.posCount s.posLiquid s.pos + (if s.brightLiquid then numberOfParams s.bright else 0) + j) x y = 0) ∧
        (OnMask k x y → |entry ds (Src.posCount s.posLiquid s.pos + (if s.brightLiquid then numberOfParams s.bright else 0) + j) x y -
            (I.counts s.bright * f.light s.pos (setParam s.shape j (v + h)).1 (f.pix s.pos).1 (f.pix s.pos).2 x y -
              I.counts s.bright * f.light s.pos s.shape (f.pix s.pos).1 (f.pix s.pos).2 x y) / h| ≤
          |I.counts s.bright / h| * (2 * f.tol s.pos)) := by
  obtain ⟨ds, h1, h2, h3⟩ := Src.C41_galaxy I (f.world k) (world_good f k).1 (world_good f k).2 (some ()) s hpos hps hb hg
  refine ⟨ds, h1, h2, fun j v h hl hv hh hW x y => ?_⟩
  have hGS := hg hl
  have hj : j < numberOfParams s.shape := by
    rw [← hGS.1]
    exact (List.getElem?_eq_some_iff.mp hh).1
  set n := Src.posCount s.posLiquid s.pos + (if s.brightLiquid then numberOfParams s.bright else 0) + j with hn
  have hlen : n < ds.length := by
    rw [h2]
    unfold Src.Galaxy.tree
    rw [numberOfParams, Src.posCount_eq]
    cases hbl : s.brightLiquid <;> simp [numberOfParamsSubs, hl, hn, hbl] <;> omega
  have e0 : ds[n]? = some ds[n] := List.getElem?_eq_getElem hlen
  have hp0 : (f.world k).unit s.pos s.shape (Src.minvalOf I.minsb (I.counts s.bright)) (some ()) = some (f.picture k s.pos s.shape) :=
    render_picture f k false _ _ _
  have key := (h3 _ hp0 n _ e0).2 (by omega)
  have hq : Src.quotient (Src.galaxyModel I (f.world k) (Src.minvalOf I.minsb (I.counts s.bright)) ()) s.tree n =
      h⁻¹ • (I.counts s.bright • f.picture k s.pos (setParam s.shape j (v + h)).1 - I.counts s.bright • f.picture k s.pos s.shape) := by
    have hr : ∀ g, ((f.world k).forced s.pos g (Src.minvalOf I.minsb (I.counts s.bright)) ()).getD 0 = f.picture k s.pos g := by
      intro g
      show (f.render k true s.pos g _).getD 0 = _
      rw [render_picture]
      rfl
    unfold Src.Galaxy.tree
    rw [Src.quotient_multi, hn, Nat.add_assoc, Src.quotient_after_pos _ _ _ _ _ hps, hl]
    have step : ∀ (model : Subs ℝ → Pic), Src.quotientSubs model (.cons ["brightness"] s.brightLiquid s.bright (.cons ["shape"] true s.shape .nil))
        ((if s.brightLiquid then numberOfParams s.bright else 0) + j) =
        Src.quotient (fun g => model (.cons ["brightness"] s.brightLiquid s.bright (.cons ["shape"] true g .nil))) s.shape j := by
      intro model
      cases hbl : s.brightLiquid with
      | false =>
        rw [Src.quotientSubs_frozen, if_neg (by simp), zero_add, Src.quotientSubs_lt _ _ _ _ hGS j hj]
      | true =>
        rw [if_pos rfl, Src.quotientSubs_ge _ _ _ _ (hb hbl), Src.quotientSubs_lt _ _ _ _ hGS j hj]
    rw [step]
    unfold Src.quotient
    rw [hv, hh]
    dsimp only [Src.galaxyModel]
    rw [hr, hr]
  have hent : entry ds n x y = h⁻¹ * (I.counts s.bright * f.picture k s.pos (setParam s.shape j (v + h)).1 x y -
      I.counts s.bright * f.picture k s.pos s.shape x y) := by
    rw [entry_some e0, key]
    have := congrFun (congrFun hq x) y
    exact this
  rw [hent]
  refine ⟨fun ho => by rw [picture_off f k _ _ x y ho, picture_off f k _ _ x y ho]; ring, fun ho => ?_⟩
  have a1 := picture_on f k s.pos hf _ hW x y ho
  have a2 := picture_on f k s.pos hf _ hT x y ho
  generalize f.light s.pos (setParam s.shape j (v + h)).1 (f.pix s.pos).1 (f.pix s.pos).2 x y = L1 at a1 ⊢
  generalize f.light s.pos s.shape (f.pix s.pos).1 (f.pix s.pos).2 x y = L0 at a2 ⊢
  generalize f.picture k s.pos (setParam s.shape j (v + h)).1 x y = P1 at a1 ⊢
  generalize f.picture k s.pos s.shape x y = P0 at a2 ⊢
  have e : h⁻¹ * (I.counts s.bright * P1 - I.counts s.bright * P0) - (I.counts s.bright * L1 - I.counts s.bright * L0) / h =
      I.counts s.bright / h * ((L0 - P0) - (L1 - P1)) := by ring
  rw [e, abs_mul]
  refine mul_le_mul_of_nonneg_left ?_ (abs_nonneg _)
  rw [abs_le] at a1 a2 ⊢
  constructor <;> linarith [a1.1, a1.2, a2.1, a2.2]

/-- **Position.** The entry of a thawed coordinate of the position (number `j` of all coordinates) is zero on the border of the mask's rectangle; in every other pixel all four neighbours of which are
set it is the chain rule of the WCS's matrix, applied to the derivatives by the pixel position of the light that arrives there, these taken with the galaxy
displaced by less than a pixel, up to the tolerance. -/
theorem C168_position (f : GalField) (k : ModelMask) (I : Src.Image ℝ) (s : Src.Galaxy ℝ) (hf : f.Sound s.pos) (hpos : s.pos.slots.length ≤ 2)
    (hps : s.posLiquid = true → Src.GoodSteps (.plist s.pos)) (hb : s.brightLiquid = true → Src.GoodSteps s.bright)
    (hg : s.shapeLiquid = true → Src.GoodSteps s.shape) (hT : f.Wide s.pos s.shape) (hl : s.posLiquid = true) :
    ∃ ds, Src.galaxyDerivs I (f.world k) (some ()) s = (s, .ok ds) ∧ ds.length = numberOfParams s.tree ∧
      ∀ (j : Nat) (c : Slot ℝ), s.pos.slots[j]? = some c → c.liquid = true → ∀ x y,
        (¬ ((k.x0 < x ∧ x + 1 < k.x0 + k.w) ∧ (k.y0 < y ∧ y + 1 < k.y0 + k.h)) →
          entry ds ((s.pos.slots.take j).filter (·.liquid)).length x y = 0) ∧
        (OnMask k (x - 1) y ∧ OnMask k (x + 1) y ∧ OnMask k x (y - 1) ∧ OnMask k x (y + 1) →
          ∃ a b Dx Dy, (-1 < a ∧ a < 1) ∧ (-1 < b ∧ b < 1) ∧
            HasDerivAt (fun u => f.light s.pos s.shape u (f.pix s.pos).2 x y) Dx ((f.pix s.pos).1 + a) ∧
            HasDerivAt (fun u => f.light s.pos s.shape (f.pix s.pos).1 u x y) Dy ((f.pix s.pos).2 + b) ∧
            |entry ds ((s.pos.slots.take j).filter (·.liquid)).length x y -
                I.counts s.bright * ((Src.column (I.cdi s.pos) j).1 * Dx + (Src.column (I.cdi s.pos) j).2 * Dy)| ≤
              |I.counts s.bright| * ((|(Src.column (I.cdi s.pos) j).1| + |(Src.column (I.cdi s.pos) j).2|) * f.tol s.pos)) := by
  obtain ⟨ds, h1, h2, h3⟩ := Src.C41_galaxy I (f.world k) (world_good f k).1 (world_good f k).2 (some ()) s hpos hps hb hg
  refine ⟨ds, h1, h2, fun j c hc hcl x y => ?_⟩
  set n := ((s.pos.slots.take j).filter (·.liquid)).length with hn
  have hnp : n < Src.posCount s.posLiquid s.pos := by
    unfold Src.posCount
    rw [if_pos hl]
    exact thawed_before s.pos j c hc hcl
  have hlen : n < ds.length := by
    rw [h2]
    unfold Src.Galaxy.tree
    rw [numberOfParams, Src.posCount_eq]
    omega
  have e0 : ds[n]? = some ds[n] := List.getElem?_eq_getElem hlen
  have hp0 : (f.world k).unit s.pos s.shape (Src.minvalOf I.minsb (I.counts s.bright)) (some ()) = some (f.picture k s.pos s.shape) :=
    render_picture f k false _ _ _
  have key := (h3 _ hp0 n _ e0).1 hnp j c hc hcl rfl
  have hent : entry ds n x y = I.counts s.bright * ((Src.column (I.cdi s.pos) j).1 * (central k (f.picture k s.pos s.shape)).1 x y +
      (Src.column (I.cdi s.pos) j).2 * (central k (f.picture k s.pos s.shape)).2 x y) := by
    rw [entry_some e0, key]
    rfl
  rw [hent]
  refine ⟨fun ho => ?_, fun ⟨o1, o2, o3, o4⟩ => ?_⟩
  · have hi : ¬ ((k.x0 + 1 ≤ x ∧ x < k.x0 + k.w - 1) ∧ (k.y0 + 1 ≤ y ∧ y < k.y0 + k.h - 1)) := fun h => ho (by omega)
    unfold central
    dsimp only
    rw [if_neg hi, if_neg hi]
    ring
  · have hi : (k.x0 + 1 ≤ x ∧ x < k.x0 + k.w - 1) ∧ (k.y0 + 1 ≤ y ∧ y < k.y0 + k.h - 1) := by
      obtain ⟨o1, _⟩ := o1
      obtain ⟨o2, _⟩ := o2
      obtain ⟨o3, _⟩ := o3
      obtain ⟨o4, _⟩ := o4
      omega
    unfold central
    dsimp only
    rw [if_pos hi, if_pos hi]
    obtain ⟨d1, d2⟩ := seen_diff hf.round _ hT _ hf.psf (f.pix s.pos).1 (f.pix s.pos).2 x y
    obtain ⟨a, Dx, a1, a2, a3, a4⟩ := mean_two _ d1 (f.pix s.pos).1
    obtain ⟨b, Dy, b1, b2, b3, b4⟩ := mean_two _ d2 (f.pix s.pos).2
    refine ⟨a, b, Dx, Dy, ⟨a1, a2⟩, ⟨b1, b2⟩, a3, b3, ?_⟩
    have q1 := picture_on f k s.pos hf _ hT _ _ o1
    have q2 := picture_on f k s.pos hf _ hT _ _ o2
    have q3 := picture_on f k s.pos hf _ hT _ _ o3
    have q4 := picture_on f k s.pos hf _ hT _ _ o4
    unfold GalField.light at q1 q2 q3 q4
    have m1 := seen_move (densityMix (f.mix (f.pix s.pos).1 (f.pix s.pos).2)) f.profile
      (Gal.dot (f.cdinv (f.pix s.pos).1 (f.pix s.pos).2) (f.basis s.shape)) (f.pix s.pos).1 (f.pix s.pos).2 x y
    have m2 := m1 1 0
    have m3 := m1 (-1) 0
    have m4 := m1 0 1
    have m5 := m1 0 (-1)
    simp only [add_zero, sub_zero, sub_neg_eq_add, ← sub_eq_add_neg] at m2 m3 m4 m5
    push_cast at q1 q2 q3 q4
    rw [← m2] at q1
    rw [← m3] at q2
    rw [← m4] at q3
    rw [← m5] at q4
    rw [← a4, ← b4]
    set T := Gal.dot (f.cdinv (f.pix s.pos).1 (f.pix s.pos).2) (f.basis s.shape)
    set psf := densityMix (f.mix (f.pix s.pos).1 (f.pix s.pos).2)
    set X := (f.pix s.pos).1
    set Y := (f.pix s.pos).2
    generalize seen psf f.profile T (X + 1) Y x y = L1 at q1 ⊢
    generalize seen psf f.profile T (X - 1) Y x y = L2 at q2 ⊢
    generalize seen psf f.profile T X (Y + 1) x y = L3 at q3 ⊢
    generalize seen psf f.profile T X (Y - 1) x y = L4 at q4 ⊢
    generalize f.picture k s.pos s.shape (x - 1) y = P1 at q1 ⊢
    generalize f.picture k s.pos s.shape (x + 1) y = P2 at q2 ⊢
    generalize f.picture k s.pos s.shape x (y - 1) = P3 at q3 ⊢
    generalize f.picture k s.pos s.shape x (y + 1) = P4 at q4 ⊢
    generalize (Src.column (I.cdi s.pos) j).1 = u
    generalize (Src.column (I.cdi s.pos) j).2 = w
    rw [← mul_sub, abs_mul]
    refine mul_le_mul_of_nonneg_left ?_ (abs_nonneg _)
    have e : u * ((P1 - P2) / 2) + w * ((P3 - P4) / 2) - (u * ((L1 - L2) / 2) + w * ((L3 - L4) / 2)) =
        u * (((P1 - P2) - (L1 - L2)) / 2) + w * (((P3 - P4) - (L3 - L4)) / 2) := by ring
    rw [e, add_mul]
    refine (abs_add_le _ _).trans (add_le_add ?_ ?_)
    · rw [abs_mul]
      refine mul_le_mul_of_nonneg_left ?_ (abs_nonneg _)
      rw [abs_le] at q1 q2 ⊢
      constructor <;> linarith [q1.1, q1.2, q2.1, q2.2]
    · rw [abs_mul]
      refine mul_le_mul_of_nonneg_left ?_ (abs_nonneg _)
      rw [abs_le] at q3 q4 ⊢
      constructor <;> linarith [q3.1, q3.2, q4.1, q4.2]

/-- A Gaussian galaxy whose shape is one number, its size in pixels, in an image with the PSF of the first example whose pixel positions are the coordinates
themselves. -/
noncomputable def exGal : GalField where
  E := exEnv
  S := ⟨30, 40, fun _ _ => 1⟩
  pix := fun pos => match pos.slots with | [a, b] => (a.val, b.val) | _ => (0, 0)
  cdinv := fun _ _ => ⟨1, 0, 0, 1⟩
  mix := fun _ _ => exPsf.mog
  profile := [⟨1, 0, 0, 1, 0, 0, 1⟩]
  basis := fun shape => ⟨(getParams shape).headD 0, 0, 0, (getParams shape).headD 0⟩
  radius := fun _ => 6
  patchSize := fun _ _ _ => 8

theorem exGal_sound (pos : PList ℝ) : exGal.Sound pos :=
  ⟨fun _ _ _ => rfl, fun _ _ _ => rfl, fun c hc => by
    obtain rfl := List.mem_singleton.mp hc
    unfold Round
    norm_num, exPsf_proper⟩

/-- A galaxy of size 1 at (5, 6) with steps 1/10 (position) and 1/20 (size). -/
noncomputable def exSource : Src.Galaxy ℝ :=
  ⟨true, posAt ⟨[], [], [], [], none, []⟩ ["x"] ["y"] (1 / 10) 5 6, false, .multi .nil, true,
    .plist ⟨[⟨["re"], true, 1⟩], [none], [none], [none], some [1 / 20], []⟩⟩

theorem exSource_pos : Src.GoodSteps (.plist exSource.pos) := posAt_steps _ _ _ _ _ _ (by norm_num)

theorem exSource_shape : Src.GoodSteps exSource.shape := by
  refine ⟨rfl, fun h hh => ?_⟩
  have : h ∈ [(1 / 20 : ℝ)] := hh
  obtain rfl := List.mem_singleton.mp this
  norm_num

theorem exSource_wide : exGal.Wide exSource.pos exSource.shape := by
  show (1 * 1 + 0 * 0 : ℝ) * (0 * 0 + 1 * 1) - (1 * 0 + 0 * 1) * (0 * 1 + 1 * 0) ≠ 0
  norm_num

/-- Ten counts, in a mask of 3 by 3 pixels around the galaxy: the derivative by the size in the pixel (6, 7), and the one by `x` there (on the border) and in the
centre. -/
example : ∃ ds, Src.galaxyDerivs exImage (exGal.world ⟨4, 5, 3, 3, none⟩) (some ()) exSource = (exSource, .ok ds) ∧
    |entry ds 2 6 7 - (10 * exGal.light exSource.pos (setParam exSource.shape 0 (1 + 1 / 20)).1 5 6 6 7 -
      10 * exGal.light exSource.pos exSource.shape 5 6 6 7) / (1 / 20)| ≤ 200 * (2 * exGal.tol exSource.pos) ∧
    entry ds 0 6 7 = 0 ∧
    ∃ a Dx, (-1 < a ∧ a < 1) ∧ HasDerivAt (fun u => exGal.light exSource.pos exSource.shape u 6 5 6) Dx (5 + a) ∧
      |entry ds 0 5 6 - 10 * Dx| ≤ 10 * exGal.tol exSource.pos := by
  have on : ∀ x y : Int, (4 ≤ x ∧ x < 7) ∧ (5 ≤ y ∧ y < 8) → OnMask ⟨4, 5, 3, 3, none⟩ x y := by
    intro x y h
    refine ⟨?_, fun set hs => by simp at hs⟩
    dsimp only
    omega
  obtain ⟨ds, h1, _, h3⟩ := C168_shape exGal ⟨4, 5, 3, 3, none⟩ exImage exSource (exGal_sound _) (by show 2 ≤ 2; omega) (fun _ => exSource_pos)
    (fun h => by simp [exSource] at h) (fun _ => exSource_shape) exSource_wide
  obtain ⟨ds', k1, _, k3⟩ := C168_position exGal ⟨4, 5, 3, 3, none⟩ exImage exSource (exGal_sound _) (by show 2 ≤ 2; omega) (fun _ => exSource_pos)
    (fun h => by simp [exSource] at h) (fun _ => exSource_shape) exSource_wide rfl
  have e : ds' = ds := by
    have := (Prod.mk.inj (k1.symm.trans h1)).2
    exact Except.ok.inj this
  subst e
  refine ⟨ds', h1, ?_, ?_, ?_⟩
  · have hW : exGal.Wide exSource.pos (setParam exSource.shape 0 (1 + 1 / 20)).1 := by
      show (1 * (1 + 1 / 20) + 0 * 0 : ℝ) * (0 * 0 + 1 * (1 + 1 / 20)) - (1 * 0 + 0 * (1 + 1 / 20)) * (0 * (1 + 1 / 20) + 1 * 0) ≠ 0
      norm_num
    have h := (h3 0 1 (1 / 20) rfl rfl rfl hW 6 7).2 (on 6 7 (by omega))
    have e : |exImage.counts exSource.bright / (1 / 20)| = 200 := by
      show |(10 : ℝ) / (1 / 20)| = 200
      norm_num
    rw [e] at h
    exact h
  · exact (k3 0 _ rfl rfl 6 7).1 (by dsimp only; omega)
  · obtain ⟨a, b, Dx, Dy, ha, _, hx, _, h⟩ := (k3 0 _ rfl rfl 5 6).2 ⟨on _ _ (by omega), on _ _ (by omega), on _ _ (by omega), on _ _ (by omega)⟩
    refine ⟨a, Dx, ha, hx, ?_⟩
    have h : |entry ds' 0 5 6 - 10 * (1 * Dx + 0 * Dy)| ≤ |(10 : ℝ)| * ((|(1 : ℝ)| + |(0 : ℝ)|) * exGal.tol exSource.pos) := h
    rw [one_mul, zero_mul, add_zero, abs_one, abs_zero, add_zero, one_mul, abs_of_pos (show (0 : ℝ) < 10 by norm_num)] at h
    exact h

/-- **False next to pixels that are not set**: in a mask whose first column is not set, the derivative by `x` in the centre of the galaxy, where the light that arrives
has a maximum, is far from zero: `-5 exp(-1/4) / (4 π)` for ten counts. -/
theorem C168_mask_false :
    ∃ ds, Src.galaxyDerivs exImage (exGal.world ⟨4, 5, 3, 3, some (fun _ j => j != 0)⟩) (some ()) exSource = (exSource, .ok ds) ∧
      HasDerivAt (fun u => exImage.counts exSource.bright * exGal.light exSource.pos exSource.shape u 6 5 6) 0 5 ∧
      entry ds 0 5 6 = -(5 * (Real.exp (-(1 / 4)) / (4 * Real.pi))) := by
  set k : ModelMask := ⟨4, 5, 3, 3, some (fun _ j => j != 0)⟩ with hk
  obtain ⟨ds, h1, h2, h3⟩ := Src.C41_galaxy exImage (exGal.world k) (world_good exGal k).1 (world_good exGal k).2 (some ()) exSource
    (by show 2 ≤ 2; omega) (fun _ => exSource_pos) (fun h => by simp [exSource] at h) (fun _ => exSource_shape)
  have hM : Mog.convolve (Mog.applyAffine exGal.profile (5, 6) (Gal.dot ⟨1, 0, 0, 1⟩ ⟨1, 0, 0, 1⟩)) exPsf.mog = [⟨1, 5, 6, 2, 0, 0, 2⟩] := by
    simp [exGal, exPsf, Mog.convolve, Mog.convolveOne, Mog.applyAffine, Mog.sandwich, Gal.dot]
    norm_num
  refine ⟨ds, h1, ?_, ?_⟩
  · have e : ∀ u : ℝ, exGal.light exSource.pos exSource.shape u 6 5 6 = densityMix [⟨1, 5, 6, 2, 0, 0, 2⟩] (5 - (u - 5)) (6 - 0) := by
      intro u
      have hm := seen_move (densityMix exPsf.mog) exGal.profile (Gal.dot ⟨1, 0, 0, 1⟩ ⟨1, 0, 0, 1⟩) 5 6 5 6 (u - 5) 0
      rw [show (5 : ℝ) + (u - 5) = u by ring, add_zero] at hm
      have hs := seen_eq (exGal_sound exSource.pos).round (Gal.dot ⟨1, 0, 0, 1⟩ ⟨1, 0, 0, 1⟩) exSource_wide exPsf.mog exPsf_proper 5 6 (5 - (u - 5)) (6 - 0)
      rw [hM] at hs
      rw [← hs, ← hm]
      show seen _ _ _ _ _ (((5 : Int)) : ℝ) ((6 : Int) : ℝ) = _
      norm_num
      rfl
    simp_rw [e]
    refine ((densityMix_curve [⟨1, 5, 6, 2, 0, 0, 2⟩] 5 6 (fun u => u - 5) (fun _ => 0) 1 0 5 ((hasDerivAt_id _).sub_const 5)
      (hasDerivAt_const _ _)).const_mul (10 : ℝ)).congr_deriv ?_
    simp [slopeX, density, distSq]
  · have hlen : 0 < ds.length := by
      rw [h2]
      show 0 < 3
      omega
    have e0 : ds[0]? = some ds[0] := List.getElem?_eq_getElem hlen
    have key := (h3 _ (render_picture exGal k false exSource.pos exSource.shape (Src.minvalOf exImage.minsb (exImage.counts exSource.bright))) 0 _ e0).1 (by show 0 < 2; omega) 0 _ rfl rfl rfl
    rw [entry_some e0, key]
    show (10 : ℝ) * (1 * (central k (exGal.picture k exSource.pos exSource.shape)).1 5 6 + 0 * (central k (exGal.picture k exSource.pos exSource.shape)).2 5 6) = _
    unfold central
    dsimp only
    rw [if_pos (by rw [hk]; dsimp only; omega), picture_off exGal k _ _ (5 - 1) 6 (fun h => by simpa [hk] using h.2 _ rfl)]
    have hp : exGal.picture k exSource.pos exSource.shape (5 + 1) 6 = Real.exp (-(1 / 4)) / (4 * Real.pi) := by
      have e : exGal.picture k exSource.pos exSource.shape (5 + 1) 6 = (masked (Mog.convolve (Mog.applyAffine exGal.profile (5, 6) (Gal.dot ⟨1, 0, 0, 1⟩ ⟨1, 0, 0, 1⟩)) exPsf.mog)
          (fun _ _ => true) 0 0 6 6).1 := by
        unfold GalField.picture shown
        dsimp only
        refine (if_pos ?_).trans rfl
        show (4 ≤ 5 + 1 ∧ 5 + 1 < (4 : Int) + 3) ∧ (5 ≤ 6 ∧ 6 < (5 : Int) + 3)
        omega
      rw [e, hM, masked_kept (by simp [Proper]), if_pos rfl]
      have hd : distSq ⟨1, 5, 6, 2, 0, 0, 2⟩ (((6 : Int) : ℝ) - 0) (((6 : Int) : ℝ) - 0) = 1 / 2 := by
        unfold distSq
        norm_num
      have hs : Real.sqrt (2 * 2 - 0 ^ 2) = 2 := by
        rw [show (2 : ℝ) * 2 - 0 ^ 2 = 2 ^ 2 by norm_num]
        exact Real.sqrt_sq (by norm_num)
      rw [kept_cons, if_pos (by rw [hd]; norm_num), show kept _ [] _ _ = 0 from rfl, add_zero]
      unfold density
      rw [hd]
      dsimp only
      rw [hs, show -(1 / 2 : ℝ) / 2 = -(1 / 4) by norm_num]
      ring
    rw [hp]
    ring

end Verif.Star
