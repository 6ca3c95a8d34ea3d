import Verif.Fpfit.Recover2

/-!
# C148: forced photometry recovers the true fluxes

Spec: if the pixels of the images are, on average over any noise, those of the model with the true fluxes (and sky levels), the fluxes (and sky
levels) found by `forced_photometry` are on average the true ones; without noise they are the true ones.
-/

namespace Verif.Fpfit

open Verif Patches Forced Linmod Finset

variable {R M : Type} [Field R] [LinearOrder R]

/-- The fluxes (and, if the sky is fitted, the sky levels) can be told from the pixels with non-zero inverse error of the model images. -/
def Identifiable (minsb : R) (sky : Bool) (tims : List (Tim R M)) (cat : List (Source R)) : Prop :=
  ∀ q q' : St R, q.flux.length = numParams cat → q.sky.length = tims.length → q'.flux.length = numParams cat → q'.sky.length = tims.length →
    (∀ (i y x : Nat) (t : Tim R M), tims[i]? = some t → y < t.data.h → x < t.data.w → t.ie.px y x ≠ 0 →
      pixel minsb (after sky tims cat q) i y x = pixel minsb (after sky tims cat q') i y x) →
    q.flux = q'.flux ∧ (sky = true → q.sky = q'.sky)

omit [LinearOrder R] in
theorem theta_of (n N : Nat) (θ : Nat → R) (b : Bool) (k : Nat) (hk : k < n + N) :
    theta n ⟨(List.range n).map θ, (List.range N).map (fun i => θ (n + i)), b⟩ k = θ k := by
  unfold theta
  by_cases h : k < n
  · rw [if_pos h, List.getD, List.getElem?_map, List.getElem?_range h]; rfl
  · rw [if_neg h, List.getD, List.getElem?_map, List.getElem?_range (by omega)]
    simp only [Option.map_some, Option.getD_some]
    congr 1; omega

/-- The mean of the parameters of several fits. -/
def meanOf {κ : Type} (J : Finset κ) (ω : κ → R) (n N : Nat) (S : κ → St R) : St R :=
  ⟨(List.range n).map (fun k => ∑ j ∈ J, ω j * (S j).flux.getD k 0), (List.range N).map (fun i => ∑ j ∈ J, ω j * (S j).sky.getD i 0), true⟩

/-- The mean of the most likely parameters gives the model of the mean of the data. -/
theorem recover_core [IsStrictOrderedRing R] {κ : Type} (minsb : R) (sky : Bool) (tims : List (Tim R M)) (cat : List (Source R))
    (hr : ∀ t ∈ tims, Ready minsb cat t) (hs : ∀ t ∈ tims, t.ie.h = t.data.h ∧ t.ie.w = t.data.w)
    (J : Finset κ) (ω : κ → R) (hω : ∑ j ∈ J, ω j = 1) (D : κ → Nat → Nat → Nat → R) (S : κ → St R) (q : St R)
    (hq : q.flux.length = numParams cat) (hl : q.sky.length = tims.length)
    (hB : ∀ j ∈ J, Best minsb sky (withPixels tims (D j)) cat (S j))
    (hd : ∀ (i y x : Nat) (t : Tim R M), tims[i]? = some t → y < t.data.h → x < t.data.w → t.ie.px y x ≠ 0 →
      ∑ j ∈ J, ω j * D j i y x = pixel minsb (after sky tims cat q) i y x) :
    ∀ (i y x : Nat) (t : Tim R M), tims[i]? = some t → y < t.data.h → x < t.data.w → t.ie.px y x ≠ 0 →
      pixel minsb (after sky tims cat (meanOf J ω (numParams cat) tims.length S)) i y x = pixel minsb (after sky tims cat q) i y x := by
  obtain ⟨w, c, A, hw, _, _, hall⟩ := logLike_sum minsb sky tims cat hr hs
  have hmean := resid_mean (pixels tims) (range (numParams cat + tims.length)) w c A J ω hω (fun j π => D j π.1 π.2.1 π.2.2)
    (fun j => theta (numParams cat) (S j)) (theta (numParams cat) q) (fun j hj θ' => by
      obtain ⟨f1, f2, L', f3, f4⟩ := hB j hj
      rw [withPixels_length] at f2 f4
      obtain ⟨L, g1, g2⟩ := f4 ⟨(List.range (numParams cat)).map θ', (List.range tims.length).map (fun i => θ' (numParams cat + i)), true⟩ (by simp) (by simp)
      rw [(hall _ f1 f2).2] at f3
      rw [(hall _ (by simp) (by simp)).2] at g1
      injection f3 with f3
      injection g1 with g1
      rw [← f3, ← g1] at g2
      have e : ∀ π, resid (range (numParams cat + tims.length)) w (fun π => D j π.1 π.2.1 π.2.2) c A
          (theta (numParams cat) ⟨(List.range (numParams cat)).map θ', (List.range tims.length).map (fun i => θ' (numParams cat + i)), true⟩) π =
          resid (range (numParams cat + tims.length)) w (fun π => D j π.1 π.2.1 π.2.2) c A θ' π := by
        intro π
        unfold resid
        rw [sum_congr rfl (fun k hk => by rw [theta_of _ _ _ _ _ (mem_range.1 hk)])]
      simp only [e] at g2
      linarith) (by
      rintro ⟨i, y, x⟩ hπ hne
      obtain ⟨t, ht, hy, hx⟩ := (mem_pixels tims i y x).1 hπ
      rw [hw i y x t ht] at hne
      rw [← (hall q hq hl).1 i y x t ht hy hx]
      exact hd i y x t ht hy hx hne)
  intro i y x t ht hy hx hne
  rw [(hall q hq hl).1 i y x t ht hy hx, (hall (meanOf J ω (numParams cat) tims.length S) (by simp [meanOf]) (by simp [meanOf])).1 i y x t ht hy hx]
  have := hmean ⟨i, y, x⟩ ((mem_pixels tims i y x).2 ⟨t, ht, hy, hx⟩) (by rw [hw i y x t ht]; exact hne)
  rw [← this]
  congr 1
  refine sum_congr rfl (fun k hk => ?_)
  have hk := mem_range.1 hk
  have e : meanOf J ω (numParams cat) tims.length S = ⟨(List.range (numParams cat)).map (fun k => ∑ j ∈ J, ω j * theta (numParams cat) (S j) k),
      (List.range tims.length).map (fun i => ∑ j ∈ J, ω j * theta (numParams cat) (S j) (numParams cat + i)), true⟩ := by
    unfold meanOf
    congr 1
    · refine List.map_congr_left (fun k hk => sum_congr rfl (fun j _ => ?_))
      unfold theta
      rw [if_pos (List.mem_range.1 hk)]
    · refine List.map_congr_left (fun i _ => sum_congr rfl (fun j _ => ?_))
      unfold theta
      rw [if_neg (by omega), Nat.add_sub_cancel_left]
  rw [e, theta_of _ _ (fun k => ∑ j ∈ J, ω j * theta (numParams cat) (S j) k) _ _ hk]

theorem withPixels_suits {minsb : R} {tims : List (Tim R M)} {cat : List (Source R)} (d : Nat → Nat → Nat → R) (ht : ∀ t ∈ tims, Suits minsb cat t) :
    ∀ t ∈ withPixels tims d, Suits minsb cat t := by
  intro t' h
  obtain ⟨i, t, hm, rfl⟩ := withPixels_mem h
  exact ⟨(ht t hm).band, (ht t hm).mask, (ht t hm).cut⟩

/-- **C148.** Images of one field with any finite family of noises: `D j` are the pixels with noise `j`, which has the probability `ω j` (any weights
of sum one).  If the mean of the noisy pixels is the model with the true fluxes `q` wherever the inverse error is not zero, and the fluxes can be told
from the pixels, the mean of the fluxes found by forced photometry is the true fluxes; with `sky=True` also that of the sky levels.  The conditions on
the fit are those of C138. -/
theorem C148_unbiased [IsStrictOrderedRing R] (sqrt : R → R) (hsq : Lsq.SqrtOK sqrt) (tiny : R) (lsqr : Lsq.Problem R → List R) (hls : Lsq.Solves lsqr)
    (c : Cfg R) (minsb : R) (tims : List (Tim R M)) (cat : List (Source R)) (fuel : Nat)
    (ht : ∀ t ∈ tims, Suits minsb cat t) (hs : ∀ t ∈ tims, t.ie.h = t.data.h ∧ t.ie.w = t.data.w) (hw : ∀ t ∈ tims, t.data.w * t.data.h < 2 ^ 31)
    (hm : c.minFlux = none) (hpr : c.priors = false) (hro : c.rois = false) (hj : c.justims0 = false) (hda : c.damp = 0)
    {κ : Type} (J : Finset κ) (ω : κ → R) (hω : ∑ j ∈ J, ω j = 1) (D : κ → Nat → Nat → Nat → R) (shared : Option (List Nat))
    (hsh : shared = none ∨ ∀ j ∈ J, ∃ st : Lsq.Store R, shared = some (Lsq.sharedMap st).1 ∧
      st.cells.length = (derivs minsb c.sky (withPixels tims (D j)) cat).length ∧ st.cells.Nodup ∧ Seen (withPixels tims (D j))
        (((derivs minsb c.sky (withPixels tims (D j)) cat)[(derivs minsb c.sky (withPixels tims (D j)) cat).length - 1]?).getD []))
    (q : St R) (hq : q.flux.length = numParams cat) (hl : q.sky.length = tims.length)
    (hd : ∀ (i y x : Nat) (t : Tim R M), tims[i]? = some t → y < t.data.h → x < t.data.w → t.ie.px y x ≠ 0 →
      ∑ j ∈ J, ω j * D j i y x = pixel minsb (after c.sky tims cat q) i y x)
    (hid : Identifiable minsb c.sky tims cat) :
    ∃ r : κ → Option (List R), (∀ j ∈ J, firstDir sqrt tiny lsqr minsb c.sky (withPixels tims (D j)) cat shared = .ok (r j)) ∧
      ∀ dir : κ → Nat → St R → R → Option (List R), (∀ j ∈ J, dir j 0 (start (withPixels tims (D j)) cat) 0 = r j) →
        ∃ S : κ → St R, (∀ j ∈ J, forced c (objective minsb c.sky (withPixels tims (D j)) cat) (dir j) (fuel + 1) (start (withPixels tims (D j)) cat) =
            (S j, some (.ok ()))) ∧
          (∀ k < numParams cat, ∑ j ∈ J, ω j * (S j).flux.getD k 0 = q.flux.getD k 0) ∧
          (c.sky = true → ∀ i < tims.length, ∑ j ∈ J, ω j * (S j).sky.getD i 0 = q.sky.getD i 0) := by
  classical
  have each := fun (j : κ) (hjJ : j ∈ J) => C138_best_partial sqrt hsq tiny lsqr hls c minsb (withPixels tims (D j)) cat fuel (withPixels_suits (D j) ht)
    (fun t' h => by obtain ⟨i, t, h1, rfl⟩ := withPixels_mem h; exact hs t h1) (fun t' h => by obtain ⟨i, t, h1, rfl⟩ := withPixels_mem h; exact hw t h1)
    hm hpr hro hj hda shared (by
      rcases hsh with h | h
      · exact .inl h
      · exact .inr (h j hjJ))
  choose r hr1 hr2 using each
  refine ⟨fun j => if h : j ∈ J then r j h else none, fun j h => by beta_reduce; rw [dif_pos h]; exact hr1 j h, fun dir hdir => ?_⟩
  have each2 := fun (j : κ) (h : j ∈ J) => hr2 j h (dir j) (by rw [hdir j h]; beta_reduce; rw [dif_pos h])
  choose S hS1 hS2 using each2
  have eS : ∀ j (h : j ∈ J), (if h : j ∈ J then S j h else start tims cat) = S j h := fun j h => by rw [dif_pos h]
  refine ⟨fun j => if h : j ∈ J then S j h else start tims cat, fun j h => by beta_reduce; rw [eS j h]; exact hS1 j h, ?_⟩
  have core := recover_core minsb c.sky tims cat (fun t h => (ht t h).ready) hs J ω hω D (fun j => if h : j ∈ J then S j h else start tims cat) q hq hl
    (fun j h => by beta_reduce; rw [eS j h]; exact hS2 j h) hd
  obtain ⟨e1, e2⟩ := hid _ q (by simp [meanOf]) (by simp [meanOf]) hq hl core
  constructor
  · intro k hk
    rw [← e1]
    unfold meanOf
    rw [List.getD, List.getElem?_map, List.getElem?_range hk]
    rfl
  · intro hsky i hi
    rw [← e2 hsky]
    unfold meanOf
    rw [List.getD, List.getElem?_map, List.getElem?_range hi]
    rfl

/-! An image of two pixels with a star and a sky, with noise of two kinds. -/

/-- A flux of 10 and a sky level of 1 give pixels of 21 and 1. -/
def exNoise (j : Bool) (_ y x : Nat) : ℚ := if y = 0 then (if x = 0 then (if j then 24 else 18) else (if j then 0 else 2)) else 0

theorem exIdent : Identifiable 0 true [exTimS] [⟨0, true, [exB 7 1]⟩] := by
  obtain ⟨c, h⟩ := modelImage_affine exTimS.W exTimS.img 0 [⟨0, true, [exB 7 1]⟩] (exSuits exTimS (List.mem_singleton.2 rfl)).ready
  obtain ⟨g, hg⟩ : ∃ g : Nat → Nat → Nat → ℚ, g = fun k (y x : Nat) => exTimS.img.scale * valAt x y ((umods exTimS.W exTimS.img 0 [⟨0, true, [exB 7 1]⟩]).getD k none) := ⟨_, rfl⟩
  have val : ∀ (f v : ℚ) (x : Nat), x < 2 → pixel 0 (after true [exTimS] [⟨0, true, [exB 7 1]⟩] ⟨[f], [v], true⟩) 0 0 x = c 0 x + v + f * g 0 0 x := by
    intro f v x hx
    obtain ⟨B, b1, _, _, b2⟩ := h [f] v rfl
    have e : pixel 0 (after true [exTimS] [⟨0, true, [exB 7 1]⟩] ⟨[f], [v], true⟩) 0 0 x = B.px 0 x := by
      have b1' : modelImage (Tim.W { exTimS with sky := v }) (Tim.img { exTimS with sky := v }) 0 true (setParams [⟨0, true, [exB 7 1]⟩] [f]) = .ok B := b1
      have e0 : (after true [exTimS] [⟨0, true, [exB 7 1]⟩] ⟨[f], [v], true⟩).1[0]? = some { exTimS with sky := v } := rfl
      have e1 : (after true [exTimS] [⟨0, true, [exB 7 1]⟩] ⟨[f], [v], true⟩).2 = setParams [⟨0, true, [exB 7 1]⟩] [f] := rfl
      unfold pixel
      rw [e0, e1]
      dsimp only
      dsimp only at b1'
      rw [b1']
    rw [e, b2 0 x (by decide) hx]
    congr 1
    change ∑ k ∈ range 1, _ = _
    rw [sum_range_one, hg]; rfl
  have v1 := val 0 0 0 (by decide)
  have v2 := val 1 0 0 (by decide)
  have v3 := val 0 0 1 (by decide)
  have v4 := val 1 0 1 (by decide)
  rw [show pixel 0 (after true [exTimS] [⟨0, true, [exB 7 1]⟩] ⟨[0], [0], true⟩) 0 0 0 = 0 by decide +kernel] at v1
  rw [show pixel 0 (after true [exTimS] [⟨0, true, [exB 7 1]⟩] ⟨[1], [0], true⟩) 0 0 0 = 2 by decide +kernel] at v2
  rw [show pixel 0 (after true [exTimS] [⟨0, true, [exB 7 1]⟩] ⟨[0], [0], true⟩) 0 0 1 = 0 by decide +kernel] at v3
  rw [show pixel 0 (after true [exTimS] [⟨0, true, [exB 7 1]⟩] ⟨[1], [0], true⟩) 0 0 1 = 0 by decide +kernel] at v4
  rintro ⟨p, l, b⟩ ⟨p', l', b'⟩ h1 h2 h3 h4 hpx
  obtain ⟨f, rfl⟩ := List.length_eq_one_iff.1 (show p.length = 1 from h1)
  obtain ⟨v, rfl⟩ := List.length_eq_one_iff.1 (show l.length = 1 from h2)
  obtain ⟨f', rfl⟩ := List.length_eq_one_iff.1 (show p'.length = 1 from h3)
  obtain ⟨v', rfl⟩ := List.length_eq_one_iff.1 (show l'.length = 1 from h4)
  have x0 : pixel 0 (after true [exTimS] [⟨0, true, [exB 7 1]⟩] ⟨[f], [v], true⟩) 0 0 0 =
      pixel 0 (after true [exTimS] [⟨0, true, [exB 7 1]⟩] ⟨[f'], [v'], true⟩) 0 0 0 := hpx 0 0 0 exTimS rfl (by decide) (by decide) (by decide +kernel)
  have x1 : pixel 0 (after true [exTimS] [⟨0, true, [exB 7 1]⟩] ⟨[f], [v], true⟩) 0 0 1 =
      pixel 0 (after true [exTimS] [⟨0, true, [exB 7 1]⟩] ⟨[f'], [v'], true⟩) 0 0 1 := hpx 0 0 1 exTimS rfl (by decide) (by decide) (by decide +kernel)
  rw [val f v 0 (by decide), val f' v' 0 (by decide)] at x0
  rw [val f v 1 (by decide), val f' v' 1 (by decide)] at x1
  have e1 : v = v' := by
    have : g 0 0 1 = 0 := by linarith
    rw [this] at x1
    linarith
  have e2 : f = f' := by
    have : g 0 0 0 = 2 := by linarith
    rw [this] at x0
    linarith
  exact ⟨by rw [e2], fun _ => by rw [e1]⟩

/-- The two fits do not find the truth, but their mean is the truth. -/
example : ∃ (lsqr : Lsq.Problem ℚ → List ℚ) (S : Bool → St ℚ) (r : Bool → Option (List ℚ)),
    (∀ j, firstDir id 0 lsqr 0 true (withPixels [exTimS] (exNoise j)) [⟨0, true, [exB 7 1]⟩] none = .ok (r j)) ∧
    (∀ j, forced exCfgS (objective 0 true (withPixels [exTimS] (exNoise j)) [⟨0, true, [exB 7 1]⟩]) (fun _ _ _ => r j) 1
      (start (withPixels [exTimS] (exNoise j)) [⟨0, true, [exB 7 1]⟩]) = (S j, some (.ok ()))) ∧
    ((S true).flux.getD 0 0 + (S false).flux.getD 0 0) / 2 = 10 ∧ ((S true).sky.getD 0 0 + (S false).sky.getD 0 0) / 2 = 1 := by
  obtain ⟨lsqr, hl⟩ := Lsq.solver_exists (R := ℚ)
  obtain ⟨r, h1, h2⟩ := C148_unbiased id (fun x hx => hx) 0 lsqr hl exCfgS 0 [exTimS] [⟨0, true, [exB 7 1]⟩] 0 exSuits
    (by simp [exTimS, exTim1, Arr.ofLists]) (by simp [exTimS, exTim1, Arr.ofLists]) rfl rfl rfl rfl rfl
    (univ : Finset Bool) (fun _ => 1 / 2) (by rw [Fintype.sum_bool]; norm_num) exNoise none (.inl rfl) ⟨[10], [1], true⟩ rfl rfl (by
      intro i y x t ht hy hx _
      cases i with
      | succ i => simp at ht
      | zero =>
        injection ht with ht
        subst ht
        have hy : y < 1 := hy
        have hx : x < 2 := hx
        have : y = 0 := by omega
        subst this
        rw [Fintype.sum_bool]
        obtain rfl | rfl : x = 0 ∨ x = 1 := by omega
        · decide +kernel
        · decide +kernel) exIdent
  obtain ⟨S, g1, g2, g3⟩ := h2 (fun j _ _ _ => r j) (fun _ _ => rfl)
  have f := g2 0 (by decide)
  have k := g3 rfl 0 (by decide)
  rw [Fintype.sum_bool] at f k
  refine ⟨lsqr, S, r, fun j => h1 j (mem_univ _), fun j => g1 j (mem_univ _), ?_, ?_⟩
  · have f : 1 / 2 * (S true).flux.getD 0 0 + 1 / 2 * (S false).flux.getD 0 0 = 10 := f
    linarith
  · have k : 1 / 2 * (S true).sky.getD 0 0 + 1 / 2 * (S false).sky.getD 0 0 = 1 := k
    linarith

/-- **C148.** Without noise the model with the fluxes (and sky levels) that forced photometry finds is the image, wherever the inverse error is not zero,
even if several fluxes give that image; if only one does, the true fluxes are found. -/
theorem C148_exact [IsStrictOrderedRing R] (sqrt : R → R) (hsq : Lsq.SqrtOK sqrt) (tiny : R) (lsqr : Lsq.Problem R → List R) (hls : Lsq.Solves lsqr)
    (c : Cfg R) (minsb : R) (tims : List (Tim R M)) (cat : List (Source R)) (fuel : Nat)
    (ht : ∀ t ∈ tims, Suits minsb cat t) (hs : ∀ t ∈ tims, t.ie.h = t.data.h ∧ t.ie.w = t.data.w) (hw : ∀ t ∈ tims, t.data.w * t.data.h < 2 ^ 31)
    (hm : c.minFlux = none) (hpr : c.priors = false) (hro : c.rois = false) (hj : c.justims0 = false) (hda : c.damp = 0)
    (shared : Option (List Nat))
    (hsh : shared = none ∨ ∃ st : Lsq.Store R, shared = some (Lsq.sharedMap st).1 ∧ st.cells.length = (derivs minsb c.sky tims cat).length ∧
      st.cells.Nodup ∧ Seen tims (((derivs minsb c.sky tims cat)[(derivs minsb c.sky tims cat).length - 1]?).getD []))
    (q : St R) (hq : q.flux.length = numParams cat) (hl : q.sky.length = tims.length)
    (hd : ∀ (i y x : Nat) (t : Tim R M), tims[i]? = some t → y < t.data.h → x < t.data.w → t.ie.px y x ≠ 0 →
      t.data.px y x = pixel minsb (after c.sky tims cat q) i y x) :
    ∃ r, firstDir sqrt tiny lsqr minsb c.sky tims cat shared = .ok r ∧
      ∀ dir : Nat → St R → R → Option (List R), dir 0 (start tims cat) 0 = r →
        ∃ s', forced c (objective minsb c.sky tims cat) dir (fuel + 1) (start tims cat) = (s', some (.ok ())) ∧
          (∀ (i y x : Nat) (t : Tim R M), tims[i]? = some t → y < t.data.h → x < t.data.w → t.ie.px y x ≠ 0 →
            pixel minsb (after c.sky tims cat s') i y x = t.data.px y x) ∧
          (Identifiable minsb c.sky tims cat → s'.flux = q.flux ∧ (c.sky = true → s'.sky = q.sky)) := by
  obtain ⟨r, h1, h2⟩ := C138_best_partial sqrt hsq tiny lsqr hls c minsb tims cat fuel ht hs hw hm hpr hro hj hda shared hsh
  refine ⟨r, h1, fun dir hdir => ?_⟩
  obtain ⟨s', f1, f2⟩ := h2 dir hdir
  obtain ⟨d, hdd⟩ : ∃ d : Nat → Nat → Nat → R, d = fun i y x => ((tims[i]?).map (fun t => t.data.px y x)).getD 0 := ⟨_, rfl⟩
  have eT : withPixels tims d = tims := by
    refine List.ext_getElem? (fun i => ?_)
    rw [withPixels_get]
    cases hi : tims[i]? with
    | none => rfl
    | some t =>
      have : d i = t.data.px := by
        rw [hdd]; funext y x; dsimp only; rw [hi]; rfl
      rw [Option.map_some, this]
  have ed : ∀ (i y x : Nat) (t : Tim R M), tims[i]? = some t → d i y x = t.data.px y x := by
    intro i y x t hi
    rw [hdd]; dsimp only; rw [hi]; rfl
  have core := recover_core minsb c.sky tims cat (fun t h => (ht t h).ready) hs ({()} : Finset Unit) (fun _ => 1) (by simp) (fun _ => d) (fun _ => s') q hq hl
    (fun _ _ => by rw [eT]; exact f2) (fun i y x t hi hy hx hne => by rw [sum_singleton, one_mul, ed i y x t hi]; exact hd i y x t hi hy hx hne)
  have em : after c.sky tims cat (meanOf ({()} : Finset Unit) (fun _ => 1) (numParams cat) tims.length (fun _ => s')) = after c.sky tims cat s' := by
    have getD_range : ∀ (l : List R) (n : Nat), l.length = n → (List.range n).map (fun k => l.getD k 0) = l := by
      intro l n hn
      subst hn
      refine List.ext_getElem (by simp) (fun k a b => ?_)
      rw [List.getElem_map, List.getElem_range, List.getD, List.getElem?_eq_getElem b]
      rfl
    unfold meanOf after
    simp only [sum_singleton, one_mul]
    rw [getD_range _ _ f2.1, getD_range _ _ f2.2.1]
  rw [em] at core
  refine ⟨s', f1, fun i y x t hi hy hx hne => ?_, fun hid => hid s' q f2.1 f2.2.1 hq hl core⟩
  rw [core i y x t hi hy hx hne]
  exact (hd i y x t hi hy hx hne).symm

example : ∃ (lsqr : Lsq.Problem ℚ → List ℚ) (r : Option (List ℚ)), firstDir id 0 lsqr 0 true [exTimS] [⟨0, true, [exB 7 1]⟩] none = .ok r ∧
    ∃ b, forced exCfgS (objective 0 true [exTimS] [⟨0, true, [exB 7 1]⟩]) (fun _ _ _ => r) 1 (start [exTimS] [⟨0, true, [exB 7 1]⟩]) =
      (⟨[10], [1], b⟩, some (.ok ())) := by
  obtain ⟨lsqr, hl⟩ := Lsq.solver_exists (R := ℚ)
  obtain ⟨r, h1, h2⟩ := C148_exact id (fun x hx => hx) 0 lsqr hl exCfgS 0 [exTimS] [⟨0, true, [exB 7 1]⟩] 0 exSuits
    (by simp [exTimS, exTim1, Arr.ofLists]) (by simp [exTimS, exTim1, Arr.ofLists]) rfl rfl rfl rfl rfl none (.inl rfl) ⟨[10], [1], true⟩ rfl rfl (by
      intro i y x t ht hy hx _
      cases i with
      | succ i => simp at ht
      | zero =>
        injection ht with ht
        subst ht
        have hy : y < 1 := hy
        have hx : x < 2 := hx
        have : y = 0 := by omega
        subst this
        obtain rfl | rfl : x = 0 ∨ x = 1 := by omega
        · decide +kernel
        · decide +kernel)
  obtain ⟨⟨p, l, b⟩, g1, _, g2⟩ := h2 (fun _ _ _ => r) rfl
  obtain ⟨e1, e2⟩ := g2 exIdent
  have e3 : p = [10] := e1
  have e4 : l = [1] := e2 rfl
  subst e3 e4
  exact ⟨lsqr, r, h1, b, g1⟩

/-- One pixel with one star, whose true flux is zero. -/
def exTimZ : Tim ℚ Unit := ⟨Arr.ofLists [[0]] 1, Arr.ofLists [[1]] 1, "r", 1, 0, 0, ⟨fun _ _ _ _ => some ⟨0, 0, some (Arr.ofLists [[1]] 1)⟩, fun _ => none, false⟩⟩

/-- **C148 (negation).** With a minimum flux the mean of the fluxes is not the true flux: a star of flux 0, in images where the noise is 1 or -1 with
the same probability, starting from its true flux, with the steps to the most likely flux.  Without a minimum the fluxes are 1 and -1, with
`minFlux=0` they are 1 and 0. -/
theorem C148_min_flux_false : ∃ (c : Cfg ℚ) (tims : List (Tim ℚ Unit)) (cat : List (Source ℚ)) (D : Bool → Nat → Nat → Nat → ℚ)
    (dir : Bool → Nat → St ℚ → ℚ → Option (List ℚ)), c.minFlux = none ∧ getParams cat = [0] ∧
    (∀ i y x, 1 / 2 * D true i y x + 1 / 2 * D false i y x = 0) ∧ pixel 0 (tims, cat) 0 0 0 = 0 ∧
    ((forced c (objective 0 c.sky (withPixels tims (D true)) cat) (dir true) 1 (start (withPixels tims (D true)) cat)).1.flux = [1] ∧
      (forced c (objective 0 c.sky (withPixels tims (D false)) cat) (dir false) 1 (start (withPixels tims (D false)) cat)).1.flux = [-1]) ∧
    (forced { c with minFlux := some 0 } (objective 0 c.sky (withPixels tims (D true)) cat) (dir true) 1 (start (withPixels tims (D true)) cat)).1.flux = [1] ∧
      (forced { c with minFlux := some 0 } (objective 0 c.sky (withPixels tims (D false)) cat) (dir false) 1 (start (withPixels tims (D false)) cat)).1.flux = [0] :=
  ⟨exCfg0, [exTimZ], [⟨0, true, [exB 7 0]⟩], fun j _ _ _ => if j then 1 else -1, fun j _ _ _ => some [if j then 1 else -1], rfl, by decide +kernel,
    fun _ _ _ => by norm_num, by decide +kernel, ⟨by decide +kernel, by decide +kernel⟩, by decide +kernel, by decide +kernel⟩

end Verif.Fpfit
