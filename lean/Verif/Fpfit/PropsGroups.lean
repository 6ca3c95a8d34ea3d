import Verif.Fpfit.Groups
import Verif.Fpfit.PropsRecover

/-!
# C150: sources that share no pixels can be fitted apart

Spec: what `forced_photometry` finds for some of the sources does not depend on whether the sources that share no pixels with them are fitted along,
frozen or not in the catalog at all.
-/

namespace Verif.Fpfit

open Verif Patches Forced Linmod Finset

variable {R M : Type} [Field R] [LinearOrder R]

/-- The sources that are kept share no pixels with the others: a pixel with non-zero inverse error is not changed by the fluxes of those that are kept,
or the others, whatever their fluxes, leave it at the sky level. -/
def Apart (minsb : R) (tims : List (Tim R M)) (cat : List (Source R)) (keep : Nat → Bool) : Prop :=
  ∀ (i y x : Nat) (t : Tim R M), tims[i]? = some t → y < t.data.h → x < t.data.w → t.ie.px y x ≠ 0 →
    (∀ p p' : List R, p.length = numParams (part keep cat) → p'.length = numParams (part keep cat) →
      pixel minsb (tims, setParams (part keep cat) p) i y x = pixel minsb (tims, setParams (part keep cat) p') i y x) ∨
    ∀ p : List R, p.length = numParams (part (fun n => !keep n) cat) →
      pixel minsb (tims, setParams (part (fun n => !keep n) cat) p) i y x = t.sky

/-- The pixel values of the images. -/
def dataOf (tims : List (Tim R M)) (i y x : Nat) : R :=
  match tims[i]? with
  | none => 0
  | some t => t.data.px y x

omit [LinearOrder R] in
theorem withPixels_self (tims : List (Tim R M)) : withPixels tims (dataOf tims) = tims := by
  apply List.ext_getElem?
  intro i
  rw [withPixels_get]
  unfold dataOf
  cases tims[i]? <;> rfl

/-- There is one set of most likely parameters if they can be told from the pixels. -/
theorem best_unique [IsStrictOrderedRing R] (minsb : R) (sky : Bool) (tims : List (Tim R M)) (cat : List (Source R))
    (hr : ∀ t ∈ tims, Ready minsb cat t) (hs : ∀ t ∈ tims, t.ie.h = t.data.h ∧ t.ie.w = t.data.w) (hid : Identifiable minsb sky tims cat)
    (a b : St R) (ha : Best minsb sky tims cat a) (hb : Best minsb sky tims cat b) : a.flux = b.flux ∧ (sky = true → a.sky = b.sky) := by
  obtain ⟨w, c, A, hw, _, _, hall⟩ := logLike_sum minsb sky tims cat hr hs
  have normal : ∀ s : St R, Best minsb sky tims cat s → ∀ v : Nat → R, _ := fun s hB => resid_normal (pixels tims)
    (range (numParams cat + tims.length)) w (fun π => dataOf tims π.1 π.2.1 π.2.2) c A (theta (numParams cat) s) (fun θ' => by
      obtain ⟨f1, f2, L', f3, f4⟩ := hB
      obtain ⟨L, g1, g2⟩ := f4 ⟨(List.range (numParams cat)).map θ', (List.range tims.length).map (fun i => θ' (numParams cat + i)), true⟩ (by simp) (by simp)
      have f3' := (hall _ f1 f2).2 (dataOf tims)
      have g1' := (hall ⟨(List.range (numParams cat)).map θ', (List.range tims.length).map (fun i => θ' (numParams cat + i)), true⟩
        (by simp) (by simp)).2 (dataOf tims)
      rw [withPixels_self] at f3' g1'
      rw [f3'] at f3
      rw [g1'] at g1
      injection f3 with f3
      injection g1 with g1
      rw [← f3, ← g1] at g2
      have e : ∀ π, resid (range (numParams cat + tims.length)) w (fun π => dataOf tims π.1 π.2.1 π.2.2) c A
          (theta (numParams cat) ⟨(List.range (numParams cat)).map θ', (List.range tims.length).map (fun i => θ' (numParams cat + i)), true⟩) π =
          resid (range (numParams cat + tims.length)) w (fun π => dataOf tims π.1 π.2.1 π.2.2) c A θ' π := by
        intro π
        unfold resid
        rw [sum_congr rfl (fun k hk => by rw [theta_of _ _ _ _ _ (mem_range.1 hk)])]
      simp only [e] at g2
      linarith)
  have na := normal a ha (fun k => theta (numParams cat) a k - theta (numParams cat) b k)
  have nb := normal b hb (fun k => theta (numParams cat) a k - theta (numParams cat) b k)
  have hd : ∀ π, w π * ∑ k ∈ range (numParams cat + tims.length), (theta (numParams cat) a k - theta (numParams cat) b k) * A π k =
      resid (range (numParams cat + tims.length)) w (fun π => dataOf tims π.1 π.2.1 π.2.2) c A (theta (numParams cat) b) π -
      resid (range (numParams cat + tims.length)) w (fun π => dataOf tims π.1 π.2.1 π.2.2) c A (theta (numParams cat) a) π := by
    intro π
    unfold resid
    rw [sum_congr rfl (fun k _ => sub_mul (theta (numParams cat) a k) (theta (numParams cat) b k) (A π k)), sum_sub_distrib]
    ring
  have hz : ∑ π ∈ pixels tims, (w π * ∑ k ∈ range (numParams cat + tims.length), (theta (numParams cat) a k - theta (numParams cat) b k) * A π k) *
      (w π * ∑ k ∈ range (numParams cat + tims.length), (theta (numParams cat) a k - theta (numParams cat) b k) * A π k) = 0 := by
    have := congrArg₂ (· - ·) nb na
    dsimp only at this
    rw [← sum_sub_distrib, sub_zero] at this
    rw [← this]
    refine sum_congr rfl (fun π _ => ?_)
    rw [← sub_mul, ← hd π]
  refine hid a b ha.1 ha.2.1 hb.1 hb.2.1 (fun i y x t ht hy hx hne => ?_)
  have h0 := (sum_eq_zero_iff_of_nonneg (fun π _ => mul_self_nonneg _)).1 hz ⟨i, y, x⟩ ((mem_pixels tims i y x).2 ⟨t, ht, hy, hx⟩)
  have h1 := mul_self_eq_zero.1 h0
  rw [hw i y x t ht] at h1
  have h2 := (mul_eq_zero.1 h1).resolve_left hne
  rw [(hall a ha.1 ha.2.1).1 i y x t ht hy hx, (hall b hb.1 hb.2.1).1 i y x t ht hy hx]
  rw [sum_congr rfl (fun k _ => sub_mul (theta (numParams cat) a k) (theta (numParams cat) b k) _), sum_sub_distrib] at h2
  linarith

/-- The most likely fluxes of all sources are the most likely ones of those that are kept. -/
theorem best_part [IsStrictOrderedRing R] (minsb : R) (tims : List (Tim R M)) (cat : List (Source R)) (keep : Nat → Bool)
    (hs : ∀ t ∈ tims, t.ie.h = t.data.h ∧ t.ie.w = t.data.w) (hA : Apart minsb tims cat keep) (s : St R) (h : Best minsb false tims cat s) :
    Best minsb false tims (part keep cat) ⟨sub keep cat s.flux, s.sky, s.real⟩ := by
  obtain ⟨h1, h2, L', h3, h4⟩ := h
  have e : ∀ (c : List (Source R)) (q : St R), after false tims c q = (tims, setParams c q.flux) := fun _ _ => rfl
  simp only [e, logLike_pixels minsb tims _ hs] at h3 h4
  refine ⟨sub_length keep cat _ h1, h2, _, by rw [e]; exact logLike_pixels minsb tims _ hs, fun q hq _ => ⟨_, by rw [e]; exact logLike_pixels minsb tims _ hs, ?_⟩⟩
  obtain ⟨p, p1, p2, p3⟩ := merge keep cat q.flux (sub (fun n => !keep n) cat s.flux) hq (sub_length _ cat _ h1)
  obtain ⟨L, g1, g2⟩ := h4 ⟨p, s.sky, s.real⟩ p1 h2
  injection g1 with g1
  injection h3 with h3
  rw [← g1, ← h3] at g2
  have key : ∀ π ∈ pixels tims,
      chiAt minsb tims (setParams cat p) π * chiAt minsb tims (setParams cat p) π -
        chiAt minsb tims (setParams cat s.flux) π * chiAt minsb tims (setParams cat s.flux) π =
      chiAt minsb tims (setParams (part keep cat) q.flux) π * chiAt minsb tims (setParams (part keep cat) q.flux) π -
        chiAt minsb tims (setParams (part keep cat) (sub keep cat s.flux)) π * chiAt minsb tims (setParams (part keep cat) (sub keep cat s.flux)) π := by
    rintro ⟨i, y, x⟩ hπ
    obtain ⟨t, ht, hy, hx⟩ := (mem_pixels tims i y x).1 hπ
    have ec : ∀ c : List (Source R), chiAt minsb tims c ⟨i, y, x⟩ = (t.data.px y x - pixel minsb (tims, c) i y x) * t.ie.px y x := by
      intro c
      unfold chiAt
      dsimp only
      rw [ht]
    simp only [ec]
    by_cases hz : t.ie.px y x = 0
    · rw [hz]; ring
    have full : ∀ p' : List R, p'.length = numParams cat → pixel minsb (tims, setParams cat p') i y x =
        pixel minsb (tims, setParams (part keep cat) (sub keep cat p')) i y x +
          (pixel minsb (tims, setParams (part (fun n => !keep n) cat) (sub (fun n => !keep n) cat p')) i y x - t.sky) := by
      intro p' hp'
      rw [pixel_light minsb tims _ i y x t ht hy hx, pixel_light minsb tims _ i y x t ht hy hx, pixel_light minsb tims _ i y x t ht hy hx,
        light_part keep, setParams_part keep cat p' hp', setParams_part (fun n => !keep n) cat p' hp']
      ring
    rw [full p p1, full s.flux h1, p2, p3]
    rcases hA i y x t ht hy hx hz with hc | hc
    · rw [hc q.flux (sub keep cat s.flux) hq (sub_length keep cat _ h1)]
      ring
    · rw [hc _ (sub_length _ cat _ h1)]
      ring
  have := sum_congr rfl key
  rw [sum_sub_distrib, sum_sub_distrib] at this
  change -(1 / 2) * _ ≤ -(1 / 2) * ∑ π ∈ pixels tims, chiAt minsb tims (setParams (part keep cat) (sub keep cat s.flux)) π * _
  have g2' : -(1 / 2) * ∑ π ∈ pixels tims, chiAt minsb tims (setParams cat p) π * chiAt minsb tims (setParams cat p) π ≤
    -(1 / 2) * ∑ π ∈ pixels tims, chiAt minsb tims (setParams cat s.flux) π * chiAt minsb tims (setParams cat s.flux) π := g2
  linarith

/-- What C138 asks of `shared_params`: `None`, or the map found for distinct parameters of which the last changes some image. -/
def SharedOK (minsb : R) (sky : Bool) (tims : List (Tim R M)) (cat : List (Source R)) (shared : Option (List Nat)) : Prop :=
  shared = none ∨ ∃ st : Lsq.Store R, shared = some (Lsq.sharedMap st).1 ∧ st.cells.length = (derivs minsb sky tims cat).length ∧
    st.cells.Nodup ∧ Seen tims (((derivs minsb sky tims cat)[(derivs minsb sky tims cat).length - 1]?).getD [])

/-- `s` is what forced photometry of the images and the catalog ends with: for some first direction that `getUpdateDirection` returns. -/
def Fits (sqrt : R → R) (tiny : R) (lsqr : Lsq.Problem R → List R) (c : Cfg R) (minsb : R) (tims : List (Tim R M)) (cat : List (Source R))
    (shared : Option (List Nat)) (s : St R) : Prop :=
  ∃ r, firstDir sqrt tiny lsqr minsb c.sky tims cat shared = .ok r ∧ ∃ (dir : Nat → St R → R → Option (List R)) (fuel : Nat),
    dir 0 (start tims cat) 0 = r ∧ forced c (objective minsb c.sky tims cat) dir (fuel + 1) (start tims cat) = (s, some (.ok ()))

/-- The conditions of C138 on the arguments of forced photometry. -/
structure Plain (c : Cfg R) : Prop where
  minFlux : c.minFlux = none
  priors : c.priors = false
  rois : c.rois = false
  ims0 : c.justims0 = false
  damp : c.damp = 0

/-- The conditions of C138 on the images. -/
structure Fair (minsb : R) (tims : List (Tim R M)) (cat : List (Source R)) : Prop where
  suits : ∀ t ∈ tims, Suits minsb cat t
  shape : ∀ t ∈ tims, t.ie.h = t.data.h ∧ t.ie.w = t.data.w
  size : ∀ t ∈ tims, t.data.w * t.data.h < 2 ^ 31

/-- A fit ends, and at the most likely parameters (C138). -/
theorem fits_best [IsStrictOrderedRing R] (sqrt : R → R) (hsq : Lsq.SqrtOK sqrt) (tiny : R) (lsqr : Lsq.Problem R → List R) (hls : Lsq.Solves lsqr)
    (c : Cfg R) (hc : Plain c) (minsb : R) (tims : List (Tim R M)) (cat : List (Source R)) (hf : Fair minsb tims cat) (shared : Option (List Nat))
    (hsh : SharedOK minsb c.sky tims cat shared) :
    (∃ s, Fits sqrt tiny lsqr c minsb tims cat shared s) ∧ ∀ s, Fits sqrt tiny lsqr c minsb tims cat shared s → Best minsb c.sky tims cat s := by
  have all := fun fuel => C138_best_partial sqrt hsq tiny lsqr hls c minsb tims cat fuel hf.suits hf.shape hf.size hc.minFlux hc.priors hc.rois hc.ims0
    hc.damp shared hsh
  constructor
  · obtain ⟨r, h1, h2⟩ := all 0
    obtain ⟨s, h3, _⟩ := h2 (fun _ _ _ => r) rfl
    exact ⟨s, r, h1, fun _ _ _ => r, 0, rfl, h3⟩
  · rintro s ⟨r, h1, dir, fuel, h2, h3⟩
    obtain ⟨r', g1, g2⟩ := all fuel
    rw [h1] at g1
    injection g1 with g1
    subst g1
    obtain ⟨s', g3, g4⟩ := g2 dir h2
    rw [h3] at g3
    injection g3 with g3
    subst g3
    exact g4

omit [Field R] [LinearOrder R] in
theorem part_mem {keep : Nat → Bool} {cat : List (Source R)} {s : Source R} (h : s ∈ part keep cat) : s ∈ cat := (List.mem_filter.1 h).1

theorem Fair.part {minsb : R} {tims : List (Tim R M)} {cat : List (Source R)} (h : Fair minsb tims cat) (keep : Nat → Bool) :
    Fair minsb tims (part keep cat) :=
  ⟨fun t ht => ⟨fun s hs => (h.suits t ht).band s (part_mem hs), fun s hs => (h.suits t ht).mask s (part_mem hs),
    fun s hs => (h.suits t ht).cut s (part_mem hs)⟩, h.shape, h.size⟩

/-- **C150.** Forced photometry of any images and any catalog, of which some sources (those that are kept) share no pixels with the others, and of the
catalog of these sources alone: both fits end normally, and in both the sources that are kept end up the same.  The sky is not fitted; the other conditions
on the fit are those of C138; the fluxes of the sources that are kept can be told from the pixels. -/
theorem C150_apart [IsStrictOrderedRing R] (sqrt : R → R) (hsq : Lsq.SqrtOK sqrt) (tiny : R) (lsqr : Lsq.Problem R → List R) (hls : Lsq.Solves lsqr)
    (c : Cfg R) (hc : Plain c) (hsky : c.sky = false) (minsb : R) (tims : List (Tim R M)) (cat : List (Source R)) (keep : Nat → Bool)
    (hf : Fair minsb tims cat) (hA : Apart minsb tims cat keep) (hid : Identifiable minsb false tims (part keep cat))
    (shared shared' : Option (List Nat)) (h1 : SharedOK minsb false tims cat shared) (h2 : SharedOK minsb false tims (part keep cat) shared') :
    (∃ s, Fits sqrt tiny lsqr c minsb tims cat shared s) ∧ (∃ s', Fits sqrt tiny lsqr c minsb tims (part keep cat) shared' s') ∧
    ∀ s s', Fits sqrt tiny lsqr c minsb tims cat shared s → Fits sqrt tiny lsqr c minsb tims (part keep cat) shared' s' →
      part keep (after c.sky tims cat s).2 = (after c.sky tims (part keep cat) s').2 := by
  obtain ⟨a1, a2⟩ := fits_best sqrt hsq tiny lsqr hls c hc minsb tims cat hf shared (by rw [hsky]; exact h1)
  obtain ⟨b1, b2⟩ := fits_best sqrt hsq tiny lsqr hls c hc minsb tims (part keep cat) (hf.part keep) shared' (by rw [hsky]; exact h2)
  refine ⟨a1, b1, fun s s' hS hS' => ?_⟩
  have hB := a2 s hS
  have hB' := b2 s' hS'
  rw [hsky] at hB hB'
  have hu := best_unique minsb false tims (part keep cat) (fun t ht => ((hf.part keep).suits t ht).ready) hf.shape hid _ _
    (best_part minsb tims cat keep hf.shape hA s hB) hB'
  change part keep (setParams cat s.flux) = setParams (part keep cat) s'.flux
  rw [setParams_part keep cat _ hB.1]
  exact congrArg _ hu.1

/-- `catalog.freezeParam(i)` for the sources that are not kept. -/
def frozen (keep : Nat → Bool) (cat : List (Source R)) : List (Source R) := cat.map (fun s => if keep s.id then s else { s with thawed := false })

omit [Field R] [LinearOrder R] in
theorem part_frozen (keep : Nat → Bool) (cat : List (Source R)) : part keep (frozen keep cat) = part keep cat := by
  induction cat with
  | nil => rfl
  | cons s cat ih =>
    have e : frozen keep (s :: cat) = (if keep s.id then s else { s with thawed := false }) :: frozen keep cat := rfl
    rw [e, part_cons, part_cons, ih]
    by_cases h : keep s.id = true
    · rw [if_pos h, if_pos h]
    · rw [if_neg h, if_neg h]
      exact (if_neg h).symm

omit [Field R] [LinearOrder R] in
theorem part_frozen_not (keep : Nat → Bool) (cat : List (Source R)) :
    part (fun n => !keep n) (frozen keep cat) = (part (fun n => !keep n) cat).map (fun s => { s with thawed := false }) := by
  induction cat with
  | nil => rfl
  | cons s cat ih =>
    have e : frozen keep (s :: cat) = (if keep s.id then s else { s with thawed := false }) :: frozen keep cat := rfl
    rw [e, part_cons, part_cons, ih]
    by_cases h : keep s.id = true
    · rw [if_pos h, if_neg (by simp [h]), if_neg (by simp [h])]
    · rw [if_neg h, if_pos (by simp [h]), if_pos (by simp [h]), List.map_cons]

omit [Field R] [LinearOrder R] in
theorem setParams_none (p : List R) : ∀ (l : List (Source R)), setParams (l.map (fun s => { s with thawed := false })) p = l.map (fun s => { s with thawed := false }) := by
  intro l
  induction l with
  | nil => rfl
  | cons s l ih => rw [List.map_cons, setParams_frozen _ _ _ (by simp), ih]

theorem Apart.frozen {minsb : R} {tims : List (Tim R M)} {cat : List (Source R)} {keep : Nat → Bool} (h : Apart minsb tims cat keep) :
    Apart minsb tims (frozen keep cat) keep := by
  intro i y x t ht hy hx hz
  rw [part_frozen]
  refine (h i y x t ht hy hx hz).imp id (fun hc p _ => ?_)
  have h0 := hc (getParams (part (fun n => !keep n) cat)) (getParams_length _)
  rw [setParams_self, pixel_light minsb tims _ i y x t ht hy hx] at h0
  rw [part_frozen_not, setParams_none, pixel_light minsb tims _ i y x t ht hy hx]
  have e : light t minsb ((part (fun n => !keep n) cat).map (fun s => { s with thawed := false })) y x =
      light t minsb (part (fun n => !keep n) cat) y x := by
    unfold light
    rw [List.map_map]
    rfl
  rw [e]
  exact h0

theorem Fair.frozen {minsb : R} {tims : List (Tim R M)} {cat : List (Source R)} (h : Fair minsb tims cat) (keep : Nat → Bool) :
    Fair minsb tims (frozen keep cat) := by
  have key : ∀ s ∈ Fpfit.frozen keep cat, s.thawed = true → s ∈ cat := by
    intro s hs ht
    obtain ⟨s0, h0, e⟩ := List.mem_map.1 hs
    by_cases hk : keep s0.id = true
    · rw [if_pos hk] at e
      rwa [← e]
    · rw [if_neg hk] at e
      rw [← e] at ht
      cases ht
  exact ⟨fun t ht => ⟨fun s hs hs' => (h.suits t ht).band s (key s hs hs') hs', fun s hs hs' => (h.suits t ht).mask s (key s hs hs') hs',
    fun s hs hs' => (h.suits t ht).cut s (key s hs hs') hs'⟩, h.shape, h.size⟩

/-- **C150.** The same with the other sources frozen, at whatever fluxes they have. -/
theorem C150_frozen [IsStrictOrderedRing R] (sqrt : R → R) (hsq : Lsq.SqrtOK sqrt) (tiny : R) (lsqr : Lsq.Problem R → List R) (hls : Lsq.Solves lsqr)
    (c : Cfg R) (hc : Plain c) (hsky : c.sky = false) (minsb : R) (tims : List (Tim R M)) (cat : List (Source R)) (keep : Nat → Bool)
    (hf : Fair minsb tims cat) (hA : Apart minsb tims cat keep) (hid : Identifiable minsb false tims (part keep cat))
    (shared shared' : Option (List Nat)) (h1 : SharedOK minsb false tims cat shared) (h2 : SharedOK minsb false tims (frozen keep cat) shared') :
    (∃ s, Fits sqrt tiny lsqr c minsb tims cat shared s) ∧ (∃ s', Fits sqrt tiny lsqr c minsb tims (frozen keep cat) shared' s') ∧
    ∀ s s', Fits sqrt tiny lsqr c minsb tims cat shared s → Fits sqrt tiny lsqr c minsb tims (frozen keep cat) shared' s' →
      part keep (after c.sky tims cat s).2 = part keep (after c.sky tims (frozen keep cat) s').2 := by
  have hF := hf.frozen keep
  obtain ⟨a1, b1, a2⟩ := C150_apart sqrt hsq tiny lsqr hls c hc hsky minsb tims cat keep hf hA hid shared none h1 (.inl rfl)
  obtain ⟨a1', _, a2'⟩ := C150_apart sqrt hsq tiny lsqr hls c hc hsky minsb tims (frozen keep cat) keep hF hA.frozen
    (by rw [part_frozen]; exact hid) shared' none h2 (.inl rfl)
  refine ⟨a1, a1', fun s s' hS hS' => ?_⟩
  obtain ⟨s0, h0⟩ := b1
  rw [part_frozen] at a2'
  rw [a2 s s0 hS h0, a2' s' s0 hS' h0]

/-! Three pixels; star `i` is in pixel `i`. -/

def exTimG : Tim ℚ Unit := ⟨Arr.ofLists [[8, 3, 1]] 3, Arr.ofLists [[1, 1, 1]] 3, "r", 1, 0, 0,
  ⟨fun i _ _ _ => some ⟨i, 0, some (Arr.ofLists [[1]] 1)⟩, fun _ => none, false⟩⟩

def exCatG : List (Source ℚ) := [⟨0, true, [exB 7 1]⟩, ⟨1, true, [exB 7 1]⟩]

theorem exFairG : Fair 0 [exTimG] exCatG := by
  refine ⟨fun t h => ?_, by simp [exTimG, Arr.ofLists], by simp [exTimG, Arr.ofLists]⟩
  rw [List.mem_singleton] at h
  subst h
  exact ⟨by simp [exCatG, Linmod.exB, exTimG], by simp [exTimG], fun _ _ _ => .inl (fun _ _ _ => rfl)⟩

theorem exLight1 (v : ℚ) (i : Nat) (b : Bool) (f : String → ℚ) (x : Nat) (hx : x < 3) (hi : i < 2) :
    sumAt x (0 : Nat) (modelOf { exTimG with sky := v }.W { exTimG with sky := v }.img 0 ⟨i, b, [⟨f, ["r"]⟩]⟩) = if x = i then f "r" else 0 := by
  have e : modelOf { exTimG with sky := v }.W { exTimG with sky := v }.img 0 ⟨i, b, [⟨f, ["r"]⟩]⟩ =
      [if f "r" * 1 = 0 then none else some ((⟨i, 0, some (Arr.ofLists [[1]] 1)⟩ : Patch ℚ).mul (f "r" * 1))] := rfl
  rw [e]
  have e2 : ∀ a : Option (Patch ℚ), sumAt x (0 : Nat) [a] = valAt x (0 : Nat) a := fun a => by simp [sumAt]
  rw [e2, mul_one]
  have e3 : (⟨i, 0, some (Arr.ofLists [[1]] 1)⟩ : Patch ℚ).at x (0 : Nat) = if x = i then 1 else 0 := by
    obtain rfl | rfl : i = 0 ∨ i = 1 := by omega
    all_goals obtain rfl | rfl | rfl : x = 0 ∨ x = 1 ∨ x = 2 := by omega
    all_goals decide +kernel
  by_cases h : f "r" = 0
  · rw [if_pos h, h]; simp [valAt]
  · rw [if_neg h]
    change ((⟨i, 0, some (Arr.ofLists [[1]] 1)⟩ : Patch ℚ).mul (f "r")).at x (0 : Nat) = _
    rw [at_mul, e3]
    by_cases hi : x = i
    · rw [if_pos hi, if_pos hi, one_mul]
    · rw [if_neg hi, if_neg hi, zero_mul]

/-- The pixels of the models. -/
theorem exPixG (v f g : ℚ) (x : Nat) (hx : x < 3) :
    pixel 0 ([{ exTimG with sky := v }], setParams exCatG [f, g]) 0 0 x = v + ((if x = 0 then f else 0) + (if x = 1 then g else 0)) ∧
    pixel 0 ([{ exTimG with sky := v }], setParams [⟨0, true, [exB 7 1]⟩] [f]) 0 0 x = v + (if x = 0 then f else 0) ∧
    pixel 0 ([{ exTimG with sky := v }], setParams [⟨1, true, [exB 7 1]⟩] [g]) 0 0 x = v + (if x = 1 then g else 0) := by
  refine ⟨?_, ?_, ?_⟩
  · rw [pixel_light 0 _ _ 0 0 x { exTimG with sky := v } rfl Nat.zero_lt_one hx]
    unfold light
    change v + sumAt x (0 : Nat) (_ ++ (_ ++ [])) = _
    rw [List.append_nil, sumAt_append]
    exact congrArg₂ (fun a b => v + (a + b)) (exLight1 v 0 true _ x hx (by decide)) (exLight1 v 1 true _ x hx (by decide))
  · rw [pixel_light 0 _ _ 0 0 x { exTimG with sky := v } rfl Nat.zero_lt_one hx]
    unfold light
    change v + sumAt x (0 : Nat) (_ ++ []) = _
    rw [List.append_nil]
    exact congrArg (v + ·) (exLight1 v 0 true _ x hx (by decide))
  · rw [pixel_light 0 _ _ 0 0 x { exTimG with sky := v } rfl Nat.zero_lt_one hx]
    unfold light
    change v + sumAt x (0 : Nat) (_ ++ []) = _
    rw [List.append_nil]
    exact congrArg (v + ·) (exLight1 v 1 true _ x hx (by decide))

theorem one_of {l : List ℚ} (h : l.length = 1) : ∃ a, l = [a] := List.length_eq_one_iff.1 h

theorem exAtG {i y x : Nat} {t : Tim ℚ Unit} (ht : [exTimG][i]? = some t) (hy : y < t.data.h) (hx : x < t.data.w) : t = exTimG ∧ i = 0 ∧ y = 0 ∧ x < 3 := by
  cases i with
  | succ i => simp at ht
  | zero =>
    injection ht with ht
    subst ht
    have hy : y < 1 := hy
    exact ⟨rfl, rfl, by omega, hx⟩

theorem exApartG : Apart 0 [exTimG] exCatG (· == 0) := by
  intro i y x t ht hy hx _
  obtain ⟨rfl, rfl, rfl, hx⟩ := exAtG ht hy hx
  by_cases h : x = 0
  · right
    intro p hp
    obtain ⟨g, rfl⟩ := one_of (show p.length = 1 from hp)
    refine (exPixG 0 0 g x hx).2.2.trans ?_
    rw [if_neg (by omega), add_zero]
    rfl
  · left
    intro p p' hp hp'
    obtain ⟨f, rfl⟩ := one_of (show p.length = 1 from hp)
    obtain ⟨f', rfl⟩ := one_of (show p'.length = 1 from hp')
    refine (exPixG 0 f 0 x hx).2.1.trans (Eq.trans ?_ (exPixG 0 f' 0 x hx).2.1.symm)
    rw [if_neg h, if_neg h]

theorem exIdentG : Identifiable 0 false [exTimG] (part (· == 0) exCatG) := by
  rintro ⟨p, l, b⟩ ⟨p', l', b'⟩ h1 _ h3 _ hpx
  obtain ⟨f, rfl⟩ := one_of (show p.length = 1 from h1)
  obtain ⟨f', rfl⟩ := one_of (show p'.length = 1 from h3)
  have x0 := hpx 0 0 0 exTimG rfl Nat.zero_lt_one (by decide) (by decide +kernel)
  have x1 := ((exPixG 0 f 0 0 (by decide)).2.1.symm.trans x0).trans (exPixG 0 f' 0 0 (by decide)).2.1
  simp only [if_true, zero_add] at x1
  exact ⟨by rw [x1], fun h => by cases h⟩

/-- Fitted with and without the second star, the first star ends up the same. -/
example (lsqr : Lsq.Problem ℚ → List ℚ) (hl : Lsq.Solves lsqr) : ∃ s s', Fits id 0 lsqr exCfg0 0 [exTimG] exCatG none s ∧
    Fits id 0 lsqr exCfg0 0 [exTimG] [⟨0, true, [exB 7 1]⟩] none s' ∧
    part (· == 0) (setParams exCatG s.flux) = setParams [⟨0, true, [exB 7 1]⟩] s'.flux := by
  obtain ⟨⟨s, h1⟩, ⟨s', h2⟩, h3⟩ := C150_apart id (fun x hx => hx) 0 lsqr hl exCfg0 ⟨rfl, rfl, rfl, rfl, rfl⟩ rfl 0 [exTimG] exCatG (· == 0) exFairG
    exApartG exIdentG none none (.inl rfl) (.inl rfl)
  exact ⟨s, s', h1, h2, h3 s s' h1 h2⟩

/-- The same with the second star frozen. -/
example (lsqr : Lsq.Problem ℚ → List ℚ) (hl : Lsq.Solves lsqr) : ∃ s s', Fits id 0 lsqr exCfg0 0 [exTimG] exCatG none s ∧
    Fits id 0 lsqr exCfg0 0 [exTimG] [⟨0, true, [exB 7 1]⟩, ⟨1, false, [exB 7 1]⟩] none s' ∧
    part (· == 0) (setParams exCatG s.flux) = part (· == 0) (setParams [⟨0, true, [exB 7 1]⟩, ⟨1, false, [exB 7 1]⟩] s'.flux) := by
  obtain ⟨⟨s, h1⟩, ⟨s', h2⟩, h3⟩ := C150_frozen id (fun x hx => hx) 0 lsqr hl exCfg0 ⟨rfl, rfl, rfl, rfl, rfl⟩ rfl 0 [exTimG] exCatG (· == 0) exFairG
    exApartG exIdentG none none (.inl rfl) (.inl rfl)
  exact ⟨s, s', h1, h2, h3 s s' h1 h2⟩

theorem exIdentGS : Identifiable 0 true [exTimG] exCatG := by
  rintro ⟨p, l, b⟩ ⟨p', l', b'⟩ h1 h2 h3 h4 hpx
  obtain ⟨f, g, rfl⟩ := List.length_eq_two.1 (show p.length = 2 from h1)
  obtain ⟨f', g', rfl⟩ := List.length_eq_two.1 (show p'.length = 2 from h3)
  obtain ⟨v, rfl⟩ := one_of (show l.length = 1 from h2)
  obtain ⟨v', rfl⟩ := one_of (show l'.length = 1 from h4)
  have x0 := hpx 0 0 0 exTimG rfl Nat.zero_lt_one (by decide) (by decide +kernel)
  have x1 := hpx 0 0 1 exTimG rfl Nat.zero_lt_one (by decide) (by decide +kernel)
  have x2 := hpx 0 0 2 exTimG rfl Nat.zero_lt_one (by decide) (by decide +kernel)
  have y0 := ((exPixG v f g 0 (by decide)).1.symm.trans x0).trans (exPixG v' f' g' 0 (by decide)).1
  have y1 := ((exPixG v f g 1 (by decide)).1.symm.trans x1).trans (exPixG v' f' g' 1 (by decide)).1
  have y2 := ((exPixG v f g 2 (by decide)).1.symm.trans x2).trans (exPixG v' f' g' 2 (by decide)).1
  norm_num at y0 y1 y2
  have e1 : f = f' := by linarith
  have e2 : g = g' := by linarith
  exact ⟨by rw [e1, e2], fun _ => by rw [y2]⟩

theorem exLikeG (v : ℚ) (srcs : List (Source ℚ)) : logLike 0 [{ exTimG with sky := v }] srcs = .ok (-(1 / 2) * (
      (8 - pixel 0 ([{ exTimG with sky := v }], srcs) 0 0 0) ^ 2 + (3 - pixel 0 ([{ exTimG with sky := v }], srcs) 0 0 1) ^ 2 +
      (1 - pixel 0 ([{ exTimG with sky := v }], srcs) 0 0 2) ^ 2)) := by
  rw [logLike_pixels 0 _ srcs (by simp [exTimG, Arr.ofLists])]
  have e : pixels [{ exTimG with sky := v }] = {⟨0, 0, 0⟩, ⟨0, 0, 1⟩, ⟨0, 0, 2⟩} := by
    ext ⟨i, y, x⟩
    rw [mem_pixels]
    constructor
    · rintro ⟨t, ht, hy, hx⟩
      cases i with
      | succ i => simp at ht
      | zero =>
        injection ht with ht
        subst ht
        have hy : y < 1 := hy
        have hx : x < 3 := hx
        obtain rfl : y = 0 := by omega
        obtain rfl | rfl | rfl : x = 0 ∨ x = 1 ∨ x = 2 := by omega
        all_goals decide
    · intro h
      simp only [mem_insert, mem_singleton, Sigma.mk.injEq, heq_eq_eq] at h
      rcases h with ⟨rfl, rfl, rfl⟩ | ⟨rfl, rfl, rfl⟩ | ⟨rfl, rfl, rfl⟩
      all_goals exact ⟨_, rfl, Nat.zero_lt_one, (by decide : _ < 3)⟩
  rw [e, sum_insert (by decide), sum_insert (by decide), sum_singleton]
  have ec : ∀ x : Nat, chiAt 0 [{ exTimG with sky := v }] srcs ⟨0, 0, x⟩ =
      ((Arr.ofLists [[(8 : ℚ), 3, 1]] 3).px 0 x - pixel 0 ([{ exTimG with sky := v }], srcs) 0 0 x) * (Arr.ofLists [[(1 : ℚ), 1, 1]] 3).px 0 x := fun _ => rfl
  rw [ec, ec, ec]
  rw [show (Arr.ofLists [[(8 : ℚ), 3, 1]] 3).px 0 0 = 8 by decide +kernel, show (Arr.ofLists [[(8 : ℚ), 3, 1]] 3).px 0 1 = 3 by decide +kernel,
    show (Arr.ofLists [[(8 : ℚ), 3, 1]] 3).px 0 2 = 1 by decide +kernel, show (Arr.ofLists [[(1 : ℚ), 1, 1]] 3).px 0 0 = 1 by decide +kernel,
    show (Arr.ofLists [[(1 : ℚ), 1, 1]] 3).px 0 1 = 1 by decide +kernel, show (Arr.ofLists [[(1 : ℚ), 1, 1]] 3).px 0 2 = 1 by decide +kernel]
  congr 1
  ring

theorem exBestG : Best 0 true [exTimG] exCatG ⟨[7, 2], [1], true⟩ := by
  refine ⟨rfl, rfl, _, exLikeG 1 (setParams exCatG [7, 2]), fun q h1 h2 => ?_⟩
  obtain ⟨v, hv⟩ := one_of (show q.sky.length = 1 from h2)
  have ea : after true [exTimG] exCatG q = ([{ exTimG with sky := v }], setParams exCatG q.flux) := by
    unfold after; rw [hv]; rfl
  rw [ea]
  refine ⟨_, exLikeG v _, ?_⟩
  rw [(exPixG 1 7 2 0 (by decide)).1, (exPixG 1 7 2 1 (by decide)).1, (exPixG 1 7 2 2 (by decide)).1]
  norm_num
  positivity

/-- **C150 (negation).** Not with `sky=True`: the stars share no pixels but they share the sky.  Pixels 8, 3 and 1: fitted together the stars have fluxes
7 and 2 on a sky of 1; without the second star the first ends up with another flux, whatever exact solver is used. -/
theorem C150_sky_false : ∃ (tims : List (Tim ℚ Unit)) (cat : List (Source ℚ)) (keep : Nat → Bool), Fair 0 tims cat ∧ Apart 0 tims cat keep ∧
    Identifiable 0 true tims cat ∧ ∀ lsqr : Lsq.Problem ℚ → List ℚ, Lsq.Solves lsqr →
      (∃ s, Fits id 0 lsqr exCfgS 0 tims cat none s) ∧ (∃ s', Fits id 0 lsqr exCfgS 0 tims (part keep cat) none s') ∧
      ∀ s s', Fits id 0 lsqr exCfgS 0 tims cat none s → Fits id 0 lsqr exCfgS 0 tims (part keep cat) none s' → s.flux = [7, 2] ∧ s'.flux ≠ [7] := by
  have hpl : Plain exCfgS := ⟨rfl, rfl, rfl, rfl, rfl⟩
  refine ⟨[exTimG], exCatG, (· == 0), exFairG, exApartG, exIdentGS, fun lsqr hl => ?_⟩
  obtain ⟨a1, a2⟩ := fits_best id (fun x hx => hx) 0 lsqr hl exCfgS hpl 0 [exTimG] exCatG exFairG none (.inl rfl)
  obtain ⟨b1, b2⟩ := fits_best id (fun x hx => hx) 0 lsqr hl exCfgS hpl 0 [exTimG] (part (· == 0) exCatG) (exFairG.part _) none (.inl rfl)
  refine ⟨a1, b1, fun s s' hS hS' => ⟨?_, fun hs' => ?_⟩⟩
  · have hB := a2 s hS
    exact (best_unique 0 true [exTimG] exCatG (fun t ht => (exFairG.suits t ht).ready) exFairG.shape exIdentGS _ _ hB exBestG).1
  · obtain ⟨_, h2, L', h3, h4⟩ := b2 s' hS'
    obtain ⟨v, hv⟩ := one_of (show s'.sky.length = 1 from h2)
    have ea : after true [exTimG] (part (· == 0) exCatG) s' = ([{ exTimG with sky := v }], setParams [⟨0, true, [exB 7 1]⟩] [7]) := by
      unfold after; rw [hv, hs']; rfl
    have h3' : logLike 0 (after true [exTimG] (part (· == 0) exCatG) s').1 (after true [exTimG] (part (· == 0) exCatG) s').2 = .ok L' := h3
    rw [ea, exLikeG, (exPixG v 7 0 0 (by decide)).2.1, (exPixG v 7 0 1 (by decide)).2.1, (exPixG v 7 0 2 (by decide)).2.1] at h3'
    injection h3' with h3'
    obtain ⟨L, g1, g2⟩ := h4 ⟨[6], [2], true⟩ rfl rfl
    have g1' : logLike 0 [{ exTimG with sky := 2 }] (setParams [⟨0, true, [exB 7 1]⟩] [6]) = .ok L := g1
    rw [exLikeG, (exPixG 2 6 0 0 (by decide)).2.1, (exPixG 2 6 0 1 (by decide)).2.1, (exPixG 2 6 0 2 (by decide)).2.1] at g1'
    injection g1' with g1'
    rw [← h3', ← g1'] at g2
    norm_num at g2
    nlinarith [sq_nonneg (3 * v - 5)]

end Verif.Fpfit
