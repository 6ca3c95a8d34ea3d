import Verif.Fpfit.Scatter
import Verif.Fpfit.PropsRecover
import Verif.Forced.PropsIv
import Mathlib.Data.Fintype.Prod

/-!
# C149: inverse variances of forced photometry and the scatter of the fluxes

Spec: the mean squared error of a flux over uncorrelated noise of the size that the inverse errors say, times the inverse variance that
`forced_photometry(variance=True)` reports for it, is one for a source that shares no pixels with others, and never less than one.
-/

namespace Verif.Fpfit

open Verif Patches Forced Linmod Finset

variable {R M : Type} [Field R] [LinearOrder R]

/-- `result.IV`: `_get_iv` as `forced_photometry` calls it, optimize.py 129-132, with the unit-flux models and scales of the fit. -/
def reportedIv (skyvariance : Bool) (nsky : Nat) (skyderivs : List (List (Patch R × Forced.Tim R))) (minsb : R) (sky : Bool) (tims : List (Tim R M))
    (cat : List (Source R)) : Except PyErr (List R) :=
  Forced.getIv sky skyvariance nsky skyderivs (numParams cat) (tims.map (fun t => ⟨t.data.h, t.data.w, t.ie⟩))
    (tims.map (fun t => umods t.W t.img minsb cat)) (tims.map (·.scale))

/-- Pixels `D j` with the probability `ω j`: about the model `m`, pixels with non-zero inverse error are uncorrelated and have the variance that the
inverse error says. -/
structure WhiteNoise {κ : Type} (tims : List (Tim R M)) (J : Finset κ) (ω : κ → R) (D : κ → Nat → Nat → Nat → R) (m : Nat → Nat → Nat → R) : Prop where
  pos : ∀ j ∈ J, 0 ≤ ω j
  same : ∀ (i y x : Nat) (t : Tim R M), tims[i]? = some t → y < t.data.h → x < t.data.w → t.ie.px y x ≠ 0 →
    ∑ j ∈ J, ω j * ((D j i y x - m i y x) * (D j i y x - m i y x)) = 1 / t.ie.px y x ^ 2
  other : ∀ (i y x : Nat) (t : Tim R M) (i' y' x' : Nat) (t' : Tim R M), tims[i]? = some t → y < t.data.h → x < t.data.w → t.ie.px y x ≠ 0 →
    tims[i']? = some t' → y' < t'.data.h → x' < t'.data.w → t'.ie.px y' x' ≠ 0 → (i, y, x) ≠ (i', y', x') →
    ∑ j ∈ J, ω j * ((D j i y x - m i y x) * (D j i' y' x' - m i' y' x')) = 0

/-- Flux `k` shares no pixels: a pixel with non-zero inverse error is not changed by flux `k`, or by no other flux. -/
def Isolated (minsb : R) (tims : List (Tim R M)) (cat : List (Source R)) (k : Nat) : Prop :=
  ∀ (i y x : Nat) (t : Tim R M), tims[i]? = some t → y < t.data.h → x < t.data.w → t.ie.px y x ≠ 0 →
    (∀ (p : List R) (f : R), p.length = numParams cat → pixel minsb (tims, setParams cat (p.set k f)) i y x = pixel minsb (tims, setParams cat p) i y x) ∨
    ∀ l, l ≠ k → ∀ (p : List R) (f : R), p.length = numParams cat →
      pixel minsb (tims, setParams cat (p.set l f)) i y x = pixel minsb (tims, setParams cat p) i y x

/-- The mean squared error of flux `k`. -/
def meanSq {κ : Type} (J : Finset κ) (ω : κ → R) (S : κ → St R) (q : St R) (k : Nat) : R :=
  ∑ j ∈ J, ω j * ((S j).flux.getD k 0 - q.flux.getD k 0) ^ 2

omit [LinearOrder R] in
theorem theta_unit (n N l m : Nat) (hm : m < n + N) (hl : l < n) :
    theta n (⟨(List.replicate n (0 : R)).set l 1, List.replicate N 0, true⟩ : St R) m = if m = l then 1 else 0 := by
  unfold theta
  by_cases h : m < n
  · rw [if_pos h, List.getD, List.getElem?_set]
    by_cases e : l = m
    · subst e
      rw [if_pos rfl, if_pos (by simpa using hl), if_pos rfl]; rfl
    · rw [if_neg e, if_neg (fun h => e h.symm), List.getElem?_replicate, if_pos h]; rfl
  · rw [if_neg h, if_neg (by omega)]
    dsimp only
    rw [List.getD, List.getElem?_replicate]
    split <;> rfl

omit [LinearOrder R] in
theorem theta_zero (n N m : Nat) : theta n (⟨List.replicate n (0 : R), List.replicate N 0, true⟩ : St R) m = 0 := by
  unfold theta
  by_cases h : m < n
  · rw [if_pos h, List.getD, List.getElem?_replicate, if_pos h]; rfl
  · rw [if_neg h]
    dsimp only
    rw [List.getD, List.getElem?_replicate]
    split <;> rfl

/-- The scatter of the most likely fluxes. -/
theorem scatter_core [IsStrictOrderedRing R] {κ : Type} (skyvariance : Bool) (nsky : Nat) (skyderivs : List (List (Patch R × Forced.Tim R)))
    (minsb : R) (sky : Bool) (hsky : (sky && skyvariance) = false) (tims : List (Tim R M)) (cat : List (Source R))
    (hr : ∀ t ∈ tims, Ready minsb cat t) (hs : ∀ t ∈ tims, t.ie.h = t.data.h ∧ t.ie.w = t.data.w)
    (J : Finset κ) (ω : κ → R) (D : κ → Nat → Nat → Nat → R) (S : κ → St R) (q : St R)
    (hq : q.flux.length = numParams cat) (hl : q.sky.length = tims.length)
    (hB : ∀ j ∈ J, Best minsb sky (withPixels tims (D j)) cat (S j))
    (hN : WhiteNoise tims J ω D (pixel minsb (after sky tims cat q))) (hid : Identifiable minsb sky tims cat) :
    ∃ iv, reportedIv skyvariance nsky skyderivs minsb sky tims cat = .ok iv ∧ iv.length = numParams cat ∧ ∀ k < numParams cat,
      1 ≤ iv.getD k 0 * meanSq J ω S q k ∧ (sky = false → Isolated minsb tims cat k → iv.getD k 0 * meanSq J ω S q k = 1) := by
  obtain ⟨w, c, A, hw, hA, hA0, hall⟩ := logLike_sum minsb sky tims cat hr hs
  obtain ⟨iv, i1, i2, i3⟩ := Forced.C93_information_partial sky skyvariance hsky nsky skyderivs (numParams cat)
    (tims.map (fun t => (⟨t.data.h, t.data.w, t.ie⟩ : Forced.Tim R))) (tims.map (fun t => umods t.W t.img minsb cat)) (tims.map (·.scale))
    (by intro t' h; obtain ⟨t, h1, rfl⟩ := List.mem_map.1 h; exact hs t h1)
    (by intro u h; obtain ⟨t, h1, rfl⟩ := List.mem_map.1 h; exact (umods_length t.W t.img minsb cat (fun s hs ht => (hr t h1 s hs ht).bands)).le)
  refine ⟨iv, i1, i2, fun k hk => ?_⟩
  -- the inverse variance is the information
  have einfo : iv.getD k 0 = info (pixels tims) w A k := by
    rw [List.getD, i3 k hk, Option.getD_some]
    unfold info pixels
    rw [sum_sigma]
    have z : (tims.map (fun t => (⟨t.data.h, t.data.w, t.ie⟩ : Forced.Tim R))).zip ((tims.map (fun t => umods t.W t.img minsb cat)).zip (tims.map (·.scale))) =
        tims.map (fun t => ((⟨t.data.h, t.data.w, t.ie⟩ : Forced.Tim R), umods t.W t.img minsb cat, t.scale)) := by
      clear i1 i2 i3 hall hA hw hB hN hid hr hs hl
      induction tims with
      | nil => rfl
      | cons t ts ih => simp only [List.map_cons, List.zip_cons_cons, ih]
    rw [z, List.map_map]
    have e : tims.map ((fun q : Forced.Tim R × List (Option (Patch R)) × R => ∑ y ∈ range q.1.h, ∑ x ∈ range q.1.w,
          (unitAt ((q.2.1[k]?).join) x y * q.2.2 * q.1.ie.px y x) ^ 2) ∘
        (fun t => ((⟨t.data.h, t.data.w, t.ie⟩ : Forced.Tim R), umods t.W t.img minsb cat, t.scale))) =
        (List.range tims.length).map (fun i => ∑ s ∈ (range (hgt tims i)).sigma (fun _ => range (wid tims i)), w ⟨i, s⟩ * A ⟨i, s⟩ k * (w ⟨i, s⟩ * A ⟨i, s⟩ k)) := by
      refine List.ext_getElem (by simp) (fun i a b => ?_)
      have hi : i < tims.length := by simpa using a
      have ht : tims[i]? = some tims[i] := List.getElem?_eq_getElem hi
      rw [List.getElem_map, List.getElem_map, List.getElem_range, sum_sigma]
      have eh : hgt tims i = tims[i].data.h := by unfold hgt; rw [ht]; rfl
      have ew : wid tims i = tims[i].data.w := by unfold wid; rw [ht]; rfl
      rw [eh, ew]
      refine sum_congr rfl (fun y _ => sum_congr rfl (fun x _ => ?_))
      rw [hw i y x _ ht, hA i y x k _ ht hk]
      have eu : unitAt (((umods tims[i].W tims[i].img minsb cat)[k]?).join) x y = valAt x y ((umods tims[i].W tims[i].img minsb cat).getD k none) := by
        rw [List.getD]
        cases (umods tims[i].W tims[i].img minsb cat)[k]? with
        | none => rfl
        | some u => cases u <;> rfl
      dsimp only [Function.comp_apply]
      rw [eu]
      ring
    rw [e, sum_range_list]
  -- what a pixel is
  have hres : ∀ j (i y x : Nat) (t : Tim R M), tims[i]? = some t → y < t.data.h → x < t.data.w →
      resid (range (numParams cat + tims.length)) w (fun π => D j π.1 π.2.1 π.2.2) c A (theta (numParams cat) q) ⟨i, y, x⟩ =
        t.ie.px y x * (D j i y x - pixel minsb (after sky tims cat q) i y x) := by
    intro j i y x t ht hy hx
    unfold resid
    rw [hw i y x t ht, (hall q hq hl).1 i y x t ht hy hx]
  have main := resid_var (pixels tims) (range (numParams cat + tims.length)) (range (numParams cat)) (range_mono (by omega)) w c A J ω hN.pos
    (fun j π => D j π.1 π.2.1 π.2.2) (fun j => theta (numParams cat) (S j)) (theta (numParams cat) q) (fun j hj θ' => by
      obtain ⟨f1, f2, L', f3, f4⟩ := hB j hj
      rw [withPixels_length] at f2 f4
      obtain ⟨L, g1, g2⟩ := f4 ⟨(List.range (numParams cat)).map θ', (List.range tims.length).map (fun i => θ' (numParams cat + i)), true⟩ (by simp) (by simp)
      rw [(hall _ f1 f2).2] at f3
      rw [(hall _ (by simp) (by simp)).2] at g1
      injection f3 with f3
      injection g1 with g1
      rw [← f3, ← g1] at g2
      have e : ∀ π, resid (range (numParams cat + tims.length)) w (fun π => D j π.1 π.2.1 π.2.2) c A
          (theta (numParams cat) ⟨(List.range (numParams cat)).map θ', (List.range tims.length).map (fun i => θ' (numParams cat + i)), true⟩) π =
          resid (range (numParams cat + tims.length)) w (fun π => D j π.1 π.2.1 π.2.2) c A θ' π := by
        intro π
        unfold resid
        rw [sum_congr rfl (fun k hk => by rw [theta_of _ _ _ _ _ (mem_range.1 hk)])]
      simp only [e] at g2
      linarith) (by
      rintro ⟨i, y, x⟩ hπ ⟨i', y', x'⟩ hπ'
      obtain ⟨t, ht, hy, hx⟩ := (mem_pixels tims i y x).1 hπ
      obtain ⟨t', ht', hy', hx'⟩ := (mem_pixels tims i' y' x').1 hπ'
      have e : ∀ j, ω j * (resid (range (numParams cat + tims.length)) w (fun π => D j π.1 π.2.1 π.2.2) c A (theta (numParams cat) q) ⟨i, y, x⟩ *
          resid (range (numParams cat + tims.length)) w (fun π => D j π.1 π.2.1 π.2.2) c A (theta (numParams cat) q) ⟨i', y', x'⟩) =
          t.ie.px y x * t'.ie.px y' x' * (ω j * ((D j i y x - pixel minsb (after sky tims cat q) i y x) * (D j i' y' x' - pixel minsb (after sky tims cat q) i' y' x'))) := by
        intro j
        rw [hres j i y x t ht hy hx, hres j i' y' x' t' ht' hy' hx']
        ring
      rw [sum_congr rfl (fun j _ => e j), ← mul_sum, hw i y x t ht]
      by_cases h1 : t.ie.px y x = 0
      · rw [if_neg (by simp [h1]), h1]; ring
      · by_cases h2 : t'.ie.px y' x' = 0
        · rw [if_neg, h2]
          · ring
          · rintro ⟨h3, _⟩
            simp only [Sigma.mk.injEq, heq_eq_eq] at h3
            obtain ⟨rfl, rfl, rfl⟩ := h3
            rw [ht] at ht'
            injection ht' with ht'
            rw [ht'] at h1
            exact h1 h2
        · by_cases h3 : (i, y, x) = (i', y', x')
          · simp only [Prod.mk.injEq] at h3
            obtain ⟨rfl, rfl, rfl⟩ := h3
            rw [ht] at ht'
            injection ht' with ht'
            rw [← ht', if_pos ⟨rfl, h1⟩, hN.same i y x t ht hy hx h1]
            field_simp
          · rw [if_neg, hN.other i y x t i' y' x' t' ht hy hx h1 ht' hy' hx' h2 h3, mul_zero]
            rintro ⟨h4, _⟩
            simp only [Sigma.mk.injEq, heq_eq_eq] at h4
            obtain ⟨rfl, rfl, rfl⟩ := h4
            exact h3 rfl) (by
      intro v hv k hk
      have e1 := hid ⟨(List.range (numParams cat)).map v, (List.range tims.length).map (fun i => v (numParams cat + i)), true⟩
        ⟨List.replicate (numParams cat) 0, List.replicate tims.length 0, true⟩ (by simp) (by simp) (by simp) (by simp) (by
          intro i y x t ht hy hx hne
          rw [(hall _ (by simp) (by simp)).1 i y x t ht hy hx, (hall _ (by simp) (by simp)).1 i y x t ht hy hx]
          congr 1
          have h0 := hv ⟨i, y, x⟩ ((mem_pixels tims i y x).2 ⟨t, ht, hy, hx⟩)
          rw [hw i y x t ht] at h0
          have h1 := (mul_eq_zero.1 h0).resolve_left hne
          rw [sum_congr rfl (fun k hk => by rw [theta_of _ _ _ _ _ (mem_range.1 hk)]), h1]
          symm
          exact sum_eq_zero (fun m _ => by rw [theta_zero, zero_mul]))
      have e2 : (List.range (numParams cat)).map v = List.replicate (numParams cat) 0 := e1.1
      have e3 : ((List.range (numParams cat)).map v)[k]? = (List.replicate (numParams cat) (0 : R))[k]? := by rw [e2]
      have hk := mem_range.1 hk
      rw [List.getElem?_map, List.getElem?_range hk, List.getElem?_replicate, if_pos hk] at e3
      simpa using e3) k (mem_range.2 hk)
  have em : ∑ j ∈ J, ω j * ((theta (numParams cat) (S j) k - theta (numParams cat) q k) * (theta (numParams cat) (S j) k - theta (numParams cat) q k)) =
      meanSq J ω S q k := by
    unfold meanSq theta
    rw [if_pos hk]
    refine sum_congr rfl (fun j _ => ?_)
    rw [if_pos hk, sq]
  rw [em, ← einfo] at main
  refine ⟨main.1, fun hsk hiso => main.2 (fun l hl hne => ?_)⟩
  rintro ⟨i, y, x⟩ hπ
  obtain ⟨t, ht, hy, hx⟩ := (mem_pixels tims i y x).1 hπ
  rw [hw i y x t ht]
  by_cases h1 : t.ie.px y x = 0
  · rw [h1]; ring
  subst hsk
  have unit : ∀ m < numParams cat, pixel minsb (tims, setParams cat ((List.replicate (numParams cat) 0).set m 1)) i y x =
      pixel minsb (tims, setParams cat (List.replicate (numParams cat) 0)) i y x → A ⟨i, y, x⟩ m = 0 := by
    intro m hm hp
    have a1 := (hall ⟨(List.replicate (numParams cat) 0).set m 1, List.replicate tims.length 0, true⟩ (by simp) (by simp)).1 i y x t ht hy hx
    have a2 := (hall ⟨List.replicate (numParams cat) 0, List.replicate tims.length 0, true⟩ (by simp) (by simp)).1 i y x t ht hy hx
    have a3 : pixel minsb (after false tims cat ⟨(List.replicate (numParams cat) 0).set m 1, List.replicate tims.length 0, true⟩) i y x =
        pixel minsb (after false tims cat ⟨List.replicate (numParams cat) 0, List.replicate tims.length 0, true⟩) i y x := hp
    have a4 : ∑ k ∈ range (numParams cat + tims.length), theta (numParams cat)
        (⟨(List.replicate (numParams cat) 0).set m 1, List.replicate tims.length 0, true⟩ : St R) k * A ⟨i, y, x⟩ k = A ⟨i, y, x⟩ m := by
      rw [sum_eq_single m]
      · rw [theta_unit _ _ _ _ (by omega) hm, if_pos rfl, one_mul]
      · intro k hk hne; rw [theta_unit _ _ _ _ (mem_range.1 hk) hm, if_neg hne, zero_mul]
      · intro h; exact absurd (mem_range.2 (by omega)) h
    have a5 : ∑ k ∈ range (numParams cat + tims.length), theta (numParams cat)
        (⟨List.replicate (numParams cat) 0, List.replicate tims.length 0, true⟩ : St R) k * A ⟨i, y, x⟩ k = 0 :=
      sum_eq_zero (fun k _ => by rw [theta_zero, zero_mul])
    rw [a1, a2, a4, a5] at a3
    linarith
  by_cases hln : l < numParams cat
  · rcases hiso i y x t ht hy hx h1 with h2 | h2
    · rw [unit k hk (h2 _ 1 (by simp))]; ring
    · rw [unit l hln (h2 l hne _ 1 (by simp))]; ring
  · rw [hA0 rfl _ l hln]; ring

/-- **C149.** Images of one field with uncorrelated noise of the size that the inverse errors say (and any noise in pixels with zero inverse error),
fluxes that can be told from the pixels, and a fit as in C138: for every flux the mean squared difference from the true flux is at least one over the
inverse variance that `variance=True` reports, and without a fitted sky it is one over it if the source shares no pixels with others.  So reported errors
are right for isolated sources and never too large. -/
theorem C149_scatter [IsStrictOrderedRing R] (sqrt : R → R) (hsq : Lsq.SqrtOK sqrt) (tiny : R) (lsqr : Lsq.Problem R → List R) (hls : Lsq.Solves lsqr)
    (c : Cfg R) (minsb : R) (tims : List (Tim R M)) (cat : List (Source R)) (fuel : Nat)
    (ht : ∀ t ∈ tims, Suits minsb cat t) (hs : ∀ t ∈ tims, t.ie.h = t.data.h ∧ t.ie.w = t.data.w) (hw : ∀ t ∈ tims, t.data.w * t.data.h < 2 ^ 31)
    (hm : c.minFlux = none) (hpr : c.priors = false) (hro : c.rois = false) (hj : c.justims0 = false) (hda : c.damp = 0)
    (skyvariance : Bool) (hsky : (c.sky && skyvariance) = false) (nsky : Nat) (skyderivs : List (List (Patch R × Forced.Tim R)))
    {κ : Type} (J : Finset κ) (ω : κ → R) (D : κ → Nat → Nat → Nat → R) (shared : Option (List Nat))
    (hsh : shared = none ∨ ∀ j ∈ J, ∃ st : Lsq.Store R, shared = some (Lsq.sharedMap st).1 ∧
      st.cells.length = (derivs minsb c.sky (withPixels tims (D j)) cat).length ∧ st.cells.Nodup ∧ Seen (withPixels tims (D j))
        (((derivs minsb c.sky (withPixels tims (D j)) cat)[(derivs minsb c.sky (withPixels tims (D j)) cat).length - 1]?).getD []))
    (q : St R) (hq : q.flux.length = numParams cat) (hl : q.sky.length = tims.length)
    (hN : WhiteNoise tims J ω D (pixel minsb (after c.sky tims cat q))) (hid : Identifiable minsb c.sky tims cat) :
    ∃ r : κ → Option (List R), (∀ j ∈ J, firstDir sqrt tiny lsqr minsb c.sky (withPixels tims (D j)) cat shared = .ok (r j)) ∧
      ∀ dir : κ → Nat → St R → R → Option (List R), (∀ j ∈ J, dir j 0 (start (withPixels tims (D j)) cat) 0 = r j) →
        ∃ S : κ → St R, (∀ j ∈ J, forced c (objective minsb c.sky (withPixels tims (D j)) cat) (dir j) (fuel + 1) (start (withPixels tims (D j)) cat) =
            (S j, some (.ok ()))) ∧
          ∃ iv, reportedIv skyvariance nsky skyderivs minsb c.sky tims cat = .ok iv ∧ iv.length = numParams cat ∧ ∀ k < numParams cat,
            1 ≤ iv.getD k 0 * meanSq J ω S q k ∧ (c.sky = false → Isolated minsb tims cat k → iv.getD k 0 * meanSq J ω S q k = 1) := by
  classical
  have each := fun (j : κ) (hjJ : j ∈ J) => C138_best_partial sqrt hsq tiny lsqr hls c minsb (withPixels tims (D j)) cat fuel (withPixels_suits (D j) ht)
    (fun t' h => by obtain ⟨i, t, h1, rfl⟩ := withPixels_mem h; exact hs t h1) (fun t' h => by obtain ⟨i, t, h1, rfl⟩ := withPixels_mem h; exact hw t h1)
    hm hpr hro hj hda shared (by
      rcases hsh with h | h
      · exact .inl h
      · exact .inr (h j hjJ))
  choose r hr1 hr2 using each
  refine ⟨fun j => if h : j ∈ J then r j h else none, fun j h => by beta_reduce; rw [dif_pos h]; exact hr1 j h, fun dir hdir => ?_⟩
  have each2 := fun (j : κ) (h : j ∈ J) => hr2 j h (dir j) (by rw [hdir j h]; beta_reduce; rw [dif_pos h])
  choose S hS1 hS2 using each2
  have eS : ∀ j (h : j ∈ J), (if h : j ∈ J then S j h else start tims cat) = S j h := fun j h => by rw [dif_pos h]
  exact ⟨fun j => if h : j ∈ J then S j h else start tims cat, fun j h => by beta_reduce; rw [eS j h]; exact hS1 j h,
    scatter_core skyvariance nsky skyderivs minsb c.sky hsky tims cat (fun t h => (ht t h).ready) hs J ω D
      (fun j => if h : j ∈ J then S j h else start tims cat) q hq hl (fun j h => by beta_reduce; rw [eS j h]; exact hS2 j h) hN hid⟩

/-! Two stars in two pixels: the first in the first pixel, the second in one or both.  Noise of 1 and -1 in each pixel. -/

/-- The models of the two stars: `wide` for the second in both pixels. -/
def exTimB (wide : Bool) : Tim ℚ Unit := ⟨Arr.ofLists [[8, 3]] 2, Arr.ofLists [[1, 1]] 2, "r", 1, 0, 0,
  ⟨fun i _ _ _ => if i = 0 then some ⟨0, 0, some (Arr.ofLists [[1]] 1)⟩ else
    if wide then some ⟨0, 0, some (Arr.ofLists [[1, 1]] 2)⟩ else some ⟨1, 0, some (Arr.ofLists [[1]] 1)⟩, fun _ => none, false⟩⟩

def exCatB : List (Source ℚ) := [⟨0, true, [exB 7 1]⟩, ⟨1, true, [exB 7 1]⟩]

/-- Pixel values `a` and `b` and noise. -/
def exNoiseB (a b : ℚ) (j : Bool × Bool) (_ _ x : Nat) : ℚ := if x = 0 then (if j.1 then a + 1 else a - 1) else (if j.2 then b + 1 else b - 1)

theorem exSuitsB (wide : Bool) : ∀ t ∈ [exTimB wide], Suits 0 exCatB t := by
  intro t h
  rw [List.mem_singleton] at h
  subst h
  exact ⟨by simp [exCatB, Linmod.exB, exTimB], by simp [exTimB], fun _ _ _ => .inl (fun _ _ _ => rfl)⟩

/-- The pixels of the models. -/
theorem exPixB (wide : Bool) (f g : ℚ) (l : List ℚ) (b : Bool) :
    pixel 0 (after false [exTimB wide] exCatB ⟨[f, g], l, b⟩) 0 0 0 = f + (if wide then g else 0) ∧
    pixel 0 (after false [exTimB wide] exCatB ⟨[f, g], l, b⟩) 0 0 1 = g := by
  obtain ⟨c, h⟩ := modelImage_affine (exTimB wide).W (exTimB wide).img 0 exCatB (exSuitsB wide _ (List.mem_singleton.2 rfl)).ready
  obtain ⟨u, hu⟩ : ∃ u : Nat → Nat → ℚ, u = fun k (x : Nat) => (exTimB wide).img.scale * valAt x (0 : Nat) ((umods (exTimB wide).W (exTimB wide).img 0 exCatB).getD k none) := ⟨_, rfl⟩
  have val : ∀ (f g : ℚ) (l : List ℚ) (b : Bool) (x : Nat), x < 2 → pixel 0 (after false [exTimB wide] exCatB ⟨[f, g], l, b⟩) 0 0 x = c 0 x + f * u 0 x + g * u 1 x := by
    intro f g l b x hx
    obtain ⟨B, b1, _, _, b2⟩ := h [f, g] 0 rfl
    have e0 : (after false [exTimB wide] exCatB ⟨[f, g], l, b⟩).1[0]? = some (exTimB wide) := rfl
    have e1 : (after false [exTimB wide] exCatB ⟨[f, g], l, b⟩).2 = setParams exCatB [f, g] := rfl
    have b1' : modelImage (exTimB wide).W (exTimB wide).img 0 true (setParams exCatB [f, g]) = .ok B := b1
    unfold pixel
    rw [e0, e1]
    dsimp only
    rw [b1']
    dsimp only
    rw [b2 0 x Nat.zero_lt_one hx]
    change c 0 x + 0 + ∑ k ∈ range 2, _ = _
    rw [sum_range_succ, sum_range_one, hu, add_zero, add_assoc]; rfl
  have hz : ∀ x, x < 2 → c 0 x = 0 := by
    intro x hx
    have := val 0 0 [] true x hx
    obtain rfl | rfl : x = 0 ∨ x = 1 := by omega
    · rw [show pixel 0 (after false [exTimB wide] exCatB ⟨[0, 0], [], true⟩) 0 0 0 = 0 by cases wide <;> decide +kernel] at this
      linarith
    · rw [show pixel 0 (after false [exTimB wide] exCatB ⟨[0, 0], [], true⟩) 0 0 1 = 0 by cases wide <;> decide +kernel] at this
      linarith
  have u00 := val 1 0 [] true 0 (by decide)
  have u10 := val 0 1 [] true 0 (by decide)
  have u01 := val 1 0 [] true 1 (by decide)
  have u11 := val 0 1 [] true 1 (by decide)
  rw [show pixel 0 (after false [exTimB wide] exCatB ⟨[1, 0], [], true⟩) 0 0 0 = 1 by cases wide <;> decide +kernel, hz 0 (by decide)] at u00
  rw [show pixel 0 (after false [exTimB wide] exCatB ⟨[0, 1], [], true⟩) 0 0 0 = (if wide then 1 else 0) by cases wide <;> decide +kernel, hz 0 (by decide)] at u10
  rw [show pixel 0 (after false [exTimB wide] exCatB ⟨[1, 0], [], true⟩) 0 0 1 = 0 by cases wide <;> decide +kernel, hz 1 (by decide)] at u01
  rw [show pixel 0 (after false [exTimB wide] exCatB ⟨[0, 1], [], true⟩) 0 0 1 = 1 by cases wide <;> decide +kernel, hz 1 (by decide)] at u11
  have v00 : u 0 0 = 1 := by linarith
  have v10 : u 1 0 = if wide then 1 else 0 := by linarith
  have v01 : u 0 1 = 0 := by linarith
  have v11 : u 1 1 = 1 := by linarith
  constructor
  · rw [val f g l b 0 (by decide), hz 0 (by decide), v00, v10]
    cases wide
    · simp
    · simp
  · rw [val f g l b 1 (by decide), hz 1 (by decide), v01, v11]
    ring

theorem two_of {l : List ℚ} (h : l.length = 2) : ∃ a b, l = [a, b] := List.length_eq_two.1 h

theorem exIdentB (wide : Bool) : Identifiable 0 false [exTimB wide] exCatB := by
  rintro ⟨p, l, b⟩ ⟨p', l', b'⟩ h1 _ h3 _ hpx
  obtain ⟨f, g, rfl⟩ := two_of (show p.length = 2 from h1)
  obtain ⟨f', g', rfl⟩ := two_of (show p'.length = 2 from h3)
  have x0 := hpx 0 0 0 (exTimB wide) rfl Nat.zero_lt_one Nat.zero_lt_two (by cases wide <;> decide +kernel)
  have x1 := hpx 0 0 1 (exTimB wide) rfl Nat.zero_lt_one Nat.one_lt_two (by cases wide <;> decide +kernel)
  rw [(exPixB wide f g l b).1, (exPixB wide f' g' l' b').1] at x0
  rw [(exPixB wide f g l b).2, (exPixB wide f' g' l' b').2] at x1
  subst x1
  have : f = f' := by linarith
  exact ⟨by rw [this], fun h => by cases h⟩

theorem exWhiteB (wide : Bool) (f g : ℚ) (l : List ℚ) (b : Bool) :
    WhiteNoise [exTimB wide] (univ : Finset (Bool × Bool)) (fun _ => 1 / 4) (exNoiseB (f + (if wide then g else 0)) g)
      (pixel 0 (after false [exTimB wide] exCatB ⟨[f, g], l, b⟩)) := by
  have hp := exPixB wide f g l b
  have px : ∀ (i y x : Nat) (t : Tim ℚ Unit), [exTimB wide][i]? = some t → y < t.data.h → x < t.data.w → t = exTimB wide ∧ i = 0 ∧ y = 0 ∧ (x = 0 ∨ x = 1) := by
    intro i y x t ht hy hx
    cases i with
    | succ i => simp at ht
    | zero =>
      injection ht with ht
      subst ht
      have hy : y < 1 := hy
      have hx : x < 2 := hx
      exact ⟨rfl, rfl, by omega, by omega⟩
  refine ⟨fun _ _ => by norm_num, ?_, ?_⟩
  · intro i y x t ht hy hx _
    obtain ⟨rfl, rfl, rfl, rfl | rfl⟩ := px i y x t ht hy hx
    · rw [hp.1, Fintype.sum_prod_type]
      have : (exTimB wide).ie.px 0 0 = 1 := by cases wide <;> decide +kernel
      simp only [Fintype.sum_bool, exNoiseB, this]
      norm_num
    · rw [hp.2, Fintype.sum_prod_type]
      have : (exTimB wide).ie.px 0 1 = 1 := by cases wide <;> decide +kernel
      simp only [Fintype.sum_bool, exNoiseB, this]
      norm_num
  · intro i y x t i' y' x' t' ht hy hx _ ht' hy' hx' _ hne
    obtain ⟨rfl, rfl, rfl, rfl | rfl⟩ := px i y x t ht hy hx <;> obtain ⟨rfl, rfl, rfl, rfl | rfl⟩ := px i' y' x' t' ht' hy' hx'
    · exact absurd rfl hne
    · rw [hp.1, hp.2, Fintype.sum_prod_type]
      simp only [Fintype.sum_bool, exNoiseB]
      norm_num
    · rw [hp.1, hp.2, Fintype.sum_prod_type]
      simp only [Fintype.sum_bool, exNoiseB]
      norm_num
    · exact absurd rfl hne

theorem exIsolated : Isolated 0 [exTimB false] exCatB 0 := by
  intro i y x t ht hy hx _
  have key : ∀ (p : List ℚ), p.length = 2 → pixel 0 ([exTimB false], setParams exCatB p) 0 0 0 = p.getD 0 0 ∧
      pixel 0 ([exTimB false], setParams exCatB p) 0 0 1 = p.getD 1 0 := by
    intro p hp
    obtain ⟨f, g, rfl⟩ := two_of hp
    have e := exPixB false f g [] true
    simp only [Bool.false_eq_true, if_false, add_zero] at e
    exact e
  cases i with
  | succ i => simp at ht
  | zero =>
    injection ht with ht
    subst ht
    have hy : y < 1 := hy
    have hx : x < 2 := hx
    obtain rfl : y = 0 := by omega
    obtain rfl | rfl : x = 0 ∨ x = 1 := by omega
    · right
      intro l hl p f hp
      rw [(key _ (by rw [List.length_set]; exact hp)).1, (key p hp).1, List.getD, List.getD, List.getElem?_set_ne hl]
    · left
      intro p f hp
      rw [(key _ (by rw [List.length_set]; exact hp)).2, (key p hp).2, List.getD, List.getD, List.getElem?_set_ne (by decide)]

/-- Two stars apart: the reported inverse variance is 1, and so is the mean squared error of the flux of the first. -/
example (lsqr : Lsq.Problem ℚ → List ℚ) (hl : Lsq.Solves lsqr) : (reportedIv false 0 [] 0 false [exTimB false] exCatB).toOption = some [1, 1] ∧
    ∃ (r : Bool × Bool → Option (List ℚ)) (S : Bool × Bool → St ℚ),
      (∀ j, firstDir id 0 lsqr 0 false (withPixels [exTimB false] (exNoiseB 8 3 j)) exCatB none = .ok (r j)) ∧
      (∀ j, forced exCfg0 (objective 0 false (withPixels [exTimB false] (exNoiseB 8 3 j)) exCatB) (fun _ _ _ => r j) 1
        (start (withPixels [exTimB false] (exNoiseB 8 3 j)) exCatB) = (S j, some (.ok ()))) ∧
      meanSq univ (fun _ => 1 / 4) S ⟨[8, 3], [0], true⟩ 0 = 1 := by
  have hI : (reportedIv false 0 [] 0 false [exTimB false] exCatB).toOption = some [1, 1] := by decide +kernel
  refine ⟨hI, ?_⟩
  have hN := exWhiteB false 8 3 [0] true
  simp only [Bool.false_eq_true, if_false, add_zero] at hN
  obtain ⟨r, h1, h2⟩ := C149_scatter id (fun x hx => hx) 0 lsqr hl exCfg0 0 [exTimB false] exCatB 0 (exSuitsB false)
    (by simp [exTimB, Arr.ofLists]) (by simp [exTimB, Arr.ofLists]) rfl rfl rfl rfl rfl false rfl 0 [] univ (fun _ => 1 / 4) (exNoiseB 8 3) none (.inl rfl)
    ⟨[8, 3], [0], true⟩ rfl rfl hN (exIdentB false)
  obtain ⟨S, g1, iv, g2, g3, g4⟩ := h2 (fun j _ _ _ => r j) (fun _ _ => rfl)
  have g5 := (g4 0 (by decide)).2 rfl exIsolated
  have e : reportedIv false 0 [] 0 exCfg0.sky [exTimB false] exCatB = .ok iv := g2
  have e' : (reportedIv false 0 [] 0 exCfg0.sky [exTimB false] exCatB).toOption = some [1, 1] := hI
  rw [e] at e'
  injection e' with e'
  rw [e'] at g5
  refine ⟨r, S, fun j => h1 j (mem_univ _), fun j => g1 j (mem_univ _), ?_⟩
  have g6 : (1 : ℚ) * meanSq univ (fun _ => 1 / 4) S ⟨[8, 3], [0], true⟩ 0 = 1 := g5
  linarith

theorem pixel_withPixels (minsb : R) (sky : Bool) (tims : List (Tim R M)) (cat : List (Source R)) (d : Nat → Nat → Nat → R) (q : St R) (i y x : Nat) :
    pixel minsb (after sky (withPixels tims d) cat q) i y x = pixel minsb (after sky tims cat q) i y x := by
  unfold pixel after
  cases sky with
  | false =>
    simp only [Bool.false_eq_true, if_false]
    rw [withPixels_get]
    cases tims[i]? <;> rfl
  | true =>
    simp only [if_true]
    rw [setSky_get, setSky_get, withPixels_get]
    cases tims[i]? <;> rfl

theorem Identifiable.withPixels {minsb : R} {sky : Bool} {tims : List (Tim R M)} {cat : List (Source R)} (h : Identifiable minsb sky tims cat)
    (d : Nat → Nat → Nat → R) : Identifiable minsb sky (Fpfit.withPixels tims d) cat := by
  intro q q' h1 h2 h3 h4 h5
  rw [withPixels_length] at h2 h4
  refine h q q' h1 h2 h3 h4 (fun i y x t ht hy hx hne => ?_)
  have := h5 i y x { t with data := ⟨t.data.h, t.data.w, d i⟩ } (by rw [withPixels_get, ht]; rfl) hy hx hne
  rw [pixel_withPixels, pixel_withPixels] at this
  exact this

/-- **C149 (negation).** For blended sources the reported inverse variance is too large: two stars, the second also in the pixel of the first, noise of
1 and -1 in each pixel; whatever exact solver is used, the mean squared error of the first flux is 2, but its reported inverse variance is 1. -/
theorem C149_blend_false : ∃ (c : Cfg ℚ) (tims : List (Tim ℚ Unit)) (cat : List (Source ℚ)) (D : Bool × Bool → Nat → Nat → Nat → ℚ) (q : St ℚ),
    (∀ t ∈ tims, Suits 0 cat t) ∧ Identifiable 0 c.sky tims cat ∧
    WhiteNoise tims univ (fun _ => 1 / 4) D (pixel 0 (after c.sky tims cat q)) ∧
    (reportedIv false 0 [] 0 c.sky tims cat).toOption = some [1, 2] ∧
    ∀ lsqr : Lsq.Problem ℚ → List ℚ, Lsq.Solves lsqr → ∃ (r : Bool × Bool → Option (List ℚ)) (S : Bool × Bool → St ℚ),
      (∀ j, firstDir id 0 lsqr 0 c.sky (withPixels tims (D j)) cat none = .ok (r j)) ∧
      (∀ j, forced c (objective 0 c.sky (withPixels tims (D j)) cat) (fun _ _ _ => r j) 1 (start (withPixels tims (D j)) cat) = (S j, some (.ok ()))) ∧
      meanSq univ (fun _ => 1 / 4) S q 0 = 2 := by
  have hN := exWhiteB true 5 3 [0] true
  refine ⟨exCfg0, [exTimB true], exCatB, exNoiseB 8 3, ⟨[5, 3], [0], true⟩, exSuitsB true, exIdentB true, ?_, by decide +kernel, fun lsqr hl => ?_⟩
  · rw [show (5 : ℚ) + (if true = true then 3 else 0) = 8 by norm_num] at hN
    exact hN
  have each : ∀ j : Bool × Bool, ∃ (r : Option (List ℚ)) (s : St ℚ), firstDir id 0 lsqr 0 false (withPixels [exTimB true] (exNoiseB 8 3 j)) exCatB none = .ok r ∧
      forced exCfg0 (objective 0 false (withPixels [exTimB true] (exNoiseB 8 3 j)) exCatB) (fun _ _ _ => r) 1
        (start (withPixels [exTimB true] (exNoiseB 8 3 j)) exCatB) = (s, some (.ok ())) ∧
      s.flux = [exNoiseB 8 3 j 0 0 0 - exNoiseB 8 3 j 0 0 1, exNoiseB 8 3 j 0 0 1] := by
    intro j
    obtain ⟨r, h1, h2⟩ := C148_exact id (fun x hx => hx) 0 lsqr hl exCfg0 0 (withPixels [exTimB true] (exNoiseB 8 3 j)) exCatB 0
      (withPixels_suits _ (exSuitsB true)) (by simp [withPixels, exTimB, Arr.ofLists]) (by simp [withPixels, exTimB, Arr.ofLists]) rfl rfl rfl rfl rfl none (.inl rfl)
      ⟨[exNoiseB 8 3 j 0 0 0 - exNoiseB 8 3 j 0 0 1, exNoiseB 8 3 j 0 0 1], [0], true⟩ rfl rfl (by
        intro i y x t ht hy hx _
        rw [pixel_withPixels]
        cases i with
        | succ i => rw [withPixels_get] at ht; simp at ht
        | zero =>
          rw [withPixels_get] at ht
          injection ht with ht
          subst ht
          have hy : y < 1 := hy
          have hx : x < 2 := hx
          obtain rfl : y = 0 := by omega
          have hp := exPixB true (exNoiseB 8 3 j 0 0 0 - exNoiseB 8 3 j 0 0 1) (exNoiseB 8 3 j 0 0 1) [0] true
          obtain rfl | rfl : x = 0 ∨ x = 1 := by omega
          · refine Eq.trans ?_ hp.1.symm
            simp only [if_true]
            ring
          · exact hp.2.symm)
    obtain ⟨s, g1, _, g2⟩ := h2 (fun _ _ _ => r) rfl
    exact ⟨r, s, h1, g1, (g2 ((exIdentB true).withPixels _)).1⟩
  choose r S h1 h2 h3 using each
  refine ⟨r, S, h1, h2, ?_⟩
  unfold meanSq
  simp only [h3]
  rw [Fintype.sum_prod_type]
  simp only [Fintype.sum_bool, exNoiseB]
  norm_num

end Verif.Fpfit
