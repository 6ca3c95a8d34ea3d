import Verif.Forced.StatsLemmas4
import Mathlib.Algebra.Order.Ring.Rat
import Mathlib.Algebra.Field.Rat

/-!
# Properties of the fit statistics of forced photometry (C94)
-/

namespace Verif.Forced

open Verif Patches

variable {R : Type} [Field R] [LinearOrder R]

/-! ### C94: fit statistics -/

/-- Spec: the profile of a source in an image whose region of interest begins at (x0, y0): the sum of counts · unit-flux model
of its components, divided by its total counts. -/
def profileIn (ums : List (Option (Patch R))) (cc : List R) (x0 y0 : Int) (y x : Nat) : R :=
  ((ums.zip cc).map (fun q => unitAt q.1 (x + x0) (y + y0) * q.2)).sum / cc.sum

/-- Spec: what image `k` contributes to source `si`; the sky is taken out of the model image. -/
def imageOf (ums : Nat → List (List (Option (Patch R)))) (x0 y0 : Nat → Int) (si : Nat) (src : Src R) (q : Best R × Nat) :
    Acc R :=
  contribution q.1 (fun y x => q.1.mod y x - q.1.level y x)
    (profileIn (((ums q.2)[si]?).getD []) (src.counts q.2) (x0 q.2) (y0 q.2)) (src.counts q.2).sum

omit [LinearOrder R] in
theorem profile_eq (l : List (Option (Patch R))) (cc : List R) (x0 y0 : Int) :
    profile ((l.map (shiftUm x0 y0)).zip cc) cc = profileIn l cc x0 y0 := by
  funext y x
  unfold profile profileIn compsAt
  rw [List.zip_map_left, List.map_map]
  congr 2
  apply List.map_congr_left
  intro q _
  simp only [Function.comp_apply, Prod.map, id, shiftUm_at]

/-- **C94.** If the thawed sources come before the frozen ones, every sky has a `val`, every image has as many unit-flux
models of a source as the first one, and no unit-flux model begins to the left of or below its image, then the fit statistics
are what they are said to be, for each thawed source and each image, whatever the number of images, sources and
components; and the model images are left as they were. -/
theorem C94_fitstats_partial (catalog : List (Src R)) (bs : List (Best R)) (ums : Nat → List (List (Option (Patch R))))
    (x0 y0 : Nat → Int) (nextra : Nat)
    (hfirst : catalog.filter (fun s => !s.frozen) <+: catalog)
    (hn : (ums 0).length = (catalog.filter (fun s => !s.frozen)).length)
    (hbs : ∀ (k : Nat) b, bs[k]? = some b → b.umods = imageUmods (x0 k) (y0 k) (ums k) ∧
      (ums k).map List.length = (ums 0).map List.length ∧ b.extras.length = nextra ∧ b.skyval.isSome ∧ b.scale ≠ 0)
    (hpos : ∀ k, k < bs.length → ∀ l ∈ ums k, ∀ um ∈ l, ∀ p, shiftUm (x0 k) (y0 k) um = some p → 0 ≤ p.x0 ∧ 0 ≤ p.y0) :
    ∃ st, getFitstats catalog bs (umodsFor 0 (ums 0)) nextra = (bs, .ok st) ∧
      st.imchisq = bs.map (fun b => pixSum b.h b.w (fun y x => b.chi y x ^ 2)) ∧
      st.imnpix = bs.map (fun b => pixSum b.h b.w (fun y x => if 0 < b.ie y x then 1 else 0)) ∧
      st.sky.map some = bs.map (·.skyval) ∧
      st.srcs.length = (catalog.filter (fun s => !s.frozen)).length ∧
      ∀ (si : Nat) src, (catalog.filter (fun s => !s.frozen))[si]? = some src → ∃ t, st.srcs[si]? = some t ∧
        let I := bs.zipIdx.map (imageOf ums x0 y0 si src)
        t.prochi2 = (I.map (·.prochi2)).sum ∧ t.pronpix = (I.map (·.pronpix)).sum ∧
        t.promasked = (I.map (·.promasked)).sum ∧
        t.profracflux = (I.map (·.fracfluxNum)).sum / max 1 (I.map (·.fracfluxDen)).sum ∧
        t.proflux = (I.map (·.proflux)).sum ∧ t.npix = (I.map (·.npix)).sum ∧
        t.fracin = (I.map (·.fracinNum)).sum / max 1 (I.map (·.fracinDen)).sum ∧
        t.extras.length = nextra ∧
        ∀ e, e < nextra → t.extras.getD e 0 = (I.map (fun a => a.extras.getD e 0)).sum := by
  set thawed := catalog.filter (fun s => !s.frozen) with hth
  obtain ⟨rest, hrest⟩ := hfirst
  have hcat : ∀ (si : Nat) src, thawed[si]? = some src → catalog[si]? = some src := by
    intro si src h
    rw [← hrest, List.getElem?_append_left (by
      rcases Nat.lt_or_ge si thawed.length with h' | h'
      · exact h'
      · rw [List.getElem?_eq_none h'] at h; simp at h)]
    exact h
  have hmem : ∀ b ∈ bs, ∃ k : Nat, k < bs.length ∧ bs[k]? = some b := by
    intro b hb
    obtain ⟨k, hk, rfl⟩ := List.mem_iff_getElem.mp hb
    exact ⟨k, hk, List.getElem?_eq_getElem hk⟩
  obtain ⟨vs, hv1, hv2⟩ := subSkies_ok bs (fun b hb => by
    obtain ⟨k, _, hk⟩ := hmem b hb
    exact (hbs k b hk).2.2.2.1)
  have hclean : Clean ((bs.map (addSky (-1))).map (fun b => Arr.zeros b.h b.w)) (bs.map (addSky (-1))) := by
    generalize bs.map (addSky (-1)) = L
    induction L with
    | nil => exact .nil
    | cons b L ih => exact .cons ⟨rfl, rfl, fun _ _ _ _ => rfl⟩ ih
  -- the unit-flux models of source `si` in image `k`
  have hget : ∀ (k : Nat) b, bs[k]? = some b → ∀ (si : Nat) uis, (umodsFor 0 (ums 0))[si]? = some uis →
      ∃ l, (ums k)[si]? = some l ∧ (∀ cc : List R, compsOf b.umods uis cc = (l.map (shiftUm (x0 k) (y0 k))).zip cc) ∧
        ∀ ui ∈ uis, ui < b.umods.length ∧ ∃ um ∈ l, (b.umods[ui]?).join = shiftUm (x0 k) (y0 k) um := by
    intro k b hk si uis hu
    obtain ⟨b1, b2, _⟩ := hbs k b hk
    rw [umodsFor_get] at hu
    obtain ⟨l0, hl0, rfl⟩ := Option.map_eq_some_iff.mp hu
    have hlen : ((ums k)[si]?).map List.length = ((ums 0)[si]?).map List.length := by
      rw [← List.getElem?_map, ← List.getElem?_map, b2]
    rw [hl0] at hlen
    obtain ⟨l, hl, hll⟩ := Option.map_eq_some_iff.mp hlen
    set L := (ums k).map (fun l => l.map (shiftUm (x0 k) (y0 k))) with hL
    have hLg : L[si]? = some (l.map (shiftUm (x0 k) (y0 k))) := by rw [hL, List.getElem?_map, hl]; rfl
    have hb : b.umods = L.flatten := b1
    have htake : (((ums 0).take si).map List.length).sum = ((L.take si).map List.length).sum := by
      rw [hL, List.map_take, List.map_take, List.map_map, ← b2]
      congr 2
      apply List.map_congr_left
      intro v _
      simp
    rw [htake, ← hll, ← List.length_map (f := shiftUm (x0 k) (y0 k)) (as := l), hb]
    refine ⟨l, hl, fun cc => compsOf_flatten L si _ hLg cc, ?_⟩
    intro ui hui
    obtain ⟨j, hj, rfl⟩ := List.mem_map.mp hui
    rw [List.mem_range] at hj
    have hf := flatten_get L si _ hLg j hj
    rw [Nat.zero_add]
    rw [List.getElem?_eq_getElem hj] at hf
    have hlt : ((L.take si).map List.length).sum + j < L.flatten.length := by
      by_contra hn
      rw [List.getElem?_eq_none (by omega)] at hf
      simp at hf
    refine ⟨hlt, l[j]'(by simpa using hj), List.getElem_mem _, ?_⟩
    rw [hf]
    simp
  obtain ⟨as, ha1, ha2, ha3⟩ := statsSources_ok catalog nextra (bs.map (addSky (-1))) (umodsFor 0 (ums 0)) 0 _ hclean
    (by
      intro uis hu b hb
      obtain ⟨b0, hb0, rfl⟩ := List.mem_map.mp hb
      obtain ⟨k, hk, hkb⟩ := hmem b0 hb0
      obtain ⟨si, hsi, rfl⟩ := List.mem_iff_getElem.mp hu
      obtain ⟨l, hl, _, h3⟩ := hget k b0 hkb si _ (List.getElem?_eq_getElem hsi)
      refine ⟨fun ui hui => (h3 ui hui).1, ?_, (hbs k b0 hkb).2.2.1⟩
      intro ui hui p hp
      obtain ⟨um, hum, he⟩ := (h3 ui hui).2
      exact hpos k hk l (List.mem_of_getElem? hl) um hum p (by rw [← he]; exact hp))
    (by
      rw [umodsFor_length, hn, ← hrest, List.length_append]
      omega)
  have hrun : getFitstats catalog bs (umodsFor 0 (ums 0)) nextra = (bs, .ok
      ⟨bs.map (fun b => total ((Arr.mk b.h b.w b.chi).map (fun v => v ^ 2))),
        bs.map (fun b => ((positions (Arr.mk b.h b.w b.ie)).filter (fun q => decide (b.ie q.1 q.2 > 0))).length), vs,
        as.map Acc.report⟩) := by
    unfold getFitstats
    simp only
    rw [hv1]
    simp only
    rw [ha1]
    simp only
    rw [List.map_map]
    congr 1
    conv_rhs => rw [← List.map_id bs]
    exact List.map_congr_left (fun b _ => addSky_back b)
  refine ⟨_, hrun, ?_, ?_, hv2, ?_, ?_⟩
  rotate_left
  rotate_left
  · simp only
    rw [List.length_map, ha2, umodsFor_length, hn]
  · intro si src hs
    have hsi : si < (umodsFor 0 (ums 0)).length := by
      rw [umodsFor_length, hn]
      by_contra hc
      rw [List.getElem?_eq_none (by omega)] at hs
      simp at hs
    have hu := List.getElem?_eq_getElem hsi
    have ha := ha3 si _ src hu (by rw [Nat.zero_add]; exact hcat si src hs)
    have hI : contribs (umodsFor 0 (ums 0))[si] src (bs.map (addSky (-1))) 0 =
        bs.zipIdx.map (imageOf ums x0 y0 si src) := by
      unfold contribs
      rw [List.zipIdx_map, List.map_map]
      apply List.map_congr_left
      intro q hq
      obtain ⟨b, k⟩ := q
      have hk : bs[k]? = some b := List.mem_zipIdx_iff_getElem?.mp hq
      obtain ⟨l, hl, h2, _⟩ := hget k b hk si _ hu
      simp only [Function.comp_apply, Prod.map, id, imageOf, hl, Option.getD_some]
      rw [← profile_eq, ← h2]
      have hm : (addSky (-1) b).mod = fun y x => b.mod y x - b.level y x := by
        funext y x
        simp only [addSky]
        ring
      rw [hm]
      rfl
    rw [hI] at ha
    obtain ⟨f1, f2, f3, f4, f5, f6, f7, f8, f9⟩ := foldl_add (bs.zipIdx.map (imageOf ums x0 y0 si src)) (Acc.zero nextra)
    obtain ⟨g1, g2⟩ := foldl_extras nextra (bs.zipIdx.map (imageOf ums x0 y0 si src)) (Acc.zero nextra) (by simp [Acc.zero])
      (by
        intro c hc
        obtain ⟨⟨b, k⟩, hq, rfl⟩ := List.mem_map.mp hc
        have hk : bs[k]? = some b := List.mem_zipIdx_iff_getElem?.mp hq
        simp only [imageOf, contribution, List.length_map]
        exact (hbs k b hk).2.2.1)
    refine ⟨_, by rw [List.getElem?_map, ha]; rfl, ?_⟩
    simp only [Acc.report]
    have hx : ∀ e, e < nextra → (List.foldl Acc.add (Acc.zero nextra) (bs.zipIdx.map (imageOf ums x0 y0 si src))).extras.getD e 0 =
        ((bs.zipIdx.map (imageOf ums x0 y0 si src)).map (fun a => a.extras.getD e 0)).sum := by
      intro e he
      rw [g2 e he]
      simp [Acc.zero, List.getD_eq_getElem?_getD, he]
    rw [f1, f2, f3, f4, f5, f6, f7, f8, f9]
    simp only [Acc.zero, zero_add, true_and]
    exact ⟨g1, hx⟩
  · apply List.map_congr_left
    intro b _
    rw [total_eq]
    rfl
  · apply List.map_congr_left
    intro b _
    have := sum_filter_map (positions (Arr.mk b.h b.w b.ie)) (fun q => decide (b.ie q.1 q.2 > 0)) (fun _ => (1 : Nat))
    rw [List.map_const', List.sum_replicate] at this
    have h2 : ∀ n : Nat, n • 1 = n := fun n => Nat.mul_one n
    rw [h2] at this
    rw [this]
    unfold positions
    rw [sum_positions]
    simp only [decide_eq_true_eq]
    rfl

/-- An image of one row for the examples: model image, inverse errors and chi from lists, sky level 1. -/
def exBest (w : Nat) (mod ie chi : List ℚ) (skyval : Option ℚ) (umods : List (Option (Patch ℚ))) : Best ℚ where
  h := 1
  w := w
  mod := (Arr.ofLists [mod] w).px
  ie := (Arr.ofLists [ie] w).px
  chi := (Arr.ofLists [chi] w).px
  level := fun _ _ => 1
  skyval := skyval
  umods := umods
  scale := 2
  extras := [(Arr.ofLists [[1, 10, 100]] w).px]

/-- The statistics in the examples: chi-squares of the images, their numbers of pixels, and for each source prochi2, pronpix,
promasked, profracflux, proflux, fracin, npix and the extra sums. -/
def exView (r : List (Best ℚ) × Except PyErr (Stats ℚ)) : Option (List (List ℚ)) :=
  r.2.toOption.map (fun st => st.imchisq :: st.imnpix.map (fun (n : Nat) => (n : ℚ)) :: st.srcs.map (fun t =>
    [t.prochi2, t.pronpix, t.promasked, t.profracflux, t.proflux, t.fracin, (t.npix : ℚ)] ++ t.extras))

/-- Two sources on an image of three pixels, the last of which is masked; the second source has two components. -/
example : exView (getFitstats [⟨false, fun _ => [4]⟩, ⟨false, fun _ => [1, 3]⟩]
    [exBest 3 [3, 6, 4] [1, 1, 0] [2, 3, 0] (some 1)
      (imageUmods 0 0 [[some ⟨0, 0, some (Arr.ofLists [[1 / 2, 1 / 2]] 2)⟩],
        [some ⟨1, 0, some (Arr.ofLists [[1]] 1)⟩, some ⟨1, 0, some (Arr.ofLists [[2 / 3, 1 / 3]] 2)⟩]])]
    (umodsFor 0 [[some ⟨0, 0, some (Arr.ofLists [[1 / 2, 1 / 2]] 2)⟩],
        [some ⟨1, 0, some (Arr.ofLists [[1]] 1)⟩, some ⟨1, 0, some (Arr.ofLists [[2 / 3, 1 / 3]] 2)⟩]]) 1) =
    some [[13], [2], [13 / 2, 1, 0, 3 / 4, 3 / 4, 1, 2, 11 / 2], [27 / 4, 3 / 4, 1 / 4, 2 / 3, 3 / 4, 1, 1, 15 / 2]] := by
  decide +kernel

/-- **C94 (negation).** A frozen source in front: the thawed source is measured with the brightness of the frozen one.  Here the
frozen source has no flux, so the thawed one, 4 counts in the middle of the image, is not measured at all. -/
theorem C94_frozen_false :
    let ums : List (List (Option (Patch ℚ))) := [[some ⟨1, 0, some (Arr.ofLists [[1]] 1)⟩]]
    exView (getFitstats [⟨true, fun _ => [0]⟩, ⟨false, fun _ => [4]⟩]
      [exBest 3 [1, 5, 1] [1, 1, 1] [0, 3, 0] (some 1) (imageUmods 0 0 ums)] (umodsFor 0 ums) 1) =
        some [[9], [3], [0, 0, 0, 0, 0, 0, 0, 0]] ∧
    exView (getFitstats [⟨false, fun _ => [4]⟩, ⟨true, fun _ => [0]⟩]
      [exBest 3 [1, 5, 1] [1, 1, 1] [0, 3, 0] (some 1) (imageUmods 0 0 ums)] (umodsFor 0 ums) 1) =
        some [[9], [3], [9, 1, 0, 0, 0, 1, 1, 10]] := by
  decide +kernel

/-- **C94 (negation).** A source whose unit-flux model begins outside the image is not measured although half of its flux
is on the image, and what it leaves behind in the work array spoils the measurement of the next source: its prochi2 is 45
instead of 9, and 5 times its flux is inside the image. -/
theorem C94_edge_false :
    let left : Option (Patch ℚ) := some ⟨-1, 0, some (Arr.ofLists [[1 / 2, 1 / 2]] 2)⟩
    let next : Option (Patch ℚ) := some ⟨0, 0, some (Arr.ofLists [[1]] 1)⟩
    let st (ums : List (List (Option (Patch ℚ)))) := exView (getFitstats [⟨false, fun _ => [8]⟩, ⟨false, fun _ => [1]⟩]
      [exBest 3 [6, 1, 1] [1, 1, 1] [3, 0, 0] (some 1) (imageUmods 0 0 ums)] (umodsFor 0 ums) 1)
    st [[left], [next]] = some [[9], [3], [0, 0, 0, 0, 0, 0, 0, 0], [45, 5, 0, 0, 0, 5, 1, 5]] ∧
    (st [[none], [next]]).map (fun r => r.map (fun t => t.take 2)) = some [[9], [3], [0, 0], [9, 1]] := by
  decide +kernel

/-- **C94 (negation).** A source all of whose pixels are masked is reported with no masked pixels at all. -/
theorem C94_masked_false :
    let ums : List (List (Option (Patch ℚ))) := [[some ⟨1, 0, some (Arr.ofLists [[1]] 1)⟩]]
    let st (ie : List ℚ) := (exView (getFitstats [⟨false, fun _ => [4]⟩]
      [exBest 3 [1, 5, 1] ie [0, 0, 0] (some 1) (imageUmods 0 0 ums)] (umodsFor 0 ums) 1)).map (fun r => r.drop 2)
    st [1, 0, 1] = some [[0, 0, 0, 0, 0, 0, 0, 0]] := by
  decide +kernel

/-- **C94 (negation).** With a sky that has no attribute `val` (no sky, a spline sky) in the first image there are no statistics but
an AttributeError, and the sky is missing from the model image afterwards. -/
theorem C94_sky_false {R : Type} [Field R] [LinearOrder R] (catalog : List (Src R)) (b : Best R) (bs : List (Best R))
    (uis : List (List Nat)) (nextra : Nat) (h : b.skyval = none) :
    ∃ b', getFitstats catalog (b :: bs) uis nextra = (b' :: bs, .error .attribute) ∧
      ∀ y x, b'.mod y x = b.mod y x - b.level y x := by
  refine ⟨addSky (-1) b, ?_, ?_⟩
  · simp only [getFitstats, subSkies, h]
  · intro y x
    simp only [addSky]
    ring

example : (getFitstats [] [exBest 1 [5] [1] [0] none []] [] 0).1.map (fun b => b.mod 0 0) = [4] := by decide +kernel

end Verif.Forced
