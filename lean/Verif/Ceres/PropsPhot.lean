import Verif.Ceres.DiceLemmas3
import Mathlib.Algebra.Order.Field.Basic
import Mathlib.Algebra.Order.Ring.Rat
import Mathlib.Algebra.Field.Rat
import Mathlib.Tactic.LinearCombination

/-!
# Ceres forced photometry: properties C56, C74, C75, C78
-/

namespace Verif.Ceres

open Verif Patches

variable {R : Type}

/-! ### Specification -/

section
variable [Field R]

/-- A forced-photometry problem: images with fixed model and scale; sky derivatives of each image, if the sky is fit;
unit-flux models, one row per image. -/
structure Phot (R : Type) where
  ims : List (Im R × Arr R × R)
  skys : Option (List (List (Patch R)))
  umodels : List (List (Option (Patch R)))

/-- Number of sky parameters in the images before image `i`: the parameters start with those of the images, in order. -/
def Phot.skyBefore (P : Phot R) (i : Nat) : Nat :=
  ((List.range i).map (fun k => ((P.skys.getD []).getD k []).length)).sum

/-- Number of sky parameters. -/
def Phot.nsky (P : Phot R) : Nat := P.skyBefore P.ims.length

/-- The model of image `i` at a pixel, for parameters `p`: fixed part, sky terms, and flux × scale × unit-flux model
of each source. -/
def Phot.model (P : Phot R) (p : List R) (i : Nat) (im : Im R × Arr R × R) (y x : Nat) : R :=
  im.2.1.px y x +
  ((((P.skys.getD []).getD i []).zipIdx.map (fun d => p.getD (P.skyBefore i + d.2) 0 * d.1.at (x : Int) (y : Int))).sum +
   ((P.umodels.getD i []).zipIdx.map (fun u => p.getD (P.nsky + u.2) 0 *
      (im.2.2 * (u.1.map (fun q => q.at (x : Int) (y : Int))).getD 0))).sum)

/-- Chi-squared over all images. -/
def Phot.chisq (P : Phot R) (p : List R) : R :=
  (P.ims.zipIdx.map (fun im =>
    ((List.range im.1.1.img.h).map (fun y => ((List.range im.1.1.img.w).map (fun x =>
      ((im.1.1.img.px y x - P.model p im.2 im.1 y x) * im.1.1.ie.px y x) ^ 2)).sum)).sum)).sum

/-- Images are not empty, arrays of an image have one shape, and there are as many rows as images. -/
structure Phot.OK (P : Phot R) : Prop where
  size : ∀ im ∈ P.ims, 0 < im.1.img.h ∧ 0 < im.1.img.w
  shape : ∀ im ∈ P.ims, im.1.ie.h = im.1.img.h ∧ im.1.ie.w = im.1.img.w ∧ im.2.1.h = im.1.img.h ∧ im.2.1.w = im.1.img.w
  rows : P.umodels.length = P.ims.length
  skyrows : ∀ s, P.skys = some s → s.length = P.ims.length

/-- There are `n` parameters: the sky parameters and one per unit-flux model. -/
def Phot.Params (P : Phot R) (n : Nat) : Prop := ∀ us ∈ P.umodels, P.nsky + us.length = n

end

section
variable [Field R] [DecidableEq R]

/-- What the code makes of it. -/
def Phot.Z (P : Phot R) : List (Entry R) := mkZ P.skys P.ims P.umodels

/-! ### Proof -/

omit [DecidableEq R] in
theorem Phot.entries (P : Phot R) (h : P.OK) :
    trips [] P.Z = P.ims.zipIdx.map (fun t => (t.2, t.1.1, t.1.2.1)) ∧
    (∀ e ∈ P.Z, ∃ im, P.ims[e.key]? = some im ∧ e.im = im.1 ∧ e.mod0 = im.2.1 ∧
      (∀ u ∈ e.umods.zipIdx e.off, ∀ n, P.Params n → u.2 < n)) ∧
    ∀ i im, P.ims[i]? = some im → ∀ (p : List R) (y x : Nat),
      im.2.1.px y x + ((P.Z.filter (fun e => e.key = i)).map (fun e =>
        modelFrom (fun j => p.getD j 0) e.scale e.off e.umods y x)).sum = P.model p i im y x := by
  have hzip : ∀ (i : Nat) (im : Im R × Arr R × R), P.ims[i]? = some im →
      (P.umodels.zip P.ims)[i]? = some (P.umodels.getD i [], im) := by
    intro i im hi
    have hlt : i < P.ims.length := (List.getElem?_eq_some_iff.1 hi).1
    have : P.umodels[i]? = some (P.umodels.getD i []) := by
      rw [List.getD_eq_getElem?_getD, List.getElem?_eq_getElem (by rw [h.rows]; exact hlt)]; rfl
    rw [List.getElem?_zip_eq_some]
    exact ⟨this, hi⟩
  have hkeys : ∀ nsky, ((P.umodels.zip P.ims).zipIdx.map (modEntry nsky)).map (·.key) = List.range P.ims.length := by
    intro nsky
    rw [List.map_map, show ((fun e : Entry R => e.key) ∘ modEntry nsky) = Prod.snd from rfl, List.zipIdx_map_snd]
    rw [List.length_zip, h.rows, Nat.min_self, List.range_eq_range']
  have htr : ∀ nsky, ((P.umodels.zip P.ims).zipIdx.map (modEntry nsky)).map (fun e => (e.key, e.im, e.mod0)) =
      P.ims.zipIdx.map (fun t => (t.2, t.1.1, t.1.2.1)) := by
    intro nsky
    have e : P.ims = (P.umodels.zip P.ims).map Prod.snd := by
      rw [List.map_snd_zip (by rw [h.rows])]
    conv_rhs => rw [e]
    rw [List.zipIdx_map, List.map_map, List.map_map]
    rfl
  have hmod : ∀ nsky, ∀ e ∈ (P.umodels.zip P.ims).zipIdx.map (modEntry nsky), ∃ im, P.ims[e.key]? = some im ∧
      e.im = im.1 ∧ e.mod0 = im.2.1 ∧ e.umods = P.umodels.getD e.key [] ∧ e.off = nsky ∧ e.umods ∈ P.umodels := by
    intro nsky e he
    obtain ⟨t, ht, rfl⟩ := List.mem_map.1 he
    have ht := List.mem_zipIdx_iff_getElem?.1 ht
    rw [List.getElem?_zip_eq_some] at ht
    refine ⟨t.1.2, ht.2, rfl, rfl, ?_, rfl, List.mem_of_getElem? ht.1⟩
    simp only [modEntry, List.getD_eq_getElem?_getD, ht.1, Option.getD_some]
  have hsrcmodel : ∀ (i : Nat) (im : Im R × Arr R × R) (p : List R) (nsky y x : Nat),
      modelFrom (fun j => p.getD j 0) im.2.2 nsky (P.umodels.getD i []) y x =
      ((P.umodels.getD i []).zipIdx.map (fun u => p.getD (nsky + u.2) 0 *
      (im.2.2 * (u.1.map (fun q => q.at (x : Int) (y : Int))).getD 0))).sum := by
    intro i im p nsky y x
    rw [modelFrom, List.zipIdx_eq_map_add, List.map_map]
    congr 1
  cases hsk : P.skys with
  | none =>
    have hns : P.nsky = 0 := by
      simp [Phot.nsky, Phot.skyBefore, hsk]
    have hZ : P.Z = (P.umodels.zip P.ims).zipIdx.map (modEntry 0) := by rw [Phot.Z, hsk, mkZ_nosky]
    rw [hZ]
    refine ⟨?_, ?_, ?_⟩
    · rw [trips_new _ _ (by rw [hkeys]; exact List.nodup_range) (by simp), htr, List.nil_append]
    · intro e he
      obtain ⟨im, h1, h2, h3, h4, h5, h6⟩ := hmod 0 e he
      refine ⟨im, h1, h2, h3, ?_⟩
      intro u hu n hn
      have := hn _ h6
      have hu := List.mem_zipIdx hu
      omega
    · intro i im hi p y x
      rw [filter_map_zipIdx (P.umodels.zip P.ims) (modEntry 0) (fun e : Entry R => e.key) (fun _ => rfl) _ i (hzip i im hi)]
      simp only [List.map_cons, List.map_nil, List.sum_cons, List.sum_nil, add_zero, modEntry, Phot.model, hsk]
      rw [hsrcmodel, hns]
      simp
  | some skys =>
    have hns : P.nsky = skyOff skys P.ims.length := by
      simp [Phot.nsky, Phot.skyBefore, hsk, skyOff]
    have hZ : P.Z = (P.ims.map (fun i => (i.1, i.2.1))).zipIdx.map (skyEntry skys) ++
      (P.umodels.zip P.ims).zipIdx.map (modEntry (skyOff skys P.ims.length)) := by rw [Phot.Z, hsk, mkZ_sky]
    have hskeys : ((P.ims.map (fun i => (i.1, i.2.1))).zipIdx.map (skyEntry skys)).map (·.key) = List.range P.ims.length := by
      rw [List.map_map, show ((fun e : Entry R => e.key) ∘ skyEntry skys) = Prod.snd from rfl, List.zipIdx_map_snd]
      rw [List.length_map, List.range_eq_range']
    have hstr : ((P.ims.map (fun i => (i.1, i.2.1))).zipIdx.map (skyEntry skys)).map (fun e => (e.key, e.im, e.mod0)) =
        P.ims.zipIdx.map (fun t => (t.2, t.1.1, t.1.2.1)) := by
      rw [List.zipIdx_map, List.map_map, List.map_map]
      rfl
    rw [hZ]
    refine ⟨?_, ?_, ?_⟩
    · rw [trips_append, trips_new ((P.ims.map (fun i => (i.1, i.2.1))).zipIdx.map (skyEntry skys)) _
        (by rw [hskeys]; exact List.nodup_range) (by simp), hstr, List.nil_append, trips_old]
      intro e he
      have := List.mem_map_of_mem (f := fun e : Entry R => e.key) he
      rw [hkeys] at this
      rw [List.map_map, show ((fun e : Nat × Im R × Arr R => e.1) ∘ fun t : (Im R × Arr R × R) × Nat => (t.2, t.1.1, t.1.2.1)) =
        Prod.snd from rfl, List.zipIdx_map_snd, ← List.range_eq_range']
      exact this
    · intro e he
      rcases List.mem_append.1 he with he | he
      · obtain ⟨t, ht, rfl⟩ := List.mem_map.1 he
        have ht := List.mem_zipIdx_iff_getElem?.1 ht
        rw [List.getElem?_map, Option.map_eq_some_iff] at ht
        obtain ⟨im, h1, h2⟩ := ht
        refine ⟨im, h1, by simp [skyEntry, ← h2], by simp [skyEntry, ← h2], ?_⟩
        intro u hu n hn
        have hlt : t.2 < P.ims.length := (List.getElem?_eq_some_iff.1 h1).1
        have hu := List.mem_zipIdx hu
        simp only [skyEntry, List.length_map] at hu
        have hn' : P.nsky ≤ n := by
          cases hum : P.umodels with
          | nil => have := h.rows; rw [hum] at this; simp at this; omega
          | cons us _ => have := hn us (by rw [hum]; simp); omega
        have : skyOff skys t.2 + (skys.getD t.2 []).length ≤ skyOff skys P.ims.length := by
          have mono : ∀ a b, a ≤ b → skyOff skys a ≤ skyOff skys b := by
            intro a b hab
            obtain ⟨c, rfl⟩ := Nat.exists_eq_add_of_le hab
            simp only [skyOff, List.range_add, List.map_append, List.sum_append]
            omega
          have h2 := mono (t.2 + 1) P.ims.length (by omega)
          rw [show skyOff skys (t.2 + 1) = skyOff skys t.2 + (skys.getD t.2 []).length by
            simp [skyOff, List.range_succ]] at h2
          exact h2
        omega
      · obtain ⟨im, h1, h2, h3, h4, h5, h6⟩ := hmod _ e he
        refine ⟨im, h1, h2, h3, ?_⟩
        intro u hu n hn
        have := hn _ h6
        have hu := List.mem_zipIdx hu
        omega
    · intro i im hi p y x
      rw [List.filter_append, filter_map_zipIdx (P.umodels.zip P.ims) (modEntry (skyOff skys P.ims.length)) (fun e : Entry R => e.key)
          (fun _ => rfl) _ i (hzip i im hi),
        filter_map_zipIdx _ (skyEntry skys) (fun e : Entry R => e.key) (fun _ => rfl) (im.1, im.2.1) i (by simp [hi])]
      simp only [List.map_cons, List.map_nil, List.sum_cons, List.sum_nil, add_zero, modEntry, Phot.model, hsk, skyEntry,
        List.cons_append, List.nil_append, Option.getD_some]
      rw [hsrcmodel, hns]
      congr 2
      rw [modelFrom, List.zipIdx_eq_map_add, List.zipIdx_map, List.map_map, List.map_map]
      congr 1
      refine List.map_congr_left (fun u _ => ?_)
      simp only [Function.comp, umodAt, Prod.map, Option.map_some, Option.getD_some, one_mul, id]
      rw [show P.skyBefore i = skyOff skys i by simp [skyOff, Phot.skyBefore, hsk]]

theorem Phot.run (P : Phot R) (h : P.OK) (B : Nat) (hB : 0 < B) :
    ∃ st, addEntries B P.Z ⟨[], [], [], 0⟩ = .ok st ∧ SlotsOK st.used st.next ∧
      (∀ j, j ∈ st.used.map (·.1) ↔
        ∃ e ∈ P.Z, ∃ u ∈ e.umods.zipIdx e.off, u.2 = j ∧ Handed e.im.img.h e.im.img.w u.1) ∧
      (st.blocks = [] → P.ims = []) ∧
      ∀ (p flux : List R), Compat (fun j => p.getD j 0) flux st.used → cost st.blocks flux = P.chisq p := by
  obtain ⟨htr, hent, hmodel⟩ := P.entries h
  have h1 : ∀ e ∈ P.Z, 0 < e.im.img.h ∧ 0 < e.im.img.w := by
    intro e he
    obtain ⟨im, hi, h2, -⟩ := hent e he
    rw [h2]; exact h.size im (List.mem_of_getElem? hi)
  have h2 : ∀ e ∈ P.Z, ∀ e' ∈ P.Z, e'.key = e.key → e'.im = e.im ∧ e'.mod0 = e.mod0 := by
    intro e he e' he' hk
    obtain ⟨im, hi, a1, a2, -⟩ := hent e he
    obtain ⟨im', hi', b1, b2, -⟩ := hent e' he'
    rw [hk, hi] at hi'
    injection hi' with hi'
    subst hi'
    exact ⟨b1.trans a1.symm, b2.trans a2.symm⟩
  obtain ⟨st, Qs, hrun, inv⟩ := run_ok B hB P.Z h1 h2
  have hq : ∀ q ∈ Qs, ∃ im, P.ims[q.key]? = some im ∧ q.im = im.1 ∧ q.mod0 = im.2.1 := by
    intro q hq
    have := List.mem_map_of_mem (f := Q.trip) hq
    rw [inv.trips, htr] at this
    obtain ⟨t, ht, e⟩ := List.mem_map.1 this
    have ht := List.mem_zipIdx_iff_getElem?.1 ht
    simp only [Q.trip, Prod.mk.injEq] at e
    exact ⟨t.1, by rw [← e.1]; exact ht, e.2.1.symm, e.2.2.symm⟩
  refine ⟨st, hrun, inv.slots, inv.used, ?_, ?_⟩
  · intro hb
    cases hi : P.ims with
    | nil => rfl
    | cons im ims =>
      exfalso
      have hl : (Qs.map Q.trip).length = P.ims.length := by rw [inv.trips, htr]; simp
      rw [List.length_map, hi] at hl
      cases hQ : Qs with
      | nil => rw [hQ] at hl; simp at hl
      | cons q Qs' =>
        rw [inv.blocks, hQ, allBlocks, List.flatMap_cons] at hb
        have h0 := (List.append_eq_nil_iff.1 hb).1
        have h00 := congrArg List.length h0
        rw [Q.blocks_length, List.length_nil] at h00
        obtain ⟨im', hi', a1, a2⟩ := hq q (by rw [hQ]; simp)
        obtain ⟨s1, s2⟩ := h.size im' (List.mem_of_getElem? hi')
        have d1 := div_lt_nblocks B q.im.img.h 0 hB (by rw [a1]; exact s1)
        have d2 := div_lt_nblocks B q.im.img.w 0 hB (by rw [a1]; exact s2)
        rcases Nat.mul_eq_zero.1 h00 with h | h
        · rw [Q.nbh] at h; rw [h] at d1; exact absurd d1 (Nat.not_lt_zero _)
        · rw [Q.nbw] at h; rw [h] at d2; exact absurd d2 (Nat.not_lt_zero _)
  · intro p flux hc
    rw [inv.blocks]
    rw [cost_all B hB flux (fun t => pixSum t.2.1.img.h t.2.1.img.w (fun y x =>
      ((t.2.1.img.px y x - (t.2.2.px y x + ((P.Z.filter (fun e => e.key = t.1)).map (fun e =>
        modelFrom (fun j => p.getD j 0) e.scale e.off e.umods y x)).sum)) * t.2.1.ie.px y x) ^ 2)), inv.trips, htr,
      List.map_map, Phot.chisq]
    · congr 1
      refine List.map_congr_left (fun t ht => ?_)
      have ht := List.mem_zipIdx_iff_getElem?.1 ht
      simp only [Function.comp]
      rw [pixSum]
      congr 1
      refine List.map_congr_left (fun y _ => ?_)
      congr 1
      refine List.map_congr_left (fun x _ => ?_)
      rw [hmodel t.2 t.1 ht p y x]
    · intro q hm
      obtain ⟨im, hi, a1, a2⟩ := hq q hm
      rw [q.cost B hB]
      · refine pixSum_congr _ _ _ _ (fun y x hy hx => ?_)
        rw [inv.content _ flux hc q hm y x hy hx]
        rfl
      · rw [SameShape, a1, a2]
        exact h.shape im (List.mem_of_getElem? hi)

/-! ### Properties -/

/-- **C56.** The images are diced and the models attached without error; the parameters that occur get the slots
0, 1, 2, …, each one slot; and for every parameter vector, the sum of the squared residuals of all blocks, with the slots
filled accordingly, is chi-squared over all pixels of all images. -/
theorem C56_dice (P : Phot R) (h : P.OK) (B : Nat) (hB : 0 < B) :
    ∃ st, addEntries B P.Z ⟨[], [], [], 0⟩ = .ok st ∧
      st.used.map (·.2) = List.range st.used.length ∧ (st.used.map (·.1)).Nodup ∧
      ∀ p flux : List R, (∀ u ∈ st.used, flux.getD u.2 0 = p.getD u.1 0) → cost st.blocks flux = P.chisq p := by
  obtain ⟨st, h1, h2, h3, -, h4⟩ := P.run h B hB
  refine ⟨st, h1, ?_, h2.2, h4⟩
  have := congrArg List.length h2.1
  rw [List.length_map, List.length_range] at this
  rw [this]; exact h2.1

omit [DecidableEq R] in
/-- **C56 (Jacobian).** The residuals of a block are exactly linear in the fluxes, with the Jacobian columns the cost
function reports. -/
theorem C56_jacobian (b : Block R) (flux flux' : List R) (r c : Nat) (hr : r < b.1.img.h) (hc : c < b.1.img.w)
    (h0 : 0 ≤ b.1.y0) (h1 : 0 ≤ b.1.x0) :
    (residuals flux' b).px r c = (residuals flux b).px r c +
      (b.2.map (fun s => (jacColumn b.1 s).px r c * (flux'.getD s.slot 0 - flux.getD s.slot 0))).sum := by
  have hy : b.1.y0 + r = ((b.1.y0.toNat + r : Nat) : Int) := by omega
  have hx : b.1.x0 + c = ((b.1.x0.toNat + c : Nat) : Int) := by omega
  simp only [residuals]
  rw [foldl_px flux' b.1 r c _ _ hr hc hy hx, foldl_px flux b.1 r c _ _ hr hc hy hx]
  have hj : ∀ s, (jacColumn b.1 s).px r c = -1 * srcAt s (b.1.y0.toNat + r) (b.1.x0.toNat + c) * b.1.ie.px r c := by
    intro s
    simp only [jacColumn, srcAt, hy, hx]
    by_cases h : s.y0 ≤ ((b.1.y0.toNat + r : Nat) : Int) ∧ ((b.1.y0.toNat + r : Nat) : Int) < s.y0 + s.px.h ∧
        s.x0 ≤ ((b.1.x0.toNat + c : Nat) : Int) ∧ ((b.1.x0.toNat + c : Nat) : Int) < s.x0 + s.px.w
    · rw [if_pos h, if_pos (by omega)]
    · rw [if_neg h, if_neg (by omega)]; ring
  simp only [hj]
  generalize b.2 = l
  induction l with
  | nil => simp [contrib]
  | cons s l ih =>
    simp only [List.map_cons, List.sum_cons, contrib] at ih ⊢
    linear_combination ih

/-- **C75.** If the solver returns a minimiser of the sum of squares it is given (one number per slot), then forced
photometry ends without error and the parameters afterwards minimise chi-squared over all pixels of all images. -/
theorem C75_minimiser [LinearOrder R] (P : Phot R) (h : P.OK) (B : Nat) (hB : 0 < B) (p0 : List R) (hn : P.Params p0.length)
    (solve : List (Block R) → List R → List R)
    (hsolve : ∀ st, addEntries B P.Z ⟨[], [], [], 0⟩ = .ok st → ∀ f0 f, cost st.blocks (solve st.blocks f0) ≤ cost st.blocks f) :
    ∃ p, forcedPhot B solve P.Z p0 false = .ok p ∧ p.length = p0.length ∧ ∀ p' : List R, P.chisq p ≤ P.chisq p' := by
  obtain ⟨st, hrun, hsl, hused, -, hcost⟩ := P.run h B hB
  have hlt : ∀ u ∈ st.used, u.1 < p0.length := by
    intro u hu
    obtain ⟨e, he, v, hv, e1, -⟩ := (hused u.1).1 (List.mem_map_of_mem hu)
    obtain ⟨im, -, -, -, hb⟩ := (P.entries h).2.1 e he
    rw [← e1]; exact hb v hv _ hn
  -- fluxes for given parameters
  have hfl : ∀ p' : List R, ∃ f : List R, Compat (fun j => p'.getD j 0) f st.used := by
    intro p'
    refine ⟨st.used.map (fun u => p'.getD u.1 0), ?_⟩
    intro u hu
    obtain ⟨k, hk⟩ := List.mem_iff_getElem?.1 hu
    have h2 : (st.used.map (·.2))[k]? = some u.2 := by simp [hk]
    rw [hsl.1] at h2
    obtain ⟨h3, h4⟩ := List.getElem?_eq_some_iff.1 h2
    rw [List.getElem_range] at h4
    rw [← h4]
    simp [List.getD_eq_getElem?_getD, hk]
  simp only [forcedPhot, hrun]
  by_cases h0 : st.blocks.length = 0 ∨ st.used.length = 0
  · refine ⟨p0, by rw [if_pos h0], rfl, ?_⟩
    intro p'
    rcases h0 with h0 | h0
    · have hb := List.length_eq_zero_iff.1 h0
      obtain ⟨f, hf⟩ := hfl p0
      obtain ⟨f', hf'⟩ := hfl p'
      rw [← hcost p0 f hf, ← hcost p' f' hf', hb]
      simp [cost]
    · have hu := List.length_eq_zero_iff.1 h0
      rw [← hcost p0 [] (by rw [hu]; intro u hu; simp at hu), ← hcost p' [] (by rw [hu]; intro u hu; simp at hu)]
  · rw [if_neg h0]
    have hslt : ∀ u ∈ st.used, u.2 < (List.replicate st.used.length (0 : R)).length := by
      intro u hu
      have h1 := List.mem_map_of_mem (f := fun u : Nat × Nat => u.2) hu
      have h2 := congrArg List.length hsl.1
      rw [hsl.1] at h1
      simp only [List.length_map, List.length_range, List.length_replicate] at h2 ⊢
      rw [h2]; exact List.mem_range.1 h1
    obtain ⟨f0, e1, e2, e3, e4⟩ := startFluxes_ok p0 st.used (List.replicate st.used.length 0) hlt hslt
      (by rw [hsl.1]; exact List.nodup_range)
    simp only [e1]
    obtain ⟨u1, u2, u3⟩ := unmap_get (solve st.blocks f0) p0.length st.used (List.replicate p0.length 0) (by simp) hlt hsl.2
    refine ⟨unmap (solve st.blocks f0) st.used p0.length, by simp only [Bool.false_eq_true, if_false], u1, ?_⟩
    intro p'
    obtain ⟨f', hf'⟩ := hfl p'
    rw [← hcost p' f' hf', ← hcost (unmap (solve st.blocks f0) st.used p0.length) (solve st.blocks f0)]
    · exact hsolve st hrun _ _
    · intro u hu
      exact (u2 u hu).symm

/-- **C75 (start).** The solver is started from the present parameters: chi-squared at the start is that of the parameters
before the call. -/
theorem C75_start (P : Phot R) (h : P.OK) (B : Nat) (hB : 0 < B) (p0 : List R) (hn : P.Params p0.length) :
    ∃ st f0, addEntries B P.Z ⟨[], [], [], 0⟩ = .ok st ∧
      startFluxes p0 st.used (List.replicate st.used.length 0) = .ok f0 ∧ cost st.blocks f0 = P.chisq p0 := by
  obtain ⟨st, hrun, hsl, hused, -, hcost⟩ := P.run h B hB
  have hlt : ∀ u ∈ st.used, u.1 < p0.length := by
    intro u hu
    obtain ⟨e, he, v, hv, e1, -⟩ := (hused u.1).1 (List.mem_map_of_mem hu)
    obtain ⟨im, -, -, -, hb⟩ := (P.entries h).2.1 e he
    rw [← e1]; exact hb v hv _ hn
  have hslt : ∀ u ∈ st.used, u.2 < (List.replicate st.used.length (0 : R)).length := by
    intro u hu
    have h1 := List.mem_map_of_mem (f := fun u : Nat × Nat => u.2) hu
    have h2 := congrArg List.length hsl.1
    rw [hsl.1] at h1
    simp only [List.length_map, List.length_range, List.length_replicate] at h2 ⊢
    rw [h2]; exact List.mem_range.1 h1
  obtain ⟨f0, e1, e2, e3, e4⟩ := startFluxes_ok p0 st.used (List.replicate st.used.length 0) hlt hslt
    (by rw [hsl.1]; exact List.nodup_range)
  exact ⟨st, f0, hrun, e1, hcost p0 f0 e3⟩

/-- The source with flux parameter `j` (counted among the sources) has no model in image row `us` of an image of
`h × w` pixels: there is none, or it is empty, or it begins right of or below the image. -/
def NoModel (us : List (Option (Patch R))) (j h w : Nat) : Prop :=
  ∀ p, us[j]? = some (some p) → p.patch = none ∨ (w : Int) ≤ p.x0 ∨ (h : Int) ≤ p.y0

omit [Field R] [DecidableEq R] in
theorem mem_zipIdx_off {β : Type} (l : List β) (k : Nat) (u : β × Nat) (h : u ∈ l.zipIdx k) : l[u.2 - k]? = some u.1 ∧ k ≤ u.2 := by
  have := List.mem_zipIdx h
  refine ⟨?_, this.1⟩
  rw [this.2.2]
  exact List.getElem?_eq_getElem _

/-- Something is to be fit: some model has a non-zero pixel in its image. -/
def Phot.Something (P : Phot R) : Prop :=
  ∃ t ∈ P.umodels.zip P.ims, ∃ p, some p ∈ t.1 ∧ ∃ y x : Nat, y < t.2.1.img.h ∧ x < t.2.1.img.w ∧
      p.at (x : Int) (y : Int) ≠ 0

theorem Phot.some_used (P : Phot R) (h : P.OK) (B : Nat) (hB : 0 < B) (hsome : P.Something) (st : St R)
    (hst : addEntries B P.Z ⟨[], [], [], 0⟩ = .ok st) : ¬ (st.blocks.length = 0 ∨ st.used.length = 0) := by
  obtain ⟨st', hrun, hsl, hused, hne, hcost⟩ := P.run h B hB
  obtain rfl : st' = st := by rw [hrun] at hst; injection hst
  have hmem2 : ∀ t ∈ P.umodels.zip P.ims, ∃ e ∈ P.Z, e.umods = t.1 ∧ e.im = t.2.1 := by
    intro t ht
    obtain ⟨k, hk⟩ := List.mem_iff_getElem?.1 ht
    have hz : (t, k) ∈ (P.umodels.zip P.ims).zipIdx := List.mem_zipIdx_iff_getElem?.2 hk
    cases hsk : P.skys with
    | none => exact ⟨_, by rw [Phot.Z, hsk, mkZ_nosky]; exact List.mem_map_of_mem hz, rfl, rfl⟩
    | some skys =>
      exact ⟨_, by rw [Phot.Z, hsk, mkZ_sky]; exact List.mem_append_right _ (List.mem_map_of_mem hz), rfl, rfl⟩
  obtain ⟨t, ht, p, hp, y, x, hy, hx, hat⟩ := hsome
  rintro (h0 | h0)
  · have := hne (List.length_eq_zero_iff.1 h0)
    rw [this] at ht; simp at ht
  · obtain ⟨e, he, t1, t2⟩ := hmem2 t ht
    obtain ⟨k, hk⟩ := List.mem_iff_getElem?.1 hp
    have hu : (some p, e.off + k) ∈ e.umods.zipIdx e.off := by
      rw [List.mem_zipIdx_iff_le_and_getElem?_sub]
      simp [t1, hk]
    have : e.off + k ∈ st'.used.map (·.1) := by
      refine (hused _).2 ⟨e, he, _, hu, rfl, p, rfl, ?_⟩
      intro hnone
      have := prep_at p e.im.img.h e.im.img.w y x (by rw [t2]; exact hy) (by rw [t2]; exact hx)
      rw [Patch.at, hnone] at this
      exact hat this.symm
    rw [List.length_eq_zero_iff.1 h0] at this
    simp at this

/-- **C74.** The flux of a source without model in any image is set to zero, provided something is fit at all (some model
has a non-zero pixel in its image). -/
theorem C74_zeroed_partial (P : Phot R) (h : P.OK) (B : Nat) (hB : 0 < B) (p0 : List R) (hn : P.Params p0.length)
    (solve : List (Block R) → List R → List R) (j : Nat)
    (hj : ∀ t ∈ (P.umodels.zip P.ims), NoModel t.1 j t.2.1.img.h t.2.1.img.w)
    (hsome : P.Something) :
    ∃ p, forcedPhot B solve P.Z p0 false = .ok p ∧ p.getD (P.nsky + j) 0 = 0 := by
  obtain ⟨st, hrun, hsl, hused, hne, hcost⟩ := P.run h B hB
  have hlt : ∀ u ∈ st.used, u.1 < p0.length := by
    intro u hu
    obtain ⟨e, he, v, hv, e1, -⟩ := (hused u.1).1 (List.mem_map_of_mem hu)
    obtain ⟨im, -, -, -, hb⟩ := (P.entries h).2.1 e he
    rw [← e1]; exact hb v hv _ hn
  -- entries
  have hmem : ∀ e, e ∈ P.Z → (∃ t ∈ P.umodels.zip P.ims, e.umods = t.1 ∧ e.im = t.2.1 ∧ e.off = P.nsky) ∨
      (∀ u ∈ e.umods.zipIdx e.off, u.2 < P.nsky) := by
    intro e he
    cases hsk : P.skys with
    | none =>
      have hns : P.nsky = 0 := by simp [Phot.nsky, Phot.skyBefore, hsk]
      rw [Phot.Z, hsk, mkZ_nosky] at he
      obtain ⟨t, ht, rfl⟩ := List.mem_map.1 he
      exact .inl ⟨t.1, List.mem_of_getElem? (List.mem_zipIdx_iff_getElem?.1 ht), rfl, rfl, hns.symm⟩
    | some skys =>
      have hns : P.nsky = skyOff skys P.ims.length := by simp [Phot.nsky, Phot.skyBefore, hsk, skyOff]
      rw [Phot.Z, hsk, mkZ_sky] at he
      rcases List.mem_append.1 he with he | he
      · right
        obtain ⟨t, ht, rfl⟩ := List.mem_map.1 he
        intro u hu
        have ht := List.mem_zipIdx_iff_getElem?.1 ht
        have hlt : t.2 < P.ims.length := by
          have := (List.getElem?_eq_some_iff.1 ht).1
          simpa using this
        have hu := List.mem_zipIdx hu
        simp only [skyEntry, List.length_map] at hu
        have mono : ∀ a b, a ≤ b → skyOff skys a ≤ skyOff skys b := by
          intro a b hab
          obtain ⟨c, rfl⟩ := Nat.exists_eq_add_of_le hab
          simp only [skyOff, List.range_add, List.map_append, List.sum_append]
          omega
        have h2 := mono (t.2 + 1) P.ims.length (by omega)
        rw [show skyOff skys (t.2 + 1) = skyOff skys t.2 + (skys.getD t.2 []).length by
          simp [skyOff, List.range_succ]] at h2
        omega
      · obtain ⟨t, ht, rfl⟩ := List.mem_map.1 he
        exact .inl ⟨t.1, List.mem_of_getElem? (List.mem_zipIdx_iff_getElem?.1 ht), rfl, rfl, hns.symm⟩
  have hunused : P.nsky + j ∉ st.used.map (·.1) := by
    intro hm
    obtain ⟨e, he, u, hu, e1, p, hp, hne'⟩ := (hused _).1 hm
    rcases hmem e he with ⟨t, ht, t1, t2, t3⟩ | hlt'
    · have hz := mem_zipIdx_off _ _ _ hu
      rw [e1, t3, Nat.add_sub_cancel_left, t1, hp] at hz
      have := hj t ht p hz.1
      rw [← t2] at this
      obtain ⟨q, b, c1, -, c2, c3⟩ := clipTo_ok p e.im.img.w e.im.img.h
      have hb := c2.2 this
      have hq := c3.1 hb
      apply hne'
      rw [c1]
      simp [Patch.trimToNonZero, hq]
    · have := hlt' u hu; omega
  have hsomeused := P.some_used h B hB hsome st hrun
  simp only [forcedPhot, hrun]
  rw [if_neg hsomeused]
  have hslt : ∀ u ∈ st.used, u.2 < (List.replicate st.used.length (0 : R)).length := by
    intro u hu
    have h1 := List.mem_map_of_mem (f := fun u : Nat × Nat => u.2) hu
    have h2 := congrArg List.length hsl.1
    rw [hsl.1] at h1
    simp only [List.length_map, List.length_range, List.length_replicate] at h2 ⊢
    rw [h2]; exact List.mem_range.1 h1
  obtain ⟨f0, e1, e2, e3, e4⟩ := startFluxes_ok p0 st.used (List.replicate st.used.length 0) hlt hslt
    (by rw [hsl.1]; exact List.nodup_range)
  simp only [e1]
  obtain ⟨u1, u2, u3⟩ := unmap_get (solve st.blocks f0) p0.length st.used (List.replicate p0.length 0) (by simp) hlt hsl.2
  refine ⟨unmap (solve st.blocks f0) st.used p0.length, by simp only [Bool.false_eq_true, if_false], ?_⟩
  rw [unmap, u3 _ hunused]
  simp only [List.getD_eq_getElem?_getD, List.getElem?_replicate]
  split <;> rfl

/-- **C78.** With `nonneg=True` nothing is ever fit: the call fails with AssertionError as soon as some model has a
non-zero pixel in its image, and otherwise fails so or returns with the parameters as they were. -/
theorem C78_nonneg (P : Phot R) (h : P.OK) (B : Nat) (hB : 0 < B) (p0 : List R) (hn : P.Params p0.length)
    (solve : List (Block R) → List R → List R) :
    (P.Something → forcedPhot B solve P.Z p0 true = .error .assertion) ∧
    (forcedPhot B solve P.Z p0 true = .error .assertion ∨ forcedPhot B solve P.Z p0 true = .ok p0) := by
  obtain ⟨st, f0, hrun, h2, -⟩ := C75_start P h B hB p0 hn
  simp only [forcedPhot, hrun, h2]
  refine ⟨fun hs => ?_, ?_⟩
  · rw [if_neg (P.some_used h B hB hs st hrun)]; rfl
  · by_cases h0 : st.blocks.length = 0 ∨ st.used.length = 0
    · right; rw [if_pos h0]
    · left; rw [if_neg h0]; rfl

end

/-! ### Examples -/

/-- One image of 3 × 12 pixels, sky and two sources; the second lies right of the image. -/
def exPhot (x2 : Int) : Phot Rat where
  ims := [(⟨⟨3, 12, fun _ c => c⟩, ⟨3, 12, fun _ _ => 1⟩⟩, Arr.zeros 3 12, 2)]
  skys := some [[⟨0, 0, some ⟨3, 12, fun _ _ => 1⟩⟩]]
  umodels := [[some ⟨8, -1, some ⟨4, 4, fun r c => r + c⟩⟩, some ⟨x2, 0, some ⟨2, 3, fun _ _ => 1⟩⟩]]

/-- The attachments: (slot, offsets, sizes) for both blocks; and the slots. -/
def exShowBlocks (P : Phot Rat) : Option (List (List (List Int)) × List (Nat × Nat)) :=
  match addEntries 10 P.Z ⟨[], [], [], 0⟩ with
  | .ok st => some (st.blocks.map (fun b => b.2.map (fun s => [(s.slot : Int), s.x0, s.y0, s.px.h, s.px.w])), st.used)
  | .error _ => none

example : (exShowBlocks (exPhot 20)).map (·.1) =
    some [[[0, 0, 0, 3, 12], [1, 8, 0, 3, 4]], [[0, 0, 0, 3, 12], [1, 8, 0, 3, 4]]] ∧
    (exShowBlocks (exPhot 20)).map (·.2) = some [(0, 0), (1, 1)] := by decide +kernel

example : (exPhot 20).OK ∧ (exPhot 20).Params 3 := by
  refine ⟨⟨?_, ?_, rfl, ?_⟩, ?_⟩
  · intro im h; simp [exPhot] at h; subst h; decide
  · intro im h; simp [exPhot] at h; subst h; decide
  · intro s h; simp [exPhot] at h; subst h; rfl
  · intro us h; simp [exPhot] at h; subst h; rfl

/-- One pixel of value 6, one source with unit-flux model 1 and scale 2: the best flux is 3, and if the solver returns it
so does the call. -/
def exOne : Phot Rat where
  ims := [(⟨⟨1, 1, fun _ _ => 6⟩, ⟨1, 1, fun _ _ => 1⟩⟩, Arr.zeros 1 1, 2)]
  skys := none
  umodels := [[some ⟨0, 0, some ⟨1, 1, fun _ _ => 1⟩⟩]]

theorem exOne_ok : exOne.OK := by
  refine ⟨?_, ?_, rfl, ?_⟩
  · intro im h; simp [exOne] at h; subst h; decide
  · intro im h; simp [exOne] at h; subst h; decide
  · intro s h; simp [exOne] at h

example : (forcedPhot 10 (fun _ _ => [3]) exOne.Z [5] false).toOption = some [3] ∧
    ∀ st, addEntries 10 exOne.Z ⟨[], [], [], 0⟩ = .ok st → ∀ f, cost st.blocks [3] ≤ cost st.blocks f := by
  refine ⟨by decide +kernel, ?_⟩
  intro st hst f
  obtain ⟨st', h1, h2, h3, h4⟩ := C56_dice exOne exOne_ok 10 (by decide)
  obtain rfl : st' = st := by rw [h1] at hst; injection hst
  have hu : st'.used = [(0, 0)] := by
    have : (addEntries 10 exOne.Z ⟨[], [], [], 0⟩).toOption.map (·.used) = some [(0, 0)] := by decide +kernel
    rw [h1] at this
    injection this
  rw [h4 [3] [3] (by rw [hu]; decide), h4 [f.getD 0 0] f (by rw [hu]; simp)]
  have e : exOne.chisq [3] = 0 := by decide +kernel
  rw [e]
  simp only [Phot.chisq, exOne, List.zipIdx_cons, List.zipIdx_nil, List.map_cons, List.map_nil, List.sum_cons, List.sum_nil,
    List.range_succ, List.range_zero, List.nil_append, add_zero]
  exact sq_nonneg _

example : (exPhot 20).Something := by
  refine ⟨_, List.mem_cons_self .., _, List.mem_cons_self .., 0, 9, by decide, by decide, by decide +kernel⟩

example : (forcedPhot 10 (fun _ f => f) (exPhot 20).Z [7, 8, 9] true).toOption = none := by decide +kernel

/-- A solver that likes its start. -/
def exResult (x2 : Int) : List Rat :=
  match forcedPhot 10 (fun _ f => f) (exPhot x2).Z [7, 8, 9] false with
  | .ok p => p
  | .error _ => []

/-- **C74 is false for a source that lies left of (or above) the image**: it keeps its flux (of what the solver makes of
a parameter without effect), while the same source right of the image gets flux 0. -/
theorem C74_left_false : exResult 20 = [7, 8, 0] ∧ exResult (-20) = [7, 8, 9] ∧
    (∀ x y : Int, 0 ≤ x → ¬ Patch.covers (⟨-20, 0, some ⟨2, 3, fun _ _ => 1⟩⟩ : Patch Rat) x y) := by
  refine ⟨by decide +kernel, by decide +kernel, ?_⟩
  intro x y hx h
  simp only [Patch.covers] at h
  omega

end Verif.Ceres
