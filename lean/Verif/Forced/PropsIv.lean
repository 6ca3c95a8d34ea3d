import Verif.Forced.StatsLemmas
import Mathlib.Algebra.Order.Ring.Rat
import Mathlib.Algebra.Field.Rat
import Mathlib.Algebra.BigOperators.Ring.Finset
import Mathlib.Tactic.LinearCombination

/-!
# Properties of the inverse variances of forced photometry (C93)
-/

namespace Verif.Forced

open Verif Patches

variable {R : Type} [Field R]

/-! ### C93: the inverse variances -/

/-- **C93.** Without sky variances, for images whose inverse errors have their shape and whose unit-flux models are at most as
many as there are flux parameters, there is one inverse variance per flux parameter, and it is the sum over all images
and all pixels of (unit-flux model · scale · inverse error)², wherever the models lie: inside, across an edge or off the
image. -/
theorem C93_information_partial (sky skyvariance : Bool) (hsky : (sky && skyvariance) = false) (nsky : Nat)
    (skyderivs : List (List (Patch R × Tim R))) (nsrc : Nat) (imlist : List (Tim R))
    (umodels : List (List (Option (Patch R)))) (scales : List R)
    (hshape : ∀ t ∈ imlist, t.ie.h = t.h ∧ t.ie.w = t.w) (hlen : ∀ u ∈ umodels, u.length ≤ nsrc) :
    ∃ iv, getIv sky skyvariance nsky skyderivs nsrc imlist umodels scales = .ok iv ∧ iv.length = nsrc ∧
      ∀ k, k < nsrc → iv[k]? = some (((imlist.zip (umodels.zip scales)).map (fun q =>
        ∑ y ∈ Finset.range q.1.h, ∑ x ∈ Finset.range q.1.w,
          (unitAt ((q.2.1[k]?).join) x y * q.2.2 * q.1.ie.px y x) ^ 2)).sum) := by
  obtain ⟨iv, h1, h2, h3⟩ := ivImages_ok 0 (imlist.zip (umodels.zip scales)) (List.replicate (0 + nsrc) (0 : R)) (by
    intro q hq
    have ha := List.of_mem_zip hq
    have hb := List.of_mem_zip (a := q.2.1) (b := q.2.2) ha.2
    have := hshape _ ha.1
    refine ⟨this.1, this.2, ?_⟩
    rw [List.length_replicate]
    have := hlen _ hb.1
    omega)
  refine ⟨iv, ?_, by rw [h2, List.length_replicate]; omega, ?_⟩
  · unfold getIv
    rw [hsky]
    exact h1
  · intro k hk
    have hk' : k < iv.length := by rw [h2, List.length_replicate]; omega
    have := h3 k
    rw [List.getElem?_eq_getElem hk']
    rw [List.getD_eq_getElem?_getD, List.getElem?_eq_getElem hk', Option.getD_some] at this
    rw [this]
    congr 1
    rw [List.getD_eq_getElem?_getD, List.getElem?_replicate]
    simp only [Nat.zero_le, if_true, Nat.sub_zero, infoOf]
    rw [if_pos (by omega), Option.getD_some, zero_add]

/-- Two images, two flux parameters: a model across the left edge, a missing model and a model off the image. -/
example : getIv false false 0 [] 2
    [⟨2, 2, Arr.ofLists [[1, 2], [3, 0]] 2⟩, ⟨1, 2, Arr.ofLists [[5, 1]] 2⟩]
    [[some ⟨-1, 0, some (Arr.ofLists [[7, 1], [7, 2]] 2)⟩, none], [some ⟨-3, 0, some (Arr.ofLists [[1, 1]] 2)⟩,
      some ⟨0, -1, some (Arr.ofLists [[9, 9], [1, 4]] 2)⟩]] [1, (2 : ℚ)] = .ok [1 + 6 ^ 2, 10 ^ 2 + 8 ^ 2] := by
  decide +kernel

variable [LinearOrder R]

/-- Spec: the chi-square of forced photometry at the given fluxes: the sum of the squares of all pixels of the chi images that
`_getims` makes.  Each image: data, inverse errors, frozen model, unit-flux models, scale. -/
def chisqAt (fluxes : List R) : List (Arr R × Arr R × Arr R × List (Option (Patch R)) × R) → Except PyErr R
  | [] => .ok 0
  | (img, ie, mod0, umods, scale) :: l =>
    match getim none id fluxes ⟨img, ie, none⟩ umods mod0 scale with
    | .error e => .error e
    | .ok (_, chi) =>
      match chisqAt fluxes l with
      | .error e => .error e
      | .ok s => .ok ((∑ y ∈ Finset.range chi.h, ∑ x ∈ Finset.range chi.w, chi.px y x ^ 2) + s)

theorem countsAt_modify (scale : R) (x y : Int) (t : R) :
    ∀ (F : List R) (umods : List (Option (Patch R))) (k : Nat), k < F.length →
      countsAt none scale x y ((F.modify k (· + t)).zip umods) =
        countsAt none scale x y (F.zip umods) + t * scale * unitAt ((umods[k]?).join) x y := by
  intro F
  induction F with
  | nil => intro _ k h; simp at h
  | cons f F ih =>
    intro umods k hk
    cases umods with
    | nil => simp [countsAt, unitAt]
    | cons u us =>
      cases k with
      | zero =>
        cases u with
        | none => simp [countsAt, unitAt]
        | some p => simp [countsAt, unitAt, raised]; ring
      | succ k =>
        simp only [List.length_cons] at hk
        have := ih us k (by omega)
        simp only [List.modify_succ_cons, List.zip_cons_cons, countsAt, List.getElem?_cons_succ]
        rw [this]
        ring

theorem chisqAt_cons (G : List R) (img ie mod0 : Arr R) (umods : List (Option (Patch R))) (scale : R)
    (l : List (Arr R × Arr R × Arr R × List (Option (Patch R)) × R)) (m chi : Arr R) (s : R)
    (h1 : getim none id G ⟨img, ie, none⟩ umods mod0 scale = .ok (m, chi)) (h2 : chisqAt G l = .ok s) :
    chisqAt G ((img, ie, mod0, umods, scale) :: l) =
      .ok ((∑ y ∈ Finset.range chi.h, ∑ x ∈ Finset.range chi.w, chi.px y x ^ 2) + s) := by
  unfold chisqAt
  rw [h1]
  simp only
  rw [h2]

theorem chisq_curvature (F : List R) (k : Nat) (hk : k < F.length) (t : R) :
    ∀ (l : List (Arr R × Arr R × Arr R × List (Option (Patch R)) × R)),
      (∀ q ∈ l, q.2.1.h = q.1.h ∧ q.2.1.w = q.1.w ∧ q.2.2.1.h = q.1.h ∧ q.2.2.1.w = q.1.w) →
      ∃ c0 c1 c2, chisqAt F l = .ok c0 ∧ chisqAt (F.modify k (· + t)) l = .ok c1 ∧
        chisqAt (F.modify k (· + -t)) l = .ok c2 ∧
        c1 + c2 - 2 * c0 = 2 * t ^ 2 * (l.map (fun q =>
          ∑ y ∈ Finset.range q.1.h, ∑ x ∈ Finset.range q.1.w,
            (unitAt ((q.2.2.2.1[k]?).join) x y * q.2.2.2.2 * q.2.1.px y x) ^ 2)).sum := by
  intro l
  induction l with
  | nil => intro _; exact ⟨0, 0, 0, rfl, rfl, rfl, by simp⟩
  | cons q l ih =>
    obtain ⟨img, ie, mod0, umods, scale⟩ := q
    intro hq
    obtain ⟨e1, e2, e3, e4⟩ := hq _ List.mem_cons_self
    simp only at e1 e2 e3 e4
    obtain ⟨c0, c1, c2, h0, h1, h2, h3⟩ := ih (fun q hm => hq q (List.mem_cons_of_mem _ hm))
    have key := fun G => C84_chi_partial none id G img ie mod0 umods scale ⟨e3, e4⟩ ⟨e1, e2⟩
    obtain ⟨m0, x0, a0, _, _, b0, d0, f0⟩ := key F
    obtain ⟨m1, x1, a1, _, _, b1, d1, f1⟩ := key (F.modify k (· + t))
    obtain ⟨m2, x2, a2, _, _, b2, d2, f2⟩ := key (F.modify k (· + -t))
    refine ⟨_, _, _, chisqAt_cons _ _ _ _ _ _ _ _ _ _ a0 h0, chisqAt_cons _ _ _ _ _ _ _ _ _ _ a1 h1,
      chisqAt_cons _ _ _ _ _ _ _ _ _ _ a2 h2, ?_⟩
    rw [b0, d0, b1, d1, b2, d2]
    simp only [List.map_cons, List.sum_cons]
    have hs : (∑ y ∈ Finset.range img.h, ∑ x ∈ Finset.range img.w, x1.px y x ^ 2) +
        (∑ y ∈ Finset.range img.h, ∑ x ∈ Finset.range img.w, x2.px y x ^ 2) -
        2 * (∑ y ∈ Finset.range img.h, ∑ x ∈ Finset.range img.w, x0.px y x ^ 2) =
        2 * t ^ 2 * ∑ y ∈ Finset.range img.h, ∑ x ∈ Finset.range img.w,
          (unitAt ((umods[k]?).join) x y * scale * ie.px y x) ^ 2 := by
      simp only [Finset.mul_sum, ← Finset.sum_add_distrib, ← Finset.sum_sub_distrib]
      apply Finset.sum_congr rfl
      intro y hy
      apply Finset.sum_congr rfl
      intro x hx
      have hy' := Finset.mem_range.mp hy
      have hx' := Finset.mem_range.mp hx
      rw [(f0 y x hy' hx').2, (f1 y x hy' hx').2, (f2 y x hy' hx').2, countsAt_modify scale x y t F umods k hk,
        countsAt_modify scale x y (-t) F umods k hk]
      ring
    linear_combination hs + h3

/-- **C93.** What the inverse variance means: whatever the data, the frozen models and the fluxes are, moving flux `k` by `t` up
and down makes the chi-square change by `2 t² · IV[k]` in total, so `IV[k]` is half its second derivative. -/
theorem C93_curvature_partial (l : List (Arr R × Arr R × Arr R × List (Option (Patch R)) × R)) (nsrc : Nat)
    (hq : ∀ q ∈ l, q.2.1.h = q.1.h ∧ q.2.1.w = q.1.w ∧ q.2.2.1.h = q.1.h ∧ q.2.2.1.w = q.1.w)
    (hlen : ∀ q ∈ l, q.2.2.2.1.length ≤ nsrc) (F : List R) (hF : F.length = nsrc) (k : Nat) (hk : k < nsrc) (t : R) :
    ∃ iv ivk c0 c1 c2,
      getIv false false 0 [] nsrc (l.map (fun q => ⟨q.1.h, q.1.w, q.2.1⟩)) (l.map (fun q => q.2.2.2.1))
        (l.map (fun q => q.2.2.2.2)) = .ok iv ∧ iv[k]? = some ivk ∧
      chisqAt F l = .ok c0 ∧ chisqAt (F.modify k (· + t)) l = .ok c1 ∧ chisqAt (F.modify k (· + -t)) l = .ok c2 ∧
      c1 + c2 - 2 * c0 = 2 * t ^ 2 * ivk := by
  obtain ⟨iv, h1, _, h3⟩ := C93_information_partial (R := R) false false rfl 0 [] nsrc
    (l.map (fun q => ⟨q.1.h, q.1.w, q.2.1⟩)) (l.map (fun q => q.2.2.2.1)) (l.map (fun q => q.2.2.2.2)) (by
      intro t ht
      obtain ⟨q, hm, rfl⟩ := List.mem_map.mp ht
      exact ⟨(hq q hm).1, (hq q hm).2.1⟩) (by
      intro u hu
      obtain ⟨q, hm, rfl⟩ := List.mem_map.mp hu
      exact hlen q hm)
  obtain ⟨c0, c1, c2, g0, g1, g2, g3⟩ := chisq_curvature F k (by omega) t l hq
  refine ⟨iv, _, c0, c1, c2, h1, h3 k hk, g0, g1, g2, ?_⟩
  rw [g3, List.zip_map', List.zip_map', List.map_map]
  rfl

/-- One image of one row with a source of flux 3 and a step of 1: chi-square 4 + 36, 1 + 0 and 9 + 144, inverse variance 37. -/
example :
    let q : List (Arr ℚ × Arr ℚ × Arr ℚ × List (Option (Patch ℚ)) × ℚ) := [(Arr.ofLists [[5, 30]] 2, Arr.ofLists [[1, 3]] 2,
      Arr.ofLists [[0, 22]] 2, [some ⟨0, 0, some (Arr.ofLists [[1, 2]] 2)⟩], 1)]
    (chisqAt [3] q, chisqAt [4] q, chisqAt [2] q) = (.ok (4 + 36), .ok (1 + 0), .ok (9 + 144)) ∧
      1 + 153 - 2 * 40 = 2 * 37 ∧ getIv false false 0 [] 1 [⟨1, 2, Arr.ofLists [[(1 : ℚ), 3]] 2⟩]
        [[some ⟨0, 0, some (Arr.ofLists [[1, 2]] 2)⟩]] [1] = .ok [37] := by
  decide +kernel

/-- **C93 (negation).** With `sky=True` and `skyvariance=True` there are no inverse variances at all: as soon as one image has
a sky derivative (forced photometry makes one-element lists of them), the result is a ValueError. -/
theorem C93_sky_false {R : Type} [Field R] (d : Patch R × Tim R) (skyderivs : List (List (Patch R × Tim R)))
    (nsky nsrc : Nat) (imlist : List (Tim R)) (umodels : List (List (Option (Patch R)))) (scales : List R) :
    getIv true true nsky ([d] :: skyderivs) nsrc imlist umodels scales = .error .value := rfl

example : getIv true true 1 [[(⟨0, 0, some (Arr.ofLists [[1]] 1)⟩, ⟨1, 1, Arr.ofLists [[2]] 1⟩)]] 0
    [⟨1, 1, Arr.ofLists [[2]] 1⟩] [[]] [(1 : ℚ)] = .error .value := rfl

end Verif.Forced
