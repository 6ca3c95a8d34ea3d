import Verif.Fpfit.Lemmas
import Mathlib.Algebra.BigOperators.Intervals

/-! Least squares over a list of observations that are affine in the parameters. -/

namespace Verif.Fpfit

open Verif Patches Forced Linmod Finset

variable {R M : Type} [Field R]

/-- An observation: constant and coefficients. -/
structure Ob (R : Type) where
  c : R
  g : Nat → R

/-- Its value for parameters `p`. -/
def Ob.val (n : Nat) (p : List R) (o : Ob R) : R := o.c + ∑ k ∈ range n, p.getD k 0 * o.g k

/-- One more in parameter `k`. -/
def bump (p : List R) (k : Nat) : List R := p.set k (p.getD k 0 + 1)

theorem bump_getD (p : List R) (k j : Nat) (hk : k < p.length) :
    (bump p k).getD j 0 = p.getD j 0 + (if j = k then 1 else 0) := by
  unfold bump
  simp only [List.getD_eq_getElem?_getD, List.getElem?_set]
  by_cases h : k = j
  · subst h; simp [hk]
  · rw [if_neg h, if_neg (fun e => h e.symm), add_zero]

theorem val_bump (n : Nat) (p : List R) (o : Ob R) (k : Nat) (hn : p.length = n) (hk : k < n) :
    o.val n (bump p k) - o.val n p = o.g k := by
  unfold Ob.val
  have e : ∀ j, (bump p k).getD j 0 * o.g j = p.getD j 0 * o.g j + (if j = k then o.g j else 0) := by
    intro j
    rw [bump_getD p k j (by omega)]
    by_cases h : j = k
    · rw [if_pos h, if_pos h]; ring
    · rw [if_neg h, if_neg h]; ring
  simp only [e]
  rw [sum_add_distrib, sum_ite_eq' (range n) k, if_pos (mem_range.2 hk)]
  ring

/-- The difference of two values. -/
theorem val_sub (n : Nat) (p q : List R) (o : Ob R) :
    o.val n q - o.val n p = ∑ k ∈ range n, (q.getD k 0 - p.getD k 0) * o.g k := by
  unfold Ob.val
  rw [add_sub_add_left_eq_sub, ← sum_sub_distrib]
  exact sum_congr rfl (fun k _ => by ring)

theorem sum_swap (n : Nat) (f : Ob R → Nat → R) : ∀ (obs : List (Ob R)),
    (obs.map (fun o => ∑ k ∈ range n, f o k)).sum = ∑ k ∈ range n, (obs.map (fun o => f o k)).sum := by
  intro obs
  induction obs with
  | nil => simp
  | cons o obs ih => simp only [List.map_cons, List.sum_cons]; rw [ih, sum_add_distrib]

theorem sum_scale (a : R) (f : Ob R → R) : ∀ (obs : List (Ob R)), (obs.map (fun o => a * f o)).sum = a * (obs.map f).sum := by
  intro obs
  induction obs with
  | nil => simp
  | cons o obs ih => simp only [List.map_cons, List.sum_cons]; rw [ih]; ring

theorem sum_expand (f d : Ob R → R) : ∀ (obs : List (Ob R)),
    (obs.map (fun o => (f o + d o) * (f o + d o))).sum =
      (obs.map (fun o => f o * f o)).sum + 2 * (obs.map (fun o => f o * d o)).sum + (obs.map (fun o => d o * d o)).sum := by
  intro obs
  induction obs with
  | nil => simp
  | cons o obs ih => simp only [List.map_cons, List.sum_cons]; rw [ih]; ring

/-- If changing any one parameter has no first-order effect, the sum of squares is the smallest. -/
theorem least [LinearOrder R] [IsStrictOrderedRing R] (obs : List (Ob R)) (n : Nat) (p q : List R) (hp : p.length = n)
    (h : ∀ k < n, (obs.map (fun o => o.val n p * (o.val n (bump p k) - o.val n p))).sum = 0) :
    (obs.map (fun o => o.val n p * o.val n p)).sum ≤ (obs.map (fun o => o.val n q * o.val n q)).sum := by
  have hx : (obs.map (fun o => o.val n p * (o.val n q - o.val n p))).sum = 0 := by
    have e : (fun o : Ob R => o.val n p * (o.val n q - o.val n p)) =
        fun o => ∑ k ∈ range n, (q.getD k 0 - p.getD k 0) * (o.val n p * o.g k) := by
      funext o
      rw [val_sub, mul_sum]
      exact sum_congr rfl (fun k _ => by ring)
    rw [e, sum_swap]
    refine sum_eq_zero (fun k hk => ?_)
    rw [sum_scale]
    have h' := h k (mem_range.1 hk)
    simp only [val_bump n p _ k hp (mem_range.1 hk)] at h'
    rw [h', mul_zero]
  have e : (fun o : Ob R => o.val n q * o.val n q) =
      fun o => (o.val n p + (o.val n q - o.val n p)) * (o.val n p + (o.val n q - o.val n p)) := by
    funext o; ring
  rw [e, sum_expand, hx, mul_zero, add_zero]
  refine le_add_of_nonneg_right (List.sum_nonneg ?_)
  intro x hx
  obtain ⟨o, _, rfl⟩ := List.mem_map.1 hx
  exact mul_self_nonneg _

/-! ### The pixels as observations -/

variable [LinearOrder R]

omit [LinearOrder R] in
theorem zip_range (f : Option (Patch R) → R) : ∀ (p : List R) (u : List (Option (Patch R))), p.length = u.length →
    ((p.zip u).map (fun t => t.1 * f t.2)).sum = ∑ k ∈ range p.length, p.getD k 0 * f (u.getD k none) := by
  intro p
  induction p with
  | nil => intro u _; simp
  | cons a p ih =>
    intro u hu
    cases u with
    | nil => simp at hu
    | cons b u =>
      rw [List.zip_cons_cons, List.map_cons, List.sum_cons, ih u (by simpa using hu), List.length_cons, sum_range_succ']
      simp [add_comm]

/-- All pixels of a list of images. -/
def flat (l : List (Arr R)) : List R := l.flatMap Arr.ravel

omit [LinearOrder R] in
theorem chisqOf_flat (l : List (Arr R)) : chisqOf l = ((flat l).map (fun v => v * v)).sum := by
  unfold chisqOf flat
  induction l with
  | nil => rfl
  | cons A l ih => rw [List.flatMap_cons, List.map_append, List.sum_append, ← ih]; rfl

/-- The chi image of the Tractor is affine in the fluxes. -/
theorem chiImage_affine (minsb : R) (cat : List (Source R)) (t : Tim R M) (hr : Ready minsb cat t)
    (hh : t.ie.h = t.data.h) (hw : t.ie.w = t.data.w) :
    ∃ obs : List (Ob R), ∀ p, p.length = numParams cat → ∃ A, chiImage minsb (setParams cat p) t = .ok A ∧
      A.ravel = obs.map (Ob.val (numParams cat) p) := by
  have hlen := umods_length t.W t.img minsb cat (fun s hs ht => (hr s hs ht).bands)
  rcases C135_affine t.W t.img minsb false cat with ⟨h, _⟩ | ⟨c, hc⟩
  · exact (h hlen).elim
  · let ob : Nat → Nat → Ob R := fun y x =>
      ⟨(t.data.px y x - c y x) * t.ie.px y x, fun k => -(t.scale * valAt x y ((umods t.W t.img minsb cat).getD k none) * t.ie.px y x)⟩
    refine ⟨(List.range t.data.h).flatMap (fun y => (List.range t.data.w).map (fun x => ob y x)), fun p hp => ?_⟩
    obtain ⟨A, B, h1, h2, h3, h4, h5⟩ := fitted_eq t.W t.img minsb false cat p hr hp
    obtain ⟨A', a1, a2, a3, a4⟩ := hc p
    rw [h1] at a1
    injection a1 with a1
    subst a1
    have bh : B.h = t.data.h := h3.symm.trans a2
    have bw : B.w = t.data.w := h4.symm.trans a3
    unfold chiImage
    rw [h2]
    dsimp only
    have e1 : bc (· - ·) t.data B = .ok ⟨t.data.h, t.data.w, fun r c => t.data.px r c - B.px r c⟩ := by
      unfold bc bcDim
      rw [bh, bw, if_pos rfl, if_pos rfl]
      dsimp only
      simp only [if_true]
    rw [e1]
    dsimp only
    have e2 : bc (· * ·) (⟨t.data.h, t.data.w, fun r c => t.data.px r c - B.px r c⟩ : Arr R) t.ie =
        .ok ⟨t.data.h, t.data.w, fun r c => (t.data.px r c - B.px r c) * t.ie.px r c⟩ := by
      unfold bc bcDim
      rw [hh, hw, if_pos rfl, if_pos rfl]
      dsimp only
      simp only [if_true]
    rw [e2]
    refine ⟨_, rfl, ?_⟩
    unfold Arr.ravel
    rw [List.map_flatMap]
    simp only [List.flatMap_def]
    congr 1
    refine List.map_congr_left (fun y hy => ?_)
    rw [List.map_map]
    refine List.map_congr_left (fun x hx => ?_)
    have hy := List.mem_range.1 hy
    have hx := List.mem_range.1 hx
    have hb : B.px y x = c y x + ∑ k ∈ range (numParams cat), p.getD k 0 * (t.scale * valAt x y ((umods t.W t.img minsb cat).getD k none)) := by
      rw [← h5 y x (by rw [a2]; exact hy) (by rw [a3]; exact hx), a4 y x hy hx, ← hp,
        ← zip_range (fun u => t.scale * valAt x y u) p _ (hp.trans hlen.symm)]
      congr 3
      funext s
      change s.1 * t.scale * _ = _
      ring
    change (t.data.px y x - B.px y x) * t.ie.px y x = (t.data.px y x - c y x) * t.ie.px y x + ∑ k ∈ range (numParams cat), p.getD k 0 *
      -(t.scale * valAt x y ((umods t.W t.img minsb cat).getD k none) * t.ie.px y x)
    rw [hb]
    have e : (∑ k ∈ range (numParams cat), p.getD k 0 * -(t.scale * valAt x y ((umods t.W t.img minsb cat).getD k none) * t.ie.px y x)) =
        -((∑ k ∈ range (numParams cat), p.getD k 0 * (t.scale * valAt x y ((umods t.W t.img minsb cat).getD k none))) * t.ie.px y x) := by
      rw [sum_mul, ← sum_neg_distrib]
      exact sum_congr rfl (fun k _ => by ring)
    rw [e]
    ring

/-- The chi images of all images. -/
theorem chiImages_affine (minsb : R) (cat : List (Source R)) : ∀ (tims : List (Tim R M)), (∀ t ∈ tims, Ready minsb cat t) →
    (∀ t ∈ tims, t.ie.h = t.data.h ∧ t.ie.w = t.data.w) →
    ∃ obs : List (Ob R), ∀ p, p.length = numParams cat → ∃ A, chiImages minsb (setParams cat p) tims = .ok A ∧
      flat A = obs.map (Ob.val (numParams cat) p) := by
  intro tims
  induction tims with
  | nil => intro _ _; exact ⟨[], fun p _ => ⟨[], rfl, rfl⟩⟩
  | cons t ts ih =>
    intro hr hs
    obtain ⟨h1, h2⟩ := hs t (List.mem_cons_self ..)
    obtain ⟨o1, g1⟩ := chiImage_affine minsb cat t (hr t (List.mem_cons_self ..)) h1 h2
    obtain ⟨o2, g2⟩ := ih (fun t' ht' => hr t' (List.mem_cons_of_mem _ ht')) (fun t' ht' => hs t' (List.mem_cons_of_mem _ ht'))
    refine ⟨o1 ++ o2, fun p hp => ?_⟩
    obtain ⟨A, a1, a2⟩ := g1 p hp
    obtain ⟨B, b1, b2⟩ := g2 p hp
    refine ⟨A :: B, by unfold chiImages; rw [a1, b1], ?_⟩
    unfold flat at b2 ⊢
    rw [List.flatMap_cons, a2, b2, List.map_append]

end Verif.Fpfit
