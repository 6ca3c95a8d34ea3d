import Verif.Forced.StatsSpec
import Mathlib.Algebra.Order.Group.Abs

/-!
# Lemmas about the fit statistics of forced photometry
-/

namespace Verif.Forced

open Verif Patches

variable {R : Type}

/-! ### Sums over positions -/

theorem sum_filter_map {α M : Type} [AddCommMonoid M] (l : List α) (P : α → Bool) (f : α → M) :
    ((l.filter P).map f).sum = (l.map (fun a => if P a = true then f a else 0)).sum := by
  induction l with
  | nil => rfl
  | cons a l ih =>
    rw [List.filter_cons]
    by_cases h : P a = true
    · simp only [h, if_true, List.map_cons, List.sum_cons, ih]
    · rw [if_neg h, ih, List.map_cons, List.sum_cons, if_neg h, zero_add]

theorem sum_positions {M : Type} [AddCommMonoid M] (n m : Nat) (f : Nat × Nat → M) :
    (((List.range n).flatMap (fun r => (List.range m).map (fun c => (r, c)))).map f).sum =
      ∑ y ∈ Finset.range n, ∑ x ∈ Finset.range m, f (y, x) := by
  rw [List.map_flatMap, sum_flatMap]
  simp only [List.map_map, sum_range_list, Function.comp_apply]

/-- A filtered sum over the positions of a slice as a sum over the image. -/
theorem sum_slice_filter {M : Type} [AddCommMonoid M] (n m : Nat) (a b c d : Int) (Q : Nat → Nat → Prop)
    [∀ y x, Decidable (Q y x)] (F : Nat → Nat → M) :
    ((((List.range (Arr.axis n (some a) (some b)).2).flatMap
      (fun r => (List.range (Arr.axis m (some c) (some d)).2).map (fun c => (r, c)))).filter
        (fun q => decide (Q ((Arr.axis n (some a) (some b)).1 + q.1) ((Arr.axis m (some c) (some d)).1 + q.2)))).map
        (fun q => F ((Arr.axis n (some a) (some b)).1 + q.1) ((Arr.axis m (some c) (some d)).1 + q.2))).sum =
      pixSum n m (fun y x => if (InAxis n a b y ∧ InAxis m c d x) ∧ Q y x then F y x else 0) := by
  rw [sum_filter_map, sum_positions]
  simp only [decide_eq_true_eq]
  rw [sum_slice n m a b c d (fun y x => if Q y x then F y x else 0)]
  unfold pixSum
  apply Finset.sum_congr rfl
  intro y _
  apply Finset.sum_congr rfl
  intro x _
  simp only
  by_cases h1 : InAxis n a b y ∧ InAxis m c d x
  · by_cases h2 : Q y x
    · rw [if_pos h1, if_pos h2, if_pos ⟨h1, h2⟩]
    · rw [if_pos h1, if_neg h2, if_neg (fun h => h2 h.2)]
  · rw [if_neg h1, if_neg (fun h => h1 h.1)]

theorem pixSum_congr {M : Type} [AddCommMonoid M] (h w : Nat) (f g : Nat → Nat → M)
    (H : ∀ y x, y < h → x < w → f y x = g y x) : pixSum h w f = pixSum h w g := by
  unfold pixSum
  apply Finset.sum_congr rfl
  intro y hy
  apply Finset.sum_congr rfl
  intro x hx
  exact H y x (Finset.mem_range.mp hy) (Finset.mem_range.mp hx)

theorem pixSum_zero {M : Type} [AddCommMonoid M] (h w : Nat) (f : Nat → Nat → M)
    (H : ∀ y x, y < h → x < w → f y x = 0) : pixSum h w f = 0 := by
  rw [pixSum_congr h w f (fun _ _ => 0) H]
  simp [pixSum]

section
variable [Field R] [LinearOrder R]

/-! ### The components of a source -/

/-- A box contains the image of a patch. -/
def Holds (b : Ext) (um : Patch R) : Prop :=
  b.1 ≤ um.x0 ∧ um.x0 + um.shape.2 ≤ b.2.1 ∧ b.2.2.1 ≤ um.y0 ∧ um.y0 + um.shape.1 ≤ b.2.2.2

omit [Field R] [LinearOrder R] in
theorem grow_ok (b : Option Ext) (um : Patch R) :
    Holds (grow b um) um ∧ ∀ e, b = some e → ∀ v : Patch R, Holds e v → Holds (grow b um) v := by
  unfold grow Holds
  cases b with
  | none => simp
  | some e =>
    obtain ⟨xlo, xhi, ylo, yhi⟩ := e
    simp only [Option.some.injEq, forall_eq']
    refine ⟨?_, fun v hv => ?_⟩
    · split_ifs <;> omega
    · obtain ⟨h1, h2, h3, h4⟩ := hv
      split_ifs <;> omega

omit [Field R] [LinearOrder R] in
theorem grow_nonneg (b : Option Ext) (um : Patch R) (h1 : 0 ≤ um.x0) (h2 : 0 ≤ um.y0)
    (h3 : ∀ e, b = some e → 0 ≤ e.1 ∧ 0 ≤ e.2.2.1) : 0 ≤ (grow b um).1 ∧ 0 ≤ (grow b um).2.2.1 := by
  unfold grow
  cases b with
  | none => exact ⟨h1, h2⟩
  | some e =>
    obtain ⟨xlo, xhi, ylo, yhi⟩ := e
    have := h3 _ rfl
    simp only at this ⊢
    constructor <;> split_ifs <;> omega

/-- The loop over the components: the work array gains counts · unit-flux model of each of them, and the box contains all of
them (none without any) and does not begin outside the image. -/
theorem addComps_ok (umods : List (Option (Patch R))) : ∀ (l : List (Nat × R)) (b : Option Ext) (s : Arr R),
    (∀ q ∈ l, q.2 ≠ 0 → q.1 < umods.length) →
    (∀ q ∈ l, ∀ p, (umods[q.1]?).join = some p → 0 ≤ p.x0 ∧ 0 ≤ p.y0) →
    (∀ e, b = some e → 0 ≤ e.1 ∧ 0 ≤ e.2.2.1) →
    ∃ b' s', addComps umods l b s = .ok (b', s') ∧ s'.h = s.h ∧ s'.w = s.w ∧
      (∀ y x : Nat, y < s.h → x < s.w →
        s'.px y x = s.px y x + compsAt (l.map (fun q => ((umods[q.1]?).join, q.2))) x y) ∧
      (∀ e, b' = some e → 0 ≤ e.1 ∧ 0 ≤ e.2.2.1) ∧
      (∀ e, b = some e → ∃ e', b' = some e' ∧ ∀ v : Patch R, Holds e v → Holds e' v) ∧
      (∀ q ∈ l, q.2 ≠ 0 → ∀ p, (umods[q.1]?).join = some p → ∃ e', b' = some e' ∧ Holds e' p) := by
  intro l
  induction l with
  | nil =>
    intro b s _ _ hb
    exact ⟨b, s, rfl, rfl, rfl, fun y x _ _ => by simp [compsAt], hb, fun e he => ⟨e, he, fun _ h => h⟩,
      fun q hq => by simp at hq⟩
  | cons q l ih =>
    obtain ⟨ui, counts⟩ := q
    intro b s hlen hpos hb
    have hlen' := fun q hq => hlen q (List.mem_cons_of_mem _ hq)
    have hpos' := fun q hq => hpos q (List.mem_cons_of_mem _ hq)
    unfold addComps
    by_cases hc : counts = 0
    · rw [if_pos hc]
      obtain ⟨b', s', e1, e2, e3, e4, e5, e6, e7⟩ := ih b s hlen' hpos' hb
      refine ⟨b', s', e1, e2, e3, fun y x hy hx => ?_, e5, e6, ?_⟩
      · rw [e4 y x hy hx]
        simp [compsAt, hc]
      · intro q hq hne
        rcases List.mem_cons.mp hq with rfl | hq
        · exact absurd hc hne
        · exact e7 q hq hne
    · rw [if_neg hc]
      have hu : ui < umods.length := hlen _ List.mem_cons_self hc
      rw [List.getElem?_eq_getElem hu]
      cases hum : umods[ui] with
      | none =>
        simp only
        obtain ⟨b', s', e1, e2, e3, e4, e5, e6, e7⟩ := ih b s hlen' hpos' hb
        refine ⟨b', s', e1, e2, e3, fun y x hy hx => ?_, e5, e6, ?_⟩
        · rw [e4 y x hy hx]
          simp [compsAt, List.getElem?_eq_getElem hu, hum, unitAt]
        · intro q hq hne p hp
          rcases List.mem_cons.mp hq with rfl | hq
          · simp [List.getElem?_eq_getElem hu, hum] at hp
          · exact e7 q hq hne p hp
      | some um =>
        simp only
        obtain ⟨s1, g1, g2, g3, g4⟩ := addTo_ok (um.mul counts) s 1
        rw [g1]
        simp only
        have hp0 := hpos _ List.mem_cons_self um (by simp [List.getElem?_eq_getElem hu, hum])
        obtain ⟨b', s', e1, e2, e3, e4, e5, e6, e7⟩ := ih (some (grow b um)) s1 hlen' hpos' (by
          intro e he
          injection he with he
          rw [← he]
          exact grow_nonneg b um hp0.1 hp0.2 hb)
        obtain ⟨e', h1, h2⟩ := e6 _ rfl
        refine ⟨b', s', e1, e2.trans g2, e3.trans g3, fun y x hy hx => ?_, e5, ?_, ?_⟩
        · rw [e4 y x (by omega) (by omega), g4 y x hy hx]
          have hat : (if (um.mul counts).covers x y then s.px y x + (um.mul counts).at x y * 1 else s.px y x) =
              s.px y x + um.at x y * counts := by
            by_cases hcov : (um.mul counts).covers x y
            · rw [if_pos hcov, at_mul]; ring
            · rw [if_neg hcov, at_uncovered um _ x y hcov]; ring
          rw [hat]
          simp [compsAt, List.getElem?_eq_getElem hu, hum, unitAt]
          ring
        · intro e he
          exact ⟨e', h1, fun v hv => h2 v ((grow_ok b um).2 e he v hv)⟩
        · intro q hq hne p hp
          rcases List.mem_cons.mp hq with rfl | hq
          · rw [List.getElem?_eq_getElem hu, hum] at hp
            simp only [Option.join_some, Option.some.injEq] at hp
            subst hp
            exact ⟨e', h1, h2 _ (grow_ok b um).1⟩
          · exact e7 q hq hne p hp

/-! ### One source in one image -/

omit [LinearOrder R] in
theorem compsAt_zero (l : List (Option (Patch R) × R)) (x y : Int)
    (h : ∀ q ∈ l, q.2 ≠ 0 → ∀ p, q.1 = some p → ¬ p.covers x y) : compsAt l x y = 0 := by
  unfold compsAt
  apply List.sum_eq_zero
  intro v hv
  obtain ⟨q, hq, rfl⟩ := List.mem_map.mp hv
  by_cases hc : q.2 = 0
  · rw [hc, mul_zero]
  · cases hu : q.1 with
    | none => simp [unitAt]
    | some p => simp only [unitAt]; rw [at_not_covers p x y (h q hq hc p hu), zero_mul]

theorem mem_used (p ie : Arr R) (q : Nat × Nat) :
    q ∈ usedPixels p ie ↔ q.1 < p.h ∧ q.2 < p.w ∧ p.px q.1 q.2 ≠ 0 ∧ ie.px q.1 q.2 > 0 := by
  obtain ⟨y, x⟩ := q
  unfold usedPixels positions
  simp only [List.mem_filter, List.mem_flatMap, List.mem_range, List.mem_map, Prod.mk.injEq, decide_eq_true_eq]
  constructor
  · rintro ⟨⟨r, hr, c, hc, rfl, rfl⟩, h⟩
    exact ⟨hr, hc, h⟩
  · rintro ⟨h1, h2, h⟩
    exact ⟨⟨y, h1, x, h2, rfl, rfl⟩, h⟩

/-- Sums over the used pixels of a slice. -/
theorem sumOver_used (h w : Nat) (a b c d : Int) (s ie F : Nat → Nat → R) :
    sumOver (usedPixels ((Arr.mk h w s).slice (some a) (some b) (some c) (some d))
        ((Arr.mk h w ie).slice (some a) (some b) (some c) (some d)))
      (fun y x => F ((Arr.axis h (some a) (some b)).1 + y) ((Arr.axis w (some c) (some d)).1 + x)) =
    pixSum h w (fun y x => if (InAxis h a b y ∧ InAxis w c d x) ∧ (s y x ≠ 0 ∧ ie y x > 0) then F y x else 0) :=
  sum_slice_filter h w a b c d (fun y x => s y x ≠ 0 ∧ ie y x > 0) F

theorem sumOver_masked (h w : Nat) (a b c d : Int) (s ie F : Nat → Nat → R) :
    sumOver ((positions ((Arr.mk h w s).slice (some a) (some b) (some c) (some d))).filter
        (fun q => decide (((Arr.mk h w ie).slice (some a) (some b) (some c) (some d)).px q.1 q.2 = 0)))
      (fun y x => F ((Arr.axis h (some a) (some b)).1 + y) ((Arr.axis w (some c) (some d)).1 + x)) =
    pixSum h w (fun y x => if (InAxis h a b y ∧ InAxis w c d x) ∧ ie y x = 0 then F y x else 0) :=
  sum_slice_filter h w a b c d (fun y x => ie y x = 0) F

omit [LinearOrder R] in
theorem sumOver_all (h w : Nat) (a b c d : Int) (s F : Nat → Nat → R) :
    sumOver (positions ((Arr.mk h w s).slice (some a) (some b) (some c) (some d)))
      (fun y x => F ((Arr.axis h (some a) (some b)).1 + y) ((Arr.axis w (some c) (some d)).1 + x)) =
    pixSum h w (fun y x => if InAxis h a b y ∧ InAxis w c d x then F y x else 0) := by
  unfold sumOver positions
  rw [sum_positions]
  exact sum_slice h w a b c d F

theorem length_used (h w : Nat) (a b c d : Int) (s ie : Nat → Nat → R) :
    (usedPixels ((Arr.mk h w s).slice (some a) (some b) (some c) (some d))
        ((Arr.mk h w ie).slice (some a) (some b) (some c) (some d))).length =
    pixSum h w (fun y x => if (InAxis h a b y ∧ InAxis w c d x) ∧ (s y x ≠ 0 ∧ ie y x > 0) then 1 else 0) := by
  rw [← sum_slice_filter h w a b c d (fun y x => s y x ≠ 0 ∧ ie y x > 0) (fun _ _ => (1 : Nat))]
  unfold usedPixels positions
  rw [List.map_const', List.sum_replicate]
  exact (Nat.mul_one _).symm

theorem abs0 : |(0 : R)| = 0 := by simp [abs]

/-- The statistics of a slice outside which the profile vanishes, as sums over the image. -/
theorem addStats_eq (b : Best R) (e : Ext) (P s : Nat → Nat → R) (sc : R) (a : Acc R)
    (hP : ∀ y x, y < b.h → x < b.w → s y x = P y x)
    (hout : ∀ y x, y < b.h → x < b.w → ¬ (InAxis b.h e.2.2.1 e.2.2.2 y ∧ InAxis b.w e.1 e.2.1 x) → P y x = 0)
    (hseen : Seen b P) :
    let sl (f : Nat → Nat → R) : Arr R :=
      (Arr.mk b.h b.w f).slice (some e.2.2.1) (some e.2.2.2) (some e.1) (some e.2.1)
    addStats (sl s) (sl b.ie) (sl b.chi) (sl b.mod) (b.extras.map sl) sc b.scale (usedPixels (sl s) (sl b.ie)) a =
      a.add (contribution b b.mod P sc) := by
  intro sl
  have used : ∀ F G : Nat → Nat → R, (∀ y x, y < b.h → x < b.w → P y x = 0 → G y x = 0) →
      (∀ y x, y < b.h → x < b.w → F y x = G y x) →
      sumOver (usedPixels (sl s) (sl b.ie)) (fun y x => F ((Arr.axis b.h (some e.2.2.1) (some e.2.2.2)).1 + y)
        ((Arr.axis b.w (some e.1) (some e.2.1)).1 + x)) =
        pixSum b.h b.w (fun y x => if 0 < b.ie y x then G y x else 0) := by
    intro F G h0 hFG
    rw [sumOver_used]
    apply pixSum_congr
    intro y x hy hx
    rw [hP y x hy hx, hFG y x hy hx]
    by_cases hz : P y x = 0
    · rw [if_neg (fun h => h.2.1 hz), h0 y x hy hx hz, ite_self]
    · have hin : InAxis b.h e.2.2.1 e.2.2.2 y ∧ InAxis b.w e.1 e.2.1 x := by
        by_contra hn
        exact hz (hout y x hy hx hn)
      by_cases hi : 0 < b.ie y x
      · rw [if_pos ⟨hin, hz, hi⟩, if_pos hi]
      · rw [if_neg (fun h => hi h.2.2), if_neg hi]
  unfold addStats Acc.add contribution
  rw [if_pos hseen, if_pos hseen, if_pos hseen, if_pos hseen]
  congr 1
  · congr 1
    exact used (fun y x => |s y x| * b.chi y x ^ 2) _ (fun y x _ _ h => by rw [h]; simp [abs0])
      (fun y x hy hx => by rw [hP y x hy hx])
  · congr 1
    exact used (fun y x => |s y x|) _ (fun y x _ _ h => by rw [h, abs0]) (fun y x hy hx => by rw [hP y x hy hx])
  · congr 1
    refine (sumOver_masked b.h b.w e.2.2.1 e.2.2.2 e.1 e.2.1 s b.ie (fun y x => |s y x|)).trans ?_
    apply pixSum_congr
    intro y x hy hx
    rw [hP y x hy hx]
    by_cases hin : InAxis b.h e.2.2.1 e.2.2.2 y ∧ InAxis b.w e.1 e.2.1 x
    · by_cases hi : b.ie y x = 0
      · rw [if_pos ⟨hin, hi⟩, if_pos hi]
      · rw [if_neg (fun h => hi h.2), if_neg hi]
    · rw [if_neg (fun h => hin h.1), hout y x hy hx hin, abs0, ite_self]
  · congr 2
    · exact used (fun y x => |b.mod y x / sc - s y x| * |s y x|) _ (fun y x _ _ h => by rw [h]; simp [abs0])
        (fun y x hy hx => by rw [hP y x hy hx])
    · exact used (fun y x => s y x ^ 2) _ (fun y x _ _ h => by rw [h]; simp) (fun y x hy hx => by rw [hP y x hy hx])
  · congr 1
    exact used (fun y x => |s y x| / |sc|) _ (fun y x _ _ h => by rw [h]; simp [abs0]) (fun y x hy hx => by rw [hP y x hy hx])
  · congr 1
    exact used (fun y x => |(b.mod y x - s y x * sc) / b.scale| * |s y x|) _ (fun y x _ _ h => by rw [h]; simp [abs0])
      (fun y x hy hx => by rw [hP y x hy hx])
  · congr 1
    refine (length_used b.h b.w e.2.2.1 e.2.2.2 e.1 e.2.1 s b.ie).trans ?_
    apply pixSum_congr
    intro y x hy hx
    rw [hP y x hy hx]
    apply if_congr _ rfl rfl
    constructor
    · exact fun h => h.2
    · intro h
      refine ⟨?_, h⟩
      by_contra hn
      exact h.1 (hout y x hy hx hn)
  · congr 1
    refine (sumOver_all b.h b.w e.2.2.1 e.2.2.2 e.1 e.2.1 s (fun y x => |s y x|)).trans ?_
    apply pixSum_congr
    intro y x hy hx
    rw [hP y x hy hx]
    by_cases hin : InAxis b.h e.2.2.1 e.2.2.2 y ∧ InAxis b.w e.1 e.2.1 x
    · rw [if_pos hin]
    · rw [if_neg hin, hout y x hy hx hin, abs0]
  · rw [List.zipWith_map_right, List.zipWith_map_right]
    congr 1
    funext v f
    congr 1
    exact used (fun y x => |s y x| * f y x) _ (fun y x _ _ h => by rw [h]; simp [abs0])
      (fun y x hy hx => by rw [hP y x hy hx])

end

end Verif.Forced
