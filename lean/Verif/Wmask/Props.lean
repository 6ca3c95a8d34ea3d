import Verif.Wmask.Model
import Mathlib.Tactic.IntervalCases
import Mathlib.Data.Rat.Defs
import Mathlib.Algebra.Order.Ring.Rat

/-!
# C178: masked pixels of WISE level-1b images
-/

namespace Verif.Wmask

variable {K : Type} [Field K] [LinearOrder K]

/-- The bit is one of those by which a pixel is bad. -/
def BadBit (b : Nat) : Prop := b ≤ 7 ∨ (9 ≤ b ∧ b ≤ 18) ∨ b = 21 ∨ (26 ≤ b ∧ b ≤ 28)

/-- A pixel of which the mask has one of these bits. -/
def Masked (p : Pix K) : Prop := ∃ b, BadBit b ∧ p.mask.testBit b = true

theorem maskBits_testBit (b : Nat) : maskBits.testBit b = true ↔ BadBit b := by
  by_cases h : b < 29
  · unfold BadBit
    interval_cases b <;> simp [maskBits, bits] <;> decide
  · have h1 : maskBits < 2 ^ 29 := by decide
    have h2 : maskBits.testBit b = false := Nat.testBit_lt_two_pow (lt_of_lt_of_le h1 (Nat.pow_le_pow_right (by decide) (not_lt.mp h)))
    rw [h2]
    unfold BadBit
    simp only [Bool.false_eq_true, false_iff]
    omega

omit [Field K] [LinearOrder K] in
theorem goodmask_iff (p : Pix K) : goodmask p = true ↔ ¬ Masked p := by
  unfold goodmask Masked
  rw [decide_eq_true_iff]
  constructor
  · rintro h ⟨b, hb, ht⟩
    have := congrArg (·.testBit b) h
    simp [Nat.testBit_and, ht, (maskBits_testBit b).mpr hb] at this
  · intro h
    apply Nat.eq_of_testBit_eq
    intro b
    rw [Nat.testBit_and, Nat.zero_testBit]
    by_contra hc
    have hc : (p.mask.testBit b && maskBits.testBit b) = true := by simpa using hc
    rw [Bool.and_eq_true] at hc
    exact h ⟨b, (maskBits_testBit b).mp hc.2, hc.1⟩

/-- **Pixels**: (1) a masked pixel, and one whose uncertainty is zero or NaN, gets the sky level as its data and no weight; (2) any other one keeps its data, its weight is that of its
uncertainty (none if that is infinite) or, with `constantInvvar`, that of `sigma1`, also if its uncertainty is infinite. -/
theorem C178_pixels (median : List (Num K) → Num K) (constantInvvar : Bool) (l : List (Pix K)) (i : Nat) (p : Pix K) (hp : l[i]? = some p) :
    ∃ o, (finish median constantInvvar l).pix[i]? = some o ∧ (o.good = true ↔ ¬ Masked p) ∧
      ((Masked p ∨ p.unc = .nan ∨ p.unc = .fin 0) → o.data = (finish median constantInvvar l).sky ∧ o.invvar = .fin 0 ∧ o.cinvvar = .fin 0 ∧ o.vinvvar = .fin 0) ∧
      (¬ (Masked p ∨ p.unc = .nan ∨ p.unc = .fin 0) → o.data = p.data ∧ o.invvar = (if constantInvvar then o.cinvvar else o.vinvvar) ∧
        o.cinvvar = recipSq (finish median constantInvvar l).sigma1 ∧ (∀ s, p.unc = .fin s → o.vinvvar = .fin (1 / (s * s))) ∧
        (p.unc = .ninf ∨ p.unc = .pinf → o.vinvvar = .fin 0)) := by
  refine ⟨treat constantInvvar (finish median constantInvvar l).sky (finish median constantInvvar l).sigma1 p, ?_, goodmask_iff p, ?_, ?_⟩
  · unfold finish
    dsimp only
    rw [List.getElem?_map, hp]
    rfl
  · intro h
    generalize (finish median constantInvvar l).sky = sky
    generalize (finish median constantInvvar l).sigma1 = sigma1
    unfold treat
    dsimp only
    by_cases hg : goodmask p = true
    · have hn := (goodmask_iff p).mp hg
      have hb : (recipSq p.unc).isFinite = false := by
        rcases h.resolve_left hn with h | h
        · rw [h]
          rfl
        · rw [h]
          simp [recipSq, Num.isFinite]
      simp [hg, hb]
    · simp [hg, Num.isFinite]
  · intro h
    rw [not_or, not_or] at h
    generalize (finish median constantInvvar l).sigma1 = sigma1
    generalize (finish median constantInvvar l).sky = sky
    have hg := (goodmask_iff p).mpr h.1
    have hf : (recipSq p.unc).isFinite = true := by
      rcases hu : p.unc with _ | _ | _ | s
      · exact absurd hu h.2.1
      · rfl
      · rfl
      · have : s ≠ 0 := fun hs => h.2.2 (by rw [hu, hs])
        simp [recipSq, this, Num.isFinite]
    unfold treat
    dsimp only
    simp only [hg, hf, if_true, Bool.not_true, Bool.false_eq_true, if_false, true_and]
    refine ⟨fun s hs => ?_, fun hs => ?_⟩
    · have : s ≠ 0 := fun h0 => h.2.2 (by rw [hs, h0])
      rw [hs]
      exact if_neg this
    · rcases hs with hs | hs <;> rw [hs] <;> rfl

/-- **Weights**: without `constantInvvar` every weight is a number and not negative.  Missing: the same with `constantInvvar`, which C178_sigma_false refutes. -/
theorem C178_weights_partial [IsStrictOrderedRing K] (median : List (Num K) → Num K) (l : List (Pix K)) (o : Out K) (ho : o ∈ (finish median false l).pix) :
    ∃ w : K, o.invvar = .fin w ∧ 0 ≤ w := by
  obtain ⟨i, hi⟩ := List.mem_iff_getElem?.mp ho
  have hl : ∃ p, l[i]? = some p := by
    unfold finish at hi
    dsimp only at hi
    rw [List.getElem?_map] at hi
    rcases h : l[i]? with _ | p
    · rw [h] at hi
      cases hi
    · exact ⟨p, rfl⟩
  obtain ⟨p, hp⟩ := hl
  obtain ⟨o', h1, _, h3, h4⟩ := C178_pixels median false l i p hp
  obtain rfl := Option.some.inj (hi.symm.trans h1)
  by_cases h : Masked p ∨ p.unc = .nan ∨ p.unc = .fin 0
  · exact ⟨0, (h3 h).2.1, le_refl _⟩
  · obtain ⟨_, h5, _, h6, h7⟩ := h4 h
    rw [if_neg Bool.false_ne_true] at h5
    rcases hu : p.unc with _ | _ | _ | s
    · exact absurd (.inr (.inl hu)) h
    · exact ⟨0, h5.trans (h7 (.inl hu)), le_refl _⟩
    · exact ⟨0, h5.trans (h7 (.inr hu)), le_refl _⟩
    · exact ⟨1 / (s * s), h5.trans (h6 s hu), div_nonneg zero_le_one (mul_self_nonneg s)⟩

/-- **NaN in the data**: if all pixels are finite (and the median of such pixels is), all of the image are.  Missing: pixels that are NaN and masked, as the comment "avoid NaNs"
promises; see C178_nan_false. -/
theorem C178_nan_partial (median : List (Num K) → Num K) (hm : ∀ l', l' ≠ [] → (∀ x ∈ l', x.isFinite = true) → (median l').isFinite = true) (constantInvvar : Bool)
    (l : List (Pix K)) (h : ∀ p ∈ l, p.data.isFinite = true) (o : Out K) (ho : o ∈ (finish median constantInvvar l).pix) : o.data.isFinite = true := by
  obtain ⟨p, hp, rfl⟩ := List.mem_map.mp ho
  have hs : (median (l.map (·.data))).isFinite = true := by
    apply hm
    · intro hn
      rw [List.map_eq_nil_iff.mp hn] at hp
      cases hp
    · intro x hx
      obtain ⟨q, hq, rfl⟩ := List.mem_map.mp hx
      exact h q hq
  have hd := h p hp
  unfold treat
  dsimp only
  generalize goodmask p = g
  generalize median (l.map (·.data)) = sky at hs ⊢
  generalize (!(if g = true then recipSq p.unc else .fin 0).isFinite) = b
  cases g <;> cases b <;> simp [hs, hd]

/-- **One NaN is enough**: if one pixel, masked or not, is NaN, the sky level is, and with it the data of all masked pixels and of those without a valid uncertainty. -/
theorem C178_nan_false (median : List (Num K) → Num K) (hm : ∀ l', .nan ∈ l' → median l' = .nan) (constantInvvar : Bool) (l : List (Pix K)) (q : Pix K) (hq : q ∈ l)
    (hn : q.data = .nan) : (finish median constantInvvar l).sky = .nan ∧
      ∀ (i : Nat) (p : Pix K), l[i]? = some p → (Masked p ∨ p.unc = .nan ∨ p.unc = .fin 0) → ((finish median constantInvvar l).pix[i]?).map (·.data) = some .nan := by
  have hs : (finish median constantInvvar l).sky = .nan := hm _ (List.mem_map.mpr ⟨q, hq, hn⟩)
  refine ⟨hs, fun i p hp h => ?_⟩
  obtain ⟨o, h1, _, h3, _⟩ := C178_pixels median constantInvvar l i p hp
  rw [h1, Option.map_some, (h3 h).1, hs]

/-- **Constant weights**: if the uncertainty of one pixel that is not masked is NaN, `sigma1` is, and the weight of all good pixels with `constantInvvar`. -/
theorem C178_sigma_false (median : List (Num K) → Num K) (hm : ∀ l', .nan ∈ l' → median l' = .nan) (l : List (Pix K)) (q : Pix K) (hq : q ∈ l) (hg : ¬ Masked q) (hn : q.unc = .nan) :
    (finish median true l).sigma1 = .nan ∧
      ∀ (i : Nat) (p : Pix K), l[i]? = some p → ¬ (Masked p ∨ p.unc = .nan ∨ p.unc = .fin 0) → ((finish median true l).pix[i]?).map (·.invvar) = some .nan := by
  have hs : (finish median true l).sigma1 = .nan := hm _ (List.mem_map.mpr ⟨q, List.mem_filter.mpr ⟨hq, (goodmask_iff q).mpr hg⟩, hn⟩)
  refine ⟨hs, fun i p hp h => ?_⟩
  obtain ⟨o, h1, _, _, h4⟩ := C178_pixels median true l i p hp
  obtain ⟨_, h5, h6, _⟩ := h4 h
  rw [h1, Option.map_some, h5, if_pos rfl, h6, hs]
  rfl

/-- The same masks, and the same pixels where they are not masked. -/
def SameGood (p q : Pix K) : Prop := p.mask = q.mask ∧ (¬ Masked p → p = q)

/-- **Masked pixels do not matter for weights**: two images with the same masks that differ only in masked pixels have the same `sigma1` and the same weights, of both kinds. -/
theorem C178_masked (median : List (Num K) → Num K) (constantInvvar : Bool) (l l' : List (Pix K)) (h : List.Forall₂ SameGood l l') :
    (finish median constantInvvar l).sigma1 = (finish median constantInvvar l').sigma1 ∧
      (finish median constantInvvar l).pix.map (·.invvar) = (finish median constantInvvar l').pix.map (·.invvar) := by
  have hg : ∀ p q : Pix K, SameGood p q → goodmask p = goodmask q := fun p q hpq => by
    unfold goodmask
    rw [hpq.1]
  have hf : l.filter goodmask = l'.filter goodmask := by
    induction h with
    | nil => rfl
    | cons hpq _ ih =>
      rename_i p q l l' _
      rw [List.filter_cons, List.filter_cons, ← hg p q hpq, ih]
      by_cases hm : goodmask p = true
      · rw [if_pos hm, if_pos hm, hpq.2 ((goodmask_iff p).mp hm)]
      · rw [if_neg hm, if_neg hm]
  have hs : (finish median constantInvvar l).sigma1 = (finish median constantInvvar l').sigma1 := by
    unfold finish
    dsimp only
    rw [hf]
  refine ⟨hs, ?_⟩
  have key : ∀ sky sky' s : Num K, l.map (fun p => (treat constantInvvar sky s p).invvar) = l'.map (fun p => (treat constantInvvar sky' s p).invvar) := by
    intro sky sky' s
    clear hf hs
    induction h with
    | nil => rfl
    | cons hpq _ ih =>
      rename_i p q l l' _
      rw [List.map_cons, List.map_cons, ih]
      congr 1
      unfold treat
      dsimp only
      rw [← hg p q hpq]
      by_cases hm : goodmask p = true
      · rw [hpq.2 ((goodmask_iff p).mp hm)]
      · simp only [hm, Bool.false_eq_true, if_false]
  have e : ∀ l : List (Pix K), (finish median constantInvvar l).pix.map (·.invvar) =
      l.map (fun p => (treat constantInvvar (finish median constantInvvar l).sky (finish median constantInvvar l).sigma1 p).invvar) := fun l => by
    unfold finish
    dsimp only
    rw [List.map_map]
    rfl
  rw [e, e, hs]
  exact key _ _ _

/-! A median that is the last number, NaN if there is one. -/

def exMed (l : List (Num ℚ)) : Num ℚ := if l.any (·.isNan) then .nan else l.getLastD .nan
def exGood : Pix ℚ := ⟨.fin 3, .fin 2, 256⟩
def exBad : Pix ℚ := ⟨.nan, .fin 2, 512⟩
def exUnc : Pix ℚ := ⟨.fin 4, .nan, 0⟩

theorem exMed_nan (l : List (Num ℚ)) (h : .nan ∈ l) : exMed l = .nan := if_pos (List.any_eq_true.mpr ⟨_, h, rfl⟩)

theorem exGood_ok : ¬ Masked exGood := (goodmask_iff exGood).mp (by decide)

theorem exGood_keeps : ¬ (Masked exGood ∨ exGood.unc = .nan ∨ exGood.unc = .fin 0) := by
  rintro (h | h | h)
  · exact exGood_ok h
  · simp [exGood] at h
  · simp [exGood] at h

theorem exBad_masked : Masked exBad := ⟨9, by unfold BadBit; omega, by decide⟩

-- bit 8 does not mask
example : ((finish exMed false [exGood]).pix[0]?).map (·.data) = some (.fin 3) := by
  obtain ⟨o, h1, _, _, h4⟩ := C178_pixels exMed false [exGood] 0 exGood rfl
  rw [h1, Option.map_some, (h4 exGood_keeps).1]
  rfl

example (o : Out ℚ) (ho : o ∈ (finish exMed false [exGood, exBad]).pix) : ∃ w : ℚ, o.invvar = .fin w ∧ 0 ≤ w := C178_weights_partial exMed _ o ho

example (o : Out ℚ) (ho : o ∈ (finish (fun l => l.getLastD .nan) false [exGood]).pix) : o.data.isFinite = true :=
  C178_nan_partial _ (by
    intro l' h1 h2
    rw [List.getLastD_eq_getLast?, List.getLast?_eq_some_getLast h1]
    exact h2 _ (List.getLast_mem h1)) false [exGood] (by simp [exGood, Num.isFinite]) o ho

example : (finish exMed false [exGood, exBad]).sky = .nan ∧ ((finish exMed false [exGood, exBad]).pix[1]?).map (·.data) = some .nan :=
  ⟨(C178_nan_false exMed exMed_nan false [exGood, exBad] exBad (by simp) rfl).1,
    (C178_nan_false exMed exMed_nan false [exGood, exBad] exBad (by simp) rfl).2 1 exBad rfl (.inl exBad_masked)⟩

-- another value and uncertainty of a masked pixel
example : (finish exMed true [exGood, exBad]).sigma1 = (finish exMed true [exGood, ⟨.fin 7, .nan, 512⟩]).sigma1 :=
  (C178_masked exMed true [exGood, exBad] [exGood, ⟨.fin 7, .nan, 512⟩]
    (.cons ⟨rfl, fun _ => rfl⟩ (.cons ⟨rfl, fun h => absurd exBad_masked h⟩ .nil))).1

-- the weight of a good pixel is NaN
example : ((finish exMed true [exGood, exUnc]).pix[0]?).map (·.invvar) = some .nan :=
  (C178_sigma_false exMed exMed_nan [exGood, exUnc] exUnc (by simp) ((goodmask_iff exUnc).mp (by decide)) rfl).2 0 exGood rfl
    exGood_keeps

end Verif.Wmask
