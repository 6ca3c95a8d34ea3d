import Verif.Approx.Model
import Verif.Approx.Spec
import Mathlib.Tactic.ByContra
import Mathlib.Tactic.SplitIfs
import Mathlib.Tactic.Tauto

/-!
# Lemmas: the loop over rings reaches exactly the pixels of the specification
-/

namespace Verif.Approx

set_option linter.unusedSimpArgs false

variable {R : Type} [Zero R] [LinearOrder R]

abbrev Job.inside (J : Job R) : Int → Int → Prop := Inside J.bx.x0 J.bx.x1 J.bx.y0 J.bx.y1

abbrev Job.Vis (J : Job R) : Int → Int → Prop := Reached J.val J.minval J.minradius J.inside J.yc J.xc

abbrev Job.far (J : Job R) (y x : Int) : Nat := Approx.far J.yc J.xc y x

/-- At ring `rad` the pixel has its neighbours marked. -/
abbrev Job.pass (J : Job R) (rad y x : Int) : Prop := rad ≤ J.minradius ∨ J.minval ≤ J.val y x

omit [Zero R] [LinearOrder R] in
theorem mark_iff (a : Int → Bool) (i lo hi j : Int) :
    mark a i lo hi j = true ↔ (j = i ∧ lo ≤ i ∧ i < hi) ∨ a j = true := by
  unfold mark
  split_ifs with h
  · simp only [Bool.or_eq_true, beq_iff_eq]; constructor
    · rintro (h1 | h1)
      · left; exact ⟨h1, h.1, h.2⟩
      · right; exact h1
    · rintro (h1 | h1)
      · left; exact h1.1
      · right; exact h1
  · constructor
    · intro h1; right; exact h1
    · rintro (h1 | h1)
      · exact absurd ⟨h1.2.1, h1.2.2⟩ h
      · exact h1

/-- The effect on the state of evaluating the pixels `P`, all in ring `rad`. -/
structure Did (J : Job R) (rad : Int) (s s' : St R) (P : Int → Int → Prop) : Prop where
  res : ∀ y x, (P y x → s'.res y x = J.val y x) ∧ (¬ P y x → s'.res y x = s.res y x)
  any : s'.any = true ↔ s.any = true ∨ ∃ y x, P y x
  t : ∀ x, s'.next.t x = true ↔ s.next.t x = true ∨
    (J.inside (J.yc + rad + 1) x ∧ ∃ y' x', P y' x' ∧ J.pass rad y' x' ∧ Adjacent y' x' (J.yc + rad + 1) x)
  b : ∀ x, s'.next.b x = true ↔ s.next.b x = true ∨
    (J.inside (J.yc - rad - 1) x ∧ ∃ y' x', P y' x' ∧ J.pass rad y' x' ∧ Adjacent y' x' (J.yc - rad - 1) x)
  l : ∀ y, s'.next.l y = true ↔ s.next.l y = true ∨
    (J.inside y (J.xc - rad - 1) ∧ ((y - J.yc).natAbs : Int) ≤ rad ∧
      ∃ y' x', P y' x' ∧ J.pass rad y' x' ∧ Adjacent y' x' y (J.xc - rad - 1))
  r : ∀ y, s'.next.r y = true ↔ s.next.r y = true ∨
    (J.inside y (J.xc + rad + 1) ∧ ((y - J.yc).natAbs : Int) ≤ rad ∧
      ∃ y' x', P y' x' ∧ J.pass rad y' x' ∧ Adjacent y' x' y (J.xc + rad + 1))

omit [Zero R] in
theorem Did.refl (J : Job R) (rad : Int) (s : St R) : Did J rad s s (fun _ _ => False) := by
  constructor <;> simp

omit [Zero R] in
theorem Did.congr {J : Job R} {rad : Int} {s s' : St R} {P Q : Int → Int → Prop} (h : Did J rad s s' P)
    (hPQ : ∀ y x, P y x ↔ Q y x) : Did J rad s s' Q := by
  have : P = Q := by funext y x; exact propext (hPQ y x)
  rw [← this]; exact h

omit [Zero R] in
theorem ex_or {A : Prop} {P Q : Int → Int → Prop} {F : Int → Int → Prop} {B : Prop} :
    ((B ∨ (A ∧ ∃ y' x', P y' x' ∧ F y' x')) ∨ (A ∧ ∃ y' x', Q y' x' ∧ F y' x')) ↔
      (B ∨ (A ∧ ∃ y' x', (P y' x' ∨ Q y' x') ∧ F y' x')) := by
  constructor
  · rintro ((h | ⟨a, y, x, hp, hf⟩) | ⟨a, y, x, hp, hf⟩)
    · exact .inl h
    · exact .inr ⟨a, y, x, .inl hp, hf⟩
    · exact .inr ⟨a, y, x, .inr hp, hf⟩
  · rintro (h | ⟨a, y, x, hp | hp, hf⟩)
    · exact .inl (.inl h)
    · exact .inl (.inr ⟨a, y, x, hp, hf⟩)
    · exact .inr ⟨a, y, x, hp, hf⟩

omit [Zero R] in
theorem ex_or2 {A A' : Prop} {P Q : Int → Int → Prop} {F : Int → Int → Prop} {B : Prop} :
    ((B ∨ (A ∧ A' ∧ ∃ y' x', P y' x' ∧ F y' x')) ∨ (A ∧ A' ∧ ∃ y' x', Q y' x' ∧ F y' x')) ↔
      (B ∨ (A ∧ A' ∧ ∃ y' x', (P y' x' ∨ Q y' x') ∧ F y' x')) := by
  simp only [← and_assoc (a := A)]; exact ex_or

omit [Zero R] in
theorem Did.trans {J : Job R} {rad : Int} {s s' s'' : St R} {P Q : Int → Int → Prop} (h : Did J rad s s' P)
    (h' : Did J rad s' s'' Q) : Did J rad s s'' (fun y x => P y x ∨ Q y x) := by
  refine ⟨?_, ?_, ?_, ?_, ?_, ?_⟩
  · intro y x
    constructor
    · intro hpq
      by_cases hq : Q y x
      · exact (h'.res y x).1 hq
      · rw [(h'.res y x).2 hq]; exact (h.res y x).1 (hpq.resolve_right hq)
    · intro hpq
      rw [(h'.res y x).2 (fun hq => hpq (.inr hq))]
      exact (h.res y x).2 (fun hp => hpq (.inl hp))
  · rw [h'.any, h.any]
    constructor
    · rintro ((h | ⟨y, x, hp⟩) | ⟨y, x, hp⟩)
      · exact .inl h
      · exact .inr ⟨y, x, .inl hp⟩
      · exact .inr ⟨y, x, .inr hp⟩
    · rintro (h | ⟨y, x, hp | hp⟩)
      · exact .inl (.inl h)
      · exact .inl (.inr ⟨y, x, hp⟩)
      · exact .inr ⟨y, x, hp⟩
  · intro x; rw [h'.t, h.t]; exact ex_or
  · intro x; rw [h'.b, h.b]; exact ex_or
  · intro y; rw [h'.l, h.l]; exact ex_or2
  · intro y; rw [h'.r, h.r]; exact ex_or2

/-- One pixel. -/
abbrev One (yy xx : Int) (c : Prop) : Int → Int → Prop := fun y x => c ∧ y = yy ∧ x = xx

omit [Zero R] in
theorem one_iff {yy xx : Int} {F : Int → Int → Prop} {c : Prop} :
    (∃ y' x', One yy xx c y' x' ∧ F y' x') ↔ c ∧ F yy xx := by
  constructor
  · rintro ⟨y, x, ⟨hc, rfl, rfl⟩, hf⟩; exact ⟨hc, hf⟩
  · rintro ⟨hc, hf⟩; exact ⟨yy, xx, ⟨hc, rfl, rfl⟩, hf⟩

omit [Zero R] in
theorem did_false {J : Job R} {rad : Int} {s : St R} {yy xx : Int} {c : Prop} (hc : ¬ c) : Did J rad s s (One yy xx c) :=
  (Did.refl J rad s).congr (fun y x => by constructor <;> simp [One, hc])

omit [Zero R] in
theorem top_did (J : Job R) (rad xx : Int) (dt : Int → Bool) (s : St R) (h1 : 1 ≤ rad)
    (hx : dt xx = true → J.inside (J.yc + rad) xx ∧ ((xx - J.xc).natAbs : Int) ≤ rad) :
    Did J rad s (topPixel J rad (J.yc + rad) dt s xx) (One (J.yc + rad) xx (dt xx = true)) := by
  by_cases hd : dt xx = true
  swap
  · have : topPixel J rad (J.yc + rad) dt s xx = s := by unfold topPixel; rw [if_pos (by simpa using hd)]
    rw [this]; exact did_false hd
  obtain ⟨hin, hr⟩ := hx hd
  obtain ⟨⟨hi1, hi2⟩, hi3, hi4⟩ := hin
  unfold topPixel
  rw [if_neg (by simp [hd])]
  by_cases hp : rad > J.minradius ∧ J.val (J.yc + rad) xx < J.minval
  · simp only [if_pos hp]
    have hnp : ¬ J.pass rad (J.yc + rad) xx := by
      rintro (h | h)
      · omega
      · exact absurd hp.2 (not_lt.mpr h)
    refine ⟨?_, ?_, ?_, ?_, ?_, ?_⟩
    · intro y x
      constructor
      · rintro ⟨-, rfl, rfl⟩; simp [St.visit]
      · intro h; simp only [One, hd, true_and] at h; simp only [St.visit]; rw [if_neg h]
    · simp only [St.visit, true_iff]; right; exact ⟨_, _, hd, rfl, rfl⟩
    all_goals intro z; rw [one_iff]; simp only [St.visit]; constructor
    all_goals first
      | exact fun h => .inl h
      | rintro (h | h)
    all_goals first
      | exact h
      | (exfalso; apply hnp; tauto)
  · simp only [if_neg hp]
    have hnp : J.pass rad (J.yc + rad) xx := by
      by_cases h : rad ≤ J.minradius
      · exact .inl h
      · right; rw [← not_lt]; intro h'; exact hp ⟨by omega, h'⟩
    refine ⟨?_, ?_, ?_, ?_, ?_, ?_⟩
    · intro y x
      constructor
      · rintro ⟨-, rfl, rfl⟩; split_ifs <;> simp [St.visit, St.markL, St.markR, St.markT]
      · intro h; simp only [One, hd, true_and] at h
        split_ifs <;> simp only [St.visit, St.markL, St.markR, St.markT] <;> rw [if_neg h]
    · constructor
      · intro _; right; exact ⟨_, _, hd, rfl, rfl⟩
      · intro _; split_ifs <;> simp [St.visit, St.markL, St.markR, St.markT]
    · intro x; rw [one_iff]
      simp only [hd, hnp, true_and, Adjacent, Inside]
      split_ifs <;> simp only [St.visit, St.markL, St.markR, St.markT, mark_iff] <;>
        by_cases hs : s.next.t x = true <;>
        simp only [hs, true_or, or_true, false_or, or_false, false_iff, Bool.false_eq_true] <;> omega
    · intro x; rw [one_iff]
      simp only [hd, hnp, true_and, Adjacent, Inside]
      split_ifs <;> simp only [St.visit, St.markL, St.markR, St.markT, mark_iff] <;>
        by_cases hs : s.next.b x = true <;>
        simp only [hs, true_or, or_true, false_or, or_false, false_iff, Bool.false_eq_true] <;> omega
    · intro y; rw [one_iff]
      simp only [hd, hnp, true_and, Adjacent, Inside]
      split_ifs <;> simp only [St.visit, St.markL, St.markR, St.markT, mark_iff] <;>
        by_cases hs : s.next.l y = true <;>
        simp only [hs, true_or, or_true, false_or, or_false, false_iff, Bool.false_eq_true] <;> omega
    · intro y; rw [one_iff]
      simp only [hd, hnp, true_and, Adjacent, Inside]
      split_ifs <;> simp only [St.visit, St.markL, St.markR, St.markT, mark_iff] <;>
        by_cases hs : s.next.r y = true <;>
        simp only [hs, true_or, or_true, false_or, or_false, false_iff, Bool.false_eq_true] <;> omega

omit [Zero R] in
theorem bottom_did (J : Job R) (rad xx : Int) (db : Int → Bool) (s : St R) (h1 : 1 ≤ rad)
    (hx : db xx = true → J.inside (J.yc - rad) xx ∧ ((xx - J.xc).natAbs : Int) ≤ rad) :
    Did J rad s (bottomPixel J rad (J.yc - rad) db s xx) (One (J.yc - rad) xx (db xx = true)) := by
  by_cases hd : db xx = true
  swap
  · have : bottomPixel J rad (J.yc - rad) db s xx = s := by unfold bottomPixel; rw [if_pos (by simpa using hd)]
    rw [this]; exact did_false hd
  obtain ⟨hin, hr⟩ := hx hd
  obtain ⟨⟨hi1, hi2⟩, hi3, hi4⟩ := hin
  unfold bottomPixel
  rw [if_neg (by simp [hd])]
  by_cases hp : rad > J.minradius ∧ J.val (J.yc - rad) xx < J.minval
  · simp only [if_pos hp]
    have hnp : ¬ J.pass rad (J.yc - rad) xx := by
      rintro (h | h)
      · omega
      · exact absurd hp.2 (not_lt.mpr h)
    refine ⟨?_, ?_, ?_, ?_, ?_, ?_⟩
    · intro y x
      constructor
      · rintro ⟨-, rfl, rfl⟩; simp [St.visit]
      · intro h; simp only [One, hd, true_and] at h; simp only [St.visit]; rw [if_neg h]
    · simp only [St.visit, true_iff]; right; exact ⟨_, _, hd, rfl, rfl⟩
    all_goals intro z; rw [one_iff]; simp only [St.visit]; constructor
    all_goals first
      | exact fun h => .inl h
      | rintro (h | h)
    all_goals first
      | exact h
      | (exfalso; apply hnp; tauto)
  · simp only [if_neg hp]
    have hnp : J.pass rad (J.yc - rad) xx := by
      by_cases h : rad ≤ J.minradius
      · exact .inl h
      · right; rw [← not_lt]; intro h'; exact hp ⟨by omega, h'⟩
    refine ⟨?_, ?_, ?_, ?_, ?_, ?_⟩
    · intro y x
      constructor
      · rintro ⟨-, rfl, rfl⟩; split_ifs <;> simp [St.visit, St.markL, St.markR, St.markB]
      · intro h; simp only [One, hd, true_and] at h
        split_ifs <;> simp only [St.visit, St.markL, St.markR, St.markB] <;> rw [if_neg h]
    · constructor
      · intro _; right; exact ⟨_, _, hd, rfl, rfl⟩
      · intro _; split_ifs <;> simp [St.visit, St.markL, St.markR, St.markB]
    · intro x; rw [one_iff]
      simp only [hd, hnp, true_and, Adjacent, Inside]
      split_ifs <;> simp only [St.visit, St.markL, St.markR, St.markB, mark_iff] <;>
        by_cases hs : s.next.t x = true <;>
        simp only [hs, true_or, or_true, false_or, or_false, false_iff, Bool.false_eq_true] <;> omega
    · intro x; rw [one_iff]
      simp only [hd, hnp, true_and, Adjacent, Inside]
      split_ifs <;> simp only [St.visit, St.markL, St.markR, St.markB, mark_iff] <;>
        by_cases hs : s.next.b x = true <;>
        simp only [hs, true_or, or_true, false_or, or_false, false_iff, Bool.false_eq_true] <;> omega
    · intro y; rw [one_iff]
      simp only [hd, hnp, true_and, Adjacent, Inside]
      split_ifs <;> simp only [St.visit, St.markL, St.markR, St.markB, mark_iff] <;>
        by_cases hs : s.next.l y = true <;>
        simp only [hs, true_or, or_true, false_or, or_false, false_iff, Bool.false_eq_true] <;> omega
    · intro y; rw [one_iff]
      simp only [hd, hnp, true_and, Adjacent, Inside]
      split_ifs <;> simp only [St.visit, St.markL, St.markR, St.markB, mark_iff] <;>
        by_cases hs : s.next.r y = true <;>
        simp only [hs, true_or, or_true, false_or, or_false, false_iff, Bool.false_eq_true] <;> omega

omit [Zero R] in
theorem left_did (J : Job R) (rad yy : Int) (dl : Int → Bool) (s : St R) (h1 : 1 ≤ rad)
    (hx : dl yy = true → J.inside yy (J.xc - rad) ∧ ((yy - J.yc).natAbs : Int) < rad) :
    Did J rad s (leftPixel J rad (J.xc - rad) dl s yy) (One yy (J.xc - rad) (dl yy = true)) := by
  by_cases hd : dl yy = true
  swap
  · have : leftPixel J rad (J.xc - rad) dl s yy = s := by unfold leftPixel; rw [if_pos (by simpa using hd)]
    rw [this]; exact did_false hd
  obtain ⟨hin, hr⟩ := hx hd
  obtain ⟨⟨hi1, hi2⟩, hi3, hi4⟩ := hin
  unfold leftPixel
  rw [if_neg (by simp [hd])]
  by_cases hp : rad > J.minradius ∧ J.val yy (J.xc - rad) < J.minval
  · simp only [if_pos hp]
    have hnp : ¬ J.pass rad yy (J.xc - rad) := by
      rintro (h | h)
      · omega
      · exact absurd hp.2 (not_lt.mpr h)
    refine ⟨?_, ?_, ?_, ?_, ?_, ?_⟩
    · intro y x
      constructor
      · rintro ⟨-, rfl, rfl⟩; simp [St.visit]
      · intro h; simp only [One, hd, true_and] at h; simp only [St.visit]; rw [if_neg h]
    · simp only [St.visit, true_iff]; right; exact ⟨_, _, hd, rfl, rfl⟩
    all_goals intro z; rw [one_iff]; simp only [St.visit]; constructor
    all_goals first
      | exact fun h => .inl h
      | rintro (h | h)
    all_goals first
      | exact h
      | (exfalso; apply hnp; tauto)
  · simp only [if_neg hp]
    have hnp : J.pass rad yy (J.xc - rad) := by
      by_cases h : rad ≤ J.minradius
      · exact .inl h
      · right; rw [← not_lt]; intro h'; exact hp ⟨by omega, h'⟩
    refine ⟨?_, ?_, ?_, ?_, ?_, ?_⟩
    · intro y x
      constructor
      · rintro ⟨-, rfl, rfl⟩; split_ifs <;> simp [St.visit, St.markL, St.markR, St.markT]
      · intro h; simp only [One, hd, true_and] at h
        split_ifs <;> simp only [St.visit, St.markL, St.markR, St.markT] <;> rw [if_neg h]
    · constructor
      · intro _; right; exact ⟨_, _, hd, rfl, rfl⟩
      · intro _; split_ifs <;> simp [St.visit, St.markL, St.markR, St.markT]
    · intro x; rw [one_iff]
      simp only [hd, hnp, true_and, Adjacent, Inside]
      split_ifs <;> simp only [St.visit, St.markL, St.markR, St.markT, mark_iff] <;>
        by_cases hs : s.next.t x = true <;>
        simp only [hs, true_or, or_true, false_or, or_false, false_iff, Bool.false_eq_true] <;> omega
    · intro x; rw [one_iff]
      simp only [hd, hnp, true_and, Adjacent, Inside]
      split_ifs <;> simp only [St.visit, St.markL, St.markR, St.markT, mark_iff] <;>
        by_cases hs : s.next.b x = true <;>
        simp only [hs, true_or, or_true, false_or, or_false, false_iff, Bool.false_eq_true] <;> omega
    · intro y; rw [one_iff]
      simp only [hd, hnp, true_and, Adjacent, Inside]
      split_ifs <;> simp only [St.visit, St.markL, St.markR, St.markT, mark_iff] <;>
        by_cases hs : s.next.l y = true <;>
        simp only [hs, true_or, or_true, false_or, or_false, false_iff, Bool.false_eq_true] <;> omega
    · intro y; rw [one_iff]
      simp only [hd, hnp, true_and, Adjacent, Inside]
      split_ifs <;> simp only [St.visit, St.markL, St.markR, St.markT, mark_iff] <;>
        by_cases hs : s.next.r y = true <;>
        simp only [hs, true_or, or_true, false_or, or_false, false_iff, Bool.false_eq_true] <;> omega

omit [Zero R] in
theorem right_did (J : Job R) (rad yy : Int) (dr : Int → Bool) (s : St R) (h1 : 1 ≤ rad)
    (hx : dr yy = true → J.inside yy (J.xc + rad) ∧ ((yy - J.yc).natAbs : Int) < rad) :
    Did J rad s (rightPixel J rad (J.xc + rad) dr s yy) (One yy (J.xc + rad) (dr yy = true)) := by
  by_cases hd : dr yy = true
  swap
  · have : rightPixel J rad (J.xc + rad) dr s yy = s := by unfold rightPixel; rw [if_pos (by simpa using hd)]
    rw [this]; exact did_false hd
  obtain ⟨hin, hr⟩ := hx hd
  obtain ⟨⟨hi1, hi2⟩, hi3, hi4⟩ := hin
  unfold rightPixel
  rw [if_neg (by simp [hd])]
  by_cases hp : rad > J.minradius ∧ J.val yy (J.xc + rad) < J.minval
  · simp only [if_pos hp]
    have hnp : ¬ J.pass rad yy (J.xc + rad) := by
      rintro (h | h)
      · omega
      · exact absurd hp.2 (not_lt.mpr h)
    refine ⟨?_, ?_, ?_, ?_, ?_, ?_⟩
    · intro y x
      constructor
      · rintro ⟨-, rfl, rfl⟩; simp [St.visit]
      · intro h; simp only [One, hd, true_and] at h; simp only [St.visit]; rw [if_neg h]
    · simp only [St.visit, true_iff]; right; exact ⟨_, _, hd, rfl, rfl⟩
    all_goals intro z; rw [one_iff]; simp only [St.visit]; constructor
    all_goals first
      | exact fun h => .inl h
      | rintro (h | h)
    all_goals first
      | exact h
      | (exfalso; apply hnp; tauto)
  · simp only [if_neg hp]
    have hnp : J.pass rad yy (J.xc + rad) := by
      by_cases h : rad ≤ J.minradius
      · exact .inl h
      · right; rw [← not_lt]; intro h'; exact hp ⟨by omega, h'⟩
    refine ⟨?_, ?_, ?_, ?_, ?_, ?_⟩
    · intro y x
      constructor
      · rintro ⟨-, rfl, rfl⟩; split_ifs <;> simp [St.visit, St.markL, St.markR, St.markT]
      · intro h; simp only [One, hd, true_and] at h
        split_ifs <;> simp only [St.visit, St.markL, St.markR, St.markT] <;> rw [if_neg h]
    · constructor
      · intro _; right; exact ⟨_, _, hd, rfl, rfl⟩
      · intro _; split_ifs <;> simp [St.visit, St.markL, St.markR, St.markT]
    · intro x; rw [one_iff]
      simp only [hd, hnp, true_and, Adjacent, Inside]
      split_ifs <;> simp only [St.visit, St.markL, St.markR, St.markT, mark_iff] <;>
        by_cases hs : s.next.t x = true <;>
        simp only [hs, true_or, or_true, false_or, or_false, false_iff, Bool.false_eq_true] <;> omega
    · intro x; rw [one_iff]
      simp only [hd, hnp, true_and, Adjacent, Inside]
      split_ifs <;> simp only [St.visit, St.markL, St.markR, St.markT, mark_iff] <;>
        by_cases hs : s.next.b x = true <;>
        simp only [hs, true_or, or_true, false_or, or_false, false_iff, Bool.false_eq_true] <;> omega
    · intro y; rw [one_iff]
      simp only [hd, hnp, true_and, Adjacent, Inside]
      split_ifs <;> simp only [St.visit, St.markL, St.markR, St.markT, mark_iff] <;>
        by_cases hs : s.next.l y = true <;>
        simp only [hs, true_or, or_true, false_or, or_false, false_iff, Bool.false_eq_true] <;> omega
    · intro y; rw [one_iff]
      simp only [hd, hnp, true_and, Adjacent, Inside]
      split_ifs <;> simp only [St.visit, St.markL, St.markR, St.markT, mark_iff] <;>
        by_cases hs : s.next.r y = true <;>
        simp only [hs, true_or, or_true, false_or, or_false, false_iff, Bool.false_eq_true] <;> omega

end Verif.Approx
