import Verif.Opt.Lemmas
import Mathlib.Tactic.Linarith
import Mathlib.Tactic.Ring
import Mathlib.Tactic.FieldSimp

/-!
# Lemmas about getParameterSteps
-/

namespace Verif.Opt

open Verif Verif.Params

variable {R : Type} [Field R] [LinearOrder R] [IsStrictOrderedRing R]

theorem Within.between {l u : Option R} {p d a a' : R} (h0 : Within l u p)
    (h1 : Within l u (p + a * d)) (ha : 0 ≤ a') (ha' : a' ≤ a) : Within l u (p + a' * d) := by
  rcases le_total 0 d with hd | hd
  · have e1 : 0 ≤ a' * d := mul_nonneg ha hd
    have e2 : a' * d ≤ a * d := mul_le_mul_of_nonneg_right ha' hd
    refine ⟨fun b hb => ?_, fun b hb => ?_⟩
    · have := h0.1 b hb; linarith
    · have := h1.2 b hb; linarith
  · have e1 : a' * d ≤ 0 := mul_nonpos_of_nonneg_of_nonpos ha hd
    have e2 : a * d ≤ a' * d := mul_le_mul_of_nonpos_right ha' hd
    refine ⟨fun b hb => ?_, fun b hb => ?_⟩
    · have := h1.1 b hb; linarith
    · have := h0.2 b hb; linarith

theorem capAlpha_ok (mx : List (Option R)) :
    ∀ (ds : List R) (a : R) (b : Bool), mx.length = ds.length →
      (∀ m ∈ mx, ∀ x, m = some x → 0 ≤ x) →
      ∃ a' b', capAlpha mx ds a b = .ok (a', b') ∧ a' ≤ a ∧ (0 ≤ a → 0 ≤ a') ∧
        (a ≤ 0 → a' = a) ∧
        (∀ (i : Nat) m d, mx[i]? = some (some m) → ds[i]? = some d → a' * |d| ≤ m) ∧
        (∀ c, a' < c → c ≤ a → ∃ (i : Nat) (m d : R), mx[i]? = some (some m) ∧ ds[i]? = some d ∧ m < c * |d|) ∧
        ((a' = a ∧ b' = b) ∨ (a' < a ∧ b' = true)) := by
  induction mx with
  | nil =>
    intro ds a b h hm
    exact ⟨a, b, rfl, le_refl _, id, fun _ => rfl, by simp, fun c h1 h2 => absurd h1 (not_lt.2 h2),
      .inl ⟨rfl, rfl⟩⟩
  | cons m ms ih =>
    intro ds a b h hm
    cases ds with
    | nil => simp at h
    | cons d ds =>
      have hl : ms.length = ds.length := by simpa using h
      have hm' : ∀ m ∈ ms, ∀ x, m = some x → 0 ≤ x := fun m hmem => hm m (by simp [hmem])
      cases m with
      | none =>
        obtain ⟨a', b', e, h1, h2, h3, h4, h5, h6⟩ := ih ds a b hl hm'
        refine ⟨a', b', by simpa [capAlpha] using e, h1, h2, h3, ?_, ?_, h6⟩
        · intro i x y hx hy
          cases i with
          | zero => simp at hx
          | succ i => exact h4 i x y (by simpa using hx) (by simpa using hy)
        · intro c hc hc'
          obtain ⟨i, x, y, e1, e2, e3⟩ := h5 c hc hc'
          exact ⟨i + 1, x, y, by simpa using e1, by simpa using e2, e3⟩
      | some mx =>
        have hmx : 0 ≤ mx := hm (some mx) (by simp) mx rfl
        by_cases hcut : mx < a * |d|
        · have hd : d ≠ 0 := by
            rintro rfl
            simp at hcut
            exact absurd hcut (not_lt.2 hmx)
          have hd' : 0 < |d| := abs_pos.2 hd
          have hlt : mx / |d| < a := by rwa [div_lt_iff₀ hd']
          have hnn : 0 ≤ mx / |d| := div_nonneg hmx hd'.le
          obtain ⟨a', b', e, h1, h2, h3, h4, h5, h6⟩ := ih ds (mx / |d|) true hl hm'
          refine ⟨a', b', ?_, by linarith, fun _ => h2 hnn, ?_, ?_, ?_, .inr ⟨by linarith, ?_⟩⟩
          · simp only [capAlpha, if_pos hcut, if_neg hd, e]
          · intro ha; exact absurd hlt (not_lt.2 (le_trans ha hnn))
          · intro i x y hx hy
            cases i with
            | zero =>
              simp only [List.getElem?_cons_zero, Option.some.injEq] at hx hy
              subst hx hy
              have := mul_le_mul_of_nonneg_right h1 hd'.le
              rwa [div_mul_cancel₀ _ hd'.ne'] at this
            | succ i => exact h4 i x y (by simpa using hx) (by simpa using hy)
          · intro c hc hc'
            by_cases hcc : mx / |d| < c
            · exact ⟨0, mx, d, by simp, by simp, by rwa [div_lt_iff₀ hd'] at hcc⟩
            · obtain ⟨i, x, y, e1, e2, e3⟩ := h5 c hc (not_lt.1 hcc)
              exact ⟨i + 1, x, y, by simpa using e1, by simpa using e2, e3⟩
          · rcases h6 with ⟨-, h⟩ | ⟨-, h⟩ <;> exact h
        · obtain ⟨a', b', e, h1, h2, h3, h4, h5, h6⟩ := ih ds a b hl hm'
          refine ⟨a', b', by simpa [capAlpha, hcut] using e, h1, h2, h3, ?_, ?_, h6⟩
          · intro i x y hx hy
            cases i with
            | zero =>
              simp only [List.getElem?_cons_zero, Option.some.injEq] at hx hy
              subst hx hy
              have := mul_le_mul_of_nonneg_right h1 (abs_nonneg d)
              exact le_trans this (not_lt.1 hcut)
            | succ i => exact h4 i x y (by simpa using hx) (by simpa using hy)
          · intro c hc hc'
            obtain ⟨i, x, y, e1, e2, e3⟩ := h5 c hc hc'
            exact ⟨i + 1, x, y, by simpa using e1, by simpa using e2, e3⟩

/-- The head of the loop of part 2. -/
theorem boundAlpha_cons {p : R} {l u : Option R} (h0 : Within l u p) (d : R) (ps : List R)
    (ls us : List (Option R)) (ds : List R) (a : R) (b : Bool) :
    ∃ a1 b1, boundAlpha (p :: ps) (l :: ls) (u :: us) (d :: ds) a b =
        boundAlpha ps ls us ds a1 b1 ∧
      (a ≤ 0 → a1 ≤ 0) ∧
      (0 ≤ a → 0 ≤ a1 ∧ a1 ≤ a ∧ Within l u (p + a1 * d) ∧
        (∀ c, a1 < c → c ≤ a → ¬ Within l u (p + c * d)) ∧
        ((a1 = a ∧ b1 = b) ∨ (a1 < a ∧ b1 = true))) := by
  have key : ∀ v : R, (∀ a1 : R, a1 = (v - p) / d → d ≠ 0 → p + a1 * d = v) := by
    intro v a1 h hd
    rw [h, div_mul_cancel₀ _ hd]; ring
  -- lower bound violated
  by_cases hlo : ∃ x, l = some x ∧ p + a * d < x
  · obtain ⟨x, rfl, hx⟩ := hlo
    have hxp : x ≤ p := h0.1 x rfl
    have had : a * d < x - p := by linarith
    have hd : d ≠ 0 := by rintro rfl; simp at had; linarith
    have hux : ∀ y, u = some y → ¬ y < x := fun y hy => not_lt.2 (le_trans hxp (h0.2 y hy))
    refine ⟨(x - p) / d, true, ?_, ?_, ?_⟩
    · simp only [boundAlpha, if_pos hx, if_neg hd]
      cases u with
      | none => rfl
      | some y => simp only [if_neg (hux y rfl)]
    · intro ha
      have hdpos : 0 < d := by
        rcases lt_or_gt_of_ne hd with h | h
        · have := mul_nonneg_of_nonpos_of_nonpos ha h.le
          linarith
        · exact h
      exact div_nonpos_of_nonpos_of_nonneg (by linarith) hdpos.le
    · intro ha
      have hdneg : d < 0 := by
        rcases lt_or_gt_of_ne hd with h | h
        · exact h
        · have := mul_nonneg ha h.le
          linarith
      have hlt : (x - p) / d < a := by rwa [div_lt_iff_of_neg hdneg]
      refine ⟨div_nonneg_of_nonpos (by linarith) hdneg.le, hlt.le, ?_, ?_, .inr ⟨hlt, rfl⟩⟩
      · rw [key x _ rfl hd]
        refine ⟨fun b hb => ?_, fun b hb => ?_⟩
        · cases hb; exact le_refl _
        · exact le_trans hxp (h0.2 b hb)
      · intro c hc _ hw
        rw [div_lt_iff_of_neg hdneg] at hc
        have := hw.1 x rfl
        linarith
  have hlo' : ∀ x, l = some x → ¬ p + a * d < x := fun x hx h => hlo ⟨x, hx, h⟩
  by_cases hup : ∃ y, u = some y ∧ y < p + a * d
  · obtain ⟨y, rfl, hy⟩ := hup
    have hyp : p ≤ y := h0.2 y rfl
    have had : y - p < a * d := by linarith
    have hd : d ≠ 0 := by rintro rfl; simp at had; linarith
    refine ⟨(y - p) / d, true, ?_, ?_, ?_⟩
    · cases l with
      | none => simp only [boundAlpha, if_pos hy, if_neg hd]
      | some x => simp only [boundAlpha, if_neg (hlo' x rfl), if_pos hy, if_neg hd]
    · intro ha
      have hdneg : d < 0 := by
        rcases lt_or_gt_of_ne hd with h | h
        · exact h
        · have := mul_nonpos_of_nonpos_of_nonneg ha h.le
          linarith
      exact div_nonpos_of_nonneg_of_nonpos (by linarith) hdneg.le
    · intro ha
      have hdpos : 0 < d := by
        rcases lt_or_gt_of_ne hd with h | h
        · have := mul_nonpos_of_nonneg_of_nonpos ha h.le
          linarith
        · exact h
      have hlt : (y - p) / d < a := by rwa [div_lt_iff₀ hdpos]
      refine ⟨div_nonneg (by linarith) hdpos.le, hlt.le, ?_, ?_, .inr ⟨hlt, rfl⟩⟩
      · rw [key y _ rfl hd]
        refine ⟨fun b hb => ?_, fun b hb => ?_⟩
        · exact le_trans (h0.1 b hb) hyp
        · cases hb; exact le_refl _
      · intro c hc _ hw
        rw [div_lt_iff₀ hdpos] at hc
        have := hw.2 y rfl
        linarith
  have hup' : ∀ y, u = some y → ¬ y < p + a * d := fun y hy h => hup ⟨y, hy, h⟩
  refine ⟨a, b, ?_, id, ?_⟩
  · cases l with
    | none =>
      cases u with
      | none => simp only [boundAlpha]
      | some y => simp only [boundAlpha, if_neg (hup' y rfl)]
    | some x =>
      cases u with
      | none => simp only [boundAlpha, if_neg (hlo' x rfl)]
      | some y => simp only [boundAlpha, if_neg (hlo' x rfl), if_neg (hup' y rfl)]
  · intro ha
    refine ⟨ha, le_refl _, ⟨fun x hx => not_lt.1 (hlo' x hx), fun y hy => not_lt.1 (hup' y hy)⟩,
      fun c h1 h2 => absurd h1 (not_lt.2 h2), .inl ⟨rfl, rfl⟩⟩

omit [Field R] [IsStrictOrderedRing R] in
theorem StartOK.tail {p : R} {ps : List R} {l u : Option R} {ls us : List (Option R)}
    (h : StartOK (p :: ps) (l :: ls) (u :: us)) : StartOK ps ls us := by
  intro i a b c h1 h2 h3
  exact h (i + 1) a b c (by simpa using h1) (by simpa using h2) (by simpa using h3)

theorem boundAlpha_ok (p0 : List R) :
    ∀ (lo up : List (Option R)) (ds : List R) (a : R) (b : Bool),
      lo.length = p0.length → up.length = p0.length → ds.length = p0.length →
      StartOK p0 lo up →
      ∃ a' b', boundAlpha p0 lo up ds a b = .ok (a', b') ∧ (a ≤ 0 → a' ≤ 0) ∧
        (0 ≤ a → 0 ≤ a' ∧ a' ≤ a ∧
          (∀ (i : Nat) p l u d, p0[i]? = some p → lo[i]? = some l → up[i]? = some u → ds[i]? = some d →
            Within l u (p + a' * d)) ∧
          (∀ c, a' < c → c ≤ a → ∃ (i : Nat) (p : R) (l u : Option R) (d : R), p0[i]? = some p ∧ lo[i]? = some l ∧
            up[i]? = some u ∧ ds[i]? = some d ∧ ¬ Within l u (p + c * d)) ∧
          ((a' = a ∧ b' = b) ∨ (a' < a ∧ b' = true))) := by
  induction p0 with
  | nil =>
    intro lo up ds a b h1 h2 h3 _
    refine ⟨a, b, by cases lo <;> simp [boundAlpha], id, fun ha => ⟨ha, le_refl _, by simp,
      fun c h1 h2 => absurd h1 (not_lt.2 h2), .inl ⟨rfl, rfl⟩⟩⟩
  | cons p ps ih =>
    intro lo up ds a b h1 h2 h3 h0
    match lo, up, ds, h1, h2, h3 with
    | l :: ls, u :: us, d :: ds, h1, h2, h3 =>
      have hw : Within l u p := h0 0 p l u (by simp) (by simp) (by simp)
      obtain ⟨a1, b1, e, hneg, hpos⟩ := boundAlpha_cons hw d ps ls us ds a b
      obtain ⟨a', b', e', hneg', hpos'⟩ := ih ls us ds a1 b1 (by simpa using h1) (by simpa using h2)
        (by simpa using h3) h0.tail
      refine ⟨a', b', by rw [e, e'], fun ha => hneg' (hneg ha), fun ha => ?_⟩
      obtain ⟨q1, q2, q3, q4, q5⟩ := hpos ha
      obtain ⟨r1, r2, r3, r4, r5⟩ := hpos' q1
      refine ⟨r1, le_trans r2 q2, ?_, ?_, ?_⟩
      · intro i x y z w hx hy hz hw'
        cases i with
        | zero =>
          simp only [List.getElem?_cons_zero, Option.some.injEq] at hx hy hz hw'
          subst hx hy hz hw'
          exact hw.between q3 r1 r2
        | succ i =>
          exact r3 i x y z w (by simpa using hx) (by simpa using hy) (by simpa using hz)
            (by simpa using hw')
      · intro c hc hc'
        by_cases hcc : a1 < c
        · exact ⟨0, p, l, u, d, by simp, by simp, by simp, by simp, q4 c hcc hc'⟩
        · obtain ⟨i, x, y, z, w, e1, e2, e3, e4, e5⟩ := r4 c hc (not_lt.1 hcc)
          exact ⟨i + 1, x, y, z, w, by simpa using e1, by simpa using e2, by simpa using e3,
            by simpa using e4, e5⟩
      · rcases q5 with ⟨s1, s2⟩ | ⟨s1, s2⟩
        · subst s1 s2
          exact r5
        · right
          rcases r5 with ⟨t1, t2⟩ | ⟨t1, t2⟩
          · exact ⟨by rw [t1]; exact s1, by rw [t2]; exact s2⟩
          · exact ⟨lt_trans t1 s1, t2⟩

omit [IsStrictOrderedRing R] in
theorem clampStep_eq (a : R) (p0 : List R) :
    ∀ (ds : List R) (lo up : List (Option R)),
      lo.length = p0.length → up.length = p0.length → ds.length = p0.length →
      (∀ (i : Nat) p l u d, p0[i]? = some p → lo[i]? = some l → up[i]? = some u → ds[i]? = some d →
            Within l u (p + a * d)) →
      clampStep a p0 ds lo up = stepTo p0 ds a := by
  induction p0 with
  | nil => intro ds lo up h1 h2 h3 h; simp [clampStep, stepTo]
  | cons p ps ih =>
    intro ds lo up h1 h2 h3 h
    match lo, up, ds, h1, h2, h3 with
    | l :: ls, u :: us, d :: ds, h1, h2, h3 =>
      have hw := h 0 p l u d (by simp) (by simp) (by simp) (by simp)
      have ht := ih ds ls us (by simpa using h1) (by simpa using h2) (by simpa using h3)
        (fun i x y z w e1 e2 e3 e4 => h (i + 1) x y z w (by simpa using e1) (by simpa using e2)
          (by simpa using e3) (by simpa using e4))
      simp only [clampStep, ht, stepTo, List.zipWith_cons_cons, List.cons.injEq, and_true]
      cases l with
      | none =>
        cases u with
        | none => rfl
        | some y => simp only [if_neg (not_lt.2 (hw.2 y rfl))]
      | some x =>
        simp only [if_neg (not_lt.2 (hw.1 x rfl))]
        cases u with
        | none => rfl
        | some y => simp only [if_neg (not_lt.2 (hw.2 y rfl))]

theorem stepsLoop_ok (tiny : R) (htiny : 0 < tiny) (p0 : List R) (mx lo up : List (Option R))
    (X : List R) (h1 : mx.length = p0.length) (h2 : lo.length = p0.length)
    (h3 : up.length = p0.length) (h4 : X.length = p0.length) (h0 : StartOK p0 lo up)
    (hm : ∀ m ∈ mx, ∀ x, m = some x → 0 ≤ x) (as : List R) :
    ∃ b cs, stepsLoop tiny p0 mx lo up X as = (b, .ok cs) ∧ cs.length ≤ as.length ∧
      (∀ (k : Nat) (c : Cand R), cs[k]? = some c → ∃ a0, as[k]? = some a0 ∧ tiny ≤ c.alpha ∧ c.alpha ≤ a0 ∧
        c.p = stepTo p0 X c.alpha ∧ Feasible p0 mx lo up X c.alpha ∧
        (∀ a, c.alpha < a → a ≤ a0 → ¬ Feasible p0 mx lo up X a) ∧
        (c.stepLimit = false → c.hitLimit = false → c.alpha = a0) ∧ (c.stepLimit = true → c.alpha < a0)) ∧
      (cs.length < as.length → (∃ c, cs.getLast? = some c ∧ c.stepLimit = true) ∨
        ∃ a0, as[cs.length]? = some a0 ∧
          ∀ a, tiny ≤ a → a ≤ a0 → ¬ Feasible p0 mx lo up X a) ∧
      (b = false → ∀ c ∈ cs, c.stepLimit = false) := by
  induction as with
  | nil => exact ⟨false, [], rfl, le_refl _, by simp, by simp, by simp⟩
  | cons a0 as ih =>
    obtain ⟨a1, sl, e1, c1, c2, c3, c4, c5, c6⟩ := capAlpha_ok mx X a0 false (by omega) hm
    obtain ⟨a2, hl, e2, b1, b2⟩ := boundAlpha_ok p0 lo up X a1 false h2 h3 h4 h0
    by_cases ht : a2 < tiny
    · refine ⟨sl, [], by simp only [stepsLoop, e1, e2, if_pos ht], by simp, by simp, ?_, by simp⟩
      intro _
      right
      refine ⟨a0, by simp, ?_⟩
      intro a ha haa hf
      have ha0 : 0 ≤ a0 := by linarith
      obtain ⟨d1, d2, d3, d4, d5⟩ := b2 (c2 ha0)
      by_cases hcc : a1 < a
      · obtain ⟨i, m, d, f1, f2, f3⟩ := c5 a hcc haa
        have := hf.1 i m d f1 f2
        rw [abs_mul, abs_of_nonneg (by linarith : (0:R) ≤ a)] at this
        linarith
      · obtain ⟨i, x, y, z, w, f1, f2, f3, f4, f5⟩ := d4 a (by linarith) (not_lt.1 hcc)
        exact f5 (hf.2 i x y z w f1 f2 f3 f4)
    · have ht' : tiny ≤ a2 := not_lt.1 ht
      have ha1 : 0 ≤ a1 := by
        by_contra hc
        have := b1 (not_le.1 hc).le
        linarith
      obtain ⟨d1, d2, d3, d4, d5⟩ := b2 ha1
      have hfeas : Feasible p0 mx lo up X a2 := by
        refine ⟨fun i m d f1 f2 => ?_, d3⟩
        rw [abs_mul, abs_of_nonneg d1]
        exact le_trans (mul_le_mul_of_nonneg_right d2 (abs_nonneg d)) (c4 i m d f1 f2)
      have hmax : ∀ a, a2 < a → a ≤ a0 → ¬ Feasible p0 mx lo up X a := by
        intro a ha haa hf
        by_cases hcc : a1 < a
        · obtain ⟨i, m, d, f1, f2, f3⟩ := c5 a hcc haa
          have := hf.1 i m d f1 f2
          rw [abs_mul, abs_of_nonneg (by linarith : (0:R) ≤ a)] at this
          linarith
        · obtain ⟨i, x, y, z, w, f1, f2, f3, f4, f5⟩ := d4 a ha (not_lt.1 hcc)
          exact f5 (hf.2 i x y z w f1 f2 f3 f4)
      have hclamp := clampStep_eq a2 p0 X lo up h2 h3 h4 d3
      have hflag : sl = false → hl = false → a2 = a0 := by
        intro hs hh
        rcases c6 with ⟨g1, g2⟩ | ⟨g1, g2⟩
        · rcases d5 with ⟨g3, g4⟩ | ⟨g3, g4⟩
          · rw [g3, g1]
          · rw [hh] at g4; cases g4
        · rw [hs] at g2; cases g2
      have hc : ∀ c : Cand R, c = ⟨a2, clampStep a2 p0 X lo up, sl, hl⟩ →
          tiny ≤ c.alpha ∧ c.alpha ≤ a0 ∧ c.p = stepTo p0 X c.alpha ∧
          Feasible p0 mx lo up X c.alpha ∧
          (∀ a, c.alpha < a → a ≤ a0 → ¬ Feasible p0 mx lo up X a) ∧
          (c.stepLimit = false → c.hitLimit = false → c.alpha = a0) ∧ (c.stepLimit = true → c.alpha < a0) := by
        rintro c rfl
        refine ⟨ht', le_trans d2 c1, hclamp, hfeas, hmax, hflag, fun hs => ?_⟩
        rcases c6 with ⟨-, g2⟩ | ⟨g1, -⟩
        · exact absurd (g2.symm.trans hs) Bool.false_ne_true
        · exact lt_of_le_of_lt d2 g1
      cases hsl : sl with
      | true =>
        subst hsl
        refine ⟨true, [⟨a2, clampStep a2 p0 X lo up, true, hl⟩], ?_, by simp, ?_, ?_, by simp⟩
        · simp only [stepsLoop, e1, e2, if_neg ht, if_true]
        · intro k c hk
          cases k with
          | zero =>
            simp only [List.getElem?_cons_zero, Option.some.injEq] at hk
            exact ⟨a0, by simp, hc c hk.symm⟩
          | succ k => simp at hk
        · intro _
          left
          exact ⟨_, rfl, rfl⟩
      | false =>
        subst hsl
        obtain ⟨b, cs, i1, i2, i3, i4, i5⟩ := ih
        refine ⟨b, ⟨a2, clampStep a2 p0 X lo up, false, hl⟩ :: cs, ?_, by simp [i2], ?_, ?_, ?_⟩
        · simp only [stepsLoop, e1, e2, if_neg ht, i1]
          rfl
        · intro k c hk
          cases k with
          | zero =>
            simp only [List.getElem?_cons_zero, Option.some.injEq] at hk
            exact ⟨a0, by simp, hc c hk.symm⟩
          | succ k =>
            obtain ⟨a0', j1, j2⟩ := i3 k c (by simpa using hk)
            exact ⟨a0', by simpa using j1, j2⟩
        · intro hlt
          rcases i4 (by simpa using hlt) with ⟨c, j1, j2⟩ | ⟨a0', j1, j2⟩
          · left
            refine ⟨c, ?_, j2⟩
            cases cs with
            | nil => simp at j1
            | cons x xs => rw [List.getLast?_cons_cons]; exact j1
          · right
            exact ⟨a0', by simpa using j1, j2⟩
        · intro hb c hcm
          rcases List.mem_cons.1 hcm with rfl | hcm
          · rfl
          · exact i5 hb c hcm

end Verif.Opt
