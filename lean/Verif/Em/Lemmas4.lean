import Verif.Em.Lemmas3

namespace Verif.Em

open Verif
open Verif.Mog (Comp Mix)
open Verif.Gauss

theorem run_last {alpha : ℝ} {px : List Px} (n : Nat) : ∀ {s s' : State}, run alpha px (n + 1) s = (s', true) →
    ∃ s1, run alpha px n s = (s1, true) ∧ step alpha px s1 = some s' := by
  induction n with
  | zero =>
    intro s s' h
    rw [run] at h
    cases hs : step alpha px s with
    | none => rw [hs] at h; cases h
    | some t => rw [hs] at h; cases h; exact ⟨s, rfl, hs⟩
  | succ n ih =>
    intro s s' h
    rw [run] at h
    cases hs : step alpha px s with
    | none => rw [hs] at h; cases h
    | some t =>
      rw [hs] at h
      obtain ⟨s1, h1, h2⟩ := ih h
      refine ⟨s1, ?_, h2⟩
      rw [run, hs]
      exact h1

theorem all_of_some : ∀ {s : State} {m : Mix ℝ}, State.all s = some m → s = m.map some := by
  intro s
  induction s with
  | nil => intro m h; cases h; rfl
  | cons a s ih =>
    intro m h
    cases a with
    | none => cases h
    | some c =>
      rw [State.all] at h
      cases hs : State.all s with
      | none => rw [hs] at h; cases h
      | some l => rw [hs] at h; cases h; rw [List.map_cons, ← ih hs]

/-- Where numbers come out, numbers went in. -/
theorem step_before {alpha : ℝ} {px : List Px} {s : State} {m' : Mix ℝ} (h : step alpha px s = some (m'.map some)) :
    ∃ m : Mix ℝ, s = m.map some ∧ ∀ c ∈ m, 0 < c.vxx * c.vyy - c.vxy * c.vyx := by
  unfold step at h
  split at h
  · rename_i hd
    cases hs : State.all s with
    | some m =>
      refine ⟨m, all_of_some hs, fun c hc => ?_⟩
      have := hd (some c) (by rw [all_of_some hs]; exact List.mem_map_of_mem hc)
      exact this
    | none =>
      rw [hs] at h
      have h := Option.some.inj h
      simp only at h
      cases s with
      | nil => cases hs
      | cons a s =>
        cases m' with
        | nil => cases h
        | cons c m' => cases h
  · cases h

/-- Mixtures before the last step are good. -/
theorem run_good {alpha : ℝ} (ha : 0 ≤ alpha) {px : List Px} (hpx : Nonneg px) {m : Mix ℝ} (hm : Good m) (n : Nat) {m' : Mix ℝ}
    (h : run alpha px (n + 1) (m.map some) = (m'.map some, true)) :
    ∃ m1, run alpha px n (m.map some) = (m1.map some, true) ∧ Good m1 ∧ step alpha px (m1.map some) = some (m'.map some) := by
  induction n generalizing m' with
  | zero =>
    obtain ⟨s1, h1, h2⟩ := run_last 0 h
    rw [run] at h1
    cases h1
    exact ⟨m, rfl, hm, h2⟩
  | succ n ih =>
    obtain ⟨s1, h1, h2⟩ := run_last (n + 1) h
    obtain ⟨m1, rfl, hd⟩ := step_before h2
    obtain ⟨m0, -, g0, h4⟩ := ih h1
    exact ⟨m1, h1, step_good ha hpx g0 h4 (Or.inr hd), h2⟩

theorem pixels_box {img : Arr ℝ} {x0 y0 : Int} {p : Px} (hp : p ∈ pixels img x0 y0) :
    (x0 : ℝ) ≤ p.x ∧ p.x ≤ x0 + img.w - 1 ∧ (y0 : ℝ) ≤ p.y ∧ p.y ≤ y0 + img.h - 1 := by
  obtain ⟨iy, h1, ix, h2, rfl⟩ := mem_pixels.1 hp
  have g1 : (ix : ℝ) + 1 ≤ img.w := by exact_mod_cast h2
  have g2 : (iy : ℝ) + 1 ≤ img.h := by exact_mod_cast h1
  have g3 : (0 : ℝ) ≤ ix := by positivity
  have g4 : (0 : ℝ) ≤ iy := by positivity
  push_cast
  refine ⟨?_, ?_, ?_, ?_⟩ <;> linarith

theorem flux_pixels (img : Arr ℝ) (x0 y0 : Int) (f : ℝ → ℝ) : ((pixels img x0 y0).map (fun p => f p.v)).sum = (img.ravel.map f).sum := by
  unfold pixels Arr.ravel
  rw [List.map_flatMap, List.map_flatMap]
  congr 1
  congr 1
  funext iy
  rw [List.map_map, List.map_map]
  rfl

/-- Light on a line: the covariance is singular. -/
theorem line_det (px : List Px) (w : Px → ℝ) (W : ℝ) (hW : 0 < W) (e : mom px w (fun _ => 1) = W) (mx my : ℝ)
    (hx : mom px w (fun p => p.x) = W * mx) (hy : mom px w (fun p => p.y) = W * my) (a b k : ℝ) (hab : a ≠ 0 ∨ b ≠ 0)
    (hl : ∀ p ∈ px, w p ≠ 0 → a * p.x + b * p.y = k) :
    mom px w (fun p => (p.x - mx) * (p.x - mx)) * mom px w (fun p => (p.y - my) * (p.y - my)) =
      mom px w (fun p => (p.x - mx) * (p.y - my)) ^ 2 := by
  have hk : a * mx + b * my = k := by
    have h1 : mom px w (fun p => a * p.x + (b * p.y + (-k) * 1)) = 0 := by
      refine sum_zero _ _ (fun p hp => ?_)
      by_cases h : w p = 0
      · rw [h, zero_mul]
      · have := hl p hp h
        simp only
        rw [show a * p.x + (b * p.y + (-k) * 1) = 0 by linarith, mul_zero]
    rw [mom_add, mom_add, mom_mul, mom_mul, mom_mul, e, hx, hy] at h1
    have : W * (a * mx + b * my - k) = 0 := by linarith
    rcases mul_eq_zero.1 this with h | h
    · exact absurd h hW.ne'
    · linarith
  have h0 : ∀ f : Px → ℝ, mom px w (fun p => (a * (p.x - mx) + b * (p.y - my)) * f p) = 0 := by
    intro f
    refine sum_zero _ _ (fun p hp => ?_)
    by_cases h : w p = 0
    · rw [h, zero_mul]
    · have := hl p hp h
      simp only
      rw [show a * (p.x - mx) + b * (p.y - my) = 0 by linarith, zero_mul, mul_zero]
  have e1 := h0 (fun p => p.x - mx)
  have e2 := h0 (fun p => p.y - my)
  have f1 : (fun p : Px => (a * (p.x - mx) + b * (p.y - my)) * (p.x - mx)) =
      fun p => a * ((p.x - mx) * (p.x - mx)) + b * ((p.x - mx) * (p.y - my)) := by funext p; ring
  have f2 : (fun p : Px => (a * (p.x - mx) + b * (p.y - my)) * (p.y - my)) =
      fun p => a * ((p.x - mx) * (p.y - my)) + b * ((p.y - my) * (p.y - my)) := by funext p; ring
  rw [f1, mom_add, mom_mul, mom_mul] at e1
  rw [f2, mom_add, mom_mul, mom_mul] at e2
  generalize mom px w (fun p => (p.x - mx) * (p.x - mx)) = X at *
  generalize mom px w (fun p => (p.x - mx) * (p.y - my)) = Z at *
  generalize mom px w (fun p => (p.y - my) * (p.y - my)) = Y at *
  rcases hab with h | h
  · have : a * (X * Y - Z ^ 2) = 0 := by linear_combination Y * e1 - Z * e2
    rcases mul_eq_zero.1 this with h' | h'
    · exact absurd h' h
    · linarith
  · have : b * (X * Y - Z ^ 2) = 0 := by linear_combination X * e2 - Z * e1
    rcases mul_eq_zero.1 this with h' | h'
    · exact absurd h' h
    · linarith

/-- With strong regularisation the fit succeeds and stays near. -/
theorem strong_all {alpha : ℝ} (ha : 0 < alpha) {img : Arr ℝ} {x0 y0 : Int} (hpx : Nonneg (pixels img x0 y0))
    (hl : ∃ p ∈ pixels img x0 y0, 0 < p.v) (hs : ((img.w : ℝ) ^ 2 + (img.h : ℝ) ^ 2) * (flux (pixels img x0 y0) + alpha) ≤ 100 * alpha)
    {m : Mix ℝ} (hm : Good m) (hn : Near (pixels img x0 y0) m) (k : Nat) :
    ∃ m2, fitReg img x0 y0 alpha k (m.map some) = (m2.map some, true) ∧ Good m2 ∧ Near (pixels img x0 y0) m2 := by
  induction k with
  | zero => exact ⟨m, rfl, hm, hn⟩
  | succ k ih =>
    obtain ⟨m1, h1, hg, near⟩ := ih
    obtain ⟨p, hp, hv⟩ := hl
    have hst := step_succeeds ha.le hpx hg (fun c hc => ⟨p, hp, hv, near p hp hv c hc⟩)
    refine ⟨_, ?_, step_good ha.le hpx hg hst (Or.inl ha), fun q hq _ => strong_near ha hpx hs hg hst q hq⟩
    have := run_snoc k h1
    rw [hst] at this
    exact this

/-- All not numbers, and so for ever. -/
theorem run_none {alpha : ℝ} {px : List Px} (s : State) (hne : s ≠ []) (h : ∀ c ∈ s, c = none) (n : Nat) : run alpha px n s = (s, true) := by
  induction n with
  | zero => rfl
  | succ n ih =>
    have e : step alpha px s = some s := by
      unfold step
      rw [if_pos (fun c hc => by rw [h c hc]; trivial)]
      have e1 : State.all s = none := by
        cases s with
        | nil => exact absurd rfl hne
        | cons a s => rw [h a (List.mem_cons_self ..)]; rfl
      rw [e1]
      refine congrArg some ?_
      change s.map (fun _ => none) = s
      conv_rhs => rw [← List.map_id s]
      exact List.map_congr_left (fun c hc => (h c hc).symm)
    rw [run, e]
    exact ih

end Verif.Em
