import Verif.Em1.Lemmas

namespace Verif.Em1

open Verif.Em (sum_nonneg sum_le sum_congr sum_add sum_sub sum_mul sum_zero sum_swap sum_pos)

theorem entries_eq (m : List Comp) : entries (m.map (fun c => c.amp)) (m.map (fun c => c.mean)) (m.map (fun c => c.var)) = m.map some := by
  unfold entries
  induction m with
  | nil => rfl
  | cons c m ih => rw [List.map_cons, List.map_cons, List.map_cons, List.zip_cons_cons, List.zipWith_cons_cons, ih]; rfl

theorem fitFrom_eq (xs : List ℝ) (m : List Comp) (alpha : ℝ) (n : Nat) :
    fitFrom xs m alpha n = (0, some (run alpha xs n (m.map some))) := by
  unfold fitFrom fitReg
  rw [if_neg (by simp), if_neg (by simp), entries_eq]

theorem fitFrom_iff (xs : List ℝ) (m : List Comp) (alpha : ℝ) (n : Nat) (s : State) :
    fitFrom xs m alpha n = (0, some s) ↔ run alpha xs n (m.map some) = s := by
  rw [fitFrom_eq, Prod.mk.injEq, Option.some.injEq]
  exact ⟨fun h => h.2, fun h => ⟨rfl, h⟩⟩

theorem fitFrom_step {xs : List ℝ} {m m1 m2 : List Comp} {alpha : ℝ} {n : Nat} (h1 : fitFrom xs m alpha n = (0, some (m1.map some)))
    (h2 : fitFrom xs m alpha (n + 1) = (0, some (m2.map some))) : step alpha xs (m1.map some) = m2.map some := by
  rw [fitFrom_iff] at h1 h2
  rw [run_snoc, h1] at h2
  exact h2

theorem updated_mean {lo hi : ℝ} {alpha : ℝ} {xs : List ℝ} (hx : ∀ x ∈ xs, lo ≤ x ∧ x ≤ hi) {m : List Comp} (hm : Good m) {c : Comp} (hc : c ∈ m)
    (hW : 0 < wsum xs m c (fun _ => 1)) : lo ≤ (updated alpha xs m c).mean ∧ (updated alpha xs m c).mean ≤ hi := by
  change lo ≤ wsum xs m c (fun x => x) / wsum xs m c (fun _ => 1) ∧ wsum xs m c (fun x => x) / wsum xs m c (fun _ => 1) ≤ hi
  rw [le_div_iff₀ hW, div_le_iff₀ hW]
  have h1 := wsum_le (f := fun _ => lo * 1) (g := fun x => x) hm hc (xs := xs) (fun x h => by rw [mul_one]; exact (hx x h).1)
  have h2 := wsum_le (f := fun x => x) (g := fun _ => hi * 1) hm hc (xs := xs) (fun x h => by rw [mul_one]; exact (hx x h).2)
  rw [wsum_mul] at h1 h2
  exact ⟨h1, h2⟩

theorem updated_var {lo hi : ℝ} {alpha : ℝ} (ha : 0 ≤ alpha) {xs : List ℝ} (hx : ∀ x ∈ xs, lo ≤ x ∧ x ≤ hi) {m : List Comp} (hm : Good m)
    {c : Comp} (hc : c ∈ m) (hW : 0 < wsum xs m c (fun _ => 1)) :
    alpha / (xs.length + alpha) ≤ (updated alpha xs m c).var ∧ (updated alpha xs m c).var ≤ max 1 ((hi - lo) ^ 2) := by
  have hM := updated_mean (alpha := alpha) hx hm hc hW
  have hN := wsum_le_length hm hc xs
  set M := (updated alpha xs m c).mean with eM
  have ev : (updated alpha xs m c).var = (alpha + wsum xs m c (fun x => (x - M) * (x - M))) / (wsum xs m c (fun _ => 1) + alpha) := rfl
  rw [ev]
  clear_value M
  have h0 : 0 ≤ wsum xs m c (fun x => (x - M) * (x - M)) := wsum_nonneg hm hc (fun x _ => mul_self_nonneg _)
  have h1 : wsum xs m c (fun x => (x - M) * (x - M)) ≤ (hi - lo) ^ 2 * wsum xs m c (fun _ => 1) := by
    rw [← wsum_mul]
    refine wsum_le hm hc (fun x h => ?_)
    obtain ⟨a, b⟩ := hx x h
    nlinarith [hM.1, hM.2]
  set W := wsum xs m c (fun _ => 1) with eW
  clear_value W
  have hWa : 0 < W + alpha := by linarith
  constructor
  · rw [div_le_div_iff₀ (by linarith) hWa]
    nlinarith [mul_nonneg h0 (show 0 ≤ (xs.length : ℝ) + alpha by linarith), mul_le_mul_of_nonneg_left hN ha]
  · rw [div_le_iff₀ hWa]
    have m1 := le_max_left (1 : ℝ) ((hi - lo) ^ 2)
    have m2 := le_max_right (1 : ℝ) ((hi - lo) ^ 2)
    nlinarith [mul_le_mul_of_nonneg_right m1 ha, mul_le_mul_of_nonneg_right m2 hW.le]

/-- The second moments. -/
theorem updated_second {alpha : ℝ} (ha : 0 ≤ alpha) (xs : List ℝ) {m : List Comp} {c : Comp}
    (hW : 0 < wsum xs m c (fun _ => 1)) :
    wsum xs m c (fun x => x ^ 2) = xs.length * ((updated alpha xs m c).amp * ((updated alpha xs m c).var + (updated alpha xs m c).mean ^ 2)) +
      alpha * ((updated alpha xs m c).var - 1) := by
  have hN := length_pos hW.ne'
  have hs := wsum_shift xs m c 0 hW.ne'
  have e0 : wsum xs m c (fun x => (x - 0) ^ 2) = wsum xs m c (fun x => x ^ 2) := by congr 1; funext x; ring
  rw [e0] at hs
  have ea : (updated alpha xs m c).amp = wsum xs m c (fun _ => 1) / xs.length := rfl
  have em : (updated alpha xs m c).mean = wsum xs m c (fun x => x) / wsum xs m c (fun _ => 1) := rfl
  have ev : (updated alpha xs m c).var = (alpha + wsum xs m c (fun x => (x - (updated alpha xs m c).mean) * (x - (updated alpha xs m c).mean))) /
    (wsum xs m c (fun _ => 1) + alpha) := rfl
  rw [← em] at hs
  set S := wsum xs m c (fun x => (x - (updated alpha xs m c).mean) * (x - (updated alpha xs m c).mean)) with eS
  set W := wsum xs m c (fun _ => 1) with eW
  have hWa : 0 < W + alpha := by linarith
  have e3 : alpha + S = (W + alpha) * (updated alpha xs m c).var := by rw [ev]; field_simp
  have e4 : (xs.length : ℝ) * (updated alpha xs m c).amp = W := by rw [ea]; field_simp
  rw [hs]
  have : S = (W + alpha) * (updated alpha xs m c).var - alpha := by linarith
  rw [this]
  linear_combination (-((updated alpha xs m c).var + (updated alpha xs m c).mean ^ 2)) * e4

theorem near_of_bound {lo hi alpha : ℝ} (ha : 0 < alpha) {xs : List ℝ} (hx : ∀ x ∈ xs, lo ≤ x ∧ x ≤ hi)
    (hs : (hi - lo) ^ 2 * (xs.length + alpha) < 100 * alpha) {m m' : List Comp} (hm : Good m) (h : step alpha xs (m.map some) = m'.map some) :
    Near xs m' := by
  obtain ⟨rfl, hw⟩ := step_num hm h
  intro x hxx c' hc'
  obtain ⟨c, hc, rfl⟩ := List.mem_map.1 hc'
  have hW := lt_of_le_of_ne (wsum_one_nonneg hm hc xs) (Ne.symm (hw c hc))
  have hM := updated_mean (alpha := alpha) hx hm hc hW
  have hV := (updated_var ha.le hx hm hc hW).1
  unfold Within
  have hp : 0 < (xs.length : ℝ) + alpha := by positivity
  rw [div_le_iff₀ hp] at hV
  obtain ⟨a, b⟩ := hx x hxx
  have h1 : (x - (updated alpha xs m c).mean) ^ 2 ≤ (hi - lo) ^ 2 := by nlinarith [hM.1, hM.2]
  by_contra hcon
  push Not at hcon
  nlinarith [mul_le_mul_of_nonneg_right (hcon.trans h1) hp.le]

theorem step_getElem (alpha : ℝ) (xs : List ℝ) (s : State) {i j : Nat} (h : s[i]? = s[j]?) :
    (step alpha xs s)[i]? = (step alpha xs s)[j]? := by
  unfold step
  cases hs : State.all s with
  | none => simp only [List.getElem?_map, h]
  | some m =>
    have e : m.map some = s := by
      clear h
      induction s generalizing m with
      | nil => cases hs; rfl
      | cons o s ih =>
        cases o with
        | none => cases hs
        | some c =>
          rw [State.all] at hs
          cases ht : State.all s with
          | none => rw [ht] at hs; cases hs
          | some m1 =>
            rw [ht] at hs
            cases hs
            rw [List.map_cons, ih m1 ht]
    have h' : m[i]? = m[j]? := by
      rw [← e, List.getElem?_map, List.getElem?_map] at h
      exact Option.map_injective (Option.some_injective _) h
    dsimp only
    split <;> rw [List.getElem?_map, List.getElem?_map, h']

theorem all_none {s : State} (h : none ∈ s) : State.all s = none := by
  induction s with
  | nil => cases h
  | cons o s ih =>
    cases o with
    | none => rfl
    | some c =>
      rw [State.all, ih (by simpa using h)]; rfl

theorem step_length (alpha : ℝ) (xs : List ℝ) (s : State) : (step alpha xs s).length = s.length := by
  unfold step
  cases hs : State.all s with
  | none => simp
  | some m =>
    have e : m.length = s.length := by
      induction s generalizing m with
      | nil => cases hs; rfl
      | cons o s ih =>
        cases o with
        | none => cases hs
        | some c =>
          rw [State.all] at hs
          cases ht : State.all s with
          | none => rw [ht] at hs; cases hs
          | some m1 =>
            rw [ht] at hs
            cases hs
            rw [List.length_cons, List.length_cons, ih m1 ht]
    dsimp only
    split <;> rw [List.length_map, e]

theorem run_length (alpha : ℝ) (xs : List ℝ) (n : Nat) (s : State) : (run alpha xs n s).length = s.length := by
  induction n with
  | zero => rfl
  | succ n ih => rw [run_snoc, step_length, ih]

theorem step_none (alpha : ℝ) (xs : List ℝ) {s : State} (h : none ∈ s) : step alpha xs s = List.replicate s.length none := by
  unfold step
  rw [all_none h]
  exact List.map_const' ..

theorem run_none (alpha : ℝ) (xs : List ℝ) {k : Nat} (n : Nat) : run alpha xs n (List.replicate k none) = List.replicate k none := by
  induction n with
  | zero => rfl
  | succ n ih =>
    rw [run_snoc, ih]
    cases k with
    | zero => exact List.length_eq_zero_iff.1 (by rw [step_length]; rfl)
    | succ k => rw [step_none alpha xs (by simp), List.length_replicate]

end Verif.Em1
