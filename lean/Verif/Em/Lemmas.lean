import Verif.Em.Spec
import Verif.Gauss.Lemmas

namespace Verif.Em

open Verif
open Verif.Mog (Comp Mix)
open Verif.Gauss

/-! ## Sums over lists -/

theorem sum_nonneg {α : Type} (l : List α) (f : α → ℝ) (h : ∀ a ∈ l, 0 ≤ f a) : 0 ≤ (l.map f).sum :=
  List.sum_nonneg (by
    intro v hv
    obtain ⟨a, ha, rfl⟩ := List.mem_map.1 hv
    exact h a ha)

theorem sum_le {α : Type} (l : List α) (f g : α → ℝ) (h : ∀ a ∈ l, f a ≤ g a) : (l.map f).sum ≤ (l.map g).sum := by
  induction l with
  | nil => exact le_rfl
  | cons a l ih =>
    rw [List.map_cons, List.map_cons, List.sum_cons, List.sum_cons]
    exact add_le_add (h a (List.mem_cons_self ..)) (ih (fun b hb => h b (List.mem_cons_of_mem _ hb)))

theorem sum_congr {α : Type} (l : List α) (f g : α → ℝ) (h : ∀ a ∈ l, f a = g a) : (l.map f).sum = (l.map g).sum := by
  rw [List.map_congr_left h]

theorem sum_add {α : Type} (l : List α) (f g : α → ℝ) : (l.map (fun a => f a + g a)).sum = (l.map f).sum + (l.map g).sum := by
  induction l with
  | nil => simp
  | cons a l ih => simp only [List.map_cons, List.sum_cons, ih]; ring

theorem sum_sub {α : Type} (l : List α) (f g : α → ℝ) : (l.map (fun a => f a - g a)).sum = (l.map f).sum - (l.map g).sum := by
  induction l with
  | nil => simp
  | cons a l ih => simp only [List.map_cons, List.sum_cons, ih]; ring

theorem sum_mul {α : Type} (l : List α) (f : α → ℝ) (k : ℝ) : (l.map (fun a => k * f a)).sum = k * (l.map f).sum := by
  induction l with
  | nil => simp
  | cons a l ih => simp only [List.map_cons, List.sum_cons, ih]; ring

theorem sum_zero {α : Type} (l : List α) (f : α → ℝ) (h : ∀ a ∈ l, f a = 0) : (l.map f).sum = 0 := by
  rw [sum_congr l f (fun _ => 0) h]; simp

theorem sum_swap {α β : Type} (l : List α) (k : List β) (f : α → β → ℝ) :
    (l.map (fun a => (k.map (f a)).sum)).sum = (k.map (fun b => (l.map (fun a => f a b)).sum)).sum := by
  induction l with
  | nil => simp
  | cons a l ih => simp only [List.map_cons, List.sum_cons, ih, ← sum_add]

theorem sum_pos {α : Type} (l : List α) (f : α → ℝ) (h : ∀ a ∈ l, 0 ≤ f a) (a : α) (ha : a ∈ l) (hp : 0 < f a) :
    0 < (l.map f).sum := by
  induction l with
  | nil => cases ha
  | cons b l ih =>
    rw [List.map_cons, List.sum_cons]
    have h1 := h b (List.mem_cons_self ..)
    have h2 := sum_nonneg l f (fun c hc => h c (List.mem_cons_of_mem _ hc))
    rcases List.mem_cons.1 ha with rfl | ha
    · linarith
    · have := ih (fun c hc => h c (List.mem_cons_of_mem _ hc)) ha
      linarith

/-! ## The inequality of Gibbs -/

/-- The logarithm of a sum is at least a mean of logarithms plus the entropy.  (`z = 0` contributes nothing.) -/
theorem gibbs {α : Type} (l : List α) (z q : α → ℝ) (s : ℝ) (hz : ∀ a ∈ l, 0 ≤ z a) (hq : ∀ a ∈ l, 0 < q a)
    (b : ℝ) (hb : 0 ≤ b) (b' : ℝ) (hb' : 0 ≤ b') (hbb : 0 < b → 0 < b')
    (hs : s = b + (l.map z).sum) (hp : 0 < s) :
    b / s * (Real.log b' - Real.log b) + (l.map (fun a => z a / s * (Real.log (q a) - Real.log (z a)))).sum + Real.log s ≤
      Real.log (b' + (l.map q).sum) := by
  have hQ0 : 0 ≤ (l.map q).sum := sum_nonneg l q (fun a ha => (hq a ha).le)
  have hQ : 0 < b' + (l.map q).sum := by
    by_cases h0 : 0 < b
    · have := hbb h0; linarith
    · have hb0 : b = 0 := le_antisymm (not_lt.1 h0) hb
      cases l with
      | nil => simp [hb0] at hs; linarith
      | cons a l =>
        have := sum_pos (a :: l) q (fun a ha => (hq a ha).le) a (List.mem_cons_self ..) (hq a (List.mem_cons_self ..))
        linarith
  generalize hQd : b' + (l.map q).sum = Q at hQ
  have key : ∀ z q : ℝ, 0 ≤ z → (0 < z → 0 < q) → 0 ≤ q →
      z / s * (Real.log q - Real.log z + Real.log s - Real.log Q) ≤ q / Q - z / s := by
    intro z q hz hzq hq
    rcases hz.eq_or_lt with rfl | hz
    · simp only [zero_div, zero_mul, sub_zero]; positivity
    · have hq := hzq hz
      have e : Real.log q - Real.log z + Real.log s - Real.log Q = Real.log (q * s / (z * Q)) := by
        rw [Real.log_div (by positivity) (by positivity), Real.log_mul hq.ne' hp.ne', Real.log_mul hz.ne' hQ.ne']; ring
      rw [e]
      have h1 := Real.log_le_sub_one_of_pos (show 0 < q * s / (z * Q) by positivity)
      have h2 : q / Q - z / s = z / s * (q * s / (z * Q) - 1) := by field_simp
      rw [h2]
      exact mul_le_mul_of_nonneg_left h1 (by positivity)
  have k1 := key b b' hb hbb hb'
  have k2 := sum_le l (fun a => z a / s * (Real.log (q a) - Real.log (z a) + Real.log s - Real.log Q)) (fun a => q a / Q - z a / s)
    (fun a ha => key (z a) (q a) (hz a ha) (fun _ => hq a ha) (hq a ha).le)
  have e1 : (l.map (fun a => z a / s * (Real.log (q a) - Real.log (z a) + Real.log s - Real.log Q))).sum =
      (l.map (fun a => z a / s * (Real.log (q a) - Real.log (z a)))).sum + (Real.log s - Real.log Q) / s * (l.map z).sum := by
    rw [← sum_mul, ← sum_add]
    exact sum_congr _ _ _ (fun a _ => by ring)
  have e2 : (l.map (fun a => q a / Q - z a / s)).sum = (l.map q).sum / Q - (l.map z).sum / s := by
    rw [sum_sub]
    congr 1
    · rw [div_eq_inv_mul, ← sum_mul]; exact sum_congr _ _ _ (fun a _ => by rw [div_eq_inv_mul])
    · rw [div_eq_inv_mul, ← sum_mul]; exact sum_congr _ _ _ (fun a _ => by rw [div_eq_inv_mul])
  rw [e1, e2] at k2
  have e3 : (l.map z).sum = s - b := by linarith
  have e4 : (l.map q).sum = Q - b' := by linarith
  rw [e3, e4] at k2
  have e5 : (Q - b') / Q = 1 - b' / Q := by field_simp
  have e6 : (s - b) / s = 1 - b / s := by field_simp
  have e7 : (Real.log s - Real.log Q) / s * (s - b) = (Real.log s - Real.log Q) * (1 - b / s) := by rw [← e6]; ring
  rw [e5, e6, e7] at k2
  nlinarith [k1, k2]

/-! ## One component -/

/-- `tr (V^-1 A) - log det A + log det V` is smallest for `A` proportional to `V`. -/
theorem trace_log (a b c p q r : ℝ) (ha : 0 < a) (hd : 0 < a * c - b ^ 2) (hp : 0 < p) (he : 0 < p * r - q ^ 2) :
    2 + Real.log (p * r - q ^ 2) ≤ Real.log (a * c - b ^ 2) + (c * p - 2 * b * q + a * r) / (a * c - b ^ 2) := by
  set D := a * c - b ^ 2 with hD
  set E := p * r - q ^ 2 with hE
  have hT : D * (p / a) + E * (a / p) ≤ c * p - 2 * b * q + a * r := by
    have : c * p - 2 * b * q + a * r - (D * (p / a) + E * (a / p)) = (b * p - q * a) ^ 2 / (a * p) := by
      rw [hD, hE]; field_simp; ring
    have h2 : 0 ≤ (b * p - q * a) ^ 2 / (a * p) := by positivity
    linarith
  have hT' : p / a + E / D * (a / p) ≤ (c * p - 2 * b * q + a * r) / D := by
    rw [le_div_iff₀ hd]
    calc (p / a + E / D * (a / p)) * D = D * (p / a) + E * (a / p) := by field_simp
      _ ≤ _ := hT
  have l1 := Real.add_one_le_exp (Real.log (p / a))
  have l2 := Real.log_le_sub_one_of_pos (show 0 < p / a by positivity)
  have l3 := Real.log_le_sub_one_of_pos (show 0 < E / D * (a / p) by positivity)
  have e1 : Real.log (p / a) + Real.log (E / D * (a / p)) = Real.log E - Real.log D := by
    rw [Real.log_div hp.ne' ha.ne', Real.log_mul (by positivity) (by positivity), Real.log_div he.ne' hd.ne',
      Real.log_div ha.ne' hp.ne']
    ring
  linarith

/-- Weighted sums of products of offsets from a point. -/
noncomputable def mom (px : List Px) (w : Px → ℝ) (f : Px → ℝ) : ℝ := (px.map (fun p => w p * f p)).sum

theorem mom_add (px : List Px) (w f g : Px → ℝ) : mom px w (fun p => f p + g p) = mom px w f + mom px w g := by
  unfold mom; rw [← sum_add]; exact sum_congr _ _ _ (fun a _ => by ring)

theorem mom_mul (px : List Px) (w f : Px → ℝ) (k : ℝ) : mom px w (fun p => k * f p) = k * mom px w f := by
  unfold mom; rw [← sum_mul]; exact sum_congr _ _ _ (fun a _ => by ring)

theorem mom_nonneg (px : List Px) (w f : Px → ℝ) (hw : ∀ p ∈ px, 0 ≤ w p) (hf : ∀ p ∈ px, 0 ≤ f p) : 0 ≤ mom px w f :=
  sum_nonneg _ _ (fun p hp => mul_nonneg (hw p hp) (hf p hp))

/-- The weighted sum of squared distances. -/
theorem mom_dist (px : List Px) (w : Px → ℝ) (c : Comp ℝ) :
    mom px w (fun p => distSq c p.x p.y) =
      (c.vyy * mom px w (fun p => (p.x - c.mx) * (p.x - c.mx)) - 2 * c.vxy * mom px w (fun p => (p.x - c.mx) * (p.y - c.my)) +
        c.vxx * mom px w (fun p => (p.y - c.my) * (p.y - c.my))) / (c.vxx * c.vyy - c.vxy ^ 2) := by
  set k := (c.vxx * c.vyy - c.vxy ^ 2)⁻¹ with hk
  have e1 : (fun p : Px => distSq c p.x p.y) = (fun p => (k * c.vyy) * ((p.x - c.mx) * (p.x - c.mx)) +
      ((k * (-2 * c.vxy)) * ((p.x - c.mx) * (p.y - c.my)) + (k * c.vxx) * ((p.y - c.my) * (p.y - c.my)))) := by
    funext p
    simp only [distSq, div_eq_inv_mul, ← hk]
    ring
  rw [e1, mom_add, mom_add, mom_mul, mom_mul, mom_mul, div_eq_inv_mul, ← hk]
  ring

/-- A component with another mean. -/
def at' (c : Comp ℝ) (mx my : ℝ) : Comp ℝ := { c with mx := mx, my := my }

theorem form_nonneg {c : Comp ℝ} (hc : Proper c) (x y : ℝ) : 0 ≤ distSq c x y := by
  obtain ⟨_, h1, h2⟩ := hc
  unfold distSq
  apply div_nonneg _ h2.le
  have : c.vxx * (c.vyy * (x - c.mx) ^ 2 - 2 * c.vxy * ((x - c.mx) * (y - c.my)) + c.vxx * (y - c.my) ^ 2) =
      (c.vxx * c.vyy - c.vxy ^ 2) * (x - c.mx) ^ 2 + (c.vxx * (y - c.my) - c.vxy * (x - c.mx)) ^ 2 := by ring
  have h3 : 0 ≤ c.vxx * (c.vyy * (x - c.mx) ^ 2 - 2 * c.vxy * ((x - c.mx) * (y - c.my)) + c.vxx * (y - c.my) ^ 2) := by
    rw [this]; positivity
  exact nonneg_of_mul_nonneg_right h3 h1

/-- The weighted mean minimises the weighted sum of squared distances. -/
theorem mean_best (px : List Px) (w : Px → ℝ) (c : Comp ℝ) (hc : Proper c) (W : ℝ) (hW : 0 < W) (e : mom px w (fun _ => 1) = W)
    (mx my : ℝ) (hx : mom px w (fun p => p.x) = W * mx) (hy : mom px w (fun p => p.y) = W * my) :
    mom px w (fun p => distSq (at' c mx my) p.x p.y) ≤ mom px w (fun p => distSq c p.x p.y) := by
  have h : mom px w (fun p => distSq c p.x p.y) = mom px w (fun p => distSq (at' c mx my) p.x p.y) + W * distSq c mx my := by
    set k := (c.vxx * c.vyy - c.vxy ^ 2)⁻¹ with hk
    have e1 : (fun p : Px => distSq c p.x p.y) = (fun p => distSq (at' c mx my) p.x p.y +
        ((distSq c mx my - 2 * k * (c.vyy * (mx - c.mx) * mx - c.vxy * ((mx - c.mx) * my + (my - c.my) * mx) + c.vxx * (my - c.my) * my)) * 1
          + ((2 * k * (c.vyy * (mx - c.mx) - c.vxy * (my - c.my))) * p.x
          + (2 * k * (c.vxx * (my - c.my) - c.vxy * (mx - c.mx))) * p.y))) := by
      funext p
      simp only [distSq, at', div_eq_inv_mul, ← hk]
      ring
    rw [e1, mom_add, mom_add, mom_add, mom_mul, mom_mul, mom_mul, e, hx, hy]
    ring
  have := form_nonneg hc mx my
  nlinarith [mul_nonneg hW.le this]

/-- The covariance of the M step about the point `(mx, my)` is the best for that point. -/
theorem var_best (px : List Px) (w : Px → ℝ) (alpha W : ℝ) (hn : 0 < W + alpha)
    (c : Comp ℝ) (hc : Proper c) (c' : Comp ℝ) (hc' : Proper c') (hx : c'.mx = c.mx) (hy : c'.my = c.my)
    (h1 : (W + alpha) * c'.vxx = alpha + mom px w (fun p => (p.x - c.mx) * (p.x - c.mx)))
    (h2 : (W + alpha) * c'.vxy = mom px w (fun p => (p.x - c.mx) * (p.y - c.my)))
    (h3 : (W + alpha) * c'.vyy = alpha + mom px w (fun p => (p.y - c.my) * (p.y - c.my))) :
    W * Real.log (c'.vxx * c'.vyy - c'.vxy ^ 2) + mom px w (fun p => distSq c' p.x p.y) + alpha * wishart c' ≤
      W * Real.log (c.vxx * c.vyy - c.vxy ^ 2) + mom px w (fun p => distSq c p.x p.y) + alpha * wishart c := by
  obtain ⟨-, a1, a2⟩ := hc
  obtain ⟨-, b1, b2⟩ := hc'
  rw [mom_dist, mom_dist, hx, hy]
  unfold wishart
  have g1 : mom px w (fun p => (p.x - c.mx) * (p.x - c.mx)) = (W + alpha) * c'.vxx - alpha := by linarith
  have g3 : mom px w (fun p => (p.y - c.my) * (p.y - c.my)) = (W + alpha) * c'.vyy - alpha := by linarith
  rw [g1, g3, ← h2]
  have t := trace_log c.vxx c.vxy c.vyy c'.vxx c'.vxy c'.vyy a1 a2 b1 b2
  set D := c.vxx * c.vyy - c.vxy ^ 2 with hD
  set E := c'.vxx * c'.vyy - c'.vxy ^ 2 with hE
  have l : W * Real.log E + (c'.vyy * ((W + alpha) * c'.vxx - alpha) - 2 * c'.vxy * ((W + alpha) * c'.vxy) +
      c'.vxx * ((W + alpha) * c'.vyy - alpha)) / E + alpha * (Real.log E + (c'.vxx + c'.vyy) / E) = (W + alpha) * (2 + Real.log E) := by
    have : c'.vyy * ((W + alpha) * c'.vxx - alpha) - 2 * c'.vxy * ((W + alpha) * c'.vxy) + c'.vxx * ((W + alpha) * c'.vyy - alpha) =
        2 * (W + alpha) * E - alpha * (c'.vxx + c'.vyy) := by rw [hE]; ring
    rw [this]
    field_simp
    ring
  have r : W * Real.log D + (c.vyy * ((W + alpha) * c'.vxx - alpha) - 2 * c.vxy * ((W + alpha) * c'.vxy) +
      c.vxx * ((W + alpha) * c'.vyy - alpha)) / D + alpha * (Real.log D + (c.vxx + c.vyy) / D) =
      (W + alpha) * (Real.log D + (c.vyy * c'.vxx - 2 * c.vxy * c'.vxy + c.vxx * c'.vyy) / D) := by
    field_simp
    ring
  rw [l, r]
  exact mul_le_mul_of_nonneg_left t hn.le

theorem log_density {c : Comp ℝ} (hc : Proper c) (ha : 0 < c.amp) (x y : ℝ) :
    Real.log (density c x y) = Real.log c.amp - Real.log (2 * Real.pi) - Real.log (c.vxx * c.vyy - c.vxy ^ 2) / 2 - distSq c x y / 2 := by
  obtain ⟨-, -, hd⟩ := hc
  have hs : 0 < Real.sqrt (c.vxx * c.vyy - c.vxy ^ 2) := Real.sqrt_pos.2 hd
  have hpi := Real.pi_pos
  unfold density
  rw [Real.log_mul (by positivity) (by positivity), Real.log_exp, Real.log_div (by positivity) (by positivity),
    Real.log_mul (by positivity) (by positivity), Real.log_sqrt hd.le]
  ring

theorem density_pos {c : Comp ℝ} (hc : Proper c) (ha : 0 < c.amp) (x y : ℝ) : 0 < density c x y := by
  have hs : 0 < Real.sqrt (c.vxx * c.vyy - c.vxy ^ 2) := Real.sqrt_pos.2 hc.2.2
  have hpi := Real.pi_pos
  unfold density
  positivity

/-- What one component gains. -/
theorem comp_gain (px : List Px) (w : Px → ℝ) (alpha : ℝ) (c c' : Comp ℝ) (hc : Proper c) (ha : 0 < c.amp)
    (hc' : Proper c') (ha' : 0 < c'.amp) (e : mom px w (fun _ => 1) = c'.amp)
    (hv : c'.amp * Real.log (c'.vxx * c'.vyy - c'.vxy ^ 2) + mom px w (fun p => distSq c' p.x p.y) + alpha * wishart c' ≤
      c'.amp * Real.log (c.vxx * c.vyy - c.vxy ^ 2) + mom px w (fun p => distSq c p.x p.y) + alpha * wishart c) :
    c'.amp - c.amp + alpha / 2 * (wishart c' - wishart c) ≤
      mom px w (fun p => Real.log (density c' p.x p.y) - Real.log (density c p.x p.y)) := by
  have h : mom px w (fun p => Real.log (density c' p.x p.y) - Real.log (density c p.x p.y)) =
      c'.amp * (Real.log c'.amp - Real.log c.amp) - c'.amp * (Real.log (c'.vxx * c'.vyy - c'.vxy ^ 2) -
        Real.log (c.vxx * c.vyy - c.vxy ^ 2)) / 2 - (mom px w (fun p => distSq c' p.x p.y) - mom px w (fun p => distSq c p.x p.y)) / 2 := by
    have e1 : (fun p : Px => Real.log (density c' p.x p.y) - Real.log (density c p.x p.y)) = (fun p =>
        ((Real.log c'.amp - Real.log c.amp) - (Real.log (c'.vxx * c'.vyy - c'.vxy ^ 2) - Real.log (c.vxx * c.vyy - c.vxy ^ 2)) / 2) * 1
        + ((-1 / 2) * distSq c' p.x p.y + (1 / 2) * distSq c p.x p.y)) := by
      funext p
      rw [log_density hc ha, log_density hc' ha']
      ring
    rw [e1, mom_add, mom_add, mom_mul, mom_mul, mom_mul, e]
    ring
  rw [h]
  have l := Real.log_le_sub_one_of_pos (show 0 < c.amp / c'.amp by positivity)
  rw [Real.log_div ha.ne' ha'.ne'] at l
  have l2 : c'.amp * (Real.log c.amp - Real.log c'.amp) ≤ c.amp - c'.amp := by
    calc c'.amp * (Real.log c.amp - Real.log c'.amp) ≤ c'.amp * (c.amp / c'.amp - 1) := mul_le_mul_of_nonneg_left l ha'.le
      _ = _ := by field_simp
  nlinarith [l2, hv]

end Verif.Em
