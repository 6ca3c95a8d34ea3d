import Verif.Fpfit.PropsDir
import Mathlib.Algebra.BigOperators.Group.Finset.Sigma
import Mathlib.Algebra.BigOperators.Ring.Finset
import Mathlib.Algebra.Order.BigOperators.Ring.Finset

/-!
# Forced photometry of images with known truth (C148): definitions and lemmas

`withPixels` puts other pixel values into the images of a tractor; `pixel` is a pixel of `tractor.getModelImage(i)`.
-/

namespace Verif.Fpfit

open Verif Patches Forced Linmod Finset

/-! ### Weighted least squares -/

section
variable {R : Type} [Field R] [LinearOrder R] [IsStrictOrderedRing R] {ι κ : Type}

/-- The residual of an observation: weight times data minus a model that is affine in the parameters. -/
def resid (K : Finset ℕ) (w d c : ι → R) (A : ι → ℕ → R) (θ : ℕ → R) (π : ι) : R := w π * (d π - (c π + ∑ k ∈ K, θ k * A π k))

/-- At a minimum of the sum of squares the residuals are orthogonal to every change of the model. -/
theorem resid_normal (P : Finset ι) (K : Finset ℕ) (w d c : ι → R) (A : ι → ℕ → R) (θ : ℕ → R)
    (h : ∀ θ', ∑ π ∈ P, resid K w d c A θ π * resid K w d c A θ π ≤ ∑ π ∈ P, resid K w d c A θ' π * resid K w d c A θ' π) (v : ℕ → R) :
    ∑ π ∈ P, resid K w d c A θ π * (w π * ∑ k ∈ K, v k * A π k) = 0 := by
  have key : ∀ ε : R, ∑ π ∈ P, resid K w d c A (fun k => θ k + ε * v k) π * resid K w d c A (fun k => θ k + ε * v k) π =
      ∑ π ∈ P, resid K w d c A θ π * resid K w d c A θ π - 2 * ε * ∑ π ∈ P, resid K w d c A θ π * (w π * ∑ k ∈ K, v k * A π k) +
        ε * ε * ∑ π ∈ P, (w π * ∑ k ∈ K, v k * A π k) * (w π * ∑ k ∈ K, v k * A π k) := by
    intro ε
    rw [mul_sum, mul_sum, ← sum_sub_distrib, ← sum_add_distrib]
    refine sum_congr rfl (fun π _ => ?_)
    have e : resid K w d c A (fun k => θ k + ε * v k) π = resid K w d c A θ π - ε * (w π * ∑ k ∈ K, v k * A π k) := by
      unfold resid
      have : ∑ k ∈ K, (θ k + ε * v k) * A π k = ∑ k ∈ K, θ k * A π k + ε * ∑ k ∈ K, v k * A π k := by
        rw [mul_sum, ← sum_add_distrib]
        exact sum_congr rfl (fun k _ => by ring)
      rw [this]; ring
    rw [e]; ring
  have hc : 0 ≤ ∑ π ∈ P, (w π * ∑ k ∈ K, v k * A π k) * (w π * ∑ k ∈ K, v k * A π k) := sum_nonneg (fun _ _ => mul_self_nonneg _)
  generalize ∑ π ∈ P, resid K w d c A θ π * (w π * ∑ k ∈ K, v k * A π k) = b at *
  generalize ∑ π ∈ P, (w π * ∑ k ∈ K, v k * A π k) * (w π * ∑ k ∈ K, v k * A π k) = cc at *
  have h1 := h (fun k => θ k + b / (cc + 1) * v k)
  rw [key] at h1
  have hp : 0 < cc + 1 := by linarith
  have h2 : 2 * (b / (cc + 1)) * b ≤ b / (cc + 1) * (b / (cc + 1)) * cc := by linarith
  obtain ⟨u, hu⟩ : ∃ u, b / (cc + 1) = u := ⟨_, rfl⟩
  have hb : b = u * (cc + 1) := by rw [← hu]; field_simp
  rw [hu, hb] at h2
  have h3 : u * u * (cc + 2) ≤ 0 := by nlinarith
  have h4 : u * u = 0 := by nlinarith [mul_self_nonneg u]
  rw [hb, mul_self_eq_zero.1 h4, zero_mul]

/-- If the data of several fits have the mean of a model, the mean of the fits gives that model, wherever the weight is not zero. -/
theorem resid_mean (P : Finset ι) (K : Finset ℕ) (w c : ι → R) (A : ι → ℕ → R) (J : Finset κ) (ω : κ → R) (hω : ∑ j ∈ J, ω j = 1)
    (d : κ → ι → R) (θ : κ → ℕ → R) (q : ℕ → R)
    (h : ∀ j ∈ J, ∀ θ', ∑ π ∈ P, resid K w (d j) c A (θ j) π * resid K w (d j) c A (θ j) π ≤
      ∑ π ∈ P, resid K w (d j) c A θ' π * resid K w (d j) c A θ' π)
    (hd : ∀ π ∈ P, w π ≠ 0 → ∑ j ∈ J, ω j * d j π = c π + ∑ k ∈ K, q k * A π k) :
    ∀ π ∈ P, w π ≠ 0 → ∑ k ∈ K, (∑ j ∈ J, ω j * θ j k) * A π k = ∑ k ∈ K, q k * A π k := by
  obtain ⟨v, hv⟩ : ∃ v : ℕ → R, v = fun k => q k - ∑ j ∈ J, ω j * θ j k := ⟨_, rfl⟩
  -- the mean of the residuals
  have e1 : ∀ π ∈ P, ∑ j ∈ J, ω j * resid K w (d j) c A (θ j) π = w π * ∑ k ∈ K, v k * A π k := by
    intro π hπ
    by_cases hw : w π = 0
    · rw [hw, zero_mul]
      refine sum_eq_zero (fun j _ => ?_)
      unfold resid; rw [hw]; ring
    · have e2 : ∑ j ∈ J, ω j * resid K w (d j) c A (θ j) π =
          w π * (∑ j ∈ J, ω j * d j π - (∑ j ∈ J, ω j) * c π - ∑ j ∈ J, ω j * ∑ k ∈ K, θ j k * A π k) := by
        rw [sum_mul, ← sum_sub_distrib, ← sum_sub_distrib, mul_sum]
        refine sum_congr rfl (fun j _ => ?_)
        unfold resid; ring
      have e3 : ∑ j ∈ J, ω j * ∑ k ∈ K, θ j k * A π k = ∑ k ∈ K, (∑ j ∈ J, ω j * θ j k) * A π k := by
        have : ∀ j ∈ J, ω j * ∑ k ∈ K, θ j k * A π k = ∑ k ∈ K, ω j * θ j k * A π k := by
          intro j _
          rw [mul_sum]
          exact sum_congr rfl (fun k _ => by ring)
        rw [sum_congr rfl this, sum_comm]
        exact sum_congr rfl (fun k _ => by rw [sum_mul])
      rw [e2, hω, hd π hπ hw, e3, hv]
      have : ∑ k ∈ K, (q k - ∑ j ∈ J, ω j * θ j k) * A π k = ∑ k ∈ K, q k * A π k - ∑ k ∈ K, (∑ j ∈ J, ω j * θ j k) * A π k := by
        rw [← sum_sub_distrib]
        exact sum_congr rfl (fun k _ => by ring)
      rw [this]; ring
  have e4 : ∑ π ∈ P, (w π * ∑ k ∈ K, v k * A π k) * (w π * ∑ k ∈ K, v k * A π k) = 0 := by
    have e5 : ∑ π ∈ P, (w π * ∑ k ∈ K, v k * A π k) * (w π * ∑ k ∈ K, v k * A π k) =
        ∑ j ∈ J, ω j * ∑ π ∈ P, resid K w (d j) c A (θ j) π * (w π * ∑ k ∈ K, v k * A π k) := by
      have : ∀ j ∈ J, ω j * ∑ π ∈ P, resid K w (d j) c A (θ j) π * (w π * ∑ k ∈ K, v k * A π k) =
          ∑ π ∈ P, ω j * resid K w (d j) c A (θ j) π * (w π * ∑ k ∈ K, v k * A π k) := by
        intro j _
        rw [mul_sum]
        exact sum_congr rfl (fun _ _ => by ring)
      rw [sum_congr rfl this, sum_comm]
      refine sum_congr rfl (fun π hπ => ?_)
      rw [← sum_mul, e1 π hπ]
    rw [e5]
    refine sum_eq_zero (fun j hj => ?_)
    rw [resid_normal P K w (d j) c A (θ j) (h j hj) v, mul_zero]
  rw [sum_eq_zero_iff_of_nonneg (fun _ _ => mul_self_nonneg _)] at e4
  intro π hπ hw
  have e6 := (mul_eq_zero.1 (mul_self_eq_zero.1 (e4 π hπ))).resolve_left hw
  rw [hv] at e6
  have : ∑ k ∈ K, (q k - ∑ j ∈ J, ω j * θ j k) * A π k = ∑ k ∈ K, q k * A π k - ∑ k ∈ K, (∑ j ∈ J, ω j * θ j k) * A π k := by
    rw [← sum_sub_distrib]
    exact sum_congr rfl (fun k _ => by ring)
  rw [this] at e6
  linarith

end

/-! ### Images with other pixel values -/

variable {R M : Type}

/-- The images of a tractor with other pixel values: `d i y x` is the pixel of image `i` in row `y` and column `x`. -/
def withPixels (tims : List (Tim R M)) (d : Nat → Nat → Nat → R) : List (Tim R M) :=
  tims.mapIdx (fun i t => { t with data := ⟨t.data.h, t.data.w, d i⟩ })

theorem withPixels_length (tims : List (Tim R M)) (d : Nat → Nat → Nat → R) : (withPixels tims d).length = tims.length := by
  unfold withPixels; simp

theorem withPixels_get (tims : List (Tim R M)) (d : Nat → Nat → Nat → R) (i : Nat) :
    (withPixels tims d)[i]? = (tims[i]?).map (fun t => { t with data := ⟨t.data.h, t.data.w, d i⟩ }) := by
  unfold withPixels; simp

theorem withPixels_mem {tims : List (Tim R M)} {d : Nat → Nat → Nat → R} {t' : Tim R M} (h : t' ∈ withPixels tims d) :
    ∃ i, ∃ t ∈ tims, t' = { t with data := ⟨t.data.h, t.data.w, d i⟩ } := by
  obtain ⟨i, hi, rfl⟩ := List.getElem_of_mem h
  have hl := withPixels_length tims d
  refine ⟨i, tims[i], List.getElem_mem _, ?_⟩
  have := withPixels_get tims d i
  rw [List.getElem?_eq_getElem hi, List.getElem?_eq_getElem (by omega)] at this
  simpa using this

theorem setSky_get : ∀ (tims : List (Tim R M)) (l : List R) (i : Nat),
    (setSky tims l)[i]? = (tims[i]?).map (fun t => { t with sky := l.getD i t.sky }) := by
  intro tims
  induction tims with
  | nil => intro l i; rfl
  | cons t ts ih =>
    intro l i
    cases i with
    | zero => cases l <;> rfl
    | succ i =>
      rw [setSky, List.getElem?_cons_succ, ih, List.getElem?_cons_succ]
      cases l <;> rfl

variable [Field R] [LinearOrder R]

/-- A pixel of `tractor.getModelImage(i, minsb)`. -/
def pixel (minsb : R) (tr : List (Tim R M) × List (Source R)) (i y x : Nat) : R :=
  match tr.1[i]? with
  | none => 0
  | some t =>
    match modelImage t.W t.img minsb true tr.2 with
    | .error _ => 0
    | .ok m => m.px y x

/-- A model image is a constant, the sky level and, per parameter, the parameter times the scaled unit-flux model. -/
theorem modelImage_affine (W : World R M) (img : Img R) (minsb : R) (cat : List (Source R)) (hr : ∀ s ∈ cat, s.thawed = true → Fit W img minsb s) :
    ∃ c : Nat → Nat → R, ∀ (p : List R) (v : R), p.length = numParams cat →
      ∃ B, modelImage W { img with sky := v } minsb true (setParams cat p) = .ok B ∧ B.h = img.h ∧ B.w = img.w ∧
        ∀ y x : Nat, y < img.h → x < img.w → B.px y x = c y x + v +
          ∑ k ∈ range (numParams cat), p.getD k 0 * (img.scale * valAt x y ((umods W img minsb cat).getD k none)) := by
  have hlen := umods_length W img minsb cat (fun s hs ht => (hr s hs ht).bands)
  obtain ⟨m, m1, m2, m3, m4⟩ := modelImage_ok W img minsb false (cat.filter (fun s => !s.thawed))
  refine ⟨m.px, fun p v hp => ?_⟩
  obtain ⟨A, B, a1, b1, a2, a3, a4⟩ := fitted_eq W { img with sky := v } minsb true cat p (fun s hs ht => fit_sky v (hr s hs ht)) hp
  obtain ⟨B', b1', b2, b3, _⟩ := modelImage_ok W { img with sky := v } minsb true (setParams cat p)
  rw [b1] at b1'
  injection b1' with b1'
  rw [← b1'] at b2 b3
  refine ⟨B, b1, b2, b3, fun y x hy hx => ?_⟩
  have hp' : prepare W img minsb true cat = .ok (umods W img minsb cat, m) := by
    unfold prepare
    simp only
    rw [if_neg (by simp [hlen])]
    change (match modelImage W img minsb false (cat.filter (fun s => !s.thawed)) with | .error e => _ | .ok m => _) = _
    rw [m1]
  obtain ⟨A', c1, c2, c3, c4⟩ := addModels_ok none img.scale (p.zip (umods W img minsb cat)) (addSky { img with sky := v } m)
  have eA : A = A' := by
    unfold fitted at a1
    rw [prepare_sky, hp'] at a1
    have : (Except.ok A' : Except PyErr (Arr R)) = .ok A := c1.symm.trans a1
    injection this with this
    exact this.symm
  have eh : (addSky { img with sky := v } m).h = img.h := m2
  have ew : (addSky { img with sky := v } m).w = img.w := m3
  have h1 : A.h = img.h := a2.trans b2
  have h2 : A.w = img.w := a3.trans b3
  rw [← a4 y x (by omega) (by omega), eA, c4 y x (by omega) (by omega)]
  have e3 : countsAt none img.scale x y (p.zip (umods W img minsb cat)) =
      ∑ k ∈ range (numParams cat), p.getD k 0 * (img.scale * valAt x y ((umods W img minsb cat).getD k none)) := by
    rw [← hp, ← zip_range (fun u => img.scale * valAt x y u) p _ (hp.trans hlen.symm)]
    generalize p.zip (umods W img minsb cat) = l
    induction l with
    | nil => rfl
    | cons s l ih => rw [countsAt_cons, ih, List.map_cons, List.sum_cons, mul_assoc]
  rw [e3]
  rfl

end Verif.Fpfit
