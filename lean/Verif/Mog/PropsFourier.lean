import Verif.Mog.Lemmas
import Mathlib.Algebra.Field.Rat
import Mathlib.Algebra.Ring.Prod
import Mathlib.Algebra.Algebra.Prod
import Mathlib.Algebra.BigOperators.Ring.List
import Mathlib.Tactic.Ring
import Mathlib.Tactic.NormNum
import Mathlib.Tactic.FieldSimp

/-!
# C52, C79–C81: Fourier transforms and transformations of mixtures

The exponential is a parameter of which only `exp (a + b) = exp a * exp b` and `exp 0 = 1` is used.
-/

namespace Verif.Mog

variable {R C : Type} [CommRing R] [CommRing C] [Algebra R C]

/-- The laws of the exponential. -/
def Exp.OK (E : Exp R C) : Prop := (∀ a b, E.exp (a + b) = E.exp a * E.exp b) ∧ E.exp 0 = 1

/-- The Fourier transform of one Gaussian of amplitude one at the frequency `(v, w)`:
`exp(-2 pi^2 f^T V f) exp(-2 pi i f . mean)`. -/
def transform (E : Exp R C) (c : Comp R) (v w : R) : C :=
  E.exp (algebraMap R C (-2 * E.pi ^ 2 * (v * (c.vxx * v + c.vxy * w) + w * (c.vxy * v + c.vyy * w)))) *
  E.exp (algebraMap R C (-2 * E.pi * (v * c.mx + w * c.my)) * E.I)

/-- The Fourier transform of a mixture: the weighted sum of those of its Gaussians. -/
def transformMix (E : Exp R C) (m : Mix R) (v w : R) : C :=
  (m.map (fun c => algebraMap R C c.amp * transform E c v w)).sum

section
variable [DecidableEq R]

theorem fourierTerm_eq (E : Exp R C) (hE : E.OK) (c : Comp R) (v w : R) : fourierTerm E c v w = transform E c v w := by
  unfold fourierTerm transform
  simp only
  have e : (c.vxx * v ^ 2 + c.vyy * w ^ 2 + 2 * c.vxy * v * w) =
      v * (c.vxx * v + c.vxy * w) + w * (c.vxy * v + c.vyy * w) := by ring
  rw [e]
  split
  · congr 2
    simp only [map_mul, map_add, map_neg]
    ring
  · next h =>
    have h1 : c.mx = 0 := by by_contra h'; exact h (.inl h')
    have h2 : c.my = 0 := by by_contra h'; exact h (.inr h')
    rw [h1, h2, mul_zero, mul_zero, add_zero, mul_zero, map_zero, zero_mul, hE.2, mul_one]

/-- **C52.** `getFourierTransform` (in Python) is the Fourier transform of the mixture; None for a mixture without
components. -/
theorem C52_transform (E : Exp R C) (hE : E.OK) (m : Mix R) (v w : R) (have_mp use_mp : Bool) :
    fourier E have_mp use_mp false m v w = if m = [] then none else some (transformMix E m v w) := by
  unfold fourier
  rw [Bool.and_false, if_neg (by simp), fourierPy_eq]
  simp only [fourierTerm_eq E hE]
  rfl

omit [DecidableEq R] in
theorem transform_convolve (E : Exp R C) (hE : E.OK) (a b : Comp R) (v w : R) :
    transform E ⟨a.amp * b.amp, a.mx + b.mx, a.my + b.my, a.vxx + b.vxx, a.vxy + b.vxy, a.vyx + b.vyx, a.vyy + b.vyy⟩ v w =
      transform E a v w * transform E b v w := by
  unfold transform
  simp only
  simp only [← hE.1]
  congr 1
  simp only [map_mul, map_add, map_neg]
  ring

omit [DecidableEq R] in
theorem transformMix_convolve (E : Exp R C) (hE : E.OK) (a b : Mix R) (v w : R) :
    transformMix E (convolve a b) v w = transformMix E a v w * transformMix E b v w := by
  unfold convolve
  induction b with
  | nil => simp [transformMix]
  | cons y b ih =>
    have h1 : transformMix E (convolveOne a y) v w = transformMix E a v w * (algebraMap R C y.amp * transform E y v w) := by
      clear ih
      unfold transformMix convolveOne
      rw [List.map_map, ← List.sum_map_mul_right]
      congr 1
      refine List.map_congr_left (fun c _ => ?_)
      simp only [Function.comp]
      rw [transform_convolve E hE, map_mul]
      ring
    have h2 : ∀ x z : Mix R, transformMix E (x ++ z) v w = transformMix E x v w + transformMix E z v w := by
      intro x z; unfold transformMix; rw [List.map_append, List.sum_append]
    rw [List.flatMap_cons, h2, ih, h1]
    have h3 : transformMix E (y :: b) v w = algebraMap R C y.amp * transform E y v w + transformMix E b v w := by
      unfold transformMix; rw [List.map_cons, List.sum_cons]
    rw [h3, mul_add]

/-- **C52.** The Fourier transform of a convolution is the product of the Fourier transforms, at every
frequency. -/
theorem C52_convolve (E : Exp R C) (hE : E.OK) (a b : Mix R) (v w : R) (hmp ump : Bool) :
    fourier E hmp ump false (convolve a b) v w =
      (fourier E hmp ump false a v w).bind (fun x => (fourier E hmp ump false b v w).map (fun y => x * y)) := by
  rw [C52_transform E hE, C52_transform E hE, C52_transform E hE, transformMix_convolve E hE]
  by_cases ha : a = []
  · have : convolve a b = [] := by
      subst ha; unfold convolve convolveOne; simp
    rw [if_pos ha, if_pos this]; rfl
  · by_cases hb : b = []
    · have : convolve a b = [] := by subst hb; rfl
      rw [if_neg ha, if_pos hb, if_pos this]; rfl
    · have : convolve a b ≠ [] := by
        intro h
        obtain ⟨x, a', rfl⟩ := List.exists_cons_of_ne_nil ha
        obtain ⟨y, b', rfl⟩ := List.exists_cons_of_ne_nil hb
        simp [convolve, convolveOne] at h
      rw [if_neg ha, if_neg hb, if_neg this]; rfl

end

/-- **C52.** The convolution has the product of the numbers of components, and the product of the total amplitudes. -/
theorem C52_counts (a b : Mix R) :
    (convolve a b).length = a.length * b.length ∧
      ((convolve a b).map (·.amp)).sum = (a.map (·.amp)).sum * (b.map (·.amp)).sum := by
  unfold convolve
  induction b with
  | nil => simp
  | cons y b ih =>
    refine ⟨?_, ?_⟩
    · rw [List.flatMap_cons, List.length_append, ih.1, List.length_cons]
      simp only [convolveOne, List.length_map]
      ring
    · rw [List.flatMap_cons, List.map_append, List.sum_append, ih.2, List.map_cons, List.sum_cons, mul_add]
      congr 1
      simp only [convolveOne, List.map_map]
      rw [← List.sum_map_mul_right]
      rfl

/-- An exponential that is not constant: the ring `ℤ × ℚ`, `exp (n, q) = (1, 2 ^ n)`. -/
def exExp : Exp ℤ (ℤ × ℚ) := ⟨fun z => (1, (2 : ℚ) ^ z.1), (1, 1), 1⟩

theorem exExp_ok : exExp.OK :=
  ⟨fun a b => by
    simp only [exExp, Prod.fst_add, Prod.mk_mul_mk, mul_one]
    rw [zpow_add₀ (by norm_num)], by simp [exExp]⟩

/-- Two Gaussians convolved with one. -/
example : convolve ([⟨1, 2, 3, 4, 5, 5, 6⟩, ⟨7, 8, 9, 10, 11, 11, 12⟩] : Mix ℤ) [⟨2, 1, 1, 1, 0, 0, 1⟩] =
    [⟨2, 3, 4, 5, 5, 5, 7⟩, ⟨14, 9, 10, 11, 11, 11, 13⟩] := by decide
example : fourier exExp true true false ([⟨3, 1, 0, 0, 0, 0, 0⟩] : Mix ℤ) 1 0 = some (3, 3 / 4) := by
  rw [C52_transform exExp exExp_ok]
  simp [transformMix, transform, exExp, Prod.ext_iff]
  norm_num

/-! ### The transform without means -/

/-- The mixture with all means zero. -/
def centred (m : Mix R) : Mix R := m.map (fun c => { c with mx := 0, my := 0 })

variable [DecidableEq R]

theorem fourierC_ok (E : Exp R C) (hE : E.OK) (m : Mix R) (v w : R) : fourierC E m v w = transformMix E (centred m) v w := by
  rw [fourierC_eq]
  unfold transformMix centred
  rw [List.map_map]
  congr 1
  refine List.map_congr_left (fun c _ => ?_)
  simp only [Function.comp, transform, mul_zero, add_zero, map_zero, zero_mul, hE.2, mul_one]
  split
  · next h => rw [h.1, h.2.1, h.2.2]; simp [hE.2]
  · congr 3; ring

/-- **C79 (in part).** With `zero_mean=True` the Fourier transform is that of the mixture moved to the origin: with the C
library always (and use_mp_fourier=True), without it if the means are zero.  Both ways of computing agree there.
Missing: without the C library, or with use_mp_fourier=False, the argument is ignored for other mixtures
(`C79_ignored_false`). -/
theorem C79_zero_mean_partial (E : Exp R C) (hE : E.OK) (m : Mix R) (hm : m ≠ []) (v w : R) :
    fourier E true true true m v w = some (transformMix E (centred m) v w) ∧
    ((∀ c ∈ m, c.mx = 0 ∧ c.my = 0) → ∀ hmp ump zm : Bool,
      fourier E hmp ump zm m v w = some (transformMix E (centred m) v w)) := by
  have h1 : fourier E true true true m v w = some (transformMix E (centred m) v w) := by
    show some (fourierC E m v w) = _
    rw [fourierC_ok E hE]
  refine ⟨h1, fun h0 hmp ump zm => ?_⟩
  have hc : centred m = m := by
    unfold centred
    conv_rhs => rw [← List.map_id m]
    refine List.map_congr_left (fun c hc => ?_)
    obtain ⟨a, b⟩ := h0 c hc
    cases c; simp only [id, Comp.mk.injEq, true_and, and_true] at *; exact ⟨a.symm, b.symm⟩
  have h2 : fourierPy E m v w = some (transformMix E (centred m) v w) := by
    rw [hc]
    have := C52_transform E hE m v w false false
    rw [if_neg hm] at this
    exact this
  unfold fourier
  split
  · exact h1
  · exact h2

/-- **C79 (negation).** For a Gaussian away from the origin `zero_mean=True` gives different results with and without
the C library. -/
theorem C79_ignored_false :
    ∃ (m : Mix ℤ) (v w : ℤ), m ≠ [] ∧ fourier exExp false true true m v w ≠ fourier exExp true true true m v w ∧
      fourier exExp false true true m v w = fourier exExp false true false m v w := by
  refine ⟨[⟨3, 1, 0, 0, 0, 0, 0⟩], 1, 0, by simp, ?_, rfl⟩
  have h1 : fourier exExp false true true [⟨3, 1, 0, 0, 0, 0, 0⟩] 1 0 = some (3, 3 / 4) := by
    have := C52_transform exExp exExp_ok [⟨3, 1, 0, 0, 0, 0, 0⟩] 1 0 false true
    rw [show fourier exExp false true true [⟨3, 1, 0, 0, 0, 0, 0⟩] 1 0 = _ from this]
    simp [transformMix, transform, exExp, Prod.ext_iff]
    norm_num
  rw [h1, (C79_zero_mean_partial exExp exExp_ok [⟨3, 1, 0, 0, 0, 0, 0⟩] (by simp) 1 0).1]
  simp [transformMix, transform, centred, exExp, Prod.ext_iff]
  norm_num

/-! ### Transformations -/

/-- All covariances symmetric, all means zero (as in the galaxy profiles). -/
def Central (m : Mix R) : Prop := ∀ c ∈ m, c.vxy = c.vyx ∧ c.mx = 0 ∧ c.my = 0

omit [DecidableEq R] in
theorem transform_sandwich (E : Exp R C) (s : Mat R) (c : Comp R) (hs : c.vxy = c.vyx) (hx : c.mx = 0)
    (hy : c.my = 0) (v w : R) :
    transform E (sandwich s c) v w = transform E c (s.xx * v + s.yx * w) (s.xy * v + s.yy * w) := by
  unfold transform sandwich
  simp only [hx, hy, mul_zero, add_zero]
  congr 3
  rw [← hs]
  ring

omit [DecidableEq R] in
/-- **C80 (in part).** For centred profiles: the transform after `apply_shear(S)` at `f` is the transform at `S^T f`;
after `apply_affine(shift, S)` it is that times the phase of the shift; both keep the amplitudes and symmetric
covariances.  Missing: mixtures with means, whose means are not transformed by `S` (`C80_means_false`). -/
theorem C80_affine_partial (E : Exp R C) (hE : E.OK) (m : Mix R) (hm : Central m) (shift : R × R) (s : Mat R) (v w : R) :
    transformMix E (applyShear m s) v w = transformMix E m (s.xx * v + s.yx * w) (s.xy * v + s.yy * w) ∧
    transformMix E (applyAffine m shift s) v w =
      E.exp (algebraMap R C (-2 * E.pi * (v * shift.1 + w * shift.2)) * E.I) *
        transformMix E m (s.xx * v + s.yx * w) (s.xy * v + s.yy * w) ∧
    (applyShear m s).map (·.amp) = m.map (·.amp) ∧ (applyAffine m shift s).map (·.amp) = m.map (·.amp) ∧
    (∀ c ∈ applyShear m s, c.vxy = c.vyx) ∧ (∀ c ∈ applyAffine m shift s, c.vxy = c.vyx) := by
  refine ⟨?_, ?_, ?_, ?_, ?_, ?_⟩
  · unfold transformMix applyShear
    rw [List.map_map]
    congr 1
    refine List.map_congr_left (fun c hc => ?_)
    obtain ⟨a, b, d⟩ := hm c hc
    simp only [Function.comp]
    rw [transform_sandwich E s c a b d]
    rfl
  · unfold transformMix applyAffine
    rw [List.map_map, ← List.sum_map_mul_left]
    congr 1
    refine List.map_congr_left (fun c hc => ?_)
    obtain ⟨a, b, d⟩ := hm c hc
    simp only [Function.comp]
    rw [← transform_sandwich E s c a b d]
    unfold transform sandwich
    simp only [b, d, zero_add, mul_zero, add_zero, map_zero, zero_mul, hE.2, mul_one]
    ring
  · unfold applyShear; rw [List.map_map]; rfl
  · unfold applyAffine; rw [List.map_map]; rfl
  · intro c hc
    obtain ⟨d, hd, e⟩ := List.mem_map.mp hc
    rw [← e]
    simp only [sandwich, (hm d hd).1]
    ring
  · intro c hc
    obtain ⟨d, hd, e⟩ := List.mem_map.mp hc
    rw [← e]
    simp only [sandwich, (hm d hd).1]
    ring

/-- Stretching a round Gaussian by 2 in x and shifting it. -/
example : applyAffine ([⟨1, 0, 0, 1, 0, 0, 1⟩] : Mix ℤ) (5, 6) ⟨2, 0, 0, 1⟩ = [⟨1, 5, 6, 4, 0, 0, 1⟩] := by decide
example : Central ([⟨1, 0, 0, 1, 0, 0, 1⟩] : Mix ℤ) := by simp [Central]

/-- **C80 (negation).** The mean of a Gaussian is not transformed by the matrix, so the transform of a mixture with means is
not the transformed one. -/
theorem C80_means_false :
    ∃ (m : Mix ℤ) (s : Mat ℤ) (v w : ℤ), (∀ c ∈ m, c.vxy = c.vyx) ∧
      transformMix exExp (applyShear m s) v w ≠ transformMix exExp m (s.xx * v + s.yx * w) (s.xy * v + s.yy * w) := by
  refine ⟨[⟨1, 1, 0, 0, 0, 0, 0⟩], ⟨2, 0, 0, 1⟩, 1, 0, by simp, ?_⟩
  simp [transformMix, transform, applyShear, sandwich, exExp]

/-- **C80.** `extend` adds transforms; `a + b` is the sum normalised to total amplitude one. -/
theorem C80_sum {F C : Type} [Field F] [CommRing C] [Algebra F C] (E : Exp F C) (a b : Mix F) (v w : F) :
    transformMix E (extend a b) v w = transformMix E a v w + transformMix E b v w ∧
    algebraMap F C (((a ++ b).map (·.amp)).sum⁻¹) * (transformMix E a v w + transformMix E b v w) =
      transformMix E (add a b) v w ∧
    (((a ++ b).map (·.amp)).sum ≠ 0 → ((add a b).map (·.amp)).sum = 1) := by
  have h1 : ∀ x z : Mix F, transformMix E (x ++ z) v w = transformMix E x v w + transformMix E z v w := by
    intro x z; unfold transformMix; rw [List.map_append, List.sum_append]
  refine ⟨h1 a b, ?_, fun h => ?_⟩
  · rw [← h1]
    unfold add normalize total transformMix
    rw [List.map_map, ← List.sum_map_mul_left]
    congr 1
    refine List.map_congr_left (fun c _ => ?_)
    simp only [Function.comp, transform, div_eq_mul_inv, map_mul]
    ring
  · unfold add normalize total
    rw [List.map_map]
    have : ((fun x : Comp F => x.amp) ∘ fun c : Comp F => { c with amp := c.amp / ((a ++ b).map (·.amp)).sum }) =
        fun c : Comp F => c.amp * (((a ++ b).map (·.amp)).sum)⁻¹ := by
      funext c; simp [div_eq_mul_inv]
    rw [this, List.sum_map_mul_right, mul_inv_cancel₀ h]

example : add ([⟨1, 0, 0, 1, 0, 0, 1⟩] : Mix ℚ) [⟨3, 1, 0, 2, 0, 0, 2⟩] =
    [⟨1 / 4, 0, 0, 1, 0, 0, 1⟩, ⟨3 / 4, 1, 0, 2, 0, 0, 2⟩] := by decide +kernel

/-! ### Concentric circular Gaussians -/

omit [CommRing R] [DecidableEq R] in
theorem thawed_all (l : List (R × Bool)) (h : ∀ x ∈ l, x.2 = true) : thawed l = l.map (·.1) := by
  unfold thawed; rw [List.filter_eq_self.mpr h]

omit [CommRing R] [DecidableEq R] in
theorem map_pair (l : List (R × Bool)) (h : ∀ x ∈ l, x.2 = true) : (l.map (·.1)).map (·, true) = l := by
  rw [List.map_map]
  conv_rhs => rw [← List.map_id l]
  refine List.map_congr_left (fun x hx => ?_)
  show (x.1, true) = x
  rw [← h x hx]

omit [DecidableEq R] in
/-- **C81 (in part).** For an `NCircularGaussianPSF` with nothing frozen: `copy()` is the same PSF and the hash key determines
the mixture.  Missing: frozen parameters (`C81_frozen_copy_false`, `C81_frozen_key_false`). -/
theorem C81_copy_partial (p q : NCirc R) (hp : p.sigmas.length = p.weights.length)
    (h1 : ∀ x ∈ p.sigmas, x.2 = true) (h2 : ∀ x ∈ p.weights, x.2 = true)
    (h3 : ∀ x ∈ q.sigmas, x.2 = true) (h4 : ∀ x ∈ q.weights, x.2 = true) :
    p.copy = .ok p ∧ (p.hashkey = q.hashkey → p.mog = q.mog) := by
  refine ⟨?_, fun h => ?_⟩
  · unfold NCirc.copy mkNCirc
    rw [thawed_all _ h1, thawed_all _ h2, if_pos (by simp [hp]), map_pair _ h1, map_pair _ h2]
  · unfold NCirc.hashkey at h
    rw [thawed_all _ h1, thawed_all _ h2, thawed_all _ h3, thawed_all _ h4, Prod.mk.injEq] at h
    unfold NCirc.mog
    rw [h.1, h.2]

omit [DecidableEq R] in
/-- **C81.** `scale(f)` multiplies the covariances by `f^2` and keeps the weights, whatever is frozen. -/
theorem C81_scale (p : NCirc R) (hp : p.sigmas.length = p.weights.length) (f : R) :
    ∃ q, p.scale f = .ok q ∧
      q.mog = p.mog.map (fun c => { c with vxx := f ^ 2 * c.vxx, vyy := f ^ 2 * c.vyy }) := by
  refine ⟨⟨p.sigmas.map (fun s => (s.1 * f, true)), p.weights.map (fun w => (w.1, true))⟩, ?_, ?_⟩
  · unfold NCirc.scale mkNCirc
    rw [if_pos (by simp [hp]), List.map_map, List.map_map]; rfl
  · unfold NCirc.mog
    simp only [List.map_map, List.map_zipWith]
    rw [List.zipWith_map, List.zipWith_map]
    congr 1
    funext w s
    simp only [Function.comp, Comp.mk.injEq, true_and]
    exact ⟨by ring, by ring⟩

example : (⟨[(1, true), (2, false)], [(3, true), (4, true)]⟩ : NCirc ℤ).mog = [⟨3, 0, 0, 1, 0, 0, 1⟩, ⟨4, 0, 0, 4, 0, 0, 4⟩] := by
  decide

/-- **C81 (negation).** A frozen sigma makes `copy()` fail; a frozen sigma and a frozen weight make it lose a
component. -/
theorem C81_frozen_copy_false :
    (⟨[(1, true), (2, false)], [(3, true), (4, true)]⟩ : NCirc ℤ).copy = .error .assertion ∧
    (⟨[(1, true), (2, false)], [(3, true), (4, false)]⟩ : NCirc ℤ).copy.map NCirc.mog = .ok [⟨3, 0, 0, 1, 0, 0, 1⟩] := by
  decide

/-- **C81 (negation).** Two PSFs that differ in a frozen sigma have the same hash key. -/
theorem C81_frozen_key_false :
    ∃ p q : NCirc ℤ, p.hashkey = q.hashkey ∧ p.mog ≠ q.mog :=
  ⟨⟨[(1, false)], [(1, true)]⟩, ⟨[(2, false)], [(1, true)]⟩, by decide, by decide⟩

end Verif.Mog
