import Verif.Psf.OverSpec
import Verif.Psf.Props
import Mathlib.Algebra.BigOperators.Group.List.Lemmas
import Mathlib.Algebra.BigOperators.Ring.List
import Mathlib.Algebra.Order.Group.Abs
import Mathlib.Algebra.Order.Ring.Abs
import Mathlib.Tactic.Ring
import Mathlib.Tactic.FieldSimp

/-!
# Lemmas about oversampled and normalised PSFs
-/

namespace Verif.Psf

variable {R V : Type} [Field R] [LinearOrder R]

/-! ### Sums -/

omit [LinearOrder R] in
theorem sumPix_map (A : Arr R) (c : R) : sumPix (A.map (fun v => v * c)) = sumPix A * c := by
  simp only [sumPix, Arr.ravel, Arr.map]
  induction List.range A.h with
  | nil => simp
  | cons r rs ih =>
    simp only [List.flatMap_cons, List.sum_append, add_mul, ih]
    rw [← List.sum_map_mul_right]

omit [LinearOrder R] in
theorem sumPix_zero (A : Arr R) (h : ∀ r c, A.px r c = 0) : sumPix A = 0 := by
  have e : A = A.map (fun v => v * 0) := by
    obtain ⟨a, b, f⟩ := A
    simp only [Arr.map, mul_zero, Arr.mk.injEq, true_and]
    funext r c; exact h r c
  rw [e, sumPix_map, mul_zero]

theorem normImg_mul (A : Arr R) : ∃ c, (0 < sumPix A → c = (sumPix A)⁻¹) ∧ (sumPix A = 0 → c = 1) ∧
    normImg A = A.map (fun v => v * c) := by
  unfold normImg
  by_cases h : sumPix A = 0
  · refine ⟨1, fun g => absurd h (ne_of_gt g), fun _ => rfl, ?_⟩
    rw [if_pos h]; simp [Arr.map]
  · exact ⟨(sumPix A)⁻¹, fun _ => rfl, fun g => absurd g h, by simp [h, div_eq_mul_inv]⟩

theorem sumPix_norm (A : Arr R) (h : sumPix A ≠ 0) : sumPix (normImg A) = 1 := by
  unfold normImg
  rw [if_neg h]
  simp only [div_eq_mul_inv, sumPix_map]
  exact mul_inv_cancel₀ h

theorem normImg_idem (A : Arr R) : normImg (normImg A) = normImg A := by
  by_cases h : sumPix A = 0
  · have : normImg A = A := by unfold normImg; rw [if_pos h]
    rw [this, this]
  · have e := sumPix_norm A h
    generalize normImg A = B at *
    unfold normImg
    rw [if_neg (by rw [e]; exact one_ne_zero), e]
    simp [Arr.map]

theorem normImg_h (A : Arr R) : (normImg A).h = A.h := by unfold normImg; split <;> rfl
theorem normImg_w (A : Arr R) : (normImg A).w = A.w := by unfold normImg; split <;> rfl

theorem normImg_px (A : Arr R) (r c : Nat) : (normImg A).px r c = if sumPix A = 0 then A.px r c else A.px r c / sumPix A := by
  unfold normImg; split <;> rfl

theorem normImg_scale (A : Arr R) (c : R) (hc : c ≠ 0) (h : sumPix A ≠ 0) :
    normImg (A.map (fun v => v * c)) = normImg A := by
  unfold normImg
  rw [sumPix_map, if_neg (mul_ne_zero h hc), if_neg h]
  simp only [Arr.map, Arr.mk.injEq, true_and]
  funext r k
  exact mul_div_mul_right _ _ hc

/-! ### Padding -/

omit [LinearOrder R] in
/-- Padding moves pixels, whatever their values. -/
theorem pad_form (H W h w : Nat) : ∃ (f : Nat → Nat → Option (Nat × Nat)) (cx cy : Nat), ∀ px : Nat → Nat → R,
    padInImage H W ⟨h, w, px⟩ = .ok (⟨H, W, fun r c => ((f r c).map (fun q => px q.1 q.2)).getD 0⟩, cx, cy) := by
  have hax : ∀ n p : Nat, ∃ s m y c, padAxis n p = (s, m, y, c) ∧ s + m ≤ p ∧ y + m ≤ n := by
    intro n p
    simp only [padAxis]
    split
    · exact ⟨_, _, _, _, rfl, by omega, by omega⟩
    · exact ⟨_, _, _, _, rfl, by omega, by omega⟩
  obtain ⟨sy, ny, y0, cy, ey, hy1, hy2⟩ := hax H h
  obtain ⟨sx, nx, x0, cx, ex, hx1, hx2⟩ := hax W w
  refine ⟨fun r c => if y0 ≤ r ∧ r < y0 + ny ∧ x0 ≤ c ∧ c < x0 + nx then some (sy + (r - y0), sx + (c - x0)) else none, cx, cy, ?_⟩
  intro px
  simp only [padInImage, ey, ex, Arr.modify, Arr.slice, Arr.zeros]
  simp only [axis_of h _ _ (show (0 : Int) ≤ (sy : Int) by omega)
      (show (0 : Int) ≤ ((sy + ny : Nat) : Int) by omega),
    axis_of w _ _ (show (0 : Int) ≤ (sx : Int) by omega)
      (show (0 : Int) ≤ ((sx + nx : Nat) : Int) by omega), Int.toNat_natCast]
  rw [show min (sy + ny) h - min sy h = ny by omega, show min (sx + nx) w - min sx w = nx by omega,
    show min sy h = sy by omega, show min sx w = sx by omega]
  simp only [axis_of H _ _ (show (0 : Int) ≤ (y0 : Int) by omega)
      (show (0 : Int) ≤ ((y0 + ny : Nat) : Int) by omega),
    axis_of W _ _ (show (0 : Int) ≤ (x0 : Int) by omega)
      (show (0 : Int) ≤ ((x0 + nx : Nat) : Int) by omega), Int.toNat_natCast]
  rw [show min (y0 + ny) H - min y0 H = ny by omega, show min (x0 + nx) W - min x0 W = nx by omega,
    show min y0 H = y0 by omega, show min x0 W = x0 by omega, if_pos ⟨rfl, rfl⟩]
  simp only [Except.map]
  congr 3
  funext r c
  by_cases g : y0 ≤ r ∧ r < y0 + ny ∧ x0 ≤ c ∧ c < x0 + nx
  · rw [if_pos g, if_pos g]; rfl
  · rw [if_neg g, if_neg g]; rfl

omit [LinearOrder R] in
theorem pad_scale (H W : Nat) (A : Arr R) (c : R) :
    padInImage H W (A.map (fun v => v * c)) = (padInImage H W A).map (fun p => (p.1.map (fun v => v * c), p.2)) := by
  obtain ⟨h, w, px⟩ := A
  obtain ⟨f, cx, cy, e⟩ := pad_form (R := R) H W h w
  simp only [Arr.map, e, Except.map]
  congr 3
  funext r k
  cases f r k <;> simp

/-! ### Transforms -/

section
variable [IsStrictOrderedRing R] [AddCommGroup V] [Module R V] {N : Numerics R V}

theorem normFft_scale (hN : Homogeneous N) (f : V) (c : R) (hc : 0 < c) (h : N.dc f ≠ 0) : normFft N (c • f) = normFft N f := by
  unfold normFft
  have hd : |N.dc f| ≠ 0 := abs_ne_zero.2 h
  rw [hN.dc, abs_mul, abs_of_pos hc, if_neg hd, if_neg (mul_ne_zero hc.ne' hd), smul_smul]
  congr 1
  field_simp

theorem dc_norm (hN : Homogeneous N) (f : V) (h : N.dc f ≠ 0) : |N.dc (normFft N f)| = 1 := by
  unfold normFft
  have hd : |N.dc f| ≠ 0 := abs_ne_zero.2 h
  rw [if_neg hd, hN.dc, abs_mul, abs_inv, abs_abs, inv_mul_cancel₀ hd]

theorem dc_norm_ne (f : V) (h : N.dc (normFft N f) ≠ 0) : N.dc f ≠ 0 := by
  intro e
  apply h
  unfold normFft
  rw [if_pos (by rw [e, abs_zero]), e]

theorem normFft_idem (hN : Homogeneous N) (f : V) : normFft N (normFft N f) = normFft N f := by
  by_cases h : N.dc f = 0
  · have : normFft N f = f := by unfold normFft; rw [if_pos (by rw [h, abs_zero])]
    rw [this, this]
  · have e := dc_norm hN f h
    generalize normFft N f = g at *
    unfold normFft
    rw [e, if_neg one_ne_zero, inv_one, one_smul]

/-! ### Histories -/

theorem sampleImage_scale (hN : Homogeneous N) (s : PixPsf R V) (hs : s.normalized = true) (img : Arr R) (c : R) (hc : 0 < c) (dx dy : R)
    (xlo ylo : Int) (w h : Nat) : ∃ c', 0 < c' ∧ sampleImage N s (img.map (fun v => v * c)) dx dy xlo ylo w h =
      (sampleImage N s img dx dy xlo ylo w h).map (fun v => v * c') := by
  have e : sampleGrid N s.sampling (img.map (fun v => v * c)) dx dy xlo ylo w h =
      (sampleGrid N s.sampling img dx dy xlo ylo w h).map (fun v => v * c) := by
    simp only [sampleGrid, Arr.map, Arr.mk.injEq, true_and]
    funext r k
    exact hN.interp img c _ _
  simp only [sampleImage, hs, if_true, e]
  by_cases h0 : sumPix (sampleGrid N s.sampling img dx dy xlo ylo w h) = 0
  · refine ⟨c, hc, ?_⟩
    simp only [normImg, sumPix_map, h0, zero_mul, if_true]
  · exact ⟨1, one_pos, by rw [normImg_scale _ c hc.ne' h0]; simp [Arr.map]⟩

/-- A multiple of the image has a multiple of the transform. -/
theorem compute_scale (hN : Homogeneous N) (s : PixPsf R V) (hs : s.normalized = true) (c : R) (hc : 0 < c) (key : Nat × Option (R × R)) :
    ∃ c' : R, 0 < c' ∧ computeFft N { s with img := s.img.map (fun v => v * c) } key =
      (computeFft N s key).map (fun f => { f with fft := c' • f.fft }) := by
  obtain ⟨sz, pos⟩ := key
  cases pos with
  | none =>
    refine ⟨c, hc, ?_⟩
    simp only [computeFft, pad_scale]
    cases padInImage sz sz s.img with
    | error e => rfl
    | ok p => simp only [Except.map, hN.fft]
  | some q =>
    obtain ⟨px, py⟩ := q
    simp only [computeFft]
    obtain ⟨c', hc', e⟩ := sampleImage_scale hN { s with img := s.img.map (fun v => v * c) } hs s.img c hc (px - N.trunc px) (py - N.trunc py)
      (-((s.nativeW / 2 : Nat) : Int)) (-((s.nativeH / 2 : Nat) : Int)) s.nativeW s.nativeH
    refine ⟨c', hc', ?_⟩
    rw [e, pad_scale]
    have e2 : sampleImage N { s with img := s.img.map (fun v => v * c) } = sampleImage N s := rfl
    rw [e2]
    cases padInImage sz sz (sampleImage N s s.img (px - N.trunc px) (py - N.trunc py) (-((s.nativeW / 2 : Nat) : Int))
      (-((s.nativeH / 2 : Nat) : Int)) s.nativeW s.nativeH) with
    | error e => rfl
    | ok p => simp only [Except.map, hN.fft]

/-- What holds of an object that began as `s`. -/
structure Began (N : Numerics R V) (s t : PixPsf R V) : Prop where
  sampling : t.sampling = s.sampling
  nativeW : t.nativeW = s.nativeW
  nativeH : t.nativeH = s.nativeH
  vary : t.vary = s.vary
  normalized : t.normalized = s.normalized
  img : t.img = s.img ∨ (s.normalized = true ∧ s.vary = none ∧ t.img = normImg s.img)
  cache : ∀ key f, find t.cache key = some f → ∃ f0, computeFft N s key = .ok f0 ∧ f = normEntry N s f0

omit [IsStrictOrderedRing R] in
theorem began_refl (s : PixPsf R V) (h : s.cache = []) : Began N s s :=
  ⟨rfl, rfl, rfl, rfl, rfl, .inl rfl, by intro key f e; rw [h] at e; simp [find] at e⟩

omit [IsStrictOrderedRing R] in
theorem image_began {s t : PixPsf R V} (b : Began N s t) (px py : R) :
    (getImage t px py).2 = (getImage s px py).2 ∧ Began N s (getImage t px py).1 := by
  unfold getImage
  rw [b.vary]
  cases hv : s.vary with
  | some v => exact ⟨by rw [b.normalized], b⟩
  | none =>
    simp only [b.normalized]
    by_cases hn : s.normalized = true
    · rw [if_pos hn, if_pos hn]
      have e : normImg t.img = normImg s.img := by
        rcases b.img with h | ⟨_, _, h⟩
        · rw [h]
        · rw [h, normImg_idem]
      refine ⟨e, ?_⟩
      exact ⟨b.sampling, b.nativeW, b.nativeH, hv.symm, rfl, .inr ⟨hn, hv, e⟩, b.cache⟩
    · rw [if_neg hn, if_neg hn]
      refine ⟨?_, b⟩
      rcases b.img with h | ⟨h, _⟩
      · exact h
      · exact absurd h hn

omit [IsStrictOrderedRing R] in
theorem patch_began {s t : PixPsf R V} (b : Began N s t) (px py : R) (rad : Option Nat) (mask : Option Mask) :
    (pointPatch N t px py rad mask).2 = (pointPatch N s px py rad mask).2 ∧ Began N s (pointPatch N t px py rad mask).1 := by
  obtain ⟨e, b'⟩ := image_began b px py
  have es : ∀ img dx dy xlo ylo w h, sampleImage N t img dx dy xlo ylo w h = sampleImage N s img dx dy xlo ylo w h := by
    intros; simp only [sampleImage, b.sampling, b.normalized]
  have eo : ∀ img, overPatch N t img px py rad mask = overPatch N s img px py rad mask := by
    intro img
    simp only [overPatch, es, b.nativeW, b.nativeH]
  unfold pointPatch
  simp only [b.sampling, e, eo]
  split <;> exact ⟨rfl, b'⟩

/-- What is computed for a key, normalised, does not depend on whether the image was. -/
theorem compute_began (hN : Homogeneous N) {s t : PixPsf R V} (b : Began N s t)
    (hp : s.normalized = true → s.vary = none → 0 ≤ sumPix s.img) (key : Nat × Option (R × R))
    (hk : s.normalized = true → s.vary = none → ∀ f, computeFft N s key = .ok f → N.dc f.fft ≠ 0) :
    (computeFft N t key).map (normEntry N t) = (computeFft N s key).map (normEntry N s) := by
  have en : normEntry N t = normEntry N s := by funext f; simp only [normEntry, b.normalized]
  have ec : computeFft N t key = computeFft N { s with img := t.img } key := by
    obtain ⟨sz, pos⟩ := key
    cases pos with
    | none => rfl
    | some q => simp only [computeFft, sampleImage, b.sampling, b.nativeW, b.nativeH, b.normalized]
  rw [en, ec]
  rcases b.img with h | ⟨hn, hv, h⟩
  · rw [h]
  · rw [h]
    obtain ⟨c, h1, h2, e⟩ := normImg_mul s.img
    have hc : 0 < c := by
      rcases (hp hn hv).lt_or_eq with g | g
      · rw [h1 g]; exact inv_pos.2 g
      · rw [h2 g.symm]; exact one_pos
    obtain ⟨c', hc', e'⟩ := compute_scale hN s hn c hc key
    rw [e, e']
    cases hf : computeFft N s key with
    | error x => rfl
    | ok f =>
      simp only [Except.map, normEntry, hn, if_true]
      rw [normFft_scale hN f.fft c' hc' (hk hn hv f hf)]

theorem normEntry_idem (hN : Homogeneous N) (s : PixPsf R V) (f : Fourier R V) : normEntry N s (normEntry N s f) = normEntry N s f := by
  unfold normEntry
  split
  · simp only [normFft_idem hN]
  · rfl

omit [IsStrictOrderedRing R] in
theorem cached_fresh (s : PixPsf R V) (h : s.cache = []) (key : Nat × Option (R × R)) :
    (cachedFft N s key).2 = (computeFft N s key).map (normEntry N s) := by
  unfold cachedFft
  rw [h]
  simp only [find, List.find?_nil, Option.map_none]
  cases computeFft N s key <;> rfl

theorem cached_began (hN : Homogeneous N) {s t : PixPsf R V} (b : Began N s t)
    (hp : s.normalized = true → s.vary = none → 0 ≤ sumPix s.img) (key : Nat × Option (R × R))
    (hk : s.normalized = true → s.vary = none → ∀ f, computeFft N s key = .ok f → N.dc f.fft ≠ 0) :
    (cachedFft N t key).2 = (computeFft N s key).map (normEntry N s) ∧ Began N s (cachedFft N t key).1 := by
  have en : normEntry N t = normEntry N s := by funext f; simp only [normEntry, b.normalized]
  have hins : ∀ f0, computeFft N s key = .ok f0 → Began N s { t with cache := (key, normEntry N s f0) :: t.cache } := by
    intro f0 h0
    refine ⟨b.sampling, b.nativeW, b.nativeH, b.vary, b.normalized, b.img, ?_⟩
    intro k f hf
    simp only [find, List.find?_cons] at hf
    by_cases hkk : key = k
    · subst hkk
      simp only [decide_true, Option.map_some, Option.some.injEq] at hf
      exact ⟨f0, h0, hf.symm⟩
    · simp only [decide_eq_false hkk] at hf
      exact b.cache k f hf
  unfold cachedFft
  cases hf : find t.cache key with
  | some f =>
    obtain ⟨f0, h0, e⟩ := b.cache key f hf
    simp only [en, e, normEntry_idem hN]
    exact ⟨by rw [h0]; rfl, hins f0 h0⟩
  | none =>
    have e := compute_began hN b hp key hk
    cases ht : computeFft N t key with
    | error x =>
      rw [ht] at e
      refine ⟨?_, b⟩
      rw [← e]; rfl
    | ok f =>
      rw [ht] at e
      cases h0 : computeFft N s key with
      | error x => rw [h0] at e; simp [Except.map] at e
      | ok f0 =>
        rw [h0] at e
        simp only [Except.map, Except.ok.injEq] at e
        simp only [e]
        exact ⟨rfl, hins f0 h0⟩

/-- A transform after any history. -/
theorem fourier_began (hN : Homogeneous N) {s t : PixPsf R V} (h0 : s.cache = []) (b : Began N s t)
    (hp : s.normalized = true → s.vary = none → 0 ≤ sumPix s.img) (px py : R)
    (sz : Nat) (hk : s.normalized = true → s.vary = none → ∀ f, (fourier N s px py sz).2 = .ok f → N.dc f.fft ≠ 0) :
    (fourier N t px py sz).2 = (fourier N s px py sz).2 ∧ Began N s (fourier N t px py sz).1 := by
  have main : ∀ key, (s.normalized = true → s.vary = none → ∀ f, (cachedFft N s key).2 = .ok f → N.dc f.fft ≠ 0) →
      (cachedFft N t key).2 = (cachedFft N s key).2 ∧ Began N s (cachedFft N t key).1 := by
    intro key hk
    rw [cached_fresh s h0]
    apply cached_began hN b hp
    intro hn hv f hf
    have := hk hn hv (normEntry N s f) (by rw [cached_fresh s h0, hf]; rfl)
    simp only [normEntry, hn, if_true] at this
    exact dc_norm_ne f.fft this
  unfold fourier at hk ⊢
  simp only [b.sampling, b.vary] at hk ⊢
  by_cases hs : s.sampling ≠ 1
  · simp only [if_pos hs] at hk ⊢
    exact main _ hk
  · simp only [if_neg hs] at hk ⊢
    cases hv : s.vary with
    | some v =>
      simp only []
      refine ⟨?_, b⟩
      have en : normEntry N t = normEntry N s := by funext f; simp only [normEntry, b.normalized]
      rw [en]
    | none =>
      simp only [hv] at hk ⊢
      exact main _ (by simpa [hv] using hk)

/-! ### Sums of eigen-images -/

omit [LinearOrder R] [IsStrictOrderedRing R] [AddCommGroup V] [Module R V] in
theorem mapM_pad (sz h w : Nat) (f : Nat → Nat → Option (Nat × Nat)) (cx cy : Nat)
    (e : ∀ px : Nat → Nat → R, padInImage sz sz ⟨h, w, px⟩ = .ok (⟨sz, sz, fun r c => ((f r c).map (fun q => px q.1 q.2)).getD 0⟩, cx, cy))
    (bs : List (Arr R)) (hb : ∀ b ∈ bs, b.h = h ∧ b.w = w) :
    bs.mapM (fun b => padInImage sz sz b) =
      .ok (bs.map (fun b => ((⟨sz, sz, fun r c => ((f r c).map (fun q => b.px q.1 q.2)).getD 0⟩ : Arr R), cx, cy))) := by
  induction bs with
  | nil => rfl
  | cons b bs ih =>
    obtain ⟨h', w', px⟩ := b
    have := hb _ (List.mem_cons_self ..)
    simp only at this
    obtain ⟨rfl, rfl⟩ := this
    rw [List.mapM_cons, e, ih (fun b hb' => hb b (List.mem_cons_of_mem _ hb'))]
    rfl

omit [LinearOrder R] [IsStrictOrderedRing R] in
theorem fft_sum (hN : Homogeneous N) (hA : Additive N) (sz : Nat) (G : Arr R → Nat → Nat → R) (l : List (R × Arr R)) :
    (l.map (fun tb => tb.1 • N.fft ⟨sz, sz, G tb.2⟩)).sum =
      N.fft ⟨sz, sz, fun r c => (l.map (fun tb => tb.1 * G tb.2 r c)).sum⟩ := by
  induction l with
  | nil => simp only [List.map_nil, List.sum_nil]; exact (hA.2 sz sz).symm
  | cons tb l ih =>
    simp only [List.map_cons, List.sum_cons, ih]
    rw [hA.1 sz sz (fun r c => tb.1 * G tb.2 r c), ← hN.fft]
    simp only [Arr.map]
    congr 4
    funext r c
    exact mul_comm _ _

omit [LinearOrder R] [IsStrictOrderedRing R] in
/-- The transform of a varying PSF is that of its image. -/
theorem varyFft_eq (hN : Homogeneous N) (hA : Additive N) (v : Vary R) (h w : Nat) (hb : ∀ b ∈ v.bases, b.h = h ∧ b.w = w)
    (hne : v.bases ≠ []) (px py : R) (sz : Nat) :
    varyFft N v px py sz = (padInImage sz sz (v.at px py)).map (fun p => ⟨N.fft p.1, p.2.1, p.2.2, sz⟩) := by
  obtain ⟨f, cx, cy, e⟩ := pad_form (R := R) sz sz h w
  have hh : v.at px py = ⟨h, w, (v.at px py).px⟩ := by
    obtain ⟨bs, t⟩ := v
    cases bs with
    | nil => exact absurd rfl hne
    | cons b bs =>
      have := hb b (List.mem_cons_self ..)
      simp only [Vary.at, List.map_cons, List.headD_cons, this.1, this.2]
  rw [hh, e]
  simp only [varyFft, mapM_pad sz h w f cx cy e v.bases hb]
  rw [List.getLast?_map]
  obtain ⟨l, hl⟩ : ∃ l, v.bases.getLast? = some l := by
    cases hq : v.bases.getLast? with
    | none => exact absurd (List.getLast?_eq_none_iff.1 hq) hne
    | some l => exact ⟨l, rfl⟩
  rw [hl]
  simp only [Option.map_some, Except.map, Except.ok.injEq, Fourier.mk.injEq, and_true]
  rw [List.zip_map_right, List.map_map]
  have := fft_sum hN hA sz (fun b r c => ((f r c).map (fun q => b.px q.1 q.2)).getD 0) (List.zip (v.terms px py) v.bases)
  refine Eq.trans ?_ (this.trans ?_)
  · rfl
  · congr 2
    funext r c
    cases f r c with
    | none => simp
    | some q => simp [Vary.at]

/-! ### Pixels -/

omit [LinearOrder R] [IsStrictOrderedRing R] [AddCommGroup V] [Module R V] in
theorem grid_px (N : Numerics R V) (sampling : R) (img : Arr R) (px py : R) (ix iy xlo ylo : Int) (w h r c : Nat) :
    (sampleGrid N sampling img (px - ix) (py - iy) xlo ylo w h).px r c =
      profile N.interp img sampling px py ((ix + xlo + c : Int) : R) ((iy + ylo + r : Int) : R) := by
  simp only [sampleGrid, profile]
  congr 1 <;> push_cast <;> ring

omit [IsStrictOrderedRing R] [AddCommGroup V] [Module R V] in
theorem sampleImage_h (N : Numerics R V) (s : PixPsf R V) (img : Arr R) (dx dy : R) (xlo ylo : Int) (w h : Nat) :
    (sampleImage N s img dx dy xlo ylo w h).h = h := by
  unfold sampleImage; split
  · rw [normImg_h]; rfl
  · rfl

omit [IsStrictOrderedRing R] [AddCommGroup V] [Module R V] in
theorem sampleImage_w (N : Numerics R V) (s : PixPsf R V) (img : Arr R) (dx dy : R) (xlo ylo : Int) (w h : Nat) :
    (sampleImage N s img dx dy xlo ylo w h).w = w := by
  unfold sampleImage; split
  · rw [normImg_w]; rfl
  · rfl

omit [Field R] [LinearOrder R] [IsStrictOrderedRing R] [AddCommGroup V] [Module R V] in
/-- Shape and pixels of a stamp cut to a radius, relative to the uncut one. -/
theorem cut_form (A : Arr R) (rad : Nat) :
    let x := (max (((A.w / 2 : Nat) : Int) - rad) 0).toNat
    let y := (max (((A.h / 2 : Nat) : Int) - rad) 0).toNat
    (cut A (some rad)).w = min (A.w / 2 + rad + 1) (A.w - 1) - min x A.w ∧
    (cut A (some rad)).h = min (A.h / 2 + rad + 1) (A.h - 1) - min y A.h ∧
    ∀ r c, (cut A (some rad)).px r c = A.px (min y A.h + r) (min x A.w + c) := by
  obtain ⟨h, w, f⟩ := A
  simp only [cut, Arr.slice]
  by_cases hh : h = 0
  · by_cases hw : w = 0
    · subst hh hw
      simp [Arr.axis, Arr.bound]
    · subst hh
      rw [axis_of w _ _ (by omega) (by omega)]
      simp only [Arr.axis, Arr.bound, Option.map_some, Option.getD_some]
      refine ⟨by omega, by simp, ?_⟩
      intro r c
      congr 1; simp
  · by_cases hw : w = 0
    · subst hw
      rw [axis_of h _ _ (by omega) (by omega)]
      simp only [Arr.axis, Arr.bound, Option.map_some, Option.getD_some]
      refine ⟨by simp, by omega, ?_⟩
      intro r c
      congr 1; simp
    · rw [axis_of h _ _ (by omega) (by omega), axis_of w _ _ (by omega) (by omega)]
      refine ⟨by simp only []; omega, by simp only []; omega, ?_⟩
      intro r c
      congr 1

end

end Verif.Psf
