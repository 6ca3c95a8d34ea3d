import Verif.Gpu.ProfLemmas3
import Mathlib.Analysis.SpecialFunctions.Trigonometric.Basic

/-!
# C110: galaxies on the GPU
-/

namespace Verif.Gpu

open Verif Verif.Psf Verif.Mog Verif.Params Verif.Opt

section
variable {R : Type} [Field R] [LinearOrder R] [IsStrictOrderedRing R]

/-- **C110.** `gpu_get_unitflux_galaxy_profiles`, for any images and profiles with any numbers of components in any order:
no assertion fails, and the array for each image and profile is the mixture convolved with the PSF - every component with
its share drawn as Gaussians, the rest with the transform - moved by the subpixel shifts with the Lanczos filter. -/
theorem C110_profiles (E : Lib R) (hs : ∀ x, 0 ≤ x → 0 ≤ E.sqrt x ∧ E.sqrt x ^ 2 = x) (lz : R → R)
    (junk : Nat → Nat → Nat → Nat → R) (sz : Nat) (h6 : 6 ≤ sz) (psfs : List (ImPsf R)) (mogs : List (List (Mix R)))
    (hg : GoodBatch psfs mogs) (hl : ∃ l ∈ mogs, ∃ m ∈ l, ∃ c ∈ m, c.amp ≠ 0) (mux muy : Nat → Nat → R) :
    ∃ G, galaxyProfiles E lz junk sz psfs mogs mux muy = .ok G ∧ G.length = mogs.length ∧
      ∀ (i j : Nat) (p : ImPsf R) (l : List (Mix R)) (mix : Mix R), psfs[i]? = some p → mogs[i]? = some l →
        l[j]? = some mix → ∃ row A, G[i]? = some row ∧ row[j]? = some A ∧ A.h = sz ∧ A.w = sz ∧ ∀ r c, r < sz → c < sz →
          A.px r c = shiftedImage (kernPy lz) (profileOf E sz p mix) (mux i j) (muy i j) r c := by
  obtain ⟨G, e, h1, h2⟩ := profiles_ok E hs lz junk sz h6 psfs mogs hg hl mux muy
  refine ⟨G, e, h1, ?_⟩
  intro i j p l mix hp hi hj
  obtain ⟨row, r1, -, r3⟩ := h2 i p hp
  have hjn : j < nProf mogs := lt_of_lt_of_le (List.getElem?_eq_some_iff.mp hj).1
    (le_foldl_max _ _ _ (.inr (List.mem_map_of_mem (List.mem_iff_getElem?.mpr ⟨i, hi⟩))))
  obtain ⟨A, a1, a2, a3, a4⟩ := r3 j hjn
  have em : (mogs.getD i []).getD j [] = mix := by
    rw [List.getD_eq_getElem?_getD, List.getD_eq_getElem?_getD, hi, Option.getD_some, hj, Option.getD_some]
  rw [em] at a4
  exact ⟨row, A, r1, a1, a2, a3, a4⟩

/-- **C110 (batches).** The array for an image and a profile does not depend on the other images and profiles computed
with it, nor on what was in the memory before. -/
theorem C110_batch (E : Lib R) (hs : ∀ x, 0 ≤ x → 0 ≤ E.sqrt x ∧ E.sqrt x ^ 2 = x) (lz : R → R)
    (junk junk' : Nat → Nat → Nat → Nat → R) (sz : Nat) (h6 : 6 ≤ sz) (psfs psfs' : List (ImPsf R))
    (mogs mogs' : List (List (Mix R))) (hg : GoodBatch psfs mogs) (hg' : GoodBatch psfs' mogs')
    (hl : ∃ l ∈ mogs, ∃ m ∈ l, ∃ c ∈ m, c.amp ≠ 0) (hl' : ∃ l ∈ mogs', ∃ m ∈ l, ∃ c ∈ m, c.amp ≠ 0)
    (mux muy mux' muy' : Nat → Nat → R) (i j i' j' : Nat) (p : ImPsf R) (l l' : List (Mix R)) (mix : Mix R)
    (h1 : psfs[i]? = some p) (h1' : psfs'[i']? = some p) (h2 : mogs[i]? = some l) (h2' : mogs'[i']? = some l')
    (h3 : l[j]? = some mix) (h3' : l'[j']? = some mix) (h4 : mux i j = mux' i' j') (h5 : muy i j = muy' i' j') :
    ∃ G G' row row' A A', galaxyProfiles E lz junk sz psfs mogs mux muy = .ok G ∧
      galaxyProfiles E lz junk' sz psfs' mogs' mux' muy' = .ok G' ∧ G[i]? = some row ∧ G'[i']? = some row' ∧
      row[j]? = some A ∧ row'[j']? = some A' ∧ A.h = A'.h ∧ A.w = A'.w ∧
      ∀ r c, r < A.h → c < A.w → A.px r c = A'.px r c := by
  obtain ⟨G, e, -, g⟩ := C110_profiles E hs lz junk sz h6 psfs mogs hg hl mux muy
  obtain ⟨G', e', -, g'⟩ := C110_profiles E hs lz junk' sz h6 psfs' mogs' hg' hl' mux' muy'
  obtain ⟨row, A, a1, a2, a3, a4, a5⟩ := g i j p l mix h1 h2 h3
  obtain ⟨row', A', b1, b2, b3, b4, b5⟩ := g' i' j' p l' mix h1' h2' h3'
  refine ⟨G, G', row, row', A, A', e, e', a1, b1, a2, b2, by omega, by omega, fun r c hr hc => ?_⟩
  rw [a5 r c (by omega) (by omega), b5 r c (by omega) (by omega), h4, h5]

/-- **C110 (CPU).** The two parts are those into which the CPU code splits the mixture (C97, with its default radii). -/
theorem C110_cpu (E : Lib R) (hs : ∀ x, 0 ≤ x → 0 ≤ E.sqrt x ∧ E.sqrt x ^ 2 = x) (sz : Nat) (h0 : 0 < sz) (p : ImPsf R)
    (mix : Mix R) (hc : ∀ c ∈ mix, Semidefinite c) (px py : R) (r q : Nat) :
    ∃ mm ff, Gal.split E.sqrt sz 3 4 px py mix = .ok (mm, ff) ∧
      (profileOf E sz p mix).px r q = Gal.sumOf (fun c => p.back (gaussFT E c) r q) ff +
        Gal.sumOf (fun c => (p.mog.map (fun d => d.amp * density E c d (q - ((sz / 2 : Nat) : R))
          (r - ((sz / 2 : Nat) : R)))).sum) mm := by
  have htr : ∀ c ∈ mix, 0 ≤ Gal.trace c := fun c h => add_nonneg (hc c h).1 (hc c h).2.1
  refine ⟨_, _, Gal.C97_split E.sqrt hs sz h0 3 4 px py (by norm_num) (by norm_num) (by norm_num) mix htr, ?_⟩
  have rng : ∀ c ∈ mix, 0 ≤ Gal.share ((sz : R) / 2) 3 4 (E.sqrt (Gal.trace c)) ∧
      Gal.share ((sz : R) / 2) 3 4 (E.sqrt (Gal.trace c)) ≤ 1 := by
    intro c hcm
    have hpw : (1 : R) ≤ sz := by exact_mod_cast h0
    exact Gal.share_range _ _ _ _ (by norm_num) (hs _ (htr c hcm)).1 (by linarith)
  have e : ∀ (f : Comp R → R) (l : Mix R), Gal.sumOf f (Gal.orNone l) = (l.map (fun c => c.amp * f c)).sum := by
    intro f l
    unfold Gal.orNone Gal.sumOf
    by_cases h : l.isEmpty = true
    · rw [if_pos h]
      have : l = [] := by simpa using h
      rw [this]; rfl
    · rw [if_neg h]; rfl
  rw [e, e, List.map_map, List.map_map]
  have e1 : ((fun c : Comp R => c.amp * (p.mog.map (fun d => d.amp * density E c d (q - ((sz / 2 : Nat) : R))
          (r - ((sz / 2 : Nat) : R)))).sum) ∘ fun c : Comp R =>
      { c with amp := c.amp * Gal.share ((sz : R) / 2) 3 4 (E.sqrt (Gal.trace c)), mx := c.mx + px, my := c.my + py }) =
      fun c => c.amp * Gal.share ((sz : R) / 2) 3 4 (E.sqrt (Gal.trace c)) *
        (p.mog.map (fun d => d.amp * density E c d (q - ((sz / 2 : Nat) : R)) (r - ((sz / 2 : Nat) : R)))).sum := by
    funext c; rfl
  have e2 : ((fun c : Comp R => c.amp * p.back (gaussFT E c) r q) ∘ fun c : Comp R =>
      { c with amp := c.amp * (1 - Gal.share ((sz : R) / 2) 3 4 (E.sqrt (Gal.trace c))) }) =
      fun c => c.amp * (1 - Gal.share ((sz : R) / 2) 3 4 (E.sqrt (Gal.trace c))) * p.back (gaussFT E c) r q := by
    funext c; rfl
  rw [e1, e2, Gal.sum_filter_map, Gal.sum_filter_map]
  · unfold profileOf hybrid Gal.trace
    simp only
    clear rng htr hc
    induction mix with
    | nil => simp
    | cons c mix ih =>
      simp only [List.map_cons, List.sum_cons]
      rw [ih]
      ring
  · intro c hcm h
    have h : ¬ (0 : R) < _ := of_decide_eq_false h
    rw [le_antisymm (not_lt.mp h) (rng c hcm).1, mul_zero, zero_mul]
  · intro c hcm h
    have h : ¬ _ < (1 : R) := of_decide_eq_false h
    rw [le_antisymm (rng c hcm).2 (not_lt.mp h), sub_self, mul_zero, zero_mul]

omit [IsStrictOrderedRing R] in
/-- **C110 (no light).** A batch in which every amplitude is zero ends in an exception. -/
theorem C110_dark (E : Lib R) (lz : R → R) (junk : Nat → Nat → Nat → Nat → R) (sz : Nat) (psfs : List (ImPsf R))
    (mogs : List (List (Mix R))) (hne : ∃ l ∈ mogs, l ≠ []) (h0 : ∀ l ∈ mogs, ∀ m ∈ l, ∀ c ∈ m, c.amp = 0)
    (mux muy : Nat → Nat → R) : galaxyProfiles E lz junk sz psfs mogs mux muy = .error .attribute := by
  have hz : ∀ i j k, (compAt mogs i j k).amp = 0 := by
    intro i j k
    rcases compAt_mem mogs i j k with h | ⟨l, hl, m, hm, h⟩
    · rw [h]; rfl
    · exact h0 l hl m hm _ h
  have e1 : hotK (inMogs sz) mogs = [] := by
    rw [List.eq_nil_iff_forall_not_mem]
    intro k hk
    obtain ⟨-, i, -, j, -, h⟩ := (mem_hotK _ _ _).mp hk
    simp [inMogs, hz] at h
  have e2 : hotK (inFfts sz) mogs = [] := by
    rw [List.eq_nil_iff_forall_not_mem]
    intro k hk
    obtain ⟨-, i, -, j, -, h⟩ := (mem_hotK _ _ _).mp hk
    simp [inFfts, hz] at h
  have n1 : nMogOf sz mogs = 0 := by unfold nMogOf; rw [e1]; rfl
  have n2 : nFftOf sz mogs = 0 := by unfold nFftOf; rw [e2]; rfl
  obtain ⟨l, hl, hn⟩ := hne
  have hj : l.length ≤ nProf mogs := le_foldl_max _ _ _ (.inr (List.mem_map_of_mem hl))
  have hl0 : 0 < l.length := List.length_pos_iff.mpr hn
  have hm0 : 0 < mogs.length := List.length_pos_iff.mpr (by rintro rfl; simp at hl)
  unfold galaxyProfiles
  rw [if_neg (by omega)]
  simp only [n1, n2, e1, e2]
  rw [if_neg (by simp), if_neg (by
    rintro (h | h)
    · exact h (count_from _ _ _ (by simp) (by rw [e1]; simp))
    · exact h (count_to _ _ _ (by simp) (by rw [e2]; simp))), if_pos (by simp)]

/-! ### Galaxies in the line search -/

/-- A tractor with one galaxy. -/
def galaxyJob (lib : Nat → Lib R) (lz : R → R) (junk : Nat → Nat → Nat → Nat → R) (psf : Nat → Tim R → ImPsf R)
    (prof : Par R → Tim R → Mix R) (pos : Par R → Tim R → R × R) (cnt : Par R → Tim R → R)
    (sb : Option (Par R → Tim R → R)) (prior : Par R → Num R) (tims : List (Tim R)) : Job R :=
  ⟨tims, some (galaxySource lib lz junk psf prof pos cnt), sb, prior⟩

/-- The model of the galaxy in the pixel in column `x`, row `y`: the convolved profile on an array of size `sz` whose centre
is the pixel nearest to the galaxy, moved by the rest of its position; nothing outside the array. -/
def galaxyModel (rnd : R → Int) (lib : Nat → Lib R) (lz : R → R) (psf : Nat → Tim R → ImPsf R)
    (prof : Par R → Tim R → Mix R) (pos : Par R → Tim R → R × R) (cnt : Par R → Tim R → R) (sz : Nat) (par : Par R)
    (tim : Tim R) (x y : Int) : R :=
  cnt par tim * ext ⟨sz, sz, fun r c => shiftedImage (kernPy lz) (profileOf (lib sz) sz (psf sz tim) (prof par tim))
      ((pos par tim).1 - rnd (pos par tim).1) ((pos par tim).2 - rnd (pos par tim).2) r c⟩
    (y - rnd (pos par tim).2 + (sz / 2 : Nat)) (x - rnd (pos par tim).1 + (sz / 2 : Nat))

/-- PSFs and profiles of a galaxy in the images. -/
structure GoodGalaxy (lib : Nat → Lib R) (psf : Nat → Tim R → ImPsf R) (prof : Par R → Tim R → Mix R)
    (tims : List (Tim R)) : Prop where
  sqrt : ∀ sz x, 0 ≤ x → 0 ≤ (lib sz).sqrt x ∧ (lib sz).sqrt x ^ 2 = x
  semi : ∀ par, ∀ tim ∈ tims, ∀ c ∈ prof par tim, Semidefinite c
  light : ∀ par, ∀ tim ∈ tims, ∃ c ∈ prof par tim, c.amp ≠ 0
  definite : ∀ sz, ∀ tim ∈ tims, ∀ c ∈ (psf sz tim).mog, Definite c
  lin : ∀ sz, ∀ tim ∈ tims, Linear (psf sz tim).back

theorem renders_galaxy (rnd : R → Int) (lib : Nat → Lib R) (lz : R → R) (junk : Nat → Nat → Nat → Nat → R)
    (psf : Nat → Tim R → ImPsf R) (prof : Par R → Tim R → Mix R) (pos : Par R → Tim R → R × R) (cnt : Par R → Tim R → R)
    (sb : Option (Par R → Tim R → R)) (prior : Par R → Num R) (tims : List (Tim R)) (hg : GoodGalaxy lib psf prof tims)
    (P : Params R) (h12 : 12 ≤ P.sz) (cen : Tim R → Int × Int) (hl : Laid tims P cen) (par : Par R) :
    Renders rnd (galaxyJob lib lz junk psf prof pos cnt sb prior tims) P
      (galaxyModel rnd lib lz psf prof pos cnt P.sz) par := by
  intro i tim p a1 a2
  have hmem : tim ∈ tims := List.mem_iff_getElem?.mpr ⟨i, a1⟩
  have lay := hl.each i tim p a1 a2
  obtain ⟨q1, -, -, -, -, -⟩ := lay.shapes
  obtain ⟨o1, o2⟩ := lay.origin
  obtain ⟨ce1, ce2⟩ := lay.centre
  obtain ⟨px, py, hpos⟩ : ∃ px py, pos par tim = (px, py) := ⟨_, _, rfl⟩
  have eS : shotVal rnd (galaxyJob lib lz junk psf prof pos cnt sb prior tims) par tim p =
      ⟨rnd px - p.ipx, rnd py - p.ipy, px - rnd px, py - rnd py, cnt par tim,
        sbOf (galaxyJob lib lz junk psf prof pos cnt sb prior tims) par tim⟩ := by
    simp [shotVal, galaxyJob, galaxySource, hpos]
  rw [eS]
  have gb : GoodBatch [psf P.sz tim] [[prof par tim]] := by
    refine ⟨rfl, ?_, ?_, ?_⟩
    · intro l hl m hm c hcm
      rw [List.mem_singleton] at hl
      subst hl
      rw [List.mem_singleton] at hm
      subst hm
      exact hg.semi par tim hmem c hcm
    · intro q hq
      rw [List.mem_singleton] at hq
      subst hq
      exact hg.definite _ tim hmem
    · intro q hq
      rw [List.mem_singleton] at hq
      subst hq
      exact hg.lin _ tim hmem
  obtain ⟨G, e, g1, g2⟩ := profiles_ok (lib P.sz) (hg.sqrt P.sz) lz junk P.sz (by omega) [psf P.sz tim] [[prof par tim]] gb
    (by
      obtain ⟨c, h1, h2⟩ := hg.light par tim hmem
      exact ⟨[prof par tim], by simp, prof par tim, by simp, c, h1, h2⟩) (fun _ _ => px - rnd px) (fun _ _ => py - rnd py)
  obtain ⟨row, r1, r2, r3⟩ := g2 0 (psf P.sz tim) rfl
  obtain ⟨W, w1, w2, w3, w4⟩ := r3 0 (by simp [nProf])
  have eG : G = [[W]] := by
    obtain ⟨row', rfl⟩ := List.length_eq_one_iff.mp g1
    have er : row' = row := by simpa using r1
    subst er
    obtain ⟨W', rfl⟩ := List.length_eq_one_iff.mp (show row'.length = 1 by rw [r2]; rfl)
    have ew : W' = W := by simpa using w1
    subst ew
    rfl
  refine ⟨W.map (· * cnt par tim), ?_, by simp only [Arr.map]; omega, by simp only [Arr.map]; omega, ?_⟩
  · simp only [sourceModel, galaxyJob, galaxySource, q1, e, eG, bind, Except.bind]
  · intro x y hin h0
    simp only [galaxyModel, hpos]
    rw [show y - p.pady0 - (rnd py - p.ipy) = y - rnd py + (P.sz / 2 : Nat) by omega,
      show x - p.padx0 - (rnd px - p.ipx) = x - rnd px + (P.sz / 2 : Nat) by omega]
    unfold ext
    simp only [Arr.map, w2, w3]
    by_cases h : 0 ≤ y - rnd py + (P.sz / 2 : Nat) ∧ y - rnd py + (P.sz / 2 : Nat) < P.sz ∧
        0 ≤ x - rnd px + (P.sz / 2 : Nat) ∧ x - rnd px + (P.sz / 2 : Nat) < P.sz
    · rw [if_pos h, if_pos h, mul_comm]
      congr 1
      exact w4 _ _ (by omega) (by omega)
    · rw [if_neg h, if_neg h, mul_zero]

omit [IsStrictOrderedRing R] in
theorem tooFar_galaxy (lib : Nat → Lib R) (lz : R → R) (junk : Nat → Nat → Nat → Nat → R)
    (psf : Nat → Tim R → ImPsf R) (prof : Par R → Tim R → Mix R) (pos : Par R → Tim R → R × R) (cnt : Par R → Tim R → R)
    (sb : Option (Par R → Tim R → R)) (prior : Par R → Num R) (tims : List (Tim R)) (par : Par R) :
    tooFar (galaxyJob lib lz junk psf prof pos cnt sb prior tims) par =
      tooFar (pointJob lz (junk 0 0) (junk 0 0) pos cnt sb prior tims) par := rfl

/-- **C110 (line search).** `gpu_one_source_try_updates` for a galaxy ends at the best of the steps it visits for the
log-probability of the masked images with the model of the galaxy on arrays of the size chosen at the start, or at the start
if none is better; the gain returned is the difference. -/
theorem C110_search (rnd : R → Int) (hr : ∀ x, |x - rnd x| ≤ 1 / 2) (lib : Nat → Lib R) (lz : R → R)
    (junk : Nat → Nat → Nat → Nat → R) (psf : Nat → Tim R → ImPsf R) (prof : Par R → Tim R → Mix R)
    (pos : Par R → Tim R → R × R) (cnt : Par R → Tim R → R) (sb : Option (Par R → Tim R → R)) (prior : Par R → Num R)
    (tims : List (Tim R)) (hg : GoodGalaxy lib psf prof tims) (hne : tims ≠ []) (hf : ∀ tim ∈ tims, Fits tim) (tiny : R)
    (htiny : 0 < tiny) (fl : OptFlags) (t : Par R) (ht : Legal t) (X alphas : List R) (hX : X.length = numberOfParams t)
    (hinc : increasing alphas = true) (q0 : R) (hq : prior t = .fin q0) (hnear : Near tims pos t) :
    ∃ (P : Params R) (t' : Par R) (fl' : OptFlags) (d a : R), getImageParams rnd none tims (pos t) = .ok P ∧
      oneSourceTryUpdates rnd tiny (galaxyJob lib lz junk psf prof pos cnt sb prior tims) none fl t X alphas =
        (t', fl', none, .ok (.fin d, a)) ∧
      Found (objective (galaxyJob lib lz junk psf prof pos cnt sb prior tims)
        (galaxyModel rnd lib lz psf prof pos cnt P.sz)) (Near tims pos) tiny t X alphas t' d a ∧ Legal t' := by
  obtain ⟨P, e, ⟨-, h2, -⟩, h3, h4⟩ := params_ok rnd tims (pos t) hne hf
  have hl : Laid tims P (fun tim => (rnd (pos t tim).1, rnd (pos t tim).2)) := ⟨h3, h4⟩
  have hfar : ∀ par, tooFar (galaxyJob lib lz junk psf prof pos cnt sb prior tims) par = false ↔ Near tims pos par := by
    intro par
    rw [tooFar_galaxy]
    exact tooFar_iff lz _ _ pos cnt sb prior tims par
  obtain ⟨t', fl', d, a, r1, r2, r3, -⟩ := body_found rnd hr tiny htiny
    (galaxyJob lib lz junk psf prof pos cnt sb prior tims) P (galaxyModel rnd lib lz psf prof pos cnt P.sz) _ hl hf false fl
    t ht X alphas hX hinc q0 hq ((hfar t).mpr hnear) (.inl rfl)
    (renders_galaxy rnd lib lz junk psf prof pos cnt sb prior tims hg P h2 _ hl t)
    (fun _ _ _ _ _ => renders_galaxy rnd lib lz junk psf prof pos cnt sb prior tims hg P h2 _ hl _)
  refine ⟨P, t', fl', d, a, e, ?_, ?_, r3⟩
  · unfold oneSourceTryUpdates
    rw [if_neg (by simpa [galaxyJob] using hne)]
    have e' : getImageParams rnd none (galaxyJob lib lz junk psf prof pos cnt sb prior tims).tims
        (startPos (galaxyJob lib lz junk psf prof pos cnt sb prior tims) t) = .ok P := e
    rw [e']
    simp only [Option.isSome_none]
    rw [r1]
  · simpa only [hfar] using r2

end

/-! ## Examples -/

noncomputable section

/-- The functions of the library for arrays of the given size. -/
def exLib (sz : Nat) : Lib ℝ := ⟨Real.sqrt, Real.exp, Real.pi, fun b => b / sz, fun a => a / sz⟩

theorem exLib_sqrt (sz : Nat) (x : ℝ) (hx : 0 ≤ x) : 0 ≤ (exLib sz).sqrt x ∧ (exLib sz).sqrt x ^ 2 = x :=
  ⟨Real.sqrt_nonneg x, Real.sq_sqrt hx⟩

/-- A PSF whose transform is real and constant, with a round Gaussian as its mixture. -/
def exPsf : ImPsf ℝ := ⟨fun F r q => 2 * F r q, [⟨1, 0, 0, 1, 0, 0, 1⟩]⟩

theorem exPsf_ok : (∀ c ∈ exPsf.mog, Definite c) ∧ Linear exPsf.back := by
  constructor
  · intro c hc
    rw [exPsf, List.mem_singleton] at hc
    subst hc
    refine ⟨by norm_num, by norm_num, by norm_num⟩
  · intro F G a r q
    simp only [exPsf]
    ring

/-- A large component before one without extent. -/
def exGal : Mix ℝ := [⟨1 / 2, 0, 0, 9, 1, 1, 4⟩, ⟨3, 0, 0, 0, 0, 0, 0⟩]

theorem exGal_ok : ∀ c ∈ exGal, Semidefinite c := by
  intro c hc
  simp only [exGal, List.mem_cons, List.not_mem_nil, or_false] at hc
  rcases hc with rfl | rfl <;> exact ⟨by norm_num, by norm_num, by norm_num⟩

/-- Two images with two profiles of different lengths each, in arrays of 8 by 8 pixels. -/
example (lz : ℝ → ℝ) (mux muy : Nat → Nat → ℝ) : ∃ G row A,
    galaxyProfiles (exLib 8) lz (fun _ _ _ _ => 77) 8 [exPsf, exPsf] [[exGal, exGal.tail], [exGal.tail, exGal]] mux muy = .ok G ∧
      G[1]? = some row ∧ row[0]? = some A ∧ A.px 3 5 =
        shiftedImage (kernPy lz) (profileOf (exLib 8) 8 exPsf exGal.tail) (mux 1 0) (muy 1 0) 3 5 := by
  obtain ⟨G, e, -, h⟩ := C110_profiles (exLib 8) (exLib_sqrt 8) lz (fun _ _ _ _ => 77) 8 (by omega) [exPsf, exPsf]
    [[exGal, exGal.tail], [exGal.tail, exGal]]
    ⟨rfl, by
      have ht : ∀ c ∈ exGal.tail, Semidefinite c := fun c hc => exGal_ok c (List.mem_of_mem_tail hc)
      simp only [List.mem_cons, List.not_mem_nil, or_false, forall_eq_or_imp, forall_eq]
      exact ⟨⟨exGal_ok, ht⟩, ht, exGal_ok⟩, by simpa using exPsf_ok.1, by simpa using exPsf_ok.2⟩
    ⟨_, List.mem_cons_self, _, List.mem_cons_self, ⟨1 / 2, 0, 0, 9, 1, 1, 4⟩, List.mem_cons_self, by norm_num⟩ mux muy
  obtain ⟨row, A, a1, a2, a3, a4, a5⟩ := h 1 0 exPsf [exGal.tail, exGal] exGal.tail rfl rfl rfl
  exact ⟨G, row, A, e, a1, a2, a5 3 5 (by omega) (by omega)⟩

/-- The part without extent is all in the transform: three times the PSF. -/
example : (profileOf (exLib 8) 8 exPsf exGal.tail).px 3 5 = 6 := by
  have hsh : Gal.share ((8 : ℝ) / 2) 3 4 0 = 0 := by
    unfold Gal.share
    norm_num
  simp [profileOf, exGal, hybrid, exLib, exPsf, gaussFT, hsh]
  norm_num

/-- The large one is all drawn as a Gaussian. -/
example : (profileOf (exLib 8) 8 exPsf [⟨1 / 2, 0, 0, 9, 1, 1, 4⟩]).px 4 4 = 1 / 2 / (2 * Real.pi * Real.sqrt 49) := by
  have h : (3 : ℝ) ≤ Real.sqrt 13 := Real.le_sqrt_of_sq_le (by norm_num)
  have hsh : Gal.share ((8 : ℝ) / 2) 3 4 (Real.sqrt (9 + 4)) = 1 := by
    unfold Gal.share
    rw [if_pos (by rw [show (9 : ℝ) + 4 = 13 by norm_num]; linarith)]
  simp [profileOf, hybrid, exLib, exPsf, density]
  rw [hsh]
  norm_num
  ring

/-- Zero flux in all components. -/
example (lz : ℝ → ℝ) : galaxyProfiles (exLib 8) lz (fun _ _ _ _ => 77) 8 [exPsf] [[[⟨0, 0, 0, 1, 0, 0, 1⟩]]]
    (fun _ _ => 0) (fun _ _ => 0) = .error .attribute :=
  C110_dark _ _ _ _ _ _ ⟨_, List.mem_cons_self, by simp⟩ (by
    simp only [List.mem_singleton, forall_eq]) _ _

/-- An image of 8 by 10 pixels with a mask of 3 by 2 pixels. -/
def exTimR : Tim ℝ :=
  { pix := ⟨8, 10, fun r c => 10 * r + c⟩, ie := ⟨8, 10, fun _ c => if c = 5 then 0 else 1⟩,
    psf := Arr.ofLists [[1]] 1, x0 := 4, x1 := 7, y0 := 3, y1 := 5, supported := true }

/-- Position and flux. -/
def starR (x y f : ℝ) : Par ℝ :=
  .plist ⟨[⟨["x"], true, x⟩, ⟨["y"], true, y⟩, ⟨["flux"], true, f⟩], [none, none, some 0], [none, none, none],
    [none, none, none], none, []⟩

theorem starR_legal (x y f : ℝ) (hf : 0 ≤ f) : Legal (starR x y f) := by
  have e1 : getParams (starR x y f) = [x, y, f] := rfl
  have e2 : getLowerBounds (starR x y f) = [none, none, some 0] := rfl
  have e3 : getUpperBounds (starR x y f) = [none, none, none] := rfl
  have e4 : getMaxStep (starR x y f) = [none, none, none] := rfl
  refine ⟨rfl, rfl, rfl, ?_, ?_⟩
  · rw [e1, e2, e3]
    intro i p l u h1 h2 h3
    match i with
    | 0 | 1 | 2 =>
      simp only [List.getElem?_cons_zero, List.getElem?_cons_succ, Option.some.injEq] at h1 h2 h3
      subst h1 h2 h3
      constructor <;> intro b hb <;> simp at hb
      try (subst hb; exact hf)
    | i + 3 => simp at h1
  · rw [e4]
    intro m hm x hx
    subst hx
    simp at hm

def galPos (t : Par ℝ) (_ : Tim ℝ) : ℝ × ℝ := ((getParams t).getD 0 0, (getParams t).getD 1 0)

def galCnt (t : Par ℝ) (_ : Tim ℝ) : ℝ := (getParams t).getD 2 0

/-- The search for the galaxy above. -/
example (lz : ℝ → ℝ) : ∃ (P : Params ℝ) (t' : Par ℝ) (fl' : OptFlags) (d a : ℝ),
    oneSourceTryUpdates round (1 / 1000) (galaxyJob exLib lz (fun _ _ _ _ => 77) (fun _ _ => exPsf) (fun _ _ => exGal)
      galPos galCnt none (fun _ => .fin 0) [exTimR]) none ⟨false, false, false⟩ (starR 5 4 1) [1, 0, 30] [1 / 4, 1 / 2, 1] =
        (t', fl', none, .ok (.fin d, a)) ∧
    Found (objective (galaxyJob exLib lz (fun _ _ _ _ => 77) (fun _ _ => exPsf) (fun _ _ => exGal)
      galPos galCnt none (fun _ => .fin 0) [exTimR])
        (galaxyModel round exLib lz (fun _ _ => exPsf) (fun _ _ => exGal) galPos galCnt P.sz)) (Near [exTimR] galPos)
      (1 / 1000) (starR 5 4 1) [1, 0, 30] [1 / 4, 1 / 2, 1] t' d a := by
  obtain ⟨P, t', fl', d, a, -, h1, h2, -⟩ := C110_search (R := ℝ) round (fun x => abs_sub_round x) exLib lz
    (fun _ _ _ _ => 77) (fun _ _ => exPsf) (fun _ _ => exGal) galPos galCnt none (fun _ => .fin 0) [exTimR]
    ⟨exLib_sqrt, fun _ _ _ => exGal_ok, fun _ _ _ => ⟨_, List.mem_cons_self, by norm_num⟩, fun _ _ _ => exPsf_ok.1,
      fun _ _ _ => exPsf_ok.2⟩ (by simp)
    (by simp only [List.mem_singleton, forall_eq]; exact ⟨rfl, by decide, by decide, by decide⟩)
    (1 / 1000) (by norm_num) ⟨false, false, false⟩
    (starR 5 4 1) (starR_legal 5 4 1 (by norm_num)) [1, 0, 30] [1 / 4, 1 / 2, 1] rfl (by
      simp [increasing]; norm_num) 0 rfl (by
      unfold Near
      simp only [List.mem_singleton, forall_eq]
      show |(5 : ℝ)| ≤ _ ∧ |(4 : ℝ)| ≤ _
      norm_num)
  exact ⟨P, t', fl', d, a, h1, h2⟩

end
end Verif.Gpu
