import Verif.Gpu.UpdateLemmas5

/-!
# C111: the update direction of the GPU optimizer
-/

namespace Verif.Gpu

open Verif Verif.Psf Verif.Params Verif.Lsq Verif.Mog

section
variable {R : Type} [Field R] [LinearOrder R] [IsStrictOrderedRing R]

/-- **C111 (point source, in part).** For a point source, with or without surface brightness, `gpu_one_source_update`
returns a change of the parameters that minimises chi-squared of the masked pixels with the model replaced by its first-order
expansion, priors included: central differences for the position, exact derivatives for fluxes and surface brightnesses.
Parameters without effect on weighted pixels and without prior stay unchanged; `None` means that all are such.
Missing: calibrations with a factor other than one (`C111_calibration_false`), priors on bands without images
(`C111_unseen_false`), sources without flux in the band of some image (`C111_band_false`). -/
theorem C111_star_partial (rnd : R → Int) (hr : ∀ x, |x - rnd x| ≤ 1 / 2) (sqrt : R → R)
    (hs : ∀ x, 0 ≤ x → (sqrt x = 0 ↔ x = 0)) (lstsq : Nat → Nat → Dense R → (Nat → R) → List R) (hls : DenseSolves lstsq)
    (lz : R → R) (junk junk' : Nat → Nat → R) (job : UpJob R) (hx : Expected job) (hne : job.tims ≠ [])
    (hf : ∀ tim ∈ job.tims, Fits tim) (cal : Tim R → R) (hcal : ∀ tim ∈ job.tims, cal tim = 1) (s : Star R)
    (hsrc : job.src = some s) (h0 : s.nshapes = 0) (hmod : s.models = pointModels lz junk junk') (es : List (Entry R))
    (hes : PriorOK (paramCount job) job.prior es) (hun : ∀ e ∈ es, ¬ Unseen job e.col) :
    ∃ r, oneSourceUpdate rnd sqrt lstsq none job false = (none, r) ∧
      RightUpdate job cal (fun tim _ x y => unitModel rnd lz tim.psf (s.pos tim).1 (s.pos tim).2 x y) es r := by
  obtain ⟨P, -, h1, h2, hl, e⟩ := update_none rnd hr sqrt lstsq job hne hf
  have hpos : ∀ tim, upPos job tim = s.pos tim := by intro tim; unfold upPos; rw [hsrc]
  obtain ⟨G, g1, g2⟩ := drawn_point rnd lz junk junk' job s hsrc h0 hmod P h1 h2 _ hl (fun tim _ => by
    left; rw [hpos]; simp)
  exact ⟨_, e false, body_ok rnd sqrt hs lstsq hls job hx cal hcal _ P _ hl hf G g1 g2 es (paramCount_eq job ▸ hes) hun⟩

/-- **C111 (cached arrays, in part).** The same with arrays cached for another position of the source, which stay cached: if
the source has moved by at most two pixels, or by at most five and the arrays are as large as the PSF stamps, or so far that
the moved arrays do not cover some weighted pixel.  Missing: the moves in between. -/
theorem C111_cached_partial (rnd : R → Int) (hr : ∀ x, |x - rnd x| ≤ 1 / 2) (sqrt : R → R)
    (hs : ∀ x, 0 ≤ x → (sqrt x = 0 ↔ x = 0)) (lstsq : Nat → Nat → Dense R → (Nat → R) → List R) (hls : DenseSolves lstsq)
    (lz : R → R) (junk junk' : Nat → Nat → R) (job : UpJob R) (hx : Expected job) (hne : job.tims ≠ [])
    (hf : ∀ tim ∈ job.tims, Fits tim) (cal : Tim R → R) (hcal : ∀ tim ∈ job.tims, cal tim = 1) (s : Star R)
    (hsrc : job.src = some s) (h0 : s.nshapes = 0) (hmod : s.models = pointModels lz junk junk') (es : List (Entry R))
    (hes : PriorOK (paramCount job) job.prior es) (hun : ∀ e ∈ es, ¬ Unseen job e.col)
    (pos0 : Tim R → R × R) (P : Params R) (hP : cacheImageParams rnd none job.tims pos0 = (some P, none))
    (hm : (∀ tim ∈ job.tims,
        (|rnd (s.pos tim).1 - rnd (pos0 tim).1| ≤ 2 ∧ |rnd (s.pos tim).2 - rnd (pos0 tim).2| ≤ 2) ∨
        (|rnd (s.pos tim).1 - rnd (pos0 tim).1| ≤ 5 ∧ |rnd (s.pos tim).2 - rnd (pos0 tim).2| ≤ 5 ∧ tim.psf.h ≤ P.sz ∧
          tim.psf.w ≤ P.sz)) ∨
      ∃ tim ∈ job.tims, ∃ x y : Int, InMask tim x y ∧ 0 < tim.ie.px y.toNat x.toNat ∧
        ¬ ((0 ≤ x - rnd (s.pos tim).1 + (P.sz / 2 : Nat) ∧ x - rnd (s.pos tim).1 + (P.sz / 2 : Nat) < P.sz) ∧
          (0 ≤ y - rnd (s.pos tim).2 + (P.sz / 2 : Nat) ∧ y - rnd (s.pos tim).2 + (P.sz / 2 : Nat) < P.sz))) :
    ∃ r, oneSourceUpdate rnd sqrt lstsq (some P) job false = (some P, r) ∧
      RightUpdate job cal (fun tim _ x y => unitModel rnd lz tim.psf (s.pos tim).1 (s.pos tim).2 x y) es r := by
  have hpos : ∀ tim, upPos job tim = s.pos tim := by intro tim; unfold upPos; rw [hsrc]
  obtain ⟨P', e, ⟨h1, h2, -⟩, h3, h4⟩ := params_ok rnd job.tims pos0 hne hf
  unfold cacheImageParams at hP
  rw [e] at hP
  obtain rfl : P' = P := by simpa using hP
  have hl : Laid job.tims P' (fun tim => (rnd (pos0 tim).1, rnd (pos0 tim).2)) := ⟨h3, h4⟩
  obtain ⟨u1, u2⟩ := update_some rnd hr sqrt lstsq job hne P'
  cases hov : anyOver rnd job P' with
  | false =>
    have hsmall := hm.resolve_right (by
      rintro ⟨tim, ht, x, y, hin, hw, hout⟩
      rw [← hpos] at hout
      rw [over_of_uncovered rnd job P' _ hl tim ht x y hin hw hout] at hov
      simp at hov)
    obtain ⟨G, g1, g2⟩ := drawn_point rnd lz junk junk' job s hsrc h0 hmod P' h1 h2 _ hl hsmall
    exact ⟨_, u1 hov false, body_ok rnd sqrt hs lstsq hls job hx cal hcal _ P' _ hl hf G g1 g2 es (paramCount_eq job ▸ hes) hun⟩
  | true =>
    obtain ⟨r, hr1, hr2⟩ := C111_star_partial rnd hr sqrt hs lstsq hls lz junk junk' job hx hne hf cal hcal s hsrc h0 hmod es
      hes hun
    obtain ⟨P'', w1, -, -, -, w2⟩ := update_none rnd hr sqrt lstsq job hne hf
    rw [w2 false] at hr1
    have hb : upBody rnd sqrt lstsq job P'' false = r := by simpa using hr1
    rcases hr2 with ⟨h, h'⟩ | ⟨X, h, h'⟩
    · exact ⟨_, u2 hov P'' _ w1 (hb.trans h) false, .inl ⟨rfl, h'⟩⟩
    · exact ⟨_, u2 hov P'' _ w1 (hb.trans h) false, .inr ⟨X, rfl, h'⟩⟩

/-- **C111 (galaxies, in part).** The same for a galaxy, with difference quotients for the shape, and with any cached arrays;
the model is that on arrays of the size used. -/
theorem C111_galaxy_partial (rnd : R → Int) (hr : ∀ x, |x - rnd x| ≤ 1 / 2) (sqrt : R → R)
    (hs : ∀ x, 0 ≤ x → (sqrt x = 0 ↔ x = 0)) (lstsq : Nat → Nat → Dense R → (Nat → R) → List R) (hls : DenseSolves lstsq)
    (lib : Nat → Lib R) (lz : R → R) (junk : Nat → Nat → Nat → Nat → R) (psf : Nat → Tim R → ImPsf R)
    (profs : Tim R → List (Mix R)) (job : UpJob R) (hx : Expected job) (hne : job.tims ≠ [])
    (hf : ∀ tim ∈ job.tims, Fits tim) (cal : Tim R → R) (hcal : ∀ tim ∈ job.tims, cal tim = 1) (s : Star R)
    (hsrc : job.src = some s) (hg : GoodProfiles lib psf profs s.nshapes job.tims)
    (hmod : s.models = galaxyModels lib lz junk psf profs) (es : List (Entry R))
    (hes : PriorOK (paramCount job) job.prior es) (hun : ∀ e ∈ es, ¬ Unseen job e.col) (cache : Option (Params R))
    (hc : cache = none ∨ ∃ pos0, cacheImageParams rnd none job.tims pos0 = (cache, none)) :
    ∃ P r, (cache = some P ∨ getImageParams rnd none job.tims s.pos = .ok P) ∧
      oneSourceUpdate rnd sqrt lstsq cache job false = (cache, r) ∧
      RightUpdate job cal (unitGalaxy rnd lib lz psf profs s.pos P.sz) es r := by
  have hpos : upPos job = s.pos := by funext tim; unfold upPos; rw [hsrc]
  obtain ⟨P0, p1, -, p3, p4, p5⟩ := update_none rnd hr sqrt lstsq job hne hf
  obtain ⟨G0, g1, g2⟩ := drawn_galaxy rnd lib lz junk psf profs job hne s hsrc hg hmod P0 p3 _ p4
  have k0 := body_ok rnd sqrt hs lstsq hls job hx cal hcal _ P0 _ p4 hf G0 g1 g2 es (paramCount_eq job ▸ hes) hun
  have p1' : getImageParams rnd none job.tims s.pos = .ok P0 := hpos ▸ p1
  rcases hc with rfl | ⟨pos0, hP⟩
  · exact ⟨P0, _, .inr p1', p5 false, k0⟩
  · obtain ⟨P', e, ⟨h1, h2, -⟩, h3, h4⟩ := params_ok rnd job.tims pos0 hne hf
    unfold cacheImageParams at hP
    rw [e] at hP
    obtain rfl : some P' = cache := by simpa using hP
    have hl : Laid job.tims P' (fun tim => (rnd (pos0 tim).1, rnd (pos0 tim).2)) := ⟨h3, h4⟩
    obtain ⟨u1, u2⟩ := update_some rnd hr sqrt lstsq job hne P'
    cases hov : anyOver rnd job P' with
    | false =>
      obtain ⟨G, g1, g2⟩ := drawn_galaxy rnd lib lz junk psf profs job hne s hsrc hg hmod P' h2 _ hl
      exact ⟨P', _, .inl rfl, u1 hov false,
        body_ok rnd sqrt hs lstsq hls job hx cal hcal _ P' _ hl hf G g1 g2 es (paramCount_eq job ▸ hes) hun⟩
    | true =>
      rcases k0 with ⟨h, h'⟩ | ⟨X, h, h'⟩
      · exact ⟨P0, _, .inr p1', u2 hov P0 _ p1 h false, .inl ⟨rfl, h'⟩⟩
      · exact ⟨P0, _, .inr p1', u2 hov P0 _ p1 h false, .inr ⟨X, rfl, h'⟩⟩

/-- **C111 (surface brightness alone, in part).** The same without a source, with any cached arrays. -/
theorem C111_glow_partial (rnd : R → Int) (hr : ∀ x, |x - rnd x| ≤ 1 / 2) (sqrt : R → R)
    (hs : ∀ x, 0 ≤ x → (sqrt x = 0 ↔ x = 0)) (lstsq : Nat → Nat → Dense R → (Nat → R) → List R) (hls : DenseSolves lstsq)
    (job : UpJob R) (hx : Expected job) (hne : job.tims ≠ [])
    (hf : ∀ tim ∈ job.tims, Fits tim) (cal : Tim R → R) (hcal : ∀ tim ∈ job.tims, cal tim = 1)
    (hsrc : job.src = none) (es : List (Entry R))
    (hes : PriorOK (paramCount job) job.prior es) (hun : ∀ e ∈ es, ¬ Unseen job e.col) (cache : Option (Params R))
    (hc : cache = none ∨ ∃ pos0, cacheImageParams rnd none job.tims pos0 = (cache, none)) :
    ∃ r, oneSourceUpdate rnd sqrt lstsq cache job false = (cache, r) ∧ RightUpdate job cal (fun _ _ _ _ => 0) es r := by
  have hmod : ∀ P, upModels rnd job P = .ok [] := by intro P; unfold upModels; rw [hsrc]
  have hdr : ∀ P, Drawn job P (fun _ _ _ _ => 0) [] := by
    intro P i tim p s _ _ h; rw [hsrc] at h; simp at h
  obtain ⟨P0, p1, -, p3, p4, p5⟩ := update_none rnd hr sqrt lstsq job hne hf
  have k0 := body_ok rnd sqrt hs lstsq hls job hx cal hcal _ P0 _ p4 hf [] (hmod _) (hdr _) es (paramCount_eq job ▸ hes) hun
  rcases hc with rfl | ⟨pos0, hP⟩
  · exact ⟨_, p5 false, k0⟩
  · obtain ⟨P', e, ⟨h1, h2, -⟩, h3, h4⟩ := params_ok rnd job.tims pos0 hne hf
    unfold cacheImageParams at hP
    rw [e] at hP
    obtain rfl : some P' = cache := by simpa using hP
    have hl : Laid job.tims P' (fun tim => (rnd (pos0 tim).1, rnd (pos0 tim).2)) := ⟨h3, h4⟩
    obtain ⟨u1, u2⟩ := update_some rnd hr sqrt lstsq job hne P'
    cases hov : anyOver rnd job P' with
    | false =>
      exact ⟨_, u1 hov false,
        body_ok rnd sqrt hs lstsq hls job hx cal hcal _ P' _ hl hf [] (hmod _) (hdr _) es (paramCount_eq job ▸ hes) hun⟩
    | true =>
      rcases k0 with ⟨h, h'⟩ | ⟨X, h, h'⟩
      · exact ⟨_, u2 hov P0 _ p1 h false, .inl ⟨rfl, h'⟩⟩
      · exact ⟨_, u2 hov P0 _ p1 h false, .inr ⟨X, rfl, h'⟩⟩

/-! ### Fluxes alone -/

/-- Chi-squared of the masked pixels, priors linearised, when `Y` is added to the fluxes `F` of the source and then to the
surface brightnesses `H`. -/
def fluxChi (job : UpJob R) (s : Star R) (F H : String → R) (U : Tim R → Int → Int → R) (Y : List R) : R :=
  chiSq job.tims (fun tim x y => (F (job.band tim) + (Y[s.bands.idxOf (job.band tim)]?).getD 0) * U tim x y)
    (fun tim => match job.sb with
      | some g => (H (job.band tim) + (Y[s.bands.length + g.bands.idxOf (job.band tim)]?).getD 0) * g.scale tim ^ 2
      | none => 0) + linearChi job.prior Y

omit [LinearOrder R] [IsStrictOrderedRing R] in
theorem chiSq_congr (tims : List (Tim R)) (M M' : Tim R → Int → Int → R) (sb sb' : Tim R → R)
    (h : ∀ tim ∈ tims, ∀ x y, M tim x y + sb tim = M' tim x y + sb' tim) : chiSq tims M sb = chiSq tims M' sb' := by
  unfold chiSq
  congr 1
  apply List.map_congr_left
  intro tim ht
  unfold chiSqOne
  refine Finset.sum_congr rfl (fun y _ => Finset.sum_congr rfl (fun x _ => ?_))
  rw [h tim ht]

omit [LinearOrder R] [IsStrictOrderedRing R] in
theorem pick_zero (b : String) (a : R) (bands : List String) (hn : b ∉ bands) : ∀ Y : List R,
    (List.zipWith (fun b' v => (if b = b' then a else 0) * v) bands Y).sum = 0 := by
  induction bands with
  | nil => simp
  | cons c bands ih =>
    intro Y
    cases Y with
    | nil => simp
    | cons v Y =>
      rw [List.zipWith_cons_cons, List.sum_cons, ih (fun h => hn (by simp [h])), if_neg (fun h => hn (by simp [h]))]
      ring

omit [LinearOrder R] [IsStrictOrderedRing R] in
theorem pick (b : String) (a : R) (bands : List String) (hnd : bands.Nodup) (hb : b ∈ bands) : ∀ Y : List R,
    (List.zipWith (fun b' v => (if b = b' then a else 0) * v) bands Y).sum = a * (Y[bands.idxOf b]?).getD 0 := by
  induction bands with
  | nil => simp at hb
  | cons c bands ih =>
    intro Y
    rw [List.nodup_cons] at hnd
    cases Y with
    | nil => simp
    | cons v Y =>
      rw [List.zipWith_cons_cons, List.sum_cons]
      by_cases h : b = c
      · subst h
        rw [if_pos rfl, pick_zero b a bands hnd.1, List.idxOf_cons_self]
        simp
      · rw [if_neg h, ih hnd.2 (by simpa [h] using hb), List.idxOf_cons_ne _ (Ne.symm h)]
        simp

omit [LinearOrder R] [IsStrictOrderedRing R] in
theorem flux_linear (job : UpJob R) (hx : Expected job) (cal : Tim R → R) (hcal : ∀ tim ∈ job.tims, cal tim = 1)
    (s : Star R) (hsrc : job.src = some s) (h0 : s.nshapes = 0) (hp : s.npos = 0) (F H : String → R)
    (hF : ∀ tim ∈ job.tims, s.cnt tim = F (job.band tim))
    (hH : ∀ g, job.sb = some g → ∀ tim ∈ job.tims, g.cnt tim = H (job.band tim)) (U : Tim R → Nat → Int → Int → R) (Y : List R)
    (hY : Y.length = paramCount job) :
    gpuLinear job cal U Y = fluxChi job s F H (fun tim => U tim 0) Y := by
  unfold gpuLinear fluxChi
  congr 1
  apply chiSq_congr
  intro tim ht x y
  have hb := hx.bands s hsrc
  have hstar : starSlopes job.band cal U s = s.bands.map (fun b tim x y => if job.band tim = b then cal tim * U tim 0 x y else 0) := by
    unfold starSlopes
    rw [hp, h0]
    simp
  have hn : s.nparams = s.bands.length := by rw [hx.nparams s hsrc, hp, h0]; omega
  have hlen : (starSlopes job.band cal U s).length = (Y.take s.bands.length).length := by
    rw [hstar, List.length_map, List.length_take, hY]
    unfold paramCount
    rw [hsrc]
    simp only
    omega
  have h1 : firstOrder (starSlopes job.band cal U s) (Y.take s.bands.length) tim x y =
      U tim 0 x y * (Y[s.bands.idxOf (job.band tim)]?).getD 0 := by
    unfold firstOrder
    rw [hstar, List.zipWith_map_left]
    simp only [hcal tim ht, one_mul]
    rw [pick _ _ _ hb.1 (hb.2 tim ht),
      List.getElem?_take_of_lt (List.idxOf_lt_length_iff.mpr (hb.2 tim ht))]
  have h2 : firstOrder (slopes job cal U) Y tim x y = firstOrder (starSlopes job.band cal U s) (Y.take s.bands.length) tim x y +
      firstOrder (match job.sb with | some g => glowSlopes job.band cal g | none => []) (Y.drop s.bands.length) tim x y := by
    unfold firstOrder slopes
    rw [hsrc]
    simp only
    conv_lhs => rw [← List.take_append_drop s.bands.length Y]
    rw [List.zipWith_append hlen, List.sum_append]
    rfl
  rw [h2, h1]
  unfold modelNow glowNow
  rw [hsrc]
  simp only
  rw [hF tim ht]
  cases hsb : job.sb with
  | none => simp [firstOrder]; ring
  | some g =>
    simp only
    have hg := hx.sbBands g hsb
    have h3 : firstOrder (glowSlopes job.band cal g) (Y.drop s.bands.length) tim x y =
        g.scale tim ^ 2 * (Y[s.bands.length + g.bands.idxOf (job.band tim)]?).getD 0 := by
      unfold firstOrder glowSlopes
      rw [List.zipWith_map_left]
      simp only [hcal tim ht, one_mul]
      rw [pick _ _ _ hg.1 (hg.2 tim ht), List.getElem?_drop]
    rw [h3, hH g hsb tim ht]
    ring

/-- **C111 (fluxes alone, in part).** With the position frozen, one call is enough: after the update of the fluxes of a point
source, and of the surface brightnesses, chi-squared itself (plus the linear form of the priors) is minimal. -/
theorem C111_flux_partial (rnd : R → Int) (hr : ∀ x, |x - rnd x| ≤ 1 / 2) (sqrt : R → R)
    (hs : ∀ x, 0 ≤ x → (sqrt x = 0 ↔ x = 0)) (lstsq : Nat → Nat → Dense R → (Nat → R) → List R) (hls : DenseSolves lstsq)
    (lz : R → R) (junk junk' : Nat → Nat → R) (job : UpJob R) (hx : Expected job) (hne : job.tims ≠ [])
    (hf : ∀ tim ∈ job.tims, Fits tim) (s : Star R) (hp : s.npos = 0) (F H : String → R)
    (hF : ∀ tim ∈ job.tims, s.cnt tim = F (job.band tim))
    (hH : ∀ g, job.sb = some g → ∀ tim ∈ job.tims, g.cnt tim = H (job.band tim))
    (hsrc : job.src = some s) (h0 : s.nshapes = 0) (hmod : s.models = pointModels lz junk junk') (es : List (Entry R))
    (hes : PriorOK (paramCount job) job.prior es) (hun : ∀ e ∈ es, ¬ Unseen job e.col) (X : List R)
    (hX : oneSourceUpdate rnd sqrt lstsq none job false = (none, .ok (some (.direction X)))) :
    Minimises (paramCount job)
      (fluxChi job s F H (fun tim x y => unitModel rnd lz tim.psf (s.pos tim).1 (s.pos tim).2 x y)) X := by
  obtain ⟨r, e, hr2⟩ := C111_star_partial rnd hr sqrt hs lstsq hls lz junk junk' job hx hne hf (fun _ => 1) (fun _ _ => rfl) s
    hsrc h0 hmod es hes hun
  rw [hX] at e
  have er : r = .ok (some (.direction X)) := by simpa using e.symm
  rcases hr2 with ⟨h, -⟩ | ⟨X', h, hm, -⟩
  · rw [er] at h; simp at h
  · rw [er] at h
    obtain rfl : X = X' := by simpa using h
    have hlin := flux_linear job hx (fun _ => 1) (fun _ _ => rfl) s hsrc h0 hp F H hF hH
      (fun tim _ x y => unitModel rnd lz tim.psf (s.pos tim).1 (s.pos tim).2 x y)
    refine ⟨hm.1, fun Y hY => ?_⟩
    rw [← hlin X hm.1, ← hlin Y hY]
    exact hm.2 Y hY

omit [LinearOrder R] [IsStrictOrderedRing R] in
theorem priorCols_key (d : List (Nat × Nat)) (npix : Nat) (es : List (Entry R)) : (∃ e ∈ es, dictGet d e.col = none) →
    ∀ AB : Dense R × (Nat → R),
      priorCols d npix (es.map (fun e => ((([e.row], e.col), [e.val]), [e.b]))) AB = .error .key := by
  induction es with
  | nil => rintro ⟨e, he, -⟩; simp at he
  | cons e es ih =>
    rintro ⟨e', he', h⟩ AB
    simp only [List.map_cons, priorCols, List.zip_cons_cons, List.zip_nil_right, priorRows]
    cases hd : dictGet d e.col with
    | none => rfl
    | some c =>
      refine ih ⟨e', ?_, h⟩ _
      rcases List.mem_cons.mp he' with rfl | h'
      · rw [hd] at h; simp at h
      · exact h'

omit [LinearOrder R] [IsStrictOrderedRing R] in
theorem unseen_unpaired (job : UpJob R) (hx : Expected job) (j f : Nat) (h : Unseen job j)
    (hp : Paired job (uniqueBands (job.tims.map job.band)) j f) : False := by
  have hub : ∀ b, b ∈ uniqueBands (job.tims.map job.band) → ∃ tim ∈ job.tims, job.band tim = b := by
    intro b hb
    rw [mem_uniqueBands] at hb
    exact List.mem_map.mp hb
  cases hp with
  | pos s _ hs h2 hj =>
    rcases h with ⟨s', i, b, h1, h3, h4, -⟩ | ⟨g, i, b, h1, h3, h4, -⟩
    · rw [hs] at h1; cases h1; omega
    · rw [hs] at h4; simp only at h4; have := hx.nparams s hs; omega
  | flux s i b hs hb hu =>
    have hi := (List.getElem?_eq_some_iff.mp hb).1
    rcases h with ⟨s', i', b', h1, h3, h4, h5⟩ | ⟨g, i', b', h1, h3, h4, -⟩
    · rw [hs] at h1; cases h1
      obtain rfl : i = i' := by omega
      rw [hb] at h3; cases h3
      obtain ⟨tim, ht, e⟩ := hub b hu
      exact h5 tim ht e
    · rw [hs] at h4; simp only at h4; have := hx.nparams s hs; omega
  | shape s i hs hi =>
    rcases h with ⟨s', i', b', h1, h3, h4, h5⟩ | ⟨g, i', b', h1, h3, h4, -⟩
    · rw [hs] at h1; cases h1
      have hi := (List.getElem?_eq_some_iff.mp h3).1
      omega
    · rw [hs] at h4; simp only at h4; have := hx.nparams s hs; omega
  | glow g i b hg hb hu =>
    rcases h with ⟨s', i', b', h1, h3, h4, h5⟩ | ⟨g', i', b', h1, h3, h4, h5⟩
    · have hi := (List.getElem?_eq_some_iff.mp h3).1
      rw [h1] at h4
      simp only at h4
      omega
    · rw [hg] at h1; cases h1
      have hii : i = i' := by
        cases hs : job.src with
        | none => rw [hs] at h4; simp only at h4; omega
        | some s => rw [hs] at h4; simp only at h4; have := hx.nparams s hs; omega
      subst hii
      rw [hb] at h3; cases h3
      obtain ⟨tim, ht, e⟩ := hub b hu
      exact h5 tim ht e

omit [IsStrictOrderedRing R] in
/-- **C111 (fails).** A prior on the flux, or surface brightness, in a band for which there is no image is a KeyError,
although such priors are what keeps those parameters where they should be (C40). -/
theorem C111_unseen_false (rnd : R → Int) (hr : ∀ x, |x - rnd x| ≤ 1 / 2) (sqrt : R → R)
    (lstsq : Nat → Nat → Dense R → (Nat → R) → List R) (lz : R → R) (junk junk' : Nat → Nat → R) (job : UpJob R)
    (hx : Expected job) (hne : job.tims ≠ []) (hf : ∀ tim ∈ job.tims, Fits tim) (s : Star R)
    (hsrc : job.src = some s) (h0 : s.nshapes = 0) (hmod : s.models = pointModels lz junk junk') (es : List (Entry R))
    (hes : PriorOK (paramCount job) job.prior es) (hun : ∃ e ∈ es, Unseen job e.col) (getA : Bool) :
    oneSourceUpdate rnd sqrt lstsq none job getA = (none, .error .key) := by
  obtain ⟨P, -, h1, h2, hl, e⟩ := update_none rnd hr sqrt lstsq job hne hf
  have hpos : ∀ tim, upPos job tim = s.pos tim := by intro tim; unfold upPos; rw [hsrc]
  obtain ⟨G, g1, g2⟩ := drawn_point rnd lz junk junk' job s hsrc h0 hmod P h1 h2 _ hl (fun tim _ => by
    left; rw [hpos]; simp)
  rw [e getA]
  congr 1
  unfold upBody
  rw [g1]
  simp only
  rw [if_neg (by simpa using hl.len), if_neg (by
    have : (colsOf job (uniqueBands (job.tims.map job.band))).npos = s.npos := by unfold colsOf; rw [hsrc]
    rw [this]
    rcases hx.npos s hsrc with h | h <;> omega), if_neg (by rw [hsrc]; simp)]
  cases hpr : job.prior with
  | none =>
    obtain ⟨e', he', -⟩ := hun
    have hrep := hes.1
    rw [hpr] at hrep
    have : es = [] := hrep
    rw [this] at he'
    simp at he'
  | some q =>
    have hrep := hes.1
    rw [hpr] at hrep
    have hrq : Represents q es := hrep
    have hz : ((q.rows.zip q.cols).zip q.vals).zip q.bs = es.map (fun e => ((([e.row], e.col), [e.val]), [e.b])) := by
      rw [hrq.rows, hrq.cols, hrq.vals, hrq.bs]
      clear hrq hrep hes hun
      induction es with
      | nil => rfl
      | cons e es ih => simp [ih]
    have hkey : ∃ e ∈ es, dictGet (paramIndices job (uniqueBands (job.tims.map job.band))) e.col = none := by
      obtain ⟨e', he', hu⟩ := hun
      refine ⟨e', he', ?_⟩
      cases hd : dictGet (paramIndices job (uniqueBands (job.tims.map job.band))) e'.col with
      | none => rfl
      | some f =>
        exact (unseen_unpaired job hx _ f hu ((mem_paramIndices job hx _ _ _).mp (dictGet_mem _ _ _ hd))).elim
    unfold withPriors
    simp only
    rw [hz, priorCols_key _ _ es hkey]

/-- **C111 (fails).** If the band of an image is not one of the bands of the source (whose flux is then taken from elsewhere,
or zero), there is a column without parameter, and a KeyError instead of an update. -/
theorem C111_band_false (rnd : R → Int) (hr : ∀ x, |x - rnd x| ≤ 1 / 2) (sqrt : R → R)
    (hs : ∀ x, 0 ≤ x → (sqrt x = 0 ↔ x = 0))
    (lstsq : Nat → Nat → Dense R → (Nat → R) → List R) (lz : R → R) (junk junk' : Nat → Nat → R) (tim : Tim R) (hf : Fits tim)
    (band : Tim R → String) (s : Star R) (hp : s.npos = 0) (h0 : s.nshapes = 0)
    (hmod : s.models = pointModels lz junk junk') (hb : band tim ∉ s.bands) (x y : Int) (hin : InMask tim x y)
    (hw : tim.ie.px y.toNat x.toNat ≠ 0) (hu : unitModel rnd lz tim.psf (s.pos tim).1 (s.pos tim).2 x y ≠ 0) (getA : Bool) :
    oneSourceUpdate rnd sqrt lstsq none ⟨[tim], band, some s, none, none⟩ getA = (none, .error .key) := by
  obtain ⟨job, hj⟩ : ∃ job : UpJob R, job = ⟨[tim], band, some s, none, none⟩ := ⟨_, rfl⟩
  rw [← hj]
  have hsrc : job.src = some s := by rw [hj]
  have htims : job.tims = [tim] := by rw [hj]
  obtain ⟨P, -, h1, h2, hl, e⟩ := update_none rnd hr sqrt lstsq job (by rw [htims]; simp) (by rw [htims]; simpa using hf)
  have hpos : ∀ tim, upPos job tim = s.pos tim := by intro tim; unfold upPos; rw [hsrc]
  obtain ⟨G, g1, g2⟩ := drawn_point rnd lz junk junk' job s hsrc h0 hmod P h1 h2 _ hl (fun tim _ => by
    left; rw [hpos]; simp)
  rw [e getA]
  congr 1
  have hub : uniqueBands (job.tims.map job.band) = [band tim] := by
    rw [hj]; simp [uniqueBands]
  have hcols : colsOf job [band tim] = ⟨0, 1, 0, 0⟩ := by
    unfold colsOf; rw [hj]; simp [hp, h0]
  have hpi : paramIndices job [band tim] = [] := by
    unfold paramIndices bandPairs
    rw [hcols]
    have : srcBands job = s.bands := by unfold srcBands; rw [hsrc]
    have h' : sbBands job = [] := by unfold sbBands; rw [hj]
    rw [this, h']
    simp only [ne_eq, not_true, if_false, List.nil_append, List.range_zero, List.map_nil, List.append_nil,
      List.zipIdx_nil, List.filterMap_nil, List.filterMap_eq_nil_iff]
    rintro ⟨b, i⟩ hbi
    rw [if_neg]
    intro h
    rw [List.mem_singleton] at h
    simp only at h
    subst h
    exact hb (List.fst_mem_of_mem_zipIdx hbi)
  obtain ⟨p, h3⟩ : ∃ p, P.ims[0]? = some p := by
    have := hl.len
    rw [htims] at this
    cases hi : P.ims with
    | nil => rw [hi] at this; simp at this
    | cons p ps => exact ⟨p, rfl⟩
  have ht0 : job.tims[0]? = some tim := by rw [htims]; rfl
  have lay := hl.each 0 tim p ht0 h3
  have hmar := lay.margin x y hin
  obtain ⟨r, er⟩ := Int.eq_ofNat_of_zero_le (show 0 ≤ y - p.pady0 by omega)
  obtain ⟨c, ec⟩ := Int.eq_ofNat_of_zero_le (show 0 ≤ x - p.padx0 by omega)
  have hrr : r < P.sz := by omega
  have hcc : c < P.sz := by omega
  have hlt : 0 * (P.sz * P.sz) + (r * P.sz + c) < job.tims.length * (P.sz * P.sz) + 0 := by
    have : r * P.sz + c < P.sz * P.sz := by
      calc r * P.sz + c < r * P.sz + P.sz := by omega
        _ = (r + 1) * P.sz := by ring
        _ ≤ P.sz * P.sz := Nat.mul_le_mul_right _ hrr
    rw [htims, List.length_singleton]
    omega
  obtain ⟨A', hA'⟩ : ∃ A' : Dense R, A' = fun row col => pixelRow job.tims P
    (fun i tim' p => cellOf job ⟨0, 1, 0, 0⟩ [band tim] P.sz G i tim' p col) row := ⟨_, rfl⟩
  have hne0 : A' (0 * (P.sz * P.sz) + (r * P.sz + c)) 0 ≠ 0 := by
    rw [hA']
    simp only [pixelRow_at job.tims P _ 0 tim p ht0 h3 r c hrr hcc]
    have hb' : job.band tim = band tim := by rw [hj]
    have hsb : job.sb = none := by rw [hj]
    unfold cellOf
    rw [hsrc, hsb]
    simp only [hb', List.idxOf_cons_self, ne_eq, not_true, false_and, if_false, Nat.add_zero, if_true]
    rw [g2 0 tim p s ht0 h3 hsrc 0 (by omega) r c hrr hcc ⟨x, y, hin, by rw [abs_le]; omega, by rw [abs_le]; omega⟩, lay.ie r c hrr hcc,
      show p.padx0 + (c : Int) = x by omega, show p.pady0 + (r : Int) = y by omega, if_pos hin]
    exact mul_ne_zero hu hw
  have hmem : 0 ∈ liveCols sqrt (job.tims.length * (P.sz * P.sz) + 0) (Cols.total ⟨0, 1, 0, 0⟩) A' :=
    (mem_liveCols sqrt hs _ _ A' 0).mpr ⟨by decide, _, hlt, hne0⟩
  have hprior : job.prior = none := by rw [hj]
  unfold upBody
  rw [g1]
  simp only
  rw [if_neg (by simpa using hl.len), if_neg (by rw [hub, hcols]; simp), if_neg (by rw [hsrc]; simp), hub, hcols, hpi, hprior]
  simp only [withPriors]
  rw [← hA']
  unfold finish
  obtain ⟨I, hI⟩ : ∃ I, I = liveCols sqrt (job.tims.length * (P.sz * P.sz) + 0) (Cols.total ⟨0, 1, 0, 0⟩) A' := ⟨_, rfl⟩
  rw [← hI] at hmem
  simp only
  rw [← hI]
  cases I with
  | nil => simp at hmem
  | cons i I =>
    rw [if_neg (by simp)]
    simp [fitToSrc, dictGet]

omit [IsStrictOrderedRing R] in
/-- **C111 (fails).** With `get_A=True` the matrix returned is zero in every element: the values are assigned to a copy. -/
theorem C111_matrix_false (rnd : R → Int) (sqrt : R → R) (lstsq : Nat → Nat → Dense R → (Nat → R) → List R)
    (cache cache' : Option (Params R)) (job : UpJob R) (getA : Bool) (nrows : Nat) (A : Dense R) (B : Nat → R) (X sc : List R)
    (h : oneSourceUpdate rnd sqrt lstsq cache job getA = (cache', .ok (some (.system nrows A B X sc)))) (r c : Nat) :
    A r c = 0 := by
  have hfin : ∀ (d : List (Nat × Nat)) (n m k : Nat) (A' : Dense R) (B' : Nat → R) (g : Bool),
      finish sqrt lstsq d n m k A' B' g = .ok (some (.system nrows A B X sc)) → A r c = 0 := by
    intro d n m k A' B' g h
    unfold finish at h
    simp only at h
    split at h
    · simp at h
    · split at h
      · simp at h
      · split at h
        · simp at h
        · simp at h
        · split at h
          · simp only [Except.ok.injEq, Option.some.injEq, UpOut.system.injEq] at h
            rw [← h.2.1]
          · simp at h
  have hbody : ∀ P g, upBody rnd sqrt lstsq job P g = .ok (some (.system nrows A B X sc)) → A r c = 0 := by
    intro P g h
    unfold upBody at h
    split at h
    · simp at h
    · simp only at h
      split at h
      · simp at h
      · split at h
        · simp at h
        · split at h
          · simp at h
          · split at h
            · simp at h
            · exact hfin _ _ _ _ _ _ _ h
  unfold oneSourceUpdate at h
  split at h
  · simp at h
  · split at h
    · simp at h
    · split at h
      · simp at h
      · split at h
        · split at h
          · simp at h
          · split at h
            · simp at h
            · rename_i h'
              simp only [Prod.mk.injEq, Except.ok.injEq] at h
              rw [h.2] at h'
              exact hbody _ _ h'
        · simp only [Prod.mk.injEq] at h
          exact hbody _ _ h.2

omit [IsStrictOrderedRing R] in
theorem system_of_direction (rnd : R → Int) (sqrt : R → R) (lstsq : Nat → Nat → Dense R → (Nat → R) → List R)
    (job : UpJob R) (P : Params R) (X : List R) (h : upBody rnd sqrt lstsq job P false = .ok (some (.direction X))) :
    ∃ n A B sc, upBody rnd sqrt lstsq job P true = .ok (some (.system n A B X sc)) := by
  unfold upBody at h ⊢
  split at h
  · simp at h
  · rename_i G hG
    simp only at h ⊢
    split at h
    · simp at h
    · rename_i h1
      rw [if_neg h1]
      split at h
      · simp at h
      · rename_i h2
        rw [if_neg h2]
        split at h
        · simp at h
        · rename_i h3
          rw [if_neg h3]
          split at h
          · simp at h
          · unfold finish at h ⊢
            simp only at h ⊢
            split at h
            · simp at h
            · rename_i h4
              rw [if_neg h4]
              split at h
              · simp at h
              · split at h
                · simp at h
                · simp at h
                · simp only [Bool.false_eq_true, if_false, Except.ok.injEq, Option.some.injEq, UpOut.direction.injEq] at h
                  subst h
                  simp only [if_true]
                  exact ⟨_, _, _, _, rfl⟩

end

/-! ### Examples -/

/-- A star at (5, 4) with flux `f`; the position free if `npos` is 2. -/
def exStar (npos : Nat) (f : ℚ) (bands : List String) : Star ℚ :=
  { pos := fun _ => (5, 4), cnt := fun _ => f, cdi := fun _ i j => if i = j then 1 else 0, npos := npos, bands := bands,
    nparams := npos + bands.length, nshapes := 0, step := fun _ _ => 1,
    models := pointModels exLz (fun _ _ => 77) (fun _ _ => 88) }

/-- The same image twice, in two bands; the star and a surface brightness in both. -/
def exUp : UpJob ℚ :=
  { tims := [exTim, { exTim with name := 1 }], band := fun tim => if tim.name = 0 then "r" else "g",
    src := some (exStar 2 3 ["g", "r"]), sb := some ⟨fun _ => 1, fun _ => 2, ["r", "g"]⟩,
    prior := some ⟨[[0]], [3], [[2]], [[1]], [[0]]⟩ }

theorem exUp_ok : Expected exUp ∧ exUp.tims ≠ [] ∧ (∀ tim ∈ exUp.tims, Fits tim) ∧
    PriorOK (paramCount exUp) exUp.prior [⟨0, 3, 2, 1, 0⟩] := by
  refine ⟨⟨by simp [exUp], ?_, ?_, ?_, ?_, ?_⟩, by simp [exUp], ?_, ⟨⟨rfl, rfl, rfl, rfl, rfl⟩, rfl, ?_⟩⟩
  · intro s h; simp only [exUp, Option.some.injEq] at h; subst h; simp [exStar]
  · intro s h; simp only [exUp, Option.some.injEq] at h; subst h; simp [exStar]
  · intro s h; simp only [exUp, Option.some.injEq] at h; subst h
    simp [exStar, exUp, exTim]
  · intro s h; simp only [exUp, Option.some.injEq] at h; subst h
    simp [exUp, exTim]
  · intro s h; simp only [exUp, Option.some.injEq] at h; subst h; simp [exStar]
  · simp only [exUp, List.mem_cons, List.not_mem_nil, or_false, forall_eq_or_imp, forall_eq]
    exact ⟨exTim_fits, ⟨rfl, by decide, by decide, by decide⟩⟩
  · simp [paramCount, exUp, exStar]

example : ∃ (lstsq : Nat → Nat → Dense ℚ → (Nat → ℚ) → List ℚ) (X : List ℚ),
    oneSourceUpdate rnd id lstsq none exUp false = (none, .ok (some (.direction X))) ∧
    Minimises 6 (gpuLinear exUp (fun _ => 1) (fun tim _ x y => unitModel rnd exLz tim.psf 5 4 x y)) X := by
  obtain ⟨lstsq, hl⟩ := dense_solver_exists (R := ℚ)
  obtain ⟨h1, h2, h3, h4⟩ := exUp_ok
  obtain ⟨r, e, hr | ⟨X, rfl, hm, -⟩⟩ := C111_star_partial rnd rnd_half id (fun _ _ => Iff.rfl) lstsq hl exLz (fun _ _ => 77)
    (fun _ _ => 88) exUp h1 h2 h3 (fun _ => 1) (fun _ _ => rfl) (exStar 2 3 ["g", "r"]) rfl rfl rfl [⟨0, 3, 2, 1, 0⟩] h4 (by
      intro e he
      rw [List.mem_singleton] at he
      subst he
      rintro (⟨s, i, b, hs, hb, hj, ht⟩ | ⟨g, i, b, hs, hb, hj, ht⟩)
      · simp only [exUp, Option.some.injEq] at hs
        subst hs
        have hi : i = 1 := by simp only [exStar] at hj; omega
        subst hi
        have : b = "r" := by simpa [exStar] using hb.symm
        exact ht exTim (by simp [exUp]) (by rw [this]; rfl)
      · simp [exUp, exStar] at hj
        omega)
  · simp at hr
  · exact ⟨lstsq, X, e, hm⟩

/-- Flux alone: chi-squared is (44 - f)² + (46 - 2f)² and a constant, the optimum 136/5. -/
def exFlux : UpJob ℚ := ⟨[exTim], fun _ => "r", some (exStar 0 0 ["r"]), none, none⟩

theorem exFlux_ok : Expected exFlux ∧ (∀ tim ∈ exFlux.tims, Fits tim) ∧ PriorOK (paramCount exFlux) exFlux.prior [] := by
  refine ⟨⟨by simp [exFlux], ?_, ?_, ?_, ?_, ?_⟩, ?_, ⟨rfl, rfl, by simp⟩⟩
  · intro s h; simp only [exFlux, Option.some.injEq] at h; subst h; simp [exStar]
  · intro s h; simp only [exFlux, Option.some.injEq] at h; subst h; simp [exStar]
  · intro s h; simp only [exFlux, Option.some.injEq] at h; subst h; simp [exStar, exFlux]
  · intro s h; simp [exFlux] at h
  · intro s h; simp only [exFlux, Option.some.injEq] at h; subst h; simp [exStar]
  · simpa [exFlux] using exTim_fits

theorem exFlux_chi (k f : ℚ) : gpuLinear exFlux (fun _ => k) (fun tim _ x y => unitModel rnd exLz tim.psf 5 4 x y) [f] =
    34 ^ 2 + 36 ^ 2 + (44 - k * f) ^ 2 + (46 - 2 * k * f) ^ 2 := by
  have e : ∀ x y : Int, firstOrder (slopes exFlux (fun _ => k) (fun tim _ x y => unitModel rnd exLz tim.psf 5 4 x y)) [f] exTim x y =
      k * unitModel rnd exLz exTim.psf 5 4 x y * f := by
    intro x y
    simp [firstOrder, slopes, exFlux, starSlopes, exStar]
  have u1 : unitModel rnd exLz exTim.psf 5 4 4 3 = 0 := by decide +kernel
  have u2 : unitModel rnd exLz exTim.psf 5 4 6 3 = 0 := by decide +kernel
  have u3 : unitModel rnd exLz exTim.psf 5 4 4 4 = 1 := by decide +kernel
  have u4 : unitModel rnd exLz exTim.psf 5 4 6 4 = 2 := by decide +kernel
  have r1 : Finset.Ico (3 : Int) 5 = {3, 4} := by decide
  have r2 : Finset.Ico (4 : Int) 7 = {4, 5, 6} := by decide
  have m0 : ∀ x y, modelNow exFlux (fun tim _ x y => unitModel rnd exLz tim.psf 5 4 x y) exTim x y = 0 := by
    intro x y; simp [modelNow, exFlux, exStar]
  have c1 : gpuLinear exFlux (fun _ => k) (fun tim _ x y => unitModel rnd exLz tim.psf 5 4 x y) [f] =
      chiSqOne exTim (fun x y => k * unitModel rnd exLz exTim.psf 5 4 x y * f) 0 := by
    unfold gpuLinear chiSq
    simp only [exFlux] at e m0 ⊢
    simp only [List.map_cons, List.map_nil, List.sum_cons, List.sum_nil, e, m0, zero_add, add_zero, linearChi, glowNow]
  rw [c1]
  unfold chiSqOne
  rw [show exTim.y0 = 3 from rfl, show exTim.y1 = 5 from rfl, show exTim.x0 = 4 from rfl, show exTim.x1 = 7 from rfl, r1, r2]
  simp [exTim, Finset.sum_insert] at u1 u2 u3 u4 ⊢
  simp [u1, u2, u3, u4]
  ring

theorem exFlux_run : ∃ (lstsq : Nat → Nat → Dense ℚ → (Nat → ℚ) → List ℚ), DenseSolves lstsq ∧
    oneSourceUpdate rnd id lstsq none exFlux false = (none, .ok (some (.direction [136 / 5]))) := by
  obtain ⟨lstsq, hl⟩ := dense_solver_exists (R := ℚ)
  obtain ⟨h1, h3, h4⟩ := exFlux_ok
  obtain ⟨r, e, hr | ⟨X, rfl, hm, -⟩⟩ := C111_star_partial rnd rnd_half id (fun _ _ => Iff.rfl) lstsq hl exLz (fun _ _ => 77)
    (fun _ _ => 88) exFlux h1 (by simp [exFlux]) h3 (fun _ => 1) (fun _ _ => rfl) (exStar 0 0 ["r"]) rfl rfl rfl [] h4 (by simp)
  · exfalso
    have := hr.2.2 0 (by simp [paramCount, exFlux, exStar]) _ rfl exTim (by simp [exFlux]) 4 4 (by decide) (by decide)
    revert this
    decide +kernel
  · refine ⟨lstsq, hl, ?_⟩
    rw [e]
    obtain ⟨hlen, hmin⟩ := hm
    obtain ⟨f, rfl⟩ := List.length_eq_one_iff.mp (show X.length = 1 from hlen)
    have := hmin [136 / 5] rfl
    have p1 : (exStar 0 0 ["r"]).pos = fun _ => (5, 4) := rfl
    simp only [p1] at this
    rw [exFlux_chi, exFlux_chi] at this
    have h5 : 5 * (f - 136 / 5) ^ 2 ≤ 0 := by nlinarith
    have h6 : f - 136 / 5 = 0 := by
      have := sq_nonneg (f - 136 / 5)
      exact pow_eq_zero_iff (two_ne_zero) |>.mp (by linarith)
    rw [show f = 136 / 5 by linarith]

/-- With `get_A`: the direction is right, the matrix is not. -/
example : ∃ (lstsq : Nat → Nat → Dense ℚ → (Nat → ℚ) → List ℚ) (n : Nat) (B : Nat → ℚ) (sc : List ℚ) (A : Dense ℚ),
    oneSourceUpdate rnd id lstsq none exFlux true = (none, .ok (some (.system n A B [136 / 5] sc))) ∧ ∀ r c, A r c = 0 := by
  obtain ⟨lstsq, hl, e⟩ := exFlux_run
  obtain ⟨P, -, -, -, -, u⟩ := update_none rnd rnd_half id lstsq exFlux (by simp [exFlux]) exFlux_ok.2.1
  rw [u false] at e
  obtain ⟨n, A, B, sc, h⟩ := system_of_direction rnd id lstsq exFlux P [136 / 5] (by simpa using e)
  have h' := u true
  rw [h] at h'
  exact ⟨lstsq, n, B, sc, A, h', fun r c => C111_matrix_false rnd id lstsq none none exFlux true n A B _ sc h' r c⟩

/-- **C111 (fails).** With a calibration whose factor is 2, all else as in `C111_star_partial`, the update does not minimise
the linearised chi-squared: the flux derivatives are those for a factor of 1. -/
theorem C111_calibration_false : ∃ (lstsq : Nat → Nat → Dense ℚ → (Nat → ℚ) → List ℚ) (X : List ℚ), DenseSolves lstsq ∧
    Expected exFlux ∧ oneSourceUpdate rnd id lstsq none exFlux false = (none, .ok (some (.direction X))) ∧
    ¬ Minimises (paramCount exFlux) (gpuLinear exFlux (fun _ => 2) (fun tim _ x y => unitModel rnd exLz tim.psf 5 4 x y)) X := by
  obtain ⟨lstsq, hl, e⟩ := exFlux_run
  refine ⟨lstsq, _, hl, exFlux_ok.1, e, ?_⟩
  rintro ⟨-, h⟩
  have := h [68 / 5] rfl
  rw [exFlux_chi, exFlux_chi] at this
  norm_num at this

example : ∃ (lstsq : Nat → Nat → Dense ℚ → (Nat → ℚ) → List ℚ),
    oneSourceUpdate rnd id lstsq none exFlux false = (none, .ok (some (.direction [136 / 5]))) ∧
    Minimises 1 (fluxChi exFlux (exStar 0 0 ["r"]) (fun _ => 0) (fun _ => 0)
      (fun tim x y => unitModel rnd exLz tim.psf 5 4 x y)) [136 / 5] := by
  obtain ⟨lstsq, hl, e⟩ := exFlux_run
  obtain ⟨h1, h3, h4⟩ := exFlux_ok
  exact ⟨lstsq, e, C111_flux_partial rnd rnd_half id (fun _ _ => Iff.rfl) lstsq hl exLz (fun _ _ => 77) (fun _ _ => 88) exFlux h1
    (by simp [exFlux]) h3 (exStar 0 0 ["r"]) rfl (fun _ => 0) (fun _ => 0) (fun _ _ => rfl) (fun _ h => by simp [exFlux] at h)
    rfl rfl rfl [] h4 (by simp) _ e⟩

/-- Arrays cached for a star at (7, 3). -/
example : ∃ (lstsq : Nat → Nat → Dense ℚ → (Nat → ℚ) → List ℚ) (P : Params ℚ) (r : Except PyErr (Option (UpOut ℚ))),
    cacheImageParams rnd none [exTim] (fun _ => (7, 3)) = (some P, none) ∧
    oneSourceUpdate rnd id lstsq (some P) exFlux false = (some P, r) ∧
    RightUpdate exFlux (fun _ => 1) (fun tim _ x y => unitModel rnd exLz tim.psf 5 4 x y) [] r := by
  obtain ⟨lstsq, hl⟩ := dense_solver_exists (R := ℚ)
  obtain ⟨h1, h3, h4⟩ := exFlux_ok
  obtain ⟨P, eP, -⟩ := C107_layout rnd [exTim] (fun _ => (7, 3)) (by simp) (by simpa using exTim_fits)
  have hP : cacheImageParams rnd none [exTim] (fun _ => (7, 3)) = (some P, none) := by unfold cacheImageParams; rw [eP]
  obtain ⟨r, a, b⟩ := C111_cached_partial rnd rnd_half id (fun _ _ => Iff.rfl) lstsq hl exLz (fun _ _ => 77)
    (fun _ _ => 88) exFlux h1 (by simp [exFlux]) h3 (fun _ => 1) (fun _ _ => rfl) (exStar 0 0 ["r"]) rfl rfl rfl [] h4 (by simp)
    (fun _ => (7, 3)) P hP (.inl (fun _ _ => .inl (show |rnd 5 - rnd 7| ≤ 2 ∧ |rnd 4 - rnd 3| ≤ 2 by decide +kernel)))
  exact ⟨lstsq, P, r, hP, a, b⟩

/-- Surface brightness alone. -/
example : ∃ (lstsq : Nat → Nat → Dense ℚ → (Nat → ℚ) → List ℚ) (r : Except PyErr (Option (UpOut ℚ))),
    oneSourceUpdate rnd id lstsq none { exUp with src := none, prior := none } false = (none, r) ∧
    RightUpdate { exUp with src := none, prior := none } (fun _ => 1) (fun _ _ _ _ => 0) [] r := by
  obtain ⟨lstsq, hl⟩ := dense_solver_exists (R := ℚ)
  obtain ⟨h1, h2, h3, -⟩ := exUp_ok
  obtain ⟨r, a, b⟩ := C111_glow_partial rnd rnd_half id (fun _ _ => Iff.rfl) lstsq hl
    { exUp with src := none, prior := none } ⟨.inr rfl, by simp, by simp, by simp, h1.sbBands, by simp⟩ h2 h3 (fun _ => 1)
    (fun _ _ => rfl) rfl [] ⟨rfl, rfl, by simp⟩ (by simp) none (.inl rfl)
  exact ⟨lstsq, r, a, b⟩

/-- A prior on the flux in a band without image. -/
def exUnseen : UpJob ℚ := ⟨[exTim], fun _ => "r", some (exStar 0 0 ["r", "g"]), none, some ⟨[[0]], [1], [[2]], [[1]], [[0]]⟩⟩

example (lstsq : Nat → Nat → Dense ℚ → (Nat → ℚ) → List ℚ) :
    oneSourceUpdate rnd id lstsq none exUnseen false = (none, .error .key) := by
  refine C111_unseen_false rnd rnd_half id lstsq exLz (fun _ _ => 77) (fun _ _ => 88) exUnseen ⟨by simp [exUnseen], ?_, ?_, ?_, ?_, ?_⟩
    (by simp [exUnseen]) (by simpa [exUnseen] using exTim_fits) (exStar 0 0 ["r", "g"]) rfl rfl rfl [⟨0, 1, 2, 1, 0⟩]
    ⟨⟨rfl, rfl, rfl, rfl, rfl⟩, rfl, by simp [paramCount, exUnseen, exStar]⟩
    ⟨_, List.mem_singleton.mpr rfl, .inl ⟨_, 1, "g", rfl, rfl, rfl, by simp [exUnseen]⟩⟩ false
  · intro s h; simp only [exUnseen, Option.some.injEq] at h; subst h; simp [exStar]
  · intro s h; simp only [exUnseen, Option.some.injEq] at h; subst h; simp [exStar]
  · intro s h; simp only [exUnseen, Option.some.injEq] at h; subst h; simp [exStar, exUnseen]
  · intro s h; simp [exUnseen] at h
  · intro s h; simp only [exUnseen, Option.some.injEq] at h; subst h; simp [exStar]

/-- A star with a flux in another band only. -/
example (lstsq : Nat → Nat → Dense ℚ → (Nat → ℚ) → List ℚ) :
    oneSourceUpdate rnd id lstsq none ⟨[exTim], fun _ => "r", some (exStar 0 0 ["g"]), none, none⟩ false = (none, .error .key) :=
  C111_band_false rnd rnd_half id (fun _ _ => Iff.rfl) lstsq exLz (fun _ _ => 77) (fun _ _ => 88) exTim exTim_fits (fun _ => "r")
    (exStar 0 0 ["g"]) rfl rfl rfl (by decide) 4 4 (by decide) (by decide) (by decide +kernel) false

/-- A galaxy with one shape parameter. -/
example (lz : ℝ → ℝ) : ∃ (lstsq : Nat → Nat → Dense ℝ → (Nat → ℝ) → List ℝ) (P : Params ℝ) (r : Except PyErr (Option (UpOut ℝ)))
    (job : UpJob ℝ) (s : Star ℝ), job.src = some s ∧ s.nshapes = 1 ∧ s.cnt exTimR = 2 ∧
    oneSourceUpdate round Real.sqrt lstsq none job false = (none, r) ∧
    RightUpdate job (fun _ => 1) (unitGalaxy round exLib lz (fun _ _ => exPsf) (fun _ => [exGal, exGal.tail])
      (fun _ => (5, 4)) P.sz) [] r := by
  obtain ⟨lstsq, hl⟩ := dense_solver_exists (R := ℝ)
  obtain ⟨s, hs⟩ : ∃ s : Star ℝ, s = ⟨fun _ => (5, 4), fun _ => 2, fun _ i j => if i = j then 1 else 0, 2, ["r"], 4, 1,
    fun _ _ => 1 / 10, galaxyModels exLib lz (fun _ _ _ _ => 77) (fun _ _ => exPsf) (fun _ => [exGal, exGal.tail])⟩ := ⟨_, rfl⟩
  obtain ⟨P, r, -, a, b⟩ := C111_galaxy_partial (R := ℝ) round (fun x => abs_sub_round x) Real.sqrt
    (fun x hx => Real.sqrt_eq_zero hx) lstsq hl exLib lz (fun _ _ _ _ => 77) (fun _ _ => exPsf)
    (fun _ => [exGal, exGal.tail]) ⟨[exTimR], fun _ => "r", some s, none, none⟩
    ⟨.inl rfl, by rintro s' ⟨⟩; rw [hs]; exact .inr rfl, by rintro s' ⟨⟩; rw [hs]; rfl,
      by rintro s' ⟨⟩; rw [hs]; simp, by simp, by rintro s' ⟨⟩; rw [hs]; norm_num⟩ (by simp)
    (by simp only [List.mem_singleton, forall_eq]; exact ⟨rfl, by decide, by decide, by decide⟩)
    (fun _ => 1) (fun _ _ => rfl) s rfl
    ⟨exLib_sqrt, by rw [hs]; simp, fun _ _ => by
      have ht : ∀ c ∈ exGal.tail, Semidefinite c := fun c hc => exGal_ok c (List.mem_of_mem_tail hc)
      simp only [List.mem_cons, List.not_mem_nil, or_false, forall_eq_or_imp, forall_eq]
      exact ⟨exGal_ok, ht⟩, fun _ _ => ⟨exGal, by simp, ⟨1 / 2, 0, 0, 9, 1, 1, 4⟩, List.mem_cons_self, by norm_num⟩,
      fun _ _ _ => exPsf_ok.1, fun _ _ _ => exPsf_ok.2⟩ (by rw [hs]) [] ⟨rfl, rfl, by simp⟩ (by simp) none (.inl rfl)
  refine ⟨lstsq, P, r, _, s, rfl, by rw [hs], by rw [hs], a, ?_⟩
  have : s.pos = fun _ => (5, 4) := by rw [hs]
  rw [this] at b
  exact b

end Verif.Gpu
