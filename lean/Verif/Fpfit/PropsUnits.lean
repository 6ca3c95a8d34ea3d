import Verif.Fpfit.Units

/-!
# C151: forced photometry depends neither on the order nor on the units of the images, and ignores images without information

Spec: the fluxes that `forced_photometry` finds are the same for images in another order, with images added of which all inverse errors are zero, and
for images in other units (data, errors, sky and calibration multiplied by a number per image).
-/

namespace Verif.Fpfit

open Verif Patches Forced Linmod Finset

variable {R M : Type} [Field R] [LinearOrder R]

/-- All inverse errors of the image are zero. -/
def Masked (t : Tim R M) : Prop := ∀ y x : Nat, y < t.data.h → x < t.data.w → t.ie.px y x = 0

theorem sum_images (minsb : R) (sky : Bool) (cat : List (Source R)) (tims tims' extra : List (Tim R M)) (k e m : List R) (hm : ∀ t ∈ extra, Masked t)
    (hp : tims'.Perm (extra ++ tims)) (hk : k.length = tims'.length) (he : e.length = extra.length) (hl : m.length = tims.length)
    (hz : (tims'.zip k).Perm ((extra ++ tims).zip (e ++ m))) :
    (((if sky then setSky tims' k else tims')).map (chi2 minsb cat)).sum = (((if sky then setSky tims m else tims)).map (chi2 minsb cat)).sum := by
  have zero : ∀ l : List (Tim R M), (∀ t ∈ l, Masked t) → (l.map (chi2 minsb cat)).sum = 0 := by
    intro l h
    refine List.sum_eq_zero (fun v hv => ?_)
    obtain ⟨t, h1, rfl⟩ := List.mem_map.1 hv
    exact chi2_masked minsb cat t (h t h1)
  cases sky with
  | false =>
    rw [if_neg (by simp), if_neg (by simp), (hp.map _).sum_eq, List.map_append, List.sum_append, zero extra hm, zero_add]
  | true =>
    rw [if_pos rfl, if_pos rfl, setSky_zip tims' k hk]
    have h1 := (hz.map (fun p : Tim R M × R => { p.1 with sky := p.2 }))
    rw [← setSky_zip (extra ++ tims) (e ++ m) (by rw [List.length_append, List.length_append, he, hl])] at h1
    rw [(h1.map (chi2 minsb cat)).sum_eq, setSky_append extra tims e m he, List.map_append, List.sum_append, zero, zero_add]
    intro t ht
    obtain ⟨t0, h0, v, rfl⟩ := setSky_mem ht
    exact hm t0 h0

/-- From most likely parameters of the images in one order to those of the images in another, without those that have no information. -/
theorem best_images (minsb : R) (sky : Bool) (cat : List (Source R)) (tims tims' extra : List (Tim R M)) (hm : ∀ t ∈ extra, Masked t)
    (hp : tims'.Perm (extra ++ tims)) (hs : ∀ t ∈ tims', t.ie.h = t.data.h ∧ t.ie.w = t.data.w) (s' : St R) (h : Best minsb sky tims' cat s') :
    ∃ e m : List R, e.length = extra.length ∧ Best minsb sky tims cat ⟨s'.flux, m, s'.real⟩ ∧
      (setSky tims' s'.sky).Perm (setSky extra e ++ setSky tims m) := by
  have hs0 : ∀ t ∈ tims, t.ie.h = t.data.h ∧ t.ie.w = t.data.w := fun t ht => hs t (hp.mem_iff.2 (List.mem_append_right _ ht))
  obtain ⟨h1, h2, L', h3, h4⟩ := h
  obtain ⟨l, l1, l2⟩ := zip_perm hp s'.sky h2
  rw [List.length_append] at l1
  obtain ⟨e, m, rfl, he, hl⟩ : ∃ e m : List R, l = e ++ m ∧ e.length = extra.length ∧ m.length = tims.length :=
    ⟨l.take extra.length, l.drop extra.length, (List.take_append_drop _ _).symm, by rw [List.length_take]; omega, by rw [List.length_drop]; omega⟩
  refine ⟨e, m, he, ⟨h1, hl, _, logLike_list minsb _ _ (after_shape sky tims cat _ hs0), fun q hq hq' => ⟨_, logLike_list minsb _ _ (after_shape sky tims cat q hs0), ?_⟩⟩, ?_⟩
  · obtain ⟨k, k1, k2⟩ := zip_perm hp.symm (e ++ q.sky) (by rw [List.length_append, List.length_append, he, hq'])
    obtain ⟨L, g1, g2⟩ := h4 ⟨q.flux, k, true⟩ hq k1
    rw [logLike_list minsb _ _ (after_shape sky tims' cat _ hs)] at h3 g1
    injection h3 with h3
    injection g1 with g1
    rw [← h3, ← g1] at g2
    have e1 := sum_images minsb sky (setParams cat s'.flux) tims tims' extra s'.sky e m hm hp h2 he hl l2
    have e2 := sum_images minsb sky (setParams cat q.flux) tims tims' extra k e q.sky hm hp k1 he hq' k2.symm
    unfold after at g2 ⊢
    dsimp only at g2 ⊢
    rw [e1, e2] at g2
    exact g2
  · rw [setSky_zip tims' _ h2]
    have := l2.map (fun p : Tim R M × R => { p.1 with sky := p.2 })
    rwa [← setSky_zip (extra ++ tims) (e ++ m) (by rw [List.length_append, List.length_append, he, hl]), setSky_append extra tims e m he] at this

/-- **C151.** Forced photometry of some images, and of the same images in any order among others of which all inverse errors are zero: both fits end
normally, with the same fluxes; with `sky=True` the images end up with the same sky levels.  Conditions on the fits as in C138; the fluxes (and sky
levels) can be told from the pixels. -/
theorem C151_images [IsStrictOrderedRing R] (sqrt : R → R) (hsq : Lsq.SqrtOK sqrt) (tiny : R) (lsqr : Lsq.Problem R → List R) (hls : Lsq.Solves lsqr)
    (c : Cfg R) (hc : Plain c) (minsb : R) (tims tims' extra : List (Tim R M)) (cat : List (Source R)) (hm : ∀ t ∈ extra, Masked t)
    (hp : tims'.Perm (extra ++ tims)) (hf : Fair minsb tims' cat) (hid : Identifiable minsb c.sky tims cat) (shared shared' : Option (List Nat))
    (h1 : SharedOK minsb c.sky tims cat shared) (h2 : SharedOK minsb c.sky tims' cat shared') :
    (∃ s, Fits sqrt tiny lsqr c minsb tims cat shared s) ∧ (∃ s', Fits sqrt tiny lsqr c minsb tims' cat shared' s') ∧
    ∀ s s', Fits sqrt tiny lsqr c minsb tims cat shared s → Fits sqrt tiny lsqr c minsb tims' cat shared' s' →
      s.flux = s'.flux ∧ (c.sky = true → ∃ e : List R, (after c.sky tims' cat s').1.Perm (setSky extra e ++ (after c.sky tims cat s).1)) := by
  have mem : ∀ t ∈ tims, t ∈ tims' := fun t ht => hp.mem_iff.2 (List.mem_append_right _ ht)
  have hf0 : Fair minsb tims cat := ⟨fun t ht => hf.suits t (mem t ht), fun t ht => hf.shape t (mem t ht), fun t ht => hf.size t (mem t ht)⟩
  obtain ⟨a1, a2⟩ := fits_best sqrt hsq tiny lsqr hls c hc minsb tims cat hf0 shared h1
  obtain ⟨b1, b2⟩ := fits_best sqrt hsq tiny lsqr hls c hc minsb tims' cat hf shared' h2
  refine ⟨a1, b1, fun s s' hS hS' => ?_⟩
  obtain ⟨e, m, _, hB, hpe⟩ := best_images minsb c.sky cat tims tims' extra hm hp hf.shape s' (b2 s' hS')
  obtain ⟨u1, u2⟩ := best_unique minsb c.sky tims cat (fun t ht => (hf0.suits t ht).ready) hf0.shape hid s _ (a2 s hS) hB
  refine ⟨u1, fun hsky => ⟨e, ?_⟩⟩
  unfold after
  rw [hsky, if_pos rfl, if_pos rfl, u2 hsky]
  exact hpe

/-! Three pixels with two stars and a sky (fluxes 7 and 2, sky level 1), after an image with no information. -/

def exTimM : Tim ℚ Unit := { exTimG with data := Arr.ofLists [[100, -5, 50]] 3, ie := Arr.zeros 1 3, sky := 9 }

theorem exFairM : Fair 0 [exTimM, exTimG] exCatG := by
  refine ⟨fun t h => ?_, by simp [exTimG, exTimM, Arr.ofLists, Arr.zeros], by simp [exTimG, exTimM, Arr.ofLists]⟩
  obtain rfl | rfl : t = exTimM ∨ t = exTimG := by simpa using h
  all_goals exact ⟨by simp [exCatG, Linmod.exB, exTimG, exTimM], by simp [exTimG, exTimM], fun _ _ _ => .inl (fun _ _ _ => rfl)⟩

example (lsqr : Lsq.Problem ℚ → List ℚ) (hl : Lsq.Solves lsqr) : ∃ s, Fits id 0 lsqr exCfgS 0 [exTimM, exTimG] exCatG none s ∧ s.flux = [7, 2] := by
  obtain ⟨⟨s, h1⟩, ⟨s', h2⟩, h3⟩ := C151_images id (fun x hx => hx) 0 lsqr hl exCfgS ⟨rfl, rfl, rfl, rfl, rfl⟩ 0 [exTimG] [exTimM, exTimG] [exTimM] exCatG
    (by intro t ht y x _ _; rw [List.mem_singleton] at ht; subst ht; rfl) (.refl _) exFairM exIdentGS none none (.inl rfl) (.inl rfl)
  refine ⟨s', h2, ?_⟩
  rw [← (h3 s s' h1 h2).1]
  exact (best_unique 0 true [exTimG] exCatG (fun t ht => (exFairG.suits t ht).ready) exFairG.shape exIdentGS _ _
    ((fits_best id (fun x hx => hx) 0 lsqr hl exCfgS ⟨rfl, rfl, rfl, rfl, rfl⟩ 0 [exTimG] exCatG exFairG none (.inl rfl)).2 s h1) exBestG).1

/-! ### Units -/

theorem sum_units (sky : Bool) (cat : List (Source R)) : ∀ (L : List (R × Tim R M)) (m : List R), (∀ p ∈ L, 0 < p.1) → m.length = L.length →
    ((if sky then setSky (L.map (fun p => p.2.inUnits p.1)) (List.zipWith (· * ·) (L.map (·.1)) m) else L.map (fun p => p.2.inUnits p.1)).map (chi2 0 cat)).sum =
      ((if sky then setSky (L.map (·.2)) m else L.map (·.2)).map (chi2 0 cat)).sum := by
  intro L
  induction L with
  | nil => intro m _ _; cases sky <;> rfl
  | cons p L ih =>
    intro m hpos hl
    cases m with
    | nil => simp at hl
    | cons v m =>
      have h0 := hpos p List.mem_cons_self
      have ih := ih m (fun p h => hpos p (List.mem_cons_of_mem _ h)) (by simpa using hl)
      cases sky with
      | false =>
        simp only [Bool.false_eq_true, if_false] at ih ⊢
        rw [List.map_cons, List.map_cons, List.map_cons, List.map_cons, List.sum_cons, List.sum_cons, ih]
        congr 1
        exact chi2_units p.2 p.1 p.2.sky (ne_of_gt h0) cat
      | true =>
        simp only [if_true] at ih ⊢
        rw [List.map_cons, List.map_cons, List.map_cons, List.zipWith_cons_cons, setSky, setSky, List.map_cons, List.map_cons, List.sum_cons, List.sum_cons]
        rw [List.tail_cons, List.tail_cons, ih]
        congr 1
        exact chi2_units p.2 p.1 v (ne_of_gt h0) cat

theorem Suits.inUnits [IsStrictOrderedRing R] {cat : List (Source R)} {t : Tim R M} (h : Suits 0 cat t) (a : R) (ha : 0 < a) : Suits 0 cat (t.inUnits a) := by
  refine ⟨h.band, h.mask, fun s hs ht => (h.cut s hs ht).imp id (fun hc => ⟨rfl, ?_, fun h2 => ?_⟩)⟩
  · have e : (s.parts.map (fun b => b.flux (t.inUnits a).band * (t.inUnits a).scale)).sum = a * (s.parts.map (fun b => b.flux t.band * t.scale)).sum := by
      generalize s.parts = l
      induction l with
      | nil => simp
      | cons b l ih =>
        rw [List.map_cons, List.sum_cons, ih, List.map_cons, List.sum_cons, mul_add]
        congr 1
        change b.flux t.band * (a * t.scale) = _
        ring
    rw [e]
    exact mul_pos ha hc.2.1
  · change a * t.minval = 0
    rw [hc.2.2 h2, mul_zero]

theorem after_units (L : List (R × Tim R M)) (hs : ∀ p ∈ L, p.2.ie.h = p.2.data.h ∧ p.2.ie.w = p.2.data.w) :
    ∀ t ∈ L.map (fun p => p.2.inUnits p.1), t.ie.h = t.data.h ∧ t.ie.w = t.data.w := by
  intro t ht
  obtain ⟨p, h1, rfl⟩ := List.mem_map.1 ht
  exact hs p h1

theorem div_back (a m : List R) (h : m.length = a.length) (ha : ∀ v ∈ a, 0 < v) :
    List.zipWith (· * ·) a (List.zipWith (fun v w => w / v) a m) = m := by
  induction a generalizing m with
  | nil => rw [List.length_nil, List.length_eq_zero_iff] at h; subst h; rfl
  | cons v a ih =>
    cases m with
    | nil => simp at h
    | cons w m =>
      rw [List.zipWith_cons_cons, List.zipWith_cons_cons, ih m (by simpa using h) (fun v h => ha v (List.mem_cons_of_mem _ h))]
      congr 1
      have := ne_of_gt (ha v List.mem_cons_self)
      field_simp

/-- **C151.** Forced photometry of images, and of the same images each in other units: both fits end normally, with the same fluxes; with `sky=True` the sky
levels are the same in the other units.  `minsb` is zero (it has the units of an image); conditions otherwise as before. -/
theorem C151_units [IsStrictOrderedRing R] (sqrt : R → R) (hsq : Lsq.SqrtOK sqrt) (tiny : R) (lsqr : Lsq.Problem R → List R) (hls : Lsq.Solves lsqr)
    (c : Cfg R) (hc : Plain c) (L : List (R × Tim R M)) (hpos : ∀ p ∈ L, 0 < p.1) (cat : List (Source R)) (hf : Fair 0 (L.map (·.2)) cat)
    (hid : Identifiable 0 c.sky (L.map (·.2)) cat) (shared shared' : Option (List Nat))
    (h1 : SharedOK 0 c.sky (L.map (·.2)) cat shared) (h2 : SharedOK 0 c.sky (L.map (fun p => p.2.inUnits p.1)) cat shared') :
    (∃ s, Fits sqrt tiny lsqr c 0 (L.map (·.2)) cat shared s) ∧ (∃ s', Fits sqrt tiny lsqr c 0 (L.map (fun p => p.2.inUnits p.1)) cat shared' s') ∧
    ∀ s s', Fits sqrt tiny lsqr c 0 (L.map (·.2)) cat shared s → Fits sqrt tiny lsqr c 0 (L.map (fun p => p.2.inUnits p.1)) cat shared' s' →
      s'.flux = s.flux ∧ (c.sky = true → s'.sky = List.zipWith (· * ·) (L.map (·.1)) s.sky) := by
  have mem : ∀ p ∈ L, p.2 ∈ L.map (·.2) := fun p h => List.mem_map.2 ⟨p, h, rfl⟩
  have hf' : Fair 0 (L.map (fun p => p.2.inUnits p.1)) cat := by
    refine ⟨fun t ht => ?_, fun t ht => ?_, fun t ht => ?_⟩
    all_goals obtain ⟨p, hp, rfl⟩ := List.mem_map.1 ht
    · exact (hf.suits _ (mem p hp)).inUnits p.1 (hpos p hp)
    · exact hf.shape p.2 (mem p hp)
    · exact hf.size p.2 (mem p hp)
  obtain ⟨a1, a2⟩ := fits_best sqrt hsq tiny lsqr hls c hc 0 (L.map (·.2)) cat hf shared h1
  obtain ⟨b1, b2⟩ := fits_best sqrt hsq tiny lsqr hls c hc 0 (L.map (fun p => p.2.inUnits p.1)) cat hf' shared' h2
  refine ⟨a1, b1, fun s s' hS hS' => ?_⟩
  have posm : ∀ v ∈ L.map (·.1), 0 < v := by
    intro v hv
    obtain ⟨p, hp, rfl⟩ := List.mem_map.1 hv
    exact hpos p hp
  obtain ⟨f1, f2, L', f3, f4⟩ := b2 s' hS'
  rw [List.length_map] at f2
  have back := div_back (L.map (·.1)) s'.sky (by rw [List.length_map, f2]) posm
  have bl : (List.zipWith (fun v w => w / v) (L.map (·.1)) s'.sky).length = L.length := by
    rw [List.length_zipWith, List.length_map, f2, Nat.min_self]
  have hB : Best 0 c.sky (L.map (·.2)) cat ⟨s'.flux, List.zipWith (fun v w => w / v) (L.map (·.1)) s'.sky, s'.real⟩ := by
    refine ⟨f1, by rw [List.length_map]; exact bl, _, logLike_list 0 _ _ (after_shape c.sky _ cat _ hf.shape), fun q hq hq' =>
      ⟨_, logLike_list 0 _ _ (after_shape c.sky _ cat q hf.shape), ?_⟩⟩
    rw [List.length_map] at hq'
    obtain ⟨K, g1, g2⟩ := f4 ⟨q.flux, List.zipWith (· * ·) (L.map (·.1)) q.sky, true⟩ hq (by
      rw [List.length_zipWith, List.length_map, List.length_map, hq', Nat.min_self])
    rw [logLike_list 0 _ _ (after_shape c.sky _ cat _ hf'.shape)] at f3 g1
    injection f3 with f3
    injection g1 with g1
    rw [← f3, ← g1] at g2
    have e1 := sum_units c.sky (setParams cat s'.flux) L _ hpos bl
    rw [back] at e1
    have e2 := sum_units c.sky (setParams cat q.flux) L q.sky hpos hq'
    unfold after at g2 ⊢
    dsimp only at g2 ⊢
    rw [e1, e2] at g2
    exact g2
  obtain ⟨u1, u2⟩ := best_unique 0 c.sky (L.map (·.2)) cat (fun t ht => (hf.suits t ht).ready) hf.shape hid s _ (a2 s hS) hB
  refine ⟨u1.symm, fun hsky => ?_⟩
  rw [u2 hsky]
  exact back.symm

/-- In units a third as large the fluxes are the same, the sky level is 3. -/
example (lsqr : Lsq.Problem ℚ → List ℚ) (hl : Lsq.Solves lsqr) : ∃ s, Fits id 0 lsqr exCfgS 0 [exTimG.inUnits 3] exCatG none s ∧ s.flux = [7, 2] ∧ s.sky = [3] := by
  obtain ⟨⟨s, h1⟩, ⟨s', h2⟩, h3⟩ := C151_units id (fun x hx => hx) 0 lsqr hl exCfgS ⟨rfl, rfl, rfl, rfl, rfl⟩ [(3, exTimG)] (by simp) exCatG exFairG
    exIdentGS none none (.inl rfl) (.inl rfl)
  have hb := best_unique 0 true [exTimG] exCatG (fun t ht => (exFairG.suits t ht).ready) exFairG.shape exIdentGS _ _
    ((fits_best id (fun x hx => hx) 0 lsqr hl exCfgS ⟨rfl, rfl, rfl, rfl, rfl⟩ 0 [exTimG] exCatG exFairG none (.inl rfl)).2 s h1) exBestG
  refine ⟨s', h2, ?_, ?_⟩
  · rw [(h3 s s' h1 h2).1]; exact hb.1
  · rw [(h3 s s' h1 h2).2 rfl, hb.2 rfl]
    decide +kernel

/-! ### Order of the sources -/

omit [Field R] [LinearOrder R] in
/-- Parameters follow their sources. -/
theorem setParams_perm {a b : List (Source R)} (h : a.Perm b) : ∀ p : List R, p.length = numParams a →
    ∃ p' : List R, p'.length = numParams b ∧ (setParams a p).Perm (setParams b p') := by
  induction h with
  | nil => intro p hp; exact ⟨p, hp, .refl _⟩
  | cons s h ih =>
    intro p hp
    by_cases hs : s.thawed = true
    · obtain ⟨u, v, rfl, h1, h2⟩ := split_first s _ p hs hp
      obtain ⟨v', h3, h4⟩ := ih v h2
      exact ⟨u ++ v', by rw [List.length_append, numParams_cons, if_pos hs, h1, h3], by
        rw [setParams_thawed _ _ _ _ hs h1, setParams_thawed _ _ _ _ hs h1]; exact h4.cons _⟩
    · rw [numParams_cons, if_neg hs, Nat.zero_add] at hp
      obtain ⟨v', h3, h4⟩ := ih p hp
      exact ⟨v', by rw [numParams_cons, if_neg hs, Nat.zero_add, h3], by
        rw [setParams_frozen _ _ _ hs, setParams_frozen _ _ _ hs]; exact h4.cons _⟩
  | swap s t a =>
    intro p hp
    by_cases hs : s.thawed = true
    · by_cases ht : t.thawed = true
      · obtain ⟨u, v, rfl, h1, h2⟩ := split_first t _ p ht hp
        obtain ⟨w, z, rfl, h3, h4⟩ := split_first s _ v hs h2
        refine ⟨w ++ (u ++ z), ?_, ?_⟩
        · rw [List.length_append, List.length_append, numParams_cons, numParams_cons, if_pos hs, if_pos ht, h1, h3, h4]
        · rw [setParams_thawed _ _ _ _ ht h1, setParams_thawed _ _ _ _ hs h3, setParams_thawed _ _ _ _ hs h3, setParams_thawed _ _ _ _ ht h1]
          exact List.Perm.swap _ _ _
      · rw [numParams_cons, if_neg ht, Nat.zero_add] at hp
        obtain ⟨w, z, rfl, h3, h4⟩ := split_first s _ p hs hp
        refine ⟨w ++ z, ?_, ?_⟩
        · rw [List.length_append, numParams_cons, numParams_cons, if_pos hs, if_neg ht, h3, h4, Nat.zero_add]
        · rw [setParams_frozen _ _ _ ht, setParams_thawed _ _ _ _ hs h3, setParams_thawed _ _ _ _ hs h3, setParams_frozen _ _ _ ht]
          exact List.Perm.swap _ _ _
    · by_cases ht : t.thawed = true
      · obtain ⟨u, v, rfl, h1, h2⟩ := split_first t _ p ht hp
        rw [numParams_cons, if_neg hs, Nat.zero_add] at h2
        refine ⟨u ++ v, ?_, ?_⟩
        · rw [List.length_append, numParams_cons, numParams_cons, if_neg hs, if_pos ht, h1, h2, Nat.zero_add]
        · rw [setParams_thawed _ _ _ _ ht h1, setParams_frozen _ _ _ hs, setParams_frozen _ _ _ hs, setParams_thawed _ _ _ _ ht h1]
          exact List.Perm.swap _ _ _
      · rw [numParams_cons, numParams_cons, if_neg hs, if_neg ht, Nat.zero_add, Nat.zero_add] at hp
        refine ⟨p, ?_, ?_⟩
        · rw [numParams_cons, numParams_cons, if_neg hs, if_neg ht, hp, Nat.zero_add, Nat.zero_add]
        · rw [setParams_frozen _ _ _ ht, setParams_frozen _ _ _ hs, setParams_frozen _ _ _ hs, setParams_frozen _ _ _ ht]
          exact List.Perm.swap _ _ _
  | trans _ _ ih1 ih2 =>
    intro p hp
    obtain ⟨p1, h1, h2⟩ := ih1 p hp
    obtain ⟨p2, h3, h4⟩ := ih2 p1 h1
    exact ⟨p2, h3, h2.trans h4⟩

theorem chi2_perm (minsb : R) {a b : List (Source R)} (h : a.Perm b) (t : Tim R M) : chi2 minsb a t = chi2 minsb b t := by
  have e : ∀ (l : List (Source R)) (y x : Nat), light t minsb l y x = (l.map (fun s => sumAt x y (modelOf t.W t.img minsb s))).sum := by
    intro l y x
    induction l with
    | nil => rfl
    | cons s l ih =>
      rw [List.map_cons, List.sum_cons, ← ih]
      unfold light
      rw [List.map_cons, List.flatten_cons, sumAt_append]
  unfold chi2
  refine sum_congr rfl (fun y _ => sum_congr rfl (fun x _ => ?_))
  rw [e, e, (h.map _).sum_eq]

/-- **C151.** Forced photometry of a catalog and of the same sources in another order: both fits end normally, with the same sources. -/
theorem C151_sources [IsStrictOrderedRing R] (sqrt : R → R) (hsq : Lsq.SqrtOK sqrt) (tiny : R) (lsqr : Lsq.Problem R → List R) (hls : Lsq.Solves lsqr)
    (c : Cfg R) (hc : Plain c) (minsb : R) (tims : List (Tim R M)) (cat cat' : List (Source R)) (hp : cat'.Perm cat) (hf : Fair minsb tims cat)
    (hid : Identifiable minsb c.sky tims cat) (shared shared' : Option (List Nat))
    (h1 : SharedOK minsb c.sky tims cat shared) (h2 : SharedOK minsb c.sky tims cat' shared') :
    (∃ s, Fits sqrt tiny lsqr c minsb tims cat shared s) ∧ (∃ s', Fits sqrt tiny lsqr c minsb tims cat' shared' s') ∧
    ∀ s s', Fits sqrt tiny lsqr c minsb tims cat shared s → Fits sqrt tiny lsqr c minsb tims cat' shared' s' →
      (after c.sky tims cat' s').2.Perm (after c.sky tims cat s).2 ∧ (c.sky = true → s'.sky = s.sky) := by
  have hf' : Fair minsb tims cat' := ⟨fun t ht => ⟨fun s hs => (hf.suits t ht).band s (hp.mem_iff.1 hs), fun s hs => (hf.suits t ht).mask s (hp.mem_iff.1 hs),
    fun s hs => (hf.suits t ht).cut s (hp.mem_iff.1 hs)⟩, hf.shape, hf.size⟩
  obtain ⟨a1, a2⟩ := fits_best sqrt hsq tiny lsqr hls c hc minsb tims cat hf shared h1
  obtain ⟨b1, b2⟩ := fits_best sqrt hsq tiny lsqr hls c hc minsb tims cat' hf' shared' h2
  refine ⟨a1, b1, fun s s' hS hS' => ?_⟩
  obtain ⟨f1, f2, L', f3, f4⟩ := b2 s' hS'
  obtain ⟨p, p1, p2⟩ := setParams_perm hp s'.flux f1
  have same : ∀ (q q' : St R), q.sky = q'.sky → (setParams cat q.flux).Perm (setParams cat' q'.flux) →
      logLike minsb (after c.sky tims cat q).1 (after c.sky tims cat q).2 = logLike minsb (after c.sky tims cat' q').1 (after c.sky tims cat' q').2 := by
    intro q q' e hpe
    rw [logLike_list minsb _ _ (after_shape c.sky tims cat q hf.shape), logLike_list minsb _ _ (after_shape c.sky tims cat' q' hf.shape)]
    have e2 : (after c.sky tims cat q).1 = (after c.sky tims cat' q').1 := by unfold after; rw [e]
    rw [e2]
    congr 3
    exact List.map_congr_left (fun t _ => chi2_perm minsb hpe t)
  have hB : Best minsb c.sky tims cat ⟨p, s'.sky, s'.real⟩ := by
    refine ⟨p1, f2, L', by rw [same ⟨p, s'.sky, s'.real⟩ s' rfl p2.symm]; exact f3, fun q hq hq' => ?_⟩
    obtain ⟨p', g1, g2⟩ := setParams_perm hp.symm q.flux hq
    obtain ⟨K, k1, k2⟩ := f4 ⟨p', q.sky, true⟩ g1 hq'
    exact ⟨K, by rw [same q ⟨p', q.sky, true⟩ rfl g2]; exact k1, k2⟩
  obtain ⟨u1, u2⟩ := best_unique minsb c.sky tims cat (fun t ht => (hf.suits t ht).ready) hf.shape hid s _ (a2 s hS) hB
  refine ⟨?_, fun h => (u2 h).symm⟩
  change (setParams cat' s'.flux).Perm (setParams cat s.flux)
  rw [u1]
  exact p2

/-- The stars in the other order. -/
example (lsqr : Lsq.Problem ℚ → List ℚ) (hl : Lsq.Solves lsqr) : ∃ s, Fits id 0 lsqr exCfgS 0 [exTimG] exCatG.reverse none s ∧
    (setParams exCatG.reverse s.flux).Perm (setParams exCatG [7, 2]) := by
  obtain ⟨⟨s, h1⟩, ⟨s', h2⟩, h3⟩ := C151_sources id (fun x hx => hx) 0 lsqr hl exCfgS ⟨rfl, rfl, rfl, rfl, rfl⟩ 0 [exTimG] exCatG exCatG.reverse
    (List.reverse_perm _) exFairG exIdentGS none none (.inl rfl) (.inl rfl)
  have hb := best_unique 0 true [exTimG] exCatG (fun t ht => (exFairG.suits t ht).ready) exFairG.shape exIdentGS _ _
    ((fits_best id (fun x hx => hx) 0 lsqr hl exCfgS ⟨rfl, rfl, rfl, rfl, rfl⟩ 0 [exTimG] exCatG exFairG none (.inl rfl)).2 s h1) exBestG
  refine ⟨s', h2, ?_⟩
  have := (h3 s s' h1 h2).1
  change (setParams exCatG.reverse s'.flux).Perm (setParams exCatG s.flux) at this
  rwa [hb.1] at this

end Verif.Fpfit
