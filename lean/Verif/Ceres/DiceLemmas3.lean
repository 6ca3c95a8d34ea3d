import Verif.Ceres.DiceLemmas2

/-! The sum of squares over the blocks; the list of entries. -/

namespace Verif.Ceres

open Verif Patches

variable {R : Type}

/-! ### Blocks -/

theorem slice_block (A : Arr R) (B H W iy ix : Nat) (hH : A.h = H) (hW : A.w = W) (hy : iy * B < H) (hx : ix * B < W) :
    A.slice (some ((iy * B : Nat) : Int)) (some (min (((iy * B : Nat) : Int) + B) H))
      (some ((ix * B : Nat) : Int)) (some (min (((ix * B : Nat) : Int) + B) W)) =
    ⟨min (iy * B + B) H - iy * B, min (ix * B + B) W - ix * B, fun r c => A.px (iy * B + r) (ix * B + c)⟩ := by
  subst hH hW
  simp only [Arr.slice]
  generalize iy * B = s at *
  generalize ix * B = t at *
  rw [Psf.axis_of _ _ _ (by omega) (by omega), Psf.axis_of _ _ _ (by omega) (by omega)]
  simp only
  have e1 : min ((s : Int)).toNat A.h = s := by omega
  have e2 : min ((t : Int)).toNat A.w = t := by omega
  rw [e1, e2]
  congr 1 <;> omega

/-- The three arrays have one shape. -/
def SameShape (im : Im R) (mod0 : Arr R) : Prop :=
  im.ie.h = im.img.h ∧ im.ie.w = im.img.w ∧ mod0.h = im.img.h ∧ mod0.w = im.img.w

theorem blockData_eq (B : Nat) (im : Im R) (mod0 : Arr R) (hs : SameShape im mod0) (iy ix : Nat)
    (hy : iy * B < im.img.h) (hx : ix * B < im.img.w) :
    blockData B im mod0 iy ix =
      ⟨((ix * B : Nat) : Int), ((iy * B : Nat) : Int),
        ⟨min (iy * B + B) im.img.h - iy * B, min (ix * B + B) im.img.w - ix * B, fun r c => im.img.px (iy * B + r) (ix * B + c)⟩,
        ⟨min (iy * B + B) im.img.h - iy * B, min (ix * B + B) im.img.w - ix * B, fun r c => mod0.px (iy * B + r) (ix * B + c)⟩,
        ⟨min (iy * B + B) im.img.h - iy * B, min (ix * B + B) im.img.w - ix * B, fun r c => im.ie.px (iy * B + r) (ix * B + c)⟩⟩ := by
  obtain ⟨h1, h2, h3, h4⟩ := hs
  simp only [blockData]
  rw [slice_block im.img B _ _ iy ix rfl rfl hy hx, slice_block mod0 B _ _ iy ix h3 h4 hy hx,
    slice_block im.ie B _ _ iy ix h1 h2 hy hx]

section
variable [Field R]

theorem addSource_px (flux : List R) (b : Data R) (m : Arr R) (s : Src R) (r c y x : Nat) (hr : r < b.img.h) (hc : c < b.img.w)
    (hy : b.y0 + r = y) (hx : b.x0 + c = x) :
    (addSource flux b m s).px r c = m.px r c + srcAt s y x * flux.getD s.slot 0 := by
  simp only [addSource, srcAt, hy, hx]
  by_cases h : s.y0 ≤ y ∧ (y : Int) < s.y0 + s.px.h ∧ s.x0 ≤ x ∧ (x : Int) < s.x0 + s.px.w
  · rw [if_pos h, if_pos (by omega)]
  · rw [if_neg h, if_neg (by omega), zero_mul, add_zero]

theorem foldl_px (flux : List R) (b : Data R) (r c y x : Nat) (hr : r < b.img.h) (hc : c < b.img.w)
    (hy : b.y0 + r = y) (hx : b.x0 + c = x) : ∀ (l : List (Src R)) (m : Arr R),
    (l.foldl (addSource flux b) m).px r c = m.px r c + contrib flux l y x
  | [], m => by simp [contrib]
  | s :: l, m => by
    rw [List.foldl_cons, foldl_px flux b r c y x hr hc hy hx l, addSource_px flux b m s r c y x hr hc hy hx]
    simp only [contrib, List.map_cons, List.sum_cons]
    ring

/-- Sum over the pixels of an image. -/
def pixSum (h w : Nat) (f : Nat → Nat → R) : R :=
  ((List.range h).map (fun y => ((List.range w).map (fun x => f y x)).sum)).sum

theorem pixSum_congr (h w : Nat) (f g : Nat → Nat → R) (e : ∀ y x, y < h → x < w → f y x = g y x) :
    pixSum h w f = pixSum h w g := by
  rw [pixSum, pixSum]
  congr 1
  refine List.map_congr_left (fun y hy => ?_)
  congr 1
  exact List.map_congr_left (fun x hx => e y x (List.mem_range.1 hy) (List.mem_range.1 hx))

theorem ravel_sum (A : Arr R) (f : R → R) : (A.ravel.map f).sum = pixSum A.h A.w (fun r c => f (A.px r c)) := by
  rw [Arr.ravel, sum_flatMap, pixSum]
  congr 1
  refine List.map_congr_left (fun r _ => ?_)
  rw [List.map_map]; rfl

theorem pixSum_dice (B h w : Nat) (hB : 0 < B) (f : Nat → Nat → R) :
    ((List.range (nblocks B h)).map (fun iy => ((List.range (nblocks B w)).map (fun ix =>
      pixSum (min (iy * B + B) h - iy * B) (min (ix * B + B) w - ix * B) (fun r c => f (iy * B + r) (ix * B + c)))).sum)).sum =
    pixSum h w f := by
  have row : ∀ (g : Nat → R) (n : Nat), ((List.range (nblocks B n)).map (fun i =>
      ((List.range (min (i * B + B) n - i * B)).map (fun r => g (i * B + r))).sum)).sum = ((List.range n).map g).sum := by
    intro g n
    conv_rhs => rw [← range_dice B n hB, sum_flatMap]
    congr 1
    refine List.map_congr_left (fun i _ => ?_)
    rw [List.map_map]; rfl
  rw [pixSum, ← row (fun y => ((List.range w).map (fun x => f y x)).sum) h]
  congr 1
  refine List.map_congr_left (fun iy _ => ?_)
  simp only [pixSum]
  rw [sum_swap (List.range (nblocks B w)) (List.range (min (iy * B + B) h - iy * B))
    (fun ix r => ((List.range (min (ix * B + B) w - ix * B)).map (fun c => f (iy * B + r) (ix * B + c))).sum)]
  congr 1
  refine List.map_congr_left (fun r _ => ?_)
  exact row (fun x => f (iy * B + r) x) w

theorem Q.cost (B : Nat) (hB : 0 < B) (q : Q R) (hs : SameShape q.im q.mod0) (flux : List R) :
    Ceres.cost (q.blocks B) flux = pixSum q.im.img.h q.im.img.w (fun y x =>
      ((q.im.img.px y x - (q.mod0.px y x + contrib flux (q.A (y / B) (x / B)) y x)) * q.im.ie.px y x) ^ 2) := by
  rw [Ceres.cost, Q.blocks, grid, sum_flatMap, ← pixSum_dice B _ _ hB]
  congr 1
  refine List.map_congr_left (fun iy hiy => ?_)
  rw [List.map_map]
  congr 1
  refine List.map_congr_left (fun ix hix => ?_)
  have hy := nblocks_start B _ iy hB (List.mem_range.1 hiy)
  have hx := nblocks_start B _ ix hB (List.mem_range.1 hix)
  simp only [Function.comp]
  rw [blockData_eq B _ _ hs iy ix hy hx, ravel_sum]
  refine pixSum_congr _ _ _ _ (fun r c hr hc => ?_)
  simp only [residuals] at hr hc ⊢
  rw [foldl_px flux _ r c (iy * B + r) (ix * B + c) hr hc (by push_cast; rfl) (by push_cast; rfl)]
  have d1 : (iy * B + r) / B = iy := by
    rw [Nat.mul_comm, Nat.mul_add_div hB, Nat.div_eq_of_lt (by omega), Nat.add_zero]
  have d2 : (ix * B + c) / B = ix := by
    rw [Nat.mul_comm, Nat.mul_add_div hB, Nat.div_eq_of_lt (by omega), Nat.add_zero]
  rw [d1, d2]

theorem cost_all (B : Nat) (hB : 0 < B) (flux : List R) (F : Nat × Im R × Arr R → R) : ∀ (Qs : List (Q R)),
    (∀ q ∈ Qs, Ceres.cost (q.blocks B) flux = F q.trip) →
    Ceres.cost (allBlocks B Qs) flux = ((Qs.map Q.trip).map F).sum
  | [], _ => by simp [Ceres.cost, allBlocks]
  | q :: Qs, h => by
    have := cost_all B hB flux F Qs (fun q' hq' => h q' (List.mem_cons_of_mem _ hq'))
    rw [List.map_cons, List.map_cons, List.sum_cons, ← this, ← h q (List.mem_cons_self ..)]
    simp [Ceres.cost, allBlocks, List.flatMap_cons, List.map_append, List.sum_append]

end

/-! ### The entries -/

theorem filter_zipIdx {β : Type} (i : Nat) : ∀ (l : List β) (k : Nat),
    (l.zipIdx k).filter (fun t => t.2 = i) = if k ≤ i then (l[i - k]?).toList.map (fun b => (b, i)) else []
  | [], k => by simp
  | b :: l, k => by
    rw [List.zipIdx_cons]
    by_cases h : k = i
    · subst h
      rw [List.filter_cons_of_pos (by simp), filter_zipIdx k l (k + 1), if_neg (by omega)]
      simp
    · rw [List.filter_cons_of_neg (by simpa using h), filter_zipIdx i l (k + 1)]
      by_cases h2 : k ≤ i
      · rw [if_pos (by omega), if_pos h2, show i - k = (i - (k + 1)) + 1 by omega, List.getElem?_cons_succ]
      · rw [if_neg (by omega), if_neg h2]

theorem filter_map_zipIdx {β γ : Type} (l : List β) (f : β × Nat → γ) (key : γ → Nat) (hk : ∀ t, key (f t) = t.2)
    (b : β) (i : Nat) (h : l[i]? = some b) : (l.zipIdx.map f).filter (fun e => key e = i) = [f (b, i)] := by
  rw [List.filter_map, show ((fun e => decide (key e = i)) ∘ f) = (fun t : β × Nat => decide (t.2 = i)) by
    funext t; simp [hk], filter_zipIdx, if_pos (Nat.zero_le _), Nat.sub_zero, h]
  rfl

theorem trips_new : ∀ (es : List (Entry R)) (l : List (Nat × Im R × Arr R)), (es.map (·.key)).Nodup →
    (∀ e ∈ es, e.key ∉ l.map (·.1)) → trips l es = l ++ es.map (fun e => (e.key, e.im, e.mod0))
  | [], l, _, _ => by simp [trips]
  | e :: es, l, hn, h => by
    rw [List.map_cons] at hn
    obtain ⟨h1, h2⟩ := List.nodup_cons.1 hn
    rw [trips, if_neg (h e (List.mem_cons_self ..)), trips_new es _ h2]
    · simp
    · intro e' he' hm
      rw [List.map_append, List.mem_append] at hm
      rcases hm with hm | hm
      · exact h e' (List.mem_cons_of_mem _ he') hm
      · simp only [List.map_cons, List.map_nil, List.mem_singleton] at hm
        exact h1 (hm ▸ List.mem_map_of_mem he')

theorem trips_old : ∀ (es : List (Entry R)) (l : List (Nat × Im R × Arr R)), (∀ e ∈ es, e.key ∈ l.map (·.1)) → trips l es = l
  | [], l, _ => rfl
  | e :: es, l, h => by
    rw [trips, if_pos (h e (List.mem_cons_self ..)), trips_old es l (fun e' he' => h e' (List.mem_cons_of_mem _ he'))]

section
variable [Field R] [DecidableEq R]

omit [Field R] [DecidableEq R] in
/-- The derivatives of one image, picked out again. -/
theorem skyDerivs_filter (i : Nat) : ∀ (skys : List (List (Patch R))) (k : Nat),
    ((skys.zipIdx k).flatMap (fun s => s.1.map (fun d => (d, s.2)))).filter (fun d : Patch R × Nat => d.2 = i) =
      if k ≤ i then ((skys[i - k]?).getD []).map (fun d => (d, i)) else []
  | [], k => by simp
  | s :: skys, k => by
    rw [List.zipIdx_cons, List.flatMap_cons, List.filter_append, skyDerivs_filter i skys (k + 1)]
    by_cases h : k = i
    · subst h
      rw [if_neg (by omega), if_pos (Nat.le_refl _)]
      simp [List.filter_map, Function.comp_def]
    · have : (s.map (fun d => (d, k))).filter (fun d : Patch R × Nat => d.2 = i) = [] := by
        rw [List.filter_eq_nil_iff]; intro d hd
        obtain ⟨d', _, rfl⟩ := List.mem_map.1 hd
        simpa using h
      simp only [this, List.nil_append]
      by_cases h2 : k ≤ i
      · rw [if_pos (by omega), if_pos h2, show i - k = (i - (k + 1)) + 1 by omega, List.getElem?_cons_succ]
      · rw [if_neg (by omega), if_neg h2]

/-- Number of sky parameters of the images before image `i`. -/
def skyOff (skys : List (List (Patch R))) (i : Nat) : Nat := ((List.range i).map (fun k => (skys.getD k []).length)).sum

/-- The sky entry of image `i`. -/
def skyEntry (skys : List (List (Patch R))) (t : (Im R × Arr R) × Nat) : Entry R :=
  ⟨(skys.getD t.2 []).map some, t.2, t.1.1, 1, t.1.2, skyOff skys t.2⟩

omit [DecidableEq R] in
theorem skyEntries_eq (skys : List (List (Patch R))) : ∀ (rest : List (Im R × Arr R)) (k : Nat),
    skyEntries (skyDerivs skys) k (skyOff skys k) rest = (rest.zipIdx k).map (skyEntry skys)
  | [], k => by simp [skyEntries]
  | (im, mod0) :: rest, k => by
    have hm : ((skyDerivs skys).filter (fun d => d.2 = k)).map (fun d => some d.1) = (skys.getD k []).map some := by
      rw [skyDerivs, skyDerivs_filter, if_pos (Nat.zero_le _), List.map_map, Nat.sub_zero, List.getD_eq_getElem?_getD]; rfl
    have ho : skyOff skys k + ((skys.getD k []).map some).length = skyOff skys (k + 1) := by
      simp [skyOff, List.range_succ]
    rw [skyEntries]
    simp only [hm, ho, skyEntries_eq skys rest (k + 1), List.zipIdx_cons, List.map_cons]
    rfl

/-- The model entry of image `i`. -/
def modEntry (nsky : Nat) (u : (List (Option (Patch R)) × Im R × Arr R × R) × Nat) : Entry R :=
  ⟨u.1.1, u.2, u.1.2.1, u.1.2.2.2, u.1.2.2.1, nsky⟩

omit [DecidableEq R] in
theorem mkZ_sky (skys : List (List (Patch R))) (ims : List (Im R × Arr R × R)) (umodels : List (List (Option (Patch R)))) :
    mkZ (some skys) ims umodels = (ims.map (fun i => (i.1, i.2.1))).zipIdx.map (skyEntry skys) ++
      (umodels.zip ims).zipIdx.map (modEntry (skyOff skys ims.length)) := by
  have h0 := skyEntries_eq skys (ims.map (fun i => (i.1, i.2.1))) 0
  rw [show skyOff skys 0 = 0 from rfl] at h0
  simp only [mkZ, Option.getD_some, Option.isSome_some, if_true, h0]
  congr 2
  funext u
  simp only [modEntry]
  congr 1
  rw [List.map_map, skyOff]
  have : ∀ (l : List (Im R × Arr R)) (k : Nat), (l.zipIdx k).map ((fun e => e.umods.length) ∘ skyEntry skys) =
      (List.range' k l.length).map (fun k => (skys.getD k []).length) := by
    intro l
    induction l with
    | nil => simp
    | cons a l ih => intro k; simp [List.zipIdx_cons, List.range'_succ, ih, skyEntry]
  rw [this, List.range_eq_range']
  simp

omit [DecidableEq R] in
theorem mkZ_nosky (ims : List (Im R × Arr R × R)) (umodels : List (List (Option (Patch R)))) :
    mkZ none ims umodels = (umodels.zip ims).zipIdx.map (modEntry 0) := by
  simp [mkZ, modEntry]

end

/-! ### Fluxes -/

section
variable [Field R]

theorem startFluxes_ok (p0 : List R) : ∀ (used : List (Nat × Nat)) (f : List R), (∀ u ∈ used, u.1 < p0.length) →
    (∀ u ∈ used, u.2 < f.length) → (used.map (·.2)).Nodup →
    ∃ f', startFluxes p0 used f = .ok f' ∧ f'.length = f.length ∧ (∀ u ∈ used, f'.getD u.2 0 = p0.getD u.1 0) ∧
      ∀ k, k ∉ used.map (·.2) → f'.getD k 0 = f.getD k 0
  | [], f, _, _, _ => ⟨f, rfl, rfl, by simp, by simp⟩
  | u :: us, f, h1, h2, hn => by
    rw [List.map_cons] at hn
    obtain ⟨n1, n2⟩ := List.nodup_cons.1 hn
    have hu := h1 u (List.mem_cons_self ..)
    have hu2 := h2 u (List.mem_cons_self ..)
    obtain ⟨f', e1, e2, e3, e4⟩ := startFluxes_ok p0 us (f.set u.2 p0[u.1]) (fun a ha => h1 a (List.mem_cons_of_mem _ ha))
      (fun a ha => by rw [List.length_set]; exact h2 a (List.mem_cons_of_mem _ ha)) n2
    refine ⟨f', ?_, by rw [e2, List.length_set], ?_, ?_⟩
    · rw [startFluxes, List.getElem?_eq_getElem hu]; exact e1
    · intro a ha
      rcases List.mem_cons.1 ha with rfl | ha
      · rw [e4 _ n1]
        simp [List.getD_eq_getElem?_getD, hu, hu2]
      · exact e3 a ha
    · intro k hk
      rw [List.map_cons, List.mem_cons, not_or] at hk
      rw [e4 k hk.2, List.getD_eq_getElem?_getD, List.getElem?_set_ne (Ne.symm hk.1), List.getD_eq_getElem?_getD]

theorem unmap_get (flux : List R) (n : Nat) : ∀ (used : List (Nat × Nat)) (ps : List R), ps.length = n →
    (∀ u ∈ used, u.1 < n) → (used.map (·.1)).Nodup →
    (used.foldl (fun ps u => ps.set u.1 (flux.getD u.2 0)) ps).length = n ∧
    (∀ u ∈ used, (used.foldl (fun ps u => ps.set u.1 (flux.getD u.2 0)) ps).getD u.1 0 = flux.getD u.2 0) ∧
    ∀ j, j ∉ used.map (·.1) → (used.foldl (fun ps u => ps.set u.1 (flux.getD u.2 0)) ps).getD j 0 = ps.getD j 0
  | [], ps, hl, _, _ => ⟨hl, by simp, by simp⟩
  | u :: us, ps, hl, h1, hn => by
    rw [List.map_cons] at hn
    obtain ⟨n1, n2⟩ := List.nodup_cons.1 hn
    have hu := h1 u (List.mem_cons_self ..)
    obtain ⟨e1, e2, e3⟩ := unmap_get flux n us (ps.set u.1 (flux.getD u.2 0)) (by rw [List.length_set]; exact hl)
      (fun a ha => h1 a (List.mem_cons_of_mem _ ha)) n2
    rw [List.foldl_cons]
    refine ⟨e1, ?_, ?_⟩
    · intro a ha
      rcases List.mem_cons.1 ha with rfl | ha
      · rw [e3 _ n1, List.getD_eq_getElem?_getD, List.getElem?_set_self (by omega)]; rfl
      · exact e2 a ha
    · intro j hj
      rw [List.map_cons, List.mem_cons, not_or] at hj
      rw [e3 j hj.2, List.getD_eq_getElem?_getD, List.getElem?_set_ne (Ne.symm hj.1), List.getD_eq_getElem?_getD]

end

end Verif.Ceres
