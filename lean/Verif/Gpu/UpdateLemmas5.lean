import Verif.Gpu.UpdateLemmas4
import Verif.Gpu.PropsProf

/-!
# From the least-squares problem to the update
-/

namespace Verif.Gpu

open Verif Verif.Psf Verif.Params Verif.Lsq Verif.Mog

variable {R : Type} [Field R]

theorem scatter_fold (S : List Nat) : ∀ (X l : List R), S.Nodup → X.length = S.length → (∀ s ∈ S, s < l.length) →
    ((S.zip X).foldl (fun l ix => l.set ix.1 ix.2) l).length = l.length ∧
    ∀ s, ((((S.zip X).foldl (fun l ix => l.set ix.1 ix.2) l)[s]?).getD 0 : R) =
      if s ∈ S then X.getD (S.idxOf s) 0 else (l[s]?).getD 0 := by
  induction S with
  | nil => intro X l _ _ _; simp
  | cons a S ih =>
    intro X l hnd hX hb
    cases X with
    | nil => simp at hX
    | cons x X =>
      rw [List.nodup_cons] at hnd
      obtain ⟨h1, h2⟩ := ih X (l.set a x) hnd.2 (by simpa using hX) (by
        intro s hs; rw [List.length_set]; exact hb s (by simp [hs]))
      rw [List.zip_cons_cons, List.foldl_cons]
      refine ⟨by rw [h1, List.length_set], fun s => ?_⟩
      rw [h2]
      by_cases hs : s ∈ S
      · have hsa : s ≠ a := fun h => hnd.1 (h ▸ hs)
        rw [if_pos hs, if_pos (by simp [hs]), List.idxOf_cons_ne _ (Ne.symm hsa)]
        simp
      · rw [if_neg hs]
        by_cases hsa : s = a
        · subst hsa
          rw [if_pos (by simp), List.getElem?_set_self (hb s (by simp))]
          simp
        · rw [if_neg (by simp [hs, hsa]), List.getElem?_set_ne (Ne.symm hsa)]

theorem scatter_ok (nout : Nat) (S : List Nat) (X : List R) (hnd : S.Nodup) (hX : X.length = S.length)
    (hb : ∀ s ∈ S, s < nout) :
    ∃ L, scatter nout S X = .ok L ∧ L.length = nout ∧ ∀ s, (L[s]?).getD 0 = spread S X s := by
  obtain ⟨h1, h2⟩ := scatter_fold S X (List.replicate nout 0) hnd hX (by simpa using hb)
  unfold scatter
  rw [if_neg]
  · refine ⟨_, rfl, by rw [h1, List.length_replicate], fun s => ?_⟩
    rw [h2]
    unfold spread
    congr 1
    rw [List.getElem?_replicate]
    split <;> rfl
  · simp only [Bool.not_eq_true, List.any_eq_false, decide_eq_true_eq, not_le]
    exact hb

theorem fitToSrc_ok (d : List (Nat × Nat)) (I : List Nat)
    (h : ∀ i ∈ I, ∃ s, dictGet (d.map (fun e => (e.2, e.1))) i = some s) : fitToSrc d I = .ok (I.map (srcOf d)) := by
  induction I with
  | nil => rfl
  | cons i I ih =>
    obtain ⟨s, hs⟩ := h i (by simp)
    rw [fitToSrc, hs]
    simp only
    rw [ih (fun j hj => h j (by simp [hj]))]
    simp [srcOf, hs]

/-- Values spread over columns, and over the parameters of these columns. -/
theorem spread_map (σ : Nat → Nat) (I : List Nat) (X : List R) (n : Nat) (hb : ∀ i ∈ I, i < n)
    (hinj : ∀ a < n, ∀ b < n, σ a = σ b → a = b) (f : Nat) (hf : f < n) : spread (I.map σ) X (σ f) = spread I X f := by
  unfold spread
  have hm : σ f ∈ I.map σ ↔ f ∈ I := by
    rw [List.mem_map]
    constructor
    · rintro ⟨a, ha, h⟩
      rw [← hinj a (hb a ha) f hf h]; exact ha
    · intro h; exact ⟨f, h, rfl⟩
  by_cases h : f ∈ I
  · rw [if_pos h, if_pos (hm.mpr h)]
    congr 1
    clear hm
    induction I with
    | nil => simp at h
    | cons a I ih =>
      rw [List.map_cons]
      by_cases ha : a = f
      · subst ha; simp
      · have hs : σ a ≠ σ f := fun e => ha (hinj a (hb a (by simp)) f hf e)
        have h' : f ∈ I := by
          rcases List.mem_cons.mp h with h | h
          · exact absurd h.symm ha
          · exact h
        rw [List.idxOf_cons_ne _ hs, List.idxOf_cons_ne _ ha, ih (fun i hi => hb i (by simp [hi])) h']
  · rw [if_neg h, if_neg (fun h' => h (hm.mp h'))]

section
variable [LinearOrder R] [IsStrictOrderedRing R]

omit [IsStrictOrderedRing R] [LinearOrder R] [Field R] in
theorem paramCount_eq (job : UpJob R) : paramCount job = nOut job := by
  unfold paramCount nOut sbBands
  cases job.sb <;> rfl

theorem body_ok (rnd : R → Int) (sqrt : R → R) (hs : ∀ x, 0 ≤ x → (sqrt x = 0 ↔ x = 0))
    (lstsq : Nat → Nat → Dense R → (Nat → R) → List R) (hls : DenseSolves lstsq) (job : UpJob R) (hx : Expected job)
    (cal : Tim R → R) (hcal : ∀ tim ∈ job.tims, cal tim = 1)
    (U : Tim R → Nat → Int → Int → R) (P : Params R) (cen : Tim R → Int × Int) (hl : Laid job.tims P cen)
    (hf : ∀ tim ∈ job.tims, Fits tim) (G : List (List (Arr R))) (hm : upModels rnd job P = .ok G) (hG : Drawn job P U G)
    (es : List (Entry R)) (hes : PriorOK (nOut job) job.prior es) (hun : ∀ e ∈ es, ¬ Unseen job e.col) :
    RightUpdate job cal U es (upBody rnd sqrt lstsq job P false) := by
  unfold RightUpdate
  rw [paramCount_eq]
  obtain ⟨ub, hub⟩ : ∃ ub, ub = uniqueBands (job.tims.map job.band) := ⟨_, rfl⟩
  obtain ⟨np, A, B, hw, hchi, hcol⟩ := problem_ok job hx cal hcal U P cen hl hf G hG es hes hun ub hub
  have hp : ∀ f < (colsOf job ub).total, Paired job ub (srcOf (paramIndices job ub) f) f ∧
      ∃ s, dictGet ((paramIndices job ub).map (fun e => (e.2, e.1))) f = some s := by
    intro f hf
    subst hub
    obtain ⟨s, hs⟩ := paired_col job hx f hf
    refine ⟨?_, s, dict_fit job hx _ s f hs⟩
    unfold srcOf
    rw [dict_fit job hx _ s f hs]
    exact hs
  have hinj : ∀ a < (colsOf job ub).total, ∀ b < (colsOf job ub).total,
      srcOf (paramIndices job ub) a = srcOf (paramIndices job ub) b → a = b := by
    intro a ha b hb e
    have h1 := (hp a ha).1
    rw [e] at h1
    exact paired_fun job ub _ _ _ h1 (hp b hb).1
  have hun0 : ∀ s < nOut job, (∀ f, ¬ Paired job ub s f) → NoEffect job cal U s := by
    intro s hs' hn
    rcases unpaired job hx cal U s hs' with ⟨f, hf'⟩ | ⟨-, h⟩
    · rw [← hub] at hf'; exact absurd hf' (hn f)
    · intro d hd tim htm x y _ _
      rw [h d hd tim htm]
  have hbody : upBody rnd sqrt lstsq job P false = finish sqrt lstsq (paramIndices job ub)
      (job.tims.length * (P.sz * P.sz) + np) (colsOf job ub).total (nOut job) A B false := by
    unfold upBody
    rw [hm]
    simp only
    rw [← hub, if_neg (by simpa using hl.len), if_neg, if_neg, hw]
    · rcases hx.some with h | h
      · cases hj : job.src with
        | none => rw [hj] at h; simp at h
        | some s => simp
      · cases hj : job.sb with
        | none => rw [hj] at h; simp at h
        | some s => simp
    · unfold colsOf
      cases hj : job.src with
      | none => simp
      | some s => simp only; rcases hx.npos s hj with h | h <;> omega
  rw [hbody]
  obtain ⟨nrows, hnr⟩ : ∃ n, n = job.tims.length * (P.sz * P.sz) + np := ⟨_, rfl⟩
  rw [← hnr] at hchi hcol ⊢
  obtain ⟨I, hI⟩ : ∃ I, I = liveCols sqrt nrows (colsOf job ub).total A := ⟨_, rfl⟩
  have hmem : ∀ c, c ∈ I ↔ c < (colsOf job ub).total ∧ ∃ r < nrows, A r c ≠ 0 := by
    intro c; rw [hI]; exact mem_liveCols sqrt hs _ _ A c
  have hlive : ∀ f < (colsOf job ub).total, f ∉ I → NoEffect job cal U (srcOf (paramIndices job ub) f) ∧
      ∀ e ∈ es, e.col ≠ srcOf (paramIndices job ub) f := by
    intro f hf' hn
    have h1 : ¬ ∃ row < nrows, A row f ≠ 0 := fun h => hn ((hmem f).mpr ⟨hf', h⟩)
    rw [hcol _ f (hp f hf').1] at h1
    push Not at h1
    exact ⟨h1.1, h1.2⟩
  unfold finish
  simp only
  rw [← hI]
  by_cases hz : I.length = 0
  · left
    rw [if_pos hz]
    have hI0 : I = [] := List.length_eq_zero_iff.mp hz
    refine ⟨rfl, ?_, ?_⟩
    · rw [List.eq_nil_iff_forall_not_mem]
      intro e he
      rcases unpaired job hx cal U e.col (hes.2.2 e he).1 with ⟨f, hf'⟩ | ⟨h, -⟩
      · rw [← hub] at hf'
        have hfb := (paired_bound job hx ub _ _ hf').2
        have h2 := (hcol _ _ hf').mpr (.inr ⟨e, he, rfl⟩)
        have := (hmem f).mpr ⟨hfb, h2⟩
        rw [hI0] at this; simp at this
      · exact hun e he h
    · intro j hj
      by_cases hpj : ∃ f, Paired job ub j f
      · obtain ⟨f, hf'⟩ := hpj
        by_contra hno
        have := (hmem f).mpr ⟨(paired_bound job hx ub _ _ hf').2, (hcol _ _ hf').mpr (.inl hno)⟩
        rw [hI0] at this; simp at this
      · exact hun0 j hj (fun f hf' => hpj ⟨f, hf'⟩)
  · right
    rw [if_neg hz, fitToSrc_ok _ _ (fun i hi => (hp i ((hmem i).mp hi).1).2)]
    simp only
    obtain ⟨s1, s2⟩ := solve_ok sqrt hs lstsq hls nrows (colsOf job ub).total A B
    rw [← hI] at s1 s2
    have hndI : I.Nodup := hI ▸ liveCols_nodup sqrt _ _ A
    have hnd : (I.map (srcOf (paramIndices job ub))).Nodup := by
      refine hndI.map_on ?_
      intro a ha b hb e
      exact hinj a ((hmem a).mp ha).1 b ((hmem b).mp hb).1 e
    have hbd : ∀ s ∈ I.map (srcOf (paramIndices job ub)), s < nOut job := by
      intro s hs'
      obtain ⟨f, hf', rfl⟩ := List.mem_map.mp hs'
      exact (paired_bound job hx ub _ _ (hp f ((hmem f).mp hf').1).1).1
    obtain ⟨L, l1, l2, l3⟩ := scatter_ok (nOut job) (I.map (srcOf (paramIndices job ub))) (solveCut sqrt lstsq nrows I A B)
      hnd (by rw [s1, List.length_map]) hbd
    obtain ⟨L', l1', -⟩ := scatter_ok (nOut job) (I.map (srcOf (paramIndices job ub))) (I.map (colScale sqrt nrows A))
      hnd (by simp) hbd
    rw [l1, l1']
    refine ⟨L, rfl, ⟨l2, ?_⟩, ?_⟩
    · intro Y hY
      rw [hchi L l2, hchi Y hY]
      have e : ∀ f ∈ Finset.range (colsOf job ub).total, (L[srcOf (paramIndices job ub) f]?).getD 0 =
          spread I (solveCut sqrt lstsq nrows I A B) f := by
        intro f hf'
        rw [l3, spread_map _ I _ _ (fun i hi => ((hmem i).mp hi).1) hinj f (Finset.mem_range.mp hf')]
      have e2 : resid nrows (colsOf job ub).total A B (fun f => (L[srcOf (paramIndices job ub) f]?).getD 0) =
          resid nrows (colsOf job ub).total A B (spread I (solveCut sqrt lstsq nrows I A B)) := by
        unfold resid
        refine Finset.sum_congr rfl (fun r _ => ?_)
        rw [Finset.sum_congr rfl (fun f hf' => congrArg (A r f * ·) (e f hf'))]
      rw [e2]
      exact s2 _
    · intro j hj hno hne
      have : (L[j]?).getD 0 = 0 := by
        rw [l3]
        unfold spread
        rw [if_neg]
        intro hmj
        obtain ⟨f, hf', rfl⟩ := List.mem_map.mp hmj
        obtain ⟨b1, b2⟩ := (hmem f).mp hf'
        rcases (hcol _ f (hp f b1).1).mp b2 with h | ⟨e, he, h⟩
        · exact h hno
        · exact hne e he h
      rw [List.getElem?_eq_getElem (by rw [l2]; exact hj)] at this ⊢
      rw [Option.getD_some] at this
      rw [this]

end

/-! ### The models -/

theorem shiftInto_ok (dx dy : Int) (A : Arr R) :
    ∃ B, shiftInto dx dy A = .ok B ∧ B.h = A.h ∧ B.w = A.w ∧ ∀ r c : Nat, r < A.h → c < A.w →
      B.px r c = ext A (r - dy) (c - dx) := by
  unfold shiftInto
  obtain ⟨i, j, k, a1, a2, a3⟩ := shift_axis A.h dy
  obtain ⟨i', j', k', b1, b2, b3⟩ := shift_axis A.w dx
  rw [slice_of A _ _ _ _ j k j' k' a2 b2, modify_of (Arr.zeros A.h A.w) _ _ _ _ _ _ i k i' k' a1 b1 rfl rfl]
  refine ⟨_, rfl, rfl, rfl, fun r c hr hc => ?_⟩
  obtain ⟨c1, c2⟩ := a3 r hr
  obtain ⟨d1, d2⟩ := b3 c hc
  simp only
  by_cases hin : i ≤ r ∧ r < i + k ∧ i' ≤ c ∧ c < i' + k'
  · rw [if_pos hin]
    have e1 := c2 ⟨hin.1, hin.2.1⟩
    have e2 := d2 hin.2.2
    have f1 := c1.mp ⟨hin.1, hin.2.1⟩
    have f2 := d1.mp hin.2.2
    rw [← e1, ← e2, ext_in A _ _ (by omega) (by omega)]
  · rw [if_neg hin]
    have : ¬ ((0 ≤ (r : Int) - dy ∧ (r : Int) - dy < A.h) ∧ (0 ≤ (c : Int) - dx ∧ (c : Int) - dx < A.w)) := by
      rintro ⟨h1, h2⟩
      exact hin ⟨(c1.mpr h1).1, (c1.mpr h1).2, (d1.mpr h2).1, (d1.mpr h2).2⟩
    unfold ext
    rw [if_neg (by omega)]
    rfl

section
variable [LinearOrder R]

omit [LinearOrder R] in
theorem upModels_ok (rnd : R → Int) (job : UpJob R) (s : Star R) (hsrc : job.src = some s) (P : Params R) (G : List (List (Arr R)))
    (hG : s.models job.tims P (job.tims.map (fun tim => ((upPos job tim).1 - rnd (upPos job tim).1,
      (upPos job tim).2 - rnd (upPos job tim).2))) = .ok G) :
    ∃ G', upModels rnd job P = .ok G' ∧ ∀ (i k : Nat) (tim : Tim R) (p : Padded R) (row : List (Arr R)) (A : Arr R),
      job.tims[i]? = some tim → P.ims[i]? = some p → G[i]? = some row → row[k]? = some A →
      ∀ r c : Nat, r < A.h → c < A.w →
        (profAt G' i k).px r c = ext A (r - (upShift rnd job tim p).2) (c - (upShift rnd job tim p).1) := by
  unfold upModels
  rw [hsrc]
  simp only
  rw [hG]
  simp only
  obtain ⟨G', e1, e2, e3⟩ := mapM_ex (fun x : (Tim R × Padded R) × List (Arr R) =>
      x.2.mapM (shiftInto (upShift rnd job x.1.1 x.1.2).1 (upShift rnd job x.1.1 x.1.2).2))
    (fun x row' => row'.length = x.2.length ∧ ∀ (k : Nat) (A B : Arr R), x.2[k]? = some A → row'[k]? = some B →
      ∀ r c : Nat, r < A.h → c < A.w → B.px r c = ext A (r - (upShift rnd job x.1.1 x.1.2).2)
        (c - (upShift rnd job x.1.1 x.1.2).1))
    ((job.tims.zip P.ims).zip G) (by
      intro x _
      obtain ⟨row', f1, f2, f3⟩ := mapM_ex (shiftInto (upShift rnd job x.1.1 x.1.2).1 (upShift rnd job x.1.1 x.1.2).2)
        (fun A B => ∀ r c : Nat, r < A.h → c < A.w → B.px r c = ext A (r - (upShift rnd job x.1.1 x.1.2).2)
          (c - (upShift rnd job x.1.1 x.1.2).1)) x.2 (by
          intro A _
          obtain ⟨B, b1, -, -, b4⟩ := shiftInto_ok (upShift rnd job x.1.1 x.1.2).1 (upShift rnd job x.1.1 x.1.2).2 A
          exact ⟨B, b1, b4⟩)
      exact ⟨row', f1, f2, fun k A B h1 h2 => (f3 k A B h1 h2).2⟩)
  refine ⟨G', e1, ?_⟩
  intro i k tim p row A h1 h2 h3 h4
  have hz : ((job.tims.zip P.ims).zip G)[i]? = some ((tim, p), row) := by
    rw [List.getElem?_zip_eq_some, List.getElem?_zip_eq_some]
    exact ⟨⟨h1, h2⟩, h3⟩
  have hi : i < G'.length := by
    rw [e2]
    exact (List.getElem?_eq_some_iff.mp hz).1
  obtain ⟨-, g1, g2⟩ := e3 i _ _ hz (List.getElem?_eq_getElem hi)
  simp only at g1 g2
  have hk : k < G'[i].length := by rw [g1]; exact (List.getElem?_eq_some_iff.mp h4).1
  have := g2 k A _ h4 (List.getElem?_eq_getElem hk)
  have e : profAt G' i k = G'[i][k] := by
    unfold profAt
    rw [List.getD_eq_getElem?_getD, List.getD_eq_getElem?_getD, List.getElem?_eq_getElem hi, Option.getD_some,
      List.getElem?_eq_getElem hk, Option.getD_some]
  rw [e]
  exact this

/-- A point source. -/
theorem drawn_point (rnd : R → Int) (lz : R → R) (junk junk' : Nat → Nat → R) (job : UpJob R) (s : Star R)
    (hsrc : job.src = some s) (h0 : s.nshapes = 0) (hmod : s.models = pointModels lz junk junk') (P : Params R)
    (hs : P.sz % 2 = 0) (h12 : 12 ≤ P.sz) (cen : Tim R → Int × Int) (hl : Laid job.tims P cen)
    (hc : ∀ tim ∈ job.tims,
      (|rnd (s.pos tim).1 - (cen tim).1| ≤ 2 ∧ |rnd (s.pos tim).2 - (cen tim).2| ≤ 2) ∨
      (|rnd (s.pos tim).1 - (cen tim).1| ≤ 5 ∧ |rnd (s.pos tim).2 - (cen tim).2| ≤ 5 ∧ tim.psf.h ≤ P.sz ∧
        tim.psf.w ≤ P.sz)) :
    ∃ G, upModels rnd job P = .ok G ∧
      Drawn job P (fun tim _ x y => unitModel rnd lz tim.psf (s.pos tim).1 (s.pos tim).2 x y) G := by
  have hpos : ∀ tim, upPos job tim = s.pos tim := by intro tim; unfold upPos; rw [hsrc]
  obtain ⟨G, e1, e2, e3⟩ := mapM_ex (fun pm : Padded R × (R × R) => do
      let A ← unitFluxPsf lz junk junk' pm.1.psfPad pm.2.1 pm.2.2
      .ok [A])
    (fun pm row => ∃ W, row = [W] ∧ W.h = pm.1.psfPad.h ∧ W.w = pm.1.psfPad.w ∧ ∀ r c, r < pm.1.psfPad.h → c < pm.1.psfPad.w →
      W.px r c = shiftedImage (kernPy lz) pm.1.psfPad pm.2.1 pm.2.2 r c)
    (P.ims.zip (job.tims.map (fun tim => ((upPos job tim).1 - rnd (upPos job tim).1,
      (upPos job tim).2 - rnd (upPos job tim).2)))) (by
      intro pm hpm
      obtain ⟨i, hi⟩ := List.mem_iff_getElem?.mp hpm
      rw [List.getElem?_zip_eq_some, List.getElem?_map, Option.map_eq_some_iff] at hi
      obtain ⟨hi1, tim, hi2, -⟩ := hi
      obtain ⟨-, -, -, -, q1, q2⟩ := (hl.each i tim pm.1 hi2 hi1).shapes
      obtain ⟨W, w1, w2, w3, w4⟩ := unit_run lz junk junk' pm.1.psfPad pm.2.1 pm.2.2 (by omega) (by omega)
      exact ⟨[W], by rw [w1]; rfl, W, rfl, w2, w3, w4⟩)
  have hGl : G.length = job.tims.length := by rw [e2]; simp [hl.len]
  obtain ⟨G', g1, g2⟩ := upModels_ok rnd job s hsrc P G (by rw [hmod]; exact e1)
  refine ⟨G', g1, ?_⟩
  intro i tim p s' h1 h2 hs' k hk r c hr hcc hnear
  rw [hsrc] at hs'
  obtain rfl : s = s' := by simpa using hs'
  obtain rfl : k = 0 := by omega
  have hi : i < G.length := by rw [hGl]; exact (List.getElem?_eq_some_iff.mp h1).1
  have hz : (P.ims.zip (job.tims.map (fun tim => ((upPos job tim).1 - rnd (upPos job tim).1,
      (upPos job tim).2 - rnd (upPos job tim).2))))[i]? = some (p, ((s.pos tim).1 - rnd (s.pos tim).1,
      (s.pos tim).2 - rnd (s.pos tim).2)) := by
    rw [List.getElem?_zip_eq_some, List.getElem?_map, h1, ← hpos]
    exact ⟨h2, rfl⟩
  obtain ⟨-, W, w1, w2, w3, w4⟩ := e3 i _ _ hz (List.getElem?_eq_getElem hi)
  simp only at w2 w3 w4
  have lay := hl.each i tim p h1 h2
  obtain ⟨-, -, -, -, q1, q2⟩ := lay.shapes
  obtain ⟨o1, o2⟩ := lay.origin
  obtain ⟨ce1, ce2⟩ := lay.centre
  have hmem : tim ∈ job.tims := List.mem_iff_getElem?.mpr ⟨i, h1⟩
  have hcc' := hc tim hmem
  rw [g2 i 0 tim p [W] W h1 h2 (by rw [List.getElem?_eq_getElem hi, w1]) rfl r c (by omega) (by omega)]
  simp only [upShift, hpos]
  obtain ⟨px, py, hp⟩ : ∃ px py, s.pos tim = (px, py) := ⟨_, _, rfl⟩
  rw [hp] at hcc' w4 ⊢
  simp only at hcc' w4 ⊢
  obtain ⟨x', y', hin, n1, n2⟩ := hnear
  have hm := lay.margin x' y' hin
  rw [abs_le] at n1 n2
  have hb : (|rnd px - (cen tim).1| ≤ 5 ∧ |rnd py - (cen tim).2| ≤ 5) := by
    rcases hcc' with ⟨a, b⟩ | ⟨a, b, -⟩
    · exact ⟨by omega, by omega⟩
    · exact ⟨a, b⟩
  obtain ⟨b1, b2⟩ := hb
  rw [abs_le] at b1 b2
  obtain ⟨r', er⟩ := Int.eq_ofNat_of_zero_le (show 0 ≤ (r : Int) - (rnd py - p.ipy) by omega)
  obtain ⟨c', ec⟩ := Int.eq_ofNat_of_zero_le (show 0 ≤ (c : Int) - (rnd px - p.ipx) by omega)
  rw [er, ec, ext_in _ r' c' (by omega) (by omega), w4 r' c' (by omega) (by omega),
    shifted_pad (kernPy lz) P.sz p.psfPad tim.psf q1 q2 lay.psf, weight_eq]
  · unfold unitModel
    congr 1 <;> omega
  · rcases hcc' with ⟨a, b⟩ | ⟨-, -, a, b⟩
    · left
      rw [abs_le] at a b
      omega
    · right
      exact ⟨hs, a, b⟩

variable [IsStrictOrderedRing R]

/-- A galaxy: the arrays moved, whatever the shift. -/
theorem drawn_galaxy (rnd : R → Int) (lib : Nat → Lib R) (lz : R → R) (junk : Nat → Nat → Nat → Nat → R)
    (psf : Nat → Tim R → ImPsf R) (profs : Tim R → List (Mix R)) (job : UpJob R) (hne : job.tims ≠ []) (s : Star R)
    (hsrc : job.src = some s) (hg : GoodProfiles lib psf profs s.nshapes job.tims)
    (hmod : s.models = galaxyModels lib lz junk psf profs) (P : Params R)
    (h12 : 12 ≤ P.sz) (cen : Tim R → Int × Int) (hl : Laid job.tims P cen) :
    ∃ G, upModels rnd job P = .ok G ∧ Drawn job P (unitGalaxy rnd lib lz psf profs s.pos P.sz) G := by
  have hpos : ∀ tim, upPos job tim = s.pos tim := by intro tim; unfold upPos; rw [hsrc]
  obtain ⟨G, e1, e2, e3⟩ := C110_profiles (lib P.sz) (hg.sqrt P.sz) lz junk P.sz (by omega) (job.tims.map (psf P.sz))
    (job.tims.map profs) ⟨by simp, by
      intro l hl' m hm c hc
      obtain ⟨tim, ht, rfl⟩ := List.mem_map.mp hl'
      exact hg.semi tim ht m hm c hc, by
      intro q hq
      obtain ⟨tim, ht, rfl⟩ := List.mem_map.mp hq
      exact hg.definite _ tim ht, by
      intro q hq
      obtain ⟨tim, ht, rfl⟩ := List.mem_map.mp hq
      exact hg.lin _ tim ht⟩ (by
      obtain ⟨tim, ts, htl⟩ := List.exists_cons_of_ne_nil hne
      have ht : tim ∈ job.tims := by rw [htl]; simp
      obtain ⟨m, hm, c, hc, h0⟩ := hg.light tim ht
      exact ⟨_, List.mem_map_of_mem ht, m, hm, c, hc, h0⟩)
    (fun i _ => ((job.tims.map (fun tim => ((upPos job tim).1 - rnd (upPos job tim).1,
      (upPos job tim).2 - rnd (upPos job tim).2))).getD i (0, 0)).1)
    (fun i _ => ((job.tims.map (fun tim => ((upPos job tim).1 - rnd (upPos job tim).1,
      (upPos job tim).2 - rnd (upPos job tim).2))).getD i (0, 0)).2)
  obtain ⟨G', g1, g2⟩ := upModels_ok rnd job s hsrc P G (by rw [hmod]; exact e1)
  refine ⟨G', g1, ?_⟩
  intro i tim p s' h1 h2 hs' k hk r c hr hc hnear
  rw [hsrc] at hs'
  obtain rfl : s = s' := by simpa using hs'
  have ht : tim ∈ job.tims := List.mem_iff_getElem?.mpr ⟨i, h1⟩
  have hkl : k < (profs tim).length := by rw [hg.count tim ht]; omega
  obtain ⟨row, A, a1, a2, a3, a4, a5⟩ := e3 i k (psf P.sz tim) (profs tim) (profs tim)[k] (by simp [h1]) (by simp [h1])
    (List.getElem?_eq_getElem hkl)
  have lay := hl.each i tim p h1 h2
  obtain ⟨o1, o2⟩ := lay.origin
  obtain ⟨ce1, ce2⟩ := lay.centre
  rw [g2 i k tim p row A h1 h2 a1 a2 r c (by omega) (by omega)]
  have emu : (job.tims.map (fun tim => ((upPos job tim).1 - rnd (upPos job tim).1,
      (upPos job tim).2 - rnd (upPos job tim).2))).getD i (0, 0) = ((s.pos tim).1 - rnd (s.pos tim).1,
      (s.pos tim).2 - rnd (s.pos tim).2) := by
    rw [List.getD_eq_getElem?_getD, List.getElem?_map, h1, ← hpos]
    rfl
  rw [emu] at a5
  have epr : (profs tim).getD k [] = (profs tim)[k] := by
    rw [List.getD_eq_getElem?_getD, List.getElem?_eq_getElem hkl, Option.getD_some]
  unfold unitGalaxy
  simp only [upShift, hpos, epr]
  rw [show p.pady0 + (r : Int) - rnd (s.pos tim).2 + (P.sz / 2 : Nat) = (r : Int) - (rnd (s.pos tim).2 - p.ipy) by omega,
    show p.padx0 + (c : Int) - rnd (s.pos tim).1 + (P.sz / 2 : Nat) = (c : Int) - (rnd (s.pos tim).1 - p.ipx) by omega]
  unfold ext
  simp only [a3, a4]
  by_cases h : 0 ≤ (r : Int) - (rnd (s.pos tim).2 - p.ipy) ∧ (r : Int) - (rnd (s.pos tim).2 - p.ipy) < P.sz ∧
      0 ≤ (c : Int) - (rnd (s.pos tim).1 - p.ipx) ∧ (c : Int) - (rnd (s.pos tim).1 - p.ipx) < P.sz
  · rw [if_pos h, if_pos h]
    exact a5 _ _ (by omega) (by omega)
  · rw [if_neg h, if_neg h]

/-! ### With and without cache -/

omit [IsStrictOrderedRing R] in
theorem subpixel_ok (rnd : R → Int) (hr : ∀ x, |x - rnd x| ≤ 1 / 2) (job : UpJob R) : subpixel rnd job = true := by
  unfold subpixel
  rw [List.all_eq_true]
  intro tim _
  rw [Bool.and_eq_true, decide_eq_true_eq, decide_eq_true_eq]
  exact ⟨hr _, hr _⟩

omit [IsStrictOrderedRing R] in
theorem update_none (rnd : R → Int) (hr : ∀ x, |x - rnd x| ≤ 1 / 2) (sqrt : R → R)
    (lstsq : Nat → Nat → Dense R → (Nat → R) → List R) (job : UpJob R) (hne : job.tims ≠ []) (hf : ∀ tim ∈ job.tims, Fits tim) :
    ∃ P, getImageParams rnd none job.tims (upPos job) = .ok P ∧ P.sz % 2 = 0 ∧ 12 ≤ P.sz ∧
      Laid job.tims P (fun tim => (rnd (upPos job tim).1, rnd (upPos job tim).2)) ∧
      ∀ getA, oneSourceUpdate rnd sqrt lstsq none job getA = (none, upBody rnd sqrt lstsq job P getA) := by
  obtain ⟨P, e, ⟨h1, h2, -⟩, h3, h4⟩ := params_ok rnd job.tims (upPos job) hne hf
  refine ⟨P, e, h1, h2, ⟨h3, h4⟩, fun getA => ?_⟩
  unfold oneSourceUpdate
  rw [if_neg (by simpa using hne), e]
  simp only [subpixel_ok rnd hr job, Option.isSome_none, Bool.false_and, Bool.not_true, Bool.false_eq_true, if_false]

/-- Some shift is too large for the cached arrays. -/
def anyOver (rnd : R → Int) (job : UpJob R) (P : Params R) : Bool :=
  (job.tims.zip P.ims).any (fun tp => overLimit tp.2 (upShift rnd job tp.1 tp.2))

omit [IsStrictOrderedRing R] in
theorem update_some (rnd : R → Int) (hr : ∀ x, |x - rnd x| ≤ 1 / 2) (sqrt : R → R)
    (lstsq : Nat → Nat → Dense R → (Nat → R) → List R) (job : UpJob R) (hne : job.tims ≠ []) (P : Params R) :
    (anyOver rnd job P = false → ∀ getA,
      oneSourceUpdate rnd sqrt lstsq (some P) job getA = (some P, upBody rnd sqrt lstsq job P getA)) ∧
    (anyOver rnd job P = true → ∀ P' r, getImageParams rnd none job.tims (upPos job) = .ok P' →
      upBody rnd sqrt lstsq job P' false = .ok r → ∀ getA,
      oneSourceUpdate rnd sqrt lstsq (some P) job getA = (some P, .ok r)) := by
  have e : getImageParams rnd (some P) job.tims (upPos job) = .ok P := rfl
  unfold anyOver
  constructor
  · intro h getA
    unfold oneSourceUpdate
    rw [if_neg (by simpa using hne), e]
    simp only [subpixel_ok rnd hr job, h, Bool.and_false, Bool.not_true, Bool.false_eq_true, if_false]
  · intro h P' r h1 h2 getA
    unfold oneSourceUpdate
    rw [if_neg (by simpa using hne), e]
    simp only [subpixel_ok rnd hr job, h, Option.isSome_some, Bool.and_true, Bool.not_true, Bool.false_eq_true, if_false,
      if_true, h1, h2]

omit [IsStrictOrderedRing R] in
/-- A weighted pixel that the moved arrays do not cover. -/
theorem over_of_uncovered (rnd : R → Int) (job : UpJob R) (P : Params R) (cen : Tim R → Int × Int) (hl : Laid job.tims P cen)
    (tim : Tim R) (ht : tim ∈ job.tims) (x y : Int) (hin : InMask tim x y) (hw : 0 < tim.ie.px y.toNat x.toNat)
    (hout : ¬ ((0 ≤ x - rnd (upPos job tim).1 + (P.sz / 2 : Nat) ∧ x - rnd (upPos job tim).1 + (P.sz / 2 : Nat) < P.sz) ∧
      (0 ≤ y - rnd (upPos job tim).2 + (P.sz / 2 : Nat) ∧ y - rnd (upPos job tim).2 + (P.sz / 2 : Nat) < P.sz))) :
    anyOver rnd job P = true := by
  obtain ⟨i, h1⟩ := List.mem_iff_getElem?.mp ht
  have hi := (List.getElem?_eq_some_iff.mp h1).1
  obtain ⟨p, h2⟩ : ∃ p, P.ims[i]? = some p := ⟨_, List.getElem?_eq_getElem (by rw [hl.len]; exact hi)⟩
  have lay := hl.each i tim p h1 h2
  have hwt : Weighted tim := ⟨x, y, hin, hw⟩
  unfold anyOver
  rw [List.any_eq_true]
  refine ⟨(tim, p), List.mem_iff_getElem?.mpr ⟨i, by rw [List.getElem?_zip_eq_some]; exact ⟨h1, h2⟩⟩, ?_⟩
  by_contra hno
  obtain ⟨o1, o2⟩ := lay.origin
  obtain ⟨ce1, ce2⟩ := lay.centre
  obtain ⟨l1, l2, l3, l4⟩ := C107_six tim P.sz _ _ p hwt lay 0 (by omega)
  have k : (p.mindx ≤ (upShift rnd job tim p).1 ∧ (upShift rnd job tim p).1 ≤ p.maxdx) ∧
      (p.mindy ≤ (upShift rnd job tim p).2 ∧ (upShift rnd job tim p).2 ≤ p.maxdy) := by
    unfold overLimit at hno
    simp only [Bool.or_eq_true, Bool.and_eq_true, decide_eq_true_eq, not_or, not_and] at hno
    omega
  have q1 := (lay.limits hwt _).1.mp k.1 x y hin hw
  have q2 := (lay.limits hwt _).2.mp k.2 x y hin hw
  simp only [upShift] at q1 q2
  omega

end

end Verif.Gpu
