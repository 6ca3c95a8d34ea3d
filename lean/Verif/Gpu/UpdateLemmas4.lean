import Verif.Gpu.UpdateLemmas3
import Verif.Lsq.SmarterLemmas2

/-!
# The least-squares problem is the linearised chi-squared
-/

namespace Verif.Gpu

open Verif Verif.Psf Verif.Params Verif.Lsq

variable {R : Type} [Field R]

/-- `fit_to_src_param[f]`. -/
def srcOf (d : List (Nat × Nat)) (f : Nat) : Nat := (dictGet (d.map (fun e => (e.2, e.1))) f).getD 0

theorem dict_fit (job : UpJob R) (hx : Expected job) (ub : List String) (s f : Nat) (h : Paired job ub s f) :
    dictGet ((paramIndices job ub).map (fun e => (e.2, e.1))) f = some s := by
  refine dictGet_some _ _ _ ((mem_swap _ _ _).mpr ((mem_paramIndices job hx ub s f).mpr h)) (fun s' h' => ?_)
  exact paired_inj job hx ub _ _ f ((mem_paramIndices job hx ub s' f).mp ((mem_swap _ _ _).mp h')) h

theorem dict_src (job : UpJob R) (hx : Expected job) (ub : List String) (s f : Nat) (h : Paired job ub s f) :
    dictGet (paramIndices job ub) s = some f := by
  refine dictGet_some _ _ _ ((mem_paramIndices job hx ub s f).mpr h) (fun f' h' => ?_)
  exact paired_fun job ub s _ _ ((mem_paramIndices job hx ub s f').mp h') h

/-- The prior loops write what those of the dense optimizer write, with the columns renamed. -/
theorem priorCols_ok (d : List (Nat × Nat)) (τ : Nat → Nat) (npix : Nat) (es : List (Entry R)) :
    (∀ e ∈ es, dictGet d e.col = some (τ e.col)) → ∀ (A : Dense R) (B : Nat → R) (norms : List R),
    priorCols d npix (es.map (fun e => ((([e.row], e.col), [e.val]), [e.b]))) (A, B) =
      .ok ((densePriors npix ((es.map (fun e => { e with col := τ e.col })).map
          (fun e => ((([e.row], e.col), [e.val]), [e.b]))) (A, B, norms)).1,
        (densePriors npix ((es.map (fun e => { e with col := τ e.col })).map
          (fun e => ((([e.row], e.col), [e.val]), [e.b]))) (A, B, norms)).2.1) := by
  induction es with
  | nil => intro _ A B norms; rfl
  | cons e es ih =>
    intro h A B norms
    simp only [List.map_cons, priorCols, List.zip_cons_cons, List.zip_nil_right, priorRows, h e (by simp), densePriors,
      List.foldl_cons, List.foldl_nil]
    exact ih (fun e he => h e (by simp [he])) _ _ _

theorem sum_blocks (n m : Nat) (F : Nat → R) :
    ∑ row ∈ Finset.range (n * m), F row = ∑ i ∈ Finset.range n, ∑ j ∈ Finset.range m, F (i * m + j) := by
  induction n with
  | zero => simp
  | succ n ih => rw [Nat.succ_mul, Finset.sum_range_add, ih, Finset.sum_range_succ]

theorem pixelRow_at (tims : List (Tim R)) (P : Params R) (f : Nat → Tim R → Padded R → Nat → Nat → R) (i : Nat) (tim : Tim R)
    (p : Padded R) (h1 : tims[i]? = some tim) (h2 : P.ims[i]? = some p) (r c : Nat) (hr : r < P.sz) (hc : c < P.sz) :
    pixelRow tims P f (i * (P.sz * P.sz) + (r * P.sz + c)) = f i tim p r c := by
  have hlt : r * P.sz + c < P.sz * P.sz := by
    calc r * P.sz + c < r * P.sz + P.sz := by omega
      _ = (r + 1) * P.sz := by ring
      _ ≤ P.sz * P.sz := Nat.mul_le_mul_right _ hr
  have e1 : (i * (P.sz * P.sz) + (r * P.sz + c)) / (P.sz * P.sz) = i := by
    rw [Nat.add_comm, Nat.add_mul_div_right _ _ (by omega), Nat.div_eq_of_lt hlt, Nat.zero_add]
  have e2 : (i * (P.sz * P.sz) + (r * P.sz + c)) % (P.sz * P.sz) = r * P.sz + c := by
    rw [Nat.add_comm, Nat.add_mul_mod_self_right, Nat.mod_eq_of_lt hlt]
  have e3 : (r * P.sz + c) / P.sz = r := by
    rw [Nat.add_comm, Nat.add_mul_div_right _ _ (by omega), Nat.div_eq_of_lt hc, Nat.zero_add]
  have e4 : (r * P.sz + c) % P.sz = c := by
    rw [Nat.add_comm, Nat.add_mul_mod_self_right, Nat.mod_eq_of_lt hc]
  unfold pixelRow
  simp only [e1, e2, e3, e4, h1, h2]

/-- Every pixel row is one of these. -/
theorem row_split (n sz row : Nat) (h : row < n * (sz * sz)) :
    ∃ i r c, i < n ∧ r < sz ∧ c < sz ∧ row = i * (sz * sz) + (r * sz + c) := by
  have h0 : 0 < sz * sz := by
    rcases Nat.eq_zero_or_pos (sz * sz) with h' | h'
    · rw [h'] at h; omega
    · exact h'
  have hs : 0 < sz := Nat.pos_of_mul_pos_left h0
  refine ⟨row / (sz * sz), row % (sz * sz) / sz, row % (sz * sz) % sz, Nat.div_lt_of_lt_mul (by rwa [Nat.mul_comm] at h), ?_,
    Nat.mod_lt _ hs, ?_⟩
  · exact Nat.div_lt_of_lt_mul (Nat.mod_lt _ h0)
  · rw [Nat.div_add_mod' (row % (sz * sz)) sz, Nat.div_add_mod' row (sz * sz)]

theorem sum_tims (l : List (Tim R)) (F : Tim R → R) (g : Nat → R) (h : ∀ i tim, l[i]? = some tim → g i = F tim) :
    ∑ i ∈ Finset.range l.length, g i = (l.map F).sum := by
  induction l generalizing g with
  | nil => simp
  | cons a l ih =>
    rw [List.length_cons, Finset.sum_range_succ', List.map_cons, List.sum_cons, ← ih (fun i => g (i + 1))
      (fun i tim hi => h (i + 1) tim (by simpa using hi)), h 0 a (by simp), add_comm]

theorem firstOrder_sum (ds : List (Tim R → Int → Int → R)) (Y : List R) (hY : Y.length = ds.length) (tim : Tim R) (x y : Int) :
    firstOrder ds Y tim x y = ∑ s ∈ Finset.range ds.length, ((ds[s]?).getD (fun _ _ _ => 0)) tim x y * (Y[s]?).getD 0 := by
  unfold firstOrder
  induction ds generalizing Y with
  | nil => simp
  | cons d ds ih =>
    cases Y with
    | nil => simp at hY
    | cons v Y =>
      rw [List.zipWith_cons_cons, List.sum_cons, List.length_cons, Finset.sum_range_succ', ih Y (by simpa using hY), add_comm]
      simp

/-- A sum over the columns is a sum over the parameters. -/
theorem sum_cols (job : UpJob R) (hx : Expected job) (ub : List String) (hub : ub = uniqueBands (job.tims.map job.band))
    (h : Nat → R) (h0 : ∀ s < nOut job, (∀ f, ¬ Paired job ub s f) → h s = 0) :
    ∑ f ∈ Finset.range (colsOf job ub).total, h (srcOf (paramIndices job ub) f) = ∑ s ∈ Finset.range (nOut job), h s := by
  have hp : ∀ f < (colsOf job ub).total, Paired job ub (srcOf (paramIndices job ub) f) f := by
    intro f hf
    subst hub
    obtain ⟨s, hs⟩ := paired_col job hx f hf
    unfold srcOf
    rw [dict_fit job hx _ s f hs]
    exact hs
  have hinj : Set.InjOn (srcOf (paramIndices job ub)) (Finset.range (colsOf job ub).total) := by
    intro a ha b hb e
    have h1 := hp a (by simpa using ha)
    have h2 := hp b (by simpa using hb)
    rw [e] at h1
    exact paired_fun job ub _ _ _ h1 h2
  rw [← Finset.sum_image hinj]
  refine Finset.sum_subset ?_ ?_
  · intro s hs
    obtain ⟨f, hf, rfl⟩ := Finset.mem_image.mp hs
    exact Finset.mem_range.mpr (paired_bound job hx ub _ _ (hp f (Finset.mem_range.mp hf))).1
  · intro s hs hn
    refine h0 s (Finset.mem_range.mp hs) (fun f hf => hn ?_)
    refine Finset.mem_image.mpr ⟨f, Finset.mem_range.mpr (paired_bound job hx ub _ _ hf).2, ?_⟩
    unfold srcOf
    rw [dict_fit job hx ub s f hf]; rfl

section
variable [LinearOrder R]

omit [LinearOrder R] in
theorem rest_ok (job : UpJob R) (hx : Expected job) (U : Tim R → Nat → Int → Int → R) (P : Params R)
    (G : List (List (Arr R))) (hG : Drawn job P U G) (i : Nat) (tim : Tim R) (p : Padded R)
    (h1 : job.tims[i]? = some tim) (h2 : P.ims[i]? = some p) (r c : Nat) (hr : r < P.sz) (hc : c < P.sz)
    (hin : InMask tim (p.padx0 + c) (p.pady0 + r)) :
    restOf job G i tim p r c = (p.padpix.px r c - (modelNow job U tim (p.padx0 + c) (p.pady0 + r) + glowNow job tim)) *
      p.padie.px r c := by
  have hn : NearMask tim (p.padx0 + c) (p.pady0 + r) := ⟨_, _, hin, by simp, by simp⟩
  unfold restOf modelNow glowNow
  cases hsrc : job.src with
  | none =>
    cases hsb : job.sb with
    | none => have := hx.some; simp [hsrc, hsb] at this
    | some g => simp only [zero_add]
  | some s =>
    have e := hG i tim p s h1 h2 hsrc 0 (by omega) r c hr hc hn
    cases hsb : job.sb with
    | none => simp only [e, add_zero]
    | some g => simp only [e]

omit [LinearOrder R] in
theorem rest_out (job : UpJob R) (G : List (List (Arr R))) (i : Nat) (tim : Tim R) (p : Padded R) (r c : Nat)
    (h0 : p.padie.px r c = 0) : restOf job G i tim p r c = 0 := by
  unfold restOf
  cases job.src <;> cases job.sb <;> simp [h0]

/-- The whole problem. -/
theorem problem_ok (job : UpJob R) (hx : Expected job) (cal : Tim R → R) (hcal : ∀ tim ∈ job.tims, cal tim = 1)
    (U : Tim R → Nat → Int → Int → R) (P : Params R) (cen : Tim R → Int × Int) (hl : Laid job.tims P cen)
    (hf : ∀ tim ∈ job.tims, Fits tim) (G : List (List (Arr R))) (hG : Drawn job P U G) (es : List (Entry R))
    (hes : PriorOK (nOut job) job.prior es) (hun : ∀ e ∈ es, ¬ Unseen job e.col) (ub : List String)
    (hub : ub = uniqueBands (job.tims.map job.band)) :
    ∃ np A B, withPriors (paramIndices job ub) (job.tims.length * (P.sz * P.sz)) job.prior
        (fun row col => pixelRow job.tims P (fun i tim p => cellOf job (colsOf job ub) ub P.sz G i tim p col) row,
          fun row => pixelRow job.tims P (restOf job G) row) = .ok (np, A, B) ∧
      (∀ Y : List R, Y.length = nOut job → gpuLinear job cal U Y =
        resid (job.tims.length * (P.sz * P.sz) + np) (colsOf job ub).total A B
          (fun f => (Y[srcOf (paramIndices job ub) f]?).getD 0)) ∧
      ∀ s f, Paired job ub s f → ((∃ row < job.tims.length * (P.sz * P.sz) + np, A row f ≠ 0) ↔
        (¬ NoEffect job cal U s ∨ ∃ e ∈ es, e.col = s)) := by
  have hlen := slopes_len job hx cal U
  have hcell : ∀ (i : Nat) (tim : Tim R) (p : Padded R), job.tims[i]? = some tim → P.ims[i]? = some p → ∀ s f,
      Paired job ub s f → ∃ d, (slopes job cal U)[s]? = some d ∧ ∀ r c : Nat, r < P.sz → c < P.sz →
      cellOf job (colsOf job ub) ub P.sz G i tim p f r c = d tim (p.padx0 + c) (p.pady0 + r) * p.padie.px r c := by
    intro i tim p h1 h2 s f hp
    have hm : tim ∈ job.tims := List.mem_iff_getElem?.mpr ⟨i, h1⟩
    exact cell_ok job hx cal U P G hG ub i tim p h1 h2 (hcal tim hm)
      (by rw [hub, mem_uniqueBands]; exact List.mem_map_of_mem hm) _ _ (hl.each i tim p h1 h2) s f hp
  have hp : ∀ f < (colsOf job ub).total, Paired job ub (srcOf (paramIndices job ub) f) f := by
    intro f hf
    subst hub
    obtain ⟨s, hs⟩ := paired_col job hx f hf
    unfold srcOf
    rw [dict_fit job hx _ s f hs]
    exact hs
  have htau : ∃ τ : Nat → Nat, ∀ e ∈ es, Paired job ub e.col (τ e.col) := by
    refine ⟨fun s => (dictGet (paramIndices job ub) s).getD 0, fun e he => ?_⟩
    rcases unpaired job hx cal U e.col (hes.2.2 e he).1 with ⟨f, hf⟩ | ⟨h, -⟩
    · rw [← hub] at hf
      simp only
      rw [dict_src job hx ub _ f hf]
      exact hf
    · exact absurd h (hun e he)
  obtain ⟨τ, hτ⟩ := htau
  obtain ⟨npix, hnpix⟩ : ∃ n, n = job.tims.length * (P.sz * P.sz) := ⟨_, rfl⟩
  rw [← hnpix]
  obtain ⟨A0, hA0⟩ : ∃ A0 : Dense R, A0 = fun row col => pixelRow job.tims P
    (fun i tim p => cellOf job (colsOf job ub) ub P.sz G i tim p col) row := ⟨_, rfl⟩
  obtain ⟨B0, hB0⟩ : ∃ B0 : Nat → R, B0 = fun row => pixelRow job.tims P (restOf job G) row := ⟨_, rfl⟩
  rw [← hA0, ← hB0]
  have hout : ∀ (f : Nat → Tim R → Padded R → Nat → Nat → R) (k : Nat), pixelRow job.tims P f (npix + k) = 0 := by
    intro f k
    unfold pixelRow
    simp only
    have : job.tims[(npix + k) / (P.sz * P.sz)]? = none ∨ P.sz * P.sz = 0 := by
      rcases Nat.eq_zero_or_pos (P.sz * P.sz) with h | h
      · exact .inr h
      · left
        rw [List.getElem?_eq_none_iff, hnpix]
        rw [Nat.le_div_iff_mul_le h]
        omega
    rcases this with h | h
    · rw [h]
    · cases ht : job.tims with
      | nil => simp
      | cons tim ts =>
        exfalso
        have hims : ∃ p, P.ims[0]? = some p := by
          have := hl.len
          rw [ht] at this
          cases hi : P.ims with
          | nil => rw [hi] at this; simp at this
          | cons p ps => exact ⟨p, rfl⟩
        obtain ⟨p, hp0⟩ := hims
        have lay := hl.each 0 tim p (by simp [ht]) hp0
        have hfit := hf tim (by simp [ht])
        have := lay.margin tim.x0 tim.y0 ⟨le_refl _, hfit.x.2.1, le_refl _, hfit.y.2.1⟩
        have hz : P.sz = 0 := by
          rcases Nat.mul_eq_zero.mp h with h | h <;> exact h
        omega
  obtain ⟨A, B, hw, a1, b1, a2, b2⟩ : ∃ (A : Dense R) (B : Nat → R),
      withPriors (paramIndices job ub) npix job.prior (A0, B0) = .ok (es.length, A, B) ∧
      (∀ r c, r < npix → A r c = A0 r c) ∧ (∀ r, r < npix → B r = B0 r) ∧
      (∀ k c, A (npix + k) c = (((es.map (fun e => { e with col := τ e.col })).filter
        (fun e => e.row = k ∧ e.col = c)).map (·.val)).sum) ∧
      (∀ k, B (npix + k) = ((es.filter (fun e => e.row = k)).map (·.b)).sum) := by
    obtain ⟨hrep, hrows, hcols⟩ := hes
    cases hpr : job.prior with
    | none =>
      rw [hpr] at hrep
      have : es = [] := hrep
      subst this
      refine ⟨A0, B0, rfl, fun _ _ _ => rfl, fun _ _ => rfl, ?_, ?_⟩
      · intro k c; rw [hA0]; simp only [hout]; simp
      · intro k; rw [hB0]; simp only [hout]; simp
    | some q =>
      rw [hpr] at hrep
      have hr : Represents q es := hrep
      have hnd : ((es.map (fun e => ({ e with col := τ e.col } : Entry R))).map (·.row)).Nodup := by
        rw [List.map_map]
        have : (Entry.row ∘ fun e : Entry R => ({ e with col := τ e.col } : Entry R)) = Entry.row := rfl
        rw [this, hrows]
        exact List.nodup_range
      obtain ⟨A', B', norms', e1, -, e3, e4, e5, e6⟩ := densePriors_ok npix _ hnd A0 B0 [] (by
        intro e _ c; rw [hA0]; simp only [hout])
      have hz : ((q.rows.zip q.cols).zip q.vals).zip q.bs =
          es.map (fun e => ((([e.row], e.col), [e.val]), [e.b])) := by
        rw [hr.rows, hr.cols, hr.vals, hr.bs]
        clear hr hrows hnd e1 e5 e6 hcols hrep hτ hun
        induction es with
        | nil => rfl
        | cons e es ih => simp [ih]
      refine ⟨A', B', ?_, e3, e4, ?_, ?_⟩
      · unfold withPriors
        simp only [hz]
        rw [priorCols_ok (paramIndices job ub) τ npix es (fun e he => dict_src job hx ub _ _ (hτ e he)) A0 B0 [], e1]
        simp only [rowsEnd_eq q es hr hrows]
      · intro k c
        rw [e5, hA0]
        simp only [hout, zero_add]
      · intro k
        rw [e6, hB0]
        simp only [hout, zero_add]
        rw [List.filter_map, List.map_map]
        rfl
  refine ⟨es.length, A, B, hw, ?_, ?_⟩
  · intro Y hY
    unfold resid
    rw [Finset.sum_range_add]
    unfold gpuLinear
    congr 1
    · unfold chiSq
      rw [hnpix, sum_blocks]
      symm
      refine sum_tims job.tims _ _ ?_
      intro i tim h1
      obtain ⟨p, h2⟩ : ∃ p, P.ims[i]? = some p := by
        have h3 := (List.getElem?_eq_some_iff.mp h1).1
        exact ⟨_, List.getElem?_eq_getElem (by rw [hl.len]; exact h3)⟩
      have hm : tim ∈ job.tims := List.mem_iff_getElem?.mpr ⟨i, h1⟩
      have lay := hl.each i tim p h1 h2
      rw [sum_blocks]
      refine chi_sum tim P.sz _ _ p lay (hf tim hm) _ _ _ ?_
      intro r c hr hc
      have hlt : i * (P.sz * P.sz) + (r * P.sz + c) < npix := by
        have h3 := (List.getElem?_eq_some_iff.mp h1).1
        have : r * P.sz + c < P.sz * P.sz := by
          calc r * P.sz + c < r * P.sz + P.sz := by omega
            _ = (r + 1) * P.sz := by ring
            _ ≤ P.sz * P.sz := Nat.mul_le_mul_right _ hr
        calc i * (P.sz * P.sz) + (r * P.sz + c) < i * (P.sz * P.sz) + P.sz * P.sz := by omega
          _ = (i + 1) * (P.sz * P.sz) := by ring
          _ ≤ npix := by rw [hnpix]; exact Nat.mul_le_mul_right _ h3
      rw [b1 _ hlt, hB0]
      simp only [pixelRow_at job.tims P _ i tim p h1 h2 r c hr hc]
      have hA : ∀ f, f < (colsOf job ub).total → A (i * (P.sz * P.sz) + (r * P.sz + c)) f *
          (Y[srcOf (paramIndices job ub) f]?).getD 0 =
          (fun s => (((slopes job cal U)[s]?).getD (fun _ _ _ => 0)) tim (p.padx0 + c) (p.pady0 + r) * p.padie.px r c *
            (Y[s]?).getD 0) (srcOf (paramIndices job ub) f) := by
        intro f hf'
        obtain ⟨d, d1, d2⟩ := hcell i tim p h1 h2 _ _ (hp f hf')
        rw [a1 _ _ hlt, hA0]
        simp only [pixelRow_at job.tims P _ i tim p h1 h2 r c hr hc]
        rw [d2 r c hr hc, d1, Option.getD_some]
      rw [Finset.sum_congr rfl (fun f hf' => hA f (Finset.mem_range.mp hf')), sum_cols job hx ub hub
          (fun s => (((slopes job cal U)[s]?).getD (fun _ _ _ => 0)) tim (p.padx0 + c) (p.pady0 + r) * p.padie.px r c *
            (Y[s]?).getD 0) (by
        intro s hs hn
        rcases unpaired job hx cal U s hs with ⟨f, hf'⟩ | ⟨-, h⟩
        · rw [← hub] at hf'; exact absurd hf' (hn f)
        · have : ∃ d, (slopes job cal U)[s]? = some d := ⟨_, List.getElem?_eq_getElem (by rw [hlen]; exact hs)⟩
          obtain ⟨d, hd⟩ := this
          rw [hd, Option.getD_some, h d hd tim hm, zero_mul, zero_mul])]
      by_cases hin : InMask tim (p.padx0 + c) (p.pady0 + r)
      · rw [if_pos hin, rest_ok job hx U P G hG i tim p h1 h2 r c hr hc hin, lay.pix r c hr hc, lay.ie r c hr hc, if_pos hin,
          if_pos hin, firstOrder_sum _ Y (by rw [hlen, hY]), hlen]
        have : ∀ w : R, ∑ s ∈ Finset.range (nOut job), (((slopes job cal U)[s]?).getD (fun _ _ _ => 0)) tim (p.padx0 + c)
            (p.pady0 + r) * w * (Y[s]?).getD 0 = (∑ s ∈ Finset.range (nOut job), (((slopes job cal U)[s]?).getD
              (fun _ _ _ => 0)) tim (p.padx0 + c) (p.pady0 + r) * (Y[s]?).getD 0) * w := by
          intro w
          rw [Finset.sum_mul]
          exact Finset.sum_congr rfl (fun s _ => by ring)
        rw [this]
        ring
      · have h0 : p.padie.px r c = 0 := by rw [lay.ie r c hr hc, if_neg hin]
        rw [if_neg hin, rest_out job G i tim p r c h0, h0]
        simp
    · rw [linearChi_entries (nOut job) job.prior es hes Y]
      refine Finset.sum_congr rfl (fun k _ => ?_)
      rw [b2]
      simp only [a2]
      rw [sum_entries (colsOf job ub).total (es.map (fun e => { e with col := τ e.col })) (by
        intro e he
        obtain ⟨e', he', rfl⟩ := List.mem_map.mp he
        exact (paired_bound job hx ub _ _ (hτ e' he')).2) k (fun f => (Y[srcOf (paramIndices job ub) f]?).getD 0)]
      congr 2
      rw [List.filter_map, List.map_map]
      apply congrArg
      apply List.map_congr_left
      intro e he
      have hτe := hτ e (List.mem_of_mem_filter he)
      have es : srcOf (paramIndices job ub) (τ e.col) = e.col := by
        unfold srcOf
        rw [dict_fit job hx ub _ _ hτe]; rfl
      simp only [Function.comp, es]
  · intro s f hpf
    obtain ⟨hsb, hfb⟩ := paired_bound job hx ub s f hpf
    have hd0 : ∃ d, (slopes job cal U)[s]? = some d := ⟨_, List.getElem?_eq_getElem (by rw [hlen]; exact hsb)⟩
    obtain ⟨d, hd⟩ := hd0
    constructor
    · rintro ⟨row, hrow, hne⟩
      by_cases hlt : row < npix
      · left
        intro hno
        rw [a1 _ _ hlt, hA0] at hne
        rw [hnpix] at hlt
        obtain ⟨i, r, c, hi, hr, hc, rfl⟩ := row_split _ _ _ hlt
        have h1 : job.tims[i]? = some job.tims[i] := List.getElem?_eq_getElem hi
        have h2 : P.ims[i]? = some (P.ims[i]'(by rw [hl.len]; exact hi)) := List.getElem?_eq_getElem _
        simp only [pixelRow_at job.tims P _ i _ _ h1 h2 r c hr hc] at hne
        obtain ⟨d', d1, d2⟩ := hcell i _ _ h1 h2 s f hpf
        rw [hd] at d1; cases d1
        rw [d2 r c hr hc] at hne
        have hie : (P.ims[i]'(by rw [hl.len]; exact hi)).padie.px r c ≠ 0 := right_ne_zero_of_mul hne
        have hdn := left_ne_zero_of_mul hne
        have lay := hl.each i _ _ h1 h2
        rw [lay.ie r c hr hc] at hie
        by_cases hin : InMask job.tims[i] ((P.ims[i]'(by rw [hl.len]; exact hi)).padx0 + c)
            ((P.ims[i]'(by rw [hl.len]; exact hi)).pady0 + r)
        · rw [if_pos hin] at hie
          exact hdn (hno d hd _ (List.getElem_mem hi) _ _ hin hie)
        · rw [if_neg hin] at hie
          exact hie rfl
      · right
        obtain ⟨k, rfl⟩ : ∃ k, row = npix + k := ⟨row - npix, by omega⟩
        rw [a2] at hne
        by_contra hcon
        push Not at hcon
        apply hne
        have : (es.map (fun e => ({ e with col := τ e.col } : Entry R))).filter
            (fun e => decide (e.row = k ∧ e.col = f)) = [] := by
          rw [List.filter_eq_nil_iff]
          intro e he
          obtain ⟨e', he', rfl⟩ := List.mem_map.mp he
          simp only [decide_eq_true_eq, not_and]
          intro _ h
          have := hτ e' he'
          rw [h] at this
          exact hcon e' he' (paired_inj job hx ub _ _ f this hpf)
        rw [this]; rfl
    · rintro (hno | ⟨e, he, hcol⟩)
      · unfold NoEffect at hno
        push Not at hno
        obtain ⟨d', hd', tim, hm, x, y, hin, hie, hdn⟩ := hno
        rw [hd] at hd'; cases hd'
        obtain ⟨i, h1⟩ := List.mem_iff_getElem?.mp hm
        have hi := (List.getElem?_eq_some_iff.mp h1).1
        have h2 : P.ims[i]? = some (P.ims[i]'(by rw [hl.len]; exact hi)) := List.getElem?_eq_getElem _
        obtain ⟨p, hpp⟩ : ∃ p, p = P.ims[i]'(by rw [hl.len]; exact hi) := ⟨_, rfl⟩
        rw [← hpp] at h2
        have lay := hl.each i tim p h1 h2
        have hmar := lay.margin x y hin
        obtain ⟨r, er⟩ := Int.eq_ofNat_of_zero_le (show 0 ≤ y - p.pady0 by omega)
        obtain ⟨c, ec⟩ := Int.eq_ofNat_of_zero_le (show 0 ≤ x - p.padx0 by omega)
        have hr : r < P.sz := by omega
        have hc : c < P.sz := by omega
        have hlt : i * (P.sz * P.sz) + (r * P.sz + c) < npix := by
          have : r * P.sz + c < P.sz * P.sz := by
            calc r * P.sz + c < r * P.sz + P.sz := by omega
              _ = (r + 1) * P.sz := by ring
              _ ≤ P.sz * P.sz := Nat.mul_le_mul_right _ hr
          calc i * (P.sz * P.sz) + (r * P.sz + c) < i * (P.sz * P.sz) + P.sz * P.sz := by omega
            _ = (i + 1) * (P.sz * P.sz) := by ring
            _ ≤ npix := by rw [hnpix]; exact Nat.mul_le_mul_right _ hi
        refine ⟨i * (P.sz * P.sz) + (r * P.sz + c), by omega, ?_⟩
        rw [a1 _ _ hlt, hA0]
        simp only [pixelRow_at job.tims P _ i _ _ h1 h2 r c hr hc]
        obtain ⟨d', d1, d2⟩ := hcell i _ _ h1 h2 s f hpf
        rw [hd] at d1; cases d1
        have ex : p.padx0 + c = x := by omega
        have ey : p.pady0 + r = y := by omega
        rw [d2 r c hr hc, lay.ie r c hr hc, ex, ey, if_pos hin]
        exact mul_ne_zero hdn hie
      · obtain ⟨hrep, hrows, hcols⟩ := hes
        have hrow : e.row < es.length := by
          have : e.row ∈ es.map (·.row) := List.mem_map_of_mem he
          rw [hrows, List.mem_range] at this
          exact this
        refine ⟨npix + e.row, by omega, ?_⟩
        have hτe := hτ e he
        have hft : τ e.col = f := by
          have := hτ e he
          rw [hcol] at this ⊢
          exact paired_fun job ub s _ _ this hpf
        have huniq : ∀ e' ∈ es, e'.row = e.row → e' = e := by
          intro e' he' hre
          have hnd : (es.map (·.row)).Nodup := hrows ▸ List.nodup_range
          obtain ⟨i, hi, rfl⟩ := List.mem_iff_getElem.mp he
          obtain ⟨j, hj, rfl⟩ := List.mem_iff_getElem.mp he'
          have := (hnd.getElem_inj_iff (hi := by simpa using hj) (hj := by simpa using hi)).mp (by simpa using hre)
          subst this; rfl
        rw [a2, List.filter_map, List.map_map]
        have hfil : (es.filter ((fun e' : Entry R => decide (e'.row = e.row ∧ e'.col = f)) ∘
            fun e => ({ e with col := τ e.col } : Entry R))) = [e] := by
          have hnd : es.Nodup := List.Nodup.of_map (·.row) (hrows ▸ List.nodup_range)
          have h1 : ∀ e', e' ∈ es.filter ((fun e' : Entry R => decide (e'.row = e.row ∧ e'.col = f)) ∘
            fun e => ({ e with col := τ e.col } : Entry R)) ↔ e' ∈ [e] := by
            intro e'
            rw [List.mem_filter, List.mem_singleton]
            simp only [Function.comp, decide_eq_true_eq]
            constructor
            · rintro ⟨g1, g2, -⟩; exact huniq e' g1 g2
            · rintro rfl; exact ⟨he, rfl, hft⟩
          exact List.perm_singleton.mp ((List.perm_ext_iff_of_nodup (hnd.filter _) (List.nodup_singleton e)).mpr h1)
        rw [hfil]
        simpa using (hcols e he).2

end

end Verif.Gpu
