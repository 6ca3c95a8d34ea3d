import Verif.Gpu.UpdateLemmas2

/-!
# The elements of the matrix are the weighted derivatives
-/

namespace Verif.Gpu

open Verif Verif.Psf Verif.Params Verif.Lsq

variable {R : Type} [Field R]

theorem star_pos (band : Tim R → String) (cal : Tim R → R) (U : Tim R → Nat → Int → Int → R) (s : Star R) (j : Nat)
    (hj : j < s.npos) : (starSlopes band cal U s)[j]? = some (fun tim x y => s.cnt tim *
    ((U tim 0 (x - 1) y - U tim 0 (x + 1) y) / 2 * s.cdi tim 0 j +
      (U tim 0 x (y - 1) - U tim 0 x (y + 1)) / 2 * s.cdi tim 1 j)) := by
  unfold starSlopes
  rw [List.append_assoc, List.getElem?_append_left (by simpa using hj), List.getElem?_map, List.getElem?_range hj]
  rfl

theorem star_flux (band : Tim R → String) (cal : Tim R → R) (U : Tim R → Nat → Int → Int → R) (s : Star R) (i : Nat)
    (b : String) (hb : s.bands[i]? = some b) : (starSlopes band cal U s)[s.npos + i]? =
      some (fun tim x y => if band tim = b then cal tim * U tim 0 x y else 0) := by
  have hi := lt_of_idx hb
  unfold starSlopes
  rw [List.append_assoc, List.getElem?_append_right (by simp), List.getElem?_append_left (by simpa using hi)]
  simp only [List.length_map, List.length_range, Nat.add_sub_cancel_left, List.getElem?_map, hb, Option.map_some]

theorem star_shape (band : Tim R → String) (cal : Tim R → R) (U : Tim R → Nat → Int → Int → R) (s : Star R) (i : Nat)
    (hi : i < s.nshapes) : (starSlopes band cal U s)[s.npos + s.bands.length + i]? =
      some (fun tim x y => s.cnt tim * ((U tim (i + 1) x y - U tim 0 x y) / s.step tim i)) := by
  unfold starSlopes
  rw [List.getElem?_append_right (by simp)]
  simp only [List.length_append, List.length_map, List.length_range, Nat.add_sub_cancel_left, List.getElem?_map,
    List.getElem?_range hi, Option.map_some]

theorem star_len (band : Tim R → String) (cal : Tim R → R) (U : Tim R → Nat → Int → Int → R) (s : Star R) :
    (starSlopes band cal U s).length = s.npos + s.bands.length + s.nshapes := by
  unfold starSlopes; simp [Nat.add_assoc]

theorem slopes_star (job : UpJob R) (cal : Tim R → R) (U : Tim R → Nat → Int → Int → R) (s : Star R)
    (h : job.src = some s) (j : Nat) (hj : j < s.npos + s.bands.length + s.nshapes) :
    (slopes job cal U)[j]? = (starSlopes job.band cal U s)[j]? := by
  unfold slopes
  simp only [h]
  rw [List.getElem?_append_left (by rw [star_len]; exact hj)]

theorem slopes_glow (job : UpJob R) (cal : Tim R → R) (U : Tim R → Nat → Int → Int → R) (g : Glow R)
    (h : job.sb = some g) (i : Nat) (b : String) (hb : g.bands[i]? = some b) :
    (slopes job cal U)[(match job.src with | some s => s.npos + s.bands.length + s.nshapes | none => 0) + i]? =
      some (fun tim _ _ => if job.band tim = b then cal tim * g.scale tim ^ 2 else 0) := by
  unfold slopes
  simp only [h]
  cases hsrc : job.src with
  | none =>
    simp only [List.nil_append, Nat.zero_add]
    unfold glowSlopes
    rw [List.getElem?_map, hb]; rfl
  | some s =>
    simp only
    rw [List.getElem?_append_right (by rw [star_len]; omega), star_len, Nat.add_sub_cancel_left]
    unfold glowSlopes
    rw [List.getElem?_map, hb]; rfl

theorem slopes_len (job : UpJob R) (hx : Expected job) (cal : Tim R → R) (U : Tim R → Nat → Int → Int → R) :
    (slopes job cal U).length = nOut job := by
  unfold slopes nOut sbBands
  rw [List.length_append]
  cases hsrc : job.src with
  | none =>
    cases hsb : job.sb <;> simp [glowSlopes]
  | some s =>
    simp only [star_len, hx.nparams s hsrc]
    cases hsb : job.sb <;> simp [glowSlopes]

/-- The arrays show the unit-flux models where the derivatives need them. -/
def Drawn (job : UpJob R) (P : Params R) (U : Tim R → Nat → Int → Int → R) (G : List (List (Arr R))) : Prop :=
  ∀ (i : Nat) (tim : Tim R) (p : Padded R) (s : Star R), job.tims[i]? = some tim → P.ims[i]? = some p → job.src = some s →
    ∀ k, k ≤ s.nshapes → ∀ r c : Nat, r < P.sz → c < P.sz → NearMask tim (p.padx0 + c) (p.pady0 + r) →
      (profAt G i k).px r c = U tim k (p.padx0 + c) (p.pady0 + r)

section
variable [LinearOrder R]

/-- Position, element by element. -/
theorem grad_ok (tim : Tim R) (sz : Nat) (ipx ipy : Int) (p : Padded R) (lay : Layout tim sz ipx ipy p) (A : Arr R)
    (f : Int → Int → R) (hA : ∀ r c : Nat, r < sz → c < sz → NearMask tim (p.padx0 + c) (p.pady0 + r) →
      A.px r c = f (p.padx0 + c) (p.pady0 + r)) (r c : Nat) (hin : InMask tim (p.padx0 + c) (p.pady0 + r)) :
    gradX sz A r c = (f (p.padx0 + c - 1) (p.pady0 + r) - f (p.padx0 + c + 1) (p.pady0 + r)) / 2 ∧
    gradY sz A r c = (f (p.padx0 + c) (p.pady0 + r - 1) - f (p.padx0 + c) (p.pady0 + r + 1)) / 2 := by
  have hm := lay.margin _ _ hin
  have near : ∀ (r' c' : Nat), |(r' : Int) - r| ≤ 1 → |(c' : Int) - c| ≤ 1 →
      NearMask tim (p.padx0 + c') (p.pady0 + r') := by
    intro r' c' h1 h2
    refine ⟨_, _, hin, ?_, ?_⟩
    · rw [abs_le] at h2 ⊢; omega
    · rw [abs_le] at h1 ⊢; omega
  have a1 := hA r (c - 1) (by omega) (by omega) (near _ _ (by rw [abs_le]; omega) (by rw [abs_le]; omega))
  have a2 := hA r (c + 1) (by omega) (by omega) (near _ _ (by rw [abs_le]; omega) (by rw [abs_le]; omega))
  have a3 := hA (r - 1) c (by omega) (by omega) (near _ _ (by rw [abs_le]; omega) (by rw [abs_le]; omega))
  have a4 := hA (r + 1) c (by omega) (by omega) (near _ _ (by rw [abs_le]; omega) (by rw [abs_le]; omega))
  unfold gradX gradY
  rw [if_neg (by omega), if_neg (by omega), a1, a2, a3, a4]
  refine ⟨?_, ?_⟩
  · congr 3 <;> omega
  · congr 3 <;> omega

/-- Every element of the matrix is the derivative by its parameter, weighted. -/
theorem cell_ok (job : UpJob R) (hx : Expected job) (cal : Tim R → R) (U : Tim R → Nat → Int → Int → R)
    (P : Params R) (G : List (List (Arr R))) (hG : Drawn job P U G) (ub : List String) (i : Nat) (tim : Tim R) (p : Padded R)
    (h1 : job.tims[i]? = some tim) (h2 : P.ims[i]? = some p) (hc : cal tim = 1) (hub : job.band tim ∈ ub) (ipx ipy : Int)
    (lay : Layout tim P.sz ipx ipy p) (s f : Nat) (h : Paired job ub s f) :
    ∃ d, (slopes job cal U)[s]? = some d ∧ ∀ r c : Nat, r < P.sz → c < P.sz →
      cellOf job (colsOf job ub) ub P.sz G i tim p f r c = d tim (p.padx0 + c) (p.pady0 + r) * p.padie.px r c := by
  have hidx := List.idxOf_lt_length_iff.mpr hub
  have hself : ∀ r c : Nat, InMask tim (p.padx0 + c) (p.pady0 + r) → NearMask tim (p.padx0 + c) (p.pady0 + r) :=
    fun r c h => ⟨_, _, h, by simp, by simp⟩
  cases h with
  | pos st h0 hs h2' hj =>
    refine ⟨_, by rw [slopes_star job cal U st hs s (by omega), star_pos job.band cal U st s (by omega)], ?_⟩
    intro r c hr hcc
    have e : cellOf job (colsOf job ub) ub P.sz G i tim p s r c =
        st.cnt tim * (gradX P.sz (profAt G i 0) r c * st.cdi tim 0 s + gradY P.sz (profAt G i 0) r c * st.cdi tim 1 s) *
          p.padie.px r c := by
      unfold cellOf
      simp only [hs]
      cases hsb : job.sb with
      | none =>
        simp only [colsOf, hs]
        rw [if_pos (by omega)]
      | some g =>
        simp only [colsOf, hs]
        rw [if_neg (by omega), if_pos (by omega)]
    rw [e]
    by_cases hin : InMask tim (p.padx0 + c) (p.pady0 + r)
    · obtain ⟨g1, g2⟩ := grad_ok tim P.sz ipx ipy p lay (profAt G i 0) (U tim 0)
        (fun r c hr hc hn => hG i tim p st h1 h2 hs 0 (by omega) r c hr hc hn) r c hin
      rw [g1, g2]
    · rw [lay.ie r c hr hcc, if_neg hin, mul_zero, mul_zero]
  | flux st j b hs hb hu =>
    have hb1 := lt_of_idx hb
    have hu1 := List.idxOf_lt_length_iff.mpr hu
    have hp := hx.npos st hs
    refine ⟨_, by rw [slopes_star job cal U st hs _ (by omega), star_flux job.band cal U st j b hb], ?_⟩
    intro r c hr hcc
    have e : cellOf job (colsOf job ub) ub P.sz G i tim p (st.npos + ub.idxOf b) r c =
        (if job.band tim = b then (profAt G i 0).px r c else 0) * p.padie.px r c := by
      have e2 : (st.npos + ub.idxOf b = st.npos + ub.idxOf (job.band tim)) ↔ job.band tim = b := by
        constructor
        · intro h
          exact (idxOf_inj ub _ _ hu (by omega)).symm
        · intro h; rw [h]
      unfold cellOf
      simp only [hs]
      cases hsb : job.sb with
      | none =>
        simp only [colsOf, hs]
        rw [if_neg (by omega)]
        by_cases hh : job.band tim = b
        · rw [if_pos (e2.mpr hh), if_pos hh]
        · rw [if_neg (fun h => hh (e2.mp h)), if_neg hh, if_neg (by omega), zero_mul]
      | some g =>
        simp only [colsOf, hs]
        rw [if_neg (by omega), if_neg (by omega)]
        by_cases hh : job.band tim = b
        · rw [if_pos (e2.mpr hh), if_pos hh]
        · rw [if_neg (fun h => hh (e2.mp h)), if_neg hh, if_neg (by omega), zero_mul]
    rw [e]
    by_cases hin : InMask tim (p.padx0 + c) (p.pady0 + r)
    · rw [hG i tim p st h1 h2 hs 0 (by omega) r c hr hcc (hself r c hin), hc, one_mul]
    · rw [lay.ie r c hr hcc, if_neg hin, mul_zero, mul_zero]
  | shape st j hs hj =>
    have hp := hx.npos st hs
    refine ⟨_, by rw [slopes_star job cal U st hs _ (by omega), star_shape job.band cal U st j hj], ?_⟩
    intro r c hr hcc
    have e : cellOf job (colsOf job ub) ub P.sz G i tim p (st.npos + ub.length + j) r c =
        st.cnt tim * ((profAt G i (j + 1)).px r c - (profAt G i 0).px r c) / st.step tim j * p.padie.px r c := by
      unfold cellOf
      simp only [hs]
      cases hsb : job.sb with
      | none =>
        simp only [colsOf, hs]
        rw [if_neg (by omega), if_neg (by omega), if_pos (by omega), Nat.add_sub_cancel_left]
      | some g =>
        simp only [colsOf, hs]
        rw [if_neg (by omega), if_neg (by omega), if_neg (by omega), if_pos (by omega), Nat.add_sub_cancel_left]
    rw [e]
    by_cases hin : InMask tim (p.padx0 + c) (p.pady0 + r)
    · rw [hG i tim p st h1 h2 hs 0 (by omega) r c hr hcc (hself r c hin),
        hG i tim p st h1 h2 hs (j + 1) (by omega) r c hr hcc (hself r c hin), mul_div_assoc]
    · rw [lay.ie r c hr hcc, if_neg hin, mul_zero, mul_zero]
  | glow g j b hs hb hu =>
    have hb1 := lt_of_idx hb
    have hu1 := List.idxOf_lt_length_iff.mpr hu
    refine ⟨_, slopes_glow job cal U g hs j b hb, ?_⟩
    intro r c hr hcc
    have e2 : ub.idxOf b = ub.idxOf (job.band tim) ↔ job.band tim = b := by
      constructor
      · intro h
        exact (idxOf_inj ub _ _ hu (by omega)).symm
      · intro h; rw [h]
    unfold cellOf
    cases hsrc : job.src with
    | none =>
      simp only [colsOf, hs, hsrc, Nat.add_zero, Nat.zero_add]
      by_cases hh : job.band tim = b
      · rw [if_pos (e2.mpr hh), if_pos hh, hc, one_mul]
      · rw [if_neg (fun h => hh (e2.mp h)), if_neg hh, zero_mul]
    | some st =>
      have hp := hx.npos st hsrc
      simp only [colsOf, hs, hsrc]
      by_cases hh : job.band tim = b
      · have := e2.mpr hh
        rw [if_pos (by omega), if_pos hh, hc, one_mul]
      · have : ub.idxOf b ≠ ub.idxOf (job.band tim) := fun h => hh (e2.mp h)
        rw [if_neg (by omega), if_neg hh, if_neg (by omega), if_neg (by omega), if_neg (by omega), zero_mul]

omit [LinearOrder R] in
/-- Parameters without a column have no derivative in the images, and these are the unseen bands. -/
theorem unpaired (job : UpJob R) (hx : Expected job) (cal : Tim R → R) (U : Tim R → Nat → Int → Int → R) (s : Nat)
    (hs : s < nOut job) :
    (∃ f, Paired job (uniqueBands (job.tims.map job.band)) s f) ∨
    (Unseen job s ∧ ∀ d, (slopes job cal U)[s]? = some d → ∀ tim ∈ job.tims, ∀ x y, d tim x y = 0) := by
  obtain ⟨ub, hub⟩ : ∃ ub, ub = uniqueBands (job.tims.map job.band) := ⟨_, rfl⟩
  have hin : ∀ tim ∈ job.tims, job.band tim ∈ ub := by
    intro tim h
    rw [hub, mem_uniqueBands]
    exact List.mem_map_of_mem h
  rw [← hub]
  have glowcase : ∀ i, s = (match job.src with | some s => s.npos + s.bands.length + s.nshapes | none => 0) + i →
      i < (sbBands job).length → (∃ f, Paired job ub s f) ∨
    (Unseen job s ∧ ∀ d, (slopes job cal U)[s]? = some d → ∀ tim ∈ job.tims, ∀ x y, d tim x y = 0) := by
    intro i hi hl
    cases hsb : job.sb with
    | none => simp [sbBands, hsb] at hl
    | some g =>
      simp only [sbBands, hsb] at hl
      have hb : g.bands[i]? = some g.bands[i] := List.getElem?_eq_getElem hl
      by_cases hu : g.bands[i] ∈ ub
      · left
        exact ⟨_, by rw [hi]; exact .glow g i _ hsb hb hu⟩
      · right
        have hne : ∀ tim ∈ job.tims, job.band tim ≠ g.bands[i] := fun tim h e => hu (e ▸ hin tim h)
        refine ⟨.inr ⟨g, i, _, hsb, hb, ?_, hne⟩, ?_⟩
        · rw [hi]
          cases hsrc : job.src with
          | none => rfl
          | some st => simp only [hx.nparams st hsrc]
        · intro d hd tim ht x y
          rw [hi, slopes_glow job cal U g hsb i _ hb] at hd
          cases hd
          simp only
          rw [if_neg (hne tim ht)]
  cases hsrc : job.src with
  | none =>
    simp only [nOut, hsrc, Nat.zero_add] at hs
    exact glowcase s (by simp [hsrc]) hs
  | some st =>
    have hn := hx.nparams st hsrc
    simp only [nOut, hsrc] at hs
    by_cases c1 : s < st.npos
    · have := hx.npos st hsrc
      exact .inl ⟨s, .pos st s hsrc (by omega) (by omega)⟩
    by_cases c2 : s < st.npos + st.bands.length
    · have hl : s - st.npos < st.bands.length := by omega
      have hb : st.bands[s - st.npos]? = some st.bands[s - st.npos] := List.getElem?_eq_getElem hl
      have es : s = st.npos + (s - st.npos) := by omega
      by_cases hu : st.bands[s - st.npos] ∈ ub
      · left
        have := Paired.flux (ub := ub) st _ _ hsrc hb hu
        rw [← es] at this
        exact ⟨_, this⟩
      · right
        have hne : ∀ tim ∈ job.tims, job.band tim ≠ st.bands[s - st.npos] := fun tim h e => hu (e ▸ hin tim h)
        refine ⟨.inl ⟨st, _, _, hsrc, hb, es, hne⟩, ?_⟩
        intro d hd tim ht x y
        rw [es, slopes_star job cal U st hsrc _ (by omega), star_flux job.band cal U st _ _ hb] at hd
        cases hd
        simp only
        rw [if_neg (hne tim ht)]
    by_cases c3 : s < st.npos + st.bands.length + st.nshapes
    · left
      have := Paired.shape (ub := ub) st (s - (st.npos + st.bands.length)) hsrc (by omega)
      rw [show st.npos + st.bands.length + (s - (st.npos + st.bands.length)) = s by omega] at this
      exact ⟨_, this⟩
    · exact glowcase (s - (st.npos + st.bands.length + st.nshapes)) (by simp only [hsrc]; omega) (by omega)

end

end Verif.Gpu
