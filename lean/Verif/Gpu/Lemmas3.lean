import Verif.Gpu.Lemmas2
import Mathlib.Data.List.MinMax

namespace Verif.Gpu

open Verif Verif.Psf

variable {R : Type} [Field R]

theorem tap_corrX (f : Nat → R) (A : Arr R) (r c : Nat) (hr : r < A.h) :
    tapVal f (A.px r) A.w c = (corrX f A).px r c := by
  unfold tapVal corrX
  simp only
  congr 1
  refine List.map_congr_left (fun k hk => ?_)
  congr 1
  unfold ext
  by_cases h : 3 ≤ c + k ∧ c + k < A.w + 3
  · rw [if_pos h, if_pos (by omega)]
    congr 1
    omega
  · rw [if_neg h, if_neg (by omega)]

theorem tap_corrY (f : Nat → R) (A : Arr R) (r c : Nat) (hc : c < A.w) :
    tapVal f (fun r => A.px r c) A.h r = (corrY f A).px r c := by
  unfold tapVal corrY
  simp only
  congr 1
  refine List.map_congr_left (fun k hk => ?_)
  congr 1
  unfold ext
  by_cases h : 3 ≤ r + k ∧ r + k < A.h + 3
  · rw [if_pos h, if_pos (by omega)]
    congr 1
    omega
  · rw [if_neg h, if_neg (by omega)]

theorem tap_congr (f g g' : Nat → R) (n c : Nat) (h : ∀ i, i < n → g i = g' i) : tapVal f g n c = tapVal f g' n c := by
  unfold tapVal
  congr 1
  refine List.map_congr_left (fun k hk => ?_)
  congr 1
  by_cases h' : 3 ≤ c + k ∧ c + k < n + 3
  · rw [if_pos h', if_pos h', h _ (by omega)]
  · rw [if_neg h', if_neg h']

theorem correlate_run (fx fy : Nat → R) (inp work out : Arr R) (hh : 6 ≤ inp.h) (hw : 6 ≤ inp.w)
    (w1 : work.h = inp.h) (w2 : work.w = inp.w) (o1 : out.h = inp.h) (o2 : out.w = inp.w) :
    ∃ W, correlate fx fy inp work out = .ok W ∧ W.h = inp.h ∧ W.w = inp.w ∧ ∀ r c, r < inp.h → c < inp.w →
      W.px r c = (corrY fy (corrX fx inp)).px r c := by
  obtain ⟨W, e, a1, a2, a3⟩ := filterX_ok fx inp work hw w1 w2
  obtain ⟨W', e', b1, b2, b3⟩ := filterY_ok fy W out (by omega) (by omega) (by omega)
  refine ⟨W', ?_, by omega, by omega, ?_⟩
  · unfold correlate
    rw [e]
    exact e'
  · intro r c hr hc
    rw [b3 r c (by omega) (by omega), ← tap_corrY fy (corrX fx inp) r c hc]
    show tapVal fy _ W.h r = tapVal fy _ inp.h r
    rw [a1]
    refine tap_congr _ _ _ _ _ (fun i hi => ?_)
    rw [a3 i c hi hc, tap_corrX fx inp i c hi]

section
variable [LinearOrder R]

theorem unit_run (lz : R → R) (junk junk' : Nat → Nat → R) (P : Arr R) (mux muy : R) (hh : 6 ≤ P.h) (hw : 6 ≤ P.w) :
    ∃ W, unitFluxPsf lz junk junk' P mux muy = .ok W ∧ W.h = P.h ∧ W.w = P.w ∧
      ∀ r c, r < P.h → c < P.w → W.px r c = shiftedImage (kernPy lz) P mux muy r c := by
  obtain ⟨W, e, h1, h2, h3⟩ := correlate_run (kernPy lz mux) (kernPy lz muy) P ⟨P.h, P.w, junk⟩ ⟨P.h, P.w, junk'⟩ hh hw
    rfl rfl rfl rfl
  refine ⟨W, e, h1, h2, fun r c hr hc => ?_⟩
  rw [h3 r c hr hc, ← lanczos_px (kernPy lz) P mux muy r c hc]
  rfl

omit [Field R] [LinearOrder R] in
theorem slice_px (A : Arr R) (y0 y1 x0 x1 : Int) (hx : 0 ≤ x0 ∧ x0 ≤ x1 ∧ x1 ≤ A.w) (hy : 0 ≤ y0 ∧ y0 ≤ y1 ∧ y1 ≤ A.h) :
    A.slice (some y0) (some y1) (some x0) (some x1) =
      ⟨(y1 - y0).toNat, (x1 - x0).toNat, fun r c => A.px (y0.toNat + r) (x0.toNat + c)⟩ :=
  slice_of A _ _ _ _ _ _ _ _ (axis_int A.h y0 y1 hy.1 hy.2.1 hy.2.2) (axis_int A.w x0 x1 hx.1 hx.2.1 hx.2.2)

omit [LinearOrder R] in
theorem cut_ok (M : Arr R) (mx0 mx1 my0 my1 : Int) (hx : mx0 < mx1) (hy : my0 < my1) (hM : 0 < M.w ∧ 0 < M.h)
    (hov : (mx0 < M.w ∧ 0 < mx1) ∨ ¬ (my0 < M.h ∧ 0 < my1)) :
    ∃ C, cutModel M mx0 mx1 my0 my1 = .ok C ∧ C.h = (my1 - my0).toNat ∧ C.w = (mx1 - mx0).toNat ∧
      ∀ r c : Nat, r < C.h → c < C.w → C.px r c = ext M (my0 + r) (mx0 + c) := by
  unfold cutModel
  by_cases h : mx0 < 0 ∨ my0 < 0 ∨ mx1 ≥ M.w ∨ my1 ≥ M.h
  · rw [if_pos h]
    simp only
    by_cases h1 : mx0 < M.w ∧ 0 < mx1
    · by_cases h2 : my0 < M.h ∧ 0 < my1
      · rw [overlap_some mx0 (mx1 - 1) ((M.w : Int) - 1) (by omega) (by omega) (by omega) (by omega),
          overlap_some my0 (my1 - 1) ((M.h : Int) - 1) (by omega) (by omega) (by omega) (by omega)]
        simp only
        rw [slice_px M _ _ _ _ (by omega) (by omega),
          modify_of _ _ _ _ _ _ _ _ _ _ _ (axis_int _ _ _ (by omega) (by omega) (by simp only [Arr.zeros]; omega))
            (axis_int _ _ _ (by omega) (by omega) (by simp only [Arr.zeros]; omega)) (by simp only; omega) (by simp only; omega)]
        refine ⟨_, rfl, rfl, rfl, ?_⟩
        intro r c hr hc
        simp only [Arr.zeros] at hr hc ⊢
        unfold ext
        by_cases hin : 0 ≤ my0 + r ∧ my0 + r < M.h ∧ 0 ≤ mx0 + c ∧ mx0 + c < M.w
        · rw [if_pos hin, if_pos (by omega)]
          congr 1 <;> omega
        · rw [if_neg hin, if_neg (by omega)]
      · have e : overlapRegion my0 (my1 - 1) 0 ((M.h : Int) - 1) = none := by
          unfold overlapRegion; rw [if_pos (by omega)]
        have e' : ∃ v, overlapRegion mx0 (mx1 - 1) 0 ((M.w : Int) - 1) = some v :=
          ⟨_, overlap_some mx0 (mx1 - 1) ((M.w : Int) - 1) (by omega) (by omega) (by omega) (by omega)⟩
        obtain ⟨v, e'⟩ := e'
        rw [e, e']
        refine ⟨_, rfl, rfl, rfl, ?_⟩
        intro r c hr hc
        simp only [Arr.zeros] at hr hc ⊢
        unfold ext
        rw [if_neg (by omega)]
    · have h2 := hov.resolve_left h1
      have e : overlapRegion my0 (my1 - 1) 0 ((M.h : Int) - 1) = none := by
        unfold overlapRegion; rw [if_pos (by omega)]
      have e' : overlapRegion mx0 (mx1 - 1) 0 ((M.w : Int) - 1) = none := by
        unfold overlapRegion; rw [if_pos (by omega)]
      rw [e, e']
      refine ⟨_, rfl, rfl, rfl, ?_⟩
      intro r c hr hc
      simp only [Arr.zeros] at hr hc ⊢
      unfold ext
      rw [if_neg (by omega)]
  · rw [if_neg h, slice_px M _ _ _ _ (by omega) (by omega)]
    refine ⟨_, rfl, rfl, rfl, ?_⟩
    intro r c hr hc
    simp only at hr hc ⊢
    unfold ext
    rw [if_pos (by omega)]
    congr 1 <;> omega

/-! ### The grid -/

theorem grid_ok (h : Int) (hpos : 0 < h) : ∃ sz, gridSize h = .ok sz ∧ sz % 2 = 0 ∧ 2 * h ≤ sz := by
  refine ⟨2 ^ Nat.clog 2 (2 * h).toNat, ?_, ?_, ?_⟩
  · unfold gridSize; rw [if_neg (by omega)]
  · have : 0 < Nat.clog 2 (2 * h).toNat := Nat.clog_pos (by omega) (by omega)
    obtain ⟨k, hk⟩ := Nat.exists_eq_succ_of_ne_zero (by omega : Nat.clog 2 (2 * h).toNat ≠ 0)
    rw [hk, Nat.pow_succ]
    omega
  · have := Nat.le_pow_clog (b := 2) (by omega) (2 * h).toNat
    omega

/-- The hot columns or rows limit the shifts. -/
theorem limits_ok (n : Nat) (hot : List Nat) (hs : hot.Pairwise (· < ·)) (hn : ∀ c ∈ hot, c < n) (hne : hot ≠ []) (d : Int) :
    ((limits n hot).1 ≤ d ∧ d ≤ (limits n hot).2) ↔ ∀ c ∈ hot, 0 ≤ (c : Int) - d ∧ (c : Int) - d < n := by
  obtain ⟨a, l, rfl⟩ := List.exists_cons_of_ne_nil hne
  have hlast := List.getLast?_eq_getLast_of_ne_nil (l := a :: l) (by simp)
  unfold limits
  rw [List.head?_cons, hlast]
  simp only
  have hmem : (a :: l).getLast (by simp) ∈ a :: l := List.getLast_mem _
  have hge : ∀ c ∈ a :: l, a ≤ c := by
    intro c hc
    rcases List.mem_cons.mp hc with rfl | hc
    · exact le_refl _
    · exact le_of_lt (List.rel_of_pairwise_cons hs hc)
  have hle : ∀ c ∈ a :: l, c ≤ (a :: l).getLast (by simp) := by
    intro c hc
    obtain ⟨i, hi, rfl⟩ := List.mem_iff_getElem.mp hc
    rw [List.getLast_eq_getElem]
    rcases Nat.lt_or_ge i ((a :: l).length - 1) with h | h
    · exact le_of_lt (List.pairwise_iff_getElem.mp hs i _ hi (by simp) h)
    · have : i = (a :: l).length - 1 := by omega
      subst this; exact le_refl _
  constructor
  · intro h c hc
    have := hge c hc
    have := hle c hc
    omega
  · intro h
    have h1 := h a (by simp)
    have h2 := h _ hmem
    omega

theorem hotCols_sorted (A : Arr R) : (hotCols A).Pairwise (· < ·) :=
  List.Pairwise.sublist List.filter_sublist List.pairwise_lt_range

theorem hotRows_sorted (A : Arr R) : (hotRows A).Pairwise (· < ·) :=
  List.Pairwise.sublist List.filter_sublist List.pairwise_lt_range

theorem mem_hotCols (A : Arr R) (c : Nat) : c ∈ hotCols A ↔ c < A.w ∧ ∃ r, r < A.h ∧ 0 < A.px r c := by
  unfold hotCols
  simp [List.mem_filter]

theorem mem_hotRows (A : Arr R) (r : Nat) : r ∈ hotRows A ↔ r < A.h ∧ ∃ c, c < A.w ∧ 0 < A.px r c := by
  unfold hotRows
  simp [List.mem_filter]

end

end Verif.Gpu
