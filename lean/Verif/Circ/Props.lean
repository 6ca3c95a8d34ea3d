import Verif.Circ.Lemmas
import Mathlib.Algebra.Order.Floor.Ring
import Mathlib.Algebra.Order.Round

/-!
# C119: PSFs of concentric Gaussians render themselves, whatever was rendered before
-/

namespace Verif.Circ

open Verif.Mog (Comp Mix NCirc)

section Generic

variable {R P : Type} [Field R] [LinearOrder R]

/-- After any calls on any PSFs that raised no exception, a PSF renders what it renders in a fresh process, and its mixture consists of
centred circular Gaussians with its weights and the squares of its sigmas (frozen or not).  (The means of the mixtures, which PSFs with
equal values share, are set back after each call.)  Calls that raise an exception are the exception, see the next theorems. -/
theorem C119_history_partial (E : Ext R P) (mem : Mem R) (h : Reached E mem) (p : CPsf R) :
    (∀ a, (pointSourcePatch E mem p a).2 = (pointSourcePatch E [] p a).2) ∧
    (getMixture mem p).2.length = min p.core.weights.length p.core.sigmas.length ∧
    (∀ k : Nat, ∀ w s : R × Bool, p.core.weights[k]? = some w → p.core.sigmas[k]? = some s →
      (getMixture mem p).2[k]? = some ⟨w.1, 0, 0, s.1 ^ 2, 0, 0, s.1 ^ 2⟩) := by
  have hp := reached_pristine h
  have hm : (getMixture mem p).2 = circularMog p.key := (fetch_pristine hp p.key).1
  refine ⟨fun a => ?_, ?_, ?_⟩
  · rw [patch_result hp, patch_result pristine_nil]
  · rw [hm]
    unfold circularMog CPsf.key
    simp
  · intro k w s hw hs
    rw [hm]
    unfold circularMog CPsf.key
    simp [List.getElem?_zipWith, hw, hs]

/-- A call with a radius that is not an integer fails, and then the Gaussians of all PSFs with these values are at the position of that
call, until 16 other PSFs were used. -/
theorem C119_float_radius_false (E : Ext R P) (mem : Mem R) (h : Reached E mem) (p q : CPsf R) (hq : q.key = p.key) (px py r : R)
    (minval : Option R) :
    (pointSourcePatch E mem p ⟨px, py, minval, some (.flt r), none, none⟩).2 = .error .typeErr ∧
    ∀ c ∈ (getMixture (pointSourcePatch E mem p ⟨px, py, minval, some (.flt r), none, none⟩).1 q).2, c.mx = px ∧ c.my = py := by
  have hp := reached_pristine h
  obtain ⟨h1, rest, h2, -⟩ := fetch_pristine hp p.key
  have hb : pointSourcePatch E mem p ⟨px, py, minval, some (.flt r), none, none⟩ =
      (assign (fetch mem p.key).2 (move px py (fetch mem p.key).1), .error .typeErr) := rfl
  refine ⟨by rw [hb], ?_⟩
  rw [hb, h1, h2]
  show ∀ c ∈ (fetch ((p.key, move px py (circularMog p.key)) :: rest) q.key).1, _
  have hf : (fetch ((p.key, move px py (circularMog p.key)) :: rest) q.key).1 = move px py (circularMog p.key) := by
    unfold fetch
    rw [List.find?_cons_of_pos (by simp [hq])]
  rw [hf]
  intro c hc
  unfold move at hc
  obtain ⟨c', hc', rfl⟩ := List.mem_map.mp hc
  have hz : c'.mx = 0 ∧ c'.my = 0 := by
    revert hc'
    unfold circularMog
    generalize p.key.1 = l
    generalize p.key.2 = l'
    induction l generalizing l' with
    | nil => intro hc'; simp at hc'
    | cons a l ih =>
      cases l' with
      | nil => intro hc'; simp at hc'
      | cons b l' =>
        intro hc'
        rcases List.mem_cons.mp hc' with rfl | hc'
        · exact ⟨rfl, rfl⟩
        · exact ih l' hc'
  simp [hz.1, hz.2]

/-- A pretended evaluation: the mixture and the box. -/
def exExt : Ext Rat (Mix Rat × Int × Int × Int × Int) :=
  ⟨fun x => (x + 1 / 2).floor, fun x => -(-x).floor, fun m a b c d => (m, a, b, c, d), fun m a b c d _ _ => .ok (some (m, a, b, c, d))⟩

/-- Two Gaussians. -/
def exPsf : CPsf Rat := ⟨⟨[(1, true), (2, false)], [(3, true), (4, true)]⟩, 1, none⟩

/-- One Gaussian of equal values as the first of `exPsf`. -/
def exPsf1 : CPsf Rat := ⟨⟨[(1, true)], [(3, true)]⟩, 1, some 2⟩

-- A history of three calls.
example : Reached exExt (getMixture (pointSourcePatch exExt (pointSourcePatch exExt [] exPsf ⟨1, 2, none, none, none, none⟩).1 exPsf1
    ⟨5, 6, some 0, none, none, none⟩).1 exPsf).1 ∧
    (getMixture (pointSourcePatch exExt (pointSourcePatch exExt [] exPsf ⟨1, 2, none, none, none, none⟩).1 exPsf1
      ⟨5, 6, some 0, none, none, none⟩).1 exPsf).1.length = 2 := by
  refine ⟨.mixture _ (.patch _ _ (some ([⟨3, 5, 6, 1, 0, 0, 1⟩], 3, 8, 4, 9)) (.patch _ _ (some ([⟨3, 1, 2, 1, 0, 0, 1⟩, ⟨4, 1, 2, 4, 0, 0, 4⟩], -9, 12, -8, 13)) .start ?_) ?_), ?_⟩
  · decide +kernel
  · decide +kernel
  · decide +kernel

/-- One failing call moves what is rendered afterwards: a source outside the rectangle to which patches are clipped makes
`getPointSourcePatch` raise ValueError (other PSFs return None); afterwards an equal PSF is rendered elsewhere, twice as far after
another failure. -/
theorem C119_failed_false :
    (pointSourcePatch exExt [] exPsf1 ⟨100, 7, none, none, none, some (0, 20, 0, 20)⟩).2 = .error .value ∧
    (pointSourcePatch exExt [] exPsf1 ⟨5, 6, none, none, none, none⟩).2 = .ok (some ([⟨3, 5, 6, 1, 0, 0, 1⟩], 3, 8, 4, 9)) ∧
    (pointSourcePatch exExt (pointSourcePatch exExt [] exPsf1 ⟨100, 7, none, none, none, some (0, 20, 0, 20)⟩).1 exPsf1
      ⟨5, 6, none, none, none, none⟩).2 = .ok (some ([⟨3, 105, 13, 1, 0, 0, 1⟩], 3, 8, 4, 9)) ∧
    (getMixture (pointSourcePatch exExt (pointSourcePatch exExt [] exPsf1 ⟨100, 7, none, none, none, some (0, 20, 0, 20)⟩).1 exPsf1
      ⟨100, 7, none, none, none, some (0, 20, 0, 20)⟩).1 exPsf1).2 = [⟨3, 200, 14, 1, 0, 0, 1⟩] := by
  refine ⟨?_, ?_, ?_, ?_⟩ <;> decide +kernel

end Generic

/-! ### The pixels -/

/-- What `getPointSourcePatch` returns without minimum value, after any calls without exceptions: the density of the PSF at the
position, exactly within ten sigmas of each Gaussian and elsewhere up to `exp(-50)` of the peaks. -/
theorem C119_value (rnd ceil : ℝ → Int) (approx : Mix ℝ → Int → Int → Int → Int → ℝ → Bool → Except PyErr (Option (Pt ℝ)))
    (mem : Mem ℝ) (h : Reached (gaussExt rnd ceil approx) mem) (p : CPsf ℝ) (hs : ∀ s ∈ p.core.sigmas, s.1 ≠ 0) (a : Args ℝ)
    (hm : a.minval = none ∨ a.minval = some 0) (r : Option (Pt ℝ))
    (hr : (pointSourcePatch (gaussExt rnd ceil approx) mem p a).2 = .ok r) :
    ∃ t, r = some t ∧ ∀ x y : Int,
      |circValue p a.px a.py x y - t.val x y| ≤ Real.exp (-50) * circPeaks p ∧
      ((∀ s ∈ p.core.sigmas, ((x : ℝ) - a.px) ^ 2 + ((y : ℝ) - a.py) ^ 2 < 100 * s.1 ^ 2) → t.val x y = circValue p a.px a.py x y) := by
  rw [patch_result (reached_pristine h)] at hr
  cases hb : box (gaussExt rnd ceil approx) p a with
  | error e => rw [hb] at hr; cases hr
  | ok b =>
    rw [hb] at hr
    obtain ⟨x0, x1, y0, y1, -, ht⟩ := grid_ok hm hr
    refine ⟨_, ht, fun x y => ?_⟩
    show |_ - Gauss.evaluateGrid (move a.px a.py (circularMog p.key)) 0 0 x y| ≤ _ ∧
      (_ → Gauss.evaluateGrid (move a.px a.py (circularMog p.key)) 0 0 x y = _)
    rw [move_circular]
    have hz : p.key.1.zip p.key.2 = (p.core.weights.zip p.core.sigmas).map (fun ws => (ws.1.1, ws.2.1)) := by
      unfold CPsf.key
      rw [List.zip_map]
      rfl
    rw [hz, List.map_map]
    have hmem : ∀ ws ∈ p.core.weights.zip p.core.sigmas, ws.2.1 ≠ 0 := fun ws hws => hs _ (List.of_mem_zip hws).2
    set m : Mix ℝ := (p.core.weights.zip p.core.sigmas).map
      ((fun ws : ℝ × ℝ => compOf a.px a.py ws.1 ws.2) ∘ fun ws => (ws.1.1, ws.2.1)) with hmdef
    have hprop : ∀ c ∈ m, Gauss.Proper c := by
      intro c hc
      obtain ⟨ws, hws, rfl⟩ := List.mem_map.mp hc
      exact compOf_proper _ _ _ (hmem ws hws)
    have hd : Gauss.densityMix m ((x : ℝ) - 0) ((y : ℝ) - 0) = circValue p a.px a.py x y := by
      unfold Gauss.densityMix circValue
      rw [hmdef, List.map_map]
      congr 1
      refine List.map_congr_left (fun ws hws => ?_)
      show Gauss.density (compOf a.px a.py ws.1.1 ws.2.1) ((x : ℝ) - 0) ((y : ℝ) - 0) = _
      rw [compOf_density _ _ _ (hmem ws hws), sub_zero, sub_zero]
    have hk : Gauss.peaks m = circPeaks p := by
      unfold Gauss.peaks circPeaks
      rw [hmdef, List.map_map]
      congr 1
      exact List.map_congr_left (fun ws hws => compOf_peak _ _ _ _)
    obtain ⟨h1, h2⟩ := Gauss.C99_grid m hprop 0 0 x y
    rw [hd, hk] at h1
    refine ⟨h1, fun hw => ?_⟩
    rw [← hd]
    apply h2
    intro c hc
    obtain ⟨ws, hws, rfl⟩ := List.mem_map.mp hc
    show Gauss.distSq (compOf a.px a.py ws.1.1 ws.2.1) ((x : ℝ) - 0) ((y : ℝ) - 0) < 100
    have h0 := hmem ws hws
    rw [compOf_dist _ _ _ h0, sub_zero, sub_zero, div_lt_iff₀ (by positivity)]
    exact hw _ (List.of_mem_zip hws).2

/-- The approximate evaluation that is never used without minimum value. -/
noncomputable def noApprox : Mix ℝ → Int → Int → Int → Int → ℝ → Bool → Except PyErr (Option (Pt ℝ)) := fun _ _ _ _ _ _ _ => .ok none

-- Two Gaussians at the position of the source.
example : ∃ t, (pointSourcePatch (gaussExt round Int.ceil noApprox) [] ⟨⟨[(1, true), (2, false)], [(3, true), (4, true)]⟩, 1, none⟩
      ⟨5, 6, none, none, none, none⟩).2 = .ok (some t) ∧
    t.val 5 6 = 3 / (2 * Real.pi * 1 ^ 2) + 4 / (2 * Real.pi * 2 ^ 2) := by
  have hr : ∃ t, (pointSourcePatch (gaussExt round Int.ceil noApprox) [] ⟨⟨[(1, true), (2, false)], [(3, true), (4, true)]⟩, 1, none⟩
      ⟨5, 6, none, none, none, none⟩).2 = .ok (some t) := by
    rw [patch_result pristine_nil]
    simp [box, patchRadius, CPsf.getRadius, maxOf, gaussExt, clipBox, Bound.add, Bound.neg, mixtureToPatch, allocate]
    norm_num [Int.ceil_eq_iff]
  obtain ⟨t, ht⟩ := hr
  refine ⟨t, ht, ?_⟩
  obtain ⟨t', htt, hv⟩ := C119_value round Int.ceil noApprox [] .start _ (by simp) ⟨5, 6, none, none, none, none⟩ (.inl rfl) _ ht
  cases htt
  rw [(hv 5 6).2 (by simp)]
  simp [circValue, circGauss]

/-- Without mask and radius arguments the patch covers all pixels of the clipping rectangle within `getRadius()` of the position in both
coordinates, and no pixel outside the rectangle or further than 3/2 pixels beyond the radius.  With a mask (and no rectangle) it covers
the extent of the mask. -/
theorem C119_covers (rnd ceil : ℝ → Int) (hrnd : ∀ x, |(rnd x : ℝ) - x| ≤ 1 / 2) (hceil : ∀ x (n : Int), ceil x ≤ n ↔ x ≤ n)
    (approx : Mix ℝ → Int → Int → Int → Int → ℝ → Bool → Except PyErr (Option (Pt ℝ)))
    (mem : Mem ℝ) (h : Reached (gaussExt rnd ceil approx) mem) (p : CPsf ℝ) (a : Args ℝ)
    (hm : a.minval = none ∨ a.minval = some 0) (t : Pt ℝ)
    (ht : (pointSourcePatch (gaussExt rnd ceil approx) mem p a).2 = .ok (some t)) :
    (∀ x0 x1 y0 y1, a.mask = some (x0, x1, y0, y1) → a.clip = none → t.x0 = x0 ∧ t.x1 = x1 ∧ t.y0 = y0 ∧ t.y1 = y1) ∧
    (∀ r, a.mask = none → a.radius = none → p.getRadius = .ok r → ∀ x y : Int,
      let inside := ∀ xl xh yl yh, a.clip = some (xl, xh, yl, yh) → xl ≤ x ∧ x < xh ∧ yl ≤ y ∧ y < yh
      (|(x : ℝ) - a.px| ≤ r ∧ |(y : ℝ) - a.py| ≤ r ∧ inside → t.x0 ≤ x ∧ x < t.x1 ∧ t.y0 ≤ y ∧ y < t.y1) ∧
      (t.x0 ≤ x ∧ x < t.x1 ∧ t.y0 ≤ y ∧ y < t.y1 → |(x : ℝ) - a.px| < r + 3 / 2 ∧ |(y : ℝ) - a.py| < r + 3 / 2 ∧ inside)) := by
  rw [patch_result (reached_pristine h)] at ht
  cases hb : box (gaussExt rnd ceil approx) p a with
  | error e => rw [hb] at ht; cases ht
  | ok b =>
    rw [hb] at ht
    obtain ⟨x0, x1, y0, y1, hal, htt⟩ := grid_ok hm ht
    have e0 : t = (gaussExt rnd ceil approx).grid (move a.px a.py (circularMog p.key)) x0 x1 y0 y1 := by simpa using htt
    have e1 : t.x0 = x0 := by rw [e0]; rfl
    have e2 : t.x1 = x1 := by rw [e0]; rfl
    have e3 : t.y0 = y0 := by rw [e0]; rfl
    have e4 : t.y1 = y1 := by rw [e0]; rfl
    obtain ⟨a1, a2, a3, a4, -, -⟩ := allocate_ok hal
    refine ⟨?_, ?_⟩
    · intro u0 u1 v0 v1 hmask hclip
      unfold box at hb
      rw [hmask] at hb
      simp only [Except.ok.injEq] at hb
      rw [hclip, ← hb] at a1 a2 a3 a4
      simp only [clipBox, Bound.int.injEq] at a1 a2 a3 a4
      rw [e1, e2, e3, e4, a1, a2, a3, a4]
      exact ⟨rfl, rfl, rfl, rfl⟩
    · intro r hmask hrad hr x y
      unfold box patchRadius at hb
      rw [hmask, hrad, hr] at hb
      simp only [Except.ok.injEq, Bound.neg, Bound.add] at hb
      have hc1 : r ≤ (ceil r : ℝ) := (hceil r (ceil r)).mp le_rfl
      have hc2 : (ceil r : ℝ) < r + 1 := by
        by_contra hcon
        have : r ≤ ((ceil r - 1 : Int) : ℝ) := by push_cast; linarith [not_lt.mp hcon]
        have := (hceil r _).mpr this
        omega
      have hx := abs_le.mp (hrnd a.px)
      have hy := abs_le.mp (hrnd a.py)
      rw [e1, e2, e3, e4]
      -- one axis
      have near : ∀ (z : Int) (q : ℝ), |(z : ℝ) - q| ≤ r → |(rnd q : ℝ) - q| ≤ 1 / 2 → rnd q - ceil r ≤ z ∧ z ≤ rnd q + ceil r := by
        intro z q hz hq
        have hz := abs_le.mp hz
        have hq := abs_le.mp hq
        constructor
        · have : ((rnd q - ceil r : Int) : ℝ) < ((z + 1 : Int) : ℝ) := by push_cast; linarith [hz.1, hq.2]
          have := Int.cast_lt.mp this
          omega
        · have : (z : ℝ) < ((rnd q + ceil r + 1 : Int) : ℝ) := by push_cast; linarith [hz.2, hq.1]
          have := Int.cast_lt.mp this
          omega
      have far : ∀ (z : Int) (q : ℝ), rnd q - ceil r ≤ z → z ≤ rnd q + ceil r → |(rnd q : ℝ) - q| ≤ 1 / 2 → |(z : ℝ) - q| < r + 3 / 2 := by
        intro z q h1 h2 hq
        have hq := abs_le.mp hq
        have h1' : ((rnd q - ceil r : Int) : ℝ) ≤ (z : ℝ) := Int.cast_le.mpr h1
        have h2' : (z : ℝ) ≤ ((rnd q + ceil r : Int) : ℝ) := Int.cast_le.mpr h2
        push_cast at h1' h2'
        rw [abs_lt]
        constructor <;> linarith [hq.1, hq.2]
      cases hclip : a.clip with
      | none =>
        rw [hclip, ← hb] at a1 a2 a3 a4
        simp only [clipBox, Bound.int.injEq, gaussExt] at a1 a2 a3 a4
        refine ⟨fun ⟨hx', hy', _⟩ => ?_, fun ⟨b1, b2, b3, b4⟩ => ⟨?_, ?_, ?_⟩⟩
        · have := near x a.px hx' (hrnd _)
          have := near y a.py hy' (hrnd _)
          omega
        · exact far x a.px (by omega) (by omega) (hrnd _)
        · exact far y a.py (by omega) (by omega) (hrnd _)
        · intro _ _ _ _ hn; cases hn
      | some c =>
        obtain ⟨xl, xh, yl, yh⟩ := c
        rw [hclip, ← hb] at a1 a2 a3 a4
        simp only [clipBox, max_int, min_int, Bound.int.injEq, gaussExt] at a1 a2 a3 a4
        refine ⟨fun ⟨hx', hy', hin⟩ => ?_, fun ⟨b1, b2, b3, b4⟩ => ⟨?_, ?_, ?_⟩⟩
        · have := near x a.px hx' (hrnd _)
          have := near y a.py hy' (hrnd _)
          have := hin xl xh yl yh rfl
          omega
        · exact far x a.px (by omega) (by omega) (hrnd _)
        · exact far y a.py (by omega) (by omega) (hrnd _)
        · intro _ _ _ _ hn
          simp only [Option.some.injEq, Prod.mk.injEq] at hn
          obtain ⟨rfl, rfl, rfl, rfl⟩ := hn
          omega

-- `round` and `ceil` are such roundings.
example : (∀ x : ℝ, |(round x : ℝ) - x| ≤ 1 / 2) ∧ (∀ (x : ℝ) (n : Int), ⌈x⌉ ≤ n ↔ x ≤ n) :=
  ⟨fun x => by rw [abs_sub_comm]; exact abs_sub_round x, fun _ _ => Int.ceil_le⟩

/-- A `PointSource` never runs into these failures: without mask, with its `fixedRadius` unset or an integer, the patch is rendered (or
None if the source is far outside) without exception, and the shared mixtures stay as they were. -/
theorem C119_source (rnd ceil : ℝ → Int) (hrnd : ∀ x, |(rnd x : ℝ) - x| ≤ 1 / 2) (hceil : ∀ x (n : Int), ceil x ≤ n ↔ x ≤ n)
    (approx : Mix ℝ → Int → Int → Int → Int → ℝ → Bool → Except PyErr (Option (Pt ℝ)))
    (happrox : ∀ m x0 x1 y0 y1 v s, ∃ r, approx m x0 x1 y0 y1 v s = .ok r)
    (mem : Mem ℝ) (h : Reached (gaussExt rnd ceil approx) mem) (p : CPsf ℝ) (W H : Int) (hW : 0 ≤ W) (hH : 0 ≤ H) (px py : ℝ)
    (minval : Option ℝ) (fixed : Option Int)
    (hr : match fixed with
      | some n => 0 ≤ n
      | none => ∃ r, p.getRadius = .ok r ∧ 0 ≤ r) :
    (∃ r, (unitFluxPatch (gaussExt rnd ceil approx) mem p W H px py minval (fixed.map .int) none).2 = .ok r) ∧
    Reached (gaussExt rnd ceil approx) (unitFluxPatch (gaussExt rnd ceil approx) mem p W H px py minval (fixed.map .int) none).1 := by
  set E := gaussExt rnd ceil approx with hE
  -- the radius in pixels, and the one of the early test
  obtain ⟨r, rad, hrr, hrad, hle, h0⟩ : ∃ (r : ℝ) (rad : Int),
      sourceRadius p (fixed.map .int) = .ok r ∧
      patchRadius E p ⟨px, py, minval, fixed.map .int, none, some (0, W, 0, H)⟩ = .ok (.int rad) ∧ r ≤ rad ∧ 0 ≤ r := by
    cases fixed with
    | some n => exact ⟨(n : ℝ), n, rfl, rfl, le_rfl, by exact_mod_cast hr⟩
    | none =>
      obtain ⟨r, h1, h2⟩ := hr
      refine ⟨r, ceil r, h1, ?_, (hceil r _).mp le_rfl, h2⟩
      unfold patchRadius
      simp only [Option.map_none]
      rw [h1]
      rfl
  unfold unitFluxPatch
  rw [hrr]
  simp only [Option.isNone_none, if_true]
  split
  · exact ⟨⟨none, rfl⟩, h⟩
  · rename_i hin
    push Not at hin
    obtain ⟨g1, g2, g3, g4⟩ := hin
    have hx := abs_le.mp (hrnd px)
    have hy := abs_le.mp (hrnd py)
    have axis : ∀ (q : ℝ) (S : Int), 0 ≤ S → |(rnd q : ℝ) - q| ≤ 1 / 2 → 0 ≤ q + r → q - r ≤ S →
        max (-rad + rnd q) 0 ≤ min (rad + (rnd q + 1)) S := by
      intro q S hS hq k1 k2
      have hq := abs_le.mp hq
      have b1 : ((rnd q - rad : Int) : ℝ) < ((S + 1 : Int) : ℝ) := by push_cast; linarith [hq.2]
      have b2 : ((-1 : Int) : ℝ) < ((rnd q + rad : Int) : ℝ) := by push_cast; linarith [hq.1]
      have b1 := Int.cast_lt.mp b1
      have b2 := Int.cast_lt.mp b2
      have b3 : (0 : ℝ) ≤ (rad : ℝ) := le_trans h0 hle
      have b3 : 0 ≤ rad := by exact_mod_cast b3
      omega
    have ax := axis px W hW (hrnd px) g1 g2
    have ay := axis py H hH (hrnd py) g3 g4
    have hbox : box E p ⟨px, py, minval, fixed.map .int, none, some (0, W, 0, H)⟩ =
        .ok (.int (-rad + rnd px), .int (rad + (rnd px + 1)), .int (-rad + rnd py), .int (rad + (rnd py + 1))) := by
      unfold box
      simp only
      rw [hrad]
      rfl
    have hok : ∃ r, (pointSourcePatch E mem p ⟨px, py, minval, fixed.map .int, none, some (0, W, 0, H)⟩).2 = .ok r := by
      rw [patch_result (reached_pristine h), hbox]
      simp only [clipBox, max_int, min_int]
      unfold mixtureToPatch
      rw [allocate_int, if_neg (by omega)]
      cases minval with
      | none => exact ⟨_, rfl⟩
      | some v =>
        simp only
        split
        · exact ⟨_, rfl⟩
        · exact happrox _ _ _ _ _ _ _
    obtain ⟨r', hr'⟩ := hok
    exact ⟨⟨r', hr'⟩, .patch _ _ r' h hr'⟩

-- A source at the corner of a small image.
example : ∃ r, (unitFluxPatch (gaussExt round Int.ceil noApprox) [] ⟨⟨[(1, true)], [(3, true)]⟩, 1, some 2⟩ 10 10 (-1) 11 none none none).2 = .ok r :=
  (C119_source round Int.ceil (fun x => by rw [abs_sub_comm]; exact abs_sub_round x) (fun _ _ => Int.ceil_le) noApprox
    (fun _ _ _ _ _ _ _ => ⟨none, rfl⟩) [] .start ⟨⟨[(1, true)], [(3, true)]⟩, 1, some 2⟩ 10 10 (by norm_num) (by norm_num) (-1) 11 none none
    ⟨2, rfl, by norm_num⟩).1

/-- But a `fixedRadius` that is not an integer fails, and moves the Gaussians of the PSF for whatever is rendered next. -/
theorem C119_fixed_radius_false :
    (unitFluxPatch exExt [] exPsf1 20 20 5 6 none (some (.flt (5 / 2))) none).2 = .error .typeErr ∧
    (unitFluxPatch exExt [] exPsf1 20 20 8 8 none none none).2 = .ok (some ([⟨3, 8, 8, 1, 0, 0, 1⟩], 6, 11, 6, 11)) ∧
    (unitFluxPatch exExt (unitFluxPatch exExt [] exPsf1 20 20 5 6 none (some (.flt (5 / 2))) none).1 exPsf1 20 20 8 8 none none none).2 =
      .ok (some ([⟨3, 13, 14, 1, 0, 0, 1⟩], 6, 11, 6, 11)) := by
  refine ⟨?_, ?_, ?_⟩ <;> decide +kernel

/-! ### Normalisation -/

/-- The weights are not normalised, although the constructor's documentation says so: the Gaussians have the sum of the weights as
their total. -/
theorem C119_normalized_false {R P : Type} [Field R] [LinearOrder R] (E : Ext R P) (mem : Mem R) (h : Reached E mem) (sigmas weights : List R)
    (hlen : sigmas.length = weights.length) :
    ∃ q, Mog.mkNCirc sigmas weights = .ok q ∧
      Mog.total (getMixture mem ⟨q, 1, none⟩).2 = weights.sum ∧ (weights.sum ≠ 1 → Mog.total (getMixture mem ⟨q, 1, none⟩).2 ≠ 1) := by
  refine ⟨⟨sigmas.map (·, true), weights.map (·, true)⟩, by unfold Mog.mkNCirc; rw [if_pos hlen], ?_⟩
  have : Mog.total (getMixture mem ⟨⟨sigmas.map (·, true), weights.map (·, true)⟩, 1, none⟩).2 = weights.sum := by
    show Mog.total (fetch mem _).1 = _
    rw [(fetch_pristine (reached_pristine h) _).1]
    unfold Mog.total circularMog CPsf.key
    simp only [List.map_map, List.map_zipWith]
    congr 1
    show List.zipWith (fun w _ => w) (weights.map (fun x => x)) (sigmas.map (fun x => x)) = weights
    rw [List.map_id', List.map_id']
    induction weights generalizing sigmas with
    | nil => simp
    | cons a l ih =>
      cases sigmas with
      | nil => simp at hlen
      | cons b l' => simp only [List.zipWith_cons_cons]; rw [ih l' (by simpa using hlen)]
  exact ⟨this, fun hne => by rw [this]; exact hne⟩

-- Weights 0.9 and 0.3.
example : Mog.total (getMixture [] (⟨⟨[(1, true), (2, true)], [(9 / 10, true), (3 / 10, true)]⟩, 1, none⟩ : CPsf Rat)).2 = 12 / 10 := by
  decide +kernel

/-- `applyTo` does normalise.  With nothing frozen it is the mean of the filtered images with the weights. -/
theorem C119_apply_partial {R : Type} [Field R] [LinearOrder R] (filt : R → R) (sigmas weights : List R) :
    applyTo filt ⟨⟨sigmas.map (·, true), weights.map (·, true)⟩, 1, none⟩ =
      ((sigmas.zip weights).map (fun sw => sw.2 * filt sw.1)).sum / weights.sum ∧
    (sigmas.length = weights.length → weights.sum ≠ 0 → ∀ c, (∀ s ∈ sigmas, filt s = c) →
      applyTo filt ⟨⟨sigmas.map (·, true), weights.map (·, true)⟩, 1, none⟩ = c) := by
  have ht : ∀ l : List R, Mog.thawed (l.map (·, true)) = l := by
    intro l
    unfold Mog.thawed
    rw [List.filter_eq_self.mpr (by simp), List.map_map]
    exact List.map_id' l
  have hf : ∀ (l : List (R × R)) (z : R), l.foldl (fun res sw => res + sw.2 * filt sw.1) z = z + (l.map (fun sw => sw.2 * filt sw.1)).sum := by
    intro l
    induction l with
    | nil => intro z; simp
    | cons a l ih => intro z; simp only [List.foldl_cons, List.map_cons, List.sum_cons]; rw [ih]; ring
  have h1 : applyTo filt ⟨⟨sigmas.map (·, true), weights.map (·, true)⟩, 1, none⟩ =
      ((sigmas.zip weights).map (fun sw => sw.2 * filt sw.1)).sum / weights.sum := by
    unfold applyTo
    simp only [ht, hf, zero_add]
  refine ⟨h1, fun hlen hsum c hc => ?_⟩
  rw [h1, div_eq_iff hsum]
  clear h1 hsum
  induction sigmas generalizing weights with
  | nil =>
    cases weights with
    | nil => simp
    | cons b l' => simp at hlen
  | cons a l ih =>
    cases weights with
    | nil => simp at hlen
    | cons b l' =>
      simp only [List.zip_cons_cons, List.map_cons, List.sum_cons]
      rw [ih l' (by simpa using hlen) (fun s hs => hc s (List.mem_cons_of_mem _ hs)), hc a List.mem_cons_self]
      ring

/-- With a frozen sigma `applyTo` pairs weights with the wrong sigmas and leaves Gaussians out: an image that the filter does not change
comes out scaled. -/
theorem C119_apply_false :
    applyTo (fun _ => (1 : Rat)) ⟨⟨[(1, true), (2, true)], [(3, true), (1, true)]⟩, 1, none⟩ = 1 ∧
    applyTo (fun _ => (1 : Rat)) ⟨⟨[(1, false), (2, true)], [(3, true), (1, true)]⟩, 1, none⟩ = 3 / 4 ∧
    applyTo (fun s => s) (⟨⟨[(1, false), (2, true)], [(0, true), (1, true)]⟩, 1, none⟩ : CPsf Rat) = 0 := by
  decide +kernel

end Verif.Circ
