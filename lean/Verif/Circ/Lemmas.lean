import Verif.Circ.Spec
import Verif.Gauss.PropsValue

/-!
# Lemmas about shared mixtures
-/

namespace Verif.Circ

open Verif.Mog (Comp Mix NCirc)

section Memory

variable {R P : Type} [Field R] [LinearOrder R]

/-- Every mixture in the cache is what it was when made. -/
def Pristine (mem : Mem R) : Prop := ∀ e ∈ mem, e.2 = circularMog e.1

theorem fetch_pristine {mem : Mem R} (h : Pristine mem) (k : Key R) :
    (fetch mem k).1 = circularMog k ∧ (∃ rest, (fetch mem k).2 = (k, circularMog k) :: rest ∧ Pristine rest) := by
  unfold fetch
  cases hf : mem.find? (fun e => decide (e.1 = k)) with
  | none =>
    refine ⟨rfl, mem.take 15, rfl, fun e he => h e (List.mem_of_mem_take he)⟩
  | some e =>
    have hk : e.1 = k := by simpa using List.find?_some hf
    have hm := h e (List.mem_of_find?_eq_some hf)
    refine ⟨by rw [← hk]; exact hm, mem.filter (fun e => decide (e.1 ≠ k)), ?_, fun e' he' => h e' (List.mem_of_mem_filter he')⟩
    show e :: _ = (k, circularMog k) :: _
    rw [← hk, ← hm]

theorem pristine_fetch {mem : Mem R} (h : Pristine mem) (k : Key R) : Pristine (fetch mem k).2 := by
  obtain ⟨-, rest, hr, hp⟩ := fetch_pristine h k
  rw [hr]
  intro e he
  rcases List.mem_cons.mp he with rfl | he
  · rfl
  · exact hp e he

/-- What a successful call leaves. -/
theorem patch_ok {E : Ext R P} {mem : Mem R} (h : Pristine mem) {p : CPsf R} {a : Args R} {r : Option P}
    (hr : (pointSourcePatch E mem p a).2 = .ok r) : Pristine (pointSourcePatch E mem p a).1 := by
  obtain ⟨h1, rest, h2, h3⟩ := fetch_pristine h p.key
  have hp := pristine_fetch h p.key
  revert hr
  unfold pointSourcePatch
  cases box E p a with
  | error e => intro _; exact h
  | ok b =>
    simp only
    generalize mixtureToPatch E _ _ _ _ _ _ _ = q
    cases q with
    | error e => intro hr; cases hr
    | ok r =>
      intro _
      show Pristine (assign (assign (fetch mem p.key).2 _) (fetch mem p.key).1)
      rw [h2] at hp ⊢
      rw [h1]
      exact hp

theorem reached_pristine {E : Ext R P} {mem : Mem R} (h : Reached E mem) : Pristine mem := by
  induction h with
  | start => intro e he; cases he
  | patch p a r _ hr ih => exact patch_ok ih hr
  | mixture p _ ih => exact pristine_fetch ih p.key

/-- What a call returns, in terms of the pristine mixture. -/
theorem patch_result {E : Ext R P} {mem : Mem R} (h : Pristine mem) (p : CPsf R) (a : Args R) :
    (pointSourcePatch E mem p a).2 =
      match box E p a with
      | .error e => .error e
      | .ok b => mixtureToPatch E (move a.px a.py (circularMog p.key)) (clipBox a.clip b).1 (clipBox a.clip b).2.1
          (clipBox a.clip b).2.2.1 (clipBox a.clip b).2.2.2 a.minval a.mask.isSome := by
  obtain ⟨h1, -⟩ := fetch_pristine h p.key
  unfold pointSourcePatch
  cases box E p a with
  | error e => rfl
  | ok b =>
    simp only
    rw [h1]
    generalize mixtureToPatch E _ _ _ _ _ _ _ = q
    cases q <;> rfl

omit [LinearOrder R] in
theorem pristine_nil : Pristine ([] : Mem R) := fun _ he => by cases he

end Memory

/-! ### Boxes -/

section Boxes

variable {R P : Type} [Field R] [LinearOrder R] [IsStrictOrderedRing R]

theorem max_int (a b : Int) : (Bound.int a : Bound R).max (.int b) = .int (max a b) := by
  unfold Bound.max Bound.val
  simp only [Int.cast_lt]
  split
  · rw [max_eq_right (by omega)]
  · rw [max_eq_left (by omega)]

theorem min_int (a b : Int) : (Bound.int a : Bound R).min (.int b) = .int (min a b) := by
  unfold Bound.min Bound.val
  simp only [Int.cast_lt]
  split
  · rw [min_eq_right (by omega)]
  · rw [min_eq_left (by omega)]

omit [Field R] [LinearOrder R] [IsStrictOrderedRing R] in
theorem allocate_int (a b c d : Int) : allocate (.int a : Bound R) (.int b) (.int c) (.int d) =
    if b < a ∨ d < c then .error .value else .ok (a, b, c, d) := rfl

omit [IsStrictOrderedRing R] in
/-- A successful evaluation of the grid. -/
theorem grid_ok {E : Ext R P} {m : Mix R} {x0 x1 y0 y1 : Bound R} {minval : Option R} (hm : minval = none ∨ minval = some 0)
    {exact : Bool} {r : Option P} (h : mixtureToPatch E m x0 x1 y0 y1 minval exact = .ok r) :
    ∃ a b c d, allocate x0 x1 y0 y1 = .ok (a, b, c, d) ∧ r = some (E.grid m a b c d) := by
  unfold mixtureToPatch at h
  cases ha : allocate x0 x1 y0 y1 with
  | error e => rw [ha] at h; cases h
  | ok t =>
    obtain ⟨a, b, c, d⟩ := t
    rw [ha] at h
    refine ⟨a, b, c, d, rfl, ?_⟩
    rcases hm with rfl | rfl
    · simpa using h.symm
    · simpa using h.symm

omit [Field R] [LinearOrder R] [IsStrictOrderedRing R] in
theorem allocate_ok {x0 x1 y0 y1 : Bound R} {a b c d : Int} (h : allocate x0 x1 y0 y1 = .ok (a, b, c, d)) :
    x0 = .int a ∧ x1 = .int b ∧ y0 = .int c ∧ y1 = .int d ∧ a ≤ b ∧ c ≤ d := by
  unfold allocate at h
  split at h
  · split at h
    · cases h
    · rename_i hn
      simp only [Except.ok.injEq, Prod.mk.injEq] at h
      obtain ⟨rfl, rfl, rfl, rfl⟩ := h
      push Not at hn
      exact ⟨rfl, rfl, rfl, rfl, hn.1, hn.2⟩
  · cases h

end Boxes

/-! ### Values -/

noncomputable section

/-- The component of the moved mixture. -/
def compOf (px py w s : ℝ) : Comp ℝ := ⟨w, 0 + px, 0 + py, s ^ 2, 0, 0, s ^ 2⟩

theorem move_circular (k : Key ℝ) (px py : ℝ) :
    move px py (circularMog k) = (k.1.zip k.2).map (fun ws => compOf px py ws.1 ws.2) := by
  unfold move circularMog
  rw [List.map_zipWith]
  generalize k.1 = l
  generalize k.2 = l'
  induction l generalizing l' with
  | nil => rfl
  | cons a l ih =>
    cases l' with
    | nil => rfl
    | cons b l' => exact congrArg (_ :: ·) (ih l')

theorem compOf_proper (px py w : ℝ) {s : ℝ} (hs : s ≠ 0) : Gauss.Proper (compOf px py w s) := by
  have : 0 < s ^ 2 := by positivity
  refine ⟨rfl, this, ?_⟩
  show 0 < s ^ 2 * s ^ 2 - 0 ^ 2
  nlinarith

theorem sqrt_det (s : ℝ) : Real.sqrt (s ^ 2 * s ^ 2 - 0 ^ 2) = s ^ 2 := by
  rw [show s ^ 2 * s ^ 2 - 0 ^ 2 = (s ^ 2) ^ 2 by ring]
  exact Real.sqrt_sq (by positivity)

theorem compOf_dist (px py w : ℝ) {s : ℝ} (hs : s ≠ 0) (x y : ℝ) :
    Gauss.distSq (compOf px py w s) x y = ((x - px) ^ 2 + (y - py) ^ 2) / s ^ 2 := by
  unfold Gauss.distSq compOf
  simp only [zero_add]
  field_simp
  ring

theorem compOf_density (px py w : ℝ) {s : ℝ} (hs : s ≠ 0) (x y : ℝ) :
    Gauss.density (compOf px py w s) x y = circGauss w s ((x - px) ^ 2 + (y - py) ^ 2) := by
  unfold Gauss.density circGauss
  rw [compOf_dist px py w hs]
  show w / (2 * Real.pi * Real.sqrt (s ^ 2 * s ^ 2 - 0 ^ 2)) * _ = _
  rw [sqrt_det]
  congr 2
  field_simp

theorem compOf_peak (px py w s : ℝ) : Gauss.peak (compOf px py w s) = |w| / (2 * Real.pi * s ^ 2) := by
  unfold Gauss.peak
  show |w| / (2 * Real.pi * Real.sqrt (s ^ 2 * s ^ 2 - 0 ^ 2)) = _
  rw [sqrt_det]

end

end Verif.Circ
