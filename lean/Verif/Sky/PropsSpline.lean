import Verif.Sky.SplineLemmas
import Mathlib.Tactic.NormNum
import Mathlib.Algebra.Order.Ring.Rat

/-!
# C112: spline skies
-/

namespace Verif.Sky

section
variable {R : Type} [Field R] [LinearOrder R] [IsStrictOrderedRing R]

/-! ### An actual fit: bilinear interpolation on a grid of two by two points -/

/-- Interpolation of degree 1 on a grid of two by two points. -/
def fit2 : Fit R
  | [a, b], [c, d], [[p, q], [r, s]], 1 =>
    if a < b ∧ c < d then .ok ⟨[a, a, b, b], [c, c, d, d], 1, [p, r, q, s]⟩ else .error .value
  | _, _, _, _ => .error .value

omit [IsStrictOrderedRing R] in
theorem knots2 (a b : R) (h : a < b) : GoodKnots [a, a, b, b] 1 := by
  refine ⟨by simp, ?_, ?_⟩
  · intro i j hij hj
    simp only [List.length_cons, List.length_nil] at hj
    have : j = 0 ∨ j = 1 ∨ j = 2 ∨ j = 3 := by omega
    have hi : i = 0 ∨ i = 1 ∨ i = 2 ∨ i = 3 := by omega
    rcases this with rfl | rfl | rfl | rfl <;> rcases hi with rfl | rfl | rfl | rfl <;> first | omega | simp [knot, h.le]
  · intro i h1 h2
    simp only [List.length_cons, List.length_nil] at h2
    obtain rfl : i = 1 := by omega
    simpa [knot] using h

theorem weights2 (a b : R) (h : a < b) : weight [a, a, b, b] 1 a 0 = 1 ∧ weight [a, a, b, b] 1 a 1 = 0 ∧
    weight [a, a, b, b] 1 b 0 = 0 ∧ weight [a, a, b, b] 1 b 1 = 1 := by
  have hne : b - a ≠ 0 := ne_of_gt (sub_pos.mpr h)
  simp [weight, bspl, clampTo, span, knot, h.le, hne]

omit [IsStrictOrderedRing R] in
theorem eval2 (a b c d p q r s x y : R) : Spl.eval ⟨[a, a, b, b], [c, c, d, d], 1, [p, r, q, s]⟩ x y =
    (p * weight [a, a, b, b] 1 x 0 * weight [c, c, d, d] 1 y 0 + r * weight [a, a, b, b] 1 x 0 * weight [c, c, d, d] 1 y 1) +
    (q * weight [a, a, b, b] 1 x 1 * weight [c, c, d, d] 1 y 0 + s * weight [a, a, b, b] 1 x 1 * weight [c, c, d, d] 1 y 1) := by
  simp [Spl.eval, Spl.mx, Spl.my, Finset.sum_range_succ, coef]

theorem fit2_good (a b c d : R) (h : a < b) (h' : c < d) : GoodFit fit2 [a, b] [c, d] 1 [a, a, b, b] [c, c, d, d] := by
  obtain ⟨w1, w2, w3, w4⟩ := weights2 a b h
  obtain ⟨v1, v2, v3, v4⟩ := weights2 c d h'
  have hg : ∀ p q r s : R, onGrid (Spl.eval ⟨[a, a, b, b], [c, c, d, d], 1, [p, r, q, s]⟩) [a, b] [c, d] = [[p, q], [r, s]] := by
    intro p q r s
    simp [onGrid, eval2, w1, w2, w3, w4, v1, v2, v3, v4]
  refine ⟨knots2 a b h, knots2 c d h', ?_, ?_⟩
  · intro l hl
    simp only [List.length_cons, List.length_nil] at hl
    match l, hl with
    | [p, r, q, s], _ => rw [hg]; simp [fit2, h, h']
  · intro bg hb hr
    match bg, hb with
    | [r0, r1], _ =>
      have h0 := hr r0 (by simp)
      have h1 := hr r1 (by simp)
      match r0, r1, h0, h1 with
      | [p, q], [r, s], _, _ => exact ⟨[p, r, q, s], by simp, by simp [fit2, h, h'], hg p q r s⟩

/-! ### Offset, scale, bounds -/

omit [LinearOrder R] [IsStrictOrderedRing R] in
theorem prior_offset (W H : Nat) (c : List R) (d : R) (sig : Option R) :
    logPrior ⟨W, H, c.map (· + d), sig⟩ = logPrior ⟨W, H, c, sig⟩ := by
  unfold logPrior paramGrid
  cases sig with
  | none => rfl
  | some sig =>
    simp only [List.length_map]
    by_cases hl : c.length = W * H
    · rw [if_pos hl, if_pos hl]
      have e1 : sum2 (H - 1) W (fun r k => (coef (c.map (· + d)) ((r + 1) * W + k) - coef (c.map (· + d)) (r * W + k)) ^ 2) =
          sum2 (H - 1) W (fun r k => (coef c ((r + 1) * W + k) - coef c (r * W + k)) ^ 2) := by
        unfold sum2
        congr 1
        apply List.map_congr_left
        intro r hr
        congr 1
        apply List.map_congr_left
        intro k hk
        simp only [List.mem_range] at hr hk
        beta_reduce
        rw [coef_map _ _ _ (by rw [hl, mul_comm W]; exact index_lt _ _ _ _ (by omega) hk),
          coef_map _ _ _ (by rw [hl, mul_comm W]; exact index_lt _ _ _ _ (by omega) hk)]
        ring
      have e2 : sum2 H (W - 1) (fun r k => (coef (c.map (· + d)) (r * W + (k + 1)) - coef (c.map (· + d)) (r * W + k)) ^ 2) =
          sum2 H (W - 1) (fun r k => (coef c (r * W + (k + 1)) - coef c (r * W + k)) ^ 2) := by
        unfold sum2
        congr 1
        apply List.map_congr_left
        intro r hr
        congr 1
        apply List.map_congr_left
        intro k hk
        simp only [List.mem_range] at hr hk
        beta_reduce
        rw [coef_map _ _ _ (by rw [hl, mul_comm W]; exact index_lt _ _ _ _ (by omega) (by omega)),
          coef_map _ _ _ (by rw [hl, mul_comm W]; exact index_lt _ _ _ _ (by omega) (by omega))]
        ring
      simp only [Except.map]
      rw [e1, e2]
    · rw [if_neg hl, if_neg hl]

/-- **C112 (offset).** `offset(d)` raises the sky by `d` in every pixel, within the grid and outside, and leaves the
smoothness prior as it is. -/
theorem C112_offset (s : SplineSky R) (h : GoodSpl s.spl) (d : R) :
    (∀ x y, level (offset s d) x y = level s x y + d) ∧
    (∀ (mod : Arr R) (a : R) (r c : Nat), (addTo (offset s d) mod a).px r c = (addTo s mod a).px r c + d * a) ∧
    logPrior (toSmooth (offset s d)) = logPrior (toSmooth s) := by
  have e : ∀ x y, (offset s d).spl.eval x y = s.spl.eval x y + d := fun x y => eval_offset s.spl h d x y
  refine ⟨fun x y => e _ _, fun mod a r c => ?_, ?_⟩
  · show mod.px r c + (offset s d).spl.eval ((c : R) + s.x0) ((r : R) + s.y0) * a = _
    rw [e]
    unfold addTo
    simp only
    ring
  · exact prior_offset _ _ _ d _

omit [IsStrictOrderedRing R] in
/-- **C112 (scale).** `scale(b)` multiplies the sky by `b` in every pixel. -/
theorem C112_scale (s : SplineSky R) (h : GoodSpl s.spl) (b : R) :
    (∀ x y, level (scale s b) x y = level s x y * b) ∧
    ∀ (mod : Arr R) (a : R) (r c : Nat), (addTo (scale s b) mod a).px r c = (addTo s mod (a * b)).px r c := by
  have e : ∀ x y, (scale s b).spl.eval x y = s.spl.eval x y * b := fun x y => eval_scale s.spl h b x y
  refine ⟨fun x y => e _ _, fun mod a r c => ?_⟩
  show mod.px r c + (scale s b).spl.eval ((c : R) + s.x0) ((r : R) + s.y0) * a = _
  rw [e]
  unfold addTo
  simp only
  ring

/-- **C112 (range).** The sky in every pixel lies between the smallest and the largest parameter. -/
theorem C112_between (s : SplineSky R) (h : GoodSpl s.spl) (lo hi : R) (hc : ∀ v ∈ s.spl.c, lo ≤ v ∧ v ≤ hi) (x y : R) :
    lo ≤ level s x y ∧ level s x y ≤ hi := by
  have hm : ∀ n < s.spl.c.length, coef s.spl.c n ∈ s.spl.c := by
    intro n hn
    unfold coef
    rw [List.getD_eq_getElem?_getD, List.getElem?_eq_getElem hn]
    exact List.getElem_mem hn
  have hrep : ∀ a : R, ∀ n < s.spl.c.length, coef (List.replicate s.spl.c.length a) n = a := by
    intro a n hn
    unfold coef
    rw [List.getD_eq_getElem?_getD, List.getElem?_replicate, if_pos hn]
    rfl
  have hgood : ∀ a : R, GoodSpl { s.spl with c := List.replicate s.spl.c.length a } := by
    intro a
    refine ⟨h.x, h.y, ?_⟩
    simp only [List.length_replicate]
    exact h.count
  have hconst : ∀ a x y, Spl.eval { s.spl with c := List.replicate s.spl.c.length a } x y = a := by
    intro a x y
    apply eval_const _ (hgood a)
    intro n hn
    simp only [List.length_replicate] at hn
    exact hrep a n hn
  unfold level
  constructor
  · have := eval_mono { s.spl with c := List.replicate s.spl.c.length lo } (hgood lo) s.spl.c (by
      intro n hn
      simp only [List.length_replicate] at hn
      simp only
      rw [hrep lo n hn]
      exact (hc _ (hm n hn)).1) (x + s.x0) (y + s.y0)
    rw [hconst] at this
    exact this
  · have := eval_mono s.spl h (List.replicate s.spl.c.length hi) (by
      intro n hn
      rw [hrep hi n hn]
      exact (hc _ (hm n hn)).2) (x + s.x0) (y + s.y0)
    rw [hconst] at this
    exact this

/-- **C112 (one parameter).** Changing a parameter changes the sky in a pixel in proportion, by a share between 0 and 1 of
the change that does not depend on any values, and not at all in pixels outside the rectangle of knots that belongs to the
parameter; `setParam` returns the old value. -/
theorem C112_param (s : SplineSky R) (h : GoodSpl s.spl) (a b : Nat) (ha : a < s.spl.mx) (hb : b < s.spl.my) (i : Nat)
    (hi : indexLiquid s.liquid i = some (a * s.spl.my + b)) :
    ∃ share : R → R → R, (∀ x y, 0 ≤ share x y ∧ share x y ≤ 1) ∧
      (∀ x y, share x y ≠ 0 →
        (knot s.spl.tx a ≤ clampTo s.spl.tx s.spl.k (x + s.x0) ∧
          clampTo s.spl.tx s.spl.k (x + s.x0) ≤ knot s.spl.tx (a + s.spl.k + 1)) ∧
        (knot s.spl.ty b ≤ clampTo s.spl.ty s.spl.k (y + s.y0) ∧
          clampTo s.spl.ty s.spl.k (y + s.y0) ≤ knot s.spl.ty (b + s.spl.k + 1))) ∧
      ∀ v, ∃ s' old, setParam s i v = (s', .ok old) ∧ ∀ x y, level s' x y = level s x y + (v - old) * share x y := by
  have hn : a * s.spl.my + b < s.spl.c.length := by rw [h.count]; exact index_lt a b _ _ ha hb
  refine ⟨fun x y => weight s.spl.tx s.spl.k (x + s.x0) a * weight s.spl.ty s.spl.k (y + s.y0) b, ?_, ?_, ?_⟩
  · intro x y
    have hsum := eval_sum s.spl h (x + s.x0) (y + s.y0)
    refine ⟨weights_nonneg s.spl h _ _ a b ha hb, ?_⟩
    rw [← hsum]
    refine le_trans ?_ (Finset.single_le_sum (f := fun i => ∑ j ∈ Finset.range s.spl.my,
      weight s.spl.tx s.spl.k (x + s.x0) i * weight s.spl.ty s.spl.k (y + s.y0) j) ?_ (Finset.mem_range.mpr ha))
    · exact Finset.single_le_sum (f := fun j => weight s.spl.tx s.spl.k (x + s.x0) a * weight s.spl.ty s.spl.k (y + s.y0) j)
        (fun j hj => weights_nonneg s.spl h _ _ a j ha (Finset.mem_range.mp hj)) (Finset.mem_range.mpr hb)
    · intro i hi
      exact Finset.sum_nonneg (fun j hj => weights_nonneg s.spl h _ _ i j (Finset.mem_range.mp hi) (Finset.mem_range.mp hj))
  · intro x y hne
    exact ⟨weight_support _ _ h.x _ _ (left_ne_zero_of_mul hne), weight_support _ _ h.y _ _ (right_ne_zero_of_mul hne)⟩
  · intro v
    refine ⟨withCoefs s (s.spl.c.set (a * s.spl.my + b) v), coef s.spl.c (a * s.spl.my + b), ?_, ?_⟩
    · unfold setParam
      rw [hi]
      simp only
      rw [if_pos hn]
    · intro x y
      exact eval_set s.spl a b ha hb h.count v _ _

/-! ### Copies and tables -/

omit [IsStrictOrderedRing R] in
/-- **C112 (copy).** A copy has the same parameters, the same frozen ones, and the same level everywhere; `shifted` moves
the sky. -/
theorem C112_copy (fit : Fit R) (s : SplineSky R) (hf : GoodFit fit s.xgrid s.ygrid s.order s.spl.tx s.spl.ty)
    (hk : s.spl.k = s.order) (h : GoodSpl s.spl) :
    (∃ s', copy fit s = .ok s' ∧ s'.spl.c = s.spl.c ∧ s'.liquid = s.liquid ∧ ∀ x y, level s' x y = level s x y) ∧
    ∀ dx dy, ∃ s', shifted fit s dx dy = .ok s' ∧ s'.spl.c = s.spl.c ∧ s'.liquid = s.liquid ∧
      ∀ x y, level s' x y = level s (x + dx) (y + dy) := by
  have hfit : fit s.xgrid s.ygrid (getGrid s) s.order = .ok s.spl := by
    have := hf.unique s.spl.c (by rw [h.count, ← hk]; rfl)
    rw [← hk] at this ⊢
    exact this
  have hcopy : copy fit s = .ok ⟨s.xgrid, s.ygrid, s.order, s.spl, s.liquid, none, s.x0, s.y0⟩ := by
    unfold copy new
    rw [hfit]
  have hshift : ∀ dx dy, shifted fit s dx dy =
      .ok ⟨s.xgrid, s.ygrid, s.order, s.spl, s.liquid, none, s.x0 + dx, s.y0 + dy⟩ := by
    intro dx dy
    unfold shifted
    rw [hcopy]
    rfl
  refine ⟨⟨_, hcopy, rfl, rfl, fun x y => rfl⟩, fun dx dy => ⟨_, hshift dx dy, rfl, rfl, fun x y => ?_⟩⟩
  show s.spl.eval (x + (s.x0 + dx)) (y + (s.y0 + dy)) = s.spl.eval (x + dx + s.x0) (y + dy + s.y0)
  rw [show x + (s.x0 + dx) = x + dx + s.x0 by ring, show y + (s.y0 + dy) = y + dy + s.y0 by ring]

omit [LinearOrder R] [IsStrictOrderedRing R] in
theorem cast_trunc (trunc : R → Int) (X : List R) (h : ∀ x ∈ X, (trunc x : R) = x) :
    (X.map trunc).map (fun i : Int => (i : R)) = X := by
  rw [List.map_map]
  conv_rhs => rw [← List.map_id X]
  exact List.map_congr_left h

omit [IsStrictOrderedRing R] in
/-- **C112 (tables, in part).** A sky read back from the table made of it has the same level everywhere, if grid and offset
are whole numbers and the values at the grid points fit single precision.  Missing: other grids (`C112_table_false`). -/
theorem C112_table_partial (fit : Fit R) (trunc : R → Int) (f32 : R → R) (s : SplineSky R)
    (hf : GoodFit fit s.xgrid s.ygrid s.order s.spl.tx s.spl.ty) (hk : s.spl.k = s.order) (h : GoodSpl s.spl)
    (hx : ∀ x ∈ s.xgrid, (trunc x : R) = x) (hy : ∀ y ∈ s.ygrid, (trunc y : R) = y)
    (h0 : (trunc s.x0 : R) = s.x0) (h1 : (trunc s.y0 : R) = s.y0) (ho : s.order < 256)
    (hv : ∀ y ∈ s.ygrid, ∀ x ∈ s.xgrid, f32 (s.spl.eval x y) = s.spl.eval x y) :
    ∃ s', fromRow fit (toRow trunc f32 s) = .ok s' ∧ s'.spl.c = s.spl.c ∧ ∀ x y, level s' x y = level s x y := by
  have hgrid : (getGrid s).map (List.map f32) = getGrid s := by
    unfold getGrid
    rw [List.map_map]
    apply List.map_congr_left
    intro y hyy
    show List.map f32 (s.xgrid.map _) = _
    rw [List.map_map]
    apply List.map_congr_left
    intro x hxx
    exact hv y hyy x hxx
  have hfit : fit s.xgrid s.ygrid (getGrid s) s.order = .ok s.spl := by
    have := hf.unique s.spl.c (by rw [h.count, ← hk]; rfl)
    rw [← hk] at this ⊢
    exact this
  refine ⟨⟨s.xgrid, s.ygrid, s.order, s.spl, List.replicate s.spl.c.length true, none, 0 + s.x0, 0 + s.y0⟩, ?_, rfl, ?_⟩
  · unfold fromRow toRow new
    simp only
    rw [cast_trunc trunc _ hx, cast_trunc trunc _ hy, hgrid, Nat.mod_eq_of_lt ho, hfit]
    simp only [shift]
    rw [h0, h1]
  · intro x y
    show s.spl.eval (x + (0 + s.x0)) (y + (0 + s.y0)) = _
    rw [zero_add, zero_add]
    rfl

omit [IsStrictOrderedRing R] in
/-- **C112 (tables again).** Whatever is read from a table (of single-precision values, at whole grid points) is written and
read again without any further change. -/
theorem C112_again (fit : Fit R) (trunc : R → Int) (ht : ∀ i : Int, trunc (i : R) = i) (f32 : R → R) (T : Row R)
    (ho : T.order < 256) (tx ty : List R)
    (hf : GoodFit fit (T.xgrid.map (fun i : Int => (i : R))) (T.ygrid.map (fun i : Int => (i : R))) T.order tx ty)
    (hr : T.gridvals.length = T.ygrid.length) (hc : ∀ r ∈ T.gridvals, r.length = T.xgrid.length)
    (hv : ∀ r ∈ T.gridvals, ∀ v ∈ r, f32 v = v) :
    ∃ s, fromRow fit T = .ok s ∧ toRow trunc f32 s = T ∧ fromRow fit (toRow trunc f32 s) = .ok s := by
  obtain ⟨c, h1, h2, h3⟩ := hf.meets T.gridvals (by rw [hr, List.length_map]) (by simpa using hc)
  have e1 : fromRow fit T = .ok ⟨T.xgrid.map (fun i : Int => (i : R)), T.ygrid.map (fun i : Int => (i : R)), T.order,
      ⟨tx, ty, T.order, c⟩, List.replicate c.length true, none, 0 + T.x0, 0 + T.y0⟩ := by
    unfold fromRow new
    rw [h2]
    rfl
  have hcast : ∀ X : List Int, (X.map (fun i : Int => (i : R))).map trunc = X := by
    intro X
    rw [List.map_map]
    conv_rhs => rw [← List.map_id X]
    exact List.map_congr_left (fun i _ => ht i)
  have e2 : toRow trunc f32 ⟨T.xgrid.map (fun i : Int => (i : R)), T.ygrid.map (fun i : Int => (i : R)), T.order,
      ⟨tx, ty, T.order, c⟩, List.replicate c.length true, none, 0 + T.x0, 0 + T.y0⟩ = T := by
    unfold toRow getGrid
    simp only [hcast, zero_add, ht]
    have : (T.ygrid.map (fun i : Int => (i : R))).map (fun y => (T.xgrid.map (fun i : Int => (i : R))).map (fun x =>
        Spl.eval ⟨tx, ty, T.order, c⟩ x y)) = T.gridvals := h3
    rw [this, Nat.mod_eq_of_lt ho]
    have : T.gridvals.map (List.map f32) = T.gridvals := by
      conv_rhs => rw [← List.map_id T.gridvals]
      apply List.map_congr_left
      intro r hrr
      conv_rhs => rw [id, ← List.map_id r]
      exact List.map_congr_left (fun v hvv => hv r hrr v hvv)
    rw [this]
  exact ⟨_, e1, e2, by rw [e2]; exact e1⟩

end

/-! ### Examples and negations -/

/-- Conversion to integers: towards zero. -/
def truncQ (q : Rat) : Int := Int.tdiv q.num q.den

theorem truncQ_int (i : Int) : truncQ (i : Rat) = i := by
  unfold truncQ
  simp

/-- A bilinear sky with the values 1, 2, 3, 5 in the corners of the square from `a` to `a + 1`. -/
def sky2 (a : Rat) : SplineSky Rat :=
  ⟨[a, a + 1], [a, a + 1], 1, ⟨[a, a, a + 1, a + 1], [a, a, a + 1, a + 1], 1, [1, 3, 2, 5]⟩, [true, false, true, true], some 2, 0, 0⟩

theorem sky2_good (a : Rat) : GoodSpl (sky2 a).spl :=
  ⟨knots2 a (a + 1) (by linarith), knots2 a (a + 1) (by linarith), rfl⟩

theorem sky2_fit (a : Rat) : GoodFit fit2 (sky2 a).xgrid (sky2 a).ygrid (sky2 a).order (sky2 a).spl.tx (sky2 a).spl.ty :=
  fit2_good a (a + 1) a (a + 1) (by linarith) (by linarith)

/-- In the middle the level is 11/4; after `offset(10)` it is 51/4, also far outside the grid it is 10 more. -/
example : level (sky2 0) (1 / 2) (1 / 2) = 11 / 4 ∧ level (offset (sky2 0) 10) (1 / 2) (1 / 2) = 51 / 4 ∧
    level (offset (sky2 0) 10) 100 (-7) = 12 ∧ level (scale (sky2 0) 4) (1 / 2) (1 / 2) = 11 := by
  decide +kernel

/-- Cubic splines on a grid of five points. -/
example : (∀ x : Rat, ∑ i ∈ Finset.range 5, weight [0, 0, 0, 0, 2, 4, 4, 4, 4] 3 x i = 1) ∧
    weight ([0, 0, 0, 0, 2, 4, 4, 4, 4] : List Rat) 3 1 2 = 1 / 4 := by
  refine ⟨fun x => weight_sum _ 3 ⟨by simp, ?_, ?_⟩ x, by decide +kernel⟩
  · intro i j hij hj
    simp only [List.length_cons, List.length_nil] at hj
    have h : ∀ j < 9, ∀ i ≤ j, knot ([0, 0, 0, 0, 2, 4, 4, 4, 4] : List Rat) i ≤ knot [0, 0, 0, 0, 2, 4, 4, 4, 4] j := by
      decide +kernel
    exact h j (by omega) i hij
  · intro i h1 h2
    simp only [List.length_cons, List.length_nil] at h2
    have h : ∀ i < 5, 3 ≤ i → knot ([0, 0, 0, 0, 2, 4, 4, 4, 4] : List Rat) i < knot [0, 0, 0, 0, 2, 4, 4, 4, 4] (i + 1) := by
      decide +kernel
    exact h i (by omega) h1

example (x y : Rat) : 1 ≤ level (sky2 0) x y ∧ level (sky2 0) x y ≤ 5 :=
  C112_between (sky2 0) (sky2_good 0) 1 5 (by decide +kernel) x y

/-- The third parameter that is not frozen is the last one. -/
example : ∃ share : Rat → Rat → Rat, share 1 1 = 1 ∧ share 0 1 = 0 ∧
    ∀ v, ∃ s', setParam (sky2 0) 2 v = (s', .ok 5) ∧ ∀ x y, level s' x y = level (sky2 0) x y + (v - 5) * share x y := by
  obtain ⟨share, -, -, h⟩ := C112_param (sky2 0) (sky2_good 0) 1 1 (by decide) (by decide) 2 rfl
  have hshare : ∀ x y, level (setParam (sky2 0) 2 6).1 x y = level (sky2 0) x y + (6 - 5) * share x y := by
    intro x y
    obtain ⟨s', old, e, h'⟩ := h 6
    have e1 : (setParam (sky2 0) 2 6).1 = s' := by rw [e]
    have e2 : (setParam (sky2 0) 2 6).2 = .ok old := by rw [e]
    have e3 : old = 5 := by cases e2; rfl
    rw [e1, h', e3]
  refine ⟨share, ?_, ?_, fun v => ?_⟩
  · have := hshare 1 1
    rw [show level (setParam (sky2 0) 2 6).1 1 1 = 6 by decide +kernel, show level (sky2 0) 1 1 = 5 by decide +kernel] at this
    linarith
  · have := hshare 0 1
    rw [show level (setParam (sky2 0) 2 6).1 0 1 = 3 by decide +kernel, show level (sky2 0) 0 1 = 3 by decide +kernel] at this
    linarith
  · obtain ⟨s', old, e, h'⟩ := h v
    have : old = 5 := by cases e; rfl
    subst this
    exact ⟨s', e, h'⟩

example : ∃ s', shifted fit2 (sky2 0) 1 0 = .ok s' ∧ ∀ x y, level s' x y = level (sky2 0) (x + 1) (y + 0) := by
  obtain ⟨s', h, -, -, h'⟩ := (C112_copy fit2 (sky2 0) (sky2_fit 0) rfl (sky2_good 0)).2 1 0
  exact ⟨s', h, h'⟩

/-- **C112 (negation).** A copy loses the smoothness prior: the log prior of the sky is -9/4, that of the copy 0. -/
theorem C112_copy_prior_false : logPrior (toSmooth (sky2 0)) = .ok (-9 / 4) ∧
    ∃ s', copy fit2 (sky2 0) = .ok s' ∧ logPrior (toSmooth s') = .ok 0 := by
  refine ⟨by decide +kernel, ?_⟩
  obtain ⟨s', h, -, -, -⟩ := (C112_copy fit2 (sky2 0) (sky2_fit 0) rfl (sky2_good 0)).1
  refine ⟨s', h, ?_⟩
  unfold copy new at h
  cases hf : fit2 (sky2 0).xgrid (sky2 0).ygrid (getGrid (sky2 0)) (sky2 0).order with
  | error e => rw [hf] at h; simp at h
  | ok t => rw [hf] at h; cases h; rfl

example : ∃ s', fromRow fit2 (toRow truncQ id (sky2 3)) = .ok s' ∧ s'.spl.c = (sky2 3).spl.c ∧
    ∀ x y, level s' x y = level (sky2 3) x y := by
  apply C112_table_partial fit2 truncQ id (sky2 3) (sky2_fit 3) rfl (sky2_good 3) <;> decide +kernel

example : ∃ s : SplineSky Rat, fromRow fit2 ⟨[0, 4], [1, 3], 7, 8, [[1, 2], [3, 5]], 1⟩ = .ok s ∧
    fromRow fit2 (toRow truncQ id s) = .ok s := by
  obtain ⟨s, h1, -, h2⟩ := C112_again fit2 truncQ truncQ_int id
    (⟨[0, 4], [1, 3], 7, 8, [[1, 2], [3, 5]], 1⟩ : Row Rat) (by decide) [0, 0, 4, 4] [1, 1, 3, 3]
    (by simpa using fit2_good (0 : Rat) 4 1 3 (by norm_num) (by norm_num)) (by decide) (by decide) (by simp)
  exact ⟨s, h1, h2⟩

/-- **C112 (negation).** Grid points that are not whole numbers are cut off in the table: with the grid at 1/2 and 3/2 the
level at the first grid point is 1, but 11/4 when read back. -/
theorem C112_table_false : level (sky2 (1 / 2)) (1 / 2) (1 / 2) = 1 ∧
    ∃ s', fromRow fit2 (toRow truncQ id (sky2 (1 / 2))) = .ok s' ∧ level s' (1 / 2) (1 / 2) = 11 / 4 := by
  refine ⟨by decide +kernel, ?_⟩
  refine ⟨⟨[0, 1], [0, 1], 1, ⟨[0, 0, 1, 1], [0, 0, 1, 1], 1, [1, 3, 2, 5]⟩, [true, true, true, true], none, 0, 0⟩, ?_, ?_⟩
  · have hg : getGrid (sky2 (1 / 2)) = [[1, 2], [3, 5]] := by decide +kernel
    unfold fromRow toRow new
    rw [hg]
    have h1 : (sky2 (1 / 2)).xgrid.map truncQ = [0, 1] := by decide +kernel
    have h2 : (sky2 (1 / 2)).ygrid.map truncQ = [0, 1] := by decide +kernel
    rw [h1, h2]
    simp [fit2, sky2, shift, truncQ]
  · decide +kernel

end Verif.Sky
