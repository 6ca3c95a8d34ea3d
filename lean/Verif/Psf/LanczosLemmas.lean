import Verif.Psf.Lanczos
import Mathlib.Tactic.Ring
import Mathlib.Tactic.Linarith
import Mathlib.Tactic.IntervalCases
import Mathlib.Tactic.NormNum

namespace Verif.Psf

variable {R : Type}

theorem writes_ok (ws : List (Nat × R)) (a : Nat) (t : R) : ∀ mem : Mem R, (∃ v, (a, v) ∈ ws) →
    (∀ v, (a, v) ∈ ws → v = t) → mem.writes ws a = t := by
  induction ws with
  | nil => intro mem h; obtain ⟨v, hv⟩ := h; simp at hv
  | cons w ws ih =>
    intro mem h hall
    show Mem.writes (mem.write w.1 w.2) ws a = t
    by_cases hr : ∃ v, (a, v) ∈ ws
    · exact ih _ hr (fun v hv => hall v (by simp [hv]))
    · have hno : ∀ v, (a, v) ∉ ws := fun v hv => hr ⟨v, hv⟩
      obtain ⟨v, hv⟩ := h
      have hw : w = (a, v) := by
        rcases List.mem_cons.mp hv with h | h
        · exact h.symm
        · exact absurd h (hno v)
      subst hw
      have key : ∀ (ws : List (Nat × R)) (mem : Mem R), (∀ v, (a, v) ∉ ws) → mem.writes ws a = mem a := by
        intro ws
        induction ws with
        | nil => intro mem _; rfl
        | cons w ws ih =>
          intro mem hno
          show Mem.writes (mem.write w.1 w.2) ws a = mem a
          rw [ih _ (fun v hv => hno v (by simp [hv]))]
          unfold Mem.write
          rw [if_neg]
          intro e
          exact hno w.2 (by rw [e]; simp)
      rw [key ws _ hno]
      unfold Mem.write
      rw [if_pos rfl]
      exact hall v (by simp)

section
variable [Field R]

/-- What one pass computes for row `j`, position `x`. -/
def passVal (f : Nat → R) (W : Nat) (src : Mem R) (j x : Nat) : R :=
  ((List.range 7).map (fun k => f k * (if 3 ≤ x + k ∧ x + k < W + 3 then src (j * W + (x + k - 3)) else 0))).sum

theorem sumTo_eq (n : Nat) (f : Nat → R) : sumTo n f = ((List.range n).map f).sum := by
  unfold sumTo
  have : ∀ (l : List Nat) (s : R), l.foldl (fun s k => s + f k) s = s + (l.map f).sum := by
    intro l
    induction l with
    | nil => intro s; simp
    | cons k l ih => intro s; rw [List.foldl_cons, ih, List.map_cons, List.sum_cons, add_assoc]
  rw [this, zero_add]

theorem row_left (f : Nat → R) (W : Nat) (src : Mem R) (j i : Nat) (hi : i < 3) (hW : 8 < W) :
    sumTo (4 + i) (fun k => f (3 - i + k) * src (j * W + k)) = passVal f W src j i := by
  rw [sumTo_eq]
  unfold passVal
  have e : List.range 7 = [0, 1, 2, 3, 4, 5, 6] := rfl
  interval_cases i
  · rw [e, show List.range (4 + 0) = [0, 1, 2, 3] from rfl]
    simp only [List.map_cons, List.map_nil, List.sum_cons, List.sum_nil]
    simp
    rw [if_pos (by omega), if_pos (by omega), if_pos (by omega), if_pos (by omega)]
  · rw [e, show List.range (4 + 1) = [0, 1, 2, 3, 4] from rfl]
    simp only [List.map_cons, List.map_nil, List.sum_cons, List.sum_nil]
    simp
    rw [if_pos (by omega), if_pos (by omega), if_pos (by omega), if_pos (by omega), if_pos (by omega)]
  · rw [e, show List.range (4 + 2) = [0, 1, 2, 3, 4, 5] from rfl]
    simp only [List.map_cons, List.map_nil, List.sum_cons, List.sum_nil]
    simp
    rw [if_pos (by omega), if_pos (by omega), if_pos (by omega), if_pos (by omega), if_pos (by omega), if_pos (by omega)]

theorem row_mid (f : Nat → R) (W : Nat) (src : Mem R) (j i : Nat) (hi : i < W - 7 + 1) (hW : 8 < W) :
    sumTo 7 (fun k => f k * src (j * W + i + k)) = passVal f W src j (i + 3) := by
  rw [sumTo_eq]
  unfold passVal
  congr 1
  refine List.map_congr_left (fun k hk => ?_)
  have := List.mem_range.mp hk
  rw [if_pos (by omega), show i + 3 + k - 3 = i + k from by omega, Nat.add_assoc]

theorem row_right (f : Nat → R) (W : Nat) (src : Mem R) (j i : Nat) (hi : i < 3) (hW : 8 < W) :
    sumTo (4 + i) (fun k => f k * src (j * W + W - (4 + i) + k)) = passVal f W src j (W - 1 - i) := by
  rw [sumTo_eq]
  unfold passVal
  have e : List.range 7 = List.range (4 + i) ++ (List.range (3 - i)).map (fun k => 4 + i + k) := by
    interval_cases i <;> rfl
  rw [e, List.map_append, List.sum_append, List.map_map]
  have z : ((List.range (3 - i)).map ((fun k => f k * (if 3 ≤ W - 1 - i + k ∧ W - 1 - i + k < W + 3 then
      src (j * W + (W - 1 - i + k - 3)) else 0)) ∘ fun k => 4 + i + k)).sum = 0 := by
    have e0 : ∀ k ∈ List.range (3 - i), ((fun k => f k * (if 3 ≤ W - 1 - i + k ∧ W - 1 - i + k < W + 3 then
        src (j * W + (W - 1 - i + k - 3)) else 0)) ∘ fun k => 4 + i + k) k = (fun _ => (0 : R)) k := by
      intro k hk
      simp only [Function.comp]
      rw [if_neg (by omega), mul_zero]
    rw [List.map_congr_left e0]
    generalize List.range (3 - i) = l
    induction l with
    | nil => rfl
    | cons a l ih => rw [List.map_cons, List.sum_cons, ih, add_zero]
  rw [z, add_zero]
  congr 1
  refine List.map_congr_left (fun k hk => ?_)
  have := List.mem_range.mp hk
  rw [if_pos (by omega)]
  congr 2
  omega

theorem row_val (f : Nat → R) (H W : Nat) (src : Mem R) (j : Nat) (hW : 8 < W) (w : Nat × R)
    (hw : w ∈ rowWrites f H W src j) : ∃ x, x < W ∧ w = (x * H + j, passVal f W src j x) := by
  unfold rowWrites at hw
  rcases List.mem_append.mp hw with hw | hw
  · rcases List.mem_append.mp hw with hw | hw
    · obtain ⟨i, hi, rfl⟩ := List.mem_map.mp hw
      have hi := List.mem_range.mp hi
      exact ⟨i, by omega, by rw [row_left f W src j i hi hW]⟩
    · obtain ⟨i, hi, rfl⟩ := List.mem_map.mp hw
      have hi := List.mem_range.mp hi
      exact ⟨i + 3, by omega, by rw [row_mid f W src j i hi hW]⟩
  · obtain ⟨i, hi, rfl⟩ := List.mem_map.mp hw
    have hi := List.mem_range.mp hi
    exact ⟨W - 1 - i, by omega, by rw [row_right f W src j i hi hW]⟩

theorem row_cover (f : Nat → R) (H W : Nat) (src : Mem R) (j : Nat) (hW : 8 < W) (x : Nat) (hx : x < W) :
    ∃ v, (x * H + j, v) ∈ rowWrites f H W src j := by
  unfold rowWrites
  by_cases h1 : x < 3
  · exact ⟨_, List.mem_append_left _ (List.mem_append_left _ (List.mem_map.mpr ⟨x, List.mem_range.mpr h1, rfl⟩))⟩
  · by_cases h2 : x < W - 3
    · refine ⟨sumTo 7 (fun k => f k * src (j * W + (x - 3) + k)), List.mem_append_left _ (List.mem_append_right _
        (List.mem_map.mpr ⟨x - 3, List.mem_range.mpr (by omega), ?_⟩))⟩
      rw [show x - 3 + 3 = x from by omega]
    · refine ⟨sumTo (4 + (W - 1 - x)) (fun k => f k * src (j * W + W - (4 + (W - 1 - x)) + k)),
        List.mem_append_right _ (List.mem_map.mpr ⟨W - 1 - x, List.mem_range.mpr (by omega), ?_⟩)⟩
      rw [show W - 1 - (W - 1 - x) = x from by omega]

theorem addr_inj {H x j x' j' : Nat} (hj : j < H) (hj' : j' < H) (h : x * H + j = x' * H + j') : x = x' ∧ j = j' := by
  have h1 : (x * H + j) / H = x := by
    rw [Nat.mul_comm, Nat.mul_add_div (by omega), Nat.div_eq_of_lt hj, Nat.add_zero]
  have h2 : (x' * H + j') / H = x' := by
    rw [Nat.mul_comm, Nat.mul_add_div (by omega), Nat.div_eq_of_lt hj', Nat.add_zero]
  have e : x = x' := by rw [← h1, ← h2, h]
  subst e
  exact ⟨rfl, by omega⟩

theorem pass_ok (f : Nat → R) (H W : Nat) (src mem : Mem R) (hW : 8 < W) (j x : Nat) (hj : j < H) (hx : x < W) :
    mem.writes (passWrites f H W src) (x * H + j) = passVal f W src j x := by
  apply writes_ok
  · obtain ⟨v, hv⟩ := row_cover f H W src j hW x hx
    exact ⟨v, List.mem_flatMap.mpr ⟨j, List.mem_range.mpr hj, hv⟩⟩
  · intro v hv
    obtain ⟨j', hj', h'⟩ := List.mem_flatMap.mp hv
    have hj' := List.mem_range.mp hj'
    obtain ⟨x', hx', e⟩ := row_val f H W src j' hW _ h'
    rw [Prod.mk.injEq] at e
    obtain ⟨rfl, rfl⟩ := addr_inj hj hj' e.1
    exact e.2

/-- Every address written by a pass is inside the `W * H` array. -/
theorem pass_addr (f : Nat → R) (H W : Nat) (src : Mem R) (hW : 8 < W) (w : Nat × R) (hw : w ∈ passWrites f H W src) :
    w.1 < W * H := by
  obtain ⟨j, hj, h⟩ := List.mem_flatMap.mp hw
  have hj := List.mem_range.mp hj
  obtain ⟨x, hx, e⟩ := row_val f H W src j hW _ h
  rw [e]
  have : (x + 1) * H ≤ W * H := Nat.mul_le_mul_right H hx
  rw [Nat.add_mul, Nat.one_mul] at this
  show x * H + j < W * H
  omega

theorem passVal_congr (f : Nat → R) (W : Nat) (src src' : Mem R) (j x : Nat)
    (h : ∀ c, c < W → src (j * W + c) = src' (j * W + c)) : passVal f W src j x = passVal f W src' j x := by
  unfold passVal
  congr 1
  refine List.map_congr_left (fun k _ => ?_)
  split
  · next hk => rw [h _ (by omega)]
  · rfl

end

section
variable [Field R] [LinearOrder R]

omit [Field R] [LinearOrder R] in
theorem toMem_get (A : Arr R) (r c : Nat) (hc : c < A.w) : Arr.toMem A (r * A.w + c) = A.px r c := by
  unfold Arr.toMem
  have h1 : (r * A.w + c) / A.w = r := by
    rw [Nat.mul_comm, Nat.mul_add_div (by omega), Nat.div_eq_of_lt hc, Nat.add_zero]
  have h2 : (r * A.w + c) % A.w = c := by
    rw [Nat.mul_comm, Nat.mul_add_mod, Nat.mod_eq_of_lt hc]
  rw [h1, h2]

omit [LinearOrder R] in
theorem corrX_passVal (f : Nat → R) (A : Arr R) (r c : Nat) (hr : r < A.h) :
    passVal f A.w (Arr.toMem A) r c = (corrX f A).px r c := by
  unfold passVal corrX
  simp only
  congr 1
  refine List.map_congr_left (fun k hk => ?_)
  congr 1
  unfold ext
  by_cases h : 3 ≤ c + k ∧ c + k < A.w + 3
  · rw [if_pos h, if_pos (by omega), toMem_get A r (c + k - 3) (by omega)]
    congr 1
    omega
  · rw [if_neg h, if_neg (by omega)]

omit [LinearOrder R] in
theorem correlate_ok (fx fy : Nat → R) (A : Arr R) (out work : Mem R) (hH : 8 < A.h) (hW : 8 < A.w) (r c : Nat)
    (hr : r < A.h) (hc : c < A.w) :
    out.writes (passWrites fy A.w A.h (work.writes (passWrites fx A.h A.w (Arr.toMem A)))) (r * A.w + c) =
      (corrY fy (corrX fx A)).px r c := by
  rw [pass_ok fy A.w A.h _ out hH c r hc hr]
  unfold passVal corrY
  simp only
  congr 1
  refine List.map_congr_left (fun k hk => ?_)
  congr 1
  by_cases h : 3 ≤ r + k ∧ r + k < A.h + 3
  · rw [if_pos h, pass_ok fx A.h A.w _ work hW (r + k - 3) c (by omega) hc, corrX_passVal fx A _ _ (by omega)]
    unfold ext
    rw [if_pos (show 0 ≤ (r + k - 3 : Int) ∧ (r + k - 3 : Int) < (corrX fx A).h ∧ 0 ≤ (c : Int) ∧
      (c : Int) < (corrX fx A).w from ⟨by omega, by simp only [corrX]; omega, by omega, by simp only [corrX]; omega⟩)]
    congr 1
    omega
  · rw [if_neg h]
    unfold ext
    rw [if_neg (by simp only [corrX]; omega)]

end

/-! ### The weights -/

section
variable [Field R] [LinearOrder R] [IsStrictOrderedRing R]

omit [LinearOrder R] [IsStrictOrderedRing R] in
theorem range7_cast (f : R → R) (g : R) : ((List.range 7).map (fun i : Nat => f ((i : R) - 3 + g))).sum =
    f (-3 + g) + f (-2 + g) + f (-1 + g) + f (0 + g) + f (1 + g) + f (2 + g) + f (3 + g) := by
  rw [show List.range 7 = [0, 1, 2, 3, 4, 5, 6] from rfl]
  simp only [List.map_cons, List.map_nil, List.sum_cons, List.sum_nil]
  push_cast
  norm_num
  ring

theorem filter3_ok (lz : R → R) (h1 : lz 1 = 0 ∧ lz (-1) = 0 ∧ lz 2 = 0 ∧ lz (-2) = 0) (d : R)
    (hd : -(1 / 2) ≤ d ∧ d ≤ 1 / 2) : ∃ f, filter3 lz d = .ok f ∧ ∀ i, i < 7 → f i = kernPy lz d i := by
  unfold filter3
  rw [if_neg (by simpa using hd.1), if_neg (by simpa using hd.2)]
  have hs : ((List.range 7).map (fun i : Nat => lanczosFn lz ((i : R) - 3 + d))).sum =
      lanczosFn lz (-3 + d) + lanczosFn lz (-2 + d) + lanczosFn lz (-1 + d) + lanczosFn lz (0 + d) +
        lanczosFn lz (1 + d) + lanczosFn lz (2 + d) + lanczosFn lz (3 + d) := range7_cast (lanczosFn lz) d
  by_cases h0 : d = 0
  · subst h0
    refine ⟨_, if_pos rfl, fun i hi => ?_⟩
    unfold kernPy
    rw [hs]
    have l0 : lanczosFn lz (0 + 0) = 1 := by unfold lanczosFn; rw [if_pos (by ring)]
    have l1 : lanczosFn lz (1 + 0) = 0 := by unfold lanczosFn; norm_num [h1.1]
    have l2 : lanczosFn lz (2 + 0) = 0 := by unfold lanczosFn; norm_num [h1.2.2.1]
    have l3 : lanczosFn lz (3 + 0) = 0 := by unfold lanczosFn; norm_num
    have m1 : lanczosFn lz (-1 + 0) = 0 := by unfold lanczosFn; norm_num [h1.2.1]
    have m2 : lanczosFn lz (-2 + 0) = 0 := by unfold lanczosFn; norm_num [h1.2.2.2]
    have m3 : lanczosFn lz (-3 + 0) = 0 := by unfold lanczosFn; norm_num
    rw [l0, l1, l2, l3, m1, m2, m3]
    have tot : (0 + 0 + 0 + 1 + 0 + 0 + 0 : R) = 1 := by ring
    rw [tot, div_one]
    interval_cases i
    · rw [if_neg (by decide), show (((0 : Nat) : R) - 3 + 0) = -3 + 0 from by push_cast; ring, m3]
    · rw [if_neg (by decide), show (((1 : Nat) : R) - 3 + 0) = -2 + 0 from by push_cast; ring, m2]
    · rw [if_neg (by decide), show (((2 : Nat) : R) - 3 + 0) = -1 + 0 from by push_cast; ring, m1]
    · rw [if_pos rfl, show (((3 : Nat) : R) - 3 + 0) = 0 + 0 from by push_cast; ring, l0]
    · rw [if_neg (by decide), show (((4 : Nat) : R) - 3 + 0) = 1 + 0 from by push_cast; ring, l1]
    · rw [if_neg (by decide), show (((5 : Nat) : R) - 3 + 0) = 2 + 0 from by push_cast; ring, l2]
    · rw [if_neg (by decide), show (((6 : Nat) : R) - 3 + 0) = 3 + 0 from by push_cast; ring, l3]
  · rw [if_neg h0]
    have in' : ∀ x : R, x ≠ 0 → x < 3 → -3 < x → lanczosFn lz x = lz x := by
      intro x a b c; unfold lanczosFn; rw [if_neg a, if_pos ⟨b, c⟩]
    have out' : ∀ x : R, x ≠ 0 → (3 ≤ x ∨ x ≤ -3) → lanczosFn lz x = 0 := by
      intro x a b; unfold lanczosFn; rw [if_neg a, if_neg]
      rintro ⟨c, d⟩
      rcases b with b | b
      · exact absurd c (not_lt.mpr b)
      · exact absurd d (not_lt.mpr b)
    obtain ⟨d1, d2⟩ := hd
    by_cases hp : d > 0
    · have e0 := in' (-3 + d) (by intro h; linarith) (by linarith) (by linarith)
      have e1 := in' (-2 + d) (by intro h; linarith) (by linarith) (by linarith)
      have e2 := in' (-1 + d) (by intro h; linarith) (by linarith) (by linarith)
      have e3 := in' (0 + d) (by intro h; linarith) (by linarith) (by linarith)
      have e4 := in' (1 + d) (by intro h; linarith) (by linarith) (by linarith)
      have e5 := in' (2 + d) (by intro h; linarith) (by linarith) (by linarith)
      have e6 := out' (3 + d) (by intro h; linarith) (.inl (by linarith))
      refine ⟨_, if_pos hp, fun i hi => ?_⟩
      have s6 : ((List.range 6).map (fun i : Nat => lz ((i : R) - 3 + d))).sum =
          lz (-3 + d) + lz (-2 + d) + lz (-1 + d) + lz (0 + d) + lz (1 + d) + lz (2 + d) := by
        rw [show List.range 6 = [0, 1, 2, 3, 4, 5] from rfl]
        simp only [List.map_cons, List.map_nil, List.sum_cons, List.sum_nil]
        push_cast
        norm_num
        ring
      unfold kernPy
      rw [hs, s6, e0, e1, e2, e3, e4, e5, e6, add_zero]
      interval_cases i
      · rw [if_pos (by decide), show (((0 : Nat) : R) - 3 + d) = -3 + d from by push_cast; ring, e0]
      · rw [if_pos (by decide), show (((1 : Nat) : R) - 3 + d) = -2 + d from by push_cast; ring, e1]
      · rw [if_pos (by decide), show (((2 : Nat) : R) - 3 + d) = -1 + d from by push_cast; ring, e2]
      · rw [if_pos (by decide), show (((3 : Nat) : R) - 3 + d) = 0 + d from by push_cast; ring, e3]
      · rw [if_pos (by decide), show (((4 : Nat) : R) - 3 + d) = 1 + d from by push_cast; ring, e4]
      · rw [if_pos (by decide), show (((5 : Nat) : R) - 3 + d) = 2 + d from by push_cast; ring, e5]
      · rw [if_neg (by decide), show (((6 : Nat) : R) - 3 + d) = 3 + d from by push_cast; ring, e6, zero_div]
    · have hn : d < 0 := lt_of_le_of_ne (not_lt.mp hp) h0
      have e0 := out' (-3 + d) (by intro h; linarith) (.inr (by linarith))
      have e1 := in' (-2 + d) (by intro h; linarith) (by linarith) (by linarith)
      have e2 := in' (-1 + d) (by intro h; linarith) (by linarith) (by linarith)
      have e3 := in' (0 + d) (by intro h; linarith) (by linarith) (by linarith)
      have e4 := in' (1 + d) (by intro h; linarith) (by linarith) (by linarith)
      have e5 := in' (2 + d) (by intro h; linarith) (by linarith) (by linarith)
      have e6 := in' (3 + d) (by intro h; linarith) (by linarith) (by linarith)
      refine ⟨_, if_neg hp, fun i hi => ?_⟩
      have s6 : ((List.range 6).map (fun i : Nat => lz (((i + 1 : Nat) : R) - 3 + d))).sum =
          lz (-2 + d) + lz (-1 + d) + lz (0 + d) + lz (1 + d) + lz (2 + d) + lz (3 + d) := by
        rw [show List.range 6 = [0, 1, 2, 3, 4, 5] from rfl]
        simp only [List.map_cons, List.map_nil, List.sum_cons, List.sum_nil]
        push_cast
        norm_num
        ring
      unfold kernPy
      rw [hs, s6, e0, e1, e2, e3, e4, e5, e6, zero_add (lz (-2 + d))]
      interval_cases i
      · rw [if_neg (by decide), show (((0 : Nat) : R) - 3 + d) = -3 + d from by push_cast; ring, e0, zero_div]
      · rw [if_pos (by decide), show (((1 : Nat) : R) - 3 + d) = -2 + d from by push_cast; ring, e1]
      · rw [if_pos (by decide), show (((2 : Nat) : R) - 3 + d) = -1 + d from by push_cast; ring, e2]
      · rw [if_pos (by decide), show (((3 : Nat) : R) - 3 + d) = 0 + d from by push_cast; ring, e3]
      · rw [if_pos (by decide), show (((4 : Nat) : R) - 3 + d) = 1 + d from by push_cast; ring, e4]
      · rw [if_pos (by decide), show (((5 : Nat) : R) - 3 + d) = 2 + d from by push_cast; ring, e5]
      · rw [if_pos (by decide), show (((6 : Nat) : R) - 3 + d) = 3 + d from by push_cast; ring, e6]

end

end Verif.Psf
