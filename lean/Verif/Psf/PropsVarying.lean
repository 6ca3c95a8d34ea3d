import Verif.Psf.VaryingLemmas
import Mathlib.Algebra.Order.Ring.Rat
import Mathlib.Tactic.FieldSimp
import Mathlib.Tactic.Ring

/-!
# C118: PSFs fitted on a grid, and cached
-/

namespace Verif.Psf.Varying

variable {R Im S P : Type} [Field R]

/-- Example: "stamps" are positions, a fit finds two parameters, one of which depends on where it starts; a "spline" is a table. -/
def exF : Fitter Rat (Rat × Rat) (List Rat × List Rat × List (List Rat)) (List Rat) where
  stamp x y := .ok (x, y)
  fit im p0 := .ok ([im.1 + 10 * im.2], [im.1 + 10 * im.2, (p0.bind (·.head?)).getD (-1)])
  spline xs ys z := .ok (xs, ys, z)
  eval l x y := ((l.2.2[l.1.idxOf x]?).bind (·[l.2.1.idxOf y]?)).getD 0
  make p := .ok p

def exState : State Rat (List Rat × List Rat × List (List Rat)) := ⟨8, 6, 5, 4, none, true, none⟩

/-- The table interpolates. -/
theorem exF_interpolates : Interpolates exF := by
  intro xs ys z _ _ hx hy _ _
  refine ⟨(xs, ys, z), rfl, ?_⟩
  intro i j x y v h1 h2 h3
  obtain ⟨hi, rfl⟩ := List.getElem?_eq_some_iff.1 h1
  obtain ⟨hj, rfl⟩ := List.getElem?_eq_some_iff.1 h2
  have n1 : xs.Nodup := hx.imp (fun h => ne_of_lt h)
  have n2 : ys.Nodup := hy.imp (fun h => ne_of_lt h)
  simp only [exF, n1.idxOf_getElem, n2.idxOf_getElem, h3, Option.getD_some]

/-! ## The fit -/

/-- **C118**: at the nodes of the grid (evenly spaced over the image, including its edges) the parameters of the PSF are those fitted to the
PSF image there, starting from the parameters of the neighbouring node. -/
theorem C118_nodes [LinearOrder R] [IsStrictOrderedRing R] (F : Fitter R Im S P) (hF : Interpolates F) (s : State R S) (hW : 0 < s.W)
    (hH : 0 < s.H) (hx : 4 ≤ s.nx) (hy : 4 ≤ s.ny) (hs : s.splines = none) (g : Nat → Nat → List R × List R) (hg : Fits F s g) (N : Nat)
    (hN : ∀ j i, (g j i).2.length = N) (j i : Nat) (hj : j < s.ny) (hi : i < s.nx) :
    (paramsAt F s (i * s.W / ((s.nx : R) - 1)) (j * s.H / ((s.ny : R) - 1))).2 = .ok (g j i).2 := by
  obtain ⟨l, e, _, h⟩ := fit_ok F hF s hW hH hx hy hs g hg N hN
  simp only [paramsAt, e, Except.map]
  rw [h j i hj hi]

/-- The fits of the example. -/
def exG (j i : Nat) : List Rat × List Rat :=
  ([2 * i + 20 * j], [2 * i + 20 * j, if i = 0 then (if j = 0 then -1 else 20 * (j - 1)) else 2 * (i - 1) + 20 * j])

example : Fits exF exState exG ∧ ∀ j i, (exG j i).2.length = 2 := by
  refine ⟨?_, fun _ _ => rfl⟩
  have : ∀ j : Nat, j < 4 → ∀ i : Nat, i < 5 → exF.fit ((i : Rat) * 8 / (5 - 1), (j : Rat) * 6 / (4 - 1)) (start exG j i) = .ok (exG j i) := by decide +kernel
  intro j hj i hi
  exact ⟨_, rfl, this j hj i hi⟩
example : (paramsAt exF exState 4 6).2 = .ok [64, 62] := by decide +kernel
example : (paramsAt exF exState 0 6).2 = .ok [60, 40] := by decide +kernel

/-- **C118**: the order in which positions are asked for does not matter, although the fit is only done when first needed. -/
theorem C118_history (F : Fitter R Im S P) (s : State R S) (qs : List (R × R)) (x y : R) :
    (psfAt F (asked F s qs) x y).2 = (psfAt F s x y).2 := by
  induction qs generalizing s with
  | nil => rfl
  | cons q qs ih => simp only [asked]; rw [ih, psfAt_again]

example : (asked exF exState [(1, 1), (2, 2)]).splines.isSome = true := by decide +kernel

/-- **C118**: splines restored from the saved data are those of the fit. -/
theorem C118_saved (F : Fitter R Im S P) (s : State R S) (hsave : s.save = true) (hs : s.splines = none) (l : List S)
    (h : (ensureFit F s).2 = .ok l) (x y : R) :
    (psfAt F (ensureSplines F { s with splinedata := (ensureFit F s).1.splinedata }).1 x y).2 = (psfAt F s x y).2 := by
  have key : ∀ t, ensureFit F s = (t, .ok l) →
      (ensureSplines F { s with splinedata := t.splinedata }).1.splines = some l := by
    intro t ht
    unfold ensureFit at ht
    rw [hs] at ht
    simp only [hsave, if_true] at ht
    split at ht
    · simp at ht
    · split at ht
      · simp at ht
      · rename_i g _ _ l' e
        obtain ⟨rfl, h2⟩ := Prod.mk.injEq .. ▸ ht
        injection h2 with h2
        subst h2
        simp only [ensureSplines, hs, e]
  have e1 := key (ensureFit F s).1 (by rw [← h])
  simp only [psfAt, paramsAt, h]
  generalize (ensureSplines F { s with splinedata := (ensureFit F s).1.splinedata }).1 = t at e1
  have e2 : (ensureFit F t).2 = .ok l := by unfold ensureFit; rw [e1]
  rw [e2]

example : (ensureSplines exF { exState with splinedata := (ensureFit exF exState).1.splinedata }).1.splines.isSome = true := by
  decide +kernel

/-! ## The cache -/

/-- **C118**: whatever was asked before (and however often it was pickled), a caching PSF returns the PSF at the centre of the cell of the
position. -/
theorem C118_cached [DecidableEq R] (F : Fitter R Im S P) (trunc : R → Int) (sizeOf : P → Nat) (s : State R S) (rounding : Int)
    (as : List (Act R)) (x y : R) :
    (cachedAt F trunc sizeOf (acts F trunc sizeOf (mkCaching s rounding) as) x y).2 =
      (psfAt F s (cell trunc rounding x) (cell trunc rounding y)).2 := by
  have all : ∀ as c, Began F s rounding c → Began F s rounding (acts F trunc sizeOf c as) := by
    intro as
    induction as with
    | nil => intro c b; exact b
    | cons a as ih =>
      intro c b
      simp only [acts]
      apply ih
      cases a with
      | ask x y => exact (cached_began F trunc sizeOf s rounding c b x y).2
      | pickle => exact ⟨b.base, by simp [act, Cache.clear], b.maxsize, b.rounding⟩
  exact (cached_began F trunc sizeOf s rounding _
    (all as _ ⟨fun _ _ => rfl, by simp [mkCaching, Cache.empty], rfl, rfl⟩) x y).1

/-- `int` of the example. -/
def exTrunc (x : Rat) : Int := x.num.tdiv x.den

example : (cachedAt exF exTrunc (fun _ => 0) (acts exF exTrunc (fun _ => 0) (mkCaching exState 4) [.ask 1 1, .pickle, .ask 2 7]) 3 6).2 =
    (psfAt exF exState 2 6).2 := by decide +kernel
example : (psfAt exF exState 2 6).2 = .ok [62, 60] := by decide +kernel

/-- **C118**: for positions that are not negative the centre of the cell is at most half a cell away, and positions with the same
quotient share it. -/
theorem C118_cell [LinearOrder R] [IsStrictOrderedRing R] (trunc : R → Int) (ht : ∀ x : R, 0 ≤ x → (trunc x : R) ≤ x ∧ x < trunc x + 1)
    (rounding : Int) (hr : 0 < rounding) (x : R) (hx : 0 ≤ x) :
    |cell trunc rounding x - x| ≤ (rounding + 1) / 2 ∧ ∃ k : Int, (k * rounding : R) ≤ x ∧ x < (k + 1) * rounding ∧
      ∀ x' : R, 0 ≤ x' → (cell trunc rounding x' = cell trunc rounding x ↔ (k * rounding : R) ≤ x' ∧ x' < (k + 1) * rounding) := by
  have hr' : (0 : R) < rounding := by exact_mod_cast hr
  have hbound : ∀ z : R, 0 ≤ z → ((trunc (z / rounding) : R) * rounding ≤ z ∧ z < (trunc (z / rounding) + 1) * rounding) := by
    intro z hz
    have h := ht (z / rounding) (div_nonneg hz hr'.le)
    exact ⟨(le_div_iff₀ hr').1 h.1, (div_lt_iff₀ hr').1 h.2⟩
  have hb := hbound x hx
  have h2 : (2 : R) * ((rounding / 2 : Int) : R) ≤ rounding ∧ (rounding : R) - 1 ≤ 2 * ((rounding / 2 : Int) : R) := by
    constructor
    · exact_mod_cast (show 2 * (rounding / 2) ≤ rounding by omega)
    · have : rounding - 1 ≤ 2 * (rounding / 2) := by omega
      exact_mod_cast this
  refine ⟨?_, trunc (x / rounding), hb.1, hb.2, ?_⟩
  · simp only [cell]
    push_cast
    rw [abs_le]
    constructor <;> linarith [hb.1, hb.2, h2.1, h2.2]
  · intro x' hx'
    have hb' := hbound x' hx'
    constructor
    · intro h
      simp only [cell] at h
      have h' : trunc (x' / rounding) * rounding + rounding / 2 = trunc (x / rounding) * rounding + rounding / 2 := by exact_mod_cast h
      have h'' : trunc (x' / rounding) = trunc (x / rounding) := by
        have : trunc (x' / rounding) * rounding = trunc (x / rounding) * rounding := by omega
        exact Int.eq_of_mul_eq_mul_right (by omega) this
      rw [← h'']
      exact hb'
    · intro h
      have a1 : trunc (x' / rounding) < trunc (x / rounding) + 1 := by
        have : (trunc (x' / rounding) : R) * rounding < (trunc (x / rounding) + 1) * rounding := lt_of_le_of_lt hb'.1 h.2
        have := lt_of_mul_lt_mul_right this hr'.le
        exact_mod_cast this
      have a2 : trunc (x / rounding) < trunc (x' / rounding) + 1 := by
        have : (trunc (x / rounding) : R) * rounding < (trunc (x' / rounding) + 1) * rounding := lt_of_le_of_lt h.1 hb'.2
        have := lt_of_mul_lt_mul_right this hr'.le
        exact_mod_cast this
      simp only [cell, show trunc (x' / rounding) = trunc (x / rounding) by omega]

example : cell exTrunc 100 (1234 : Rat) = 1250 := by decide +kernel

/-- The negation for positions off the image: just left of it the centre of the cell is up to one and a half cells away, in the first cell
of the image. -/
theorem C118_cell_false : ¬ ∀ (rounding : Int) (x : Rat), 0 < rounding → |cell exTrunc rounding x - x| ≤ (rounding + 1) / 2 := by
  intro h
  have := h 100 (-99) (by decide)
  revert this
  decide +kernel

/-! ## fromPsfEx -/

/-- **C118**: a caching PSF made from a PSF that has been fitted agrees with it at the centres of the cells. -/
theorem C118_from_partial [DecidableEq R] (F : Fitter R Im S P) (trunc : R → Int) (sizeOf : P → Nat) (s : State R S) (rounding : Int)
    (hs : s.splines ≠ none) (as : List (Act R)) (x y : R) :
    let r := fromPsfEx F s rounding
    (cachedAt r.1 trunc sizeOf (acts r.1 trunc sizeOf r.2 as) x y).2 =
      (psfAt F s (cell trunc rounding x) (cell trunc rounding y)).2 := by
  intro r
  have := C118_cached r.1 trunc sizeOf { s with save := false } rounding as x y
  refine Eq.trans this ?_
  cases hl : s.splines with
  | none => exact absurd hl hs
  | some l =>
    simp only [psfAt, paramsAt, ensureFit, hl]
    rfl

example : (fromPsfEx exF (asked exF exState [(0, 0)]) 4).2.base.splines.isSome = true := by decide +kernel

/-- One made from a PSF that has not been fitted yet never works: the model of the PSF is not copied. -/
theorem C118_from_false [DecidableEq R] (F : Fitter R Im S P) (trunc : R → Int) (sizeOf : P → Nat) (s : State R S) (rounding : Int)
    (hs : s.splines = none) (hx : 0 < s.nx) (hy : 0 < s.ny) (as : List (Act R)) (x y : R) :
    let r := fromPsfEx F s rounding
    (cachedAt r.1 trunc sizeOf (acts r.1 trunc sizeOf r.2 as) x y).2 = .error .attribute := by
  intro r
  have := C118_cached r.1 trunc sizeOf { s with save := false } rounding as x y
  refine Eq.trans this ?_
  obtain ⟨a, ha⟩ : ∃ a, s.nx = a + 1 := ⟨s.nx - 1, by omega⟩
  obtain ⟨b, hb⟩ : ∃ b, s.ny = b + 1 := ⟨s.ny - 1, by omega⟩
  have hg : ∀ X Y : R, fitGrid r.1 (linspace X s.nx) none (linspace Y s.ny) = .error .attribute := by
    intro X Y
    rw [ha, hb]
    simp only [linspace, List.range_succ_eq_map, List.map_cons, fitGrid, fitRow]
    rfl
  simp only [psfAt, paramsAt, ensureFit, hs, hg]
  rfl

example : (cachedAt (fromPsfEx exF exState 4).1 exTrunc (fun _ => 0) (fromPsfEx exF exState 4).2 3 6).2 = .error .attribute := by
  decide +kernel

end Verif.Psf.Varying
