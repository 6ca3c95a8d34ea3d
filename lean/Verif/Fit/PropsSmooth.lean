import Verif.Fit.Smooth
import Mathlib.Tactic.IntervalCases

/-!
# C154: optimizing a tractor whose models are not linear

Spec: the direction in which `optimize` moves the parameters is one in which the log-probability increases, unless the tractor is at a stationary point;
a short enough first step is taken and improves the fit; the fit never gets worse.
-/

namespace Verif.Fit

open Verif Params Patches Engine Finset

variable {M : Type}

/-- **C154, direction.** A tractor with any models that are differentiable at the present values of the thawed parameters, and whose reported
derivatives are right: the update direction of `optimize` is one in which the log-probability does not fall; it rises, unless its slope is zero in all
directions.  No direction is only returned if the slope is zero in all directions. -/
theorem C154_ascent (S : Solver ℝ) (hsq : Lsq.SqrtOK S.sqrt) (hS : Lsq.Solves S.lsqr) (W : World ℝ M)
    (hooks : Tractor ℝ M → Nat → Nat → Option (List (Deriv ℝ))) (o : Opts) (T : Tractor ℝ M) (D : Nat → Nat → Nat → Nat → ℝ) (hr : Ready W hooks T)
    (hl : Smooth W hooks T D) (ho : Options S o T D) :
    (direction S W hooks o T = (T, .ok none) ∧ Stationary W T) ∨
    ∃ X g, direction S W hooks o T = (T, .ok (some X)) ∧ X.length = numberOfParams T.par ∧ Slope W T X g ∧ 0 ≤ g ∧ (g = 0 → Stationary W T) := by
  rcases direction_smooth S hsq hS W hooks o T D hr hl ho with h | ⟨X, g, h1, h2, h3, h4, h5, -⟩
  · exact .inl h
  · exact .inr ⟨X, g, h1, h2, h4, h3, h5⟩

/-- One call, given the direction. -/
theorem optimize_search (S : Solver ℝ) (W : World ℝ M) (hooks : Tractor ℝ M → Nat → Nat → Option (List (Deriv ℝ))) (o : Opts) (T : Tractor ℝ M)
    (X : List ℝ) (hX : X.length = numberOfParams T.par) (hd : direction S W hooks o T = (T, .ok (some X))) (f : ℝ → ℝ)
    (hf : ∀ t, logProb W (along T X t) = .ok (.fin (f t))) (alphas : List ℝ) :
    ∃ r a, optimize S W hooks o alphas T = (along T X a, .ok r) ∧ r.1 = .fin (f a - f 0) ∧ (a = 0 ∨ f 0 < f a) ∧
      ∀ b rest, alphas = b :: rest → f b ≤ f a := by
  have h0 := hf 0
  rw [along_zero T X hX] at h0
  cases X with
  | nil =>
    have hnil : ∀ a, along T [] a = T := by
      intro a
      have : along T [] a = along T [] 0 := rfl
      rw [this, along_zero T [] hX]
    have hff : ∀ a, f a = f 0 := by
      intro a
      have := hf a
      rw [hnil, h0] at this
      injection this with this
      injection this with this
      exact this.symm
    refine ⟨(.fin 0, 0), 0, ?_, by rw [sub_self], .inl rfl, fun b _ _ => le_of_eq (hff b)⟩
    unfold optimize
    rw [hd, hnil]
  | cons x0 X0 =>
    generalize hXX : x0 :: X0 = X at hX hd hf h0
    have hmoved : ∀ a : ℝ, withPar T (Opt.moved T.par X a) = along T X a := by
      intro a
      unfold along setAll Opt.moved
      rw [List.zipWith_map_right]
    have hlm : ∀ a : ℝ, lnp W T (Opt.moved T.par X a) = .fin (f a) := by
      intro a
      unfold lnp
      rw [hmoved, hf]
    have hl0 : lnp W T T.par = .fin (f 0) := by
      unfold lnp
      rw [withPar_self, h0]
    have hopt : ∀ t' d a, Opt.tryUpdates (lnp W T) T.par X alphas = (t', .ok (d, a)) → optimize S W hooks o alphas T = (withPar T t', .ok (d, a)) := by
      intro t' d a h
      unfold optimize
      rw [hd, ← hXX]
      dsimp only
      rw [hXX, h]
    obtain ⟨t', d, a, pre, post, e1, e2, e3, e4, e5⟩ := Opt.C33_tryUpdates (lnp W T) T.par X alphas hX
    have hfirst : ∀ v : ℝ, lnp W T t' = .fin v → ∀ b rest, alphas = b :: rest → f b ≤ v := by
      intro v hv b rest hab
      by_contra hlt
      push Not at hlt
      cases pre with
      | nil =>
        rcases e5 with rfl | ⟨b', post', rfl, hb⟩
        · rw [hab] at e2; cases e2
        · rw [hab, List.nil_append] at e2
          injection e2 with e2 _
          subst e2
          rw [hlm b, hv] at hb
          rcases hb with hb | hb
          · cases hb
          · simp only [Num.sub, Num.add, Num.neg, Num.lt, decide_eq_true_eq] at hb
            linarith
      | cons p pre =>
        rw [hab, List.cons_append] at e2
        injection e2 with e2 _
        subst e2
        have := (e4 b (by simp)).2
        rw [hlm b, hv] at this
        simp only [Num.lt, decide_eq_false_iff_not, not_lt] at this
        linarith
    rcases e3 with ⟨rfl, rfl, rfl⟩ | ⟨-, rfl, g1, -, rfl⟩
    · refine ⟨_, 0, by rw [hopt _ _ _ e1, withPar_self, along_zero T X hX], by rw [sub_self], .inl rfl, hfirst _ hl0⟩
    · refine ⟨_, a, by rw [hopt _ _ _ e1, hmoved], ?_, .inr ?_, hfirst _ (hlm a)⟩
      · rw [hlm a, hl0]
        simp only [Num.sub, Num.add, Num.neg, sub_eq_add_neg]
      · rw [hlm a, hl0] at g1
        simpa [Num.lt] using g1

/-- **C154, one call.** For such a tractor and any list of step fractions, `optimize` ends normally, changes only values of thawed parameters, does not
lower the log-probability, and returns its change.  If the slope of the log-probability is not zero in all directions there is a δ such that with any
list that begins with a fraction between 0 and δ the log-probability rises. -/
theorem C154_improves (S : Solver ℝ) (hsq : Lsq.SqrtOK S.sqrt) (hS : Lsq.Solves S.lsqr) (W : World ℝ M)
    (hooks : Tractor ℝ M → Nat → Nat → Option (List (Deriv ℝ))) (o : Opts) (T : Tractor ℝ M) (D : Nat → Nat → Nat → Nat → ℝ) (hr : Ready W hooks T)
    (hl : Smooth W hooks T D) (ho : Options S o T D) :
    ∃ δ > 0, ∀ alphas : List ℝ, ∃ T' r p L0 L1, optimize S W hooks o alphas T = (T', .ok r) ∧ p.length = numberOfParams T.par ∧ T' = setAll T p ∧
      logProb W T = .ok (.fin L0) ∧ logProb W T' = .ok (.fin L1) ∧ r.1 = .fin (L1 - L0) ∧ L0 ≤ L1 ∧
      (¬ Stationary W T → ∀ a rest, alphas = a :: rest → 0 < a → a < δ → L0 < L1) := by
  rcases direction_smooth S hsq hS W hooks o T D hr hl ho with ⟨h1, h2⟩ | ⟨X, g, h1, h2, h3, h4, h5, -⟩
  · refine ⟨1, one_pos, fun alphas => ?_⟩
    obtain ⟨f, f1, -⟩ := h2 (getParams T.par) (getParams_length _)
    have f0 := f1 0
    rw [along_zero T _ (getParams_length _)] at f0
    refine ⟨T, (.fin 0, 0), getParams T.par, f 0, f 0, ?_, getParams_length _, (setAll_self T).symm, f0, f0, by rw [sub_self], le_refl _, fun h => absurd h2 h⟩
    unfold optimize
    rw [h1]
  · obtain ⟨f, f1, f2⟩ := h4
    have f0 := f1 0
    rw [along_zero T X h2] at f0
    have hmain : ∀ (δ : ℝ), (¬ Stationary W T → ∀ a, 0 < a → a < δ → f 0 < f a) → ∀ alphas : List ℝ, ∃ T' r p L0 L1,
        optimize S W hooks o alphas T = (T', .ok r) ∧ p.length = numberOfParams T.par ∧ T' = setAll T p ∧ logProb W T = .ok (.fin L0) ∧
        logProb W T' = .ok (.fin L1) ∧ r.1 = .fin (L1 - L0) ∧ L0 ≤ L1 ∧ (¬ Stationary W T → ∀ a rest, alphas = a :: rest → 0 < a → a < δ → L0 < L1) := by
      intro δ hδ alphas
      obtain ⟨r, a, g1, g2, g3, g4⟩ := optimize_search S W hooks o T X h2 h1 f f1 alphas
      refine ⟨along T X a, r, _, f 0, f a, g1, ?_, rfl, f0, f1 a, g2, ?_, ?_⟩
      · rw [List.length_zipWith, getParams_length, List.length_map, h2, Nat.min_self]
      · rcases g3 with rfl | g3
        · exact le_refl _
        · exact le_of_lt g3
      · intro hs b rest hab hb1 hb2
        exact lt_of_lt_of_le (hδ hs b hb1 hb2) (g4 b rest hab)
    by_cases hs : Stationary W T
    · exact ⟨1, one_pos, hmain 1 (fun h => absurd hs h)⟩
    · obtain ⟨δ, hδ, hb⟩ := slope_increases f g (lt_of_le_of_ne h3 (fun h => hs (h5 h.symm))) f2
      exact ⟨δ, hδ, hmain δ (fun _ => hb)⟩

/-- **C154, at a stationary point.** If the slope is zero in all directions, and the changes of the models by different changes of the parameters are
different, `optimize` with any list of step fractions leaves the tractor as it is and returns 0. -/
theorem C154_fixed (S : Solver ℝ) (hsq : Lsq.SqrtOK S.sqrt) (hS : Lsq.Solves S.lsqr) (W : World ℝ M)
    (hooks : Tractor ℝ M → Nat → Nat → Option (List (Deriv ℝ))) (o : Opts) (T : Tractor ℝ M) (D : Nat → Nat → Nat → Nat → ℝ) (hr : Ready W hooks T)
    (hl : Smooth W hooks T D) (ho : Options S o T D) (hst : Stationary W T) (hi : Independent T D) (alphas : List ℝ) :
    ∃ r, optimize S W hooks o alphas T = (T, .ok r) ∧ r.1 = .fin 0 := by
  rcases direction_smooth S hsq hS W hooks o T D hr hl ho with ⟨h1, h2⟩ | ⟨X, g, h1, h2, h3, h4, h5, h6⟩
  · refine ⟨(.fin 0, 0), ?_, rfl⟩
    unfold optimize
    rw [h1]
  · have h0 := h6 (h4.unique (hst X h2)) hi
    obtain ⟨f, f1, f2⟩ := h4
    have hX : ∀ a, along T X a = T := by
      intro a
      have e : X.map (a * ·) = X.map ((0 : ℝ) * ·) := by
        apply List.ext_getElem
        · simp
        · intro i i1 i2
          have := h0 i
          rw [List.length_map] at i1
          rw [List.getD_eq_getElem?_getD, List.getElem?_eq_getElem i1, Option.getD_some] at this
          simp [this]
      unfold along
      rw [e]
      exact along_zero T X h2
    have hff : ∀ a, f a = f 0 := by
      intro a
      have a1 := f1 a
      have a2 := f1 0
      rw [hX] at a1 a2
      rw [a1] at a2
      injection a2 with a2
      injection a2
    obtain ⟨r, a, g1, g2, -⟩ := optimize_search S W hooks o T X h2 h1 f f1 alphas
    exact ⟨r, by rw [g1, hX], by rw [g2, hff, sub_self]⟩

/-! Example: an image with one pixel, 9, and inverse error 1.  A source that is rendered as the square of its parameter; a sky level that is the square
of its parameter. -/

noncomputable def exIR (s : ℝ) : Image ℝ :=
  ⟨0, .cons ["sky"] true (.scalar ⟨"S", s, none, none, none, 1 / 2, none⟩) .nil, ⟨1, 1, fun _ _ => 9⟩, ⟨1, 1, fun _ _ => 1⟩⟩

def exParR (a : ℝ) : Par ℝ := .plist ⟨[⟨["a"], true, a⟩], [none], [none], [none], none, []⟩

def exSkyR (im : Image ℝ) : ℝ :=
  match im.par with
  | .cons _ _ (.scalar s) _ => s.val
  | _ => 0

def exValR (s : Source ℝ) : ℝ := (getParams s.par).getD 0 0

noncomputable def exWorldR : World ℝ Unit where
  render s _ _ := some ⟨0, 0, some ⟨1, 1, fun _ _ => exValR s ^ 2⟩⟩
  sky im := .constant (exSkyR im ^ 2)
  srcDerivs s _ _ := [some ⟨0, 0, some ⟨1, 1, fun _ _ => 2 * exValR s⟩⟩]

/-- The parameter of the source thawed. -/
noncomputable def exQ (a : ℝ) : Tractor ℝ Unit := ⟨true, [(false, exIR 0)], true, [(true, some ⟨10, exParR a⟩)], none, false⟩

def exHooksR : Tractor ℝ Unit → Nat → Nat → Option (List (Deriv ℝ)) := fun _ _ _ => none

noncomputable def exDQ (a : ℝ) (_k _i _y _x : Nat) : ℝ := 2 * a

theorem exSetQ (a a' : ℝ) : setAll (exQ a) [a'] = exQ a' := rfl

theorem exNQ (a : ℝ) : numberOfParams (exQ a).par = 1 := rfl

theorem exListQ (p : List ℝ) (hp : p.length = 1) : ∃ a, p = [a] := by
  match p, hp with
  | [a], _ => exact ⟨a, rfl⟩

theorem exAlongQ (a v t : ℝ) : along (exQ a) [v] t = exQ (a + t * v) := rfl

theorem exImQ (a : ℝ) (i : Nat) (b : Bool) (im : Image ℝ) (h : (exQ a).images[i]? = some (b, im)) : i = 0 ∧ b = false ∧ im = exIR 0 := by
  match i, h with
  | 0, h => simp [exQ] at h; exact ⟨rfl, h.1, h.2.symm⟩
  | n + 1, h => simp [exQ] at h

theorem exModelQ (a : ℝ) : ∃ A, getModelImage exWorldR (exQ a) (exIR 0) none true = .ok A ∧ A.px 0 0 = a ^ 2 := by
  obtain ⟨-, h⟩ := C29_model_image exWorldR (exQ a) (exIR 0) (by intro masks h; cases h) none
  obtain ⟨r, g1, -, -, g2⟩ := h [some ⟨0, 0, some ⟨1, 1, fun _ _ => a ^ 2⟩⟩] (.cons ⟨none, .nomasks rfl, rfl⟩ .nil) true
  refine ⟨r, g1, ?_⟩
  rw [g2 0 0 Nat.one_pos Nat.one_pos]
  simp [exWorldR, exIR, exSkyR, Sky.at, patchAt, Patch.at]

theorem exPixelQ (a : ℝ) : pixel exWorldR (exQ a) 0 0 0 = a ^ 2 := by
  obtain ⟨A, h1, h2⟩ := exModelQ a
  unfold pixel
  rw [show (exQ a).images[0]? = some (false, exIR 0) from rfl]
  simp only [h1]
  exact h2

theorem exReadyQ (a : ℝ) : Ready exWorldR exHooksR (exQ a) := by
  refine ⟨fun x _ masks h => (by cases h), ?_, ?_, ?_, ?_, ?_⟩
  · intro x hx
    simp only [exQ, List.mem_cons, List.not_mem_nil, or_false] at hx
    subst hx
    exact ⟨rfl, rfl, by show 1 * 1 < 2 ^ 31; norm_num⟩
  · simp [exQ, Tractor.par, PriorsOK, PriorsOKSubs, imagesSubs, catalogSubs, exIR, exParR]
  · intro i x _ _ y _ _ l hl
    cases hl
  · intro x hx h
    simp only [exQ, List.mem_cons, List.not_mem_nil, or_false] at hx
    subst hx
    cases h
  · intro src hs x _ ds hds
    have : src = ⟨10, exParR a⟩ := by simpa [exQ] using hs
    subst this
    obtain ⟨mask, -, rfl⟩ := hds
    split
    · simp
    · exact Nat.le_refl 1

theorem exLocQ (a : ℝ) (k o j : Nat) (h : Located (exQ a) k o j) : o = 1 ∧ k = 0 ∧ j = 0 := by
  obtain ⟨n, h1, h2, h3⟩ := h
  have hb : blocks (exQ a) = [0, 1] := rfl
  rw [hb] at h1 h3
  match o with
  | 0 => simp at h1; omega
  | 1 => simp at h1 h3; omega
  | o + 2 => simp at h1

theorem exSmoothQ (a : ℝ) : Smooth exWorldR exHooksR (exQ a) (exDQ a) := by
  refine ⟨?_, ?_, ?_, ?_⟩
  · intro X hX i b im y x hi hy hx
    obtain ⟨v, rfl⟩ := exListQ X hX
    obtain ⟨rfl, rfl, rfl⟩ := exImQ a i b im hi
    have hy : y < 1 := hy
    have hx : x < 1 := hx
    obtain rfl : y = 0 := by omega
    obtain rfl : x = 0 := by omega
    have : (fun t => pixel exWorldR (along (exQ a) [v] t) 0 0 0) = fun t => (a + t * v) ^ 2 := by
      funext t
      rw [exAlongQ, exPixelQ]
    rw [this, exNQ]
    have h := (((hasDerivAt_id (0 : ℝ)).mul_const v).const_add a).pow 2
    refine (h.congr_deriv ?_).congr_of_eventuallyEq (Filter.Eventually.of_forall (fun t => rfl))
    simp [exDQ]
    ring
  · intro k o' j b s hloc hs i c im hi ds hds y x hy hx
    obtain ⟨h1, rfl, rfl⟩ := exLocQ a _ _ _ hloc
    obtain ⟨rfl, rfl, rfl⟩ := exImQ a i c im hi
    obtain rfl : o' = 0 := by simp [exQ] at h1; exact h1
    have hy : y < 1 := hy
    have hx : x < 1 := hx
    obtain rfl : y = 0 := by omega
    obtain rfl : x = 0 := by omega
    simp [exQ] at hs
    obtain ⟨-, rfl⟩ := hs
    obtain ⟨mask, -, rfl⟩ := hds
    rw [if_neg (by simp [exQ])]
    simp [exWorldR, patchAt, Patch.at, exDQ, exValR]
    rfl
  · intro k o j b im hloc ho
    obtain ⟨rfl, -, -⟩ := exLocQ a _ _ _ hloc
    simp [exQ] at ho
  · intro k o j b im hloc ho
    obtain ⟨rfl, -, -⟩ := exLocQ a _ _ _ hloc
    simp [exQ] at ho

theorem exOptionsQ (S : Solver ℝ) (a : ℝ) (ha : a ≠ 0) : Options S ⟨false, true, true⟩ (exQ a) (exDQ a) := by
  refine ⟨.inl rfl, by simp, fun _ _ => ?_⟩
  rw [exNQ]
  have hw : widths ⟨false, true, true⟩ (exQ a) 0 = [] := rfl
  rw [effect, hw]
  simp [exQ, exIR, List.zipIdx, Finset.sum_range_succ, exDQ, ha]

/-- The slope at `a` is `(9 - a²) 2 a v`. -/
theorem exSlopeQ (a v : ℝ) : Slope exWorldR (exQ a) [v] ((9 - a ^ 2) * (2 * a) * v) := by
  refine ⟨fun t => -(1 / 2) * (9 - (a + t * v) ^ 2) ^ 2, fun t => ?_, ?_⟩
  · rw [exAlongQ]
    have h := likelihood_pixel exWorldR _ (exReadyQ (a + t * v)).mask (exReadyQ (a + t * v)).shape [a + t * v]
    rw [exSetQ] at h
    have hp : getLogPrior (exQ (a + t * v)).par = .ok 0 := by
      simp [exQ, Tractor.par, getLogPrior, getLogPriorSubs, imagesSubs, catalogSubs, exIR, exParR, gaussianLogPrior, gaussianChisq, Except.map]
    unfold logProb
    rw [hp, h]
    have : ∑ i ∈ range (exQ (a + t * v)).images.length, residual (exQ (a + t * v)) (pixel exWorldR (exQ (a + t * v))) i = (9 - (a + t * v) ^ 2) ^ 2 := by
      have h1 : (exQ (a + t * v)).images.length = 1 := rfl
      rw [h1, sum_range_one, residual]
      have h2 : (exQ (a + t * v)).images[0]? = some (false, exIR 0) := rfl
      rw [h2]
      dsimp only
      have h3 : (exIR 0).data.h = 1 := rfl
      have h4 : (exIR 0).data.w = 1 := rfl
      rw [h3, h4, sum_range_one, sum_range_one, exPixelQ]
      simp [exIR]
    rw [this]
    simp [getLogProb, Except.map, Num.add, Num.isNan]
  · have h := ((((((hasDerivAt_id (0 : ℝ)).mul_const v).const_add a).pow 2).const_sub 9).pow 2).const_mul (-(1 / 2))
    refine (h.congr_deriv ?_).congr_of_eventuallyEq (Filter.Eventually.of_forall (fun t => rfl))
    simp
    ring

/-- From 1 a short step improves the fit. -/
example : ∃ (lsqr : Lsq.Problem ℝ → List ℝ), ∃ δ > 0, ∀ a rest, 0 < a → a < δ → ∃ T' r L0 L1,
    optimize ⟨id, 0, lsqr⟩ exWorldR exHooksR ⟨false, true, true⟩ (a :: rest) (exQ 1) = (T', .ok r) ∧
    logProb exWorldR (exQ 1) = .ok (.fin L0) ∧ logProb exWorldR T' = .ok (.fin L1) ∧ L0 < L1 := by
  obtain ⟨lsqr, hl⟩ := Lsq.solver_exists (R := ℝ)
  obtain ⟨δ, hδ, h⟩ := C154_improves ⟨id, 0, lsqr⟩ (fun x hx => hx) hl exWorldR exHooksR ⟨false, true, true⟩ (exQ 1) (exDQ 1) (exReadyQ 1) (exSmoothQ 1)
    (exOptionsQ _ 1 one_ne_zero)
  refine ⟨lsqr, δ, hδ, fun a rest h1 h2 => ?_⟩
  obtain ⟨T', r, p, L0, L1, g1, -, -, g4, g5, -, -, g8⟩ := h (a :: rest)
  refine ⟨T', r, L0, L1, g1, g4, g5, g8 (fun hs => ?_) a rest rfl h1 h2⟩
  have := (exSlopeQ 1 1).unique (hs [1] rfl)
  norm_num at this

/-- And the direction is upwards. -/
example : ∃ (lsqr : Lsq.Problem ℝ → List ℝ) (X : List ℝ) (g : ℝ), direction ⟨id, 0, lsqr⟩ exWorldR exHooksR ⟨false, true, true⟩ (exQ 1) =
    (exQ 1, .ok (some X)) ∧ Slope exWorldR (exQ 1) X g ∧ 0 < g := by
  obtain ⟨lsqr, hl⟩ := Lsq.solver_exists (R := ℝ)
  have hns : ¬ Stationary exWorldR (exQ 1) := fun hs => by
    have := (exSlopeQ 1 1).unique (hs [1] rfl)
    norm_num at this
  rcases C154_ascent ⟨id, 0, lsqr⟩ (fun x hx => hx) hl exWorldR exHooksR ⟨false, true, true⟩ (exQ 1) (exDQ 1) (exReadyQ 1) (exSmoothQ 1)
    (exOptionsQ _ 1 one_ne_zero) with ⟨-, hs⟩ | ⟨X, g, h1, -, h3, h4, h5⟩
  · exact absurd hs hns
  · exact ⟨lsqr, X, g, h1, h3, lt_of_le_of_ne h4 (fun h => hns (h5 h.symm))⟩

/-- At 3 the fit is exact and stays. -/
example : ∃ (lsqr : Lsq.Problem ℝ → List ℝ) (r : Num ℝ × ℝ), optimize ⟨id, 0, lsqr⟩ exWorldR exHooksR ⟨false, true, true⟩ [1 / 4, 1] (exQ 3) =
    (exQ 3, .ok r) ∧ r.1 = .fin 0 := by
  obtain ⟨lsqr, hl⟩ := Lsq.solver_exists (R := ℝ)
  obtain ⟨r, h⟩ := C154_fixed ⟨id, 0, lsqr⟩ (fun x hx => hx) hl exWorldR exHooksR ⟨false, true, true⟩ (exQ 3) (exDQ 3) (exReadyQ 3) (exSmoothQ 3)
    (exOptionsQ _ 3 three_ne_zero) (fun Y hY => by
      obtain ⟨v, rfl⟩ := exListQ Y hY
      have := exSlopeQ 3 v
      norm_num at this
      exact this) (fun X hX h k => by
      obtain ⟨v, rfl⟩ := exListQ X hX
      have := h 0 false (exIR 0) 0 0 rfl Nat.one_pos Nat.one_pos one_ne_zero
      rw [exNQ, sum_range_one] at this
      simp [exDQ] at this
      subst this
      cases k <;> simp) [1 / 4, 1]
  exact ⟨lsqr, r, h⟩

/-! The sky level thawed: its derivative is computed from a difference with step 1/2. -/

noncomputable def exK (s : ℝ) : Tractor ℝ Unit := ⟨true, [(true, exIR s)], true, [], none, false⟩

theorem exSetK (s s' : ℝ) : setAll (exK s) [s'] = exK s' := rfl

theorem exNK (s : ℝ) : numberOfParams (exK s).par = 1 := rfl

theorem exAlongK (s v t : ℝ) : along (exK s) [v] t = exK (s + t * v) := rfl

theorem exModelK (s : ℝ) : ∃ A, getModelImage exWorldR (exK s) (exIR s) none true = .ok A ∧ A.px 0 0 = s ^ 2 := by
  obtain ⟨-, h⟩ := C29_model_image exWorldR (exK s) (exIR s) (by intro masks h; cases h) none
  obtain ⟨r, g1, -, -, g2⟩ := h [] .nil true
  refine ⟨r, g1, ?_⟩
  rw [g2 0 0 Nat.one_pos Nat.one_pos]
  simp [exWorldR, exIR, exSkyR, Sky.at]

theorem exPixelK (s : ℝ) : pixel exWorldR (exK s) 0 0 0 = s ^ 2 := by
  obtain ⟨A, h1, h2⟩ := exModelK s
  unfold pixel
  rw [show (exK s).images[0]? = some (true, exIR s) from rfl]
  simp only [h1]
  exact h2

theorem exImK (s : ℝ) (i : Nat) (b : Bool) (im : Image ℝ) (h : (exK s).images[i]? = some (b, im)) : i = 0 ∧ b = true ∧ im = exIR s := by
  match i, h with
  | 0, h => simp [exK] at h; exact ⟨rfl, h.1, h.2.symm⟩
  | n + 1, h => simp [exK] at h

theorem exReadyK (s : ℝ) : Ready exWorldR exHooksR (exK s) := by
  refine ⟨fun x _ masks h => (by cases h), ?_, ?_, ?_, ?_, ?_⟩
  · intro x hx
    simp only [exK, List.mem_cons, List.not_mem_nil, or_false] at hx
    subst hx
    exact ⟨rfl, rfl, by show 1 * 1 < 2 ^ 31; norm_num⟩
  · simp [exK, Tractor.par, PriorsOK, PriorsOKSubs, imagesSubs, catalogSubs, exIR]
  · intro i x _ _ y _ _ l hl
    cases hl
  · intro x hx h
    simp only [exK, List.mem_cons, List.not_mem_nil, or_false] at hx
    subst hx
    rfl
  · intro src hs
    simp [exK] at hs

theorem exLocK (s : ℝ) (k o j : Nat) (h : Located (exK s) k o j) : o = 0 ∧ k = 0 ∧ j = 0 := by
  obtain ⟨n, h1, h2, h3⟩ := h
  have hb : blocks (exK s) = [1] := rfl
  rw [hb] at h1 h3
  match o with
  | 0 => simp at h1 h3; omega
  | o + 1 => simp at h1

theorem exReportedK (s : ℝ) : Reported exWorldR exHooksR (exK s) (fun _ _ _ _ => 2 * s + 1 / 2) := by
  refine ⟨?_, ?_, ?_⟩
  · intro k o' j b src hloc hs
    simp [exK] at hs
  · intro k o j b im hloc ho d hd
    obtain ⟨rfl, rfl, rfl⟩ := exLocK s _ _ _ hloc
    obtain ⟨-, rfl, rfl⟩ := exImK s 0 b im ho
    have : reported (exHooksR (exK s) 0) (exIR s).par = [.false] := rfl
    rw [this] at hd
    simp at hd
    refine .inl ⟨hd.symm, 1 / 2, rfl, by norm_num, ?_⟩
    intro im' A A' h1 h2 h3 y x hy hx
    have hset : setAll (exK s) ((getParams (exK s).par).set 0 ((getParams (exK s).par).getD 0 0 + 1 / 2)) = exK (s + 1 / 2) := rfl
    rw [hset] at h1 h3
    obtain ⟨-, -, rfl⟩ := exImK _ 0 true im' h1
    have hy : y < 1 := hy
    have hx : x < 1 := hx
    obtain rfl : y = 0 := by omega
    obtain rfl : x = 0 := by omega
    obtain ⟨B, b1, b2⟩ := exModelK s
    obtain ⟨B', b1', b2'⟩ := exModelK (s + 1 / 2)
    rw [h2] at b1
    rw [h3] at b1'
    injection b1 with b1
    injection b1' with b1'
    subst b1 b1'
    rw [b2, b2']
    ring
  · intro k o j b im hloc ho i b' im' hi hne
    obtain ⟨rfl, -, -⟩ := exImK s o b im ho
    obtain ⟨rfl, -, -⟩ := exImK s i b' im' hi
    exact absurd rfl hne

theorem exPriorK (s : ℝ) : getLogPrior (exK s).par = .ok 0 := by
  simp [exK, Tractor.par, getLogPrior, getLogPriorSubs, imagesSubs, catalogSubs, exIR]

theorem exLogProbK (s : ℝ) : logProb exWorldR (exK s) = .ok (.fin (-(1 / 2) * (9 - s ^ 2) ^ 2)) := by
  have h := likelihood_pixel exWorldR _ (exReadyK s).mask (exReadyK s).shape [s]
  rw [exSetK] at h
  unfold logProb
  rw [exPriorK, h]
  have : ∑ i ∈ range (exK s).images.length, residual (exK s) (pixel exWorldR (exK s)) i = (9 - s ^ 2) ^ 2 := by
    have h1 : (exK s).images.length = 1 := rfl
    rw [h1, sum_range_one, residual]
    have h2 : (exK s).images[0]? = some (true, exIR s) := rfl
    rw [h2]
    dsimp only
    have h3 : (exIR s).data.h = 1 := rfl
    have h4 : (exIR s).data.w = 1 := rfl
    rw [h3, h4, sum_range_one, sum_range_one, exPixelK]
    simp [exIR]
  rw [this]
  simp [getLogProb, Except.map, Num.add, Num.isNan]

theorem exSlopeK (s v : ℝ) : Slope exWorldR (exK s) [v] ((9 - s ^ 2) * (2 * s) * v) := by
  refine ⟨fun t => -(1 / 2) * (9 - (s + t * v) ^ 2) ^ 2, fun t => by rw [exAlongK, exLogProbK], ?_⟩
  have h := ((((((hasDerivAt_id (0 : ℝ)).mul_const v).const_add s).pow 2).const_sub 9).pow 2).const_mul (-(1 / 2))
  refine (h.congr_deriv ?_).congr_of_eventuallyEq (Filter.Eventually.of_forall (fun t => rfl))
  simp
  ring

/-- **C154 is false of calibration parameters whose derivative is left to `getDerivs`**, which takes a difference over the step size: where the model
curves within a step the direction can be one in which the log-probability falls.  Here a sky level that is the square of its parameter, at -1/8, step 1/2:
any exact solver. -/
theorem C154_difference_false (S : Solver ℝ) (hsq : Lsq.SqrtOK S.sqrt) (hS : Lsq.Solves S.lsqr) (shared : Bool) :
    ∃ (T : Tractor ℝ Unit) (X : List ℝ) (g : ℝ), Ready exWorldR exHooksR T ∧
      (∀ Y i b im y x, Y.length = numberOfParams T.par → T.images[i]? = some (b, im) → y < im.data.h → x < im.data.w →
        DifferentiableAt ℝ (fun t => pixel exWorldR (along T Y t) i y x) 0) ∧
      direction S exWorldR exHooksR ⟨false, shared, true⟩ T = (T, .ok (some X)) ∧ Slope exWorldR T X g ∧ g < 0 := by
  obtain ⟨out, l, ds, pr, es, C, K, h1, h2, h3, h4, h5, h6, -, h8, h9, -⟩ := problem_reported (exReportedK (-1 / 8)) (exReadyK (-1 / 8))
    ⟨false, shared, true⟩ (.inl rfl) (mod := fun _ _ _ => 1 / 64) (by
      intro i b im A hi hA y x hy hx
      obtain ⟨rfl, rfl, rfl⟩ := exImK _ i b im hi
      have hy : y < 1 := hy
      have hx : x < 1 := hx
      obtain rfl : y = 0 := by omega
      obtain rfl : x = 0 := by omega
      obtain ⟨B, b1, b2⟩ := exModelK (-1 / 8)
      rw [hA] at b1
      injection b1 with b1
      subst b1
      rw [b2]; norm_num)
  have h3' := h3
  rw [exNK] at h3
  have hlin : ∀ v : ℝ, Lsq.linearised (lsqImgs l) ds pr [v] = (9 - (1 / 64 + v / 4)) ^ 2 + (2 * C - K) := by
    intro v
    have e1 := h9 [v] h3.symm
    have e2 := h8 [v] rfl
    have e3 : (setParams (exK (-1 / 8)).par (List.zipWith (· + ·) (getParams (exK (-1 / 8)).par) [v])).1 = (exK (-1 / 8 + v)).par := rfl
    rw [e3, exPriorK] at e2
    injection e2 with e2
    have e4 : ∑ i ∈ range (exK (-1 / 8)).images.length, residual (exK (-1 / 8)) (fun i y x => 1 / 64 +
        ∑ k ∈ range (numberOfParams (exK (-1 / 8)).par), ([v] : List ℝ).getD k 0 * (2 * (-1 / 8) + 1 / 2)) i = (9 - (1 / 64 + v / 4)) ^ 2 := by
      have g1 : (exK (-1 / 8)).images.length = 1 := rfl
      rw [g1, sum_range_one, residual]
      have g2 : (exK (-1 / 8)).images[0]? = some (true, exIR (-1 / 8)) := rfl
      rw [g2]
      dsimp only
      have g3 : (exIR (-1 / 8)).data.h = 1 := rfl
      have g4 : (exIR (-1 / 8)).data.w = 1 := rfl
      rw [g3, g4, sum_range_one, sum_range_one, exNK, sum_range_one]
      simp [exIR]
      ring
    rw [e4] at e1
    linarith
  have hlast : shared = true → 0 < ds.length → Lsq.columnNorm (lsqImgs l) ds es (ds.length - 1) ≠ 0 := by
    intro _ _
    rw [h6 _ (by omega), h3]
    have hw : widths ⟨false, shared, true⟩ (exK (-1 / 8)) (1 - 1) = [] := rfl
    rw [effect, hw]
    simp [exK, exIR, List.zipIdx]
    norm_num
  rcases direction_best S hsq hS (lsqImgs l) ds h5 pr es h4 false shared (by simp) (exK (-1 / 8)).par h3' hlast with ⟨-, e2⟩ | ⟨X, e1, hX, hmin⟩
  · exfalso
    have := e2 [0] [4 * (9 - 1 / 64)] h3.symm h3.symm
    rw [hlin, hlin] at this
    norm_num at this
  · rw [h3] at hX
    obtain ⟨v, rfl⟩ := exListQ X hX
    have hv : v = 4 * (9 - 1 / 64) := by
      have := hmin [4 * (9 - 1 / 64)] h3.symm
      rw [hlin, hlin] at this
      have h0 : (9 - (1 / 64 + v / 4)) ^ 2 ≤ 0 := by linarith
      have := pow_eq_zero_iff (two_ne_zero) |>.1 (le_antisymm h0 (sq_nonneg _))
      linarith
    refine ⟨exK (-1 / 8), [v], (9 - (-1 / 8) ^ 2) * (2 * (-1 / 8)) * v, exReadyK _, ?_, ?_, exSlopeK _ _, ?_⟩
    · intro Y i b im y x hY hi hy hx
      obtain ⟨w, rfl⟩ := exListQ Y hY
      obtain ⟨rfl, rfl, rfl⟩ := exImK _ i b im hi
      have hy : y < 1 := hy
      have hx : x < 1 := hx
      obtain rfl : y = 0 := by omega
      obtain rfl : x = 0 := by omega
      have : (fun t => pixel exWorldR (along (exK (-1 / 8)) [w] t) 0 0 0) = fun t => (-1 / 8 + t * w) ^ 2 := by
        funext t
        rw [exAlongK, exPixelK]
      rw [this]
      exact ((((hasDerivAt_id (0 : ℝ)).mul_const w).const_add (-1 / 8)).pow 2).differentiableAt
    · unfold direction
      rw [h1]
      simp only [h2]
      rw [e1]
    · rw [hv]
      norm_num

end Verif.Fit
