import Verif.Fit.Masked
import Verif.Fit.Props

/-!
# Pixels with zero inverse error have no influence (C156)
-/

namespace Verif.Fit

open Verif Params Patches Engine

variable {R M : Type} [Field R] [LinearOrder R]

/-- Whatever is stored in pixels with zero inverse error, the log-likelihood and the log-probability are the same, for the current and for any other
parameter values, and so are the model images. -/
theorem C156_logprob (W : World R M) (hooks : Tractor R M → Nat → Nat → Option (List (Deriv R))) (hW : Blind W hooks) (T T' : Tractor R M) (h : Alike T T')
    (p : List R) :
    getLogLikelihood W (setAll T' p) = getLogLikelihood W (setAll T p) ∧ logProb W (setAll T' p) = logProb W (setAll T p) ∧
      getLogLikelihood W T' = getLogLikelihood W T ∧ logProb W T' = logProb W T ∧
      ∀ (i : Nat) (c : Bool) (im im' : Image R), T.images[i]? = some (c, im) → T'.images[i]? = some (c, im') →
        getModelImage W T' im' none true = getModelImage W T im none true := by
  have hs : Alike (setAll T p) (setAll T' p) := by
    unfold setAll
    rw [h.par]
    exact h.withPar _
  refine ⟨alike_logLike hW hs, alike_logProb hW hs, alike_logLike hW h, alike_logProb hW h, ?_⟩
  intro i c im im' h1 h2
  rcases h.get i with ⟨e, -⟩ | ⟨b, jm, jm', e1, e2, e3⟩
  · rw [e] at h1; cases h1
  · rw [e1] at h1
    rw [e2] at h2
    cases h1
    cases h2
    exact h.model hW e3

/-- `optimize` ends in the same parameter values and returns the same, or raises the same error: with any solver and options. -/
theorem C156_optimize (W : World R M) (hooks : Tractor R M → Nat → Nat → Option (List (Deriv R))) (hW : Blind W hooks) (T T' : Tractor R M) (h : Alike T T')
    (S : Solver R) (o : Opts) (alphas : List R) :
    Alike (optimize S W hooks o alphas T).1 (optimize S W hooks o alphas T').1 ∧
      (optimize S W hooks o alphas T').1.par = (optimize S W hooks o alphas T).1.par ∧
      (optimize S W hooks o alphas T').2 = (optimize S W hooks o alphas T).2 :=
  ⟨(alike_optimize hW h S o alphas).1, (alike_optimize hW h S o alphas).1.par, (alike_optimize hW h S o alphas).2⟩

/-- So does `optimize_loop`. -/
theorem C156_loop (W : World R M) (hooks : Tractor R M → Nat → Nat → Option (List (Deriv R))) (hW : Blind W hooks) (T T' : Tractor R M) (h : Alike T T')
    (S : Solver R) (o : Opts) (alphas : List R) (dchisq : R) (steps : Nat) :
    Alike (optimizeLoop S W hooks o alphas dchisq steps T).1 (optimizeLoop S W hooks o alphas dchisq steps T').1 ∧
      (optimizeLoop S W hooks o alphas dchisq steps T').1.par = (optimizeLoop S W hooks o alphas dchisq steps T).1.par ∧
      (optimizeLoop S W hooks o alphas dchisq steps T').2 = (optimizeLoop S W hooks o alphas dchisq steps T).2 := by
  have : Alike (optimizeLoop S W hooks o alphas dchisq steps T).1 (optimizeLoop S W hooks o alphas dchisq steps T').1 ∧
      (optimizeLoop S W hooks o alphas dchisq steps T').2 = (optimizeLoop S W hooks o alphas dchisq steps T).2 := by
    cases steps with
    | zero => exact ⟨h, rfl⟩
    | succ n => exact alike_loopFrom hW S o alphas dchisq n 0 T T' h
  exact ⟨this.1, this.1.par, this.2⟩

/-- The variances are the same too. -/
theorem C156_variance (W : World R M) (hooks : Tractor R M → Nat → Nat → Option (List (Deriv R))) (hW : Blind W hooks) (T T' : Tractor R M) (h : Alike T T')
    (S : Solver R) (shared priors just : Bool) (alphas : List R) :
    Alike (optimizeVar S W hooks shared priors just alphas T).1 (optimizeVar S W hooks shared priors just alphas T').1 ∧
      (optimizeVar S W hooks shared priors just alphas T').2 = (optimizeVar S W hooks shared priors just alphas T).2 :=
  alike_optimizeVar hW h S shared priors just alphas

/-- And so with the constrained optimizers, sparse, dense and "smarter dense", one step or the loop: the flags about limits too. -/
theorem C156_constrained (W : World R M) (hooks : Tractor R M → Nat → Nat → Option (List (Deriv R))) (hW : Blind W hooks) (T T' : Tractor R M)
    (h : Alike T T') (m : Cons.Method R) (tiny : R) (o : Opts) (alphas : List R) (fl : Opt.OptFlags) :
    (Alike (Cons.optimize m tiny W hooks o alphas fl T).1 (Cons.optimize m tiny W hooks o alphas fl T').1 ∧
      (Cons.optimize m tiny W hooks o alphas fl T').2 = (Cons.optimize m tiny W hooks o alphas fl T).2) ∧
    ∀ (dchisq dchisqLimited : R) (steps : Nat),
      Alike (Cons.optimizeLoop m tiny W hooks o alphas dchisq dchisqLimited steps fl T).1
        (Cons.optimizeLoop m tiny W hooks o alphas dchisq dchisqLimited steps fl T').1 ∧
      (Cons.optimizeLoop m tiny W hooks o alphas dchisq dchisqLimited steps fl T').2 =
        (Cons.optimizeLoop m tiny W hooks o alphas dchisq dchisqLimited steps fl T).2 :=
  ⟨alike_optimizeC hW h m tiny o alphas fl, fun d1 d2 steps => alike_optimizeLoopC hW h m tiny o alphas d1 d2 steps fl⟩

/-! ### Example: the tractor of C143 with a pixel of the first image masked -/

def exMi (v : ℚ) : Image ℚ :=
  { exI 0 3 with
    data := ⟨2, 2, fun r c => if r = 1 ∧ c = 0 then v else (exI 0 3).data.px r c⟩
    inverr := ⟨2, 2, fun r c => if r = 1 ∧ c = 0 then 0 else (exI 0 3).inverr.px r c⟩ }

def exMt (v : ℚ) : Tractor ℚ Unit := { exTr 3 1 2 with images := [(true, exMi v), (false, exI 1 4)] }

theorem exAlike (v v' : ℚ) : Alike (exMt v) (exMt v') := by
  refine ⟨rfl, rfl, rfl, rfl, rfl, .cons ⟨rfl, rfl, rfl, rfl, rfl, rfl, ?_⟩ (.cons ⟨rfl, rfl, rfl, rfl, rfl, rfl, fun _ _ _ _ _ => rfl⟩ .nil)⟩
  intro r c _ _ h0
  by_cases e : r = 1 ∧ c = 0
  · exact absurd (show (exMi v).inverr.px r c = 0 from if_pos e) h0
  · show (if r = 1 ∧ c = 0 then v' else _) = if r = 1 ∧ c = 0 then v else _
    rw [if_neg e, if_neg e]

theorem exBlind : Blind exWorld exHooks := by
  refine ⟨fun _ _ _ _ _ => rfl, ?_, fun _ _ _ _ _ => rfl, fun _ _ _ => rfl⟩
  intro im im' h
  unfold exWorld exSky
  dsimp only
  rw [h.par]

/-- A value of 1000 instead of 0 in the masked pixel changes nothing -/
example (S : Solver ℚ) (o : Opts) (alphas : List ℚ) :
    (optimize S exWorld exHooks o alphas (exMt 1000)).1.par = (optimize S exWorld exHooks o alphas (exMt 0)).1.par ∧
    (optimize S exWorld exHooks o alphas (exMt 1000)).2 = (optimize S exWorld exHooks o alphas (exMt 0)).2 :=
  (C156_optimize exWorld exHooks exBlind (exMt 0) (exMt 1000) (exAlike 0 1000) S o alphas).2

example : getLogLikelihood exWorld (exMt 1000) = getLogLikelihood exWorld (exMt 0) :=
  (C156_logprob exWorld exHooks exBlind (exMt 0) (exMt 1000) (exAlike 0 1000) []).2.2.1

/-- though the two differ, and in an unmasked pixel it does -/
example : (exMi 1000).data.px 1 0 ≠ (exMi 0).data.px 1 0 := by decide +kernel

example : getLogLikelihood exWorld { exMt 0 with images := [(true, { exMi 0 with data := Arr.zeros 2 2 })] } ≠
    getLogLikelihood exWorld { exMt 0 with images := [(true, { exMi 0 with data := ⟨2, 2, fun _ _ => 1000⟩ })] } := by decide +kernel

example (S : Solver ℚ) (o : Opts) (alphas : List ℚ) :
    (optimizeLoop S exWorld exHooks o alphas 0 5 (exMt 1000)).2 = (optimizeLoop S exWorld exHooks o alphas 0 5 (exMt 0)).2 :=
  (C156_loop exWorld exHooks exBlind (exMt 0) (exMt 1000) (exAlike 0 1000) S o alphas 0 5).2.2

example (S : Solver ℚ) :
    (optimizeVar S exWorld exHooks true true true [] (exMt 1000)).2 = (optimizeVar S exWorld exHooks true true true [] (exMt 0)).2 :=
  (C156_variance exWorld exHooks exBlind (exMt 0) (exMt 1000) (exAlike 0 1000) S true true true []).2

example (m : Cons.Method ℚ) (o : Opts) (alphas : List ℚ) (fl : Opt.OptFlags) :
    (Cons.optimize m (1 / 1000) exWorld exHooks o alphas fl (exMt 1000)).2 = (Cons.optimize m (1 / 1000) exWorld exHooks o alphas fl (exMt 0)).2 :=
  (C156_constrained exWorld exHooks exBlind (exMt 0) (exMt 1000) (exAlike 0 1000) m (1 / 1000) o alphas fl).1.2

end Verif.Fit
