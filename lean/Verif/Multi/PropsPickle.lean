import Verif.Multi.SettingsLemmas
import Verif.Engine.Props

/-!
# C60: pickling a tractor
-/

namespace Verif.Multi

open Verif Verif.Params Verif.Patches Verif.Engine

variable {R M D O : Type}

/-- **C60, partial.** A tractor read back from a pickle has copies of the same images and sources in the same order with the
same pixels, errors, parameters and flags, the same data type, optimizer and expectation of masks; every mask is found for
the copies of the image and source it belongs to.  If the settings are put back by hand, every model image is the one of the
original (for external code that does not look at identities).  The settings themselves are lost (see below). -/
theorem C60_state_partial [Zero R] [One R] [Add R] [Mul R] [DecidableEq R] (f : Nat → Nat) (hf : Function.Injective f)
    (lsqr : O) (o : Obj R M D O) :
    ∃ o', reload f lsqr o = .ok o' ∧ o'.core.par = o.core.par ∧
      o'.core.images = o.core.images.map (fun x => (x.1, ⟨f x.2.id, x.2.par, x.2.data, x.2.inverr⟩)) ∧
      o'.core.catalog = o.core.catalog.map (fun x => (x.1, x.2.map (fun s => ⟨f s.id, s.par⟩))) ∧
      o'.modtype = o.modtype ∧ o'.optimizer = o.optimizer ∧ o'.core.expectModelMasks = o.core.expectModelMasks ∧
      (∀ img src, maskFor o'.core (renImage f img) (renSource f src) = maskFor o.core img src) ∧
      ∀ W : KwWorld R M, Anonymous f W → ∀ img srcs sky minsb kw,
        kwModelImage W { o' with settings := o.settings } (renImage f img) (srcs.map (·.map (·.map (renSource f)))) sky
          minsb kw = kwModelImage W o img srcs sky minsb kw := by
  refine ⟨_, reload_eq f lsqr o, par_ren f o.core, rfl, rfl, rfl, rfl, rfl, maskFor_ren f hf o.core, ?_⟩
  intro W hW img srcs sky minsb kw
  exact kwModelImage_ren f hf W hW o img srcs sky minsb kw

/-- The example tractor with settings. -/
def exKwW : KwWorld ℚ Nat :=
  ⟨fun s src img m => match s "scale", exW.render src img m with
      | some (.num r), some p => some { p with patch := p.patch.map (fun a => a.map (· * r)) }
      | _, p => p,
    exW.sky, fun _ => exW.srcDerivs⟩

def exObj (T : Tractor ℚ Nat) : Obj ℚ Nat String String := ⟨T, "float32", "lsqr", some [("scale", .num 10)]⟩

-- the copied tractor, with the settings put back
example : Anonymous (· + 100) exKwW ∧
    ((reload (· + 100) "new" (exObj exT)).toOption.bind (fun o =>
      (kwModelImage exKwW { o with settings := (exObj exT).settings } (renImage (· + 100) (exImg 1 4)) none true .none
        []).toOption)).map Arr.toLists = some [[64, 84], [4, 4]] ∧
    (kwModelImage exKwW (exObj exT) (exImg 1 4) none true .none []).toOption.map Arr.toLists =
      some [[64, 84], [4, 4]] := by
  refine ⟨⟨fun _ _ _ _ => rfl, fun _ => rfl⟩, ?_, ?_⟩ <;> decide +kernel

/-- **C60 fails for the settings**: whatever the settings were, the copy has none, not even the attribute, so that every
method of the optimizer raises AttributeError instead of being called, and so do derivatives. -/
theorem C60_settings_false {β : Type} [Field R] [DecidableEq R] (f : Nat → Nat) (lsqr : O) (o : Obj R M D O) :
    ∃ o', reload f lsqr o = .ok o' ∧ o'.settings = none ∧
      (∀ (call : O → Obj R M D O → Kw R → Except PyErr β) kw, callOptimizer call o' kw = .error .attribute) ∧
      ∀ (W : KwWorld R M) hooks kw, (kwDerivs W hooks o' kw).2 = .error .attribute :=
  ⟨_, reload_eq f lsqr o, rfl, fun _ _ => rfl, fun _ _ _ => rfl⟩

-- while the original calls its optimizer with the settings
example : callOptimizer (fun opt _ kw => Except.ok (opt, kw)) (exObj exT) [("damp", .num 1)] =
    Except.ok ("lsqr", [("damp", .num 1), ("scale", .num 10)]) := by decide +kernel

/-- **C60 fails for model images**: after reading the pickle no model image of a tractor with any source that is not masked
out can be computed. -/
theorem C60_render_false [Zero R] [One R] [Add R] [Mul R] [DecidableEq R] (f : Nat → Nat) (hf : Function.Injective f)
    (lsqr : O) (o : Obj R M D O) (img : Image R) (h : MasksOK o.core img)
    (hs : ∃ b s, (b, some s) ∈ o.core.catalog ∧
      (o.core.expectModelMasks = true → ∃ m, maskFor o.core img s = .ok (some m))) :
    ∃ o', reload f lsqr o = .ok o' ∧ ∀ (W : KwWorld R M) sky minsb kw,
      kwModelImage W o' (renImage f img) none sky minsb kw = .error .attribute := by
  refine ⟨_, reload_eq f lsqr o, fun W sky minsb kw => ?_⟩
  obtain ⟨b, s, h1, h2⟩ := hs
  unfold kwModelImage
  refine kwSources_unset W _ rfl _ ?_ _ _ ⟨renSource f s, ?_, ?_⟩ _
  · intro masks hm
    simp only [renTractor] at hm
    cases hmm : o.core.modelMasks with
    | none => rw [hmm] at hm; cases hm
    | some m0 =>
      rw [hmm] at hm
      injection hm with hm
      subst hm
      obtain ⟨g1, x, g2, g3⟩ := h m0 hmm
      refine ⟨by simpa [renTractor, renImages, renMasks] using g1, (x.1, renImage f x.2), ?_, ?_⟩
      · exact List.mem_map.mpr ⟨x, g2, rfl⟩
      · show f x.2.id = f img.id
        rw [g3]
  · simp only [Option.getD_none, List.mem_map]
    exact ⟨(b, some (renSource f s)), List.mem_map.mpr ⟨(b, some s), h1, rfl⟩, rfl⟩
  · intro he
    obtain ⟨m, hm⟩ := h2 he
    exact ⟨m, by rw [maskFor_ren f hf]; exact hm⟩

-- the example tractor expects masks: both its sources have one for image 1
example : MasksOK (exObj exT).core (exImg 1 4) ∧ (exObj exT).core.expectModelMasks = true ∧
    (maskFor exT (exImg 1 4) (exSrc 10 1 2)).toOption = some (some 1) ∧
    (reload (· + 100) "new" (exObj exT)).toOption.map (fun o =>
      kwModelImage exKwW o (renImage (· + 100) (exImg 1 4)) none true .none [] matches .error .attribute) = some true := by
  refine ⟨?_, by decide +kernel, by decide +kernel, by decide +kernel⟩
  intro masks hm
  cases hm
  exact ⟨rfl, (false, exImg 1 4), by simp [exObj, exT], rfl⟩

/-- **C60**: a state written by older code (six elements) gives the same tractor with the default optimizer; a tuple of any
other length raises NameError. -/
theorem C60_old_state (lsqr : O) (o : Obj R M D O) :
    setState lsqr (.six o.core.images o.core.catalog (o.core.imagesThawed, o.core.catalogThawed) o.modtype
        o.core.modelMasks o.core.expectModelMasks) = .ok { o with optimizer := lsqr, settings := none } ∧
      setState lsqr (.other : State R M D O) = .error .nameErr := ⟨rfl, rfl⟩

example : (setState "new" (.six exT.images exT.catalog (true, false) "float64" none false : State ℚ Nat String String)).toOption.map
    (fun o => (o.modtype, o.optimizer, getParams o.core.par)) = some ("float64", "new", [3]) := by decide +kernel

end Verif.Multi
