import Verif.Multi.PropsPickle

/-!
# C90: settings of a tractor
-/

namespace Verif.Multi

open Verif Verif.Params Verif.Patches Verif.Engine

variable {R M D O : Type}

/-- What rendering should be told: the argument of the call if there is one, else the setting of the tractor; `minsb` is
always an argument of the call. -/
def effective (d kw : Kw R) (minsb : Setting R) (k : String) : Option (Setting R) :=
  if k = "minsb" then some minsb else
  match kw.lookup k with
  | some v => some v
  | none => d.lookup k

theorem effective_eq (d kw : Kw R) (minsb : Setting R) :
    (fun k => (update d (("minsb", minsb) :: kw)).lookup k) = effective d kw minsb := by
  funext k
  rw [lookup_update, effective, List.lookup_cons]
  by_cases h : k = "minsb"
  · subst h; rfl
  · rw [if_neg h, show (k == "minsb") = false by simpa using h]
    cases kw.lookup k <;> rfl

/-- **C90, partial.** Every setting given to the tractor except `minsb` reaches the rendering of every source of every model
image and chi image, unless the call overrides it. -/
theorem C90_render_partial [Ring R] [DecidableEq R] (W : KwWorld R M) (o : Obj R M D O) (d : Kw R)
    (ho : o.settings = some d) (img : Image R) (srcs : Option (List (Option (Source R)))) (minsb : Setting R) (kw : Kw R) :
    (∀ sky, kwModelImage W o img srcs sky minsb kw =
      getModelImage ⟨W.render (effective d kw minsb), W.sky, W.srcDerivs (effective d kw minsb)⟩ o.core img srcs sky) ∧
    kwChiImage W o img srcs minsb kw =
      getChiImage ⟨W.render (effective d kw minsb), W.sky, W.srcDerivs (effective d kw minsb)⟩ o.core img srcs := by
  have h : ∀ sky, kwModelImage W o img srcs sky minsb kw =
      getModelImage ⟨W.render (effective d kw minsb), W.sky, W.srcDerivs (effective d kw minsb)⟩ o.core img srcs sky := by
    intro sky
    rw [kwModelImage_eq W o d ho, effective_eq]
    rfl
  exact ⟨h, by rw [kwChiImage, getChiImage, h]; rfl⟩

-- the scale is 10, or 2 if the call says so
example : (kwModelImage exKwW (exObj exT) (exImg 1 4) none false .none []).toOption.map Arr.toLists = some [[60, 80], [0, 0]] ∧
    (kwModelImage exKwW (exObj exT) (exImg 1 4) none false .none [("scale", .num 2)]).toOption.map Arr.toLists =
      some [[12, 16], [0, 0]] := by decide +kernel

/-- A world whose sources are cut where their surface brightness is at most `minsb`. -/
def minsbW : KwWorld ℚ Nat :=
  ⟨fun s src img m => match s "minsb", exW.render src img m with
      | some (.num r), some p => some { p with patch := p.patch.map (fun a => a.map (fun v => if v ≤ r then 0 else v)) }
      | _, p => p,
    exW.sky, fun _ => exW.srcDerivs⟩

/-- **C90 fails for `minsb`**: its value among the settings never has any effect on model images or chi images, whatever the
tractor. -/
theorem C90_minsb_false [Ring R] [DecidableEq R] (W : KwWorld R M) (o : Obj R M D O) (d : Kw R) (ho : o.settings = some d)
    (v : Setting R) (img : Image R) (srcs : Option (List (Option (Source R)))) (minsb : Setting R) (kw : Kw R) :
    (∀ sky, kwModelImage W { o with settings := some (("minsb", v) :: d) } img srcs sky minsb kw =
      kwModelImage W o img srcs sky minsb kw) ∧
    kwChiImage W { o with settings := some (("minsb", v) :: d) } img srcs minsb kw = kwChiImage W o img srcs minsb kw := by
  have he : effective (("minsb", v) :: d) kw minsb = effective d kw minsb := by
    funext k
    unfold effective
    by_cases h : k = "minsb"
    · rw [if_pos h, if_pos h]
    · rw [if_neg h, if_neg h, List.lookup_cons, show (k == "minsb") = false by simpa using h]
  have h1 := C90_render_partial W { o with settings := some (("minsb", v) :: d) } _ rfl img srcs minsb kw
  have h2 := C90_render_partial W o d ho img srcs minsb kw
  rw [he] at h1
  exact ⟨fun sky => (h1.1 sky).trans (h2.1 sky).symm, h1.2.trans h2.2.symm⟩

-- setting 5: nothing is cut; passing it in the call: one pixel is left
example : (kwModelImage minsbW ⟨exT, "", "", some [("minsb", .num 5)]⟩ (exImg 1 4) none false .none []).toOption.map
      Arr.toLists = some [[6, 8], [0, 0]] ∧
    (kwModelImage minsbW ⟨exT, "", "", some [("minsb", .num 5)]⟩ (exImg 1 4) none false (.num 5) []).toOption.map
      Arr.toLists = some [[0, 6], [0, 0]] := by decide +kernel

/-- **C90 fails between chi and model images**: chi images are computed with `minsb = 0`, model images without; with default
arguments the chi image may differ from (data - model) times the inverse errors. -/
theorem C90_chi_false : ∃ (W : KwWorld ℚ Nat) (o : Obj ℚ Nat String String) (img : Image ℚ) (mod chi : Arr ℚ),
    kwModelImage W o img none true .none [] = .ok mod ∧ kwChiImage W o img none (.num 0) [] = .ok chi ∧
      chi.px 0 0 ≠ (img.data.px 0 0 - mod.px 0 0) * img.inverr.px 0 0 := by
  have h : ∃ mod chi, kwModelImage minsbW (⟨{ exT with catalog := [(true, some (exSrc 10 (-1) 2))] }, "", "", some []⟩ :
        Obj ℚ Nat String String) (exImg 1 4) none true .none [] = .ok mod ∧
      kwChiImage minsbW (⟨{ exT with catalog := [(true, some (exSrc 10 (-1) 2))] }, "", "", some []⟩ :
        Obj ℚ Nat String String) (exImg 1 4) none (.num 0) [] = .ok chi ∧ mod.px 0 0 = 3 ∧ chi.px 0 0 = 1 := by
    refine ⟨_, _, rfl, rfl, ?_, ?_⟩ <;> decide +kernel
  obtain ⟨mod, chi, h1, h2, h3, h4⟩ := h
  refine ⟨minsbW, _, exImg 1 4, mod, chi, h1, h2, ?_⟩
  rw [h3, h4]
  decide +kernel

/-- **C90 fails for derivatives**: with any settings at all and a thawed image, `getDerivs` raises TypeError; and without
thawed images the settings have no effect on the derivatives of the sources. -/
theorem C90_derivs_false [Field R] [DecidableEq R] (W : KwWorld R M) (hooks : Nat → Nat → Option (List (Deriv R)))
    (o : Obj R M D O) (d : Kw R) (ho : o.settings = some d) (kw : Kw R) :
    (o.core.imagesThawed = true → (∃ img, (true, img) ∈ o.core.images) → d ≠ [] →
      kwDerivs W hooks o kw = (o.core, .error .typeErr)) ∧
    (o.core.imagesThawed = false → ∀ d', kwDerivs W hooks { o with settings := some d' } kw = kwDerivs W hooks o kw) := by
  constructor
  · intro h1 h2 h3
    have ht : ∀ (l : List Bool) i, true ∈ l → Engine.thawedIndices i l ≠ [] := by
      intro l
      induction l with
      | nil => intro i h; simp at h
      | cons b l ih =>
        intro i h
        cases b with
        | true => simp [Engine.thawedIndices]
        | false =>
          simp only [Engine.thawedIndices]
          exact ih (i + 1) (by simpa using h)
    have hne : update d kw ≠ [] := by
      obtain ⟨p, d', rfl⟩ := List.exists_cons_of_ne_nil h3
      intro h
      unfold update at h
      rw [List.append_eq_nil_iff] at h
      rw [h.1] at h
      simp at h
    obtain ⟨img, himg⟩ := h2
    have := ht (o.core.images.map (·.1)) 0 (List.mem_map.mpr ⟨_, himg, rfl⟩)
    unfold kwDerivs
    rw [ho]
    simp only [h1, Bool.true_and, Bool.and_eq_true, Bool.not_eq_true', List.isEmpty_eq_false_iff]
    rw [if_pos ⟨this, hne⟩]
  · intro h1 d'
    unfold kwDerivs
    rw [ho]
    simp only [h1, Bool.false_and, Bool.false_eq_true, if_false]
    unfold getDerivs
    simp only [h1, Bool.false_eq_true, if_false]

-- the example tractor: TypeError as soon as there is a setting
example : (kwDerivs exKwW (fun _ _ => none) (exObj exT) []).2.toOption.map showDerivs = none ∧
    (kwDerivs exKwW (fun _ _ => none) { exObj exT with settings := some [] } []).2.toOption.map showDerivs =
      some [[(some [0, 0, 1, 1, 1, 1], 0)], [(some [0, 0, 1], 0), (some [0, 1, 1], 1)], [(some [1, 0], 1)]] := by
  decide +kernel

/-- **C90, partial.** Without settings and arguments, `getDerivs` is the one of C32 (sources rendered with `minsb` None). -/
theorem C90_derivs_partial [Field R] [DecidableEq R] (W : KwWorld R M) (hooks : Nat → Nat → Option (List (Deriv R)))
    (o : Obj R M D O) (ho : o.settings = some []) :
    kwDerivs W hooks o [] =
      getDerivs ⟨fun _ _ _ => none, W.sky, W.srcDerivs (fun _ => none)⟩
        (fun T img => getModelImage ⟨W.render (fun k => if k = "minsb" then some .none else none), W.sky,
          W.srcDerivs (fun k => if k = "minsb" then some .none else none)⟩ T img none true) hooks o.core := by
  have h : (fun (T : Tractor R M) img => kwModelImage W { o with core := T } img none true .none []) =
      fun T img => getModelImage ⟨W.render (fun k => if k = "minsb" then some .none else none), W.sky,
          W.srcDerivs (fun k => if k = "minsb" then some .none else none)⟩ T img none true := by
    funext T img
    rw [(C90_render_partial W { o with core := T } [] ho img none .none []).1 true]
    rfl
  unfold kwDerivs
  rw [h, ho]
  simp only [update, List.filter_nil, List.append_nil, List.isEmpty_nil, Bool.not_true, Bool.and_false,
    Bool.false_eq_true, if_false]
  rfl

end Verif.Multi
