import Verif.Linmod.Lemmas

/-!
# C135: forced photometry compares the data with the model image of the Tractor

Spec: for all parameters `p`, the image that `forced_photometry` compares with the data is the one that `getModelImage` returns once
`catalog.setParams(p)` has been called.
-/

namespace Verif.Linmod

open Verif Patches Forced

variable {R M : Type} [Field R] [LinearOrder R]

/-- **C135.** If in every thawed source each part has the band of the image thawed and nothing else, if model masks are present where they are
expected, and if the models are not cut off (they do not depend on the threshold; or no threshold is asked for and the source begins with
positive counts), then for all parameters the fitted model has the shape and the pixels of the model image, with the sky fitted or not. -/
theorem C135_model_partial (W : World R M) (img : Img R) (minsb : R) (sky : Bool) (cat : List (Source R)) (p : List R)
    (hband : ∀ s ∈ cat, s.thawed = true → ∀ b ∈ s.parts, b.thawed = [img.band])
    (hmask : ∀ s ∈ cat, s.thawed = true → W.expect = true → (W.mask s.id).isSome)
    (hcut : ∀ s ∈ cat, s.thawed = true → (∀ k a b, W.unit s.id k a (W.mask s.id) = W.unit s.id k b (W.mask s.id)) ∨
      (minsb = 0 ∧ 0 < (s.parts.map (counts img)).sum ∧ (s.parts.length = 2 → img.minval = 0)))
    (hp : p.length = numParams cat) :
    ∃ A B, fitted W img minsb sky cat p = .ok A ∧ modelImage W img minsb true (setParams cat p) = .ok B ∧
      A.h = B.h ∧ A.w = B.w ∧ ∀ y x : Nat, y < A.h → x < A.w → A.px y x = B.px y x :=
  fitted_eq W img minsb sky cat p (fun s hs ht => fit_of W img minsb s (hband s hs ht) (hmask s hs ht) (hcut s hs ht)) hp

/-- A bright pixel and a faint one, which is left out if the threshold is above it. -/
def exUnit : Nat → Nat → ℚ → Option Unit → Option (Patch ℚ) := fun id k mv _ =>
  some ⟨id, 0, some (Arr.ofLists [[1 + k, if mv > 1 / 2000 then 0 else 1 / 2000]] 2)⟩

/-- No masks. -/
def exW : World ℚ Unit := ⟨exUnit, fun _ => none, false⟩

/-- An image of band r. -/
def exImg : Img ℚ := ⟨1, 4, "r", 2, 1, 0⟩

/-- A brightness with band r thawed. -/
def exB (g r : ℚ) : Bright ℚ := ⟨fun b => if b = "r" then r else g, ["r"]⟩

/-- A star, a frozen star and a galaxy of two parts. -/
def exCat : List (Source ℚ) := [⟨0, true, [exB 7 1]⟩, ⟨1, false, [exB 7 5]⟩, ⟨2, true, [exB 7 1, exB 7 3]⟩]

example : (fitted exW exImg 0 false exCat [100, 200, 300]).toOption.map Arr.toLists =
      some [[201, 11 + 1 / 10, 1601 + 1 / 200, 1 + 1 / 2]] ∧
    (modelImage exW exImg 0 true (setParams exCat [100, 200, 300])).toOption.map Arr.toLists =
      some [[201, 11 + 1 / 10, 1601 + 1 / 200, 1 + 1 / 2]] ∧
    (fitted exW exImg 0 true exCat [100, 200, 300]).toOption.map Arr.toLists = some [[201, 11 + 1 / 10, 1601 + 1 / 200, 1 + 1 / 2]] := by
  decide +kernel

/-- **C135.** Under these conditions the fluxes from which forced photometry starts do not matter: with other starting fluxes `q` the fitted
model for parameters `p` has the same pixels. -/
theorem C135_start_partial (W : World R M) (img : Img R) (minsb : R) (sky : Bool) (cat : List (Source R)) (q p : List R)
    (hband : ∀ s ∈ cat, s.thawed = true → ∀ b ∈ s.parts, b.thawed = [img.band])
    (hmask : ∀ s ∈ cat, s.thawed = true → W.expect = true → (W.mask s.id).isSome)
    (hcut : ∀ s, s ∈ cat ∨ s ∈ setParams cat q → s.thawed = true → (∀ k a b, W.unit s.id k a (W.mask s.id) = W.unit s.id k b (W.mask s.id)) ∨
      (minsb = 0 ∧ 0 < (s.parts.map (counts img)).sum ∧ (s.parts.length = 2 → img.minval = 0)))
    (hq : q.length = numParams cat) (hp : p.length = numParams cat) :
    ∃ A B, fitted W img minsb sky cat p = .ok A ∧ fitted W img minsb sky (setParams cat q) p = .ok B ∧
      A.h = B.h ∧ A.w = B.w ∧ ∀ y x : Nat, y < A.h → x < A.w → A.px y x = B.px y x := by
  obtain ⟨e1, e2, e3⟩ := setParams_twice cat q p hband hq hp
  obtain ⟨A, A', a1, a2, a3, a4, a5⟩ := C135_model_partial W img minsb sky cat p hband hmask (fun s hs => hcut s (.inl hs)) hp
  obtain ⟨B, B', b1, b2, b3, b4, b5⟩ := C135_model_partial W img minsb sky (setParams cat q) p
    (fun s hs ht => by
      obtain ⟨t, _, _, h3, h4⟩ := e3 s hs
      exact h4 (h3 ▸ ht))
    (fun s hs ht => by
      obtain ⟨t, h1, h2, h3, _⟩ := e3 s hs
      rw [h2]
      exact hmask t h1 (h3 ▸ ht))
    (fun s hs => hcut s (.inr hs)) (hp.trans e2.symm)
  rw [e1, a2] at b2
  injection b2 with b2
  subst b2
  exact ⟨A, B, a1, b1, by omega, by omega, fun y x hy hx => by rw [a5 y x hy hx, b5 y x (by omega) (by omega)]⟩

example : (fitted exW exImg 0 false (setParams exCat [9, 8, 7]) [100, 200, 300]).toOption.map Arr.toLists =
    some [[201, 11 + 1 / 10, 1601 + 1 / 200, 1 + 1 / 2]] := by decide +kernel

/-- **C135.** The fitted model is affine in the parameters, whatever the masks, bands and thresholds: at every pixel it is a constant plus, per
parameter, the parameter times the scale times the unit-flux model, unless the number of models is not that of parameters. -/
theorem C135_affine (W : World R M) (img : Img R) (minsb : R) (sky : Bool) (cat : List (Source R)) :
    ((umods W img minsb cat).length ≠ numParams cat ∧ ∀ p, fitted W img minsb sky cat p = .error .assertion) ∨
    ∃ c : Nat → Nat → R, ∀ p, ∃ A, fitted W img minsb sky cat p = .ok A ∧ A.h = img.h ∧ A.w = img.w ∧ ∀ y x : Nat, y < img.h → x < img.w →
      A.px y x = c y x + ((p.zip (umods W img minsb cat)).map (fun t => t.1 * img.scale * valAt x y t.2)).sum := by
  by_cases hl : (umods W img minsb cat).length = numParams cat
  · right
    obtain ⟨m, m1, m2, m3, m4⟩ := modelImage_ok W img minsb (!sky) (cat.filter (fun s => !s.thawed))
    refine ⟨(if sky then addSky img m else m).px, fun p => ?_⟩
    obtain ⟨A, a1, a2, a3, a4⟩ := addModels_ok none img.scale (p.zip (umods W img minsb cat)) (if sky then addSky img m else m)
    have eh : (if sky then addSky img m else m).h = img.h := by cases sky <;> exact m2
    have ew : (if sky then addSky img m else m).w = img.w := by cases sky <;> exact m3
    refine ⟨A, ?_, by omega, by omega, fun y x hy hx => ?_⟩
    · unfold fitted prepare
      simp only
      rw [if_neg (by simp [hl]), m1]
      exact a1
    · rw [a4 y x (by omega) (by omega)]
      congr 1
      generalize p.zip (umods W img minsb cat) = l
      induction l with
      | nil => rfl
      | cons t l ih => rw [countsAt_cons, ih]; rfl
  · left
    refine ⟨hl, fun p => ?_⟩
    unfold fitted prepare
    simp only
    rw [if_pos hl]

example : (umods exW exImg 0 exCat).length = 3 ∧ numParams exCat = 3 := by decide

/-- **C135 (negation).** Sources that begin without counts: although no threshold is asked for, their models are cut at 0.001, so that the
fit depends on the starting flux and is not one of the model image. -/
theorem C135_start_false : ∃ (W : World ℚ Unit) (img : Img ℚ) (s t : Source ℚ) (p : List ℚ),
    s.id = t.id ∧ s.thawed = true ∧ t.thawed = true ∧ setParams [s] p = setParams [t] p ∧
    (fitted W img 0 false [s] p).toOption.map Arr.toLists = some [[2001, 1, 1, 1]] ∧
    (fitted W img 0 false [t] p).toOption.map Arr.toLists = some [[2001, 2, 1, 1]] ∧
    (modelImage W img 0 true (setParams [s] p)).toOption.map Arr.toLists = some [[2001, 2, 1, 1]] :=
  ⟨exW, exImg, ⟨0, true, [exB 7 0]⟩, ⟨0, true, [exB 7 1]⟩, [1000], rfl, rfl, rfl, by
    have : ∀ a : ℚ, setParams [⟨0, true, [exB 7 a]⟩] [1000] = [⟨0, true, [exB 7 1000]⟩] := by
      intro a
      have e : (fun c => if c = "r" then (1000 : ℚ) else (exB 7 a).flux c) = (exB 7 1000).flux := by
        funext c
        by_cases h : c = "r" <;> simp [exB, h]
      change [Source.mk 0 true [Bright.mk (fun c => if c = "r" then (1000 : ℚ) else (exB 7 a).flux c) ["r"]]] = _
      rw [e]; rfl
    rw [this, this], by decide +kernel, by decide +kernel, by decide +kernel⟩

/-- **C135 (negation).** The band is not looked at: in an image of band g the parameter of band r is fitted as if it were the flux in g, while
the model image does not depend on it. -/
theorem C135_band_false : ∃ (W : World ℚ Unit) (img : Img ℚ) (cat : List (Source ℚ)), img.band = "g" ∧ (∀ s ∈ cat, ∀ b ∈ s.parts, b.thawed = ["r"]) ∧
    (fitted W img 0 false cat [100]).toOption.map Arr.toLists = some [[201, 1 + 1 / 10, 1, 1]] ∧
    (modelImage W img 0 true (setParams cat [100])).toOption.map Arr.toLists = some [[15, 1 + 7 / 1000, 1, 1]] :=
  ⟨exW, { exImg with band := "g" }, [⟨0, true, [exB 7 1]⟩], rfl, by simp [exB], by decide +kernel, by decide +kernel⟩

/-- **C135 (negation).** Where model masks are expected, a source without a mask is not in the model image; forced photometry does fit it. -/
theorem C135_mask_false : ∃ (W : World ℚ Unit) (img : Img ℚ) (cat : List (Source ℚ)), W.expect = true ∧ (∀ i, W.mask i = none) ∧
    (fitted W img 0 false cat [100]).toOption.map Arr.toLists = some [[201, 1 + 1 / 10, 1, 1]] ∧
    (modelImage W img 0 true (setParams cat [100])).toOption.map Arr.toLists = some [[1, 1, 1, 1]] :=
  ⟨{ exW with expect := true }, exImg, [⟨0, true, [exB 7 1]⟩], rfl, fun _ => rfl, by decide +kernel, by decide +kernel⟩

/-- **C135 (negation).** Only the total number of models is checked.  A source with two thawed bands and a source of which no band is thawed
pass the check: the second parameter, a flux of the first source, is fitted with the model of the second source. -/
theorem C135_align_false : ∃ (W : World ℚ Unit) (img : Img ℚ) (cat : List (Source ℚ)),
    cat.map (fun s => s.parts.map (·.thawed)) = [[["r", "g"]], [[]]] ∧
    (fitted W img 0 false cat [100, 300]).toOption.map Arr.toLists = some [[201, 601 + 1 / 10, 1 + 3 / 10, 1]] ∧
    (modelImage W img 0 true (setParams cat [100, 300])).toOption.map Arr.toLists = some [[201, 11 + 1 / 10, 1 + 1 / 200, 1]] :=
  ⟨exW, exImg, [⟨0, true, [⟨fun _ => 1, ["r", "g"]⟩]⟩, ⟨1, true, [⟨fun _ => 5, []⟩]⟩], rfl, by decide +kernel, by decide +kernel⟩

/-- **C135 (negation).** A `CompositeGalaxy` in a model image without threshold: zero is taken as "not given" and the threshold of the image
is used, so that the faint pixels that forced photometry fits are missing from the model image. -/
theorem C135_composite_false : ∃ (W : World ℚ Unit) (img : Img ℚ) (cat : List (Source ℚ)), 0 < img.minval ∧
    (fitted W img 0 false cat [10, 10]).toOption.map Arr.toLists = some [[61, 1 + 1 / 50, 1, 1]] ∧
    (modelImage W img 0 true (setParams cat [10, 10])).toOption.map Arr.toLists = some [[61, 1, 1, 1]] :=
  ⟨exW, { exImg with minval := 1 / 10 }, [⟨0, true, [exB 7 1, exB 7 3]⟩], by decide +kernel, by decide +kernel, by decide +kernel⟩

end Verif.Linmod
