import Verif.Key.Lemmas
import Verif.Cache.Props
import Mathlib.Algebra.Order.Ring.Int
import Mathlib.Logic.Equiv.List

/-!
# C123: equal keys, equal models
-/

namespace Verif.Hashed

open Spec

section pos
variable {R : Type}

/-- C123: in a program whose objects keep to the conventions of `Keeps`, an image and a source with equal keys are in equal states, so that all that can be
rendered from them is equal.  Partial: the conventions are needed (negations below). -/
theorem C123_key_partial (one : R) (c : Conventions R) (shape : Nat → Nat × Nat) (i j : Image R) (s t : Obj R) (hi : KeepsImage one c shape i)
    (hj : KeepsImage one c shape j) (hs : Keeps one c s) (ht : Keeps one c t) (h : deps i s = deps j t) : i = j ∧ s = t := by
  simp only [deps, Keys.ofList, Key.tup.injEq, Keys.cons.injEq, and_true] at h
  exact ⟨image_inj one c shape i j hi hj h.1, key_inj one c s t hs ht h.2⟩

/-- C123: with such objects, and without collisions of hashes, cached model patches are those of the objects asked about: after clearing the cache and any
requests, the answer is the rendering of this image and source at an accuracy at least as good as requested, and exactly that requested if all requests
ask for the same.  Partial: see `C123_key_partial`, `C123_hash_false`. -/
theorem C123_cached_partial {M P : Type} [LinearOrder R] [Zero R] (one : R) (c : Conventions R) (shape : Nat → Nat × Nat) (QI : Image R → Prop)
    (QS : Obj R → Prop) (hI : ∀ i, QI i → KeepsImage one c shape i) (hS : ∀ s, QS s → Keeps one c s) (h : Hashing R)
    (hcol : ∀ i s j t, QI i → QS s → QI j → QS t → (deps i s).hash h = (deps j t).hash h → deps i s = deps j t)
    (render : M → Image R → Obj R → R → Option P) (renderDefault : M → Image R → Obj R → Option P) (modelMinval : Image R → R)
    (w : Verif.Cache.World {i // QI i} {s // QS s} M R P Int)
    (hw : w = { render := fun m i s => render m i.1 s.1, renderDefault := fun m i s => renderDefault m i.1 s.1,
                key := fun i s => (world h render renderDefault modelMinval).key i.1 s.1, modelMinval := fun i => modelMinval i.1 })
    (m : Nat) (hm : 1 ≤ m) (m0 : M) (before after : List (Verif.Cache.Act {i // QI i} {s // QS s} M R))
    (hno : ∀ a ∈ after, ∀ k, a ≠ .setMasks k) (t : Verif.Cache.Tr Int M R P)
    (ht : t = Verif.Cache.runActs w ⟨some (Verif.Cache.empty m), m0⟩ (before ++ [.clearCache] ++ after)) (i : {i // QI i}) (s : {s // QS s}) (minsb : Option R) :
    (∃ r ≤ minsb.getD (modelMinval i.1), (Verif.Cache.getModelPatch w t i s minsb).2 = render t.masks i.1 s.1 r) ∧
    ((∀ a ∈ after, ∀ i' s' b, a = .patch i' s' b → b.getD (modelMinval i'.1) = minsb.getD (modelMinval i.1)) →
      (Verif.Cache.getModelPatch w t i s minsb).2 = render t.masks i.1 s.1 (minsb.getD (modelMinval i.1))) := by
  have := Verif.Cache.C22_cached_patch_partial w m hm m0 before after hno t ht (by
    intro a b a' b' hk
    rw [hw] at hk ⊢
    obtain ⟨e1, e2⟩ := C123_key_partial one c shape a.1 a'.1 b.1 b'.1 (hI _ a.2) (hI _ a'.2) (hS _ b.2) (hS _ b'.2)
      (hcol _ _ _ _ a.2 b.2 a'.2 b'.2 hk)
    simp only [e1, e2]) i s minsb
  rw [hw] at this ⊢
  exact this

end pos

/-! ## Objects for examples -/

/-- A point source at `PixPos(x, y)` with fluxes in g and r. -/
def star (x y g r : Int) : Obj Int :=
  .multi "PointSource" (.cons (.list "PixPos" [x, y] []) (.cons (.list "NanoMaggies" [g, r] ["g", "r"]) .nil)) [none, none]

/-- An image with a small PSF. -/
def tim (id : Nat) : Image Int :=
  { data := id, inverr := id + 1, H := 5, W := 7, psf := .shiftedPsf 3 4 (.pixPsf [[0, 1, 0], [1, 2, 1], [0, 1, 0]] 1 false),
    sky := .list "ConstantSky" [0] [], wcs := .nullWcs 0 0 1, photocal := .list "LinearPhotoCal" [1] ["g"] }

/-- The conventions of a program with such objects. -/
def conv : Conventions Int :=
  { container := fun cls => cls == "PointSource", attrs := fun cls => if cls = "NanoMaggies" then ["g", "r"] else if cls = "LinearPhotoCal" then ["g"] else [],
    own := fun _ => [none, none], pixscale := 1, content := fun _ => [], psfEx := fun _ _ => (0, 0, [], false) }

/-- They keep to them, and different stars have different keys. -/
example : KeepsImage 1 conv (fun _ => (5, 7)) (tim 10) ∧ (∀ x y g r, Keeps 1 conv (star x y g r)) ∧ deps (tim 10) (star 1 2 3 4) ≠ deps (tim 10) (star 1 2 3 5) := by
  refine ⟨?_, ?_, ?_⟩
  · simp [KeepsImage, Keeps, tim, conv, reserved]
  · simp [Keeps, KeepAll, star, conv, reserved]
  · simp [deps, Keys.ofList, star, Obj.key, Objs.keys]

/-- The hash takes in the whole key: as long as Python's hashes of the numbers, strings, identities and tuples of hashes in them do not collide, those of keys do not
either.  Partial: they can collide, see `C123_hash_false`. -/
theorem C123_collision_partial (h : Hashing R) (c : NoClash h) (i j : Image R) (s t : Obj R) (e : (deps i s).hash h = (deps j t).hash h) : deps i s = deps j t :=
  hash_inj h c _ _ e

/-- There are such hashes. -/
example : NoClash (R := Int) ⟨fun x => 5 * x, fun s => 5 * (Encodable.encode (s.toList.map Char.toNat) : Nat) + 1, 2, fun n => 5 * n + 3,
    fun l => 5 * (Encodable.encode l : Nat) + 4⟩ := by
  constructor
  · intro a b h
    simp only at h
    omega
  · intro a b h
    simp only at h
    have h1 : Encodable.encode (a.toList.map Char.toNat) = Encodable.encode (b.toList.map Char.toNat) := by omega
    have h2 := Encodable.encode_injective h1
    have h3 : a.toList = b.toList := List.map_injective_iff.2 (fun x y hxy => Char.toNat_inj.1 hxy) h2
    exact String.toList_inj.1 h3
  · intro a b h
    simp only at h
    omega
  · intro a b h
    simp only at h
    have h1 : Encodable.encode a = Encodable.encode b := by omega
    exact Encodable.encode_injective h1
  all_goals intros; simp only; omega

/-! ## Negations -/

/-- C123 is false because the hash of the keys is used in place of the keys: Python's hashes of -1 and -2 are equal, and with an empty cache, after a star at x = -1
the model of a star at x = -2 in the same image is that of the first, whatever hashes strings and tuples have. -/
theorem C123_hash_false (h : Hashing Int) (hn : h.num = hashInt) (i : Image Int) (y g r : Int) :
    deps i (star (-1) y g r) ≠ deps i (star (-2) y g r) ∧ (deps i (star (-1) y g r)).hash h = (deps i (star (-2) y g r)).hash h ∧
    ∀ render : Unit → Image Int → Obj Int → Int → Option (Obj Int), (∀ s r, render () i s r = some s) →
      let w := world h render (fun _ _ _ => none) (fun _ => 0)
      (Verif.Cache.getModelPatch w (Verif.Cache.runActs w ⟨some (Verif.Cache.empty 100), ()⟩ [.patch i (star (-1) y g r) none]) i (star (-2) y g r) none).2
        = some (star (-1) y g r) := by
  have hh : (deps i (star (-1) y g r)).hash h = (deps i (star (-2) y g r)).hash h := by
    have e : hashInt (-1) = hashInt (-2) := by decide
    simp only [deps, Keys.ofList, star, Obj.key, Objs.keys, Key.hash, Keys.hashes, List.map, hn, e]
  refine ⟨?_, hh, ?_⟩
  · simp [deps, Keys.ofList, star, Obj.key, Objs.keys]
  · intro render hr w
    have hk : w.key i (star (-2) y g r) = w.key i (star (-1) y g r) := hh.symm
    have hr' : ∀ s r, w.render () i s r = some s := hr
    have hm : w.modelMinval i = 0 := rfl
    generalize star (-1) y g r = s1 at *
    generalize star (-2) y g r = s2 at *
    simp only [Verif.Cache.runActs, List.foldl, Verif.Cache.act, Verif.Cache.getModelPatch, hk, hr', hm]
    generalize w.key i s1 = k
    simp [Verif.Cache.getD, Verif.Cache.get, Verif.Cache.empty, Verif.Cache.find, Verif.Cache.store, Verif.Cache.assign]

/-- C123 is false for multi-band brightnesses: the key has no bands, so that a star with fluxes g = 1, r = 2 and one with g = 2, r = 1 given in the other order have
the same key. -/
theorem C123_bands_false : ∃ a b : Obj Int, a.key = b.key ∧ getBand a "g" = some 1 ∧ getBand b "g" = some 2 ∧ getBand a "r" = some 2 ∧ getBand b "r" = some 1 :=
  ⟨.list "NanoMaggies" [1, 2] ["g", "r"], .list "NanoMaggies" [1, 2] ["r", "g"], rfl, by decide, by decide, by decide, by decide⟩

/-- C123 is false for calibrations: the key has no band. -/
theorem C123_photocal_false : ∃ a b : Obj Int, a = .list "LinearPhotoCal" [1] ["g"] ∧ b = .list "LinearPhotoCal" [1] ["r"] ∧ a.key = b.key :=
  ⟨_, _, rfl, rfl, rfl⟩

/-- C123 is false for `NullWCS` with different pixel scales, on which the shapes of galaxies depend. -/
theorem C123_pixscale_false (dx dy p q : Int) : (Obj.nullWcs dx dy p).key = (Obj.nullWcs dx dy q).key := rfl

/-- C123 is false for `TanWcs`: setting any of the eight parameters of the projection, as an optimizer does, does not change the key. -/
theorem C123_tan_false (x0 y0 : Int) (wcs : Nat) (content : List Int) (k : Nat) (hk : k < 8) (hl : content.length = 8) (v : Int) :
    (tanSetThing (.fitsWcs x0 y0 wcs content) k v).key = (Obj.fitsWcs x0 y0 wcs content).key ∧
    (content[k]? ≠ some v → tanSetThing (.fitsWcs x0 y0 wcs content) k v ≠ .fitsWcs x0 y0 wcs content) := by
  unfold tanSetThing
  dsimp only
  rw [if_pos hk]
  refine ⟨rfl, fun h e => h ?_⟩
  simp only [Obj.fitsWcs.injEq, true_and] at e
  rw [← e, List.getElem?_set_self (by omega)]

/-- C123 is false for pixelized PSFs: shape, sampling and normalisation are not in the key. -/
theorem C123_psf_false (a b c : Int) (sampling sampling' : Int) (n n' : Bool) :
    (Obj.pixPsf [[a, b, c]] sampling n).key = (Obj.pixPsf [[a], [b], [c]] sampling' n').key := rfl

/-- C123 is false for PsfEx models: shifting in place does not change the key, and shifted copies (as made for subimages) of all models share one key, whatever
their files and shifts. -/
theorem C123_psfex_false (fn fn' : Option String) (ext ext' : Nat) (x0 y0 x0' y0' : Int) (bs bs' : List Int) (n n' : Bool) (dx dy dx' dy' : Int) :
    (shift (.psfEx fn ext x0 y0 bs n) dx dy).key = (Obj.psfEx fn ext x0 y0 bs n).key ∧
    (getShifted (.psfEx fn ext x0 y0 bs n) dx dy).key = (getShifted (.psfEx fn' ext' x0' y0' bs' n') dx' dy').key := ⟨rfl, rfl⟩

/-- C123 is false for wrappers with attributes of their own (`SdssBrightPSF`): their key is that of what they wrap. -/
theorem C123_wrapper_false (real : Obj Int) (own own' : List Int) : (Obj.wrapper real own).key = (Obj.wrapper real own').key ∧
    (Obj.wrapper real own).key = real.key := ⟨by simp [Obj.key], by simp [Obj.key]⟩

/-- C123 is false for attributes of sources that are not parameters (`fixedRadius` of a point source). -/
theorem C123_attributes_false (cls : String) (subs : Objs Int) (own own' : List (Option Int)) : (Obj.multi cls subs own).key = (Obj.multi cls subs own').key := by
  simp [Obj.key]

/-- Two galaxies' WCS, two stars with different radii, two shifted PSFs: different objects. -/
example : Obj.nullWcs 0 0 (1 : Int) ≠ .nullWcs 0 0 2 ∧ Obj.multi "PointSource" .nil [some (3 : Int), none] ≠ .multi "PointSource" .nil [none, none] ∧
    getShifted (.psfEx (some "a") 1 0 0 [1] false) 5 5 ≠ getShifted (.psfEx (some "b") 1 0 (0 : Int) [2] false) 7 7 ∧
    (tanSetThing (.fitsWcs (0 : Int) 0 3 [0, 0, 1, 1, 1, 0, 0, 1]) 2 5) ≠ .fitsWcs 0 0 3 [0, 0, 1, 1, 1, 0, 0, 1] := by
  refine ⟨?_, ?_, ?_, ?_⟩
  · simp
  · simp
  · simp [getShifted]
  · simp [tanSetThing]

end Verif.Hashed
