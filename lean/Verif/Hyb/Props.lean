import Verif.Hyb.Model

/-!
# C182: attributes of hybrid PSFs
-/

namespace Verif.Hyb

variable {V G : Type}

/-- A name that a hybrid PSF passes on to its pixelized PSF. -/
def Passed (h : Hybrid G) (name : String) : Prop := name ≠ "pix" ∧ ¬ (name = "gauss" ∧ h.gauss.isSome = true) ∧ name ∉ own

theorem getAttr_passed (shape : (String → Option V) → V) (cls : String → Option V) (H : Heap V) (h : Hybrid G) (a : Nat) (ha : h.pix = some a) (name : String) (hp : Passed h name) :
    getAttr shape cls H h name = (pixGet shape cls (H.attrs a) name).map .value := by
  unfold getAttr
  rw [if_neg hp.1, if_neg hp.2.1, if_neg hp.2.2, ha]

theorem getAttr_not_passed (shape : (String → Option V) → V) (cls : String → Option V) (H H' : Heap V) (h : Hybrid G) (name : String) (hp : ¬ Passed h name) :
    getAttr shape cls H h name = getAttr shape cls H' h name := by
  unfold getAttr
  by_cases h1 : name = "pix"
  · rw [if_pos h1, if_pos h1]
  · rw [if_neg h1, if_neg h1]
    by_cases h2 : name = "gauss" ∧ h.gauss.isSome = true
    · rw [if_pos h2, if_pos h2]
    · rw [if_neg h2, if_neg h2]
      by_cases h3 : name ∈ own
      · rw [if_pos h3, if_pos h3]
      · exact absurd ⟨h1, h2, h3⟩ hp

/-- **Writing**: `h.name = v` (not `pix`, `gauss`, `shape`) never fails for a complete hybrid PSF, and then for every hybrid PSF `h'` and every other name than `shape`: `h'.n` is `v` if
`h'` has the same pixelized PSF, `n` is the name and `h'` passes it on; otherwise it is what it was. -/
theorem C182_write (shape : (String → Option V) → V) (cls : String → Option V) (H : Heap V) (h : Hybrid G) (a : Nat) (ha : h.pix = some a) (name : String) (hs : name ≠ "shape") (v : V) :
    (setAttr H h name v).2 = none ∧ ∀ (h' : Hybrid G) (n : String), n ≠ "shape" →
      (h'.pix = some a ∧ n = name ∧ Passed h' n → getAttr shape cls (setAttr H h name v).1 h' n = .ok (.value v)) ∧
      (¬ (h'.pix = some a ∧ n = name ∧ Passed h' n) → getAttr shape cls (setAttr H h name v).1 h' n = getAttr shape cls H h' n) := by
  have e : setAttr H h name v = ({ H with attrs := fun b n => if b = a ∧ n = name then some v else H.attrs b n }, none) := by
    unfold setAttr pixSet
    rw [ha]
    exact if_neg hs
  rw [e]
  refine ⟨rfl, fun h' n hn => ⟨fun ⟨h1, h2, h3⟩ => ?_, fun hx => ?_⟩⟩
  · rw [getAttr_passed shape cls _ h' a h1 n h3]
    unfold pixGet
    dsimp only
    rw [if_neg hn, if_pos ⟨rfl, h2⟩]
    rfl
  · by_cases hp : Passed h' n
    · rcases hb : h'.pix with _ | b
      · unfold getAttr
        rw [if_neg hp.1, if_neg hp.2.1, if_neg hp.2.2, if_neg hp.1, if_neg hp.2.1, if_neg hp.2.2, hb]
      · rw [getAttr_passed shape cls _ h' b hb n hp, getAttr_passed shape cls _ h' b hb n hp]
        unfold pixGet
        dsimp only
        rw [if_neg hn, if_neg hn, if_neg]
        rintro ⟨rfl, rfl⟩
        exact hx ⟨hb, rfl, hp⟩
    · exact getAttr_not_passed shape cls _ _ h' n hp

/-- **Methods of its own** stay: after `h.copy = v` the attribute is still the method, although the pixelized PSF has the value now. -/
theorem C182_own (shape : (String → Option V) → V) (cls : String → Option V) (H : Heap V) (h : Hybrid G) (a : Nat) (ha : h.pix = some a) (name : String) (hn : name ∈ own) (v : V) :
    getAttr shape cls (setAttr H h name v).1 h name = .ok (.method name) ∧ pixGet shape cls ((setAttr H h name v).1.attrs a) name = .ok v := by
  have hs : name ≠ "shape" := by
    rintro rfl
    revert hn
    decide
  have h1 : name ≠ "pix" := by
    rintro rfl
    revert hn
    decide
  have h2 : name ≠ "gauss" := by
    rintro rfl
    revert hn
    decide
  constructor
  · unfold getAttr
    rw [if_neg h1, if_neg (fun hh => h2 hh.1), if_pos hn]
  · unfold setAttr pixSet
    rw [ha]
    dsimp only
    rw [if_neg hs]
    unfold pixGet
    dsimp only
    rw [if_neg hs, if_pos ⟨rfl, rfl⟩]

/-- **Replacing the Gaussian**: `h.gauss = g` changes no other attribute; the hash key, and with it all that is kept by it, does not depend on `gauss`. -/
theorem C182_gauss (shape : (String → Option V) → V) (cls : String → Option V) (H : Heap V) (h : Hybrid G) (g : G) (name : String) (hn : name ≠ "gauss") :
    getAttr shape cls H (setGauss h g) name = getAttr shape cls H h name ∧ getAttr shape cls H (setGauss h g) "gauss" = .ok (.gauss g) := by
  constructor
  · unfold getAttr setGauss
    dsimp only
    by_cases h1 : name = "pix"
    · rw [if_pos h1, if_pos h1]
    · simp only [h1, hn, false_and, if_false]
  · rfl

/-- **Replacing the pixelized PSF**: after `h.pix = p` every name that is passed on is that of `p`, and `gauss` is what it was. -/
theorem C182_pix (shape : (String → Option V) → V) (cls : String → Option V) (H : Heap V) (h : Hybrid G) (a : Nat) :
    getAttr shape cls H (setPix h a) "pix" = .ok (.pix a) ∧ (setPix h a).gauss = h.gauss ∧
      ∀ name, Passed h name → getAttr shape cls H (setPix h a) name = (pixGet shape cls (H.attrs a) name).map .value :=
  ⟨rfl, rfl, fun name hp => getAttr_passed shape cls H (setPix h a) a rfl name hp⟩

/-- **Shifted PSFs that vary**: if the pixelized PSF gives a new one, the result of `getShifted` or `constantPsfAt` has its attributes and the old Gaussian, and nothing there was changes. -/
theorem C182_moved (shape : (String → Option V) → V) (cls : String → Option V) (move : (String → Option V) → Option (String → Option V)) (H : Heap V) (a : Nat) (g : G)
    (at' : String → Option V) (hm : move (H.attrs a) = some at') :
    getAttr shape cls (shifted move H a g).1 (shifted move H a g).2 "gauss" = .ok (.gauss g) ∧
    (∀ name, Passed (⟨some a, some g⟩ : Hybrid G) name → getAttr shape cls (shifted move H a g).1 (shifted move H a g).2 name = (pixGet shape cls at' name).map .value) ∧
    (∀ (h' : Hybrid G) (b : Nat), h'.pix = some b → b < H.next → ∀ n, getAttr shape cls (shifted move H a g).1 h' n = getAttr shape cls H h' n) := by
  have e : shifted move H a g = ({ attrs := fun b => if b = H.next then at' else H.attrs b, next := H.next + 1 }, ⟨some H.next, some g⟩) := by
    unfold shifted
    rw [hm]
  rw [e]
  refine ⟨rfl, fun name hp => ?_, fun h' b hb hlt n => ?_⟩
  · rw [getAttr_passed shape cls _ (⟨some H.next, some g⟩ : Hybrid G) H.next rfl name hp]
    dsimp only
    rw [if_pos rfl]
  · by_cases hp : Passed h' n
    · rw [getAttr_passed shape cls _ h' b hb n hp, getAttr_passed shape cls _ h' b hb n hp]
      dsimp only
      rw [if_neg (Nat.ne_of_lt hlt)]
    · exact getAttr_not_passed shape cls _ _ h' n hp

/-- **Shifted PSFs share**: if the pixelized PSF is the same everywhere (`PixelizedPSF`), what is written through the result of `getShifted` or `constantPsfAt` is seen in the original,
and the other way round. -/
theorem C182_shared (shape : (String → Option V) → V) (cls : String → Option V) (move : (String → Option V) → Option (String → Option V)) (H : Heap V) (a : Nat) (g : G)
    (hm : move (H.attrs a) = none) (name : String) (hp : Passed (⟨some a, some g⟩ : Hybrid G) name) (hs : name ≠ "shape") (v : V) :
    getAttr shape cls (setAttr (shifted move H a g).1 (shifted move H a g).2 name v).1 (⟨some a, some g⟩ : Hybrid G) name = .ok (.value v) ∧
      getAttr shape cls (setAttr (shifted move H a g).1 (⟨some a, some g⟩ : Hybrid G) name v).1 (shifted move H a g).2 name = .ok (.value v) := by
  have e : shifted move H a g = (H, ⟨some a, some g⟩) := by
    unfold shifted
    rw [hm]
  rw [e]
  have := ((C182_write shape cls H (⟨some a, some g⟩ : Hybrid G) a rfl name hs v).2 ⟨some a, some g⟩ name hs).1 ⟨rfl, rfl, hp⟩
  exact ⟨this, this⟩

/-- **Copies do not share**: a copy has its own pixelized PSF, with the attributes that its constructor makes; what is written through it is not seen in any hybrid PSF there was, and what is
written through one of those is not seen in the copy. -/
theorem C182_copy (shape : (String → Option V) → V) (cls : String → Option V) (dup : (String → Option V) → (String → Option V)) (H : Heap V) (a : Nat) (g : G) :
    (∀ name, Passed (⟨some a, some g⟩ : Hybrid G) name → getAttr shape cls (copied dup H a g).1 (copied dup H a g).2 name = (pixGet shape cls (dup (H.attrs a)) name).map .value) ∧
    (∀ (h' : Hybrid G) (b : Nat), h'.pix = some b → b < H.next → ∀ n, getAttr shape cls (copied dup H a g).1 h' n = getAttr shape cls H h' n) ∧
    (∀ (h' : Hybrid G) (b : Nat), h'.pix = some b → b < H.next → ∀ name v n, name ≠ "shape" → n ≠ "shape" →
      getAttr shape cls (setAttr (copied dup H a g).1 (copied dup H a g).2 name v).1 h' n = getAttr shape cls (copied dup H a g).1 h' n ∧
      getAttr shape cls (setAttr (copied dup H a g).1 h' name v).1 (copied dup H a g).2 n = getAttr shape cls (copied dup H a g).1 (copied dup H a g).2 n) := by
  refine ⟨fun name hp => ?_, fun h' b hb hlt n => ?_, fun h' b hb hlt name v n hs hn => ⟨?_, ?_⟩⟩
  · rw [getAttr_passed shape cls _ (copied dup H a g).2 H.next rfl name hp]
    unfold copied
    dsimp only
    rw [if_pos rfl]
  · by_cases hp : Passed h' n
    · rw [getAttr_passed shape cls _ h' b hb n hp, getAttr_passed shape cls _ h' b hb n hp]
      unfold copied
      dsimp only
      rw [if_neg (Nat.ne_of_lt hlt)]
    · exact getAttr_not_passed shape cls _ _ h' n hp
  · refine ((C182_write shape cls (copied dup H a g).1 (copied dup H a g).2 H.next rfl name hs v).2 h' n hn).2 ?_
    rintro ⟨h1, _⟩
    rw [hb] at h1
    exact absurd (Option.some.inj h1) (Nat.ne_of_lt hlt)
  · refine ((C182_write shape cls (copied dup H a g).1 h' b hb name hs v).2 (copied dup H a g).2 n hn).2 ?_
    rintro ⟨h1, _⟩
    exact absurd (Option.some.inj h1).symm (Nat.ne_of_lt hlt)

/-- **An unfinished object** (made by `__new__`): every name that is not of the class ends in RecursionError, and every assignment but of `pix` and `gauss` in KeyError. -/
theorem C182_unfinished (shape : (String → Option V) → V) (cls : String → Option V) (H : Heap V) (name : String) (hn : name ∉ own) (v : V) :
    getAttr shape cls H (⟨none, none⟩ : Hybrid G) name = .error .runtime ∧ setAttr H (⟨none, none⟩ : Hybrid G) name v = (H, some .key) := by
  refine ⟨?_, rfl⟩
  unfold getAttr
  by_cases h1 : name = "pix"
  · rw [if_pos h1]
  · rw [if_neg h1, if_neg (fun hh => by cases hh.2), if_neg hn]

/-! A pixelized PSF with a sampling of 2. -/

def exHeap : Heap Nat := ⟨fun a n => if a = 0 ∧ n = "sampling" then some 2 else none, 1⟩
def exHyb : Hybrid Nat := ⟨some 0, some 7⟩
def exCls (n : String) : Option Nat := if n = "hashkey" then some 100 else none

example : getAttr (fun _ => 5) exCls (setAttr exHeap exHyb "sampling" 3).1 ⟨some 0, some 8⟩ "sampling" = .ok (.value 3) :=
  ((C182_write (fun _ => 5) exCls exHeap exHyb 0 rfl "sampling" (by decide) 3).2 ⟨some 0, some 8⟩ "sampling" (by decide)).1 ⟨rfl, rfl, by decide, by decide, by decide⟩

example : getAttr (fun _ => 5) exCls (setAttr exHeap exHyb "copy" 3).1 exHyb "copy" = .ok (.method "copy") :=
  (C182_own (fun _ => 5) exCls exHeap exHyb 0 rfl "copy" (by decide) 3).1

-- the same hash key with another Gaussian
example : getAttr (fun _ => 5) exCls exHeap (setGauss exHyb 9) "hashkey" = .ok (.value 100) := by
  rw [(C182_gauss (fun _ => 5) exCls exHeap exHyb 9 "hashkey" (by decide)).1]
  rfl

example : getAttr (fun _ => 5) exCls exHeap (setPix exHyb 3) "hashkey" = .ok (.value 100) := by
  rw [(C182_pix (fun _ => 5) exCls exHeap exHyb 3).2.2 "hashkey" ⟨by decide, by decide, by decide⟩]
  rfl

example : getAttr (fun _ => 5) exCls (shifted (fun _ => some fun n => if n = "sampling" then some 4 else none) exHeap 0 7).1
    (shifted (fun _ => some fun n => if n = "sampling" then some 4 else none) exHeap 0 7).2 "sampling" = .ok (.value 4) := by
  rw [(C182_moved (fun _ => 5) exCls (fun _ => some fun n => if n = "sampling" then some 4 else none) exHeap 0 7 _ rfl).2.1 "sampling" ⟨by decide, by decide, by decide⟩]
  rfl

example := C182_shared (fun _ => 5) exCls (fun _ => none) exHeap 0 7 rfl "sampling" ⟨by decide, by decide, by decide⟩ (by decide) 3

-- the copy of psf.py 120-121 has a sampling of 1
example : getAttr (fun _ => 5) exCls (copied (fun _ n => if n = "sampling" then some 1 else none) exHeap 0 7).1
    (copied (fun _ n => if n = "sampling" then some 1 else none) exHeap 0 7).2 "sampling" = .ok (.value 1) := by
  rw [(C182_copy (fun _ => 5) exCls (fun _ n => if n = "sampling" then some 1 else none) exHeap 0 7).1 "sampling" ⟨by decide, by decide, by decide⟩]
  rfl

example := C182_unfinished (G := Nat) (fun _ => 5) exCls exHeap "sampling" (by decide) 3

end Verif.Hyb
