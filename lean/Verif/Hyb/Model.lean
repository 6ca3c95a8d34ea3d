import Verif.Py

/-!
# Model of hybrid PSFs as objects

tractor/psf.py 600-656 `HybridPixelizedPSF`: attributes, `getShifted`, `constantPsfAt`, `copy`, pickling; over `PixelizedPSF` 107-129.
-/

namespace Verif.Hyb

variable {V G : Type}

/-- The objects: the attributes of the pixelized PSFs by address, the next free address. -/
structure Heap (V : Type) where
  attrs : Nat → String → Option V
  next : Nat

/-- The dictionary of a hybrid PSF: its `pix` (an address) and `gauss` (a value: no method here changes it); both missing in an object made by `__new__`. `gauss` is not None, else `getShifted` and `copy` would fit a new one. -/
structure Hybrid (G : Type) where
  pix : Option Nat
  gauss : Option G

/-- What an attribute can be. -/
inductive Val (V G : Type)
  | pix (a : Nat)
  | gauss (g : G)
  | method (name : String)
  | value (v : V)
deriving DecidableEq

/-- The names that the class of the hybrid PSF defines, psf.py 606-655. Its base class (64-65) adds none; names that python gives to every object (`__class__`, `__dict__`, `__doc__`, …)
are left out: the model is of the other names. -/
def own : List String := ["copy", "getMixtureOfGaussians", "getShifted", "constantPsfAt", "__init__", "__str__", "__getattr__", "__setattr__", "__getstate__", "__setstate__"]

/-- `getattr(pix, name)`: the property `shape` of psf.py 113-115 first, then the attributes of the object, then those of the class (`cls`). -/
def pixGet (shape : (String → Option V) → V) (cls : String → Option V) (attrs : String → Option V) (name : String) : Except PyErr V :=
  if name = "shape" then .ok (shape attrs)
  else
    match attrs name with
    | some v => .ok v
    | none =>
      match cls name with
      | some v => .ok v
      | none => .error .attribute

/-- `setattr(pix, name, v)`: AttributeError for the property, which has no setter. -/
def pixSet (H : Heap V) (a : Nat) (name : String) (v : V) : Heap V × Option PyErr :=
  if name = "shape" then (H, some .attribute)
  else ({ H with attrs := fun b n => if b = a ∧ n = name then some v else H.attrs b n }, none)

/-- `h.name`: the dictionary, the class, and then `__getattr__` (psf.py 640-642), which reads `self.pix`; without it that calls `__getattr__` again, until RecursionError (a
RuntimeError). -/
def getAttr (shape : (String → Option V) → V) (cls : String → Option V) (H : Heap V) (h : Hybrid G) (name : String) : Except PyErr (Val V G) :=
  if name = "pix" then
    match h.pix with
    | some a => .ok (.pix a)
    | none => .error .runtime
  else if name = "gauss" ∧ h.gauss.isSome then
    match h.gauss with
    | some g => .ok (.gauss g)
    | none => .error .runtime
  else if name ∈ own then .ok (.method name)
  else
    match h.pix with
    | none => .error .runtime
    | some a => (pixGet shape cls (H.attrs a) name).map .value

/-- `h.name = v` for another name than `pix` and `gauss`, psf.py 644-648: KeyError if there is no `pix`. -/
def setAttr (H : Heap V) (h : Hybrid G) (name : String) (v : V) : Heap V × Option PyErr :=
  match h.pix with
  | none => (H, some .key)
  | some a => pixSet H a name v

/-- `h.pix = p`, `h.gauss = g`, psf.py 646-647. -/
def setPix (h : Hybrid G) (a : Nat) : Hybrid G := { h with pix := some a }

def setGauss (h : Hybrid G) (g : G) : Hybrid G := { h with gauss := some g }

/-- `getShifted` and `constantPsfAt`, psf.py 632-638, with `move` the method of the pixelized PSF: it gives the same object (`PixelizedPSF`, 123-129), or a new one with these
attributes (`PixelizedPsfEx`). -/
def shifted (move : (String → Option V) → Option (String → Option V)) (H : Heap V) (a : Nat) (g : G) : Heap V × Hybrid G :=
  match move (H.attrs a) with
  | none => (H, ⟨some a, some g⟩)
  | some at' => ({ attrs := fun b => if b = H.next then at' else H.attrs b, next := H.next + 1 }, ⟨some H.next, some g⟩)

/-- `copy`, psf.py 625-627, and pickling (651-655): a new pixelized PSF with the attributes `dup` makes (all of them for a pickle; those of a new object with the same image, psf.py
120-121, for `copy`); `gauss` is copied as a value. -/
def copied (dup : (String → Option V) → (String → Option V)) (H : Heap V) (a : Nat) (g : G) : Heap V × Hybrid G :=
  ({ attrs := fun b => if b = H.next then dup (H.attrs a) else H.attrs b, next := H.next + 1 }, ⟨some H.next, some g⟩)

end Verif.Hyb
