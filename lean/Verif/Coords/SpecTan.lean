import Verif.Coords.Tan

/-!
# Ten numbers with flags

What a user thinks a `TanWcs` is: ten named numbers, each thawed or frozen.
-/

namespace Verif.Coords

variable {R : Type}

/-- Change the `i`-th thawed number. -/
def setNth : List (Bool × R) → Nat → R → List (Bool × R)
  | [], _, _ => []
  | (false, x) :: s, i, v => (false, x) :: setNth s i v
  | (true, _) :: s, 0, v => (true, v) :: s
  | (true, x) :: s, i + 1, v => (true, x) :: setNth s i v

/-- Give the thawed numbers new values as long as there are any. -/
def assign : List (Bool × R) → List R → List (Bool × R)
  | [], _ => []
  | (false, x) :: s, p => (false, x) :: assign s p
  | (true, _) :: s, v :: p => (true, v) :: assign s p
  | s, [] => s

/-- The numbers that are thawed. -/
def thawed (s : List (Bool × R)) : List R := (s.filter (·.1)).map (·.2)

/-- What an action does to the ten numbers. -/
def specStep (s : List (Bool × R)) : TanOp R → List (Bool × R)
  | .setParam i v => if i < 0 then s else setNth s i.toNat v
  | .setParams p => assign s p
  | .setFlag i b => s.modify i (fun e => (b, e.2))
  | .setX0Y0 x y => (s.modify 8 (fun e => (e.1, x))).modify 9 (fun e => (e.1, y))

/-- The projection with ten given numbers: a sky position in zero-based pixels of a cutout. -/
def tenToPix [Field R] (lib : TanLib R) : List R → R → R → Option (R × R)
  | [cv1, cv2, cp1, cp2, m11, m12, m21, m22, x, y], ra, dec =>
    let p := lib.toPix ⟨cv1, cv2, cp1, cp2, ⟨m11, m12, m21, m22⟩⟩ ra dec
    some (p.1 - (1 + x), p.2 - (1 + y))
  | _, _, _ => none

/-- The matrix in the ten numbers. -/
def tenCd : List R → Option (Mat R)
  | [_, _, _, _, m11, m12, m21, m22, _, _] => some ⟨m11, m12, m21, m22⟩
  | _ => none

/-- The action does not thaw an entry of the matrix. -/
def sparesMatrix : TanOp R → Prop
  | .setFlag i b => b = true → i ∉ [4, 5, 6, 7]
  | _ => True

end Verif.Coords
