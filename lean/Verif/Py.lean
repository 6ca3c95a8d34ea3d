/-!
# Shared vocabulary for the models

Python exceptions are values of `PyErr`.  A mutating method is modelled as a function that
returns the state left behind together with either a result or the exception raised, so that
the state after a failing call is visible too.
-/

namespace Verif

/-- The Python exceptions that occur in the modelled code. -/
inductive PyErr where
  | assertion
  | index
  | key
  | runtime
  | attribute
  | typeErr
  | nameErr
  | zeroDiv
  | value
  deriving DecidableEq, Repr

/-- Python's `seq[i:i+n]` for `0 ≤ i`, `0 ≤ n`. -/
def pySlice {α : Type} (p : List α) (i n : Nat) : List α := (p.drop i).take n

end Verif
