import Verif.Py

/-!
# Operations on dictionaries and what they show
-/

namespace Verif.Odict

open Verif

/-- What one can do with a dictionary. -/
inductive Op (K V : Type) where
  | set (k : K) (v : V)
  | del (k : K)
  | get (k : K)
  | pop (k : K) (dflt : Option V)
  | popitem (last : Bool)
  | setdefault (k : K) (v : V)
  | update (l : List (K × V))
  | clear

/-- What one sees of it. -/
inductive Out (K V : Type) where
  | done
  | val (v : V)
  | item (k : K) (v : V)
  | err (e : PyErr)

end Verif.Odict
