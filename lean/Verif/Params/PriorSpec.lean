import Verif.Params.Spec
import Verif.Params.Model2

/-!
# Specification vocabulary for priors
-/

namespace Verif.Params

variable {α : Type}

mutual
/-- Every scalar parameter with its value and the (mean, sigma) of the priors put on it, as
(thawed along its whole path?, value, priors). -/
def priorLeavesFrom (up : Bool) : Par α → List (Bool × α × List (α × α))
  | .scalar s => [(up, s.val, [])]
  | .plist l => l.slots.zipIdx.map (fun x =>
      (up && x.1.liquid, x.1.val, (l.priors.filter (fun t => t.1 = x.2)).map (·.2)))
  | .multi subs => priorLeavesFromSubs up subs
def priorLeavesFromSubs (up : Bool) : Subs α → List (Bool × α × List (α × α))
  | .nil => []
  | .cons _ liquid s rest => priorLeavesFrom (up && liquid) s ++ priorLeavesFromSubs up rest
  | .missing _ _ rest => priorLeavesFromSubs up rest
end

/-- The thawed parameters in order: value and priors. -/
def thawedPriors (t : Par α) : List (α × List (α × α)) :=
  ((priorLeavesFrom true t).filter (·.1)).map (·.2)

mutual
/-- Priors refer to existing parameters (`addGaussianPrior` looks the name up) and have non-zero
widths (the code divides by them). -/
def PriorsOK [Zero α] : Par α → Prop
  | .scalar _ => True
  | .plist l => ∀ t ∈ l.priors, t.1 < l.slots.length ∧ t.2.2 ≠ 0
  | .multi subs => PriorsOKSubs subs
def PriorsOKSubs [Zero α] : Subs α → Prop
  | .nil => True
  | .cons _ _ s rest => PriorsOK s ∧ PriorsOKSubs rest
  | .missing _ _ rest => PriorsOKSubs rest
end

mutual
/-- In the lists reached through thawed entries, every parameter with a prior is thawed. -/
def PriorsThawed : Par α → Prop
  | .scalar _ => True
  | .plist l => ∀ t ∈ l.priors, ∀ s, l.slots[t.1]? = some s → s.liquid = true
  | .multi subs => PriorsThawedSubs subs
def PriorsThawedSubs : Subs α → Prop
  | .nil => True
  | .cons _ liquid s rest => (liquid = true → PriorsThawed s) ∧ PriorsThawedSubs rest
  | .missing _ _ rest => PriorsThawedSubs rest
end

mutual
/-- In the lists reached through thawed entries, every parameter is thawed. -/
def ListsThawed : Par α → Prop
  | .scalar _ => True
  | .plist l => ∀ s ∈ l.slots, s.liquid = true
  | .multi subs => ListsThawedSubs subs
def ListsThawedSubs : Subs α → Prop
  | .nil => True
  | .cons _ liquid s rest => (liquid = true → ListsThawed s) ∧ ListsThawedSubs rest
  | .missing _ _ rest => ListsThawedSubs rest
end

/-- One row of the sparse prior matrix: row and column number, matrix element, right-hand side and
mean. -/
structure Entry (α : Type) where
  row : Nat
  col : Nat
  val : α
  b : α
  mu : α

/-- The five parallel lists spell out the given entries, one each. -/
structure Represents (d : PriorDerivs α) (es : List (Entry α)) : Prop where
  rows : d.rows = es.map (fun e => [e.row])
  cols : d.cols = es.map (·.col)
  vals : d.vals = es.map (fun e => [e.val])
  bs : d.bs = es.map (fun e => [e.b])
  mus : d.mus = es.map (fun e => [e.mu])

/-- `None` stands for no entries. -/
def RepresentsOpt : Option (PriorDerivs α) → List (Entry α) → Prop
  | none, es => es = []
  | some d, es => Represents d es

section chi
variable [Field α]

/-- The elements (row, column, value) of the sparse matrix `A`. -/
def cells (d : PriorDerivs α) : List (Nat × Nat × α) :=
  ((d.rows.zip d.cols).zip d.vals).flatMap (fun x =>
    (x.1.1.zip x.2).map (fun y => (y.1, x.1.2, y.2)))

/-- The elements (row, value) of the right-hand side `b`. -/
def rhs (d : PriorDerivs α) : List (Nat × α) :=
  (d.rows.zip d.bs).flatMap (fun x => x.1.zip x.2)

/-- Component `i` of `b - A x`. -/
def residual (d : PriorDerivs α) (x : List α) (i : Nat) : α :=
  (((rhs d).filter (fun e => e.1 = i)).map (·.2)).sum -
    (((cells d).filter (fun e => e.1 = i)).map (fun e => e.2.2 * (x[e.2.1]?).getD 0)).sum

/-- `‖b - A x‖²` over the first `n` rows. -/
def normSq (d : PriorDerivs α) (x : List α) (n : Nat) : α :=
  ((List.range n).map (fun i => residual d x i ^ 2)).sum

/-- `‖b - A x‖²` for the result of `getLogPriorDerivatives` (`None`: no rows). -/
def linearChi : Option (PriorDerivs α) → List α → α
  | none, _ => 0
  | some d, x => normSq d x d.rows.length

end chi

/-- What a container holds: (sub-object, thawed?) pairs. -/
def Cont.pairs {β : Type} (c : Cont β) : List (β × Bool) := c.subs.zip c.liquid

/-- What an edit should do to the (sub-object, thawed?) pairs. -/
def specEdit {β : Type} [DecidableEq β] (ps : List (β × Bool)) : Edit β → List (β × Bool)
  | .append x => ps ++ [(x, true)]
  | .prepend x => (x, true) :: ps
  | .extend xs => ps ++ xs.map (fun x => (x, true))
  | .remove x => ps.eraseP (fun p => p.1 = x)
  | .freeze i => ps.modify i (fun p => (p.1, false))
  | .thaw i => ps.modify i (fun p => (p.1, true))

end Verif.Params
