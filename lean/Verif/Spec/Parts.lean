import Verif.Spec.Lex
import Verif.Model.Update

/-!
# The parts of an update request
-/

namespace NomSparql

/-- The operations of an update request in order, each with the prologue before it. -/
def partsOf : Update → List (Prologue × Option UpdateStatement)
  | .mk p s none => [(p, s)]
  | .mk p s (some u) => (p, s) :: partsOf u

/-- The request ends with an operation, not with a prologue or a semicolon. -/
def EndsWithStmt (u : Update) : Prop := ∃ p s, (partsOf u).getLast? = some (p, some s)

end NomSparql
