import Verif.Spec.Filled

/-!
# Restrictions that SPARQL 1.1 puts on top of its grammar

Section 19.8 of the recommendation, notes 5 to 8 and 12, and section 4.1.1: no variables in INSERT DATA and DELETE DATA, no blank nodes in
DELETE DATA and DELETE WHERE, every prefix declared.
-/

namespace NomSparql

/-- Nothing is required of any part. -/
def anyLeaves : Leaves := ⟨fun _ => True, fun _ => True, fun _ => True, fun _ => True, fun _ => True, fun _ => True, fun _ => True, fun _ => True, True⟩

/-- No variables. -/
def noVars : Leaves := { anyLeaves with var := fun _ => False }

/-- No blank nodes.  (`[ p o ]` and collections, which also stand for blank nodes, are not counted.) -/
def noBlanks : Leaves := { anyLeaves with blank := fun _ => False }

/-- The prologue declares the prefix; `none` is the empty prefix. -/
def Declares (p : Prologue) (x : Option Str) : Prop := ∃ i, .prefix ⟨x, i⟩ ∈ p.decls

/-- The prefixes of all prefixed names are declared. -/
def declared (p : Prologue) : Leaves := { anyLeaves with
  iri := fun
    | .iri _ => True
    | .prefixedName (.pnameLN x _) => Declares p x
    | .prefixedName (.pnameNS x) => Declares p x }

end NomSparql
