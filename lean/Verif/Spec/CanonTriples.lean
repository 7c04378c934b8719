import Verif.Spec.Canon

/-!
# Canonical texts of triples templates and quads
-/

namespace NomSparql

/-- One or more semicolons with white space around them. -/
def cSemis : Lang := Plus (Ws ⬝ lit c!";") ⬝ Ws

/-- One or more dots with white space around them, and some before the first. -/
def cDots : Lang := Ws1 ⬝ lit c!"." ⬝ Star (Ws ⬝ lit c!".") ⬝ Ws

/-- A variable or term (nested collections and property lists are not accepted in object position, see C35). -/
def cNode : GraphNode → Lang
  | .varOrTerm v => cVarOrTerm v
  | .triplesNode _ => fun _ => False

/-- `verb object , object ...` -/
def cVerbList : VerbList → Lang
  | .mk v os => cVerb v ⬝ Ws1 ⬝ Sep1 commaL cNode os

/-- `verb objects ; verb objects ... ;` -/
def cPropertyList : PropertyList → Lang
  | .mk l => Sep1 cSemis cVerbList l ⬝ Star (Ws ⬝ lit c!";")

/-- `( node node ... )` or `[ property list ]` -/
def cTriplesNode : TriplesNode → Lang
  | .collection l => paren (Ws ⬝ Sep1 Ws1 cNode l ⬝ Ws)
  | .blankNodePropertyList p => lit c!"[" ⬝ Ws ⬝ cPropertyList p ⬝ Ws ⬝ lit c!"]"

/-- `subject property list` -/
def cTriplesSameSubject : TriplesSameSubject → Lang
  | .term v p => cVarOrTerm v ⬝ Ws1 ⬝ cPropertyList p
  | .node n none => cTriplesNode n
  | .node n (some p) => cTriplesNode n ⬝ Ws ⬝ cPropertyList p

/-- Triples separated by dots. -/
def cTriples (l : List TriplesSameSubject) : Lang := Sep1 cDots cTriplesSameSubject l

/-- An optional dot, after white space. -/
def cDot : Bool → Lang := rFlag (Ws1 ⬝ lit c!".")

/-- Triples with an optional final dot. -/
def cTemplate (l : List TriplesSameSubject) : Lang := cTriples l ⬝ fun d => ∃ b, cDot b d

/-- `{ triples }` or `{ }` -/
def cBlock (o : Option (List TriplesSameSubject)) : Lang := lit c!"{" ⬝ Ws ⬝ rOpt cTemplate o ⬝ Ws ⬝ lit c!"}"

/-- `GRAPH g { triples }` -/
def cGraphBlock (q : QuadsNotTriples) : Lang := kw c!"graph" ⬝ Ws1 ⬝ cVarOrIri q.varOrIri ⬝ Ws ⬝ cBlock q.triplesTemplate

/-- `GRAPH g { triples }`, an optional dot directly after the brace, and triples directly after that; when another entry
follows these triples must end with a dot. -/
def cEntry (last : Bool) (e : QuadsEntry) : Lang := cGraphBlock e.quadsNotTriples ⬝ (fun d => ∃ b, rFlag (lit c!".") b d) ⬝
  rOpt (fun l => cTriples l ⬝ fun d => ∃ b, cDot b d ∧ (last = false → b = true)) e.triplesTemplate

/-- Entries without white space between them. -/
def cEntries : List QuadsEntry → Lang
  | [] => eps
  | [e] => cEntry true e
  | e :: e' :: l => cEntry false e ⬝ cEntries (e' :: l)

/-- `{ triples entries }`; when entries follow the triples must end with a dot. -/
def cQuads (q : Quads) : Lang := lit c!"{" ⬝ Ws ⬝
  rOpt (fun l => cTriples l ⬝ (fun d => ∃ b, cDot b d ∧ (q.entries ≠ [] → b = true)) ⬝ Ws) q.firstTriple ⬝
  cEntries q.entries ⬝ Ws ⬝ lit c!"}"

end NomSparql
