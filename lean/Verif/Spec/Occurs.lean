import Verif.Spec.Filled
import Verif.Spec.Render

/-!
# Leaves that stand in the text

`Occurs R i a`: some contiguous part of `i` is a text of `a`.  The texts of the leaves are those of Spec/Render: a sigil and the characters of the name
for a variable, `<`, the characters and `>` for an IRI, the quoted characters for a string, digits of that value for a number, and so on.
-/

namespace NomSparql

def Occurs (R : α → Lang) (i : Str) (a : α) : Prop := ∃ t, t <:+: i ∧ R a t

/-- Every leaf occurs in `i`; none of the marked constructors. -/
def textLeaves (i : Str) : Leaves :=
  ⟨Occurs rVar i, Occurs rIri i, Occurs rRdfLiteral i, Occurs rNumericLiteral i, Occurs rBlankNode i, Occurs rLimitOffset i, Occurs StringText i,
    Occurs rBaseOrPrefixDecl i, False⟩

/-- The marks without which a kind of leaf cannot be written. -/
def markLeaves (i : Str) : Leaves :=
  ⟨fun v => sigil v ∈ i, fun x => match x with | .iri _ => '<' ∈ i ∧ '>' ∈ i | .prefixedName _ => ':' ∈ i, fun _ => '"' ∈ i ∨ '\'' ∈ i,
    fun _ => ∃ c ∈ i, AsciiDigit c, fun b => match b with | .anon => '[' ∈ i ∧ ']' ∈ i | .label _ => '_' ∈ i ∧ ':' ∈ i, fun _ => ∃ c ∈ i, AsciiDigit c,
    fun _ => '"' ∈ i ∨ '\'' ∈ i, fun _ => '<' ∈ i ∧ '>' ∈ i, False⟩

end NomSparql
