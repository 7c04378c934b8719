import Verif.Spec.Render

/-!
# Canonical texts

Renderings used as inputs of the acceptance theorems: no white space inside tokens, prefixed names with a
prefix and a local part, and a delimiter after every token.  Like `Verif/Spec/Render.lean` this
file speaks about texts and AST types only.
-/

namespace NomSparql

/-- Characters that may follow a token directly. -/
def Delim (c : Char) : Prop := c ∈ [' ', '\t', '\r', '\n', '#', ',', ';', ')', '}', ']', '{', '(', '=', '!', '<', '>', '&', '|', '*', '/']

instance : DecidablePred Delim := fun c => by unfold Delim; infer_instance

/-- `r` may follow a token: it is empty or begins with a delimiter, and no colon comes after its leading
white space (the crate would take `true :x` for the prefixed name `true:x`). -/
def Follow (r : Str) : Prop := (∀ c r', r = c :: r' → Delim c) ∧ ∀ w r', r = w ++ ':' :: r' → ¬ Ws w

/-! ## Tokens -/

def cVar (v : Var) : Lang := fun s => s = sigil v :: varNameOf v ∧ varNameOf v ≠ [] ∧
  ∀ c ∈ varNameOf v, W3CVarStart c ∧ c.toNat < 0x10000

/-- A legal IRI character whose low byte is not a control character or blank (the crate rejects the others). -/
def CIriChar (c : Char) : Prop := ¬ W3CIriForbidden c ∧ 0x20 < c.toNat % 256

def cIriRef (x : Str) : Lang := fun s => s = '<' :: (x ++ ['>']) ∧ ∀ c ∈ x, CIriChar c

def cIri : Iri → Lang
  | .iri x => cIriRef x
  | .prefixedName (.pnameLN (some p) l) => fun s => s = p ++ ':' :: l ∧
      PrefixName CommonBase CommonNameChar p ∧ LocalName CommonLocalStart CommonLocalChar l
  | .prefixedName _ => fun _ => False

def cDescriptor : RdfLiteralDescriptor → Lang
  | .langTag t => rLangTag t
  | .iriRef i => lit c!"^^" ⬝ cIri i

def cRdfLiteral (l : RdfLiteral) : Lang := StringText l.literal ⬝ rOpt cDescriptor l.descriptor

/-- Integers in range, decimals with a point, doubles with an exponent in range; not beginning with the point. -/
def cNumericLiteral : NumericLiteral → Lang
  | .int v => fun s => IntText s v ∧ FitsI64 v
  | .double d none => fun s => MantText s d ∧ '.' ∈ s ∧ s.head? ≠ some '.'
  | .double d (some e) => (fun s => MantText s d ∧ s.head? ≠ some '.') ⬝ fun s => ExpText s e ∧ FitsI64 e

/-- A blank node label on which the crate and SPARQL 1.1 agree. -/
def cBlankNode : BlankNode → Lang
  | .anon => lit c!"[" ⬝ Ws ⬝ lit c!"]"
  | .label l => fun s => s = '_' :: ':' :: l ∧ LegalLabel l

def cGraphTerm : GraphTerm → Lang
  | .iri i => cIri i
  | .rdfLiteral l => cRdfLiteral l
  | .numericLiteral n => cNumericLiteral n
  | .booleanLiteral b => rBoolean b
  | .blankNode b => cBlankNode b
  | .nil => rNil

def cVarOrIri : VarOrIri → Lang
  | .var v => cVar v
  | .iri i => cIri i

def cVarOrTerm : VarOrTerm → Lang
  | .var v => cVar v
  | .term t => cGraphTerm t

def cVerb : Verb → Lang
  | .varOrIri v => cVarOrIri v
  | .a => lit c!"a"

def cDataBlockValue : DataBlockValue → Lang
  | .iri i => cIri i
  | .rdfLiteral l => cRdfLiteral l
  | .numericLiteral n => cNumericLiteral n
  | .booleanLiteral b => rBoolean b
  | .undef => kw c!"undef"

/-! ## Clauses -/

/-- `BASE <iri>` or `PREFIX p: <iri>`. -/
def cDecl : BaseOrPrefixDecl → Lang
  | .base x => kw c!"base" ⬝ Ws1 ⬝ cIriRef x
  | .prefix d => kw c!"prefix" ⬝ Ws ⬝ (fun s => s = prefixText d.pnameNs ∧ OptPrefix CommonBase CommonNameChar d.pnameNs) ⬝
      lit c!":" ⬝ Ws ⬝ cIriRef d.iriRef

/-- Declarations separated by white space. -/
def cPrologue (p : Prologue) : Lang := Sep0 Ws1 cDecl p.decls

/-- `g` or `NAMED g`. -/
def cDefaultOrNamedIri : DefaultOrNamedIri → Lang
  | .named i => kw c!"named" ⬝ Ws1 ⬝ cIri i
  | .default i => cIri i

def cDataSetClause (d : DataSetClause) : Lang := kw c!"from" ⬝ Ws1 ⬝ cDefaultOrNamedIri d
def cUsingClause (d : DefaultOrNamedIri) : Lang := kw c!"using" ⬝ Ws1 ⬝ cDefaultOrNamedIri d

/-- A brace, values separated by white space, a brace. -/
def cValues (l : List DataBlockValue) : Lang := Ws ⬝ Sep0 Ws1 cDataBlockValue l ⬝ Ws

/-- `( v1 v2 ... )` -/
def cRow (row : List DataBlockValue) : Lang := paren (cValues row)

/-- `?v { v1 v2 ... }` or `( ?v1 ?v2 ... ) { row row ... }`. -/
def cDataBlock : DataBlock → Lang
  | .inlineDataOneVar d => cVar d.var ⬝ Ws ⬝ lit c!"{" ⬝ cValues d.values ⬝ lit c!"}"
  | .inlineDataFull d => paren (Ws ⬝ Sep0 Ws1 cVar d.vars ⬝ Ws) ⬝ Ws ⬝ lit c!"{" ⬝
      (Ws ⬝ Sep0 Ws cRow d.dataBlockValues ⬝ Ws) ⬝ lit c!"}"

end NomSparql
