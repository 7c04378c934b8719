import Verif.Spec.Names
import Verif.Spec.Filled

/-!
# Well-formed names, literals and numbers

What a user may assume about the leaves of a returned tree, with the character classes of SPARQL 1.1 or, for names, an outer bound for them
(`NameChar`: ASCII letters and digits, `_` and non-ASCII characters; see C21 for the exact class).
-/

namespace NomSparql

def GoodVar (v : Var) : Prop := varNameOf v ≠ [] ∧ ∀ c ∈ varNameOf v, NameChar c

def GoodPrefix (o : Option Str) : Prop := OptPrefix NameChar OuterNameChar o

def GoodIri : Iri → Prop
  | .iri s => ∀ c ∈ s, ¬ W3CIriForbidden c
  | .prefixedName (.pnameLN o l) => GoodPrefix o ∧ LocalName (fun c => NameChar c ∨ c = ':') OuterLocalChar l
  | .prefixedName (.pnameNS o) => GoodPrefix o

/-- A string that can stand between quotes. -/
def GoodString (s : Str) : Prop := s ≠ [] ∧ ∃ q, (q = '\'' ∨ q = '"') ∧ StrBody q s

def GoodLiteral (l : RdfLiteral) : Prop :=
  GoodString l.literal ∧
  match l.descriptor with
  | none => True
  | some (.langTag t) => LangTag t
  | some (.iriRef i) => GoodIri i

/-- Integers and exponents fit into an i64; the scale of a decimal is that of some digit string with this mantissa. -/
def GoodNumber : NumericLiteral → Prop
  | .int v => FitsI64 v
  | .double d o => (∃ s, MantText s d) ∧ ∀ v ∈ o, FitsI64 v

def GoodBlank : BlankNode → Prop
  | .anon => True
  | .label s => PrefixName NameChar OuterNameChar s

/-- LIMIT and OFFSET fit into a u64. -/
def GoodLimit : LimitOffsetClause → Prop
  | .limitOffset l o => l < 2 ^ 64 ∧ ∀ n ∈ o, n < 2 ^ 64
  | .offsetLimit o l => o < 2 ^ 64 ∧ ∀ n ∈ l, n < 2 ^ 64

/-- A declaration of the prologue. -/
def GoodDecl : BaseOrPrefixDecl → Prop
  | .base s => ∀ c ∈ s, ¬ W3CIriForbidden c
  | .prefix d => GoodPrefix d.pnameNs ∧ ∀ c ∈ d.iriRef, ¬ W3CIriForbidden c

/-- All of them, and none of the marked constructors. -/
def goodLeaves : Leaves := ⟨GoodVar, GoodIri, GoodLiteral, GoodNumber, GoodBlank, GoodLimit, GoodString, GoodDecl, False⟩

end NomSparql
