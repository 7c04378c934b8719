import Verif.Spec.Names

/-!
# Renderings: which texts spell a given AST

For every AST type a relation `rX : X → Lang`; `rX a s` says that `s` spells `a`.  The relations are written over
texts only and do not mention the parsers.  They are the grammar of SPARQL 1.1 as far as the crate's
types go, with white space placed as in the crate; places where the spelling the crate accepts
differs from SPARQL 1.1 are marked DEVIATION.

Recursive types: the relation for one level takes the relation for the recursive occurrences as a parameter;
`rXN n` allows nesting depth at most `n`, and `rX a s` says that `rXN n a s` for some `n`.
-/

namespace NomSparql

/-! ## Combinators -/

/-- Optional part. -/
def rOpt (R : α → Lang) : Option α → Lang
  | none => eps
  | some a => R a

/-- A flag: the text is there exactly when the flag is set. -/
def rFlag (L : Lang) : Bool → Lang
  | true => L
  | false => eps

/-- The members of a list one after the other. -/
def Many (R : α → Lang) : List α → Lang
  | [] => eps
  | a :: l => R a ⬝ Many R l

/-- The same, at least one. -/
def Many1 (R : α → Lang) : List α → Lang
  | [] => fun _ => False
  | a :: l => R a ⬝ Many R l

/-- A non-empty list with separators. -/
def Sep1 (sep : Lang) (R : α → Lang) : List α → Lang
  | [] => fun _ => False
  | a :: l => R a ⬝ Many (fun b => sep ⬝ R b) l

/-- A list with separators. -/
def Sep0 (sep : Lang) (R : α → Lang) : List α → Lang
  | [] => eps
  | a :: l => R a ⬝ Many (fun b => sep ⬝ R b) l

/-- Any number of repetitions. -/
inductive Star (L : Lang) : Lang
  | nil : Star L []
  | cons {a s} : L a → Star L s → Star L (a ++ s)

/-- At least one repetition. -/
def Plus (L : Lang) : Lang := L ⬝ Star L

/-- Surrounded by white space. -/
def enc (L : Lang) : Lang := Ws ⬝ L ⬝ Ws
/-- Surrounded by non-empty white space. -/
def enc1 (L : Lang) : Lang := Ws1 ⬝ L ⬝ Ws1
/-- In parentheses. -/
def paren (L : Lang) : Lang := lit c!"(" ⬝ L ⬝ lit c!")"
/-- Keyword, white space, parenthesised argument. -/
def call (k : Str) (L : Lang) : Lang := kw k ⬝ Ws ⬝ paren L
/-- A comma surrounded by white space. -/
def commaL : Lang := enc (lit c!",")

/-! ## Terms -/

/-- A variable: sigil, white space, name. -/
def rVar (v : Var) : Lang := lit [sigil v] ⬝ Ws ⬝
  fun s => s = varNameOf v ∧ s ≠ [] ∧ ∀ c ∈ s, CodedVarChar c

/-- `<...>` -/
def rIriRef (x : Str) : Lang := fun s => s = '<' :: (x ++ ['>']) ∧ ∀ c ∈ x, ¬ W3CIriForbidden c

/-- `prefix:` (DEVIATION: white space before the colon). -/
def rPnameNs (o : Option Str) : Lang :=
  (fun s => s = prefixText o ∧ OptPrefix CodedBase CodedNameChar o) ⬝ Ws ⬝ lit c!":"

/-- `prefix:local` (DEVIATION: white space around the colon). -/
def rPrefixedName : PrefixedName → Lang
  | .pnameLN o l => rPnameNs o ⬝ Ws ⬝
      fun s => s = l ∧ LocalName CodedLocalStart CodedLocalChar l
  | .pnameNS o => rPnameNs o

def rIri : Iri → Lang
  | .iri x => rIriRef x
  | .prefixedName n => rPrefixedName n

def rLangTag (t : Str) : Lang := fun s => s = '@' :: t ∧ LangTag t

def rDescriptor : RdfLiteralDescriptor → Lang
  | .langTag t => rLangTag t
  | .iriRef i => lit c!"^^" ⬝ rIri i

def rRdfLiteral (l : RdfLiteral) : Lang := StringText l.literal ⬝ rOpt rDescriptor l.descriptor

/-- Integers by value; doubles by mantissa and exponent (DEVIATION: an integer outside i64 is a double). -/
def rNumericLiteral : NumericLiteral → Lang
  | .int v => fun s => IntText s v ∧ FitsI64 v
  | .double d e => (fun s => MantText s d) ⬝ rOpt (fun v s => ExpText s v ∧ FitsI64 v) e

def rBoolean : Bool → Lang
  | true => kw c!"true"
  | false => kw c!"false"

def rBlankNode : BlankNode → Lang
  | .anon => lit c!"[" ⬝ Ws ⬝ lit c!"]"
  | .label l => lit c!"_:" ⬝ Ws ⬝ fun s => s = l ∧ PrefixName CodedLabelStart CodedNameChar l

def rNil : Lang := lit c!"(" ⬝ Ws ⬝ lit c!")"

def rGraphTerm : GraphTerm → Lang
  | .iri i => rIri i
  | .rdfLiteral l => rRdfLiteral l
  | .numericLiteral n => rNumericLiteral n
  | .booleanLiteral b => rBoolean b
  | .blankNode b => rBlankNode b
  | .nil => rNil

def rVarOrIri : VarOrIri → Lang
  | .var v => rVar v
  | .iri i => rIri i

def rVarOrTerm : VarOrTerm → Lang
  | .var v => rVar v
  | .term t => rGraphTerm t

/-- DEVIATION: `A` is accepted for `a`. -/
def rVerb : Verb → Lang
  | .varOrIri v => rVarOrIri v
  | .a => kw c!"a"

def rVarOrIrisOrAll : VarOrIrisOrAll → Lang
  | .varIri l => Sep1 Ws rVarOrIri l
  | .all => lit c!"*"

def rDefaultOrNamedIri : DefaultOrNamedIri → Lang
  | .named i => kw c!"named" ⬝ Ws1 ⬝ rIri i
  | .default i => rIri i

def rGraphRef (i : Iri) : Lang := kw c!"graph" ⬝ Ws1 ⬝ rIri i

def rGraphOrDefault : GraphOrDefault → Lang
  | .default => kw c!"default"
  | .graph i => fun s => rIri i s ∨ rGraphRef i s

def rGraphRefAll : GraphRefAll → Lang
  | .default => kw c!"default"
  | .named => kw c!"named"
  | .all => kw c!"all"
  | .graphRef i => rGraphRef i

/-! ## Prologue, data, simple clauses -/

def rBaseOrPrefixDecl : BaseOrPrefixDecl → Lang
  | .base x => kw c!"base" ⬝ Ws1 ⬝ rIriRef x
  | .prefix d => kw c!"prefix" ⬝ enc (rPnameNs d.pnameNs) ⬝ rIriRef d.iriRef

def rPrologue (p : Prologue) : Lang := Sep0 Ws1 rBaseOrPrefixDecl p.decls

def rDataSetClause (d : DataSetClause) : Lang := kw c!"from" ⬝ Ws1 ⬝ rDefaultOrNamedIri d
def rUsingClause (d : DefaultOrNamedIri) : Lang := kw c!"using" ⬝ Ws1 ⬝ rDefaultOrNamedIri d

def rDataBlockValue : DataBlockValue → Lang
  | .iri i => rIri i
  | .rdfLiteral l => rRdfLiteral l
  | .numericLiteral n => rNumericLiteral n
  | .booleanLiteral b => rBoolean b
  | .undef => kw c!"undef"

def rInlineDataOneVar (d : InlineDataOneVar) : Lang :=
  rVar d.var ⬝ enc (lit c!"{") ⬝ Many (fun v => enc (rDataBlockValue v)) d.values ⬝ Ws ⬝ lit c!"}"

def rInlineDataFull (d : InlineDataFull) : Lang :=
  paren (Ws ⬝ Many (fun v => enc (rVar v)) d.vars) ⬝ enc (lit c!"{") ⬝
    Many (fun row => enc (paren (Ws ⬝ Many (fun v => enc (rDataBlockValue v)) row))) d.dataBlockValues ⬝
    Ws ⬝ lit c!"}"

def rDataBlock : DataBlock → Lang
  | .inlineDataOneVar d => rInlineDataOneVar d
  | .inlineDataFull d => rInlineDataFull d

def rValues (d : DataBlock) : Lang := kw c!"values" ⬝ Ws1 ⬝ rDataBlock d

/-- An unsigned 64-bit number. -/
def rU64 (n : Nat) : Lang := fun s => DecVal s n ∧ n < 2 ^ 64

def rLimit (n : Nat) : Lang := kw c!"limit" ⬝ Ws ⬝ rU64 n
def rOffset (n : Nat) : Lang := kw c!"offset" ⬝ Ws ⬝ rU64 n

def rLimitOffset : LimitOffsetClause → Lang
  | .limitOffset l o => rLimit l ⬝ Ws ⬝ rOpt rOffset o
  | .offsetLimit o l => rOffset o ⬝ Ws ⬝ rOpt rLimit l

/-! ## Triples templates -/

section
variable (gn : GraphNode → Lang)

def rCollectionS (l : List GraphNode) : Lang := paren (Many1 (fun g => enc (gn g)) l)
def rObjectListS (l : List GraphNode) : Lang := Sep1 commaL gn l
def rVerbListS : VerbList → Lang
  | .mk v l => rVerb v ⬝ Ws ⬝ rObjectListS gn l
def rPropertyListS : PropertyList → Lang
  | .mk l => Sep1 (enc (Plus (enc (lit c!";")))) (rVerbListS gn) l ⬝ Star (Ws ⬝ lit c!";")
def rTriplesNodeS : TriplesNode → Lang
  | .collection l => rCollectionS gn l
  | .blankNodePropertyList p => lit c!"[" ⬝ Ws ⬝ rPropertyListS gn p ⬝ Ws ⬝ lit c!"]"
def rGraphNodeS : GraphNode → Lang
  | .varOrTerm v => rVarOrTerm v
  | .triplesNode t => rTriplesNodeS gn t
end

/-- Nesting depth at most `n`. -/
def rGraphNodeN : Nat → GraphNode → Lang
  | 0 => fun _ _ => False
  | n + 1 => rGraphNodeS (rGraphNodeN n)

def rGraphNode (g : GraphNode) : Lang := fun s => ∃ n, rGraphNodeN n g s

def rObjectList := rObjectListS rGraphNode
def rPropertyList := rPropertyListS rGraphNode
def rTriplesNode := rTriplesNodeS rGraphNode

/-- A dot surrounded by white space, repeated. -/
def dots : Lang := Plus (enc (lit c!"."))

def rTriplesSameSubject : TriplesSameSubject → Lang
  | .term t p => rVarOrTerm t ⬝ Ws1 ⬝ rPropertyList p
  | .node t p => rTriplesNode t ⬝ Ws ⬝ rOpt rPropertyList p

def rTriplesTemplate (l : TriplesTemplate) : Lang :=
  Sep1 dots rTriplesSameSubject l ⬝ fun s => s = [] ∨ (Ws ⬝ lit c!".") s

def rQuadsNotTriples (q : QuadsNotTriples) : Lang :=
  kw c!"graph" ⬝ enc (rVarOrIri q.varOrIri) ⬝
    lit c!"{" ⬝ enc (rOpt rTriplesTemplate q.triplesTemplate) ⬝ lit c!"}"

def rQuadsEntry (q : QuadsEntry) : Lang :=
  rQuadsNotTriples q.quadsNotTriples ⬝ (fun s => s = [] ∨ s = c!".") ⬝ rOpt rTriplesTemplate q.triplesTemplate

def rQuads (q : Quads) : Lang :=
  rOpt (fun t => rTriplesTemplate t ⬝ Ws) q.firstTriple ⬝ Many rQuadsEntry q.entries

def rQuadsPattern (q : Quads) : Lang := lit c!"{" ⬝ Ws ⬝ rQuads q ⬝ Ws ⬝ lit c!"}"

/-! ## Property paths -/

def rIriOrA : IriOrA → Lang
  | .iri i => rIri i
  | .a => kw c!"a"

def rIriOrAOrCaret : IriOrAOrCaret → Lang
  | .iriOrA x => rIriOrA x
  | .caret x => lit c!"^" ⬝ rIriOrA x

def rPathMod : PathMod → Lang
  | .questionMark => lit c!"?"
  | .asterisk => lit c!"*"
  | .plus => lit c!"+"

section
variable (pa : PathAlternative → Lang)

def rPathPrimaryS : PathPrimary → Lang
  | .iri i => rIri i
  | .a => lit c!"a"
  | .pathNegatedPropertySet l => lit c!"!" ⬝ lit c!"(" ⬝ Ws ⬝
      Sep1 (enc (lit c!"|")) rIriOrAOrCaret l ⬝ Ws ⬝ lit c!")"
  | .path p => paren (pa p)

/-- DEVIATION: white space is required before the modifier. -/
def rPathEltS : PathElt → Lang
  | .mk p m => rPathPrimaryS pa p ⬝ rOpt (fun m => Ws1 ⬝ rPathMod m) m

def rPathEltOrInverseS : PathEltOrInverse → Lang
  | .pathElt e => rPathEltS pa e
  | .inverse e => lit c!"^" ⬝ rPathEltS pa e

/-- DEVIATION: the members of a sequence are separated by `|` instead of `/`. -/
def rPathSequenceS : PathSequence → Lang
  | .mk l => Sep1 (enc (lit c!"|")) (rPathEltOrInverseS pa) l

def rPathAlternativeS : PathAlternative → Lang
  | .mk l => Sep1 (enc (lit c!"|")) (rPathSequenceS pa) l
end

def rPathAlternativeN : Nat → PathAlternative → Lang
  | 0 => fun _ _ => False
  | n + 1 => rPathAlternativeS (rPathAlternativeN n)

def rPathAlternative (p : PathAlternative) : Lang := fun s => ∃ n, rPathAlternativeN n p s

def rVerbPathOrSimple : VerbPathOrSimple → Lang
  | .path p => rPathAlternative p
  | .simple v => rVar v

def rPropertyListPathEntry (e : PropertyListPathEntry) : Lang :=
  rVerbPathOrSimple e.verbPathOrSimple ⬝ Ws1 ⬝ rObjectList e.objectList

section
variable (gn : GraphNodePath → Lang)

/-- DEVIATION: the objects of the first verb are separated by `;` instead of `,`. -/
def rObjectListPathS (l : List GraphNodePath) : Lang := Sep1 (enc (lit c!";")) gn l

def rPropertyListPathS : PropertyListPath → Lang
  | .mk v os es => rVerbPathOrSimple v ⬝ Ws1 ⬝ rObjectListPathS gn os ⬝
      Many (fun e => Plus (enc (lit c!";")) ⬝ rPropertyListPathEntry e) es

def rTriplesNodePathS : TriplesNodePath → Lang
  | .collectionPath l => paren (Many1 gn l)
  | .blankNodePropertyListPath p => lit c!"[" ⬝ Ws ⬝ rPropertyListPathS gn p ⬝ Ws ⬝ lit c!"]"

def rGraphNodePathS : GraphNodePath → Lang
  | .varOrTerm v => rVarOrTerm v
  | .triplesNodePath t => rTriplesNodePathS gn t
end

def rGraphNodePathN : Nat → GraphNodePath → Lang
  | 0 => fun _ _ => False
  | n + 1 => rGraphNodePathS (rGraphNodePathN n)

def rGraphNodePath (g : GraphNodePath) : Lang := fun s => ∃ n, rGraphNodePathN n g s

def rPropertyListPath := rPropertyListPathS rGraphNodePath
def rTriplesNodePath := rTriplesNodePathS rGraphNodePath

def rTriplesSameSubjectPath : TriplesSameSubjectPath → Lang
  | .term t p => rVarOrTerm t ⬝ Ws1 ⬝ rPropertyListPath p
  | .node t p => rTriplesNodePath t ⬝ Ws ⬝ rOpt rPropertyListPath p

def rTriplesBlock (b : TriplesBlock) : Lang := Sep1 dots rTriplesSameSubjectPath b.triples

/-! ## Expressions and graph patterns -/

/-- Relations for the recursive occurrences. -/
structure Rel where
  expr : Expression → Lang
  ggp : GroupGraphPattern → Lang

def rDistinct : Bool → Lang := rFlag (kw c!"distinct" ⬝ Ws1)
def rSilent : Bool → Lang := rFlag (kw c!"silent" ⬝ Ws1)

def rOrder : Order → Lang
  | .asc => kw c!"asc"
  | .desc => kw c!"desc"

def rSelectModifier : SelectModifier → Lang
  | .distinct => kw c!"distinct"
  | .reduced => kw c!"reduced"

section
variable (Q : Rel)

/-- `e1, e2` -/
def rPairS (a b : Expression) : Lang := Q.expr a ⬝ commaL ⬝ Q.expr b
/-- `, e` -/
def rMoreS (e : Expression) : Lang := commaL ⬝ Q.expr e

/-- `e AS ?v` -/
def rAsVarS : ExpressionAsVar → Lang
  | .mk e v => Q.expr e ⬝ enc (kw c!"as") ⬝ rVar v
/-- `e [AS ?v]` -/
def rAsVarOptS : ExpressionAsVarOpt → Lang
  | .mk e v => Q.expr e ⬝ rOpt (fun v => enc1 (kw c!"as") ⬝ rVar v) v
def rExpressionAsVarS (x : ExpressionAsVar) : Lang := paren (enc (rAsVarS Q x))
def rExpressionAsVarOptS (x : ExpressionAsVarOpt) : Lang := paren (enc (rAsVarOptS Q x))
def rExpressionListS : ExpressionList → Lang
  | .nil => rNil
  | .list l => paren (Sep1 commaL Q.expr l)
def rDistinctExpressionS : DistinctExpression → Lang
  | .mk d e => rDistinct d ⬝ Q.expr e
def rBrackettedS (e : Expression) : Lang := paren (enc (Q.expr e))
def rTripleArgsS (a b : Expression) (c : Option Expression) : Lang :=
  paren (Q.expr a ⬝ rMoreS Q b ⬝ rOpt (rMoreS Q) c)
/-- `REGEX (a, b[, c])` -/
def rRegexS : RegexExpression → Lang
  | .mk a b c => kw c!"regex" ⬝ Ws1 ⬝ rTripleArgsS Q a b c
/-- `SUBSTR (a, b[, c])` -/
def rSubstrS : RegexExpression → Lang
  | .mk a b c => kw c!"substr" ⬝ Ws1 ⬝ rTripleArgsS Q a b c
def rStrReplaceS : StrReplaceExpression → Lang
  | .mk a b c d => paren (Q.expr a ⬝ rMoreS Q b ⬝ rMoreS Q c ⬝ rOpt (rMoreS Q) d)
def rArgListS : ArgList → Lang
  | .nil => rNil
  | .expression d l => lit c!"(" ⬝ Ws ⬝ rDistinct d ⬝ Sep1 commaL Q.expr l ⬝ lit c!")"
def rFunctionCallS : FunctionCall → Lang
  | .mk i a => rIri i ⬝ Ws ⬝ rArgListS Q a
def rIriOrFunctionS : IriOrFunction → Lang
  | .mk i a => rIri i ⬝ rOpt (fun a => Ws1 ⬝ rArgListS Q a) a

def rCountTargetS : CountTarget → Lang
  | .all => lit c!"*"
  | .expr e => Q.expr e
def rCountS : Count → Lang
  | .mk d t => call c!"count" (rDistinct d ⬝ rCountTargetS Q t)
/-- `; SEPARATOR = "..."` -/
def rSeparator (s : Str) : Lang :=
  Ws ⬝ lit c!";" ⬝ enc (kw c!"separator") ⬝ lit c!"=" ⬝ Ws ⬝ StringText s
def rGroupConcatS : GroupConcat → Lang
  | .mk e s => call c!"group_concat" (rDistinctExpressionS Q e ⬝ rOpt rSeparator s)
def rAggregateS : Aggregate → Lang
  | .count c => rCountS Q c
  | .sum e => call c!"sum" (rDistinctExpressionS Q e)
  | .min e => call c!"min" (rDistinctExpressionS Q e)
  | .max e => call c!"max" (rDistinctExpressionS Q e)
  | .avg e => call c!"avg" (rDistinctExpressionS Q e)
  | .sample e => call c!"sample" (rDistinctExpressionS Q e)
  | .groupConcat g => rGroupConcatS Q g

/-- The argument of BNODE (DEVIATION: without argument, a second pair of parentheses). -/
def rBnodeArgS : Option Expression → Lang
  | some e => Q.expr e
  | none => rNil

/-- Built-in calls.  DEVIATIONS: `uri` also stands for abs, ceil, floor and round; `contains` is spelled
`strlen`; the argument-less functions are spelled with two pairs of parentheses; `concat` and `strLen` take the
text of a second call. -/
def rBuiltInCallS : BuiltInCall → Lang
  | .aggregate a => rAggregateS Q a
  | .str e => call c!"str" (Q.expr e)
  | .lang e => call c!"lang" (Q.expr e)
  | .langMatches a b => call c!"langmatches" (rPairS Q a b)
  | .datatype e => call c!"datatype" (Q.expr e)
  | .bound v => call c!"bound" (rVar v)
  | .iri e => call c!"iri" (Q.expr e)
  | .uri e => fun s => ∃ k ∈ [c!"uri", c!"abs", c!"ceil", c!"floor", c!"round"], call k (Q.expr e) s
  | .bnode o => call c!"bnode" (rBnodeArgS Q o)
  | .rand => call c!"rand" rNil
  | .abs e => call c!"abs" (Q.expr e)
  | .ceil e => call c!"ceil" (Q.expr e)
  | .floor e => call c!"floor" (Q.expr e)
  | .round e => call c!"round" (Q.expr e)
  | .concat l s => kw c!"concat" ⬝ Ws1 ⬝ rExpressionListS Q l ⬝ Ws ⬝ rSubstrS Q s
  | .strLen e s => kw c!"strlen" ⬝ Ws1 ⬝ rBrackettedS Q e ⬝ Ws ⬝ rStrReplaceS Q s
  | .uCase e => call c!"ucase" (Q.expr e)
  | .lCase e => call c!"lcase" (Q.expr e)
  | .encodeForUri e => call c!"encode_for_uri" (Q.expr e)
  | .contains a b => call c!"strlen" (rPairS Q a b)
  | .strStarts a b => call c!"strstarts" (rPairS Q a b)
  | .strEnds a b => call c!"strends" (rPairS Q a b)
  | .strBefore a b => call c!"strbefore" (rPairS Q a b)
  | .strAfter a b => call c!"strafter" (rPairS Q a b)
  | .year e => call c!"year" (Q.expr e)
  | .month e => call c!"month" (Q.expr e)
  | .day e => call c!"day" (Q.expr e)
  | .hours e => call c!"hours" (Q.expr e)
  | .minutes e => call c!"minutes" (Q.expr e)
  | .seconds e => call c!"seconds" (Q.expr e)
  | .timezone e => call c!"timezone" (Q.expr e)
  | .tz e => call c!"tz" (Q.expr e)
  | .now => call c!"now" rNil
  | .uuid => call c!"uuid" rNil
  | .strUuid => call c!"struuid" rNil
  | .md5 e => call c!"md5" (Q.expr e)
  | .sha1 e => call c!"sha1" (Q.expr e)
  | .sha256 e => call c!"sha256" (Q.expr e)
  | .sha384 e => call c!"sha384" (Q.expr e)
  | .sha512 e => call c!"sha512" (Q.expr e)
  | .coalesce l => kw c!"coalesce" ⬝ Ws1 ⬝ rExpressionListS Q l
  | .if a b c => call c!"if" (Q.expr a ⬝ rMoreS Q b ⬝ rMoreS Q c)
  | .strLang a b => call c!"strlang" (rPairS Q a b)
  | .strDt a b => call c!"strdt" (rPairS Q a b)
  | .sameTerm a b => call c!"sameterm" (rPairS Q a b)
  | .isIri e => call c!"isiri" (Q.expr e)
  | .isUri e => call c!"isuri" (Q.expr e)
  | .isBlank e => call c!"isblank" (Q.expr e)
  | .isLiteral e => call c!"isliteral" (Q.expr e)
  | .isNumeric e => call c!"isnumeric" (Q.expr e)
  | .regex r => rRegexS Q r
  | .existsFunc g => kw c!"exists" ⬝ Ws1 ⬝ Q.ggp g
  | .notExistsFunc g => kw c!"not" ⬝ enc1 (kw c!"exists") ⬝ Q.ggp g

def rPrimaryExpressionS : PrimaryExpression → Lang
  | .brackettedExpression e => rBrackettedS Q e
  | .builtInCall c => rBuiltInCallS Q c
  | .iriOrFunction f => rIriOrFunctionS Q f
  | .rdfLiteral l => rRdfLiteral l
  | .numericLiteral n => rNumericLiteral n
  | .booleanLiteral b => rBoolean b
  | .var v => rVar v

def rUnaryExpressionS : UnaryExpression → Lang
  | .not p => lit c!"!" ⬝ Ws ⬝ rPrimaryExpressionS Q p
  | .add p => lit c!"+" ⬝ Ws ⬝ rPrimaryExpressionS Q p
  | .sub p => lit c!"-" ⬝ Ws ⬝ rPrimaryExpressionS Q p
  | .default p => rPrimaryExpressionS Q p

def rMultExpressionS : MultExpression → Lang
  | .mult u => lit c!"*" ⬝ Ws ⬝ rUnaryExpressionS Q u
  | .div u => lit c!"/" ⬝ Ws ⬝ rUnaryExpressionS Q u

def rMultiplicativeExpressionS : MultiplicativeExpression → Lang
  | .mk u l => rUnaryExpressionS Q u ⬝ Ws ⬝ Sep0 Ws (rMultExpressionS Q) l

/-- DEVIATION: a numeric literal without sign is accepted as a summand. -/
def rAddExpressionS : AddExpression → Lang
  | .add m => lit c!"+" ⬝ Ws ⬝ rMultiplicativeExpressionS Q m
  | .sub m => lit c!"-" ⬝ Ws ⬝ rMultiplicativeExpressionS Q m
  | .numeric n l => rNumericLiteral n ⬝ Ws ⬝ Sep0 Ws (rMultExpressionS Q) l

def rAdditiveExpressionS : AdditiveExpression → Lang
  | .mk m l => rMultiplicativeExpressionS Q m ⬝ Ws ⬝ Sep0 Ws (rAddExpressionS Q) l

def rOpExpressionS : OpExpression → Lang
  | .eq e => lit c!"=" ⬝ Ws ⬝ rAdditiveExpressionS Q e
  | .ne e => lit c!"!=" ⬝ Ws ⬝ rAdditiveExpressionS Q e
  | .lt e => lit c!"<" ⬝ Ws ⬝ rAdditiveExpressionS Q e
  | .gt e => lit c!">" ⬝ Ws ⬝ rAdditiveExpressionS Q e
  | .le e => lit c!"<=" ⬝ Ws ⬝ rAdditiveExpressionS Q e
  | .ge e => lit c!">=" ⬝ Ws ⬝ rAdditiveExpressionS Q e
  | .in l => kw c!"in" ⬝ Ws ⬝ rExpressionListS Q l
  | .nin l => kw c!"not" ⬝ enc1 (kw c!"in") ⬝ rExpressionListS Q l

def rRelationalExpressionS : RelationalExpression → Lang
  | .mk a o => rAdditiveExpressionS Q a ⬝ rOpt (fun o => Ws ⬝ rOpExpressionS Q o) o

def rConditionalAndExpressionS : ConditionalAndExpression → Lang
  | .mk l => Sep1 (enc (lit c!"&&")) (rRelationalExpressionS Q) l

def rExpressionS : Expression → Lang
  | .mk l => Sep1 (enc (lit c!"||")) (rConditionalAndExpressionS Q) l

def rConstraintS : Constraint → Lang
  | .bracketted e => rBrackettedS Q e
  | .builtInCall c => rBuiltInCallS Q c
  | .functionCall f => rFunctionCallS Q f

def rOrderExpressionS : OrderExpression → Lang
  | .mk o e => rOrder o ⬝ Ws1 ⬝ rBrackettedS Q e

def rOrderConditionS : OrderCondition → Lang
  | .order o => rOrderExpressionS Q o
  | .constraint c => rConstraintS Q c
  | .var v => rVar v

def rGroupConditionS : GroupCondition → Lang
  | .builtInCall c => rBuiltInCallS Q c
  | .functionCall f => rFunctionCallS Q f
  | .expressionAsVarOpt e => rExpressionAsVarOptS Q e
  | .var v => rVar v

def rGroupClauseS : GroupClause → Lang
  | .mk l => kw c!"group" ⬝ Ws1 ⬝ kw c!"by" ⬝ Ws1 ⬝ Sep1 Ws (rGroupConditionS Q) l

def rOrderClauseS : OrderClause → Lang
  | .mk l => kw c!"order" ⬝ Ws1 ⬝ kw c!"by" ⬝ Ws1 ⬝ Sep1 Ws (rOrderConditionS Q) l

def rHavingClauseS : HavingClause → Lang
  | .mk l => kw c!"having" ⬝ Ws1 ⬝ Sep1 Ws (rConstraintS Q) l

def rSolutionModifierS : SolutionModifier → Lang
  | .mk o g h l => rOpt (rGroupClauseS Q) g ⬝ rOpt (fun h => Ws ⬝ rHavingClauseS Q h) h ⬝
      rOpt (fun o => Ws ⬝ rOrderClauseS Q o) o ⬝ rOpt (fun l => Ws ⬝ rLimitOffset l) l

/-- `[WHERE] { ... }` -/
def rWhereClauseS (g : GroupGraphPattern) : Lang :=
  (fun s => s = [] ∨ (kw c!"where" ⬝ Ws1) s) ⬝ Q.ggp g

def rVarOrExpressionAsVarS : VarOrExpressionAsVar → Lang
  | .var v => rVar v
  | .expressionAsVar e => rExpressionAsVarS Q e

/-- DEVIATION: no white space between the projected items. -/
def rSelectVarsS : SelectVars → Lang
  | .all => lit c!"*"
  | .varOrExpressionAsVar l => Many1 (rVarOrExpressionAsVarS Q) l

def rSelectClauseS : SelectClause → Lang
  | .mk m v => kw c!"select" ⬝ rOpt (fun m => Ws1 ⬝ rSelectModifier m) m ⬝ Ws1 ⬝ rSelectVarsS Q v

def rSubSelectS : SubSelect → Lang
  | .mk s w m v => rSelectClauseS Q s ⬝ enc (rWhereClauseS Q w) ⬝ rSolutionModifierS Q m ⬝ Ws ⬝
      rOpt rValues v

def rGraphGraphPatternS : GraphGraphPattern → Lang
  | .mk v g => kw c!"graph" ⬝ Ws1 ⬝ rVarOrIri v ⬝ Ws ⬝ Q.ggp g

def rServiceGraphPatternS : ServiceGraphPattern → Lang
  | .mk v b g => kw c!"service" ⬝ Ws1 ⬝ rSilent b ⬝ rVarOrIri v ⬝ Ws ⬝ Q.ggp g

def rGraphPatternNotTriplesS : GraphPatternNotTriples → Lang
  | .groupOrUnion l => Sep1 (enc1 (kw c!"union")) Q.ggp l
  | .optional g => kw c!"optional" ⬝ Ws1 ⬝ Q.ggp g
  | .minus g => kw c!"minus" ⬝ Ws1 ⬝ Q.ggp g
  | .graph g => rGraphGraphPatternS Q g
  | .service s => rServiceGraphPatternS Q s
  | .filter c => kw c!"filter" ⬝ Ws1 ⬝ rConstraintS Q c
  | .bind e => kw c!"bind" ⬝ Ws1 ⬝ rExpressionAsVarS Q e
  | .inlineData d => rValues d

/-- DEVIATION: the optional separator is `?` instead of a dot. -/
def rGraphPatternAndTriplesS : GraphPatternAndTriples → Lang
  | .mk g t => rGraphPatternNotTriplesS Q g ⬝ (fun s => s = [] ∨ (Ws ⬝ lit c!"?") s) ⬝
      rOpt (fun t => Ws ⬝ rTriplesBlock t) t

def rGroupGraphPatternSubS : GroupGraphPatternSub → Lang
  | .mk t l => rOpt (fun t => rTriplesBlock t ⬝ Ws) t ⬝ Sep0 Ws (rGraphPatternAndTriplesS Q) l

/-- The text between the braces. -/
def rGroupBodyS : GroupGraphPattern → Lang
  | .subSelect s => rSubSelectS Q s
  | .groupGraphPatternSub s => rGroupGraphPatternSubS Q s

def rGroupGraphPatternS (g : GroupGraphPattern) : Lang := lit c!"{" ⬝ enc (rGroupBodyS Q g) ⬝ lit c!"}"

end

/-- Nesting depth at most `n`. -/
def relN : Nat → Rel
  | 0 => { expr := fun _ _ => False, ggp := fun _ _ => False }
  | n + 1 => { expr := rExpressionS (relN n), ggp := rGroupGraphPatternS (relN n) }

def rExpression (e : Expression) : Lang := fun s => ∃ n, (relN n).expr e s
def rGroupGraphPattern (g : GroupGraphPattern) : Lang := fun s => ∃ n, (relN n).ggp g s

/-- The relations without depth bound. -/
def rel₀ : Rel := { expr := rExpression, ggp := rGroupGraphPattern }

/-! ## Queries -/

def rDataSetClauses (l : List DataSetClause) : Lang := Sep0 Ws rDataSetClause l

def rSelectQuery (q : SelectQuery) : Lang :=
  rSelectClauseS rel₀ q.selectClause ⬝ Ws1 ⬝ rDataSetClauses q.datasetClauses ⬝
    enc (rWhereClauseS rel₀ q.whereClause) ⬝ rSolutionModifierS rel₀ q.solutionModifier

def rAskQuery (q : AskQuery) : Lang :=
  kw c!"ask" ⬝ Ws1 ⬝ rDataSetClauses q.datasetClauses ⬝ Ws ⬝ rWhereClauseS rel₀ q.whereClause ⬝ Ws ⬝
    rSolutionModifierS rel₀ q.solutionModifier

def rDescribeQuery (q : DescribeQuery) : Lang :=
  kw c!"describe" ⬝ enc1 (rVarOrIrisOrAll q.varOrIrisOrAll) ⬝ rDataSetClauses q.datasetClauses ⬝ Ws ⬝
    rOpt (fun w => rWhereClauseS rel₀ w ⬝ Ws) q.whereClause ⬝ rSolutionModifierS rel₀ q.solutionModifier

def rConstructTemplate (l : List TriplesSameSubject) : Lang :=
  lit c!"{" ⬝ Ws ⬝ Sep0 dots rTriplesSameSubject l ⬝ Ws ⬝ lit c!"}"

def rSubConstruct (q : SubConstruct) : Lang :=
  rConstructTemplate q.constructTemplate ⬝ Ws1 ⬝ rDataSetClauses q.datasetClauses ⬝ Ws ⬝
    rWhereClauseS rel₀ q.whereClause ⬝ Ws ⬝ rSolutionModifierS rel₀ q.solutionModifier

def rSubTriples (q : SubTriples) : Lang :=
  rDataSetClauses q.datasetClauses ⬝ Ws ⬝ kw c!"where" ⬝ Ws1 ⬝
    lit c!"{" ⬝ enc (rOpt rTriplesTemplate q.triplesTemplate) ⬝ lit c!"}" ⬝ Ws ⬝
    rSolutionModifierS rel₀ q.solutionModifier

def rConstructQuery : ConstructQuery → Lang
  | .subConstruct q => kw c!"construct" ⬝ Ws1 ⬝ rSubConstruct q
  | .subTriples q => kw c!"construct" ⬝ Ws1 ⬝ rSubTriples q

def rSparqlQuery : SparqlQuery → Lang
  | .select q => rSelectQuery q
  | .construct q => rConstructQuery q
  | .describe q => rDescribeQuery q
  | .ask q => rAskQuery q

def rStatement (q : SparqlQueryStatement) : Lang :=
  rPrologue q.prologue ⬝ Ws ⬝ rSparqlQuery q.query ⬝ rOpt (fun v => Ws1 ⬝ rValues v) q.values

/-! ## Updates -/

def rFromTo (silent : Bool) (a b : GraphOrDefault) : Lang :=
  rSilent silent ⬝ rGraphOrDefault a ⬝ enc (kw c!"to") ⬝ rGraphOrDefault b

/-- `[WITH <iri>]` (DEVIATION: spelled `where`, without white space before the IRI), DELETE and INSERT
(DEVIATION: the DELETE clause is spelled `offset`). -/
def rDeleteInsert : DeleteInsert → Lang
  | .deleteInsert d i => kw c!"offset" ⬝ Ws1 ⬝ rQuadsPattern d ⬝
      rOpt (fun i => Ws ⬝ kw c!"insert" ⬝ Ws1 ⬝ rQuadsPattern i) i
  | .insert i => kw c!"insert" ⬝ Ws1 ⬝ rQuadsPattern i

def rModify (m : ModifyStatement) : Lang :=
  rOpt (fun i => kw c!"where" ⬝ rIri i ⬝ Ws1) m.iri ⬝ rDeleteInsert m.deleteInsert ⬝ Ws ⬝
    Sep0 Ws rUsingClause m.usingClauses ⬝ enc1 (kw c!"where") ⬝ rGroupGraphPattern m.whereGroupGraph

def rUpdateStatement : UpdateStatement → Lang
  | .load s => kw c!"load" ⬝ Ws1 ⬝ rSilent s.silent ⬝ rIri s.iri ⬝
      rOpt (fun g => enc (kw c!"into") ⬝ rGraphRef g) s.graphRef
  | .clear s => kw c!"clear" ⬝ Ws1 ⬝ rSilent s.silent ⬝ rGraphRefAll s.graphRefAll
  | .drop s => kw c!"drop" ⬝ Ws1 ⬝ rSilent s.silent ⬝ rGraphRefAll s.graphRefAll
  | .create s => kw c!"create" ⬝ Ws1 ⬝ rSilent s.silent ⬝ rGraphRef s.graphRef
  | .add s => kw c!"add" ⬝ Ws1 ⬝ rFromTo s.silent s.from' s.to
  | .move s => kw c!"move" ⬝ Ws1 ⬝ rFromTo s.silent s.from' s.to
  | .copy s => kw c!"copy" ⬝ Ws1 ⬝ rFromTo s.silent s.from' s.to
  | .insertData q => kw c!"insert" ⬝ Ws1 ⬝ kw c!"data" ⬝ Ws1 ⬝ rQuadsPattern q
  | .deleteData q => kw c!"delete" ⬝ Ws1 ⬝ kw c!"data" ⬝ Ws1 ⬝ rQuadsPattern q
  | .deleteWhere q => kw c!"delete" ⬝ Ws1 ⬝ kw c!"where" ⬝ Ws1 ⬝ rQuadsPattern q
  | .modify m => rModify m

/-- A sequence of updates. -/
def rUpdate : Update → Lang
  | .mk p none none => rPrologue p
  | .mk _ none (some _) => fun _ => False
  | .mk p (some s) none => rPrologue p ⬝ Ws ⬝ rUpdateStatement s
  | .mk p (some s) (some u) => rPrologue p ⬝ Ws ⬝ rUpdateStatement s ⬝ enc (lit c!";") ⬝ rUpdate u

end NomSparql
