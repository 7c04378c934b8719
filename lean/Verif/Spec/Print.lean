import Verif.Spec.CanonQuery
import Verif.Spec.CanonUpdate
import Verif.Spec.Leaf

/-!
# Printing trees

A printer for queries and updates, and the trees it is meant for (`w...`): those without the nodes that the crate never returns (C35, C42, C47, C53) or
returns only for texts that mean something else (C36, C40, C43, C44).  One blank is put between tokens wherever the crate needs or allows white space.
Nothing here mentions a parser.  Expressions and groups contain each other, so printer and class are indexed by a bound on the nesting depth.
-/

namespace NomSparql

/-! ## Leaves -/

def pVar (v : Var) : Str := sigil v :: varNameOf v
def wVar (v : Var) : Prop := varNameOf v ≠ [] ∧ ∀ c ∈ varNameOf v, W3CVarStart c ∧ c.toNat < 0x10000

def pIriRef (x : Str) : Str := '<' :: (x ++ ['>'])
def wIriRef (x : Str) : Prop := ∀ c ∈ x, CIriChar c

def pIri : Iri → Str
  | .iri x => pIriRef x
  | .prefixedName (.pnameLN (some p) l) => p ++ ':' :: l
  | .prefixedName _ => []
/-- Prefixed names have a prefix and a local name. -/
def wIri : Iri → Prop
  | .iri x => wIriRef x
  | .prefixedName (.pnameLN (some p) l) => PrefixName CommonBase CommonNameChar p ∧ LocalName CommonLocalStart CommonLocalChar l
  | .prefixedName _ => False

/-- No `q` outside escapes. -/
def free (q : Char) : Str → Bool
  | [] => true
  | ['\\'] => true
  | '\\' :: _ :: s => free q s
  | c :: s => c != q && free q s

/-- In double quotes if possible, else in single quotes. -/
def pString (s : Str) : Str := if free '"' s then '"' :: (s ++ ['"']) else '\'' :: (s ++ ['\''])

def pDescriptor : RdfLiteralDescriptor → Str
  | .langTag t => '@' :: t
  | .iriRef i => '^' :: '^' :: pIri i
def wDescriptor : RdfLiteralDescriptor → Prop
  | .langTag t => LangTag t
  | .iriRef i => wIri i

def pOpt (f : α → Str) : Option α → Str
  | none => []
  | some a => f a

def pRdfLiteral (l : RdfLiteral) : Str := pString l.literal ++ pOpt pDescriptor l.descriptor
def wRdfLiteral (l : RdfLiteral) : Prop := GoodString l.literal ∧ ∀ d ∈ l.descriptor, wDescriptor d

def pDigit (n : Nat) : Char := Char.ofNat (0x30 + n)

/-- The decimal digits of a number. -/
def pNat (n : Nat) : Str := if n < 10 then [pDigit n] else pNat (n / 10) ++ [pDigit (n % 10)]

def pInt (v : Int) : Str := (if v < 0 then ['-'] else []) ++ pNat v.natAbs

/-- Digits before and after the point. -/
def pDecimal (d : Decimal) : Str :=
  (if d.neg then ['-'] else []) ++ (pNat (d.mantissa / 10 ^ d.scale) ++ '.' :: ((List.range d.scale).reverse.map fun k => pDigit (d.mantissa / 10 ^ k % 10)))

def pNumber : NumericLiteral → Str
  | .int v => pInt v
  | .double d none => pDecimal d
  | .double d (some e) => pDecimal d ++ 'e' :: pInt e
def wNumber : NumericLiteral → Prop
  | .int v => FitsI64 v
  | .double _ o => ∀ e ∈ o, FitsI64 e
/-- Not negative. -/
def wUnsigned : NumericLiteral → Prop
  | .int v => 0 ≤ v ∧ FitsI64 v
  | .double d o => d.neg = false ∧ ∀ e ∈ o, FitsI64 e

def pBool : Bool → Str
  | true => c!"true"
  | false => c!"false"

def pBlank : BlankNode → Str
  | .anon => c!"[]"
  | .label l => '_' :: ':' :: l
def wBlank : BlankNode → Prop
  | .anon => True
  | .label l => LegalLabel l

def pTerm : GraphTerm → Str
  | .iri i => pIri i
  | .rdfLiteral l => pRdfLiteral l
  | .numericLiteral n => pNumber n
  | .booleanLiteral b => pBool b
  | .blankNode b => pBlank b
  | .nil => c!"()"
def wTerm : GraphTerm → Prop
  | .iri i => wIri i
  | .rdfLiteral l => wRdfLiteral l
  | .numericLiteral n => wNumber n
  | .booleanLiteral _ => True
  | .blankNode b => wBlank b
  | .nil => True

def pVarOrIri : VarOrIri → Str
  | .var v => pVar v
  | .iri i => pIri i
def wVarOrIri : VarOrIri → Prop
  | .var v => wVar v
  | .iri i => wIri i

def pVarOrTerm : VarOrTerm → Str
  | .var v => pVar v
  | .term t => pTerm t
def wVarOrTerm : VarOrTerm → Prop
  | .var v => wVar v
  | .term t => wTerm t

def pVerb : Verb → Str
  | .varOrIri v => pVarOrIri v
  | .a => c!"a"
def wVerb : Verb → Prop
  | .varOrIri v => wVarOrIri v
  | .a => True

def pValue : DataBlockValue → Str
  | .iri i => pIri i
  | .rdfLiteral l => pRdfLiteral l
  | .numericLiteral n => pNumber n
  | .booleanLiteral b => pBool b
  | .undef => c!"undef"
def wValue : DataBlockValue → Prop
  | .iri i => wIri i
  | .rdfLiteral l => wRdfLiteral l
  | .numericLiteral n => wNumber n
  | .booleanLiteral _ => True
  | .undef => True

/-! ## Lists -/

/-- The members one after the other. -/
def pMany (f : α → Str) : List α → Str
  | [] => []
  | a :: l => f a ++ pMany f l

/-- The members with a separator between them. -/
def pSep (sep : Str) (f : α → Str) : List α → Str
  | [] => []
  | a :: l => f a ++ pMany (fun b => sep ++ f b) l

/-- Every member has `W`. -/
def All (W : α → Prop) (l : List α) : Prop := ∀ a ∈ l, W a
def All1 (W : α → Prop) (l : List α) : Prop := l ≠ [] ∧ ∀ a ∈ l, W a
def Opt (W : α → Prop) (o : Option α) : Prop := ∀ a ∈ o, W a

/-! ## Clauses -/

def pDecl : BaseOrPrefixDecl → Str
  | .base x => c!"base " ++ pIriRef x
  | .prefix d => c!"prefix " ++ (prefixText d.pnameNs ++ ':' :: ' ' :: pIriRef d.iriRef)
def wDecl : BaseOrPrefixDecl → Prop
  | .base x => wIriRef x
  | .prefix d => OptPrefix CommonBase CommonNameChar d.pnameNs ∧ wIriRef d.iriRef

def pPrologue (p : Prologue) : Str := pSep c!" " pDecl p.decls
def wPrologue (p : Prologue) : Prop := All wDecl p.decls

def pDefaultOrNamed : DefaultOrNamedIri → Str
  | .named i => c!"named " ++ pIri i
  | .default i => pIri i
def wDefaultOrNamed : DefaultOrNamedIri → Prop
  | .named i => wIri i
  | .default i => wIri i

def pRow (l : List DataBlockValue) : Str := '(' :: (pSep c!" " pValue l ++ [')'])

def pDataBlock : DataBlock → Str
  | .inlineDataOneVar d => pVar d.var ++ ('{' :: (pSep c!" " pValue d.values ++ ['}']))
  | .inlineDataFull d => '(' :: (pSep c!" " pVar d.vars ++ (')' :: '{' :: (pSep [] pRow d.dataBlockValues ++ ['}'])))
def wDataBlock : DataBlock → Prop
  | .inlineDataOneVar d => wVar d.var ∧ All wValue d.values
  | .inlineDataFull d => All wVar d.vars ∧ All (All wValue) d.dataBlockValues

def pLimitOffset : LimitOffsetClause → Str
  | .limitOffset l o => c!"limit " ++ (pNat l ++ pOpt (fun o => c!" offset " ++ pNat o) o)
  | .offsetLimit o l => c!"offset " ++ (pNat o ++ pOpt (fun l => c!" limit " ++ pNat l) l)
def wLimitOffset : LimitOffsetClause → Prop
  | .limitOffset l o => l < 2 ^ 64 ∧ ∀ o' ∈ o, o' < 2 ^ 64
  | .offsetLimit o l => o < 2 ^ 64 ∧ ∀ l' ∈ l, l' < 2 ^ 64

/-! ## Triples templates and quads -/

def pNode : GraphNode → Str
  | .varOrTerm v => pVarOrTerm v
  | .triplesNode _ => []
/-- Not a collection or property list. -/
def wNode : GraphNode → Prop
  | .varOrTerm v => wVarOrTerm v
  | .triplesNode _ => False

def pVerbList : VerbList → Str
  | .mk v os => pVerb v ++ ' ' :: pSep c!"," pNode os
def wVerbList : VerbList → Prop
  | .mk v os => wVerb v ∧ All1 wNode os

def pPropertyList : PropertyList → Str
  | .mk l => pSep c!";" pVerbList l
def wPropertyList : PropertyList → Prop
  | .mk l => All1 wVerbList l

def pTriplesNode : TriplesNode → Str
  | .collection l => '(' :: (pSep c!" " pNode l ++ [')'])
  | .blankNodePropertyList p => '[' :: (pPropertyList p ++ [']'])
def wTriplesNode : TriplesNode → Prop
  | .collection l => All1 wNode l
  | .blankNodePropertyList p => wPropertyList p

def pTriples1 : TriplesSameSubject → Str
  | .term v p => pVarOrTerm v ++ ' ' :: pPropertyList p
  | .node n p => pTriplesNode n ++ pOpt pPropertyList p
def wTriples1 : TriplesSameSubject → Prop
  | .term v p => wVarOrTerm v ∧ wPropertyList p
  | .node n p => wTriplesNode n ∧ Opt wPropertyList p

def pTriples (l : List TriplesSameSubject) : Str := pSep c!" ." pTriples1 l
def wTriples (l : List TriplesSameSubject) : Prop := All1 wTriples1 l

def pBlock (o : Option (List TriplesSameSubject)) : Str := '{' :: (pOpt pTriples o ++ ['}'])

def pGraphBlock (q : QuadsNotTriples) : Str := c!"graph " ++ (pVarOrIri q.varOrIri ++ pBlock q.triplesTemplate)
def wGraphBlock (q : QuadsNotTriples) : Prop := wVarOrIri q.varOrIri ∧ Opt wTriples q.triplesTemplate

/-- Triples end with a dot when something follows. -/
def pEntries : List QuadsEntry → Str
  | [] => []
  | [e] => pGraphBlock e.quadsNotTriples ++ pOpt pTriples e.triplesTemplate
  | e :: e' :: l => pGraphBlock e.quadsNotTriples ++ (pOpt (fun t => pTriples t ++ c!" .") e.triplesTemplate ++ pEntries (e' :: l))
def wEntry (e : QuadsEntry) : Prop := wGraphBlock e.quadsNotTriples ∧ Opt wTriples e.triplesTemplate

def pQuads (q : Quads) : Str := '{' :: (pOpt (fun t => pTriples t ++ c!" .") q.firstTriple ++ (pEntries q.entries ++ ['}']))
def wQuads (q : Quads) : Prop := Opt wTriples q.firstTriple ∧ All wEntry q.entries

/-! ## Paths and patterns -/

def pIriOrA : IriOrA → Str
  | .iri i => pIri i
  | .a => c!"a"
def wIriOrA : IriOrA → Prop
  | .iri i => wIri i
  | .a => True

def pOneInSet : IriOrAOrCaret → Str
  | .iriOrA x => pIriOrA x
  | .caret x => '^' :: pIriOrA x
def wOneInSet : IriOrAOrCaret → Prop
  | .iriOrA x => wIriOrA x
  | .caret x => wIriOrA x

def pMod : PathMod → Str
  | .questionMark => c!"?"
  | .asterisk => c!"*"
  | .plus => c!"+"

mutual
def pPrimary : PathPrimary → Str
  | .iri i => pIri i
  | .a => c!"a"
  | .pathNegatedPropertySet l => '!' :: '(' :: (pSep c!" |" pOneInSet l ++ [')'])
  | .path p => '(' :: (pPathAlternative p ++ [')'])
def pElt : PathElt → Str
  | .mk p none => pPrimary p
  | .mk p (some m) => pPrimary p ++ ' ' :: pMod m
def pEltOrInverse : PathEltOrInverse → Str
  | .pathElt e => pElt e
  | .inverse e => '^' :: pElt e
def pPath : List PathEltOrInverse → Str
  | [] => []
  | [e] => pEltOrInverse e
  | e :: e' :: l => pEltOrInverse e ++ (c!" |" ++ pPath (e' :: l))
def pPathSequence : PathSequence → Str
  | .mk l => pPath l
def pPathSequences : List PathSequence → Str
  | [] => []
  | s :: _ => pPathSequence s
def pPathAlternative : PathAlternative → Str
  | .mk l => pPathSequences l
end

mutual
/-- One sequence in every path. -/
def wPrimary : PathPrimary → Prop
  | .iri i => wIri i
  | .a => True
  | .pathNegatedPropertySet l => All1 wOneInSet l
  | .path p => wPathAlternative p
def wElt : PathElt → Prop
  | .mk p _ => wPrimary p
def wEltOrInverse : PathEltOrInverse → Prop
  | .pathElt e => wElt e
  | .inverse e => wElt e
def wPath : List PathEltOrInverse → Prop
  | [] => False
  | [e] => wEltOrInverse e
  | e :: e' :: l => wEltOrInverse e ∧ wPath (e' :: l)
def wPathSequence : PathSequence → Prop
  | .mk l => wPath l
def wPathSequences : List PathSequence → Prop
  | [] => False
  | [s] => wPathSequence s
  | _ :: _ :: _ => False
def wPathAlternative : PathAlternative → Prop
  | .mk l => wPathSequences l
end

/-- The paths that cannot be mistaken for an object. -/
def NoObjectPath : PathAlternative → Prop
  | .mk [.mk l] => NoObject l
  | _ => False

/-- The text does not begin like a path modifier. -/
def NoModText (s : Str) : Prop := ∀ c t, s = c :: t → NoMod c

def pPredicate : VerbPathOrSimple → Str
  | .simple v => pVar v
  | .path p => pPathAlternative p

def pFurther (e : PropertyListPathEntry) : Str := ';' :: (pPredicate e.verbPathOrSimple ++ ' ' :: pSep c!"," pNode e.objectList)
def wFurther (e : PropertyListPathEntry) : Prop :=
  match e.verbPathOrSimple with
  | .simple _ => False
  | .path p => wPathAlternative p ∧ NoObjectPath p ∧ All1 wNode e.objectList ∧ NoModText (pSep c!"," pNode e.objectList)

def pNodePath : GraphNodePath → Str
  | .varOrTerm v => pVarOrTerm v
  | .triplesNodePath _ => []

def pPattern : TriplesSameSubjectPath → Str
  | .term s (.mk p os l) => pVarOrTerm s ++ ' ' :: (pPredicate p ++ ' ' :: (pMany pNodePath os ++ pMany pFurther l))
  | .node _ _ => []
/-- One object under the first predicate. -/
def wPattern : TriplesSameSubjectPath → Prop
  | .term s (.mk (.simple v) [.varOrTerm o] l) => wVarOrTerm s ∧ wVar v ∧ wVarOrTerm o ∧ All wFurther l
  | .term s (.mk (.path p) [.varOrTerm o] l) => wVarOrTerm s ∧ wPathAlternative p ∧ wVarOrTerm o ∧ NoModText (pVarOrTerm o) ∧ All wFurther l
  | _ => False

def pPatterns (l : List TriplesSameSubjectPath) : Str := pSep c!" ." pPattern l
def wPatterns (l : List TriplesSameSubjectPath) : Prop := All1 wPattern l

/-! ## Expressions -/

/-- How expressions and groups inside are printed, and which are. -/
structure Printer where
  expr : Expression → Str
  group : GroupGraphPattern → Str
structure Printable where
  expr : Expression → Prop
  group : GroupGraphPattern → Prop

/-- A single product. -/
def kAdd : AdditiveExpression → Bool
  | .mk _ [] => true
  | .mk _ (_ :: _) => false
def kOp : OpExpression → Bool
  | .eq a | .ne a | .lt a | .gt a | .le a | .ge a => kAdd a
  | .in _ | .nin _ => false
def kRel : RelationalExpression → Bool
  | .mk a none => kAdd a
  | .mk _ (some o) => kOp o
def kAnd : List RelationalExpression → Bool
  | [] => false
  | [r] => kRel r
  | _ :: r :: l => kAnd (r :: l)
def kOr : List ConditionalAndExpression → Bool
  | [] => false
  | [.mk l] => kAnd l
  | _ :: c :: m => kOr (c :: m)
/-- The last operand of the expression is a single product: the crate uses up the white space after it (Spec/CanonExpr). -/
def kExpr : Expression → Bool
  | .mk l => kOr l

section
variable (S : Printer)

def pCall1 (k : Str) (e : Expression) : Str := k ++ '(' :: (S.expr e ++ [')'])
def pCall2 (k : Str) (e e' : Expression) : Str := k ++ '(' :: (S.expr e ++ ',' :: (S.expr e' ++ [')']))
def pCall3 (k : Str) (e e' e'' : Expression) : Str := k ++ '(' :: (S.expr e ++ ',' :: (S.expr e' ++ ',' :: (S.expr e'' ++ [')'])))
def pDistinct (d : Bool) : Str := if d then c!"distinct " else []

def pAggregate : Aggregate → Str
  | .sum (.mk d e) => c!"sum(" ++ (pDistinct d ++ (S.expr e ++ [')']))
  | .min (.mk d e) => c!"min(" ++ (pDistinct d ++ (S.expr e ++ [')']))
  | .max (.mk d e) => c!"max(" ++ (pDistinct d ++ (S.expr e ++ [')']))
  | .avg (.mk d e) => c!"avg(" ++ (pDistinct d ++ (S.expr e ++ [')']))
  | .sample (.mk d e) => c!"sample(" ++ (pDistinct d ++ (S.expr e ++ [')']))
  | .count (.mk d (.expr e)) => c!"count(" ++ (pDistinct d ++ (S.expr e ++ [')']))
  | .count (.mk d .all) => c!"count(" ++ (pDistinct d ++ c!"*)")
  | .groupConcat (.mk (.mk d e) none) => c!"group_concat(" ++ (pDistinct d ++ (S.expr e ++ [')']))
  | .groupConcat (.mk (.mk d e) (some s)) => c!"group_concat(" ++ (pDistinct d ++ (S.expr e ++ (c!" ; separator = " ++ (pString s ++ [')']))))

def pCall : BuiltInCall → Str
  | .aggregate a => pAggregate S a
  | .str e => pCall1 S c!"str" e
  | .lang e => pCall1 S c!"lang" e
  | .datatype e => pCall1 S c!"datatype" e
  | .iri e => pCall1 S c!"iri" e
  | .uri e => pCall1 S c!"uri" e
  | .uCase e => pCall1 S c!"ucase" e
  | .lCase e => pCall1 S c!"lcase" e
  | .encodeForUri e => pCall1 S c!"encode_for_uri" e
  | .year e => pCall1 S c!"year" e
  | .month e => pCall1 S c!"month" e
  | .day e => pCall1 S c!"day" e
  | .hours e => pCall1 S c!"hours" e
  | .minutes e => pCall1 S c!"minutes" e
  | .seconds e => pCall1 S c!"seconds" e
  | .timezone e => pCall1 S c!"timezone" e
  | .tz e => pCall1 S c!"tz" e
  | .md5 e => pCall1 S c!"md5" e
  | .sha1 e => pCall1 S c!"sha1" e
  | .sha256 e => pCall1 S c!"sha256" e
  | .sha384 e => pCall1 S c!"sha384" e
  | .sha512 e => pCall1 S c!"sha512" e
  | .isIri e => pCall1 S c!"isiri" e
  | .isUri e => pCall1 S c!"isuri" e
  | .isBlank e => pCall1 S c!"isblank" e
  | .isLiteral e => pCall1 S c!"isliteral" e
  | .isNumeric e => pCall1 S c!"isnumeric" e
  | .bnode (some e) => pCall1 S c!"bnode" e
  | .langMatches e e' => pCall2 S c!"langmatches" e e'
  | .strStarts e e' => pCall2 S c!"strstarts" e e'
  | .strEnds e e' => pCall2 S c!"strends" e e'
  | .strBefore e e' => pCall2 S c!"strbefore" e e'
  | .strAfter e e' => pCall2 S c!"strafter" e e'
  | .strLang e e' => pCall2 S c!"strlang" e e'
  | .strDt e e' => pCall2 S c!"strdt" e e'
  | .sameTerm e e' => pCall2 S c!"sameterm" e e'
  | .bound v => c!"bound(" ++ (pVar v ++ [')'])
  | .if e e' e'' => pCall3 S c!"if" e e' e''
  | .regex (.mk e e' none) => pCall2 S c!"regex " e e'
  | .regex (.mk e e' (some e'')) => pCall3 S c!"regex " e e' e''
  | .existsFunc g => c!"exists " ++ S.group g
  | .notExistsFunc g => c!"not exists " ++ S.group g
  | _ => []

def pPrim : PrimaryExpression → Str
  | .brackettedExpression e => '(' :: (S.expr e ++ [')'])
  | .builtInCall b => pCall S b
  | .iriOrFunction (.mk i none) => pIri i
  | .iriOrFunction (.mk i (some _)) => pIri i ++ c!" ()"
  | .rdfLiteral l => pRdfLiteral l
  | .numericLiteral n => pNumber n
  | .booleanLiteral b => pBool b
  | .var v => pVar v

def pUnary : UnaryExpression → Str
  | .default p => pPrim S p
  | .not p => '!' :: pPrim S p
  | .add p => '+' :: pPrim S p
  | .sub p => '-' :: pPrim S p

/-- White space after every factor. -/
def pFactor : MultExpression → Str
  | .mult u => '*' :: (pUnary S u ++ [' '])
  | .div u => '/' :: (pUnary S u ++ [' '])

def pMult : MultiplicativeExpression → Str
  | .mk u l => pUnary S u ++ pMany (pFactor S) l

def pSummand : AddExpression → Str
  | .add m => '+' :: pMult S m
  | .sub m => '-' :: pMult S m
  | .numeric _ _ => []

def pAdd : AdditiveExpression → Str
  | .mk m [] => pMult S m
  | .mk m (a :: l) => pMult S m ++ ' ' :: pMany (pSummand S) (a :: l)

def pOp : OpExpression → Str
  | .eq a => '=' :: pAdd S a
  | .ne a => '!' :: '=' :: pAdd S a
  | .lt a => '<' :: ' ' :: pAdd S a
  | .gt a => '>' :: ' ' :: pAdd S a
  | .le a => '<' :: '=' :: pAdd S a
  | .ge a => '>' :: '=' :: pAdd S a
  | .in _ => c!"in ()"
  | .nin _ => c!"not in ()"

def pRel : RelationalExpression → Str
  | .mk a none => pAdd S a
  | .mk a (some o) => pAdd S a ++ ' ' :: pOp S o

def pAnd : List RelationalExpression → Str
  | [] => []
  | [r] => pRel S r
  | r :: r' :: l => pRel S r ++ (c!" && " ++ pAnd (r' :: l))

def pOr : List ConditionalAndExpression → Str
  | [] => []
  | [.mk l] => pAnd S l
  | .mk l :: c :: m => pAnd S l ++ (c!" || " ++ pOr (c :: m))

def pExpression : Expression → Str
  | .mk l => pOr S l
end

section
variable (W : Printable)

/-- As last argument. -/
def wLast (e : Expression) : Prop := W.expr e ∧ kExpr e = true

def wAggregate : Aggregate → Prop
  | .sum (.mk _ e) | .min (.mk _ e) | .max (.mk _ e) | .avg (.mk _ e) | .sample (.mk _ e) => wLast W e
  | .count (.mk _ (.expr e)) => wLast W e
  | .count (.mk _ .all) => True
  | .groupConcat (.mk (.mk _ e) none) => wLast W e
  | .groupConcat (.mk (.mk _ e) (some s)) => W.expr e ∧ GoodString s

/-- Not among them: ABS, CEIL, FLOOR, ROUND, CONTAINS, STRLEN, SUBSTR, REPLACE, CONCAT, COALESCE and the functions without arguments. -/
def wCall : BuiltInCall → Prop
  | .aggregate a => wAggregate W a
  | .str e | .lang e | .datatype e | .iri e | .uri e | .uCase e | .lCase e | .encodeForUri e | .year e | .month e | .day e | .hours e | .minutes e | .seconds e | .timezone e | .tz e | .md5 e | .sha1 e | .sha256 e | .sha384 e | .sha512 e | .isIri e | .isUri e | .isBlank e | .isLiteral e | .isNumeric e | .bnode (some e) => wLast W e
  | .langMatches e e' | .strStarts e e' | .strEnds e e' | .strBefore e e' | .strAfter e e' | .strLang e e' | .strDt e e' | .sameTerm e e' | .regex (.mk e e' none) => W.expr e ∧ wLast W e'
  | .bound v => wVar v
  | .if e e' e'' | .regex (.mk e e' (some e'')) => W.expr e ∧ W.expr e' ∧ wLast W e''
  | .existsFunc g | .notExistsFunc g => W.group g
  | _ => False

def wOperandIri (i : Iri) : Prop := wIri i ∧ NoKelvin (pIri i)

def wPrim : PrimaryExpression → Prop
  | .brackettedExpression e => W.expr e
  | .builtInCall b => wCall W b
  | .iriOrFunction (.mk i none) | .iriOrFunction (.mk i (some .nil)) => wOperandIri i
  | .iriOrFunction (.mk _ (some (.expression _ _))) => False
  | .rdfLiteral l => wRdfLiteral l
  | .numericLiteral n => wUnsigned n
  | .booleanLiteral _ => True
  | .var v => wVar v

def wUnary : UnaryExpression → Prop
  | .default p | .not p | .add p | .sub p => wPrim W p

def wFactor : MultExpression → Prop
  | .mult u | .div u => wUnary W u

def wMult : MultiplicativeExpression → Prop
  | .mk u l => wUnary W u ∧ All (wFactor W) l

def wProduct : MultiplicativeExpression → Prop
  | .mk u l => wUnary W u ∧ All1 (wFactor W) l

/-- The summands after the first are products. -/
def wSummand : AddExpression → Prop
  | .add m | .sub m => wProduct W m
  | .numeric _ _ => False

def wAdd : AdditiveExpression → Prop
  | .mk m l => wMult W m ∧ All (wSummand W) l

def wOp : OpExpression → Prop
  | .eq a | .ne a | .lt a | .gt a | .le a | .ge a => wAdd W a
  | .in l | .nin l => match l with | .nil => True | .list _ => False

def wRel : RelationalExpression → Prop
  | .mk a o => wAdd W a ∧ Opt (wOp W) o

def wAnd : ConditionalAndExpression → Prop
  | .mk l => All1 (wRel W) l

def wExpression : Expression → Prop
  | .mk l => All1 (wAnd W) l
end

/-! ## Groups -/

section
variable (S : Printer)

def pBracket (e : Expression) : Str := '(' :: (S.expr e ++ [')'])
def pAsVar : ExpressionAsVar → Str
  | .mk e v => '(' :: (S.expr e ++ (c!" as " ++ (pVar v ++ [')'])))

def pConstraint : Constraint → Str
  | .bracketted e => pBracket S e
  | .builtInCall b => pCall S b
  | .functionCall (.mk i _) => pIri i ++ c!"()"

def pOrder : Order → Str
  | .asc => c!"asc"
  | .desc => c!"desc"

def pOrderCond : OrderCondition → Str
  | .order (.mk o e) => pOrder o ++ ' ' :: pBracket S e
  | .constraint c => pConstraint S c
  | .var v => pVar v

def pGroupCond : GroupCondition → Str
  | .builtInCall b => pCall S b
  | .functionCall (.mk i _) => pIri i ++ c!"()"
  | .expressionAsVarOpt (.mk e none) => pBracket S e
  | .expressionAsVarOpt (.mk e (some v)) => '(' :: (S.expr e ++ (c!" as " ++ (pVar v ++ [')'])))
  | .var v => pVar v

/-- White space after every member. -/
def pEach (f : α → Str) : List α → Str := pMany (fun a => f a ++ [' '])

def pGroupClause : GroupClause → Str
  | .mk l => c!"group by " ++ pEach (pGroupCond S) l
def pHavingClause : HavingClause → Str
  | .mk l => c!"having " ++ pEach (pConstraint S) l
def pOrderClause : OrderClause → Str
  | .mk l => c!"order by " ++ pEach (pOrderCond S) l

def pModifier : SolutionModifier → Str
  | .mk o g h l => pOpt (pGroupClause S) g ++ (pOpt (pHavingClause S) h ++ (pOpt (pOrderClause S) o ++ pOpt pLimitOffset l))

def pProj : VarOrExpressionAsVar → Str
  | .var v => pVar v
  | .expressionAsVar x => pAsVar S x

/-- No white space between projections. -/
def pSelectVars : SelectVars → Str
  | .all => c!"*"
  | .varOrExpressionAsVar l => pMany (pProj S) l

def pSelectModifier : SelectModifier → Str
  | .distinct => c!" distinct"
  | .reduced => c!" reduced"

def pSelectClause : SelectClause → Str
  | .mk m v => c!"select" ++ (pOpt pSelectModifier m ++ ' ' :: pSelectVars S v)

def pSubSelect : SubSelect → Str
  | .mk c g m v => pSelectClause S c ++ ' ' :: (c!"where " ++ (S.group g ++ ' ' :: (pModifier S m ++ pOpt (fun d => c!"values " ++ pDataBlock d) v)))

def pItem : GraphPatternNotTriples → Str
  | .groupOrUnion l => pSep c!" union " S.group l
  | .optional g => c!"optional " ++ S.group g
  | .minus g => c!"minus " ++ S.group g
  | .graph (.mk v g) => c!"graph " ++ (pVarOrIri v ++ S.group g)
  | .service (.mk v b g) => c!"service " ++ ((if b then c!"silent " else []) ++ (pVarOrIri v ++ S.group g))
  | .filter c => c!"filter " ++ pConstraint S c
  | .bind x => c!"bind " ++ pAsVar S x
  | .inlineData d => c!"values " ++ pDataBlock d

def pEntry : GraphPatternAndTriples → Str
  | .mk g none => pItem S g
  | .mk g (some b) => pItem S g ++ ' ' :: pPatterns b.triples

def pGroup : GroupGraphPattern → Str
  | .groupGraphPatternSub (.mk none []) => c!"{}"
  | .groupGraphPatternSub (.mk (some b) []) => '{' :: (pPatterns b.triples ++ ['}'])
  | .groupGraphPatternSub (.mk none l) => '{' :: (pEach (pEntry S) l ++ ['}'])
  | .groupGraphPatternSub (.mk (some b) l) => '{' :: (pPatterns b.triples ++ ' ' :: (pEach (pEntry S) l ++ ['}']))
  | .subSelect q => '{' :: (pSubSelect S q ++ ['}'])
end

section
variable (W : Printable)

def wAsVar : ExpressionAsVar → Prop
  | .mk e v => W.expr e ∧ wVar v

def wFunctionCall : FunctionCall → Prop
  | .mk i .nil => wOperandIri i
  | .mk _ (.expression _ _) => False

def wConstraint : Constraint → Prop
  | .bracketted e => W.expr e
  | .builtInCall b => wCall W b
  | .functionCall f => wFunctionCall f

def wOrderCond : OrderCondition → Prop
  | .order (.mk _ e) => W.expr e
  | .constraint c => wConstraint W c
  | .var v => wVar v

/-- Before AS an expression that leaves white space (C57). -/
def wGroupCond : GroupCondition → Prop
  | .builtInCall b => wCall W b
  | .functionCall f => wFunctionCall f
  | .expressionAsVarOpt (.mk e none) => W.expr e
  | .expressionAsVarOpt (.mk e (some v)) => W.expr e ∧ kExpr e = false ∧ wVar v
  | .var v => wVar v

def wGroupClause : GroupClause → Prop
  | .mk l => All1 (wGroupCond W) l
def wHavingClause : HavingClause → Prop
  | .mk l => All1 (wConstraint W) l
def wOrderClause : OrderClause → Prop
  | .mk l => All1 (wOrderCond W) l

def wModifier : SolutionModifier → Prop
  | .mk o g h l => Opt (wOrderClause W) o ∧ Opt (wGroupClause W) g ∧ Opt (wHavingClause W) h ∧ Opt wLimitOffset l

def wProj : VarOrExpressionAsVar → Prop
  | .var v => wVar v
  | .expressionAsVar x => wAsVar W x

def wSelectVars : SelectVars → Prop
  | .all => True
  | .varOrExpressionAsVar l => All1 (wProj W) l

def wSelectClause : SelectClause → Prop
  | .mk _ v => wSelectVars W v

def wSubSelect : SubSelect → Prop
  | .mk c g m v => wSelectClause W c ∧ W.group g ∧ wModifier W m ∧ Opt wDataBlock v

def wItem : GraphPatternNotTriples → Prop
  | .groupOrUnion l => All1 W.group l
  | .optional g | .minus g => W.group g
  | .graph (.mk v g) | .service (.mk v _ g) => wVarOrIri v ∧ W.group g
  | .filter c => wConstraint W c
  | .bind x => wAsVar W x
  | .inlineData d => wDataBlock d

/-- Triples after another item do not begin with `?` (C38). -/
def wEntryTriples (b : TriplesBlock) : Prop := wPatterns b.triples ∧ (pPatterns b.triples).head? ≠ some '?'

def wGroupEntry : GraphPatternAndTriples → Prop
  | .mk g o => wItem W g ∧ Opt wEntryTriples o

def wGroup : GroupGraphPattern → Prop
  | .groupGraphPatternSub (.mk o l) => Opt (fun b => wPatterns b.triples) o ∧ All (wGroupEntry W) l
  | .subSelect q => wSubSelect W q
end

/-- The printer for expressions and groups nested at most `n` deep. -/
def printer : Nat → Printer
  | 0 => ⟨fun _ => [], fun _ => []⟩
  | n + 1 => ⟨pExpression (printer n), pGroup (printer n)⟩
def printable : Nat → Printable
  | 0 => ⟨fun _ => False, fun _ => False⟩
  | n + 1 => ⟨wExpression (printable n), wGroup (printable n)⟩

/-! ## Queries and updates -/

def pDataSets (l : List DataSetClause) : Str := pMany (fun d => c!"from " ++ (pDefaultOrNamed d ++ [' '])) l

section
variable (S : Printer)

def pTargets : VarOrIrisOrAll → Str
  | .varIri l => pEach pVarOrIri l
  | .all => c!"* "

def pQuery : SparqlQuery → Str
  | .select q => pSelectClause S q.selectClause ++ ' ' :: (pDataSets q.datasetClauses ++ (c!"where " ++ (S.group q.whereClause ++ pModifier S q.solutionModifier)))
  | .ask q => c!"ask " ++ (pDataSets q.datasetClauses ++ (c!"where " ++ (S.group q.whereClause ++ pModifier S q.solutionModifier)))
  | .describe q => c!"describe " ++ (pTargets q.varOrIrisOrAll ++ (pDataSets q.datasetClauses ++
      (pOpt (fun g => c!"where " ++ S.group g) q.whereClause ++ pModifier S q.solutionModifier)))
  | .construct (.subConstruct q) => c!"construct {" ++ (pSep c!" ." pTriples1 q.constructTemplate ++ (c!"} " ++ (pDataSets q.datasetClauses ++
      (c!"where " ++ (S.group q.whereClause ++ pModifier S q.solutionModifier)))))
  | .construct (.subTriples q) => c!"construct " ++ (pDataSets q.datasetClauses ++ (c!"where " ++ (pBlock q.triplesTemplate ++ pModifier S q.solutionModifier)))

def pQueryStmt (q : SparqlQueryStatement) : Str := pPrologue q.prologue ++ ' ' :: pQuery S q.query

def pGraphOrDefault : GraphOrDefault → Str
  | .default => c!"default"
  | .graph i => c!"graph " ++ pIri i
def pGraphRefAll : GraphRefAll → Str
  | .default => c!"default"
  | .named => c!"named"
  | .all => c!"all"
  | .graphRef i => c!"graph " ++ pIri i
def pSilent (b : Bool) : Str := if b then c!"silent " else []

def pStatement : UpdateStatement → Str
  | .load s => c!"load " ++ (pSilent s.silent ++ (pIri s.iri ++ pOpt (fun g => c!" into graph " ++ pIri g) s.graphRef))
  | .clear s => c!"clear " ++ (pSilent s.silent ++ pGraphRefAll s.graphRefAll)
  | .drop s => c!"drop " ++ (pSilent s.silent ++ pGraphRefAll s.graphRefAll)
  | .create s => c!"create " ++ (pSilent s.silent ++ (c!"graph " ++ pIri s.graphRef))
  | .copy s => c!"copy " ++ (pSilent s.silent ++ (pGraphOrDefault s.from' ++ (c!" to " ++ pGraphOrDefault s.to)))
  | .insertData q => c!"insert data " ++ pQuads q
  | .deleteData q => c!"delete data " ++ pQuads q
  | .deleteWhere q => c!"delete where " ++ pQuads q
  | .modify ⟨none, .insert q, l, G⟩ => c!"insert " ++ (pQuads q ++ (pSep c!" " (fun d => c!"using " ++ pDefaultOrNamed d) l ++ (c!" where " ++ S.group G)))
  | _ => []

def pUpdate : Update → Str
  | .mk p none none => pPrologue p
  | .mk p (some st) none => pPrologue p ++ ' ' :: pStatement S st
  | .mk p (some st) (some u) => pPrologue p ++ ' ' :: (pStatement S st ++ (c!" ; " ++ pUpdate u))
  | .mk _ none (some _) => []
end

section
variable (W : Printable)

def wTargets : VarOrIrisOrAll → Prop
  | .varIri l => All1 wVarOrIri l
  | .all => True

def wQuery : SparqlQuery → Prop
  | .select q => wSelectClause W q.selectClause ∧ All wDefaultOrNamed q.datasetClauses ∧ W.group q.whereClause ∧ wModifier W q.solutionModifier
  | .ask q => All wDefaultOrNamed q.datasetClauses ∧ W.group q.whereClause ∧ wModifier W q.solutionModifier
  | .describe q => wTargets q.varOrIrisOrAll ∧ All wDefaultOrNamed q.datasetClauses ∧ Opt W.group q.whereClause ∧ wModifier W q.solutionModifier
  | .construct (.subConstruct q) => All wTriples1 q.constructTemplate ∧ All wDefaultOrNamed q.datasetClauses ∧ W.group q.whereClause ∧ wModifier W q.solutionModifier
  | .construct (.subTriples q) => All wDefaultOrNamed q.datasetClauses ∧ Opt wTriples q.triplesTemplate ∧ wModifier W q.solutionModifier

/-- Without trailing VALUES (C29). -/
def wQueryStmt (q : SparqlQueryStatement) : Prop := wPrologue q.prologue ∧ wQuery W q.query ∧ q.values = none

def wGraphOrDefault : GraphOrDefault → Prop
  | .default => True
  | .graph i => wIri i
def wGraphRefAll : GraphRefAll → Prop
  | .default | .named | .all => True
  | .graphRef i => wIri i

/-- Of the modifications INSERT with at least one USING (C49). -/
def wStatement : UpdateStatement → Prop
  | .load s => wIri s.iri ∧ Opt wIri s.graphRef
  | .clear s => wGraphRefAll s.graphRefAll
  | .drop s => wGraphRefAll s.graphRefAll
  | .create s => wIri s.graphRef
  | .copy s => wGraphOrDefault s.from' ∧ wGraphOrDefault s.to
  | .insertData q | .deleteData q | .deleteWhere q => wQuads q
  | .modify ⟨none, .insert q, l, G⟩ => wQuads q ∧ All1 wDefaultOrNamed l ∧ W.group G
  | _ => False

def wUpdate : Update → Prop
  | .mk p none none => wPrologue p
  | .mk p (some st) none => wPrologue p ∧ wStatement W st
  | .mk p (some st) (some u) => wPrologue p ∧ wStatement W st ∧ wUpdate u
  | .mk _ none (some _) => False
end

end NomSparql
