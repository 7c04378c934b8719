import Verif.Spec.Layout
import Verif.Spec.Canon

/-!
# Other strings, other variables

`Swapped T i i'`: the text `i'` is `i` with contents of strings replaced by others that `T.text` relates to them, names of variables by
others that `T.name` relates to them, and gaps by other gaps.  `SwX T x x'`: the same for trees `x` and `x'` of type `X`; everything but
names of variables and contents of strings is the same.
-/

namespace NomSparql

/-- What contents of strings and names of variables may be replaced by. -/
structure Swap where
  text : Str → Str → Prop
  name : Str → Str → Prop

/-- Names may be kept. -/
def Swap.Keeps (T : Swap) : Prop := ∀ n, T.name n n

/-- At most one replacement for each string and each name. -/
structure Swap.Fun (T : Swap) : Prop where
  text : ∀ {s a b}, T.text s a → T.text s b → a = b
  name : ∀ {s a b}, T.name s a → T.name s b → a = b

/-- No name of a variable comes next, not even after white space. -/
def NoName (s : Str) : Prop := ∀ w c t, s = w ++ c :: t → Ws w → ¬ CodedVarChar c

/-- What can stand between quotes (the empty string the crate does not accept). -/
def QuotedText (q : Char) (s : Str) : Prop := s ≠ [] ∧ StrBody q s

/-- Names of variables on which the crate and SPARQL 1.1 agree. -/
def VarText (n : Str) : Prop := n ≠ [] ∧ ∀ c ∈ n, W3CVarStart c ∧ c.toNat < 0x10000

/-- The end of a variable: white space, punctuation or the end of the text. -/
def EndsName (s : Str) : Prop :=
  ∀ c, s.head? = some c → c ∈ [' ', '\t', '\r', '\n', '(', ')', '{', '}', '[', ']', ',', ';', '.', '=', '!', '<', '>', '+', '-', '*', '/', '&', '|', '^',
    '?', '$', '"', '\'', '@', '\\']

/-- After a `<` that does not begin an IRI: what could belong to an IRI ends before the next variable or string, and not with `>`. -/
def LoneLess (s : Str) : Prop :=
  ∃ m p, s = m ++ p ∧ (∀ c ∈ m, CIriChar c ∧ c ∉ ['?', '$', '\'']) ∧ ∀ c, p.head? = some c → ¬ CIriChar c ∧ c ≠ '>'

/-- The same text with other contents of strings, other names of variables and other gaps. -/
inductive Swapped (T : Swap) : Str → Str → Prop
  | nil : Swapped T [] []
  | char {c s s'} : PlainChar c → (c = '\\' → s.head? ∉ [some '\'', some '$', some '?']) → (c = '<' → LoneLess s) →
      (c = '?' ∨ c = '$' → T.Keeps ∨ NoName s) → Swapped T s s' → Swapped T (c :: s) (c :: s')
  | gap {c c' w w' s s'} : IsBlank c → IsBlank c' → Ws w → Ws w' → Swapped T s s' → Swapped T (c :: (w ++ s)) (c' :: (w' ++ s'))
  | str {q b s s'} : (q = '"' ∨ q = '\'') → StrBody q b → T.text b b → Swapped T s s' →
      Swapped T (q :: (b ++ q :: s)) (q :: (b ++ q :: s'))
  | text {q b b' s s'} : (q = '"' ∨ q = '\'') → T.text b b' → QuotedText q b → QuotedText q b' → Swapped T s s' →
      Swapped T (q :: (b ++ q :: s)) (q :: (b' ++ q :: s'))
  | iri {m s s'} : (∀ c ∈ m, CIriChar c ∧ PlainChar c) → (∀ c ∈ m, c = '?' ∨ c = '$' → T.Keeps) → Swapped T s s' →
      Swapped T ('<' :: (m ++ '>' :: s)) ('<' :: (m ++ '>' :: s'))
  | var {d n n' s s'} : (d = '?' ∨ d = '$') → T.name n n' → VarText n → VarText n' → EndsName s → EndsName s' → Swapped T s s' →
      Swapped T (d :: (n ++ s)) (d :: (n' ++ s'))

/-- Places in such texts; they may be inside a string or before the name of a variable. -/
def SwPlace (T : Swap) (p p' : Str) : Prop :=
  ∃ b b' s s', p = b ++ s ∧ p' = b' ++ s' ∧ (b = b' ∨ VarText b ∧ VarText b') ∧ Swapped T s s'

/-- The text after a `?` cannot be the text of a term: no number, no boolean, and no `:` after a name. -/
def NoTerm (t : Str) : Prop :=
  (∀ c, t.head? = some c → ¬ AsciiDigit c) ∧ (∀ k r, t = k ++ r → ¬ CaseVariant c!"true" k ∧ ¬ CaseVariant c!"false" k) ∧
  ¬ ∃ p w r, t = p ++ (w ++ ':' :: r) ∧ Ws w ∧ ∀ c ∈ p, CodedNameChar c ∨ c = '.'

/-- After a closing bracket the crate may take a `?` for punctuation and what follows it for a term; in these texts it cannot. -/
def NoLeak (i : Str) : Prop := ∀ u b w t, i = u ++ b :: (w ++ '?' :: t) → (b = ')' ∨ b = '}') → Ws w → NoTerm t

/-! ## Trees -/

/-- Elements at the same place are related. -/
def Each2 (R : α → α → Prop) (l l' : List α) : Prop := ∀ (k : Nat) (a : α), l[k]? = some a → ∀ a', l'[k]? = some a' → R a a'

/-- Lists of the same length with related elements. -/
structure All2 (R : α → α → Prop) (l l' : List α) : Prop where
  len : l.length = l'.length
  each : Each2 R l l'

/-- If both are present they are related. -/
def Both2 (R : α → α → Prop) (o o' : Option α) : Prop := ∀ a : α, o = some a → ∀ a', o' = some a' → R a a'

/-- Both absent, or both present and related. -/
structure Opt2 (R : α → α → Prop) (o o' : Option α) : Prop where
  some : o.isSome = o'.isSome
  both : Both2 R o o'

inductive SwVar (T : Swap) : Var → Var → Prop
  | qmark {n n'} : T.name n n' → SwVar T (.qmark n) (.qmark n')
  | dollar {n n'} : T.name n n' → SwVar T (.dollar n) (.dollar n')

inductive SwRdfLiteral (T : Swap) : RdfLiteral → RdfLiteral → Prop
  | mk {s s' d} : T.text s s' → SwRdfLiteral T ⟨s, d⟩ ⟨s', d⟩

inductive SwStringLiteral (T : Swap) : StringLiteral → StringLiteral → Prop
  | simple {s s'} : T.text s s' → SwStringLiteral T (.simple s) (.simple s')
  | language {s s' l} : T.text s s' → SwStringLiteral T (.language s l) (.language s' l)
  | typed {s s'} : T.text s s' → SwStringLiteral T (.typed s) (.typed s')

inductive SwGraphTerm (T : Swap) : GraphTerm → GraphTerm → Prop
  | iri {a} : SwGraphTerm T (.iri a) (.iri a)
  | rdfLiteral {a a'} : SwRdfLiteral T a a' → SwGraphTerm T (.rdfLiteral a) (.rdfLiteral a')
  | numericLiteral {a} : SwGraphTerm T (.numericLiteral a) (.numericLiteral a)
  | booleanLiteral {a} : SwGraphTerm T (.booleanLiteral a) (.booleanLiteral a)
  | blankNode {a} : SwGraphTerm T (.blankNode a) (.blankNode a)
  | nil : SwGraphTerm T .nil .nil

inductive SwVarOrIri (T : Swap) : VarOrIri → VarOrIri → Prop
  | var {a a'} : SwVar T a a' → SwVarOrIri T (.var a) (.var a')
  | iri {a} : SwVarOrIri T (.iri a) (.iri a)

inductive SwVarOrTerm (T : Swap) : VarOrTerm → VarOrTerm → Prop
  | var {a a'} : SwVar T a a' → SwVarOrTerm T (.var a) (.var a')
  | term {a a'} : SwGraphTerm T a a' → SwVarOrTerm T (.term a) (.term a')

inductive SwVarOrIrisOrAll (T : Swap) : VarOrIrisOrAll → VarOrIrisOrAll → Prop
  | varIri {a a'} : All2 (SwVarOrIri T) a a' → SwVarOrIrisOrAll T (.varIri a) (.varIri a')
  | all : SwVarOrIrisOrAll T .all .all

inductive SwVerb (T : Swap) : Verb → Verb → Prop
  | varOrIri {a a'} : SwVarOrIri T a a' → SwVerb T (.varOrIri a) (.varOrIri a')
  | a : SwVerb T .a .a

inductive SwDataBlockValue (T : Swap) : DataBlockValue → DataBlockValue → Prop
  | iri {a} : SwDataBlockValue T (.iri a) (.iri a)
  | rdfLiteral {a a'} : SwRdfLiteral T a a' → SwDataBlockValue T (.rdfLiteral a) (.rdfLiteral a')
  | numericLiteral {a} : SwDataBlockValue T (.numericLiteral a) (.numericLiteral a)
  | booleanLiteral {a} : SwDataBlockValue T (.booleanLiteral a) (.booleanLiteral a)
  | undef : SwDataBlockValue T .undef .undef

inductive SwInlineDataOneVar (T : Swap) : InlineDataOneVar → InlineDataOneVar → Prop
  | mk {a a' b b'} : SwVar T a a' → All2 (SwDataBlockValue T) b b' → SwInlineDataOneVar T ⟨a, b⟩ ⟨a', b'⟩

inductive SwInlineDataFull (T : Swap) : InlineDataFull → InlineDataFull → Prop
  | mk {a a' b b'} : All2 (SwVar T) a a' → All2 (All2 (SwDataBlockValue T)) b b' → SwInlineDataFull T ⟨a, b⟩ ⟨a', b'⟩

inductive SwDataBlock (T : Swap) : DataBlock → DataBlock → Prop
  | inlineDataOneVar {a a'} : SwInlineDataOneVar T a a' → SwDataBlock T (.inlineDataOneVar a) (.inlineDataOneVar a')
  | inlineDataFull {a a'} : SwInlineDataFull T a a' → SwDataBlock T (.inlineDataFull a) (.inlineDataFull a')

set_option genSizeOf false in
set_option genInjectivity false in
mutual
inductive SwGraphNode (T : Swap) : GraphNode → GraphNode → Prop
  | varOrTerm {a a'} : SwVarOrTerm T a a' → SwGraphNode T (.varOrTerm a) (.varOrTerm a')
  | triplesNode {a a'} : SwTriplesNode T a a' → SwGraphNode T (.triplesNode a) (.triplesNode a')
inductive SwTriplesNode (T : Swap) : TriplesNode → TriplesNode → Prop
  | collection {a a'} : a.length = a'.length → Each2 (SwGraphNode T) a a' → SwTriplesNode T (.collection a) (.collection a')
  | blankNodePropertyList {a a'} : SwPropertyList T a a' → SwTriplesNode T (.blankNodePropertyList a) (.blankNodePropertyList a')
inductive SwPropertyList (T : Swap) : PropertyList → PropertyList → Prop
  | mk {a a'} : a.length = a'.length → Each2 (SwVerbList T) a a' → SwPropertyList T (.mk a) (.mk a')
inductive SwVerbList (T : Swap) : VerbList → VerbList → Prop
  | mk {a a' b b'} : SwVerb T a a' → b.length = b'.length → Each2 (SwGraphNode T) b b' → SwVerbList T (.mk a b) (.mk a' b')
end

inductive SwTriplesSameSubject (T : Swap) : TriplesSameSubject → TriplesSameSubject → Prop
  | term {a a' b b'} : SwVarOrTerm T a a' → SwPropertyList T b b' → SwTriplesSameSubject T (.term a b) (.term a' b')
  | node {a a' b b'} : SwTriplesNode T a a' → Opt2 (SwPropertyList T) b b' → SwTriplesSameSubject T (.node a b) (.node a' b')

inductive SwQuadsNotTriples (T : Swap) : QuadsNotTriples → QuadsNotTriples → Prop
  | mk {a a' b b'} : SwVarOrIri T a a' → Opt2 (All2 (SwTriplesSameSubject T)) b b' → SwQuadsNotTriples T ⟨a, b⟩ ⟨a', b'⟩

inductive SwQuadsEntry (T : Swap) : QuadsEntry → QuadsEntry → Prop
  | mk {a a' b b'} : SwQuadsNotTriples T a a' → Opt2 (All2 (SwTriplesSameSubject T)) b b' → SwQuadsEntry T ⟨a, b⟩ ⟨a', b'⟩

inductive SwQuads (T : Swap) : Quads → Quads → Prop
  | mk {a a' b b'} : Opt2 (All2 (SwTriplesSameSubject T)) a a' → All2 (SwQuadsEntry T) b b' → SwQuads T ⟨a, b⟩ ⟨a', b'⟩

inductive SwVerbPathOrSimple (T : Swap) : VerbPathOrSimple → VerbPathOrSimple → Prop
  | path {a} : SwVerbPathOrSimple T (.path a) (.path a)
  | simple {a a'} : SwVar T a a' → SwVerbPathOrSimple T (.simple a) (.simple a')

inductive SwPropertyListPathEntry (T : Swap) : PropertyListPathEntry → PropertyListPathEntry → Prop
  | mk {a a' b b'} : SwVerbPathOrSimple T a a' → All2 (SwGraphNode T) b b' → SwPropertyListPathEntry T ⟨a, b⟩ ⟨a', b'⟩

set_option genSizeOf false in
set_option genInjectivity false in
mutual
inductive SwGraphNodePath (T : Swap) : GraphNodePath → GraphNodePath → Prop
  | varOrTerm {a a'} : SwVarOrTerm T a a' → SwGraphNodePath T (.varOrTerm a) (.varOrTerm a')
  | triplesNodePath {a a'} : SwTriplesNodePath T a a' → SwGraphNodePath T (.triplesNodePath a) (.triplesNodePath a')
inductive SwTriplesNodePath (T : Swap) : TriplesNodePath → TriplesNodePath → Prop
  | collectionPath {a a'} : a.length = a'.length → Each2 (SwGraphNodePath T) a a' → SwTriplesNodePath T (.collectionPath a) (.collectionPath a')
  | blankNodePropertyListPath {a a'} : SwPropertyListPath T a a' → SwTriplesNodePath T (.blankNodePropertyListPath a) (.blankNodePropertyListPath a')
inductive SwPropertyListPath (T : Swap) : PropertyListPath → PropertyListPath → Prop
  | mk {a a' b b' c c'} : SwVerbPathOrSimple T a a' → b.length = b'.length → Each2 (SwGraphNodePath T) b b' → c.length = c'.length → Each2 (SwPropertyListPathEntry T) c c' → SwPropertyListPath T (.mk a b c) (.mk a' b' c')
end

inductive SwTriplesSameSubjectPath (T : Swap) : TriplesSameSubjectPath → TriplesSameSubjectPath → Prop
  | term {a a' b b'} : SwVarOrTerm T a a' → SwPropertyListPath T b b' → SwTriplesSameSubjectPath T (.term a b) (.term a' b')
  | node {a a' b b'} : SwTriplesNodePath T a a' → Opt2 (SwPropertyListPath T) b b' → SwTriplesSameSubjectPath T (.node a b) (.node a' b')

inductive SwTriplesBlock (T : Swap) : TriplesBlock → TriplesBlock → Prop
  | mk {a a'} : All2 (SwTriplesSameSubjectPath T) a a' → SwTriplesBlock T ⟨a⟩ ⟨a'⟩

set_option genSizeOf false in
set_option genInjectivity false in
mutual
inductive SwExpression (T : Swap) : Expression → Expression → Prop
  | mk {a a'} : a.length = a'.length → Each2 (SwConditionalAndExpression T) a a' → SwExpression T (.mk a) (.mk a')
inductive SwConditionalAndExpression (T : Swap) : ConditionalAndExpression → ConditionalAndExpression → Prop
  | mk {a a'} : a.length = a'.length → Each2 (SwRelationalExpression T) a a' → SwConditionalAndExpression T (.mk a) (.mk a')
inductive SwRelationalExpression (T : Swap) : RelationalExpression → RelationalExpression → Prop
  | mk {a a' b b'} : SwAdditiveExpression T a a' → b.isSome = b'.isSome → Both2 (SwOpExpression T) b b' → SwRelationalExpression T (.mk a b) (.mk a' b')
inductive SwOpExpression (T : Swap) : OpExpression → OpExpression → Prop
  | eq {a a'} : SwAdditiveExpression T a a' → SwOpExpression T (.eq a) (.eq a')
  | ne {a a'} : SwAdditiveExpression T a a' → SwOpExpression T (.ne a) (.ne a')
  | lt {a a'} : SwAdditiveExpression T a a' → SwOpExpression T (.lt a) (.lt a')
  | gt {a a'} : SwAdditiveExpression T a a' → SwOpExpression T (.gt a) (.gt a')
  | le {a a'} : SwAdditiveExpression T a a' → SwOpExpression T (.le a) (.le a')
  | ge {a a'} : SwAdditiveExpression T a a' → SwOpExpression T (.ge a) (.ge a')
  | in {a a'} : SwExpressionList T a a' → SwOpExpression T (.in a) (.in a')
  | nin {a a'} : SwExpressionList T a a' → SwOpExpression T (.nin a) (.nin a')
inductive SwAdditiveExpression (T : Swap) : AdditiveExpression → AdditiveExpression → Prop
  | mk {a a' b b'} : SwMultiplicativeExpression T a a' → b.length = b'.length → Each2 (SwAddExpression T) b b' → SwAdditiveExpression T (.mk a b) (.mk a' b')
inductive SwAddExpression (T : Swap) : AddExpression → AddExpression → Prop
  | add {a a'} : SwMultiplicativeExpression T a a' → SwAddExpression T (.add a) (.add a')
  | sub {a a'} : SwMultiplicativeExpression T a a' → SwAddExpression T (.sub a) (.sub a')
  | numeric {a b b'} : b.length = b'.length → Each2 (SwMultExpression T) b b' → SwAddExpression T (.numeric a b) (.numeric a b')
inductive SwMultiplicativeExpression (T : Swap) : MultiplicativeExpression → MultiplicativeExpression → Prop
  | mk {a a' b b'} : SwUnaryExpression T a a' → b.length = b'.length → Each2 (SwMultExpression T) b b' → SwMultiplicativeExpression T (.mk a b) (.mk a' b')
inductive SwMultExpression (T : Swap) : MultExpression → MultExpression → Prop
  | mult {a a'} : SwUnaryExpression T a a' → SwMultExpression T (.mult a) (.mult a')
  | div {a a'} : SwUnaryExpression T a a' → SwMultExpression T (.div a) (.div a')
inductive SwUnaryExpression (T : Swap) : UnaryExpression → UnaryExpression → Prop
  | not {a a'} : SwPrimaryExpression T a a' → SwUnaryExpression T (.not a) (.not a')
  | add {a a'} : SwPrimaryExpression T a a' → SwUnaryExpression T (.add a) (.add a')
  | sub {a a'} : SwPrimaryExpression T a a' → SwUnaryExpression T (.sub a) (.sub a')
  | default {a a'} : SwPrimaryExpression T a a' → SwUnaryExpression T (.default a) (.default a')
inductive SwPrimaryExpression (T : Swap) : PrimaryExpression → PrimaryExpression → Prop
  | brackettedExpression {a a'} : SwExpression T a a' → SwPrimaryExpression T (.brackettedExpression a) (.brackettedExpression a')
  | builtInCall {a a'} : SwBuiltInCall T a a' → SwPrimaryExpression T (.builtInCall a) (.builtInCall a')
  | iriOrFunction {a a'} : SwIriOrFunction T a a' → SwPrimaryExpression T (.iriOrFunction a) (.iriOrFunction a')
  | rdfLiteral {a a'} : SwRdfLiteral T a a' → SwPrimaryExpression T (.rdfLiteral a) (.rdfLiteral a')
  | numericLiteral {a} : SwPrimaryExpression T (.numericLiteral a) (.numericLiteral a)
  | booleanLiteral {a} : SwPrimaryExpression T (.booleanLiteral a) (.booleanLiteral a)
  | var {a a'} : SwVar T a a' → SwPrimaryExpression T (.var a) (.var a')
inductive SwExpressionList (T : Swap) : ExpressionList → ExpressionList → Prop
  | nil : SwExpressionList T .nil .nil
  | list {a a'} : a.length = a'.length → Each2 (SwExpression T) a a' → SwExpressionList T (.list a) (.list a')
inductive SwIriOrFunction (T : Swap) : IriOrFunction → IriOrFunction → Prop
  | mk {a b b'} : b.isSome = b'.isSome → Both2 (SwArgList T) b b' → SwIriOrFunction T (.mk a b) (.mk a b')
inductive SwArgList (T : Swap) : ArgList → ArgList → Prop
  | nil : SwArgList T .nil .nil
  | expression {a b b'} : b.length = b'.length → Each2 (SwExpression T) b b' → SwArgList T (.expression a b) (.expression a b')
inductive SwDistinctExpression (T : Swap) : DistinctExpression → DistinctExpression → Prop
  | mk {a b b'} : SwExpression T b b' → SwDistinctExpression T (.mk a b) (.mk a b')
inductive SwExpressionAsVar (T : Swap) : ExpressionAsVar → ExpressionAsVar → Prop
  | mk {a a' b b'} : SwExpression T a a' → SwVar T b b' → SwExpressionAsVar T (.mk a b) (.mk a' b')
inductive SwExpressionAsVarOpt (T : Swap) : ExpressionAsVarOpt → ExpressionAsVarOpt → Prop
  | mk {a a' b b'} : SwExpression T a a' → b.isSome = b'.isSome → Both2 (SwVar T) b b' → SwExpressionAsVarOpt T (.mk a b) (.mk a' b')
inductive SwRegexExpression (T : Swap) : RegexExpression → RegexExpression → Prop
  | mk {a a' b b' c c'} : SwExpression T a a' → SwExpression T b b' → c.isSome = c'.isSome → Both2 (SwExpression T) c c' → SwRegexExpression T (.mk a b c) (.mk a' b' c')
inductive SwStrReplaceExpression (T : Swap) : StrReplaceExpression → StrReplaceExpression → Prop
  | mk {a a' b b' c c' d d'} : SwExpression T a a' → SwExpression T b b' → SwExpression T c c' → d.isSome = d'.isSome → Both2 (SwExpression T) d d' → SwStrReplaceExpression T (.mk a b c d) (.mk a' b' c' d')
inductive SwConstraint (T : Swap) : Constraint → Constraint → Prop
  | bracketted {a a'} : SwExpression T a a' → SwConstraint T (.bracketted a) (.bracketted a')
  | builtInCall {a a'} : SwBuiltInCall T a a' → SwConstraint T (.builtInCall a) (.builtInCall a')
  | functionCall {a a'} : SwFunctionCall T a a' → SwConstraint T (.functionCall a) (.functionCall a')
inductive SwFunctionCall (T : Swap) : FunctionCall → FunctionCall → Prop
  | mk {a b b'} : SwArgList T b b' → SwFunctionCall T (.mk a b) (.mk a b')
inductive SwBuiltInCall (T : Swap) : BuiltInCall → BuiltInCall → Prop
  | aggregate {a a'} : SwAggregate T a a' → SwBuiltInCall T (.aggregate a) (.aggregate a')
  | str {a a'} : SwExpression T a a' → SwBuiltInCall T (.str a) (.str a')
  | lang {a a'} : SwExpression T a a' → SwBuiltInCall T (.lang a) (.lang a')
  | langMatches {a a' b b'} : SwExpression T a a' → SwExpression T b b' → SwBuiltInCall T (.langMatches a b) (.langMatches a' b')
  | datatype {a a'} : SwExpression T a a' → SwBuiltInCall T (.datatype a) (.datatype a')
  | bound {a a'} : SwVar T a a' → SwBuiltInCall T (.bound a) (.bound a')
  | iri {a a'} : SwExpression T a a' → SwBuiltInCall T (.iri a) (.iri a')
  | uri {a a'} : SwExpression T a a' → SwBuiltInCall T (.uri a) (.uri a')
  | bnode {a a'} : a.isSome = a'.isSome → Both2 (SwExpression T) a a' → SwBuiltInCall T (.bnode a) (.bnode a')
  | rand : SwBuiltInCall T .rand .rand
  | abs {a a'} : SwExpression T a a' → SwBuiltInCall T (.abs a) (.abs a')
  | ceil {a a'} : SwExpression T a a' → SwBuiltInCall T (.ceil a) (.ceil a')
  | floor {a a'} : SwExpression T a a' → SwBuiltInCall T (.floor a) (.floor a')
  | round {a a'} : SwExpression T a a' → SwBuiltInCall T (.round a) (.round a')
  | concat {a a' b b'} : SwExpressionList T a a' → SwRegexExpression T b b' → SwBuiltInCall T (.concat a b) (.concat a' b')
  | strLen {a a' b b'} : SwExpression T a a' → SwStrReplaceExpression T b b' → SwBuiltInCall T (.strLen a b) (.strLen a' b')
  | uCase {a a'} : SwExpression T a a' → SwBuiltInCall T (.uCase a) (.uCase a')
  | lCase {a a'} : SwExpression T a a' → SwBuiltInCall T (.lCase a) (.lCase a')
  | encodeForUri {a a'} : SwExpression T a a' → SwBuiltInCall T (.encodeForUri a) (.encodeForUri a')
  | contains {a a' b b'} : SwExpression T a a' → SwExpression T b b' → SwBuiltInCall T (.contains a b) (.contains a' b')
  | strStarts {a a' b b'} : SwExpression T a a' → SwExpression T b b' → SwBuiltInCall T (.strStarts a b) (.strStarts a' b')
  | strEnds {a a' b b'} : SwExpression T a a' → SwExpression T b b' → SwBuiltInCall T (.strEnds a b) (.strEnds a' b')
  | strBefore {a a' b b'} : SwExpression T a a' → SwExpression T b b' → SwBuiltInCall T (.strBefore a b) (.strBefore a' b')
  | strAfter {a a' b b'} : SwExpression T a a' → SwExpression T b b' → SwBuiltInCall T (.strAfter a b) (.strAfter a' b')
  | year {a a'} : SwExpression T a a' → SwBuiltInCall T (.year a) (.year a')
  | month {a a'} : SwExpression T a a' → SwBuiltInCall T (.month a) (.month a')
  | day {a a'} : SwExpression T a a' → SwBuiltInCall T (.day a) (.day a')
  | hours {a a'} : SwExpression T a a' → SwBuiltInCall T (.hours a) (.hours a')
  | minutes {a a'} : SwExpression T a a' → SwBuiltInCall T (.minutes a) (.minutes a')
  | seconds {a a'} : SwExpression T a a' → SwBuiltInCall T (.seconds a) (.seconds a')
  | timezone {a a'} : SwExpression T a a' → SwBuiltInCall T (.timezone a) (.timezone a')
  | tz {a a'} : SwExpression T a a' → SwBuiltInCall T (.tz a) (.tz a')
  | now : SwBuiltInCall T .now .now
  | uuid : SwBuiltInCall T .uuid .uuid
  | strUuid : SwBuiltInCall T .strUuid .strUuid
  | md5 {a a'} : SwExpression T a a' → SwBuiltInCall T (.md5 a) (.md5 a')
  | sha1 {a a'} : SwExpression T a a' → SwBuiltInCall T (.sha1 a) (.sha1 a')
  | sha256 {a a'} : SwExpression T a a' → SwBuiltInCall T (.sha256 a) (.sha256 a')
  | sha384 {a a'} : SwExpression T a a' → SwBuiltInCall T (.sha384 a) (.sha384 a')
  | sha512 {a a'} : SwExpression T a a' → SwBuiltInCall T (.sha512 a) (.sha512 a')
  | coalesce {a a'} : SwExpressionList T a a' → SwBuiltInCall T (.coalesce a) (.coalesce a')
  | if {a a' b b' c c'} : SwExpression T a a' → SwExpression T b b' → SwExpression T c c' → SwBuiltInCall T (.if a b c) (.if a' b' c')
  | strLang {a a' b b'} : SwExpression T a a' → SwExpression T b b' → SwBuiltInCall T (.strLang a b) (.strLang a' b')
  | strDt {a a' b b'} : SwExpression T a a' → SwExpression T b b' → SwBuiltInCall T (.strDt a b) (.strDt a' b')
  | sameTerm {a a' b b'} : SwExpression T a a' → SwExpression T b b' → SwBuiltInCall T (.sameTerm a b) (.sameTerm a' b')
  | isIri {a a'} : SwExpression T a a' → SwBuiltInCall T (.isIri a) (.isIri a')
  | isUri {a a'} : SwExpression T a a' → SwBuiltInCall T (.isUri a) (.isUri a')
  | isBlank {a a'} : SwExpression T a a' → SwBuiltInCall T (.isBlank a) (.isBlank a')
  | isLiteral {a a'} : SwExpression T a a' → SwBuiltInCall T (.isLiteral a) (.isLiteral a')
  | isNumeric {a a'} : SwExpression T a a' → SwBuiltInCall T (.isNumeric a) (.isNumeric a')
  | regex {a a'} : SwRegexExpression T a a' → SwBuiltInCall T (.regex a) (.regex a')
  | existsFunc {a a'} : SwGroupGraphPattern T a a' → SwBuiltInCall T (.existsFunc a) (.existsFunc a')
  | notExistsFunc {a a'} : SwGroupGraphPattern T a a' → SwBuiltInCall T (.notExistsFunc a) (.notExistsFunc a')
inductive SwAggregate (T : Swap) : Aggregate → Aggregate → Prop
  | count {a a'} : SwCount T a a' → SwAggregate T (.count a) (.count a')
  | sum {a a'} : SwDistinctExpression T a a' → SwAggregate T (.sum a) (.sum a')
  | min {a a'} : SwDistinctExpression T a a' → SwAggregate T (.min a) (.min a')
  | max {a a'} : SwDistinctExpression T a a' → SwAggregate T (.max a) (.max a')
  | avg {a a'} : SwDistinctExpression T a a' → SwAggregate T (.avg a) (.avg a')
  | sample {a a'} : SwDistinctExpression T a a' → SwAggregate T (.sample a) (.sample a')
  | groupConcat {a a'} : SwGroupConcat T a a' → SwAggregate T (.groupConcat a) (.groupConcat a')
inductive SwCount (T : Swap) : Count → Count → Prop
  | mk {a b b'} : SwCountTarget T b b' → SwCount T (.mk a b) (.mk a b')
inductive SwCountTarget (T : Swap) : CountTarget → CountTarget → Prop
  | all : SwCountTarget T .all .all
  | expr {a a'} : SwExpression T a a' → SwCountTarget T (.expr a) (.expr a')
inductive SwGroupConcat (T : Swap) : GroupConcat → GroupConcat → Prop
  | mk {e e' s s'} : SwDistinctExpression T e e' → Opt2 T.text s s' → SwGroupConcat T (.mk e s) (.mk e' s')
inductive SwGroupGraphPattern (T : Swap) : GroupGraphPattern → GroupGraphPattern → Prop
  | subSelect {a a'} : SwSubSelect T a a' → SwGroupGraphPattern T (.subSelect a) (.subSelect a')
  | groupGraphPatternSub {a a'} : SwGroupGraphPatternSub T a a' → SwGroupGraphPattern T (.groupGraphPatternSub a) (.groupGraphPatternSub a')
inductive SwGroupGraphPatternSub (T : Swap) : GroupGraphPatternSub → GroupGraphPatternSub → Prop
  | mk {a a' b b'} : a.isSome = a'.isSome → Both2 (SwTriplesBlock T) a a' → b.length = b'.length → Each2 (SwGraphPatternAndTriples T) b b' → SwGroupGraphPatternSub T (.mk a b) (.mk a' b')
inductive SwGraphPatternAndTriples (T : Swap) : GraphPatternAndTriples → GraphPatternAndTriples → Prop
  | mk {a a' b b'} : SwGraphPatternNotTriples T a a' → b.isSome = b'.isSome → Both2 (SwTriplesBlock T) b b' → SwGraphPatternAndTriples T (.mk a b) (.mk a' b')
inductive SwGraphPatternNotTriples (T : Swap) : GraphPatternNotTriples → GraphPatternNotTriples → Prop
  | optional {a a'} : SwGroupGraphPattern T a a' → SwGraphPatternNotTriples T (.optional a) (.optional a')
  | groupOrUnion {a a'} : a.length = a'.length → Each2 (SwGroupGraphPattern T) a a' → SwGraphPatternNotTriples T (.groupOrUnion a) (.groupOrUnion a')
  | minus {a a'} : SwGroupGraphPattern T a a' → SwGraphPatternNotTriples T (.minus a) (.minus a')
  | graph {a a'} : SwGraphGraphPattern T a a' → SwGraphPatternNotTriples T (.graph a) (.graph a')
  | service {a a'} : SwServiceGraphPattern T a a' → SwGraphPatternNotTriples T (.service a) (.service a')
  | filter {a a'} : SwConstraint T a a' → SwGraphPatternNotTriples T (.filter a) (.filter a')
  | bind {a a'} : SwExpressionAsVar T a a' → SwGraphPatternNotTriples T (.bind a) (.bind a')
  | inlineData {a a'} : SwDataBlock T a a' → SwGraphPatternNotTriples T (.inlineData a) (.inlineData a')
inductive SwGraphGraphPattern (T : Swap) : GraphGraphPattern → GraphGraphPattern → Prop
  | mk {a a' b b'} : SwVarOrIri T a a' → SwGroupGraphPattern T b b' → SwGraphGraphPattern T (.mk a b) (.mk a' b')
inductive SwServiceGraphPattern (T : Swap) : ServiceGraphPattern → ServiceGraphPattern → Prop
  | mk {a a' b c c'} : SwVarOrIri T a a' → SwGroupGraphPattern T c c' → SwServiceGraphPattern T (.mk a b c) (.mk a' b c')
inductive SwSubSelect (T : Swap) : SubSelect → SubSelect → Prop
  | mk {a a' b b' c c' d d'} : SwSelectClause T a a' → SwGroupGraphPattern T b b' → SwSolutionModifier T c c' → d.isSome = d'.isSome → Both2 (SwDataBlock T) d d' → SwSubSelect T (.mk a b c d) (.mk a' b' c' d')
inductive SwSelectClause (T : Swap) : SelectClause → SelectClause → Prop
  | mk {a b b'} : SwSelectVars T b b' → SwSelectClause T (.mk a b) (.mk a b')
inductive SwSelectVars (T : Swap) : SelectVars → SelectVars → Prop
  | varOrExpressionAsVar {a a'} : a.length = a'.length → Each2 (SwVarOrExpressionAsVar T) a a' → SwSelectVars T (.varOrExpressionAsVar a) (.varOrExpressionAsVar a')
  | all : SwSelectVars T .all .all
inductive SwVarOrExpressionAsVar (T : Swap) : VarOrExpressionAsVar → VarOrExpressionAsVar → Prop
  | var {a a'} : SwVar T a a' → SwVarOrExpressionAsVar T (.var a) (.var a')
  | expressionAsVar {a a'} : SwExpressionAsVar T a a' → SwVarOrExpressionAsVar T (.expressionAsVar a) (.expressionAsVar a')
inductive SwSolutionModifier (T : Swap) : SolutionModifier → SolutionModifier → Prop
  | mk {a a' b b' c c' d} : a.isSome = a'.isSome → Both2 (SwOrderClause T) a a' → b.isSome = b'.isSome → Both2 (SwGroupClause T) b b' → c.isSome = c'.isSome → Both2 (SwHavingClause T) c c' → SwSolutionModifier T (.mk a b c d) (.mk a' b' c' d)
inductive SwHavingClause (T : Swap) : HavingClause → HavingClause → Prop
  | mk {a a'} : a.length = a'.length → Each2 (SwConstraint T) a a' → SwHavingClause T (.mk a) (.mk a')
inductive SwOrderClause (T : Swap) : OrderClause → OrderClause → Prop
  | mk {a a'} : a.length = a'.length → Each2 (SwOrderCondition T) a a' → SwOrderClause T (.mk a) (.mk a')
inductive SwOrderCondition (T : Swap) : OrderCondition → OrderCondition → Prop
  | order {a a'} : SwOrderExpression T a a' → SwOrderCondition T (.order a) (.order a')
  | constraint {a a'} : SwConstraint T a a' → SwOrderCondition T (.constraint a) (.constraint a')
  | var {a a'} : SwVar T a a' → SwOrderCondition T (.var a) (.var a')
inductive SwOrderExpression (T : Swap) : OrderExpression → OrderExpression → Prop
  | mk {a b b'} : SwExpression T b b' → SwOrderExpression T (.mk a b) (.mk a b')
inductive SwGroupClause (T : Swap) : GroupClause → GroupClause → Prop
  | mk {a a'} : a.length = a'.length → Each2 (SwGroupCondition T) a a' → SwGroupClause T (.mk a) (.mk a')
inductive SwGroupCondition (T : Swap) : GroupCondition → GroupCondition → Prop
  | builtInCall {a a'} : SwBuiltInCall T a a' → SwGroupCondition T (.builtInCall a) (.builtInCall a')
  | functionCall {a a'} : SwFunctionCall T a a' → SwGroupCondition T (.functionCall a) (.functionCall a')
  | expressionAsVarOpt {a a'} : SwExpressionAsVarOpt T a a' → SwGroupCondition T (.expressionAsVarOpt a) (.expressionAsVarOpt a')
  | var {a a'} : SwVar T a a' → SwGroupCondition T (.var a) (.var a')
end

inductive SwSelectQuery (T : Swap) : SelectQuery → SelectQuery → Prop
  | mk {a a' b c c' d d'} : SwSelectClause T a a' → SwGroupGraphPattern T c c' → SwSolutionModifier T d d' → SwSelectQuery T ⟨a, b, c, d⟩ ⟨a', b, c', d'⟩

inductive SwAskQuery (T : Swap) : AskQuery → AskQuery → Prop
  | mk {a b b' c c'} : SwGroupGraphPattern T b b' → SwSolutionModifier T c c' → SwAskQuery T ⟨a, b, c⟩ ⟨a, b', c'⟩

inductive SwDescribeQuery (T : Swap) : DescribeQuery → DescribeQuery → Prop
  | mk {a b b' c c' d d'} : SwVarOrIrisOrAll T b b' → Opt2 (SwGroupGraphPattern T) c c' → SwSolutionModifier T d d' → SwDescribeQuery T ⟨a, b, c, d⟩ ⟨a, b', c', d'⟩

inductive SwSubConstruct (T : Swap) : SubConstruct → SubConstruct → Prop
  | mk {a a' b c c' d d'} : All2 (SwTriplesSameSubject T) a a' → SwGroupGraphPattern T c c' → SwSolutionModifier T d d' → SwSubConstruct T ⟨a, b, c, d⟩ ⟨a', b, c', d'⟩

inductive SwSubTriples (T : Swap) : SubTriples → SubTriples → Prop
  | mk {a b b' c c'} : Opt2 (All2 (SwTriplesSameSubject T)) b b' → SwSolutionModifier T c c' → SwSubTriples T ⟨a, b, c⟩ ⟨a, b', c'⟩

inductive SwConstructQuery (T : Swap) : ConstructQuery → ConstructQuery → Prop
  | subConstruct {a a'} : SwSubConstruct T a a' → SwConstructQuery T (.subConstruct a) (.subConstruct a')
  | subTriples {a a'} : SwSubTriples T a a' → SwConstructQuery T (.subTriples a) (.subTriples a')

inductive SwSparqlQuery (T : Swap) : SparqlQuery → SparqlQuery → Prop
  | ask {a a'} : SwAskQuery T a a' → SwSparqlQuery T (.ask a) (.ask a')
  | select {a a'} : SwSelectQuery T a a' → SwSparqlQuery T (.select a) (.select a')
  | describe {a a'} : SwDescribeQuery T a a' → SwSparqlQuery T (.describe a) (.describe a')
  | construct {a a'} : SwConstructQuery T a a' → SwSparqlQuery T (.construct a) (.construct a')

inductive SwSparqlQueryStatement (T : Swap) : SparqlQueryStatement → SparqlQueryStatement → Prop
  | mk {a b b' c c'} : SwSparqlQuery T b b' → Opt2 (SwDataBlock T) c c' → SwSparqlQueryStatement T ⟨a, b, c⟩ ⟨a, b', c'⟩

inductive SwDeleteInsert (T : Swap) : DeleteInsert → DeleteInsert → Prop
  | deleteInsert {a a' b b'} : SwQuads T a a' → Opt2 (SwQuads T) b b' → SwDeleteInsert T (.deleteInsert a b) (.deleteInsert a' b')
  | insert {a a'} : SwQuads T a a' → SwDeleteInsert T (.insert a) (.insert a')

inductive SwModifyStatement (T : Swap) : ModifyStatement → ModifyStatement → Prop
  | mk {a b b' c d d'} : SwDeleteInsert T b b' → SwGroupGraphPattern T d d' → SwModifyStatement T ⟨a, b, c, d⟩ ⟨a, b', c, d'⟩

inductive SwUpdateStatement (T : Swap) : UpdateStatement → UpdateStatement → Prop
  | load {a} : SwUpdateStatement T (.load a) (.load a)
  | clear {a} : SwUpdateStatement T (.clear a) (.clear a)
  | drop {a} : SwUpdateStatement T (.drop a) (.drop a)
  | create {a} : SwUpdateStatement T (.create a) (.create a)
  | add {a} : SwUpdateStatement T (.add a) (.add a)
  | move {a} : SwUpdateStatement T (.move a) (.move a)
  | copy {a} : SwUpdateStatement T (.copy a) (.copy a)
  | insertData {a a'} : SwQuads T a a' → SwUpdateStatement T (.insertData a) (.insertData a')
  | deleteData {a a'} : SwQuads T a a' → SwUpdateStatement T (.deleteData a) (.deleteData a')
  | deleteWhere {a a'} : SwQuads T a a' → SwUpdateStatement T (.deleteWhere a) (.deleteWhere a')
  | modify {a a'} : SwModifyStatement T a a' → SwUpdateStatement T (.modify a) (.modify a')

inductive SwUpdate (T : Swap) : Update → Update → Prop
  | mk {a b b' c c'} : b.isSome = b'.isSome → Both2 (SwUpdateStatement T) b b' → c.isSome = c'.isSome → Both2 (SwUpdate T) c c' → SwUpdate T (.mk a b c) (.mk a b' c')

/-- Answers on such texts: related values and remainders, or the same error at the same place. -/
def SwAnswer (T : Swap) (V : α → α → Prop) : Res α → Res α → Prop
  | .ok r v, .ok r' v' => V v v' ∧ Swapped T r r'
  | .err (.error p k), .err (.error p' k') => k = k' ∧ SwPlace T p p'
  | .err (.failure p k), .err (.failure p' k') => k = k' ∧ SwPlace T p p'
  | .err e, .err e' => e = e'
  | _, _ => False

end NomSparql
