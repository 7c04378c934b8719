import Verif.Spec.Render
import Verif.Spec.Layout

/-!
# The grammar of SPARQL 1.1

The productions of https://www.w3.org/TR/sparql11-query/#sparqlGrammar, numbered as there, over the characters of a request.
It knows nothing of the crate: `rule` is a table, `Gen` says which texts a symbol generates.  Of the notes to the grammar only
note 3 and 4 (keywords, white space) are followed; see C76 for the others.

A `Dialect` says which texts the terminals are, whether words may touch, and which of the additional productions of `extra` may be
used.  `sparql` is SPARQL 1.1 with words kept apart, `sparqlWide` allows them to touch.  `lax` is the dialect in which the terminals are those of the crate and white space between
words may be left out; it is used with various sets of additional productions.
-/

namespace NomSparql

/-- Terminals with varying text. -/
inductive Term where
  | iriRef | pnameNs | pnameLn | blankNodeLabel | var | langTag | integer | number | signedNumber | string | nil | anon
  deriving DecidableEq

/-- Non-terminals. -/
inductive Nt where
  | query | prologue | baseDecl | prefixDecl | selectQuery | subSelect | selectClause | constructQuery | describeQuery | askQuery
  | datasetClause | defaultGraphClause | namedGraphClause | sourceSelector | whereClause | solutionModifier | groupClause | groupCondition
  | havingClause | havingCondition | orderClause | orderCondition | limitOffsetClauses | limitClause | offsetClause | valuesClause
  | update | update1 | load | clear | drop | create | add | move | copy | insertData | deleteData | deleteWhere | modify | deleteClause
  | insertClause | usingClause | graphOrDefault | graphRef | graphRefAll | quadPattern | quadData | quads | quadsNotTriples | triplesTemplate
  | groupGraphPattern | groupGraphPatternSub | triplesBlock | graphPatternNotTriples | optionalGraphPattern | graphGraphPattern
  | serviceGraphPattern | bind | inlineData | dataBlock | inlineDataOneVar | inlineDataFull | dataBlockValue | minusGraphPattern
  | groupOrUnionGraphPattern | filter | constraint | functionCall | argList | expressionList | constructTemplate | constructTriples
  | triplesSameSubject | propertyList | propertyListNotEmpty | verb | objectList | object | triplesSameSubjectPath | propertyListPath
  | propertyListPathNotEmpty | verbPath | verbSimple | objectListPath | objectPath | path | pathAlternative | pathSequence | pathElt
  | pathEltOrInverse | pathMod | pathPrimary | pathNegatedPropertySet | pathOneInPropertySet | triplesNode | blankNodePropertyList
  | triplesNodePath | blankNodePropertyListPath | collection | collectionPath | graphNode | graphNodePath | varOrTerm | varOrIri
  | graphTerm | expression | conditionalOrExpression | conditionalAndExpression | valueLogical | relationalExpression | numericExpression
  | additiveExpression | multiplicativeExpression | unaryExpression | primaryExpression | brackettedExpression | builtInCall
  | regexExpression | substringExpression | strReplaceExpression | existsFunc | notExistsFunc | aggregate | iriOrFunction | rdfLiteral
  | numericLiteral | booleanLiteral | iri | prefixedName | blankNode
  deriving DecidableEq

/-- Right-hand sides. -/
inductive Ebnf where
  /-- a terminal -/
  | t (x : Term)
  /-- a keyword, in any letter case -/
  | k (w : Str)
  /-- exactly this text -/
  | p (w : Str)
  | n (x : Nt)
  | nothing
  | seq (a b : Ebnf)
  | alt (a b : Ebnf)
  | star (a : Ebnf)

namespace Ebnf
@[inherit_doc] scoped infixr:65 " ⬩ " => Ebnf.seq
@[inherit_doc] scoped infixr:60 " ⫾ " => Ebnf.alt
/-- `a?` -/
def maybe (a : Ebnf) : Ebnf := a ⫾ nothing
/-- `a+` -/
def plus (a : Ebnf) : Ebnf := a ⬩ star a
/-- `( a )` -/
def parens (a : Ebnf) : Ebnf := p c!"(" ⬩ a ⬩ p c!")"
/-- `{ a }` -/
def braces (a : Ebnf) : Ebnf := p c!"{" ⬩ a ⬩ p c!"}"
/-- `a (sep a)*` -/
def sepBy (a sep : Ebnf) : Ebnf := a ⬩ star (sep ⬩ a)
/-- An alternative for each word. -/
def choice : List Ebnf → Ebnf
  | [] => nothing
  | [a] => a
  | a :: b :: l => a ⫾ choice (b :: l)
/-- A call with one expression. -/
def call1 (w : Str) : Ebnf := k w ⬩ parens (n .expression)
/-- A call with two expressions. -/
def call2 (w : Str) : Ebnf := k w ⬩ parens (n .expression ⬩ p c!"," ⬩ n .expression)
/-- A call without expression. -/
def call0 (w : Str) : Ebnf := k w ⬩ t .nil
end Ebnf

open Ebnf

/-- The functions of one expression in production 121. -/
def oneArgFns : List Str := [c!"str", c!"lang", c!"datatype", c!"iri", c!"uri", c!"abs", c!"ceil", c!"floor", c!"round", c!"strlen", c!"ucase", c!"lcase",
  c!"encode_for_uri", c!"year", c!"month", c!"day", c!"hours", c!"minutes", c!"seconds", c!"timezone", c!"tz", c!"md5", c!"sha1", c!"sha256",
  c!"sha384", c!"sha512", c!"isiri", c!"isuri", c!"isblank", c!"isliteral", c!"isnumeric"]

/-- The functions of two expressions in production 121. -/
def twoArgFns : List Str := [c!"langmatches", c!"contains", c!"strstarts", c!"strends", c!"strbefore", c!"strafter", c!"strlang", c!"strdt", c!"sameterm"]

/-- The functions without expression in production 121. -/
def noArgFns : List Str := [c!"rand", c!"now", c!"uuid", c!"struuid"]

/-- The aggregates of one expression in production 127. -/
def plainAggregates : List Str := [c!"sum", c!"min", c!"max", c!"avg", c!"sample"]

/-- The grammar of SPARQL 1.1. -/
def rule : Nt → Ebnf
  | .query => /- [2] -/ n .prologue ⬩ (n .selectQuery ⫾ n .constructQuery ⫾ n .describeQuery ⫾ n .askQuery) ⬩ n .valuesClause
  | .prologue => /- [4] -/ star (n .baseDecl ⫾ n .prefixDecl)
  | .baseDecl => /- [5] -/ k c!"base" ⬩ t .iriRef
  | .prefixDecl => /- [6] -/ k c!"prefix" ⬩ t .pnameNs ⬩ t .iriRef
  | .selectQuery => /- [7] -/ n .selectClause ⬩ star (n .datasetClause) ⬩ n .whereClause ⬩ n .solutionModifier
  | .subSelect => /- [8] -/ n .selectClause ⬩ n .whereClause ⬩ n .solutionModifier ⬩ n .valuesClause
  | .selectClause => /- [9] -/ k c!"select" ⬩ maybe (k c!"distinct" ⫾ k c!"reduced") ⬩
      (plus (t .var ⫾ parens (n .expression ⬩ k c!"as" ⬩ t .var)) ⫾ p c!"*")
  | .constructQuery => /- [10] -/ k c!"construct" ⬩
      ((n .constructTemplate ⬩ star (n .datasetClause) ⬩ n .whereClause ⬩ n .solutionModifier) ⫾
       (star (n .datasetClause) ⬩ k c!"where" ⬩ p c!"{" ⬩ maybe (n .triplesTemplate) ⬩ p c!"}" ⬩ n .solutionModifier))
  | .describeQuery => /- [11] -/ k c!"describe" ⬩ (plus (n .varOrIri) ⫾ p c!"*") ⬩ star (n .datasetClause) ⬩ maybe (n .whereClause) ⬩ n .solutionModifier
  | .askQuery => /- [12] -/ k c!"ask" ⬩ star (n .datasetClause) ⬩ n .whereClause ⬩ n .solutionModifier
  | .datasetClause => /- [13] -/ k c!"from" ⬩ (n .defaultGraphClause ⫾ n .namedGraphClause)
  | .defaultGraphClause => /- [14] -/ n .sourceSelector
  | .namedGraphClause => /- [15] -/ k c!"named" ⬩ n .sourceSelector
  | .sourceSelector => /- [16] -/ n .iri
  | .whereClause => /- [17] -/ maybe (k c!"where") ⬩ n .groupGraphPattern
  | .solutionModifier => /- [18] -/ maybe (n .groupClause) ⬩ maybe (n .havingClause) ⬩ maybe (n .orderClause) ⬩ maybe (n .limitOffsetClauses)
  | .groupClause => /- [19] -/ k c!"group" ⬩ k c!"by" ⬩ plus (n .groupCondition)
  | .groupCondition => /- [20] -/ n .builtInCall ⫾ n .functionCall ⫾ parens (n .expression ⬩ maybe (k c!"as" ⬩ t .var)) ⫾ t .var
  | .havingClause => /- [21] -/ k c!"having" ⬩ plus (n .havingCondition)
  | .havingCondition => /- [22] -/ n .constraint
  | .orderClause => /- [23] -/ k c!"order" ⬩ k c!"by" ⬩ plus (n .orderCondition)
  | .orderCondition => /- [24] -/ ((k c!"asc" ⫾ k c!"desc") ⬩ n .brackettedExpression) ⫾ n .constraint ⫾ t .var
  | .limitOffsetClauses => /- [25] -/ (n .limitClause ⬩ maybe (n .offsetClause)) ⫾ (n .offsetClause ⬩ maybe (n .limitClause))
  | .limitClause => /- [26] -/ k c!"limit" ⬩ t .integer
  | .offsetClause => /- [27] -/ k c!"offset" ⬩ t .integer
  | .valuesClause => /- [28] -/ maybe (k c!"values" ⬩ n .dataBlock)
  | .update => /- [29] -/ n .prologue ⬩ maybe (n .update1 ⬩ maybe (p c!";" ⬩ n .update))
  | .update1 => /- [30] -/ choice [n .load, n .clear, n .drop, n .add, n .move, n .copy, n .create, n .insertData, n .deleteData, n .deleteWhere, n .modify]
  | .load => /- [31] -/ k c!"load" ⬩ maybe (k c!"silent") ⬩ n .iri ⬩ maybe (k c!"into" ⬩ n .graphRef)
  | .clear => /- [32] -/ k c!"clear" ⬩ maybe (k c!"silent") ⬩ n .graphRefAll
  | .drop => /- [33] -/ k c!"drop" ⬩ maybe (k c!"silent") ⬩ n .graphRefAll
  | .create => /- [34] -/ k c!"create" ⬩ maybe (k c!"silent") ⬩ n .graphRef
  | .add => /- [35] -/ k c!"add" ⬩ maybe (k c!"silent") ⬩ n .graphOrDefault ⬩ k c!"to" ⬩ n .graphOrDefault
  | .move => /- [36] -/ k c!"move" ⬩ maybe (k c!"silent") ⬩ n .graphOrDefault ⬩ k c!"to" ⬩ n .graphOrDefault
  | .copy => /- [37] -/ k c!"copy" ⬩ maybe (k c!"silent") ⬩ n .graphOrDefault ⬩ k c!"to" ⬩ n .graphOrDefault
  | .insertData => /- [38] -/ k c!"insert" ⬩ k c!"data" ⬩ n .quadData
  | .deleteData => /- [39] -/ k c!"delete" ⬩ k c!"data" ⬩ n .quadData
  | .deleteWhere => /- [40] -/ k c!"delete" ⬩ k c!"where" ⬩ n .quadPattern
  | .modify => /- [41] -/ maybe (k c!"with" ⬩ n .iri) ⬩ ((n .deleteClause ⬩ maybe (n .insertClause)) ⫾ n .insertClause) ⬩ star (n .usingClause) ⬩
      k c!"where" ⬩ n .groupGraphPattern
  | .deleteClause => /- [42] -/ k c!"delete" ⬩ n .quadPattern
  | .insertClause => /- [43] -/ k c!"insert" ⬩ n .quadPattern
  | .usingClause => /- [44] -/ k c!"using" ⬩ (n .iri ⫾ (k c!"named" ⬩ n .iri))
  | .graphOrDefault => /- [45] -/ k c!"default" ⫾ (maybe (k c!"graph") ⬩ n .iri)
  | .graphRef => /- [46] -/ k c!"graph" ⬩ n .iri
  | .graphRefAll => /- [47] -/ n .graphRef ⫾ k c!"default" ⫾ k c!"named" ⫾ k c!"all"
  | .quadPattern => /- [48] -/ braces (n .quads)
  | .quadData => /- [49] -/ braces (n .quads)
  | .quads => /- [50] -/ maybe (n .triplesTemplate) ⬩ star (n .quadsNotTriples ⬩ maybe (p c!".") ⬩ maybe (n .triplesTemplate))
  | .quadsNotTriples => /- [51] -/ k c!"graph" ⬩ n .varOrIri ⬩ braces (maybe (n .triplesTemplate))
  | .triplesTemplate => /- [52] -/ n .triplesSameSubject ⬩ maybe (p c!"." ⬩ maybe (n .triplesTemplate))
  | .groupGraphPattern => /- [53] -/ braces (n .subSelect ⫾ n .groupGraphPatternSub)
  | .groupGraphPatternSub => /- [54] -/ maybe (n .triplesBlock) ⬩ star (n .graphPatternNotTriples ⬩ maybe (p c!".") ⬩ maybe (n .triplesBlock))
  | .triplesBlock => /- [55] -/ n .triplesSameSubjectPath ⬩ maybe (p c!"." ⬩ maybe (n .triplesBlock))
  | .graphPatternNotTriples => /- [56] -/ choice [n .groupOrUnionGraphPattern, n .optionalGraphPattern, n .minusGraphPattern, n .graphGraphPattern,
      n .serviceGraphPattern, n .filter, n .bind, n .inlineData]
  | .optionalGraphPattern => /- [57] -/ k c!"optional" ⬩ n .groupGraphPattern
  | .graphGraphPattern => /- [58] -/ k c!"graph" ⬩ n .varOrIri ⬩ n .groupGraphPattern
  | .serviceGraphPattern => /- [59] -/ k c!"service" ⬩ maybe (k c!"silent") ⬩ n .varOrIri ⬩ n .groupGraphPattern
  | .bind => /- [60] -/ k c!"bind" ⬩ parens (n .expression ⬩ k c!"as" ⬩ t .var)
  | .inlineData => /- [61] -/ k c!"values" ⬩ n .dataBlock
  | .dataBlock => /- [62] -/ n .inlineDataOneVar ⫾ n .inlineDataFull
  | .inlineDataOneVar => /- [63] -/ t .var ⬩ braces (star (n .dataBlockValue))
  | .inlineDataFull => /- [64] -/ (t .nil ⫾ parens (star (t .var))) ⬩ braces (star (parens (star (n .dataBlockValue)) ⫾ t .nil))
  | .dataBlockValue => /- [65] -/ n .iri ⫾ n .rdfLiteral ⫾ n .numericLiteral ⫾ n .booleanLiteral ⫾ k c!"undef"
  | .minusGraphPattern => /- [66] -/ k c!"minus" ⬩ n .groupGraphPattern
  | .groupOrUnionGraphPattern => /- [67] -/ sepBy (n .groupGraphPattern) (k c!"union")
  | .filter => /- [68] -/ k c!"filter" ⬩ n .constraint
  | .constraint => /- [69] -/ n .brackettedExpression ⫾ n .builtInCall ⫾ n .functionCall
  | .functionCall => /- [70] -/ n .iri ⬩ n .argList
  | .argList => /- [71] -/ t .nil ⫾ parens (maybe (k c!"distinct") ⬩ sepBy (n .expression) (p c!","))
  | .expressionList => /- [72] -/ t .nil ⫾ parens (sepBy (n .expression) (p c!","))
  | .constructTemplate => /- [73] -/ braces (maybe (n .constructTriples))
  | .constructTriples => /- [74] -/ n .triplesSameSubject ⬩ maybe (p c!"." ⬩ maybe (n .constructTriples))
  | .triplesSameSubject => /- [75] -/ (n .varOrTerm ⬩ n .propertyListNotEmpty) ⫾ (n .triplesNode ⬩ n .propertyList)
  | .propertyList => /- [76] -/ maybe (n .propertyListNotEmpty)
  | .propertyListNotEmpty => /- [77] -/ n .verb ⬩ n .objectList ⬩ star (p c!";" ⬩ maybe (n .verb ⬩ n .objectList))
  | .verb => /- [78] -/ n .varOrIri ⫾ p c!"a"
  | .objectList => /- [79] -/ sepBy (n .object) (p c!",")
  | .object => /- [80] -/ n .graphNode
  | .triplesSameSubjectPath => /- [81] -/ (n .varOrTerm ⬩ n .propertyListPathNotEmpty) ⫾ (n .triplesNodePath ⬩ n .propertyListPath)
  | .propertyListPath => /- [82] -/ maybe (n .propertyListPathNotEmpty)
  | .propertyListPathNotEmpty => /- [83] -/ (n .verbPath ⫾ n .verbSimple) ⬩ n .objectListPath ⬩
      star (p c!";" ⬩ maybe ((n .verbPath ⫾ n .verbSimple) ⬩ n .objectList))
  | .verbPath => /- [84] -/ n .path
  | .verbSimple => /- [85] -/ t .var
  | .objectListPath => /- [86] -/ sepBy (n .objectPath) (p c!",")
  | .objectPath => /- [87] -/ n .graphNodePath
  | .path => /- [88] -/ n .pathAlternative
  | .pathAlternative => /- [89] -/ sepBy (n .pathSequence) (p c!"|")
  | .pathSequence => /- [90] -/ sepBy (n .pathEltOrInverse) (p c!"/")
  | .pathElt => /- [91] -/ n .pathPrimary ⬩ maybe (n .pathMod)
  | .pathEltOrInverse => /- [92] -/ n .pathElt ⫾ (p c!"^" ⬩ n .pathElt)
  | .pathMod => /- [93] -/ p c!"?" ⫾ p c!"*" ⫾ p c!"+"
  | .pathPrimary => /- [94] -/ n .iri ⫾ p c!"a" ⫾ (p c!"!" ⬩ n .pathNegatedPropertySet) ⫾ parens (n .path)
  | .pathNegatedPropertySet => /- [95] -/ n .pathOneInPropertySet ⫾ parens (maybe (sepBy (n .pathOneInPropertySet) (p c!"|")))
  | .pathOneInPropertySet => /- [96] -/ n .iri ⫾ p c!"a" ⫾ (p c!"^" ⬩ (n .iri ⫾ p c!"a"))
  | .triplesNode => /- [98] -/ n .collection ⫾ n .blankNodePropertyList
  | .blankNodePropertyList => /- [99] -/ p c!"[" ⬩ n .propertyListNotEmpty ⬩ p c!"]"
  | .triplesNodePath => /- [100] -/ n .collectionPath ⫾ n .blankNodePropertyListPath
  | .blankNodePropertyListPath => /- [101] -/ p c!"[" ⬩ n .propertyListPathNotEmpty ⬩ p c!"]"
  | .collection => /- [102] -/ parens (plus (n .graphNode))
  | .collectionPath => /- [103] -/ parens (plus (n .graphNodePath))
  | .graphNode => /- [104] -/ n .varOrTerm ⫾ n .triplesNode
  | .graphNodePath => /- [105] -/ n .varOrTerm ⫾ n .triplesNodePath
  | .varOrTerm => /- [106] -/ t .var ⫾ n .graphTerm
  | .varOrIri => /- [107] -/ t .var ⫾ n .iri
  | .graphTerm => /- [109] -/ n .iri ⫾ n .rdfLiteral ⫾ n .numericLiteral ⫾ n .booleanLiteral ⫾ n .blankNode ⫾ t .nil
  | .expression => /- [110] -/ n .conditionalOrExpression
  | .conditionalOrExpression => /- [111] -/ sepBy (n .conditionalAndExpression) (p c!"||")
  | .conditionalAndExpression => /- [112] -/ sepBy (n .valueLogical) (p c!"&&")
  | .valueLogical => /- [113] -/ n .relationalExpression
  | .relationalExpression => /- [114] -/ n .numericExpression ⬩ maybe (choice [p c!"=" ⬩ n .numericExpression, p c!"!=" ⬩ n .numericExpression,
      p c!"<" ⬩ n .numericExpression, p c!">" ⬩ n .numericExpression, p c!"<=" ⬩ n .numericExpression, p c!">=" ⬩ n .numericExpression,
      k c!"in" ⬩ n .expressionList, k c!"not" ⬩ k c!"in" ⬩ n .expressionList])
  | .numericExpression => /- [115] -/ n .additiveExpression
  | .additiveExpression => /- [116] -/ n .multiplicativeExpression ⬩ star ((p c!"+" ⬩ n .multiplicativeExpression) ⫾
      (p c!"-" ⬩ n .multiplicativeExpression) ⫾
      (t .signedNumber ⬩ star ((p c!"*" ⬩ n .unaryExpression) ⫾ (p c!"/" ⬩ n .unaryExpression))))
  | .multiplicativeExpression => /- [117] -/ n .unaryExpression ⬩ star ((p c!"*" ⬩ n .unaryExpression) ⫾ (p c!"/" ⬩ n .unaryExpression))
  | .unaryExpression => /- [118] -/ (p c!"!" ⬩ n .primaryExpression) ⫾ (p c!"+" ⬩ n .primaryExpression) ⫾ (p c!"-" ⬩ n .primaryExpression) ⫾
      n .primaryExpression
  | .primaryExpression => /- [119] -/ choice [n .brackettedExpression, n .builtInCall, n .iriOrFunction, n .rdfLiteral, n .numericLiteral,
      n .booleanLiteral, t .var]
  | .brackettedExpression => /- [120] -/ parens (n .expression)
  | .builtInCall => /- [121] -/ choice (n .aggregate :: n .substringExpression :: n .strReplaceExpression :: n .regexExpression :: n .existsFunc ::
      n .notExistsFunc :: (k c!"bound" ⬩ parens (t .var)) :: (k c!"bnode" ⬩ (parens (n .expression) ⫾ t .nil)) ::
      (k c!"concat" ⬩ n .expressionList) :: (k c!"coalesce" ⬩ n .expressionList) ::
      (k c!"if" ⬩ parens (n .expression ⬩ p c!"," ⬩ n .expression ⬩ p c!"," ⬩ n .expression)) ::
      (oneArgFns.map call1 ++ twoArgFns.map call2 ++ noArgFns.map call0))
  | .regexExpression => /- [122] -/ k c!"regex" ⬩ parens (n .expression ⬩ p c!"," ⬩ n .expression ⬩ maybe (p c!"," ⬩ n .expression))
  | .substringExpression => /- [123] -/ k c!"substr" ⬩ parens (n .expression ⬩ p c!"," ⬩ n .expression ⬩ maybe (p c!"," ⬩ n .expression))
  | .strReplaceExpression => /- [124] -/ k c!"replace" ⬩ parens (n .expression ⬩ p c!"," ⬩ n .expression ⬩ p c!"," ⬩ n .expression ⬩
      maybe (p c!"," ⬩ n .expression))
  | .existsFunc => /- [125] -/ k c!"exists" ⬩ n .groupGraphPattern
  | .notExistsFunc => /- [126] -/ k c!"not" ⬩ k c!"exists" ⬩ n .groupGraphPattern
  | .aggregate => /- [127] -/ choice ((k c!"count" ⬩ parens (maybe (k c!"distinct") ⬩ (p c!"*" ⫾ n .expression))) ::
      (k c!"group_concat" ⬩ parens (maybe (k c!"distinct") ⬩ n .expression ⬩ maybe (p c!";" ⬩ k c!"separator" ⬩ p c!"=" ⬩ t .string))) ::
      plainAggregates.map fun w => k w ⬩ parens (maybe (k c!"distinct") ⬩ n .expression))
  | .iriOrFunction => /- [128] -/ n .iri ⬩ maybe (n .argList)
  | .rdfLiteral => /- [129] -/ t .string ⬩ maybe (t .langTag ⫾ (p c!"^^" ⬩ n .iri))
  | .numericLiteral => /- [130] -/ t .number ⫾ t .signedNumber
  | .booleanLiteral => /- [134] -/ k c!"true" ⫾ k c!"false"
  | .iri => /- [136] -/ t .iriRef ⫾ n .prefixedName
  | .prefixedName => /- [137] -/ t .pnameLn ⫾ t .pnameNs
  | .blankNode => /- [138] -/ t .blankNodeLabel ⫾ t .anon

/-! ## Terminals -/

/-- PN_CHARS_U. -/
def W3CPnCharsU (c : Char) : Prop := W3CPnCharsBase c ∨ c = '_'
/-- The additional characters of VARNAME and PN_CHARS. -/
def W3CCombining (c : Char) : Prop := c.toNat = 0xB7 ∨ (0x300 ≤ c.toNat ∧ c.toNat ≤ 0x36F) ∨ (0x203F ≤ c.toNat ∧ c.toNat ≤ 0x2040)
/-- PN_CHARS. -/
def W3CPnChars (c : Char) : Prop := W3CPnCharsU c ∨ c = '-' ∨ AsciiDigit c ∨ W3CCombining c
/-- `((PN_CHARS | '.')* PN_CHARS)?` -/
def W3CNameTail (s : Str) : Prop := s = [] ∨ ∃ a c, s = a ++ [c] ∧ (∀ d ∈ a, W3CPnChars d ∨ d = '.') ∧ W3CPnChars c
/-- PN_PREFIX. -/
def W3CPrefix (s : Str) : Prop := ∃ c a, s = c :: a ∧ W3CPnCharsBase c ∧ W3CNameTail a
/-- PNAME_NS. -/
def W3CPnameNs : Lang := fun s => s = c!":" ∨ ∃ a, s = a ++ c!":" ∧ W3CPrefix a
/-- PN_LOCAL. -/
def W3CLocal (s : Str) : Prop := ∃ u a, s = u ++ a ∧ NameUnit (fun c => W3CPnCharsU c ∨ c = ':' ∨ AsciiDigit c) u ∧
  (a = [] ∨ ∃ b v, a = b ++ v ∧ NameUnits (fun c => W3CPnChars c ∨ c = '.' ∨ c = ':') b ∧ NameUnit (fun c => W3CPnChars c ∨ c = ':') v)
/-- EXPONENT. -/
def W3CExponent (s : Str) : Prop := ∃ c sg d, s = c :: (sg ++ d) ∧ (c = 'e' ∨ c = 'E') ∧ sg ∈ [[], ['+'], ['-']] ∧ d ≠ [] ∧ ∀ x ∈ d, AsciiDigit x
/-- INTEGER. -/
def W3CInteger (s : Str) : Prop := s ≠ [] ∧ ∀ c ∈ s, AsciiDigit c
/-- INTEGER, DECIMAL or DOUBLE. -/
def W3CNumber (s : Str) : Prop := W3CInteger s ∨
  (∃ a b, s = a ++ '.' :: b ∧ (∀ c ∈ a, AsciiDigit c) ∧ W3CInteger b) ∨
  (∃ a b e, s = a ++ '.' :: (b ++ e) ∧ W3CInteger a ∧ (∀ c ∈ b, AsciiDigit c) ∧ W3CExponent e) ∨
  (∃ b e, s = '.' :: (b ++ e) ∧ W3CInteger b ∧ W3CExponent e) ∨ (∃ a e, s = a ++ e ∧ W3CInteger a ∧ W3CExponent e)
/-- Body of a long string in quotes `q`: `((q | q q)? ([^q\] | ECHAR))*`. -/
inductive LongBody (q : Char) : Str → Prop
  | nil : LongBody q []
  | ord {m c s} : m ∈ [[], [q], [q, q]] → c ≠ q → c ≠ '\\' → LongBody q s → LongBody q (m ++ c :: s)
  | esc {m c s} : m ∈ [[], [q], [q, q]] → EscChar c → LongBody q s → LongBody q (m ++ '\\' :: c :: s)

/-- The terminals of SPARQL 1.1 (productions 139 to 163). -/
def w3cTerm : Term → Lang
  | .iriRef => fun s => ∃ x, s = '<' :: (x ++ ['>']) ∧ ∀ c ∈ x, ¬ W3CIriForbidden c
  | .pnameNs => W3CPnameNs
  | .pnameLn => W3CPnameNs ⬝ W3CLocal
  | .blankNodeLabel => fun s => ∃ c a, s = '_' :: ':' :: c :: a ∧ (W3CPnCharsU c ∨ AsciiDigit c) ∧ W3CNameTail a
  | .var => fun s => ∃ g c a, s = g :: c :: a ∧ (g = '?' ∨ g = '$') ∧ (W3CPnCharsU c ∨ AsciiDigit c) ∧
      ∀ d ∈ a, W3CPnCharsU d ∨ AsciiDigit d ∨ W3CCombining d
  | .langTag => fun s => ∃ x, s = '@' :: x ∧ LangTag x
  | .integer => W3CInteger
  | .number => W3CNumber
  | .signedNumber => fun s => ∃ x, (s = '+' :: x ∨ s = '-' :: x) ∧ W3CNumber x
  | .string => fun s => ∃ q x, (q = '\'' ∨ q = '"') ∧
      ((s = q :: (x ++ [q]) ∧ StrBody q x ∧ ∀ c ∈ x, c ≠ '\n' ∧ c ≠ '\r') ∨ (s = q :: q :: q :: (x ++ [q, q, q]) ∧ LongBody q x))
  | .nil => fun s => ∃ w, s = '(' :: (w ++ [')']) ∧ ∀ c ∈ w, IsWs c
  | .anon => fun s => ∃ w, s = '[' :: (w ++ [']']) ∧ ∀ c ∈ w, IsWs c
where
  /-- WS. -/
  IsWs (c : Char) : Prop := c ∈ [' ', '\t', '\r', '\n']

/-- The terminals as the crate reads them: other classes of characters, white space and comments inside names, brackets and
variables, raw line ends but no long and no empty strings, `1.` as a number. -/
def crateTerm : Term → Lang
  | .iriRef => fun s => ∃ x, rIriRef x s
  | .pnameNs => fun s => ∃ o, rPnameNs o s
  | .pnameLn => fun s => ∃ o l, rPrefixedName (.pnameLN o l) s
  | .blankNodeLabel => fun s => ∃ l, rBlankNode (.label l) s
  | .var => fun s => ∃ v, rVar v s
  | .langTag => fun s => ∃ x, rLangTag x s
  | .integer => W3CInteger
  | .number => fun s => (∃ v, rNumericLiteral v s) ∧ NotStart (fun c => c = '+' ∨ c = '-') s
  | .signedNumber => fun s => (∃ v, rNumericLiteral v s) ∧ ∃ x, s = '+' :: x ∨ s = '-' :: x
  | .string => fun s => ∃ x, StringText x s
  | .nil => rNil
  | .anon => rBlankNode .anon

/-! ## Additional productions -/

/-- The kinds of additional productions. -/
inductive Dev where
  /-- the keyword `a` in upper case -/
  | upperA
  /-- several dots in a row between triples -/
  | dots
  /-- objects in a group pattern separated by semicolons -/
  | semicolons
  /-- a question mark instead of the dot after a part of a group -/
  | questionMark
  /-- a number without sign after a summand -/
  | number
  /-- calls that the crate spells differently -/
  | calls
  /-- OFFSET for DELETE and WHERE for WITH -/
  | modify

/-- The additional productions. -/
def extra : Dev → Nt → Option Ebnf
  | .upperA, .verb => some (k c!"a")
  | .upperA, .pathOneInPropertySet => some (k c!"a" ⫾ (p c!"^" ⬩ k c!"a"))
  | .dots, .triplesTemplate => some (n .triplesSameSubject ⬩ plus (p c!".") ⬩ maybe (n .triplesTemplate))
  | .dots, .triplesBlock => some (n .triplesSameSubjectPath ⬩ plus (p c!".") ⬩ maybe (n .triplesBlock))
  | .dots, .constructTriples => some (n .triplesSameSubject ⬩ plus (p c!".") ⬩ maybe (n .constructTriples))
  | .semicolons, .objectListPath => some (sepBy (n .objectPath) (p c!";"))
  | .questionMark, .groupGraphPatternSub =>
      some (maybe (n .triplesBlock) ⬩ star (n .graphPatternNotTriples ⬩ maybe (p c!"?") ⬩ maybe (n .triplesBlock)))
  | .number, .additiveExpression => some (n .multiplicativeExpression ⬩ star ((p c!"+" ⬩ n .multiplicativeExpression) ⫾
      (p c!"-" ⬩ n .multiplicativeExpression) ⫾
      ((t .number ⫾ t .signedNumber) ⬩ star ((p c!"*" ⬩ n .unaryExpression) ⫾ (p c!"/" ⬩ n .unaryExpression)))))
  | .calls, .builtInCall => some (choice (call2 c!"strlen" :: (k c!"bnode" ⬩ parens (t .nil)) ::
      (k c!"concat" ⬩ n .expressionList ⬩ n .substringExpression) ::
      (k c!"strlen" ⬩ n .brackettedExpression ⬩ parens (n .expression ⬩ p c!"," ⬩ n .expression ⬩ p c!"," ⬩ n .expression ⬩
        maybe (p c!"," ⬩ n .expression))) :: noArgFns.map fun w => k w ⬩ parens (t .nil)))
  | .modify, .modify => some (maybe (k c!"where" ⬩ n .iri) ⬩ ((n .deleteClause ⬩ maybe (n .insertClause)) ⫾ n .insertClause) ⬩
      star (n .usingClause) ⬩ k c!"where" ⬩ n .groupGraphPattern)
  | .modify, .deleteClause => some (k c!"offset" ⬩ n .quadPattern)
  | _, _ => none

/-! ## Generated texts -/

structure Dialect where
  /-- the texts of the terminals -/
  term : Term → Lang
  /-- the additional productions that may be used -/
  dev : Dev → Prop
  /-- whether two texts may follow each other -/
  touch : Str → Str → Prop

/-- `Gen D e s`: the text `s` is generated by `e`.  White space may stand before and after everything. -/
inductive Gen (D : Dialect) : Ebnf → Lang
  | t {x s} : D.term x s → Gen D (.t x) s
  | k {w s} : kw w s → Gen D (.k w) s
  | p {w} : Gen D (.p w) w
  | n {x s} : Gen D (rule x) s → Gen D (.n x) s
  | extra {d x e s} : D.dev d → extra d x = some e → Gen D e s → Gen D (.n x) s
  | nothing : Gen D .nothing []
  | seq {a b s t} : Gen D a s → Gen D b t → D.touch s t → Gen D (.seq a b) (s ++ t)
  | left {a b s} : Gen D a s → Gen D (.alt a b) s
  | right {a b s} : Gen D b s → Gen D (.alt a b) s
  | stop {a} : Gen D (.star a) []
  | more {a s t} : Gen D a s → Gen D (.star a) t → D.touch s t → Gen D (.star a) (s ++ t)
  | before {e w s} : Ws w → Gen D e s → Gen D e (w ++ s)
  | after {e w s} : Gen D e s → Ws w → Gen D e (s ++ w)

/-- A character that can continue a keyword, name or number. -/
def WordChar (c : Char) : Prop := W3CPnChars c ∨ c = ':'

/-- The first text does not end, or the second does not begin, within a word, or the first is a minus sign. -/
def Apart (s t : Str) : Prop := s = c!"-" ∨ ∀ a c d b, s = a ++ [c] → t = d :: b → ¬ (WordChar c ∧ WordChar d)

/-- SPARQL 1.1. -/
def sparql : Dialect := { term := w3cTerm, dev := fun _ => False, touch := Apart }

/-- SPARQL 1.1, but words may touch.  The recommendation lets some words touch, as in `1in`; it lies between `sparql` and this dialect. -/
def sparqlWide : Dialect := { sparql with touch := fun _ _ => True }

/-- The terminals of the crate, words may touch. -/
def lax (dev : Dev → Prop) : Dialect := { term := crateTerm, dev, touch := fun _ _ => True }

/-- A query of SPARQL 1.1. -/
def LegalQuery : Lang := Gen sparql (.n .query)
/-- An update request of SPARQL 1.1. -/
def LegalUpdate : Lang := Gen sparql (.n .update)
/-- No query of SPARQL 1.1, however its words are told apart. -/
def IllegalQuery (s : Str) : Prop := ¬ Gen sparqlWide (.n .query) s
/-- No update request of SPARQL 1.1, however its words are told apart. -/
def IllegalUpdate (s : Str) : Prop := ¬ Gen sparqlWide (.n .update) s

/-- The text without blanks. -/
def dense (s : Str) : Str := s.filter fun c => !decide (IsBlank c)

/-- The text has no strings, IRIs, names, numbers and comments. -/
def Bare (s : Str) : Prop := ∀ c ∈ s, c ∉ ['"', '\'', '<', ':', '@', '#'] ∧ ¬ AsciiDigit c

instance : DecidablePred Bare := fun s => by unfold Bare; infer_instance

end NomSparql
