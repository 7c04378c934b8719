import Verif.Model.Nom

/-!
# The AST types of nom-sparql

One Lean type per Rust type, same constructor and field names (camelCase).  `String` is `List Char`, `Box<T>`
is `T`, `Vec<T>` is `List T`.  Rust tuple structs are one-constructor inductives.
-/

namespace NomSparql

/-- `String`. -/
abbrev Str := List Char

/-- src/var.rs:21-25 -/
inductive Var where
  | qmark (name : Str)
  | dollar (name : Str)
  deriving DecidableEq, Repr

/-- src/expression/mod.rs:60-67 -/
inductive PrefixedName where
  | pnameLN (pnPrefix : Option Str) (pnLocal : Str)
  | pnameNS (pnPrefix : Option Str)
  deriving DecidableEq, Repr

/-- src/expression/mod.rs:44-48 -/
inductive Iri where
  | iri (s : Str)
  | prefixedName (n : PrefixedName)
  deriving DecidableEq, Repr

/-- src/expression/mod.rs:69-73 -/
inductive DefaultOrNamedIri where
  | default (i : Iri)
  | named (i : Iri)
  deriving DecidableEq, Repr

/-- src/node.rs:39-43 -/
inductive RdfLiteralDescriptor where
  | langTag (t : Str)
  | iriRef (i : Iri)
  deriving DecidableEq, Repr

/-- src/node.rs:15-19 -/
structure RdfLiteral where
  literal : Str
  descriptor : Option RdfLiteralDescriptor
  deriving DecidableEq, Repr

/-- src/literal.rs:20-28 -/
inductive StringLiteral where
  | simple (s : Str)
  | language (s : Str) (lang : Str)
  | typed (s : Str)
  deriving DecidableEq, Repr

/-- The decimal number written in the source: `(-1)^neg * mantissa / 10^scale`.  Stands for the `f64`
that Rust's `parse::<f64>` rounds it to (the rounding is in Model/Float). -/
structure Decimal where
  neg : Bool
  mantissa : Nat
  scale : Nat
  deriving DecidableEq, Repr

/-- src/literal.rs:64-69 (`i64` as `Int`, `f64` as `Decimal`) -/
inductive NumericLiteral where
  | int (v : Int)
  | double (d : Decimal) (exp : Option Int)
  deriving DecidableEq, Repr

/-- src/node.rs:45-49 -/
inductive BlankNode where
  | anon
  | label (l : Str)
  deriving DecidableEq, Repr

/-- src/graph.rs:36-45 -/
inductive GraphTerm where
  | iri (i : Iri)
  | rdfLiteral (l : RdfLiteral)
  | numericLiteral (n : NumericLiteral)
  | booleanLiteral (b : Bool)
  | blankNode (b : BlankNode)
  | nil
  deriving DecidableEq, Repr

/-- src/var.rs:15-19 -/
inductive VarOrIri where
  | var (v : Var)
  | iri (i : Iri)
  deriving DecidableEq, Repr

/-- src/var.rs:27-31 -/
inductive VarOrTerm where
  | var (v : Var)
  | term (t : GraphTerm)
  deriving DecidableEq, Repr

/-- src/var.rs:39-43 -/
inductive VarOrIrisOrAll where
  | varIri (l : List VarOrIri)
  | all
  deriving DecidableEq, Repr

/-- src/var.rs:45-50 -/
inductive Verb where
  | varOrIri (v : VarOrIri)
  | a
  deriving DecidableEq, Repr

/-- src/arithmetic.rs:71-75 -/
inductive Sign where
  | pos
  | neg
  deriving DecidableEq, Repr

/-! ## src/prologue.rs -/

/-- src/prologue.rs:1-5 -/
structure PrefixDecl where
  pnameNs : Option Str
  iriRef : Str
  deriving DecidableEq, Repr

/-- src/prologue.rs:10-14 -/
inductive BaseOrPrefixDecl where
  | base (s : Str)
  | prefix (d : PrefixDecl)
  deriving DecidableEq, Repr

/-- src/prologue.rs:7-8 -/
structure Prologue where
  decls : List BaseOrPrefixDecl
  deriving DecidableEq, Repr

/-! ## src/data.rs -/

/-- src/data.rs:40-49 -/
inductive DataBlockValue where
  | iri (i : Iri)
  | rdfLiteral (l : RdfLiteral)
  | numericLiteral (n : NumericLiteral)
  | booleanLiteral (b : Bool)
  | undef
  deriving DecidableEq, Repr

/-- src/data.rs:28-32 -/
structure InlineDataOneVar where
  var : Var
  values : List DataBlockValue
  deriving DecidableEq, Repr

/-- src/data.rs:34-38 -/
structure InlineDataFull where
  vars : List Var
  dataBlockValues : List (List DataBlockValue)
  deriving DecidableEq, Repr

/-- src/data.rs:22-26 -/
inductive DataBlock where
  | inlineDataOneVar (d : InlineDataOneVar)
  | inlineDataFull (d : InlineDataFull)
  deriving DecidableEq, Repr

/-- src/data.rs:20 -/
abbrev DataSetClause := DefaultOrNamedIri

/-! ## Graph nodes: src/graph.rs, src/node.rs, src/var.rs, src/triple.rs -/

mutual
/-- src/graph.rs:67-71 -/
inductive GraphNode where
  | varOrTerm (v : VarOrTerm)
  | triplesNode (t : TriplesNode)
/-- src/node.rs:51-55; `Collection` (src/node.rs:12-13) is the list of its members. -/
inductive TriplesNode where
  | collection (c : List GraphNode)
  | blankNodePropertyList (p : PropertyList)
/-- src/node.rs:9-10 -/
inductive PropertyList where
  | mk (l : List VerbList)
/-- src/var.rs:33-37; `ObjectList` (src/node.rs:6-7) is the list of its members. -/
inductive VerbList where
  | mk (verb : Verb) (objectList : List GraphNode)
end

/-- src/triple.rs:23-33 -/
inductive TriplesSameSubject where
  | term (varOrTerm : VarOrTerm) (propertyList : PropertyList)
  | node (triplesNode : TriplesNode) (propertyList : Option PropertyList)

/-- src/triple.rs:44 -/
abbrev TriplesTemplate := List TriplesSameSubject

/-! ## src/quads.rs -/

/-- src/quads.rs:36-40 -/
structure QuadsNotTriples where
  varOrIri : VarOrIri
  triplesTemplate : Option TriplesTemplate

/-- src/quads.rs:30-34 -/
structure QuadsEntry where
  quadsNotTriples : QuadsNotTriples
  triplesTemplate : Option TriplesTemplate

/-- src/quads.rs:24-28 -/
structure Quads where
  firstTriple : Option TriplesTemplate
  entries : List QuadsEntry

/-! ## Property paths: src/path.rs, src/expression/iri.rs -/

/-- src/expression/iri.rs:16-20 -/
inductive IriOrA where
  | iri (i : Iri)
  | a
  deriving DecidableEq, Repr

/-- src/expression/iri.rs:10-15 -/
inductive IriOrAOrCaret where
  | iriOrA (x : IriOrA)
  | caret (x : IriOrA)
  deriving DecidableEq, Repr

/-- src/path.rs:91-96 -/
inductive PathMod where
  | questionMark
  | asterisk
  | plus
  deriving DecidableEq, Repr

mutual
/-- src/path.rs:73-74 (`Path`, src/path.rs:71, is an alias) -/
inductive PathAlternative where
  | mk (l : List PathSequence)
/-- src/path.rs:76-77 -/
inductive PathSequence where
  | mk (l : List PathEltOrInverse)
/-- src/path.rs:79-83 -/
inductive PathEltOrInverse where
  | pathElt (e : PathElt)
  | inverse (e : PathElt)
/-- src/path.rs:85-89 -/
inductive PathElt where
  | mk (pathPrimary : PathPrimary) (pathMod : Option PathMod)
/-- src/path.rs:111-117; `PathNegatedPropertySet` and `PathOneInPropertySet` (src/path.rs:119-123) are
tuple structs around the list and the element. -/
inductive PathPrimary where
  | iri (i : Iri)
  | a
  | pathNegatedPropertySet (l : List IriOrAOrCaret)
  | path (p : PathAlternative)
end

/-- src/path.rs:65-69 -/
inductive VerbPathOrSimple where
  | path (p : PathAlternative)
  | simple (v : Var)

/-- src/path.rs:56-60 -/
structure PropertyListPathEntry where
  verbPathOrSimple : VerbPathOrSimple
  objectList : List GraphNode

mutual
/-- src/path.rs:25-29 -/
inductive GraphNodePath where
  | varOrTerm (v : VarOrTerm)
  | triplesNodePath (t : TriplesNodePath)
/-- src/path.rs:30-34 -/
inductive TriplesNodePath where
  | collectionPath (l : List GraphNodePath)
  | blankNodePropertyListPath (p : PropertyListPath)
/-- src/path.rs:48-54; `ObjectListPath` (src/path.rs:62-63) is the list of its members. -/
inductive PropertyListPath where
  | mk (verbPathOrSimple : VerbPathOrSimple) (objectListPath : List GraphNodePath)
      (entries : List PropertyListPathEntry)
end

/-- src/path.rs:36-46 -/
inductive TriplesSameSubjectPath where
  | term (varOrTerm : VarOrTerm) (propertyList : PropertyListPath)
  | node (triplesNode : TriplesNodePath) (propertyList : Option PropertyListPath)

/-- src/triple.rs:41-42 -/
structure TriplesBlock where
  triples : List TriplesSameSubjectPath

/-! ## Expressions and graph patterns (mutually recursive):
src/expression/, src/arithmetic.rs, src/call.rs, src/aggregate.rs, src/graph.rs, src/clauses.rs,
src/order.rs, src/group.rs, src/query/select.rs, src/var.rs -/

/-- src/order.rs:12-16 -/
inductive Order where
  | asc
  | desc
  deriving DecidableEq, Repr

/-- src/clauses.rs:39-43 (`u64` as `Nat`) -/
inductive LimitOffsetClause where
  | limitOffset (limit : Nat) (offset : Option Nat)
  | offsetLimit (offset : Nat) (limit : Option Nat)
  deriving DecidableEq, Repr

/-- src/query/select.rs:47-51 -/
inductive SelectModifier where
  | distinct
  | reduced
  deriving DecidableEq, Repr

set_option genSizeOf false in
mutual
/-- src/expression/mod.rs:24-25 -/
inductive Expression where
  | mk (l : List ConditionalAndExpression)
/-- src/arithmetic.rs:20-21 -/
inductive ConditionalAndExpression where
  | mk (l : List RelationalExpression)
/-- src/arithmetic.rs:14-18 -/
inductive RelationalExpression where
  | mk (lhs : AdditiveExpression) (rhs : Option OpExpression)
/-- src/arithmetic.rs:23-33 -/
inductive OpExpression where
  | eq (e : AdditiveExpression)
  | ne (e : AdditiveExpression)
  | lt (e : AdditiveExpression)
  | gt (e : AdditiveExpression)
  | le (e : AdditiveExpression)
  | ge (e : AdditiveExpression)
  | in (l : ExpressionList)
  | nin (l : ExpressionList)
/-- src/arithmetic.rs:35-39 -/
inductive AdditiveExpression where
  | mk (lhs : MultiplicativeExpression) (rhs : List AddExpression)
/-- src/arithmetic.rs:41-49 -/
inductive AddExpression where
  | add (m : MultiplicativeExpression)
  | sub (m : MultiplicativeExpression)
  | numeric (numeric : NumericLiteral) (expressions : List MultExpression)
/-- src/arithmetic.rs:51-55 -/
inductive MultiplicativeExpression where
  | mk (lhs : UnaryExpression) (rhs : List MultExpression)
/-- src/arithmetic.rs:57-61 -/
inductive MultExpression where
  | mult (u : UnaryExpression)
  | div (u : UnaryExpression)
/-- src/arithmetic.rs:63-69 -/
inductive UnaryExpression where
  | not (p : PrimaryExpression)
  | add (p : PrimaryExpression)
  | sub (p : PrimaryExpression)
  | default (p : PrimaryExpression)
/-- src/expression/mod.rs:33-42 -/
inductive PrimaryExpression where
  | brackettedExpression (e : Expression)
  | builtInCall (c : BuiltInCall)
  | iriOrFunction (f : IriOrFunction)
  | rdfLiteral (l : RdfLiteral)
  | numericLiteral (n : NumericLiteral)
  | booleanLiteral (b : Bool)
  | var (v : Var)
/-- src/expression/mod.rs:27-31 -/
inductive ExpressionList where
  | nil
  | list (l : List Expression)
/-- src/expression/mod.rs:75-79 -/
inductive IriOrFunction where
  | mk (iri : Iri) (argList : Option ArgList)
/-- src/expression/mod.rs:81-88 -/
inductive ArgList where
  | nil
  | expression (distinct : Bool) (expressions : List Expression)
/-- src/expression/mod.rs:90-94 -/
inductive DistinctExpression where
  | mk (distinct : Bool) (expression : Expression)
/-- src/expression/mod.rs:96-100 -/
inductive ExpressionAsVar where
  | mk (expression : Expression) (var : Var)
/-- src/expression/mod.rs:102-106 -/
inductive ExpressionAsVarOpt where
  | mk (expression : Expression) (var : Option Var)
/-- src/expression/functions.rs:11-18 (`SubstringExpression` is an alias) -/
inductive RegexExpression where
  | mk (first second : Expression) (third : Option Expression)
/-- src/expression/functions.rs:20-26 -/
inductive StrReplaceExpression where
  | mk (first second third : Expression) (fourth : Option Expression)
/-- src/expression/functions.rs:28-33 -/
inductive Constraint where
  | bracketted (e : Expression)
  | builtInCall (c : BuiltInCall)
  | functionCall (f : FunctionCall)
/-- src/call.rs:27-31 -/
inductive FunctionCall where
  | mk (iri : Iri) (args : ArgList)
/-- src/call.rs:33-88 -/
inductive BuiltInCall where
  | aggregate (a : Aggregate)
  | str (e : Expression)
  | lang (e : Expression)
  | langMatches (e₁ e₂ : Expression)
  | datatype (e : Expression)
  | bound (v : Var)
  | iri (e : Expression)
  | uri (e : Expression)
  | bnode (e : Option Expression)
  | rand
  | abs (e : Expression)
  | ceil (e : Expression)
  | floor (e : Expression)
  | round (e : Expression)
  | concat (l : ExpressionList) (s : RegexExpression)
  | strLen (e : Expression) (s : StrReplaceExpression)
  | uCase (e : Expression)
  | lCase (e : Expression)
  | encodeForUri (e : Expression)
  | contains (e₁ e₂ : Expression)
  | strStarts (e₁ e₂ : Expression)
  | strEnds (e₁ e₂ : Expression)
  | strBefore (e₁ e₂ : Expression)
  | strAfter (e₁ e₂ : Expression)
  | year (e : Expression)
  | month (e : Expression)
  | day (e : Expression)
  | hours (e : Expression)
  | minutes (e : Expression)
  | seconds (e : Expression)
  | timezone (e : Expression)
  | tz (e : Expression)
  | now
  | uuid
  | strUuid
  | md5 (e : Expression)
  | sha1 (e : Expression)
  | sha256 (e : Expression)
  | sha384 (e : Expression)
  | sha512 (e : Expression)
  | coalesce (l : ExpressionList)
  | if (e₁ e₂ e₃ : Expression)
  | strLang (e₁ e₂ : Expression)
  | strDt (e₁ e₂ : Expression)
  | sameTerm (e₁ e₂ : Expression)
  | isIri (e : Expression)
  | isUri (e : Expression)
  | isBlank (e : Expression)
  | isLiteral (e : Expression)
  | isNumeric (e : Expression)
  | regex (r : RegexExpression)
  | existsFunc (g : GroupGraphPattern)
  | notExistsFunc (g : GroupGraphPattern)
/-- src/aggregate.rs:15-24 -/
inductive Aggregate where
  | count (c : Count)
  | sum (e : DistinctExpression)
  | min (e : DistinctExpression)
  | max (e : DistinctExpression)
  | avg (e : DistinctExpression)
  | sample (e : DistinctExpression)
  | groupConcat (g : GroupConcat)
/-- src/aggregate.rs:40-44 -/
inductive Count where
  | mk (distinct : Bool) (target : CountTarget)
/-- src/aggregate.rs:46-50 -/
inductive CountTarget where
  | all
  | expr (e : Expression)
/-- src/aggregate.rs:52-56 -/
inductive GroupConcat where
  | mk (expression : DistinctExpression) (separator : Option Str)
/-- src/graph.rs:73-77 -/
inductive GroupGraphPattern where
  | subSelect (s : SubSelect)
  | groupGraphPatternSub (s : GroupGraphPatternSub)
/-- src/graph.rs:47-51 -/
inductive GroupGraphPatternSub where
  | mk (triplesBlock : Option TriplesBlock) (graphPatternAndTriples : List GraphPatternAndTriples)
/-- src/graph.rs:103-107 -/
inductive GraphPatternAndTriples where
  | mk (graphPattern : GraphPatternNotTriples) (triples : Option TriplesBlock)
/-- src/graph.rs:91-101; `GroupOrUnionGraphPattern` (src/graph.rs:109-110) is the list of its members. -/
inductive GraphPatternNotTriples where
  | optional (g : GroupGraphPattern)
  | groupOrUnion (l : List GroupGraphPattern)
  | minus (g : GroupGraphPattern)
  | graph (g : GraphGraphPattern)
  | service (s : ServiceGraphPattern)
  | filter (c : Constraint)
  | bind (e : ExpressionAsVar)
  | inlineData (d : DataBlock)
/-- src/graph.rs:112-116 -/
inductive GraphGraphPattern where
  | mk (varOrIri : VarOrIri) (graphPattern : GroupGraphPattern)
/-- src/graph.rs:118-123 -/
inductive ServiceGraphPattern where
  | mk (varOrIri : VarOrIri) (silent : Bool) (graphPattern : GroupGraphPattern)
/-- src/query/select.rs:27-33 -/
inductive SubSelect where
  | mk (selectClause : SelectClause) (whereClause : GroupGraphPattern)
      (solutionModifier : SolutionModifier) (valuesClause : Option DataBlock)
/-- src/query/select.rs:35-39 -/
inductive SelectClause where
  | mk (modifier : Option SelectModifier) (vars : SelectVars)
/-- src/query/select.rs:41-45 -/
inductive SelectVars where
  | varOrExpressionAsVar (l : List VarOrExpressionAsVar)
  | all
/-- src/var.rs:52-56 -/
inductive VarOrExpressionAsVar where
  | var (v : Var)
  | expressionAsVar (e : ExpressionAsVar)
/-- src/clauses.rs:25-31 -/
inductive SolutionModifier where
  | mk (orderBy : Option OrderClause) (groupBy : Option GroupClause) (having : Option HavingClause)
      (limitOffset : Option LimitOffsetClause)
/-- src/clauses.rs:33-34 -/
inductive HavingClause where
  | mk (l : List Constraint)
/-- src/clauses.rs:36-37 -/
inductive OrderClause where
  | mk (l : List OrderCondition)
/-- src/order.rs:24-29 -/
inductive OrderCondition where
  | order (o : OrderExpression)
  | constraint (c : Constraint)
  | var (v : Var)
/-- src/order.rs:18-22 -/
inductive OrderExpression where
  | mk (order : Order) (expression : Expression)
/-- src/group.rs:22-23 -/
inductive GroupClause where
  | mk (l : List GroupCondition)
/-- src/group.rs:25-31 -/
inductive GroupCondition where
  | builtInCall (c : BuiltInCall)
  | functionCall (f : FunctionCall)
  | expressionAsVarOpt (e : ExpressionAsVarOpt)
  | var (v : Var)
end

/-! ## Queries: src/query/ -/

/-- src/query/select.rs:19-25 -/
structure SelectQuery where
  selectClause : SelectClause
  datasetClauses : List DataSetClause
  whereClause : GroupGraphPattern
  solutionModifier : SolutionModifier

/-- src/query/ask.rs:11-16 -/
structure AskQuery where
  datasetClauses : List DataSetClause
  whereClause : GroupGraphPattern
  solutionModifier : SolutionModifier

/-- src/query/describe.rs:16-22 -/
structure DescribeQuery where
  datasetClauses : List DataSetClause
  varOrIrisOrAll : VarOrIrisOrAll
  whereClause : Option GroupGraphPattern
  solutionModifier : SolutionModifier

/-- src/query/construct.rs:28-34; `ConstructTemplate` (43-44) is the list of its members. -/
structure SubConstruct where
  constructTemplate : List TriplesSameSubject
  datasetClauses : List DataSetClause
  whereClause : GroupGraphPattern
  solutionModifier : SolutionModifier

/-- src/query/construct.rs:36-41 -/
structure SubTriples where
  datasetClauses : List DataSetClause
  triplesTemplate : Option TriplesTemplate
  solutionModifier : SolutionModifier

/-- src/query/construct.rs:22-26 -/
inductive ConstructQuery where
  | subConstruct (s : SubConstruct)
  | subTriples (s : SubTriples)

/-- src/query/mod.rs:21-27 -/
inductive SparqlQuery where
  | ask (q : AskQuery)
  | select (q : SelectQuery)
  | describe (q : DescribeQuery)
  | construct (q : ConstructQuery)

/-- src/query/mod.rs:14-19 -/
structure SparqlQueryStatement where
  prologue : Prologue
  query : SparqlQuery
  values : Option DataBlock

/-! ## Updates: src/operations.rs, src/update.rs, src/graph.rs -/

/-- src/graph.rs:53-57 -/
inductive GraphOrDefault where
  | graph (i : Iri)
  | default
  deriving DecidableEq, Repr

/-- src/graph.rs:59-65 -/
inductive GraphRefAll where
  | graphRef (i : Iri)
  | default
  | named
  | all
  deriving DecidableEq, Repr

/-- src/operations.rs:25-30 -/
structure LoadStatement where
  iri : Iri
  silent : Bool
  graphRef : Option Iri
  deriving DecidableEq, Repr

/-- src/operations.rs:32-36 -/
structure ClearStatement where
  silent : Bool
  graphRefAll : GraphRefAll
  deriving DecidableEq, Repr

/-- src/operations.rs:38-42 -/
structure DropStatement where
  silent : Bool
  graphRefAll : GraphRefAll
  deriving DecidableEq, Repr

/-- src/operations.rs:44-48 -/
structure CreateStatement where
  silent : Bool
  graphRef : Iri
  deriving DecidableEq, Repr

/-- src/operations.rs:50-55 -/
structure AddStatement where
  silent : Bool
  from' : GraphOrDefault
  to : GraphOrDefault
  deriving DecidableEq, Repr

/-- src/operations.rs:57-62 -/
structure MoveStatement where
  silent : Bool
  from' : GraphOrDefault
  to : GraphOrDefault
  deriving DecidableEq, Repr

/-- src/operations.rs:64-69 -/
structure CopyStatement where
  silent : Bool
  from' : GraphOrDefault
  to : GraphOrDefault
  deriving DecidableEq, Repr

/-- src/operations.rs:79-86 -/
inductive DeleteInsert where
  | deleteInsert (delete : Quads) (insert : Option Quads)
  | insert (q : Quads)

/-- src/operations.rs:71-77 -/
structure ModifyStatement where
  iri : Option Iri
  deleteInsert : DeleteInsert
  usingClauses : List DefaultOrNamedIri
  whereGroupGraph : GroupGraphPattern

/-- src/update.rs:26-39 -/
inductive UpdateStatement where
  | load (s : LoadStatement)
  | clear (s : ClearStatement)
  | drop (s : DropStatement)
  | create (s : CreateStatement)
  | add (s : AddStatement)
  | move (s : MoveStatement)
  | copy (s : CopyStatement)
  | insertData (q : Quads)
  | deleteData (q : Quads)
  | deleteWhere (q : Quads)
  | modify (s : ModifyStatement)

/-- src/update.rs:19-24 -/
inductive Update where
  | mk (prologue : Prologue) (updateStmt : Option UpdateStatement) (innerUpdate : Option Update)

end NomSparql
