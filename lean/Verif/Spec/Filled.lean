import Verif.Spec.Render

/-!
# Properties of all parts of a syntax tree

`FX T x`: in the tree `x` of type `X`

* every list that SPARQL requires to have an element has one: GROUP BY, HAVING, ORDER BY, projections, unions, expressions, conjunctions,
  paths, property lists, object lists, collections, triples blocks, templates, DESCRIBE targets, argument lists;
* every variable, IRI, literal, number, blank node, LIMIT or OFFSET, GROUP_CONCAT separator and prologue declaration, wherever it is, satisfies `T`;
* the constructors marked `T.dead` occur only if `T.dead` holds.  These are the constructors that the crate turns out never to return.

One rule for each constructor of Model/Ast.  The lists that may be empty are the factors and summands after the first, the parts of a group, the
later entries of a property list, the rows of VALUES, the dataset and USING clauses, CONSTRUCT templates and quads.
-/

namespace NomSparql

/-- Conditions on the leaves, and whether the marked constructors may occur. -/
structure Leaves where
  var : Var → Prop
  iri : Iri → Prop
  literal : RdfLiteral → Prop
  number : NumericLiteral → Prop
  blank : BlankNode → Prop
  limit : LimitOffsetClause → Prop
  separator : Str → Prop
  decl : BaseOrPrefixDecl → Prop
  dead : Prop


inductive FDefaultOrNamedIri (T : Leaves) : DefaultOrNamedIri → Prop
  | default {i} : T.iri i → FDefaultOrNamedIri T (.default i)
  | named {i} : T.iri i → FDefaultOrNamedIri T (.named i)

inductive FGraphTerm (T : Leaves) : GraphTerm → Prop
  | iri {i} : T.iri i → FGraphTerm T (.iri i)
  | rdfLiteral {l} : T.literal l → FGraphTerm T (.rdfLiteral l)
  | numericLiteral {n} : T.number n → FGraphTerm T (.numericLiteral n)
  | booleanLiteral {b} : FGraphTerm T (.booleanLiteral b)
  | blankNode {b} : T.blank b → FGraphTerm T (.blankNode b)
  | nil : FGraphTerm T .nil

inductive FVarOrIri (T : Leaves) : VarOrIri → Prop
  | var {v} : T.var v → FVarOrIri T (.var v)
  | iri {i} : T.iri i → FVarOrIri T (.iri i)

inductive FVarOrTerm (T : Leaves) : VarOrTerm → Prop
  | var {v} : T.var v → FVarOrTerm T (.var v)
  | term {t} : FGraphTerm T t → FVarOrTerm T (.term t)

inductive FVarOrIrisOrAll (T : Leaves) : VarOrIrisOrAll → Prop
  | varIri {l} : l ≠ [] → (∀ a ∈ l, FVarOrIri T a) → FVarOrIrisOrAll T (.varIri l)
  | all : FVarOrIrisOrAll T .all

inductive FVerb (T : Leaves) : Verb → Prop
  | varOrIri {v} : FVarOrIri T v → FVerb T (.varOrIri v)
  | a : FVerb T .a

inductive FDataBlockValue (T : Leaves) : DataBlockValue → Prop
  | iri {i} : T.iri i → FDataBlockValue T (.iri i)
  | rdfLiteral {l} : T.literal l → FDataBlockValue T (.rdfLiteral l)
  | numericLiteral {n} : T.number n → FDataBlockValue T (.numericLiteral n)
  | booleanLiteral {b} : FDataBlockValue T (.booleanLiteral b)
  | undef : FDataBlockValue T .undef

inductive FInlineDataOneVar (T : Leaves) : InlineDataOneVar → Prop
  | mk {var values} : T.var var → (∀ a ∈ values, FDataBlockValue T a) → FInlineDataOneVar T (.mk var values)

inductive FInlineDataFull (T : Leaves) : InlineDataFull → Prop
  | mk {vars dataBlockValues} : (∀ a ∈ vars, T.var a) → (∀ a ∈ dataBlockValues, ((∀ b ∈ a, FDataBlockValue T b))) → FInlineDataFull T (.mk vars dataBlockValues)

inductive FDataBlock (T : Leaves) : DataBlock → Prop
  | inlineDataOneVar {d} : FInlineDataOneVar T d → FDataBlock T (.inlineDataOneVar d)
  | inlineDataFull {d} : FInlineDataFull T d → FDataBlock T (.inlineDataFull d)

mutual
inductive FGraphNode (T : Leaves) : GraphNode → Prop
  | varOrTerm {v} : FVarOrTerm T v → FGraphNode T (.varOrTerm v)
  | triplesNode {t} : T.dead → FTriplesNode T t → FGraphNode T (.triplesNode t)
inductive FTriplesNode (T : Leaves) : TriplesNode → Prop
  | collection {c} : c ≠ [] → (∀ a ∈ c, FGraphNode T a) → FTriplesNode T (.collection c)
  | blankNodePropertyList {p} : FPropertyList T p → FTriplesNode T (.blankNodePropertyList p)
inductive FPropertyList (T : Leaves) : PropertyList → Prop
  | mk {l} : l ≠ [] → (∀ a ∈ l, FVerbList T a) → FPropertyList T (.mk l)
inductive FVerbList (T : Leaves) : VerbList → Prop
  | mk {verb objectList} : FVerb T verb → objectList ≠ [] → (∀ a ∈ objectList, FGraphNode T a) → FVerbList T (.mk verb objectList)
end

inductive FTriplesSameSubject (T : Leaves) : TriplesSameSubject → Prop
  | term {varOrTerm propertyList} : FVarOrTerm T varOrTerm → FPropertyList T propertyList → FTriplesSameSubject T (.term varOrTerm propertyList)
  | node {triplesNode propertyList} : FTriplesNode T triplesNode → (∀ b ∈ propertyList, FPropertyList T b) → FTriplesSameSubject T (.node triplesNode propertyList)

inductive FQuadsNotTriples (T : Leaves) : QuadsNotTriples → Prop
  | mk {varOrIri triplesTemplate} : FVarOrIri T varOrIri → (∀ b ∈ triplesTemplate, (b ≠ [] ∧ (∀ d ∈ b, FTriplesSameSubject T d))) → FQuadsNotTriples T (.mk varOrIri triplesTemplate)

inductive FQuadsEntry (T : Leaves) : QuadsEntry → Prop
  | mk {quadsNotTriples triplesTemplate} : FQuadsNotTriples T quadsNotTriples → (∀ b ∈ triplesTemplate, (b ≠ [] ∧ (∀ d ∈ b, FTriplesSameSubject T d))) → FQuadsEntry T (.mk quadsNotTriples triplesTemplate)

inductive FQuads (T : Leaves) : Quads → Prop
  | mk {firstTriple entries} : (∀ b ∈ firstTriple, (b ≠ [] ∧ (∀ d ∈ b, FTriplesSameSubject T d))) → (∀ a ∈ entries, FQuadsEntry T a) → FQuads T (.mk firstTriple entries)

inductive FIriOrA (T : Leaves) : IriOrA → Prop
  | iri {i} : T.iri i → FIriOrA T (.iri i)
  | a : FIriOrA T .a

inductive FIriOrAOrCaret (T : Leaves) : IriOrAOrCaret → Prop
  | iriOrA {x} : FIriOrA T x → FIriOrAOrCaret T (.iriOrA x)
  | caret {x} : FIriOrA T x → FIriOrAOrCaret T (.caret x)

mutual
inductive FPathAlternative (T : Leaves) : PathAlternative → Prop
  | mk {l} : l ≠ [] → (∀ a ∈ l, FPathSequence T a) → FPathAlternative T (.mk l)
inductive FPathSequence (T : Leaves) : PathSequence → Prop
  | mk {l} : l ≠ [] → (∀ a ∈ l, FPathEltOrInverse T a) → FPathSequence T (.mk l)
inductive FPathEltOrInverse (T : Leaves) : PathEltOrInverse → Prop
  | pathElt {e} : FPathElt T e → FPathEltOrInverse T (.pathElt e)
  | inverse {e} : FPathElt T e → FPathEltOrInverse T (.inverse e)
inductive FPathElt (T : Leaves) : PathElt → Prop
  | mk {pathPrimary pathMod} : FPathPrimary T pathPrimary → FPathElt T (.mk pathPrimary pathMod)
inductive FPathPrimary (T : Leaves) : PathPrimary → Prop
  | iri {i} : T.iri i → FPathPrimary T (.iri i)
  | a : FPathPrimary T .a
  | pathNegatedPropertySet {l} : l ≠ [] → (∀ a ∈ l, FIriOrAOrCaret T a) → FPathPrimary T (.pathNegatedPropertySet l)
  | path {p} : FPathAlternative T p → FPathPrimary T (.path p)
end

inductive FVerbPathOrSimple (T : Leaves) : VerbPathOrSimple → Prop
  | path {p} : FPathAlternative T p → FVerbPathOrSimple T (.path p)
  | simple {v} : T.var v → FVerbPathOrSimple T (.simple v)

inductive FPropertyListPathEntry (T : Leaves) : PropertyListPathEntry → Prop
  | mk {verbPathOrSimple objectList} : FVerbPathOrSimple T verbPathOrSimple → objectList ≠ [] → (∀ a ∈ objectList, FGraphNode T a) → FPropertyListPathEntry T (.mk verbPathOrSimple objectList)

mutual
inductive FGraphNodePath (T : Leaves) : GraphNodePath → Prop
  | varOrTerm {v} : FVarOrTerm T v → FGraphNodePath T (.varOrTerm v)
  | triplesNodePath {t} : T.dead → FTriplesNodePath T t → FGraphNodePath T (.triplesNodePath t)
inductive FTriplesNodePath (T : Leaves) : TriplesNodePath → Prop
  | collectionPath {l} : l ≠ [] → (∀ a ∈ l, FGraphNodePath T a) → FTriplesNodePath T (.collectionPath l)
  | blankNodePropertyListPath {p} : FPropertyListPath T p → FTriplesNodePath T (.blankNodePropertyListPath p)
inductive FPropertyListPath (T : Leaves) : PropertyListPath → Prop
  | mk {verbPathOrSimple objectListPath entries} : FVerbPathOrSimple T verbPathOrSimple → objectListPath ≠ [] → (∀ a ∈ objectListPath, FGraphNodePath T a) → (∀ a ∈ entries, FPropertyListPathEntry T a) → FPropertyListPath T (.mk verbPathOrSimple objectListPath entries)
end

inductive FTriplesSameSubjectPath (T : Leaves) : TriplesSameSubjectPath → Prop
  | term {varOrTerm propertyList} : FVarOrTerm T varOrTerm → FPropertyListPath T propertyList → FTriplesSameSubjectPath T (.term varOrTerm propertyList)
  | node {triplesNode propertyList} : T.dead → FTriplesNodePath T triplesNode → (∀ b ∈ propertyList, FPropertyListPath T b) → FTriplesSameSubjectPath T (.node triplesNode propertyList)

inductive FTriplesBlock (T : Leaves) : TriplesBlock → Prop
  | mk {triples} : triples ≠ [] → (∀ a ∈ triples, FTriplesSameSubjectPath T a) → FTriplesBlock T (.mk triples)

/-! ## Expressions and groups

The rules are relative to a family `Q` for the expressions and groups inside; `filled` closes them. -/

structure Fam where
  expr : Expression → Prop
  group : GroupGraphPattern → Prop

inductive FExpressionListS (T : Leaves) (Q : Fam) : ExpressionList → Prop
  | nil : FExpressionListS T Q .nil
  | list {l} : T.dead → l ≠ [] → (∀ a ∈ l, Q.expr a) → FExpressionListS T Q (.list l)

inductive FArgListS (T : Leaves) (Q : Fam) : ArgList → Prop
  | nil : FArgListS T Q .nil
  | expression {distinct expressions} : T.dead → expressions ≠ [] → (∀ a ∈ expressions, Q.expr a) → FArgListS T Q (.expression distinct expressions)

inductive FDistinctExpressionS (T : Leaves) (Q : Fam) : DistinctExpression → Prop
  | mk {distinct expression} : Q.expr expression → FDistinctExpressionS T Q (.mk distinct expression)

inductive FExpressionAsVarS (T : Leaves) (Q : Fam) : ExpressionAsVar → Prop
  | mk {expression var} : Q.expr expression → T.var var → FExpressionAsVarS T Q (.mk expression var)

inductive FExpressionAsVarOptS (T : Leaves) (Q : Fam) : ExpressionAsVarOpt → Prop
  | mk {expression var} : Q.expr expression → (∀ b ∈ var, T.var b) → FExpressionAsVarOptS T Q (.mk expression var)

inductive FRegexExpressionS (T : Leaves) (Q : Fam) : RegexExpression → Prop
  | mk {first second third} : Q.expr first → Q.expr second → (∀ b ∈ third, Q.expr b) → FRegexExpressionS T Q (.mk first second third)

inductive FStrReplaceExpressionS (T : Leaves) (Q : Fam) : StrReplaceExpression → Prop
  | mk {first second third fourth} : Q.expr first → Q.expr second → Q.expr third → (∀ b ∈ fourth, Q.expr b) → FStrReplaceExpressionS T Q (.mk first second third fourth)

inductive FFunctionCallS (T : Leaves) (Q : Fam) : FunctionCall → Prop
  | mk {iri args} : T.iri iri → FArgListS T Q args → FFunctionCallS T Q (.mk iri args)

inductive FCountTargetS (T : Leaves) (Q : Fam) : CountTarget → Prop
  | all : FCountTargetS T Q .all
  | expr {e} : Q.expr e → FCountTargetS T Q (.expr e)

inductive FGroupConcatS (T : Leaves) (Q : Fam) : GroupConcat → Prop
  | mk {expression separator} : FDistinctExpressionS T Q expression → (∀ s ∈ separator, T.separator s) → FGroupConcatS T Q (.mk expression separator)

inductive FGraphGraphPatternS (T : Leaves) (Q : Fam) : GraphGraphPattern → Prop
  | mk {varOrIri graphPattern} : FVarOrIri T varOrIri → Q.group graphPattern → FGraphGraphPatternS T Q (.mk varOrIri graphPattern)

inductive FServiceGraphPatternS (T : Leaves) (Q : Fam) : ServiceGraphPattern → Prop
  | mk {varOrIri silent graphPattern} : FVarOrIri T varOrIri → Q.group graphPattern → FServiceGraphPatternS T Q (.mk varOrIri silent graphPattern)

inductive FVarOrExpressionAsVarS (T : Leaves) (Q : Fam) : VarOrExpressionAsVar → Prop
  | var {v} : T.var v → FVarOrExpressionAsVarS T Q (.var v)
  | expressionAsVar {e} : FExpressionAsVarS T Q e → FVarOrExpressionAsVarS T Q (.expressionAsVar e)

inductive FOrderExpressionS (T : Leaves) (Q : Fam) : OrderExpression → Prop
  | mk {order expression} : Q.expr expression → FOrderExpressionS T Q (.mk order expression)

inductive FIriOrFunctionS (T : Leaves) (Q : Fam) : IriOrFunction → Prop
  | mk {iri argList} : T.iri iri → (∀ b ∈ argList, FArgListS T Q b) → FIriOrFunctionS T Q (.mk iri argList)

inductive FCountS (T : Leaves) (Q : Fam) : Count → Prop
  | mk {distinct target} : FCountTargetS T Q target → FCountS T Q (.mk distinct target)

inductive FSelectVarsS (T : Leaves) (Q : Fam) : SelectVars → Prop
  | varOrExpressionAsVar {l} : l ≠ [] → (∀ a ∈ l, FVarOrExpressionAsVarS T Q a) → FSelectVarsS T Q (.varOrExpressionAsVar l)
  | all : FSelectVarsS T Q .all

inductive FAggregateS (T : Leaves) (Q : Fam) : Aggregate → Prop
  | count {c} : FCountS T Q c → FAggregateS T Q (.count c)
  | sum {e} : FDistinctExpressionS T Q e → FAggregateS T Q (.sum e)
  | min {e} : FDistinctExpressionS T Q e → FAggregateS T Q (.min e)
  | max {e} : FDistinctExpressionS T Q e → FAggregateS T Q (.max e)
  | avg {e} : FDistinctExpressionS T Q e → FAggregateS T Q (.avg e)
  | sample {e} : FDistinctExpressionS T Q e → FAggregateS T Q (.sample e)
  | groupConcat {g} : FGroupConcatS T Q g → FAggregateS T Q (.groupConcat g)

inductive FSelectClauseS (T : Leaves) (Q : Fam) : SelectClause → Prop
  | mk {modifier vars} : FSelectVarsS T Q vars → FSelectClauseS T Q (.mk modifier vars)

inductive FBuiltInCallS (T : Leaves) (Q : Fam) : BuiltInCall → Prop
  | aggregate {a} : FAggregateS T Q a → FBuiltInCallS T Q (.aggregate a)
  | str {e} : Q.expr e → FBuiltInCallS T Q (.str e)
  | lang {e} : Q.expr e → FBuiltInCallS T Q (.lang e)
  | langMatches {e₁ e₂} : Q.expr e₁ → Q.expr e₂ → FBuiltInCallS T Q (.langMatches e₁ e₂)
  | datatype {e} : Q.expr e → FBuiltInCallS T Q (.datatype e)
  | bound {v} : T.var v → FBuiltInCallS T Q (.bound v)
  | iri {e} : Q.expr e → FBuiltInCallS T Q (.iri e)
  | uri {e} : Q.expr e → FBuiltInCallS T Q (.uri e)
  | bnode {e} : (∀ b ∈ e, Q.expr b) → FBuiltInCallS T Q (.bnode e)
  | rand : FBuiltInCallS T Q .rand
  | abs {e} : T.dead → Q.expr e → FBuiltInCallS T Q (.abs e)
  | ceil {e} : T.dead → Q.expr e → FBuiltInCallS T Q (.ceil e)
  | floor {e} : T.dead → Q.expr e → FBuiltInCallS T Q (.floor e)
  | round {e} : T.dead → Q.expr e → FBuiltInCallS T Q (.round e)
  | concat {l s} : FExpressionListS T Q l → FRegexExpressionS T Q s → FBuiltInCallS T Q (.concat l s)
  | strLen {e s} : Q.expr e → FStrReplaceExpressionS T Q s → FBuiltInCallS T Q (.strLen e s)
  | uCase {e} : Q.expr e → FBuiltInCallS T Q (.uCase e)
  | lCase {e} : Q.expr e → FBuiltInCallS T Q (.lCase e)
  | encodeForUri {e} : Q.expr e → FBuiltInCallS T Q (.encodeForUri e)
  | contains {e₁ e₂} : Q.expr e₁ → Q.expr e₂ → FBuiltInCallS T Q (.contains e₁ e₂)
  | strStarts {e₁ e₂} : Q.expr e₁ → Q.expr e₂ → FBuiltInCallS T Q (.strStarts e₁ e₂)
  | strEnds {e₁ e₂} : Q.expr e₁ → Q.expr e₂ → FBuiltInCallS T Q (.strEnds e₁ e₂)
  | strBefore {e₁ e₂} : Q.expr e₁ → Q.expr e₂ → FBuiltInCallS T Q (.strBefore e₁ e₂)
  | strAfter {e₁ e₂} : Q.expr e₁ → Q.expr e₂ → FBuiltInCallS T Q (.strAfter e₁ e₂)
  | year {e} : Q.expr e → FBuiltInCallS T Q (.year e)
  | month {e} : Q.expr e → FBuiltInCallS T Q (.month e)
  | day {e} : Q.expr e → FBuiltInCallS T Q (.day e)
  | hours {e} : Q.expr e → FBuiltInCallS T Q (.hours e)
  | minutes {e} : Q.expr e → FBuiltInCallS T Q (.minutes e)
  | seconds {e} : Q.expr e → FBuiltInCallS T Q (.seconds e)
  | timezone {e} : Q.expr e → FBuiltInCallS T Q (.timezone e)
  | tz {e} : Q.expr e → FBuiltInCallS T Q (.tz e)
  | now : FBuiltInCallS T Q .now
  | uuid : FBuiltInCallS T Q .uuid
  | strUuid : FBuiltInCallS T Q .strUuid
  | md5 {e} : Q.expr e → FBuiltInCallS T Q (.md5 e)
  | sha1 {e} : Q.expr e → FBuiltInCallS T Q (.sha1 e)
  | sha256 {e} : Q.expr e → FBuiltInCallS T Q (.sha256 e)
  | sha384 {e} : Q.expr e → FBuiltInCallS T Q (.sha384 e)
  | sha512 {e} : Q.expr e → FBuiltInCallS T Q (.sha512 e)
  | coalesce {l} : FExpressionListS T Q l → FBuiltInCallS T Q (.coalesce l)
  | if {e₁ e₂ e₃} : Q.expr e₁ → Q.expr e₂ → Q.expr e₃ → FBuiltInCallS T Q (.if e₁ e₂ e₃)
  | strLang {e₁ e₂} : Q.expr e₁ → Q.expr e₂ → FBuiltInCallS T Q (.strLang e₁ e₂)
  | strDt {e₁ e₂} : Q.expr e₁ → Q.expr e₂ → FBuiltInCallS T Q (.strDt e₁ e₂)
  | sameTerm {e₁ e₂} : Q.expr e₁ → Q.expr e₂ → FBuiltInCallS T Q (.sameTerm e₁ e₂)
  | isIri {e} : Q.expr e → FBuiltInCallS T Q (.isIri e)
  | isUri {e} : Q.expr e → FBuiltInCallS T Q (.isUri e)
  | isBlank {e} : Q.expr e → FBuiltInCallS T Q (.isBlank e)
  | isLiteral {e} : Q.expr e → FBuiltInCallS T Q (.isLiteral e)
  | isNumeric {e} : Q.expr e → FBuiltInCallS T Q (.isNumeric e)
  | regex {r} : FRegexExpressionS T Q r → FBuiltInCallS T Q (.regex r)
  | existsFunc {g} : Q.group g → FBuiltInCallS T Q (.existsFunc g)
  | notExistsFunc {g} : Q.group g → FBuiltInCallS T Q (.notExistsFunc g)

inductive FGroupConditionS (T : Leaves) (Q : Fam) : GroupCondition → Prop
  | builtInCall {c} : FBuiltInCallS T Q c → FGroupConditionS T Q (.builtInCall c)
  | functionCall {f} : FFunctionCallS T Q f → FGroupConditionS T Q (.functionCall f)
  | expressionAsVarOpt {e} : FExpressionAsVarOptS T Q e → FGroupConditionS T Q (.expressionAsVarOpt e)
  | var {v} : T.var v → FGroupConditionS T Q (.var v)

inductive FPrimaryExpressionS (T : Leaves) (Q : Fam) : PrimaryExpression → Prop
  | brackettedExpression {e} : Q.expr e → FPrimaryExpressionS T Q (.brackettedExpression e)
  | builtInCall {c} : FBuiltInCallS T Q c → FPrimaryExpressionS T Q (.builtInCall c)
  | iriOrFunction {f} : FIriOrFunctionS T Q f → FPrimaryExpressionS T Q (.iriOrFunction f)
  | rdfLiteral {l} : T.literal l → FPrimaryExpressionS T Q (.rdfLiteral l)
  | numericLiteral {n} : T.number n → FPrimaryExpressionS T Q (.numericLiteral n)
  | booleanLiteral {b} : FPrimaryExpressionS T Q (.booleanLiteral b)
  | var {v} : T.var v → FPrimaryExpressionS T Q (.var v)

inductive FConstraintS (T : Leaves) (Q : Fam) : Constraint → Prop
  | bracketted {e} : Q.expr e → FConstraintS T Q (.bracketted e)
  | builtInCall {c} : FBuiltInCallS T Q c → FConstraintS T Q (.builtInCall c)
  | functionCall {f} : FFunctionCallS T Q f → FConstraintS T Q (.functionCall f)

inductive FGraphPatternNotTriplesS (T : Leaves) (Q : Fam) : GraphPatternNotTriples → Prop
  | optional {g} : Q.group g → FGraphPatternNotTriplesS T Q (.optional g)
  | groupOrUnion {l} : l ≠ [] → (∀ a ∈ l, Q.group a) → FGraphPatternNotTriplesS T Q (.groupOrUnion l)
  | minus {g} : Q.group g → FGraphPatternNotTriplesS T Q (.minus g)
  | graph {g} : FGraphGraphPatternS T Q g → FGraphPatternNotTriplesS T Q (.graph g)
  | service {s} : FServiceGraphPatternS T Q s → FGraphPatternNotTriplesS T Q (.service s)
  | filter {c} : FConstraintS T Q c → FGraphPatternNotTriplesS T Q (.filter c)
  | bind {e} : FExpressionAsVarS T Q e → FGraphPatternNotTriplesS T Q (.bind e)
  | inlineData {d} : FDataBlock T d → FGraphPatternNotTriplesS T Q (.inlineData d)

inductive FHavingClauseS (T : Leaves) (Q : Fam) : HavingClause → Prop
  | mk {l} : l ≠ [] → (∀ a ∈ l, FConstraintS T Q a) → FHavingClauseS T Q (.mk l)

inductive FOrderConditionS (T : Leaves) (Q : Fam) : OrderCondition → Prop
  | order {o} : FOrderExpressionS T Q o → FOrderConditionS T Q (.order o)
  | constraint {c} : FConstraintS T Q c → FOrderConditionS T Q (.constraint c)
  | var {v} : T.var v → FOrderConditionS T Q (.var v)

inductive FGroupClauseS (T : Leaves) (Q : Fam) : GroupClause → Prop
  | mk {l} : l ≠ [] → (∀ a ∈ l, FGroupConditionS T Q a) → FGroupClauseS T Q (.mk l)

inductive FUnaryExpressionS (T : Leaves) (Q : Fam) : UnaryExpression → Prop
  | not {p} : FPrimaryExpressionS T Q p → FUnaryExpressionS T Q (.not p)
  | add {p} : FPrimaryExpressionS T Q p → FUnaryExpressionS T Q (.add p)
  | sub {p} : FPrimaryExpressionS T Q p → FUnaryExpressionS T Q (.sub p)
  | default {p} : FPrimaryExpressionS T Q p → FUnaryExpressionS T Q (.default p)

inductive FGraphPatternAndTriplesS (T : Leaves) (Q : Fam) : GraphPatternAndTriples → Prop
  | mk {graphPattern triples} : FGraphPatternNotTriplesS T Q graphPattern → (∀ b ∈ triples, FTriplesBlock T b) → FGraphPatternAndTriplesS T Q (.mk graphPattern triples)

inductive FOrderClauseS (T : Leaves) (Q : Fam) : OrderClause → Prop
  | mk {l} : l ≠ [] → (∀ a ∈ l, FOrderConditionS T Q a) → FOrderClauseS T Q (.mk l)

inductive FMultExpressionS (T : Leaves) (Q : Fam) : MultExpression → Prop
  | mult {u} : FUnaryExpressionS T Q u → FMultExpressionS T Q (.mult u)
  | div {u} : FUnaryExpressionS T Q u → FMultExpressionS T Q (.div u)

inductive FGroupGraphPatternSubS (T : Leaves) (Q : Fam) : GroupGraphPatternSub → Prop
  | mk {triplesBlock graphPatternAndTriples} : (∀ b ∈ triplesBlock, FTriplesBlock T b) → (∀ a ∈ graphPatternAndTriples, FGraphPatternAndTriplesS T Q a) → FGroupGraphPatternSubS T Q (.mk triplesBlock graphPatternAndTriples)

inductive FSolutionModifierS (T : Leaves) (Q : Fam) : SolutionModifier → Prop
  | mk {orderBy groupBy having limitOffset} : (∀ b ∈ orderBy, FOrderClauseS T Q b) → (∀ b ∈ groupBy, FGroupClauseS T Q b) → (∀ b ∈ having, FHavingClauseS T Q b) → (∀ b ∈ limitOffset, T.limit b) → FSolutionModifierS T Q (.mk orderBy groupBy having limitOffset)

inductive FMultiplicativeExpressionS (T : Leaves) (Q : Fam) : MultiplicativeExpression → Prop
  | mk {lhs rhs} : FUnaryExpressionS T Q lhs → (∀ a ∈ rhs, FMultExpressionS T Q a) → FMultiplicativeExpressionS T Q (.mk lhs rhs)

inductive FSubSelectS (T : Leaves) (Q : Fam) : SubSelect → Prop
  | mk {selectClause whereClause solutionModifier valuesClause} : FSelectClauseS T Q selectClause → Q.group whereClause → FSolutionModifierS T Q solutionModifier → (∀ b ∈ valuesClause, FDataBlock T b) → FSubSelectS T Q (.mk selectClause whereClause solutionModifier valuesClause)

inductive FAddExpressionS (T : Leaves) (Q : Fam) : AddExpression → Prop
  | add {m} : FMultiplicativeExpressionS T Q m → FAddExpressionS T Q (.add m)
  | sub {m} : FMultiplicativeExpressionS T Q m → FAddExpressionS T Q (.sub m)
  | numeric {numeric expressions} : T.number numeric → (∀ a ∈ expressions, FMultExpressionS T Q a) → FAddExpressionS T Q (.numeric numeric expressions)

inductive FGroupGraphPatternS (T : Leaves) (Q : Fam) : GroupGraphPattern → Prop
  | subSelect {s} : FSubSelectS T Q s → FGroupGraphPatternS T Q (.subSelect s)
  | groupGraphPatternSub {s} : FGroupGraphPatternSubS T Q s → FGroupGraphPatternS T Q (.groupGraphPatternSub s)

inductive FAdditiveExpressionS (T : Leaves) (Q : Fam) : AdditiveExpression → Prop
  | mk {lhs rhs} : FMultiplicativeExpressionS T Q lhs → (∀ a ∈ rhs, FAddExpressionS T Q a) → FAdditiveExpressionS T Q (.mk lhs rhs)

inductive FOpExpressionS (T : Leaves) (Q : Fam) : OpExpression → Prop
  | eq {e} : FAdditiveExpressionS T Q e → FOpExpressionS T Q (.eq e)
  | ne {e} : FAdditiveExpressionS T Q e → FOpExpressionS T Q (.ne e)
  | lt {e} : FAdditiveExpressionS T Q e → FOpExpressionS T Q (.lt e)
  | gt {e} : FAdditiveExpressionS T Q e → FOpExpressionS T Q (.gt e)
  | le {e} : FAdditiveExpressionS T Q e → FOpExpressionS T Q (.le e)
  | ge {e} : FAdditiveExpressionS T Q e → FOpExpressionS T Q (.ge e)
  | in {l} : FExpressionListS T Q l → FOpExpressionS T Q (.in l)
  | nin {l} : FExpressionListS T Q l → FOpExpressionS T Q (.nin l)

inductive FRelationalExpressionS (T : Leaves) (Q : Fam) : RelationalExpression → Prop
  | mk {lhs rhs} : FAdditiveExpressionS T Q lhs → (∀ b ∈ rhs, FOpExpressionS T Q b) → FRelationalExpressionS T Q (.mk lhs rhs)

inductive FConditionalAndExpressionS (T : Leaves) (Q : Fam) : ConditionalAndExpression → Prop
  | mk {l} : l ≠ [] → (∀ a ∈ l, FRelationalExpressionS T Q a) → FConditionalAndExpressionS T Q (.mk l)

inductive FExpressionS (T : Leaves) (Q : Fam) : Expression → Prop
  | mk {l} : l ≠ [] → (∀ a ∈ l, FConditionalAndExpressionS T Q a) → FExpressionS T Q (.mk l)

variable (T : Leaves)

/-- Expressions and groups of depth at most `n`. -/
def filledF : Nat → Fam
  | 0 => { expr := fun _ => False, group := fun _ => False }
  | n + 1 => { expr := FExpressionS T (filledF n), group := FGroupGraphPatternS T (filledF n) }

def FExpression (e : Expression) : Prop := ∃ n, (filledF T n).expr e
def FGroupGraphPattern (g : GroupGraphPattern) : Prop := ∃ n, (filledF T n).group g

/-- Expressions and groups of any depth. -/
def filled : Fam := { expr := FExpression T, group := FGroupGraphPattern T }

/-! ## Queries and updates -/

inductive FSelectQuery (T : Leaves) : SelectQuery → Prop
  | mk {selectClause datasetClauses whereClause solutionModifier} : FSelectClauseS T (filled T) selectClause → (∀ a ∈ datasetClauses, FDefaultOrNamedIri T a) → FGroupGraphPattern T whereClause → FSolutionModifierS T (filled T) solutionModifier → FSelectQuery T (.mk selectClause datasetClauses whereClause solutionModifier)

inductive FAskQuery (T : Leaves) : AskQuery → Prop
  | mk {datasetClauses whereClause solutionModifier} : (∀ a ∈ datasetClauses, FDefaultOrNamedIri T a) → FGroupGraphPattern T whereClause → FSolutionModifierS T (filled T) solutionModifier → FAskQuery T (.mk datasetClauses whereClause solutionModifier)

inductive FDescribeQuery (T : Leaves) : DescribeQuery → Prop
  | mk {datasetClauses varOrIrisOrAll whereClause solutionModifier} : (∀ a ∈ datasetClauses, FDefaultOrNamedIri T a) → FVarOrIrisOrAll T varOrIrisOrAll → (∀ b ∈ whereClause, FGroupGraphPattern T b) → FSolutionModifierS T (filled T) solutionModifier → FDescribeQuery T (.mk datasetClauses varOrIrisOrAll whereClause solutionModifier)

inductive FSubConstruct (T : Leaves) : SubConstruct → Prop
  | mk {constructTemplate datasetClauses whereClause solutionModifier} : (∀ a ∈ constructTemplate, FTriplesSameSubject T a) → (∀ a ∈ datasetClauses, FDefaultOrNamedIri T a) → FGroupGraphPattern T whereClause → FSolutionModifierS T (filled T) solutionModifier → FSubConstruct T (.mk constructTemplate datasetClauses whereClause solutionModifier)

inductive FSubTriples (T : Leaves) : SubTriples → Prop
  | mk {datasetClauses triplesTemplate solutionModifier} : (∀ a ∈ datasetClauses, FDefaultOrNamedIri T a) → (∀ b ∈ triplesTemplate, (b ≠ [] ∧ (∀ d ∈ b, FTriplesSameSubject T d))) → FSolutionModifierS T (filled T) solutionModifier → FSubTriples T (.mk datasetClauses triplesTemplate solutionModifier)

inductive FConstructQuery (T : Leaves) : ConstructQuery → Prop
  | subConstruct {s} : FSubConstruct T s → FConstructQuery T (.subConstruct s)
  | subTriples {s} : FSubTriples T s → FConstructQuery T (.subTriples s)

inductive FSparqlQuery (T : Leaves) : SparqlQuery → Prop
  | ask {q} : FAskQuery T q → FSparqlQuery T (.ask q)
  | select {q} : FSelectQuery T q → FSparqlQuery T (.select q)
  | describe {q} : FDescribeQuery T q → FSparqlQuery T (.describe q)
  | construct {q} : FConstructQuery T q → FSparqlQuery T (.construct q)

inductive FSparqlQueryStatement (T : Leaves) : SparqlQueryStatement → Prop
  | mk {prologue query values} : (∀ d ∈ prologue.decls, T.decl d) → FSparqlQuery T query → (∀ b ∈ values, FDataBlock T b) → FSparqlQueryStatement T (.mk prologue query values)

inductive FGraphOrDefault (T : Leaves) : GraphOrDefault → Prop
  | graph {i} : T.iri i → FGraphOrDefault T (.graph i)
  | default : FGraphOrDefault T .default

inductive FGraphRefAll (T : Leaves) : GraphRefAll → Prop
  | graphRef {i} : T.iri i → FGraphRefAll T (.graphRef i)
  | default : FGraphRefAll T .default
  | named : FGraphRefAll T .named
  | all : FGraphRefAll T .all

inductive FLoadStatement (T : Leaves) : LoadStatement → Prop
  | mk {iri silent graphRef} : T.iri iri → (∀ b ∈ graphRef, T.iri b) → FLoadStatement T (.mk iri silent graphRef)

inductive FClearStatement (T : Leaves) : ClearStatement → Prop
  | mk {silent graphRefAll} : FGraphRefAll T graphRefAll → FClearStatement T (.mk silent graphRefAll)

inductive FDropStatement (T : Leaves) : DropStatement → Prop
  | mk {silent graphRefAll} : FGraphRefAll T graphRefAll → FDropStatement T (.mk silent graphRefAll)

inductive FCreateStatement (T : Leaves) : CreateStatement → Prop
  | mk {silent graphRef} : T.iri graphRef → FCreateStatement T (.mk silent graphRef)

inductive FAddStatement (T : Leaves) : AddStatement → Prop
  | mk {silent from' to} : FGraphOrDefault T from' → FGraphOrDefault T to → FAddStatement T (.mk silent from' to)

inductive FMoveStatement (T : Leaves) : MoveStatement → Prop
  | mk {silent from' to} : FGraphOrDefault T from' → FGraphOrDefault T to → FMoveStatement T (.mk silent from' to)

inductive FCopyStatement (T : Leaves) : CopyStatement → Prop
  | mk {silent from' to} : FGraphOrDefault T from' → FGraphOrDefault T to → FCopyStatement T (.mk silent from' to)

inductive FDeleteInsert (T : Leaves) : DeleteInsert → Prop
  | deleteInsert {delete insert} : FQuads T delete → (∀ b ∈ insert, FQuads T b) → FDeleteInsert T (.deleteInsert delete insert)
  | insert {q} : FQuads T q → FDeleteInsert T (.insert q)

inductive FModifyStatement (T : Leaves) : ModifyStatement → Prop
  | mk {iri deleteInsert usingClauses whereGroupGraph} : (∀ b ∈ iri, T.iri b) → FDeleteInsert T deleteInsert → (∀ a ∈ usingClauses, FDefaultOrNamedIri T a) → FGroupGraphPattern T whereGroupGraph → FModifyStatement T (.mk iri deleteInsert usingClauses whereGroupGraph)

inductive FUpdateStatement (T : Leaves) : UpdateStatement → Prop
  | load {s} : FLoadStatement T s → FUpdateStatement T (.load s)
  | clear {s} : FClearStatement T s → FUpdateStatement T (.clear s)
  | drop {s} : FDropStatement T s → FUpdateStatement T (.drop s)
  | create {s} : FCreateStatement T s → FUpdateStatement T (.create s)
  | add {s} : T.dead → FAddStatement T s → FUpdateStatement T (.add s)
  | move {s} : T.dead → FMoveStatement T s → FUpdateStatement T (.move s)
  | copy {s} : FCopyStatement T s → FUpdateStatement T (.copy s)
  | insertData {q} : FQuads T q → FUpdateStatement T (.insertData q)
  | deleteData {q} : FQuads T q → FUpdateStatement T (.deleteData q)
  | deleteWhere {q} : FQuads T q → FUpdateStatement T (.deleteWhere q)
  | modify {s} : FModifyStatement T s → FUpdateStatement T (.modify s)

inductive FUpdate (T : Leaves) : Update → Prop
  | mk {prologue updateStmt innerUpdate} : (∀ d ∈ prologue.decls, T.decl d) → (∀ b ∈ updateStmt, FUpdateStatement T b) → (∀ b ∈ innerUpdate, FUpdate T b) → FUpdate T (.mk prologue updateStmt innerUpdate)

end NomSparql
