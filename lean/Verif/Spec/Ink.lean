import Verif.Spec.Stored
import Verif.Spec.Lex

/-!
# The quiet characters of a tree, in the order of the syntax

`ink a` has the quiet characters of the strings inside `a`, in the order in which SPARQL writes the parts of `a`.  The sigil of a variable `$x` comes before
its name.  Two structs list their fields in another order than SPARQL writes them: `SolutionModifier` (GROUP BY, HAVING, ORDER BY is the order of SPARQL) and
`DescribeQuery` (what is described comes before the FROM clauses).
-/

namespace NomSparql

/-- `$` and the characters outside ASCII are in no keyword, no number and no punctuation. -/
def isQuiet (c : Char) : Bool := c == '$' || decide (128 ≤ c.toNat)
def inkStr (s : Str) : Str := s.filter isQuiet
def inkList (f : α → Str) : List α → Str
  | [] => []
  | x :: l => f x ++ inkList f l
def inkOption (f : α → Str) : Option α → Str
  | none => []
  | some x => f x

def inkVar : Var → Str
  | .qmark x0 => inkStr x0
  | .dollar x0 => inkStr ('$' :: x0)
def inkPrefixedName : PrefixedName → Str
  | .pnameLN x0 x1 => inkOption inkStr x0 ++ inkStr x1
  | .pnameNS x0 => inkOption inkStr x0
def inkIri : Iri → Str
  | .iri x0 => inkStr x0
  | .prefixedName x0 => inkPrefixedName x0
def inkDefaultOrNamedIri : DefaultOrNamedIri → Str
  | .default x0 => inkIri x0
  | .named x0 => inkIri x0
def inkRdfLiteralDescriptor : RdfLiteralDescriptor → Str
  | .langTag x0 => inkStr x0
  | .iriRef x0 => inkIri x0
def inkRdfLiteral : RdfLiteral → Str
  | ⟨x0, x1⟩ => inkStr x0 ++ inkOption inkRdfLiteralDescriptor x1
def inkStringLiteral : StringLiteral → Str
  | .simple x0 => inkStr x0
  | .language x0 x1 => inkStr x0 ++ inkStr x1
  | .typed x0 => inkStr x0
def inkDecimal : Decimal → Str
  | ⟨_, _, _⟩ => []
def inkNumericLiteral : NumericLiteral → Str
  | .int _ => []
  | .double x0 _ => inkDecimal x0
def inkBlankNode : BlankNode → Str
  | .anon => []
  | .label x0 => inkStr x0
def inkGraphTerm : GraphTerm → Str
  | .iri x0 => inkIri x0
  | .rdfLiteral x0 => inkRdfLiteral x0
  | .numericLiteral x0 => inkNumericLiteral x0
  | .booleanLiteral _ => []
  | .blankNode x0 => inkBlankNode x0
  | .nil => []
def inkVarOrIri : VarOrIri → Str
  | .var x0 => inkVar x0
  | .iri x0 => inkIri x0
def inkVarOrTerm : VarOrTerm → Str
  | .var x0 => inkVar x0
  | .term x0 => inkGraphTerm x0
def inkVarOrIrisOrAll : VarOrIrisOrAll → Str
  | .varIri x0 => inkList inkVarOrIri x0
  | .all => []
def inkVerb : Verb → Str
  | .varOrIri x0 => inkVarOrIri x0
  | .a => []
def inkSign : Sign → Str
  | .pos => []
  | .neg => []
def inkPrefixDecl : PrefixDecl → Str
  | ⟨x0, x1⟩ => inkOption inkStr x0 ++ inkStr x1
def inkBaseOrPrefixDecl : BaseOrPrefixDecl → Str
  | .base x0 => inkStr x0
  | .prefix x0 => inkPrefixDecl x0
def inkPrologue : Prologue → Str
  | ⟨x0⟩ => inkList inkBaseOrPrefixDecl x0
def inkDataBlockValue : DataBlockValue → Str
  | .iri x0 => inkIri x0
  | .rdfLiteral x0 => inkRdfLiteral x0
  | .numericLiteral x0 => inkNumericLiteral x0
  | .booleanLiteral _ => []
  | .undef => []
def inkInlineDataOneVar : InlineDataOneVar → Str
  | ⟨x0, x1⟩ => inkVar x0 ++ inkList inkDataBlockValue x1
def inkInlineDataFull : InlineDataFull → Str
  | ⟨x0, x1⟩ => inkList inkVar x0 ++ inkList (inkList inkDataBlockValue) x1
def inkDataBlock : DataBlock → Str
  | .inlineDataOneVar x0 => inkInlineDataOneVar x0
  | .inlineDataFull x0 => inkInlineDataFull x0
mutual
def inkGraphNode : GraphNode → Str
  | .varOrTerm x0 => inkVarOrTerm x0
  | .triplesNode x0 => inkTriplesNode x0
def inkTriplesNode : TriplesNode → Str
  | .collection x0 => inkListGraphNode x0
  | .blankNodePropertyList x0 => inkPropertyList x0
def inkPropertyList : PropertyList → Str
  | .mk x0 => inkListVerbList x0
def inkVerbList : VerbList → Str
  | .mk x0 x1 => inkVerb x0 ++ inkListGraphNode x1
def inkListGraphNode : List GraphNode → Str
  | [] => []
  | x :: l => inkGraphNode x ++ inkListGraphNode l
def inkListVerbList : List VerbList → Str
  | [] => []
  | x :: l => inkVerbList x ++ inkListVerbList l
end
@[simp] theorem inkListGraphNode_eq (l : List GraphNode) : inkListGraphNode l = inkList inkGraphNode l := by
  induction l with
  | nil => simp [inkListGraphNode, inkList]
  | cons a l ih => simp [inkListGraphNode, inkList, ih]
@[simp] theorem inkListVerbList_eq (l : List VerbList) : inkListVerbList l = inkList inkVerbList l := by
  induction l with
  | nil => simp [inkListVerbList, inkList]
  | cons a l ih => simp [inkListVerbList, inkList, ih]
def inkTriplesSameSubject : TriplesSameSubject → Str
  | .term x0 x1 => inkVarOrTerm x0 ++ inkPropertyList x1
  | .node x0 x1 => inkTriplesNode x0 ++ inkOption inkPropertyList x1
def inkQuadsNotTriples : QuadsNotTriples → Str
  | ⟨x0, x1⟩ => inkVarOrIri x0 ++ inkOption (inkList inkTriplesSameSubject) x1
def inkQuadsEntry : QuadsEntry → Str
  | ⟨x0, x1⟩ => inkQuadsNotTriples x0 ++ inkOption (inkList inkTriplesSameSubject) x1
def inkQuads : Quads → Str
  | ⟨x0, x1⟩ => inkOption (inkList inkTriplesSameSubject) x0 ++ inkList inkQuadsEntry x1
def inkIriOrA : IriOrA → Str
  | .iri x0 => inkIri x0
  | .a => []
def inkIriOrAOrCaret : IriOrAOrCaret → Str
  | .iriOrA x0 => inkIriOrA x0
  | .caret x0 => inkIriOrA x0
def inkPathMod : PathMod → Str
  | .questionMark => []
  | .asterisk => []
  | .plus => []
mutual
def inkPathAlternative : PathAlternative → Str
  | .mk x0 => inkListPathSequence x0
def inkPathSequence : PathSequence → Str
  | .mk x0 => inkListPathEltOrInverse x0
def inkPathEltOrInverse : PathEltOrInverse → Str
  | .pathElt x0 => inkPathElt x0
  | .inverse x0 => inkPathElt x0
def inkPathElt : PathElt → Str
  | .mk x0 x1 => inkPathPrimary x0 ++ inkOption inkPathMod x1
def inkPathPrimary : PathPrimary → Str
  | .iri x0 => inkIri x0
  | .a => []
  | .pathNegatedPropertySet x0 => inkList inkIriOrAOrCaret x0
  | .path x0 => inkPathAlternative x0
def inkListPathSequence : List PathSequence → Str
  | [] => []
  | x :: l => inkPathSequence x ++ inkListPathSequence l
def inkListPathEltOrInverse : List PathEltOrInverse → Str
  | [] => []
  | x :: l => inkPathEltOrInverse x ++ inkListPathEltOrInverse l
end
@[simp] theorem inkListPathSequence_eq (l : List PathSequence) : inkListPathSequence l = inkList inkPathSequence l := by
  induction l with
  | nil => simp [inkListPathSequence, inkList]
  | cons a l ih => simp [inkListPathSequence, inkList, ih]
@[simp] theorem inkListPathEltOrInverse_eq (l : List PathEltOrInverse) : inkListPathEltOrInverse l = inkList inkPathEltOrInverse l := by
  induction l with
  | nil => simp [inkListPathEltOrInverse, inkList]
  | cons a l ih => simp [inkListPathEltOrInverse, inkList, ih]
def inkVerbPathOrSimple : VerbPathOrSimple → Str
  | .path x0 => inkPathAlternative x0
  | .simple x0 => inkVar x0
def inkPropertyListPathEntry : PropertyListPathEntry → Str
  | ⟨x0, x1⟩ => inkVerbPathOrSimple x0 ++ inkList inkGraphNode x1
mutual
def inkGraphNodePath : GraphNodePath → Str
  | .varOrTerm x0 => inkVarOrTerm x0
  | .triplesNodePath x0 => inkTriplesNodePath x0
def inkTriplesNodePath : TriplesNodePath → Str
  | .collectionPath x0 => inkListGraphNodePath x0
  | .blankNodePropertyListPath x0 => inkPropertyListPath x0
def inkPropertyListPath : PropertyListPath → Str
  | .mk x0 x1 x2 => inkVerbPathOrSimple x0 ++ inkListGraphNodePath x1 ++ inkList inkPropertyListPathEntry x2
def inkListGraphNodePath : List GraphNodePath → Str
  | [] => []
  | x :: l => inkGraphNodePath x ++ inkListGraphNodePath l
end
@[simp] theorem inkListGraphNodePath_eq (l : List GraphNodePath) : inkListGraphNodePath l = inkList inkGraphNodePath l := by
  induction l with
  | nil => simp [inkListGraphNodePath, inkList]
  | cons a l ih => simp [inkListGraphNodePath, inkList, ih]
def inkTriplesSameSubjectPath : TriplesSameSubjectPath → Str
  | .term x0 x1 => inkVarOrTerm x0 ++ inkPropertyListPath x1
  | .node x0 x1 => inkTriplesNodePath x0 ++ inkOption inkPropertyListPath x1
def inkTriplesBlock : TriplesBlock → Str
  | ⟨x0⟩ => inkList inkTriplesSameSubjectPath x0
def inkOrder : Order → Str
  | .asc => []
  | .desc => []
def inkLimitOffsetClause : LimitOffsetClause → Str
  | .limitOffset _ _ => []
  | .offsetLimit _ _ => []
def inkSelectModifier : SelectModifier → Str
  | .distinct => []
  | .reduced => []
mutual
def inkExpression : Expression → Str
  | .mk x0 => inkListConditionalAndExpression x0
def inkConditionalAndExpression : ConditionalAndExpression → Str
  | .mk x0 => inkListRelationalExpression x0
def inkRelationalExpression : RelationalExpression → Str
  | .mk x0 x1 => inkAdditiveExpression x0 ++ inkOptionOpExpression x1
def inkOpExpression : OpExpression → Str
  | .eq x0 => inkAdditiveExpression x0
  | .ne x0 => inkAdditiveExpression x0
  | .lt x0 => inkAdditiveExpression x0
  | .gt x0 => inkAdditiveExpression x0
  | .le x0 => inkAdditiveExpression x0
  | .ge x0 => inkAdditiveExpression x0
  | .in x0 => inkExpressionList x0
  | .nin x0 => inkExpressionList x0
def inkAdditiveExpression : AdditiveExpression → Str
  | .mk x0 x1 => inkMultiplicativeExpression x0 ++ inkListAddExpression x1
def inkAddExpression : AddExpression → Str
  | .add x0 => inkMultiplicativeExpression x0
  | .sub x0 => inkMultiplicativeExpression x0
  | .numeric x0 x1 => inkNumericLiteral x0 ++ inkListMultExpression x1
def inkMultiplicativeExpression : MultiplicativeExpression → Str
  | .mk x0 x1 => inkUnaryExpression x0 ++ inkListMultExpression x1
def inkMultExpression : MultExpression → Str
  | .mult x0 => inkUnaryExpression x0
  | .div x0 => inkUnaryExpression x0
def inkUnaryExpression : UnaryExpression → Str
  | .not x0 => inkPrimaryExpression x0
  | .add x0 => inkPrimaryExpression x0
  | .sub x0 => inkPrimaryExpression x0
  | .default x0 => inkPrimaryExpression x0
def inkPrimaryExpression : PrimaryExpression → Str
  | .brackettedExpression x0 => inkExpression x0
  | .builtInCall x0 => inkBuiltInCall x0
  | .iriOrFunction x0 => inkIriOrFunction x0
  | .rdfLiteral x0 => inkRdfLiteral x0
  | .numericLiteral x0 => inkNumericLiteral x0
  | .booleanLiteral _ => []
  | .var x0 => inkVar x0
def inkExpressionList : ExpressionList → Str
  | .nil => []
  | .list x0 => inkListExpression x0
def inkIriOrFunction : IriOrFunction → Str
  | .mk x0 x1 => inkIri x0 ++ inkOptionArgList x1
def inkArgList : ArgList → Str
  | .nil => []
  | .expression _ x1 => inkListExpression x1
def inkDistinctExpression : DistinctExpression → Str
  | .mk _ x1 => inkExpression x1
def inkExpressionAsVar : ExpressionAsVar → Str
  | .mk x0 x1 => inkExpression x0 ++ inkVar x1
def inkExpressionAsVarOpt : ExpressionAsVarOpt → Str
  | .mk x0 x1 => inkExpression x0 ++ inkOption inkVar x1
def inkRegexExpression : RegexExpression → Str
  | .mk x0 x1 x2 => inkExpression x0 ++ inkExpression x1 ++ inkOptionExpression x2
def inkStrReplaceExpression : StrReplaceExpression → Str
  | .mk x0 x1 x2 x3 => inkExpression x0 ++ inkExpression x1 ++ inkExpression x2 ++ inkOptionExpression x3
def inkConstraint : Constraint → Str
  | .bracketted x0 => inkExpression x0
  | .builtInCall x0 => inkBuiltInCall x0
  | .functionCall x0 => inkFunctionCall x0
def inkFunctionCall : FunctionCall → Str
  | .mk x0 x1 => inkIri x0 ++ inkArgList x1
def inkBuiltInCall : BuiltInCall → Str
  | .aggregate x0 => inkAggregate x0
  | .str x0 => inkExpression x0
  | .lang x0 => inkExpression x0
  | .langMatches x0 x1 => inkExpression x0 ++ inkExpression x1
  | .datatype x0 => inkExpression x0
  | .bound x0 => inkVar x0
  | .iri x0 => inkExpression x0
  | .uri x0 => inkExpression x0
  | .bnode x0 => inkOptionExpression x0
  | .rand => []
  | .abs x0 => inkExpression x0
  | .ceil x0 => inkExpression x0
  | .floor x0 => inkExpression x0
  | .round x0 => inkExpression x0
  | .concat x0 x1 => inkExpressionList x0 ++ inkRegexExpression x1
  | .strLen x0 x1 => inkExpression x0 ++ inkStrReplaceExpression x1
  | .uCase x0 => inkExpression x0
  | .lCase x0 => inkExpression x0
  | .encodeForUri x0 => inkExpression x0
  | .contains x0 x1 => inkExpression x0 ++ inkExpression x1
  | .strStarts x0 x1 => inkExpression x0 ++ inkExpression x1
  | .strEnds x0 x1 => inkExpression x0 ++ inkExpression x1
  | .strBefore x0 x1 => inkExpression x0 ++ inkExpression x1
  | .strAfter x0 x1 => inkExpression x0 ++ inkExpression x1
  | .year x0 => inkExpression x0
  | .month x0 => inkExpression x0
  | .day x0 => inkExpression x0
  | .hours x0 => inkExpression x0
  | .minutes x0 => inkExpression x0
  | .seconds x0 => inkExpression x0
  | .timezone x0 => inkExpression x0
  | .tz x0 => inkExpression x0
  | .now => []
  | .uuid => []
  | .strUuid => []
  | .md5 x0 => inkExpression x0
  | .sha1 x0 => inkExpression x0
  | .sha256 x0 => inkExpression x0
  | .sha384 x0 => inkExpression x0
  | .sha512 x0 => inkExpression x0
  | .coalesce x0 => inkExpressionList x0
  | .if x0 x1 x2 => inkExpression x0 ++ inkExpression x1 ++ inkExpression x2
  | .strLang x0 x1 => inkExpression x0 ++ inkExpression x1
  | .strDt x0 x1 => inkExpression x0 ++ inkExpression x1
  | .sameTerm x0 x1 => inkExpression x0 ++ inkExpression x1
  | .isIri x0 => inkExpression x0
  | .isUri x0 => inkExpression x0
  | .isBlank x0 => inkExpression x0
  | .isLiteral x0 => inkExpression x0
  | .isNumeric x0 => inkExpression x0
  | .regex x0 => inkRegexExpression x0
  | .existsFunc x0 => inkGroupGraphPattern x0
  | .notExistsFunc x0 => inkGroupGraphPattern x0
def inkAggregate : Aggregate → Str
  | .count x0 => inkCount x0
  | .sum x0 => inkDistinctExpression x0
  | .min x0 => inkDistinctExpression x0
  | .max x0 => inkDistinctExpression x0
  | .avg x0 => inkDistinctExpression x0
  | .sample x0 => inkDistinctExpression x0
  | .groupConcat x0 => inkGroupConcat x0
def inkCount : Count → Str
  | .mk _ x1 => inkCountTarget x1
def inkCountTarget : CountTarget → Str
  | .all => []
  | .expr x0 => inkExpression x0
def inkGroupConcat : GroupConcat → Str
  | .mk x0 x1 => inkDistinctExpression x0 ++ inkOption inkStr x1
def inkGroupGraphPattern : GroupGraphPattern → Str
  | .subSelect x0 => inkSubSelect x0
  | .groupGraphPatternSub x0 => inkGroupGraphPatternSub x0
def inkGroupGraphPatternSub : GroupGraphPatternSub → Str
  | .mk x0 x1 => inkOption inkTriplesBlock x0 ++ inkListGraphPatternAndTriples x1
def inkGraphPatternAndTriples : GraphPatternAndTriples → Str
  | .mk x0 x1 => inkGraphPatternNotTriples x0 ++ inkOption inkTriplesBlock x1
def inkGraphPatternNotTriples : GraphPatternNotTriples → Str
  | .optional x0 => inkGroupGraphPattern x0
  | .groupOrUnion x0 => inkListGroupGraphPattern x0
  | .minus x0 => inkGroupGraphPattern x0
  | .graph x0 => inkGraphGraphPattern x0
  | .service x0 => inkServiceGraphPattern x0
  | .filter x0 => inkConstraint x0
  | .bind x0 => inkExpressionAsVar x0
  | .inlineData x0 => inkDataBlock x0
def inkGraphGraphPattern : GraphGraphPattern → Str
  | .mk x0 x1 => inkVarOrIri x0 ++ inkGroupGraphPattern x1
def inkServiceGraphPattern : ServiceGraphPattern → Str
  | .mk x0 _ x2 => inkVarOrIri x0 ++ inkGroupGraphPattern x2
def inkSubSelect : SubSelect → Str
  | .mk x0 x1 x2 x3 => inkSelectClause x0 ++ inkGroupGraphPattern x1 ++ inkSolutionModifier x2 ++ inkOption inkDataBlock x3
def inkSelectClause : SelectClause → Str
  | .mk x0 x1 => inkOption inkSelectModifier x0 ++ inkSelectVars x1
def inkSelectVars : SelectVars → Str
  | .varOrExpressionAsVar x0 => inkListVarOrExpressionAsVar x0
  | .all => []
def inkVarOrExpressionAsVar : VarOrExpressionAsVar → Str
  | .var x0 => inkVar x0
  | .expressionAsVar x0 => inkExpressionAsVar x0
def inkSolutionModifier : SolutionModifier → Str
  | .mk x0 x1 x2 x3 => inkOptionGroupClause x1 ++ inkOptionHavingClause x2 ++ inkOptionOrderClause x0 ++ inkOption inkLimitOffsetClause x3
def inkHavingClause : HavingClause → Str
  | .mk x0 => inkListConstraint x0
def inkOrderClause : OrderClause → Str
  | .mk x0 => inkListOrderCondition x0
def inkOrderCondition : OrderCondition → Str
  | .order x0 => inkOrderExpression x0
  | .constraint x0 => inkConstraint x0
  | .var x0 => inkVar x0
def inkOrderExpression : OrderExpression → Str
  | .mk x0 x1 => inkOrder x0 ++ inkExpression x1
def inkGroupClause : GroupClause → Str
  | .mk x0 => inkListGroupCondition x0
def inkGroupCondition : GroupCondition → Str
  | .builtInCall x0 => inkBuiltInCall x0
  | .functionCall x0 => inkFunctionCall x0
  | .expressionAsVarOpt x0 => inkExpressionAsVarOpt x0
  | .var x0 => inkVar x0
def inkListConditionalAndExpression : List ConditionalAndExpression → Str
  | [] => []
  | x :: l => inkConditionalAndExpression x ++ inkListConditionalAndExpression l
def inkListRelationalExpression : List RelationalExpression → Str
  | [] => []
  | x :: l => inkRelationalExpression x ++ inkListRelationalExpression l
def inkOptionOpExpression : Option OpExpression → Str
  | none => []
  | some x => inkOpExpression x
def inkListAddExpression : List AddExpression → Str
  | [] => []
  | x :: l => inkAddExpression x ++ inkListAddExpression l
def inkListMultExpression : List MultExpression → Str
  | [] => []
  | x :: l => inkMultExpression x ++ inkListMultExpression l
def inkListExpression : List Expression → Str
  | [] => []
  | x :: l => inkExpression x ++ inkListExpression l
def inkOptionArgList : Option ArgList → Str
  | none => []
  | some x => inkArgList x
def inkOptionExpression : Option Expression → Str
  | none => []
  | some x => inkExpression x
def inkListGraphPatternAndTriples : List GraphPatternAndTriples → Str
  | [] => []
  | x :: l => inkGraphPatternAndTriples x ++ inkListGraphPatternAndTriples l
def inkListGroupGraphPattern : List GroupGraphPattern → Str
  | [] => []
  | x :: l => inkGroupGraphPattern x ++ inkListGroupGraphPattern l
def inkListVarOrExpressionAsVar : List VarOrExpressionAsVar → Str
  | [] => []
  | x :: l => inkVarOrExpressionAsVar x ++ inkListVarOrExpressionAsVar l
def inkOptionOrderClause : Option OrderClause → Str
  | none => []
  | some x => inkOrderClause x
def inkOptionGroupClause : Option GroupClause → Str
  | none => []
  | some x => inkGroupClause x
def inkOptionHavingClause : Option HavingClause → Str
  | none => []
  | some x => inkHavingClause x
def inkListConstraint : List Constraint → Str
  | [] => []
  | x :: l => inkConstraint x ++ inkListConstraint l
def inkListOrderCondition : List OrderCondition → Str
  | [] => []
  | x :: l => inkOrderCondition x ++ inkListOrderCondition l
def inkListGroupCondition : List GroupCondition → Str
  | [] => []
  | x :: l => inkGroupCondition x ++ inkListGroupCondition l
end
@[simp] theorem inkListConditionalAndExpression_eq (l : List ConditionalAndExpression) : inkListConditionalAndExpression l = inkList inkConditionalAndExpression l := by
  induction l with
  | nil => simp [inkListConditionalAndExpression, inkList]
  | cons a l ih => simp [inkListConditionalAndExpression, inkList, ih]
@[simp] theorem inkListRelationalExpression_eq (l : List RelationalExpression) : inkListRelationalExpression l = inkList inkRelationalExpression l := by
  induction l with
  | nil => simp [inkListRelationalExpression, inkList]
  | cons a l ih => simp [inkListRelationalExpression, inkList, ih]
@[simp] theorem inkOptionOpExpression_eq (l : Option OpExpression) : inkOptionOpExpression l = inkOption inkOpExpression l := by cases l <;> simp [inkOptionOpExpression, inkOption]
@[simp] theorem inkListAddExpression_eq (l : List AddExpression) : inkListAddExpression l = inkList inkAddExpression l := by
  induction l with
  | nil => simp [inkListAddExpression, inkList]
  | cons a l ih => simp [inkListAddExpression, inkList, ih]
@[simp] theorem inkListMultExpression_eq (l : List MultExpression) : inkListMultExpression l = inkList inkMultExpression l := by
  induction l with
  | nil => simp [inkListMultExpression, inkList]
  | cons a l ih => simp [inkListMultExpression, inkList, ih]
@[simp] theorem inkListExpression_eq (l : List Expression) : inkListExpression l = inkList inkExpression l := by
  induction l with
  | nil => simp [inkListExpression, inkList]
  | cons a l ih => simp [inkListExpression, inkList, ih]
@[simp] theorem inkOptionArgList_eq (l : Option ArgList) : inkOptionArgList l = inkOption inkArgList l := by cases l <;> simp [inkOptionArgList, inkOption]
@[simp] theorem inkOptionExpression_eq (l : Option Expression) : inkOptionExpression l = inkOption inkExpression l := by cases l <;> simp [inkOptionExpression, inkOption]
@[simp] theorem inkListGraphPatternAndTriples_eq (l : List GraphPatternAndTriples) : inkListGraphPatternAndTriples l = inkList inkGraphPatternAndTriples l := by
  induction l with
  | nil => simp [inkListGraphPatternAndTriples, inkList]
  | cons a l ih => simp [inkListGraphPatternAndTriples, inkList, ih]
@[simp] theorem inkListGroupGraphPattern_eq (l : List GroupGraphPattern) : inkListGroupGraphPattern l = inkList inkGroupGraphPattern l := by
  induction l with
  | nil => simp [inkListGroupGraphPattern, inkList]
  | cons a l ih => simp [inkListGroupGraphPattern, inkList, ih]
@[simp] theorem inkListVarOrExpressionAsVar_eq (l : List VarOrExpressionAsVar) : inkListVarOrExpressionAsVar l = inkList inkVarOrExpressionAsVar l := by
  induction l with
  | nil => simp [inkListVarOrExpressionAsVar, inkList]
  | cons a l ih => simp [inkListVarOrExpressionAsVar, inkList, ih]
@[simp] theorem inkOptionOrderClause_eq (l : Option OrderClause) : inkOptionOrderClause l = inkOption inkOrderClause l := by cases l <;> simp [inkOptionOrderClause, inkOption]
@[simp] theorem inkOptionGroupClause_eq (l : Option GroupClause) : inkOptionGroupClause l = inkOption inkGroupClause l := by cases l <;> simp [inkOptionGroupClause, inkOption]
@[simp] theorem inkOptionHavingClause_eq (l : Option HavingClause) : inkOptionHavingClause l = inkOption inkHavingClause l := by cases l <;> simp [inkOptionHavingClause, inkOption]
@[simp] theorem inkListConstraint_eq (l : List Constraint) : inkListConstraint l = inkList inkConstraint l := by
  induction l with
  | nil => simp [inkListConstraint, inkList]
  | cons a l ih => simp [inkListConstraint, inkList, ih]
@[simp] theorem inkListOrderCondition_eq (l : List OrderCondition) : inkListOrderCondition l = inkList inkOrderCondition l := by
  induction l with
  | nil => simp [inkListOrderCondition, inkList]
  | cons a l ih => simp [inkListOrderCondition, inkList, ih]
@[simp] theorem inkListGroupCondition_eq (l : List GroupCondition) : inkListGroupCondition l = inkList inkGroupCondition l := by
  induction l with
  | nil => simp [inkListGroupCondition, inkList]
  | cons a l ih => simp [inkListGroupCondition, inkList, ih]
def inkSelectQuery : SelectQuery → Str
  | ⟨x0, x1, x2, x3⟩ => inkSelectClause x0 ++ inkList inkDefaultOrNamedIri x1 ++ inkGroupGraphPattern x2 ++ inkSolutionModifier x3
def inkAskQuery : AskQuery → Str
  | ⟨x0, x1, x2⟩ => inkList inkDefaultOrNamedIri x0 ++ inkGroupGraphPattern x1 ++ inkSolutionModifier x2
def inkDescribeQuery : DescribeQuery → Str
  | ⟨x0, x1, x2, x3⟩ => inkVarOrIrisOrAll x1 ++ inkList inkDefaultOrNamedIri x0 ++ inkOption inkGroupGraphPattern x2 ++ inkSolutionModifier x3
def inkSubConstruct : SubConstruct → Str
  | ⟨x0, x1, x2, x3⟩ => inkList inkTriplesSameSubject x0 ++ inkList inkDefaultOrNamedIri x1 ++ inkGroupGraphPattern x2 ++ inkSolutionModifier x3
def inkSubTriples : SubTriples → Str
  | ⟨x0, x1, x2⟩ => inkList inkDefaultOrNamedIri x0 ++ inkOption (inkList inkTriplesSameSubject) x1 ++ inkSolutionModifier x2
def inkConstructQuery : ConstructQuery → Str
  | .subConstruct x0 => inkSubConstruct x0
  | .subTriples x0 => inkSubTriples x0
def inkSparqlQuery : SparqlQuery → Str
  | .ask x0 => inkAskQuery x0
  | .select x0 => inkSelectQuery x0
  | .describe x0 => inkDescribeQuery x0
  | .construct x0 => inkConstructQuery x0
def inkSparqlQueryStatement : SparqlQueryStatement → Str
  | ⟨x0, x1, x2⟩ => inkPrologue x0 ++ inkSparqlQuery x1 ++ inkOption inkDataBlock x2
def inkGraphOrDefault : GraphOrDefault → Str
  | .graph x0 => inkIri x0
  | .default => []
def inkGraphRefAll : GraphRefAll → Str
  | .graphRef x0 => inkIri x0
  | .default => []
  | .named => []
  | .all => []
def inkLoadStatement : LoadStatement → Str
  | ⟨x0, _, x2⟩ => inkIri x0 ++ inkOption inkIri x2
def inkClearStatement : ClearStatement → Str
  | ⟨_, x1⟩ => inkGraphRefAll x1
def inkDropStatement : DropStatement → Str
  | ⟨_, x1⟩ => inkGraphRefAll x1
def inkCreateStatement : CreateStatement → Str
  | ⟨_, x1⟩ => inkIri x1
def inkAddStatement : AddStatement → Str
  | ⟨_, x1, x2⟩ => inkGraphOrDefault x1 ++ inkGraphOrDefault x2
def inkMoveStatement : MoveStatement → Str
  | ⟨_, x1, x2⟩ => inkGraphOrDefault x1 ++ inkGraphOrDefault x2
def inkCopyStatement : CopyStatement → Str
  | ⟨_, x1, x2⟩ => inkGraphOrDefault x1 ++ inkGraphOrDefault x2
def inkDeleteInsert : DeleteInsert → Str
  | .deleteInsert x0 x1 => inkQuads x0 ++ inkOption inkQuads x1
  | .insert x0 => inkQuads x0
def inkModifyStatement : ModifyStatement → Str
  | ⟨x0, x1, x2, x3⟩ => inkOption inkIri x0 ++ inkDeleteInsert x1 ++ inkList inkDefaultOrNamedIri x2 ++ inkGroupGraphPattern x3
def inkUpdateStatement : UpdateStatement → Str
  | .load x0 => inkLoadStatement x0
  | .clear x0 => inkClearStatement x0
  | .drop x0 => inkDropStatement x0
  | .create x0 => inkCreateStatement x0
  | .add x0 => inkAddStatement x0
  | .move x0 => inkMoveStatement x0
  | .copy x0 => inkCopyStatement x0
  | .insertData x0 => inkQuads x0
  | .deleteData x0 => inkQuads x0
  | .deleteWhere x0 => inkQuads x0
  | .modify x0 => inkModifyStatement x0
def inkUpdate : Update → Str
  | .mk x0 x1 none => inkPrologue x0 ++ inkOption inkUpdateStatement x1
  | .mk x0 x1 (some x2) => inkPrologue x0 ++ inkOption inkUpdateStatement x1 ++ inkUpdate x2

class Ink (α : Type) where
  ink : α → Str
export Ink (ink)
instance [Ink α] : Ink (List α) := ⟨inkList ink⟩
instance [Ink α] : Ink (Option α) := ⟨inkOption ink⟩
instance : Ink Char := ⟨fun _ => []⟩
instance : Ink Bool := ⟨fun _ => []⟩
instance : Ink Nat := ⟨fun _ => []⟩
instance (priority := high) : Ink Str := ⟨inkStr⟩
instance [Ink α] [Ink β] : Ink (α × β) := ⟨fun x => ink x.1 ++ ink x.2⟩
instance : Ink Var := ⟨inkVar⟩
instance : Ink PrefixedName := ⟨inkPrefixedName⟩
instance : Ink Iri := ⟨inkIri⟩
instance : Ink DefaultOrNamedIri := ⟨inkDefaultOrNamedIri⟩
instance : Ink RdfLiteralDescriptor := ⟨inkRdfLiteralDescriptor⟩
instance : Ink RdfLiteral := ⟨inkRdfLiteral⟩
instance : Ink StringLiteral := ⟨inkStringLiteral⟩
instance : Ink Decimal := ⟨inkDecimal⟩
instance : Ink NumericLiteral := ⟨inkNumericLiteral⟩
instance : Ink BlankNode := ⟨inkBlankNode⟩
instance : Ink GraphTerm := ⟨inkGraphTerm⟩
instance : Ink VarOrIri := ⟨inkVarOrIri⟩
instance : Ink VarOrTerm := ⟨inkVarOrTerm⟩
instance : Ink VarOrIrisOrAll := ⟨inkVarOrIrisOrAll⟩
instance : Ink Verb := ⟨inkVerb⟩
instance : Ink Sign := ⟨inkSign⟩
instance : Ink PrefixDecl := ⟨inkPrefixDecl⟩
instance : Ink BaseOrPrefixDecl := ⟨inkBaseOrPrefixDecl⟩
instance : Ink Prologue := ⟨inkPrologue⟩
instance : Ink DataBlockValue := ⟨inkDataBlockValue⟩
instance : Ink InlineDataOneVar := ⟨inkInlineDataOneVar⟩
instance : Ink InlineDataFull := ⟨inkInlineDataFull⟩
instance : Ink DataBlock := ⟨inkDataBlock⟩
instance : Ink GraphNode := ⟨inkGraphNode⟩
instance : Ink TriplesNode := ⟨inkTriplesNode⟩
instance : Ink PropertyList := ⟨inkPropertyList⟩
instance : Ink VerbList := ⟨inkVerbList⟩
instance : Ink TriplesSameSubject := ⟨inkTriplesSameSubject⟩
instance : Ink QuadsNotTriples := ⟨inkQuadsNotTriples⟩
instance : Ink QuadsEntry := ⟨inkQuadsEntry⟩
instance : Ink Quads := ⟨inkQuads⟩
instance : Ink IriOrA := ⟨inkIriOrA⟩
instance : Ink IriOrAOrCaret := ⟨inkIriOrAOrCaret⟩
instance : Ink PathMod := ⟨inkPathMod⟩
instance : Ink PathAlternative := ⟨inkPathAlternative⟩
instance : Ink PathSequence := ⟨inkPathSequence⟩
instance : Ink PathEltOrInverse := ⟨inkPathEltOrInverse⟩
instance : Ink PathElt := ⟨inkPathElt⟩
instance : Ink PathPrimary := ⟨inkPathPrimary⟩
instance : Ink VerbPathOrSimple := ⟨inkVerbPathOrSimple⟩
instance : Ink PropertyListPathEntry := ⟨inkPropertyListPathEntry⟩
instance : Ink GraphNodePath := ⟨inkGraphNodePath⟩
instance : Ink TriplesNodePath := ⟨inkTriplesNodePath⟩
instance : Ink PropertyListPath := ⟨inkPropertyListPath⟩
instance : Ink TriplesSameSubjectPath := ⟨inkTriplesSameSubjectPath⟩
instance : Ink TriplesBlock := ⟨inkTriplesBlock⟩
instance : Ink Order := ⟨inkOrder⟩
instance : Ink LimitOffsetClause := ⟨inkLimitOffsetClause⟩
instance : Ink SelectModifier := ⟨inkSelectModifier⟩
instance : Ink Expression := ⟨inkExpression⟩
instance : Ink ConditionalAndExpression := ⟨inkConditionalAndExpression⟩
instance : Ink RelationalExpression := ⟨inkRelationalExpression⟩
instance : Ink OpExpression := ⟨inkOpExpression⟩
instance : Ink AdditiveExpression := ⟨inkAdditiveExpression⟩
instance : Ink AddExpression := ⟨inkAddExpression⟩
instance : Ink MultiplicativeExpression := ⟨inkMultiplicativeExpression⟩
instance : Ink MultExpression := ⟨inkMultExpression⟩
instance : Ink UnaryExpression := ⟨inkUnaryExpression⟩
instance : Ink PrimaryExpression := ⟨inkPrimaryExpression⟩
instance : Ink ExpressionList := ⟨inkExpressionList⟩
instance : Ink IriOrFunction := ⟨inkIriOrFunction⟩
instance : Ink ArgList := ⟨inkArgList⟩
instance : Ink DistinctExpression := ⟨inkDistinctExpression⟩
instance : Ink ExpressionAsVar := ⟨inkExpressionAsVar⟩
instance : Ink ExpressionAsVarOpt := ⟨inkExpressionAsVarOpt⟩
instance : Ink RegexExpression := ⟨inkRegexExpression⟩
instance : Ink StrReplaceExpression := ⟨inkStrReplaceExpression⟩
instance : Ink Constraint := ⟨inkConstraint⟩
instance : Ink FunctionCall := ⟨inkFunctionCall⟩
instance : Ink BuiltInCall := ⟨inkBuiltInCall⟩
instance : Ink Aggregate := ⟨inkAggregate⟩
instance : Ink Count := ⟨inkCount⟩
instance : Ink CountTarget := ⟨inkCountTarget⟩
instance : Ink GroupConcat := ⟨inkGroupConcat⟩
instance : Ink GroupGraphPattern := ⟨inkGroupGraphPattern⟩
instance : Ink GroupGraphPatternSub := ⟨inkGroupGraphPatternSub⟩
instance : Ink GraphPatternAndTriples := ⟨inkGraphPatternAndTriples⟩
instance : Ink GraphPatternNotTriples := ⟨inkGraphPatternNotTriples⟩
instance : Ink GraphGraphPattern := ⟨inkGraphGraphPattern⟩
instance : Ink ServiceGraphPattern := ⟨inkServiceGraphPattern⟩
instance : Ink SubSelect := ⟨inkSubSelect⟩
instance : Ink SelectClause := ⟨inkSelectClause⟩
instance : Ink SelectVars := ⟨inkSelectVars⟩
instance : Ink VarOrExpressionAsVar := ⟨inkVarOrExpressionAsVar⟩
instance : Ink SolutionModifier := ⟨inkSolutionModifier⟩
instance : Ink HavingClause := ⟨inkHavingClause⟩
instance : Ink OrderClause := ⟨inkOrderClause⟩
instance : Ink OrderCondition := ⟨inkOrderCondition⟩
instance : Ink OrderExpression := ⟨inkOrderExpression⟩
instance : Ink GroupClause := ⟨inkGroupClause⟩
instance : Ink GroupCondition := ⟨inkGroupCondition⟩
instance : Ink SelectQuery := ⟨inkSelectQuery⟩
instance : Ink AskQuery := ⟨inkAskQuery⟩
instance : Ink DescribeQuery := ⟨inkDescribeQuery⟩
instance : Ink SubConstruct := ⟨inkSubConstruct⟩
instance : Ink SubTriples := ⟨inkSubTriples⟩
instance : Ink ConstructQuery := ⟨inkConstructQuery⟩
instance : Ink SparqlQuery := ⟨inkSparqlQuery⟩
instance : Ink SparqlQueryStatement := ⟨inkSparqlQueryStatement⟩
instance : Ink GraphOrDefault := ⟨inkGraphOrDefault⟩
instance : Ink GraphRefAll := ⟨inkGraphRefAll⟩
instance : Ink LoadStatement := ⟨inkLoadStatement⟩
instance : Ink ClearStatement := ⟨inkClearStatement⟩
instance : Ink DropStatement := ⟨inkDropStatement⟩
instance : Ink CreateStatement := ⟨inkCreateStatement⟩
instance : Ink AddStatement := ⟨inkAddStatement⟩
instance : Ink MoveStatement := ⟨inkMoveStatement⟩
instance : Ink CopyStatement := ⟨inkCopyStatement⟩
instance : Ink DeleteInsert := ⟨inkDeleteInsert⟩
instance : Ink ModifyStatement := ⟨inkModifyStatement⟩
instance : Ink UpdateStatement := ⟨inkUpdateStatement⟩
instance : Ink Update := ⟨inkUpdate⟩

/-- `Shed x y`: `y` is `x` with some pieces of white space (comments are white space) taken out. -/
inductive Shed : Str → Str → Prop
  | nil : Shed [] []
  | keep {c x y} : Shed x y → Shed (c :: x) (c :: y)
  | drop {w x y} : Ws w → Shed x y → Shed (w ++ x) y

end NomSparql
