import Verif.Model.Ast

/-!
# The size of a tree

Every value the crate returns is weighed: one for every value of a type of the crate (src/), one for every place in a `Vec`, one for every character
of a `String`.  Numbers and flags lie inside the value that has them and count nothing by themselves.  So the size is, up to a constant factor, the
memory the value takes.
-/

namespace NomSparql

/-- The characters of a string. -/
def szStr (s : Str) : Nat := s.length
/-- The places of a `Vec` and what is in them. -/
def szList (f : α → Nat) : List α → Nat
  | [] => 0
  | x :: l => 1 + f x + szList f l
def szOption (f : α → Nat) : Option α → Nat
  | none => 0
  | some x => f x

def szVar : Var → Nat
  | .qmark x0 => 1 + szStr x0
  | .dollar x0 => 1 + szStr x0
def szPrefixedName : PrefixedName → Nat
  | .pnameLN x0 x1 => 1 + szOption szStr x0 + szStr x1
  | .pnameNS x0 => 1 + szOption szStr x0
def szIri : Iri → Nat
  | .iri x0 => 1 + szStr x0
  | .prefixedName x0 => 1 + szPrefixedName x0
def szDefaultOrNamedIri : DefaultOrNamedIri → Nat
  | .default x0 => 1 + szIri x0
  | .named x0 => 1 + szIri x0
def szRdfLiteralDescriptor : RdfLiteralDescriptor → Nat
  | .langTag x0 => 1 + szStr x0
  | .iriRef x0 => 1 + szIri x0
def szRdfLiteral : RdfLiteral → Nat
  | ⟨x0, x1⟩ => 1 + szStr x0 + szOption szRdfLiteralDescriptor x1
def szStringLiteral : StringLiteral → Nat
  | .simple x0 => 1 + szStr x0
  | .language x0 x1 => 1 + szStr x0 + szStr x1
  | .typed x0 => 1 + szStr x0
def szDecimal : Decimal → Nat
  | ⟨_, _, _⟩ => 1
def szNumericLiteral : NumericLiteral → Nat
  | .int _ => 1
  | .double x0 _ => 1 + szDecimal x0
def szBlankNode : BlankNode → Nat
  | .anon => 1
  | .label x0 => 1 + szStr x0
def szGraphTerm : GraphTerm → Nat
  | .iri x0 => 1 + szIri x0
  | .rdfLiteral x0 => 1 + szRdfLiteral x0
  | .numericLiteral x0 => 1 + szNumericLiteral x0
  | .booleanLiteral _ => 1
  | .blankNode x0 => 1 + szBlankNode x0
  | .nil => 1
def szVarOrIri : VarOrIri → Nat
  | .var x0 => 1 + szVar x0
  | .iri x0 => 1 + szIri x0
def szVarOrTerm : VarOrTerm → Nat
  | .var x0 => 1 + szVar x0
  | .term x0 => 1 + szGraphTerm x0
def szVarOrIrisOrAll : VarOrIrisOrAll → Nat
  | .varIri x0 => 1 + szList szVarOrIri x0
  | .all => 1
def szVerb : Verb → Nat
  | .varOrIri x0 => 1 + szVarOrIri x0
  | .a => 1
def szSign : Sign → Nat
  | .pos => 1
  | .neg => 1
def szPrefixDecl : PrefixDecl → Nat
  | ⟨x0, x1⟩ => 1 + szOption szStr x0 + szStr x1
def szBaseOrPrefixDecl : BaseOrPrefixDecl → Nat
  | .base x0 => 1 + szStr x0
  | .prefix x0 => 1 + szPrefixDecl x0
def szPrologue : Prologue → Nat
  | ⟨x0⟩ => 1 + szList szBaseOrPrefixDecl x0
def szDataBlockValue : DataBlockValue → Nat
  | .iri x0 => 1 + szIri x0
  | .rdfLiteral x0 => 1 + szRdfLiteral x0
  | .numericLiteral x0 => 1 + szNumericLiteral x0
  | .booleanLiteral _ => 1
  | .undef => 1
def szInlineDataOneVar : InlineDataOneVar → Nat
  | ⟨x0, x1⟩ => 1 + szVar x0 + szList szDataBlockValue x1
def szInlineDataFull : InlineDataFull → Nat
  | ⟨x0, x1⟩ => 1 + szList szVar x0 + szList (szList szDataBlockValue) x1
def szDataBlock : DataBlock → Nat
  | .inlineDataOneVar x0 => 1 + szInlineDataOneVar x0
  | .inlineDataFull x0 => 1 + szInlineDataFull x0
mutual
def szGraphNode : GraphNode → Nat
  | .varOrTerm x0 => 1 + szVarOrTerm x0
  | .triplesNode x0 => 1 + szTriplesNode x0
def szTriplesNode : TriplesNode → Nat
  | .collection x0 => 1 + szListGraphNode x0
  | .blankNodePropertyList x0 => 1 + szPropertyList x0
def szPropertyList : PropertyList → Nat
  | .mk x0 => 1 + szListVerbList x0
def szVerbList : VerbList → Nat
  | .mk x0 x1 => 1 + szVerb x0 + szListGraphNode x1
def szListGraphNode : List GraphNode → Nat
  | [] => 0
  | x :: l => 1 + szGraphNode x + szListGraphNode l
def szListVerbList : List VerbList → Nat
  | [] => 0
  | x :: l => 1 + szVerbList x + szListVerbList l
end
@[simp] theorem szListGraphNode_eq (l : List GraphNode) : szListGraphNode l = szList szGraphNode l := by
  induction l with
  | nil => simp [szListGraphNode, szList]
  | cons a l ih => simp [szListGraphNode, szList, ih]
@[simp] theorem szListVerbList_eq (l : List VerbList) : szListVerbList l = szList szVerbList l := by
  induction l with
  | nil => simp [szListVerbList, szList]
  | cons a l ih => simp [szListVerbList, szList, ih]
def szTriplesSameSubject : TriplesSameSubject → Nat
  | .term x0 x1 => 1 + szVarOrTerm x0 + szPropertyList x1
  | .node x0 x1 => 1 + szTriplesNode x0 + szOption szPropertyList x1
def szQuadsNotTriples : QuadsNotTriples → Nat
  | ⟨x0, x1⟩ => 1 + szVarOrIri x0 + szOption (szList szTriplesSameSubject) x1
def szQuadsEntry : QuadsEntry → Nat
  | ⟨x0, x1⟩ => 1 + szQuadsNotTriples x0 + szOption (szList szTriplesSameSubject) x1
def szQuads : Quads → Nat
  | ⟨x0, x1⟩ => 1 + szOption (szList szTriplesSameSubject) x0 + szList szQuadsEntry x1
def szIriOrA : IriOrA → Nat
  | .iri x0 => 1 + szIri x0
  | .a => 1
def szIriOrAOrCaret : IriOrAOrCaret → Nat
  | .iriOrA x0 => 1 + szIriOrA x0
  | .caret x0 => 1 + szIriOrA x0
def szPathMod : PathMod → Nat
  | .questionMark => 1
  | .asterisk => 1
  | .plus => 1
mutual
def szPathAlternative : PathAlternative → Nat
  | .mk x0 => 1 + szListPathSequence x0
def szPathSequence : PathSequence → Nat
  | .mk x0 => 1 + szListPathEltOrInverse x0
def szPathEltOrInverse : PathEltOrInverse → Nat
  | .pathElt x0 => 1 + szPathElt x0
  | .inverse x0 => 1 + szPathElt x0
def szPathElt : PathElt → Nat
  | .mk x0 x1 => 1 + szPathPrimary x0 + szOption szPathMod x1
def szPathPrimary : PathPrimary → Nat
  | .iri x0 => 1 + szIri x0
  | .a => 1
  | .pathNegatedPropertySet x0 => 1 + szList szIriOrAOrCaret x0
  | .path x0 => 1 + szPathAlternative x0
def szListPathSequence : List PathSequence → Nat
  | [] => 0
  | x :: l => 1 + szPathSequence x + szListPathSequence l
def szListPathEltOrInverse : List PathEltOrInverse → Nat
  | [] => 0
  | x :: l => 1 + szPathEltOrInverse x + szListPathEltOrInverse l
end
@[simp] theorem szListPathSequence_eq (l : List PathSequence) : szListPathSequence l = szList szPathSequence l := by
  induction l with
  | nil => simp [szListPathSequence, szList]
  | cons a l ih => simp [szListPathSequence, szList, ih]
@[simp] theorem szListPathEltOrInverse_eq (l : List PathEltOrInverse) : szListPathEltOrInverse l = szList szPathEltOrInverse l := by
  induction l with
  | nil => simp [szListPathEltOrInverse, szList]
  | cons a l ih => simp [szListPathEltOrInverse, szList, ih]
def szVerbPathOrSimple : VerbPathOrSimple → Nat
  | .path x0 => 1 + szPathAlternative x0
  | .simple x0 => 1 + szVar x0
def szPropertyListPathEntry : PropertyListPathEntry → Nat
  | ⟨x0, x1⟩ => 1 + szVerbPathOrSimple x0 + szList szGraphNode x1
mutual
def szGraphNodePath : GraphNodePath → Nat
  | .varOrTerm x0 => 1 + szVarOrTerm x0
  | .triplesNodePath x0 => 1 + szTriplesNodePath x0
def szTriplesNodePath : TriplesNodePath → Nat
  | .collectionPath x0 => 1 + szListGraphNodePath x0
  | .blankNodePropertyListPath x0 => 1 + szPropertyListPath x0
def szPropertyListPath : PropertyListPath → Nat
  | .mk x0 x1 x2 => 1 + szVerbPathOrSimple x0 + szListGraphNodePath x1 + szList szPropertyListPathEntry x2
def szListGraphNodePath : List GraphNodePath → Nat
  | [] => 0
  | x :: l => 1 + szGraphNodePath x + szListGraphNodePath l
end
@[simp] theorem szListGraphNodePath_eq (l : List GraphNodePath) : szListGraphNodePath l = szList szGraphNodePath l := by
  induction l with
  | nil => simp [szListGraphNodePath, szList]
  | cons a l ih => simp [szListGraphNodePath, szList, ih]
def szTriplesSameSubjectPath : TriplesSameSubjectPath → Nat
  | .term x0 x1 => 1 + szVarOrTerm x0 + szPropertyListPath x1
  | .node x0 x1 => 1 + szTriplesNodePath x0 + szOption szPropertyListPath x1
def szTriplesBlock : TriplesBlock → Nat
  | ⟨x0⟩ => 1 + szList szTriplesSameSubjectPath x0
def szOrder : Order → Nat
  | .asc => 1
  | .desc => 1
def szLimitOffsetClause : LimitOffsetClause → Nat
  | .limitOffset _ _ => 1
  | .offsetLimit _ _ => 1
def szSelectModifier : SelectModifier → Nat
  | .distinct => 1
  | .reduced => 1
mutual
def szExpression : Expression → Nat
  | .mk x0 => 1 + szListConditionalAndExpression x0
def szConditionalAndExpression : ConditionalAndExpression → Nat
  | .mk x0 => 1 + szListRelationalExpression x0
def szRelationalExpression : RelationalExpression → Nat
  | .mk x0 x1 => 1 + szAdditiveExpression x0 + szOptionOpExpression x1
def szOpExpression : OpExpression → Nat
  | .eq x0 => 1 + szAdditiveExpression x0
  | .ne x0 => 1 + szAdditiveExpression x0
  | .lt x0 => 1 + szAdditiveExpression x0
  | .gt x0 => 1 + szAdditiveExpression x0
  | .le x0 => 1 + szAdditiveExpression x0
  | .ge x0 => 1 + szAdditiveExpression x0
  | .in x0 => 1 + szExpressionList x0
  | .nin x0 => 1 + szExpressionList x0
def szAdditiveExpression : AdditiveExpression → Nat
  | .mk x0 x1 => 1 + szMultiplicativeExpression x0 + szListAddExpression x1
def szAddExpression : AddExpression → Nat
  | .add x0 => 1 + szMultiplicativeExpression x0
  | .sub x0 => 1 + szMultiplicativeExpression x0
  | .numeric x0 x1 => 1 + szNumericLiteral x0 + szListMultExpression x1
def szMultiplicativeExpression : MultiplicativeExpression → Nat
  | .mk x0 x1 => 1 + szUnaryExpression x0 + szListMultExpression x1
def szMultExpression : MultExpression → Nat
  | .mult x0 => 1 + szUnaryExpression x0
  | .div x0 => 1 + szUnaryExpression x0
def szUnaryExpression : UnaryExpression → Nat
  | .not x0 => 1 + szPrimaryExpression x0
  | .add x0 => 1 + szPrimaryExpression x0
  | .sub x0 => 1 + szPrimaryExpression x0
  | .default x0 => 1 + szPrimaryExpression x0
def szPrimaryExpression : PrimaryExpression → Nat
  | .brackettedExpression x0 => 1 + szExpression x0
  | .builtInCall x0 => 1 + szBuiltInCall x0
  | .iriOrFunction x0 => 1 + szIriOrFunction x0
  | .rdfLiteral x0 => 1 + szRdfLiteral x0
  | .numericLiteral x0 => 1 + szNumericLiteral x0
  | .booleanLiteral _ => 1
  | .var x0 => 1 + szVar x0
def szExpressionList : ExpressionList → Nat
  | .nil => 1
  | .list x0 => 1 + szListExpression x0
def szIriOrFunction : IriOrFunction → Nat
  | .mk x0 x1 => 1 + szIri x0 + szOptionArgList x1
def szArgList : ArgList → Nat
  | .nil => 1
  | .expression _ x1 => 1 + szListExpression x1
def szDistinctExpression : DistinctExpression → Nat
  | .mk _ x1 => 1 + szExpression x1
def szExpressionAsVar : ExpressionAsVar → Nat
  | .mk x0 x1 => 1 + szExpression x0 + szVar x1
def szExpressionAsVarOpt : ExpressionAsVarOpt → Nat
  | .mk x0 x1 => 1 + szExpression x0 + szOption szVar x1
def szRegexExpression : RegexExpression → Nat
  | .mk x0 x1 x2 => 1 + szExpression x0 + szExpression x1 + szOptionExpression x2
def szStrReplaceExpression : StrReplaceExpression → Nat
  | .mk x0 x1 x2 x3 => 1 + szExpression x0 + szExpression x1 + szExpression x2 + szOptionExpression x3
def szConstraint : Constraint → Nat
  | .bracketted x0 => 1 + szExpression x0
  | .builtInCall x0 => 1 + szBuiltInCall x0
  | .functionCall x0 => 1 + szFunctionCall x0
def szFunctionCall : FunctionCall → Nat
  | .mk x0 x1 => 1 + szIri x0 + szArgList x1
def szBuiltInCall : BuiltInCall → Nat
  | .aggregate x0 => 1 + szAggregate x0
  | .str x0 => 1 + szExpression x0
  | .lang x0 => 1 + szExpression x0
  | .langMatches x0 x1 => 1 + szExpression x0 + szExpression x1
  | .datatype x0 => 1 + szExpression x0
  | .bound x0 => 1 + szVar x0
  | .iri x0 => 1 + szExpression x0
  | .uri x0 => 1 + szExpression x0
  | .bnode x0 => 1 + szOptionExpression x0
  | .rand => 1
  | .abs x0 => 1 + szExpression x0
  | .ceil x0 => 1 + szExpression x0
  | .floor x0 => 1 + szExpression x0
  | .round x0 => 1 + szExpression x0
  | .concat x0 x1 => 1 + szExpressionList x0 + szRegexExpression x1
  | .strLen x0 x1 => 1 + szExpression x0 + szStrReplaceExpression x1
  | .uCase x0 => 1 + szExpression x0
  | .lCase x0 => 1 + szExpression x0
  | .encodeForUri x0 => 1 + szExpression x0
  | .contains x0 x1 => 1 + szExpression x0 + szExpression x1
  | .strStarts x0 x1 => 1 + szExpression x0 + szExpression x1
  | .strEnds x0 x1 => 1 + szExpression x0 + szExpression x1
  | .strBefore x0 x1 => 1 + szExpression x0 + szExpression x1
  | .strAfter x0 x1 => 1 + szExpression x0 + szExpression x1
  | .year x0 => 1 + szExpression x0
  | .month x0 => 1 + szExpression x0
  | .day x0 => 1 + szExpression x0
  | .hours x0 => 1 + szExpression x0
  | .minutes x0 => 1 + szExpression x0
  | .seconds x0 => 1 + szExpression x0
  | .timezone x0 => 1 + szExpression x0
  | .tz x0 => 1 + szExpression x0
  | .now => 1
  | .uuid => 1
  | .strUuid => 1
  | .md5 x0 => 1 + szExpression x0
  | .sha1 x0 => 1 + szExpression x0
  | .sha256 x0 => 1 + szExpression x0
  | .sha384 x0 => 1 + szExpression x0
  | .sha512 x0 => 1 + szExpression x0
  | .coalesce x0 => 1 + szExpressionList x0
  | .if x0 x1 x2 => 1 + szExpression x0 + szExpression x1 + szExpression x2
  | .strLang x0 x1 => 1 + szExpression x0 + szExpression x1
  | .strDt x0 x1 => 1 + szExpression x0 + szExpression x1
  | .sameTerm x0 x1 => 1 + szExpression x0 + szExpression x1
  | .isIri x0 => 1 + szExpression x0
  | .isUri x0 => 1 + szExpression x0
  | .isBlank x0 => 1 + szExpression x0
  | .isLiteral x0 => 1 + szExpression x0
  | .isNumeric x0 => 1 + szExpression x0
  | .regex x0 => 1 + szRegexExpression x0
  | .existsFunc x0 => 1 + szGroupGraphPattern x0
  | .notExistsFunc x0 => 1 + szGroupGraphPattern x0
def szAggregate : Aggregate → Nat
  | .count x0 => 1 + szCount x0
  | .sum x0 => 1 + szDistinctExpression x0
  | .min x0 => 1 + szDistinctExpression x0
  | .max x0 => 1 + szDistinctExpression x0
  | .avg x0 => 1 + szDistinctExpression x0
  | .sample x0 => 1 + szDistinctExpression x0
  | .groupConcat x0 => 1 + szGroupConcat x0
def szCount : Count → Nat
  | .mk _ x1 => 1 + szCountTarget x1
def szCountTarget : CountTarget → Nat
  | .all => 1
  | .expr x0 => 1 + szExpression x0
def szGroupConcat : GroupConcat → Nat
  | .mk x0 x1 => 1 + szDistinctExpression x0 + szOption szStr x1
def szGroupGraphPattern : GroupGraphPattern → Nat
  | .subSelect x0 => 1 + szSubSelect x0
  | .groupGraphPatternSub x0 => 1 + szGroupGraphPatternSub x0
def szGroupGraphPatternSub : GroupGraphPatternSub → Nat
  | .mk x0 x1 => 1 + szOption szTriplesBlock x0 + szListGraphPatternAndTriples x1
def szGraphPatternAndTriples : GraphPatternAndTriples → Nat
  | .mk x0 x1 => 1 + szGraphPatternNotTriples x0 + szOption szTriplesBlock x1
def szGraphPatternNotTriples : GraphPatternNotTriples → Nat
  | .optional x0 => 1 + szGroupGraphPattern x0
  | .groupOrUnion x0 => 1 + szListGroupGraphPattern x0
  | .minus x0 => 1 + szGroupGraphPattern x0
  | .graph x0 => 1 + szGraphGraphPattern x0
  | .service x0 => 1 + szServiceGraphPattern x0
  | .filter x0 => 1 + szConstraint x0
  | .bind x0 => 1 + szExpressionAsVar x0
  | .inlineData x0 => 1 + szDataBlock x0
def szGraphGraphPattern : GraphGraphPattern → Nat
  | .mk x0 x1 => 1 + szVarOrIri x0 + szGroupGraphPattern x1
def szServiceGraphPattern : ServiceGraphPattern → Nat
  | .mk x0 _ x2 => 1 + szVarOrIri x0 + szGroupGraphPattern x2
def szSubSelect : SubSelect → Nat
  | .mk x0 x1 x2 x3 => 1 + szSelectClause x0 + szGroupGraphPattern x1 + szSolutionModifier x2 + szOption szDataBlock x3
def szSelectClause : SelectClause → Nat
  | .mk x0 x1 => 1 + szOption szSelectModifier x0 + szSelectVars x1
def szSelectVars : SelectVars → Nat
  | .varOrExpressionAsVar x0 => 1 + szListVarOrExpressionAsVar x0
  | .all => 1
def szVarOrExpressionAsVar : VarOrExpressionAsVar → Nat
  | .var x0 => 1 + szVar x0
  | .expressionAsVar x0 => 1 + szExpressionAsVar x0
def szSolutionModifier : SolutionModifier → Nat
  | .mk x0 x1 x2 x3 => 1 + szOptionOrderClause x0 + szOptionGroupClause x1 + szOptionHavingClause x2 + szOption szLimitOffsetClause x3
def szHavingClause : HavingClause → Nat
  | .mk x0 => 1 + szListConstraint x0
def szOrderClause : OrderClause → Nat
  | .mk x0 => 1 + szListOrderCondition x0
def szOrderCondition : OrderCondition → Nat
  | .order x0 => 1 + szOrderExpression x0
  | .constraint x0 => 1 + szConstraint x0
  | .var x0 => 1 + szVar x0
def szOrderExpression : OrderExpression → Nat
  | .mk x0 x1 => 1 + szOrder x0 + szExpression x1
def szGroupClause : GroupClause → Nat
  | .mk x0 => 1 + szListGroupCondition x0
def szGroupCondition : GroupCondition → Nat
  | .builtInCall x0 => 1 + szBuiltInCall x0
  | .functionCall x0 => 1 + szFunctionCall x0
  | .expressionAsVarOpt x0 => 1 + szExpressionAsVarOpt x0
  | .var x0 => 1 + szVar x0
def szListConditionalAndExpression : List ConditionalAndExpression → Nat
  | [] => 0
  | x :: l => 1 + szConditionalAndExpression x + szListConditionalAndExpression l
def szListRelationalExpression : List RelationalExpression → Nat
  | [] => 0
  | x :: l => 1 + szRelationalExpression x + szListRelationalExpression l
def szOptionOpExpression : Option OpExpression → Nat
  | none => 0
  | some x => szOpExpression x
def szListAddExpression : List AddExpression → Nat
  | [] => 0
  | x :: l => 1 + szAddExpression x + szListAddExpression l
def szListMultExpression : List MultExpression → Nat
  | [] => 0
  | x :: l => 1 + szMultExpression x + szListMultExpression l
def szListExpression : List Expression → Nat
  | [] => 0
  | x :: l => 1 + szExpression x + szListExpression l
def szOptionArgList : Option ArgList → Nat
  | none => 0
  | some x => szArgList x
def szOptionExpression : Option Expression → Nat
  | none => 0
  | some x => szExpression x
def szListGraphPatternAndTriples : List GraphPatternAndTriples → Nat
  | [] => 0
  | x :: l => 1 + szGraphPatternAndTriples x + szListGraphPatternAndTriples l
def szListGroupGraphPattern : List GroupGraphPattern → Nat
  | [] => 0
  | x :: l => 1 + szGroupGraphPattern x + szListGroupGraphPattern l
def szListVarOrExpressionAsVar : List VarOrExpressionAsVar → Nat
  | [] => 0
  | x :: l => 1 + szVarOrExpressionAsVar x + szListVarOrExpressionAsVar l
def szOptionOrderClause : Option OrderClause → Nat
  | none => 0
  | some x => szOrderClause x
def szOptionGroupClause : Option GroupClause → Nat
  | none => 0
  | some x => szGroupClause x
def szOptionHavingClause : Option HavingClause → Nat
  | none => 0
  | some x => szHavingClause x
def szListConstraint : List Constraint → Nat
  | [] => 0
  | x :: l => 1 + szConstraint x + szListConstraint l
def szListOrderCondition : List OrderCondition → Nat
  | [] => 0
  | x :: l => 1 + szOrderCondition x + szListOrderCondition l
def szListGroupCondition : List GroupCondition → Nat
  | [] => 0
  | x :: l => 1 + szGroupCondition x + szListGroupCondition l
end
@[simp] theorem szListConditionalAndExpression_eq (l : List ConditionalAndExpression) : szListConditionalAndExpression l = szList szConditionalAndExpression l := by
  induction l with
  | nil => simp [szListConditionalAndExpression, szList]
  | cons a l ih => simp [szListConditionalAndExpression, szList, ih]
@[simp] theorem szListRelationalExpression_eq (l : List RelationalExpression) : szListRelationalExpression l = szList szRelationalExpression l := by
  induction l with
  | nil => simp [szListRelationalExpression, szList]
  | cons a l ih => simp [szListRelationalExpression, szList, ih]
@[simp] theorem szOptionOpExpression_eq (l : Option OpExpression) : szOptionOpExpression l = szOption szOpExpression l := by cases l <;> simp [szOptionOpExpression, szOption]
@[simp] theorem szListAddExpression_eq (l : List AddExpression) : szListAddExpression l = szList szAddExpression l := by
  induction l with
  | nil => simp [szListAddExpression, szList]
  | cons a l ih => simp [szListAddExpression, szList, ih]
@[simp] theorem szListMultExpression_eq (l : List MultExpression) : szListMultExpression l = szList szMultExpression l := by
  induction l with
  | nil => simp [szListMultExpression, szList]
  | cons a l ih => simp [szListMultExpression, szList, ih]
@[simp] theorem szListExpression_eq (l : List Expression) : szListExpression l = szList szExpression l := by
  induction l with
  | nil => simp [szListExpression, szList]
  | cons a l ih => simp [szListExpression, szList, ih]
@[simp] theorem szOptionArgList_eq (l : Option ArgList) : szOptionArgList l = szOption szArgList l := by cases l <;> simp [szOptionArgList, szOption]
@[simp] theorem szOptionExpression_eq (l : Option Expression) : szOptionExpression l = szOption szExpression l := by cases l <;> simp [szOptionExpression, szOption]
@[simp] theorem szListGraphPatternAndTriples_eq (l : List GraphPatternAndTriples) : szListGraphPatternAndTriples l = szList szGraphPatternAndTriples l := by
  induction l with
  | nil => simp [szListGraphPatternAndTriples, szList]
  | cons a l ih => simp [szListGraphPatternAndTriples, szList, ih]
@[simp] theorem szListGroupGraphPattern_eq (l : List GroupGraphPattern) : szListGroupGraphPattern l = szList szGroupGraphPattern l := by
  induction l with
  | nil => simp [szListGroupGraphPattern, szList]
  | cons a l ih => simp [szListGroupGraphPattern, szList, ih]
@[simp] theorem szListVarOrExpressionAsVar_eq (l : List VarOrExpressionAsVar) : szListVarOrExpressionAsVar l = szList szVarOrExpressionAsVar l := by
  induction l with
  | nil => simp [szListVarOrExpressionAsVar, szList]
  | cons a l ih => simp [szListVarOrExpressionAsVar, szList, ih]
@[simp] theorem szOptionOrderClause_eq (l : Option OrderClause) : szOptionOrderClause l = szOption szOrderClause l := by cases l <;> simp [szOptionOrderClause, szOption]
@[simp] theorem szOptionGroupClause_eq (l : Option GroupClause) : szOptionGroupClause l = szOption szGroupClause l := by cases l <;> simp [szOptionGroupClause, szOption]
@[simp] theorem szOptionHavingClause_eq (l : Option HavingClause) : szOptionHavingClause l = szOption szHavingClause l := by cases l <;> simp [szOptionHavingClause, szOption]
@[simp] theorem szListConstraint_eq (l : List Constraint) : szListConstraint l = szList szConstraint l := by
  induction l with
  | nil => simp [szListConstraint, szList]
  | cons a l ih => simp [szListConstraint, szList, ih]
@[simp] theorem szListOrderCondition_eq (l : List OrderCondition) : szListOrderCondition l = szList szOrderCondition l := by
  induction l with
  | nil => simp [szListOrderCondition, szList]
  | cons a l ih => simp [szListOrderCondition, szList, ih]
@[simp] theorem szListGroupCondition_eq (l : List GroupCondition) : szListGroupCondition l = szList szGroupCondition l := by
  induction l with
  | nil => simp [szListGroupCondition, szList]
  | cons a l ih => simp [szListGroupCondition, szList, ih]
def szSelectQuery : SelectQuery → Nat
  | ⟨x0, x1, x2, x3⟩ => 1 + szSelectClause x0 + szList szDefaultOrNamedIri x1 + szGroupGraphPattern x2 + szSolutionModifier x3
def szAskQuery : AskQuery → Nat
  | ⟨x0, x1, x2⟩ => 1 + szList szDefaultOrNamedIri x0 + szGroupGraphPattern x1 + szSolutionModifier x2
def szDescribeQuery : DescribeQuery → Nat
  | ⟨x0, x1, x2, x3⟩ => 1 + szList szDefaultOrNamedIri x0 + szVarOrIrisOrAll x1 + szOption szGroupGraphPattern x2 + szSolutionModifier x3
def szSubConstruct : SubConstruct → Nat
  | ⟨x0, x1, x2, x3⟩ => 1 + szList szTriplesSameSubject x0 + szList szDefaultOrNamedIri x1 + szGroupGraphPattern x2 + szSolutionModifier x3
def szSubTriples : SubTriples → Nat
  | ⟨x0, x1, x2⟩ => 1 + szList szDefaultOrNamedIri x0 + szOption (szList szTriplesSameSubject) x1 + szSolutionModifier x2
def szConstructQuery : ConstructQuery → Nat
  | .subConstruct x0 => 1 + szSubConstruct x0
  | .subTriples x0 => 1 + szSubTriples x0
def szSparqlQuery : SparqlQuery → Nat
  | .ask x0 => 1 + szAskQuery x0
  | .select x0 => 1 + szSelectQuery x0
  | .describe x0 => 1 + szDescribeQuery x0
  | .construct x0 => 1 + szConstructQuery x0
def szSparqlQueryStatement : SparqlQueryStatement → Nat
  | ⟨x0, x1, x2⟩ => 1 + szPrologue x0 + szSparqlQuery x1 + szOption szDataBlock x2
def szGraphOrDefault : GraphOrDefault → Nat
  | .graph x0 => 1 + szIri x0
  | .default => 1
def szGraphRefAll : GraphRefAll → Nat
  | .graphRef x0 => 1 + szIri x0
  | .default => 1
  | .named => 1
  | .all => 1
def szLoadStatement : LoadStatement → Nat
  | ⟨x0, _, x2⟩ => 1 + szIri x0 + szOption szIri x2
def szClearStatement : ClearStatement → Nat
  | ⟨_, x1⟩ => 1 + szGraphRefAll x1
def szDropStatement : DropStatement → Nat
  | ⟨_, x1⟩ => 1 + szGraphRefAll x1
def szCreateStatement : CreateStatement → Nat
  | ⟨_, x1⟩ => 1 + szIri x1
def szAddStatement : AddStatement → Nat
  | ⟨_, x1, x2⟩ => 1 + szGraphOrDefault x1 + szGraphOrDefault x2
def szMoveStatement : MoveStatement → Nat
  | ⟨_, x1, x2⟩ => 1 + szGraphOrDefault x1 + szGraphOrDefault x2
def szCopyStatement : CopyStatement → Nat
  | ⟨_, x1, x2⟩ => 1 + szGraphOrDefault x1 + szGraphOrDefault x2
def szDeleteInsert : DeleteInsert → Nat
  | .deleteInsert x0 x1 => 1 + szQuads x0 + szOption szQuads x1
  | .insert x0 => 1 + szQuads x0
def szModifyStatement : ModifyStatement → Nat
  | ⟨x0, x1, x2, x3⟩ => 1 + szOption szIri x0 + szDeleteInsert x1 + szList szDefaultOrNamedIri x2 + szGroupGraphPattern x3
def szUpdateStatement : UpdateStatement → Nat
  | .load x0 => 1 + szLoadStatement x0
  | .clear x0 => 1 + szClearStatement x0
  | .drop x0 => 1 + szDropStatement x0
  | .create x0 => 1 + szCreateStatement x0
  | .add x0 => 1 + szAddStatement x0
  | .move x0 => 1 + szMoveStatement x0
  | .copy x0 => 1 + szCopyStatement x0
  | .insertData x0 => 1 + szQuads x0
  | .deleteData x0 => 1 + szQuads x0
  | .deleteWhere x0 => 1 + szQuads x0
  | .modify x0 => 1 + szModifyStatement x0
def szUpdate : Update → Nat
  | .mk x0 x1 none => 1 + szPrologue x0 + szOption szUpdateStatement x1
  | .mk x0 x1 (some x2) => 1 + szPrologue x0 + szOption szUpdateStatement x1 + szUpdate x2

/-- The size of a value. -/
class Size (α : Type) where
  size : α → Nat
export Size (size)

instance [Size α] : Size (List α) := ⟨szList size⟩
instance [Size α] : Size (Option α) := ⟨szOption size⟩
instance : Size Bool := ⟨fun _ => 0⟩
instance : Size Var := ⟨szVar⟩
instance : Size PrefixedName := ⟨szPrefixedName⟩
instance : Size Iri := ⟨szIri⟩
instance : Size DefaultOrNamedIri := ⟨szDefaultOrNamedIri⟩
instance : Size RdfLiteralDescriptor := ⟨szRdfLiteralDescriptor⟩
instance : Size RdfLiteral := ⟨szRdfLiteral⟩
instance : Size StringLiteral := ⟨szStringLiteral⟩
instance : Size Decimal := ⟨szDecimal⟩
instance : Size NumericLiteral := ⟨szNumericLiteral⟩
instance : Size BlankNode := ⟨szBlankNode⟩
instance : Size GraphTerm := ⟨szGraphTerm⟩
instance : Size VarOrIri := ⟨szVarOrIri⟩
instance : Size VarOrTerm := ⟨szVarOrTerm⟩
instance : Size VarOrIrisOrAll := ⟨szVarOrIrisOrAll⟩
instance : Size Verb := ⟨szVerb⟩
instance : Size Sign := ⟨szSign⟩
instance : Size PrefixDecl := ⟨szPrefixDecl⟩
instance : Size BaseOrPrefixDecl := ⟨szBaseOrPrefixDecl⟩
instance : Size Prologue := ⟨szPrologue⟩
instance : Size DataBlockValue := ⟨szDataBlockValue⟩
instance : Size InlineDataOneVar := ⟨szInlineDataOneVar⟩
instance : Size InlineDataFull := ⟨szInlineDataFull⟩
instance : Size DataBlock := ⟨szDataBlock⟩
instance : Size GraphNode := ⟨szGraphNode⟩
instance : Size TriplesNode := ⟨szTriplesNode⟩
instance : Size PropertyList := ⟨szPropertyList⟩
instance : Size VerbList := ⟨szVerbList⟩
instance : Size TriplesSameSubject := ⟨szTriplesSameSubject⟩
instance : Size QuadsNotTriples := ⟨szQuadsNotTriples⟩
instance : Size QuadsEntry := ⟨szQuadsEntry⟩
instance : Size Quads := ⟨szQuads⟩
instance : Size IriOrA := ⟨szIriOrA⟩
instance : Size IriOrAOrCaret := ⟨szIriOrAOrCaret⟩
instance : Size PathMod := ⟨szPathMod⟩
instance : Size PathAlternative := ⟨szPathAlternative⟩
instance : Size PathSequence := ⟨szPathSequence⟩
instance : Size PathEltOrInverse := ⟨szPathEltOrInverse⟩
instance : Size PathElt := ⟨szPathElt⟩
instance : Size PathPrimary := ⟨szPathPrimary⟩
instance : Size VerbPathOrSimple := ⟨szVerbPathOrSimple⟩
instance : Size PropertyListPathEntry := ⟨szPropertyListPathEntry⟩
instance : Size GraphNodePath := ⟨szGraphNodePath⟩
instance : Size TriplesNodePath := ⟨szTriplesNodePath⟩
instance : Size PropertyListPath := ⟨szPropertyListPath⟩
instance : Size TriplesSameSubjectPath := ⟨szTriplesSameSubjectPath⟩
instance : Size TriplesBlock := ⟨szTriplesBlock⟩
instance : Size Order := ⟨szOrder⟩
instance : Size LimitOffsetClause := ⟨szLimitOffsetClause⟩
instance : Size SelectModifier := ⟨szSelectModifier⟩
instance : Size Expression := ⟨szExpression⟩
instance : Size ConditionalAndExpression := ⟨szConditionalAndExpression⟩
instance : Size RelationalExpression := ⟨szRelationalExpression⟩
instance : Size OpExpression := ⟨szOpExpression⟩
instance : Size AdditiveExpression := ⟨szAdditiveExpression⟩
instance : Size AddExpression := ⟨szAddExpression⟩
instance : Size MultiplicativeExpression := ⟨szMultiplicativeExpression⟩
instance : Size MultExpression := ⟨szMultExpression⟩
instance : Size UnaryExpression := ⟨szUnaryExpression⟩
instance : Size PrimaryExpression := ⟨szPrimaryExpression⟩
instance : Size ExpressionList := ⟨szExpressionList⟩
instance : Size IriOrFunction := ⟨szIriOrFunction⟩
instance : Size ArgList := ⟨szArgList⟩
instance : Size DistinctExpression := ⟨szDistinctExpression⟩
instance : Size ExpressionAsVar := ⟨szExpressionAsVar⟩
instance : Size ExpressionAsVarOpt := ⟨szExpressionAsVarOpt⟩
instance : Size RegexExpression := ⟨szRegexExpression⟩
instance : Size StrReplaceExpression := ⟨szStrReplaceExpression⟩
instance : Size Constraint := ⟨szConstraint⟩
instance : Size FunctionCall := ⟨szFunctionCall⟩
instance : Size BuiltInCall := ⟨szBuiltInCall⟩
instance : Size Aggregate := ⟨szAggregate⟩
instance : Size Count := ⟨szCount⟩
instance : Size CountTarget := ⟨szCountTarget⟩
instance : Size GroupConcat := ⟨szGroupConcat⟩
instance : Size GroupGraphPattern := ⟨szGroupGraphPattern⟩
instance : Size GroupGraphPatternSub := ⟨szGroupGraphPatternSub⟩
instance : Size GraphPatternAndTriples := ⟨szGraphPatternAndTriples⟩
instance : Size GraphPatternNotTriples := ⟨szGraphPatternNotTriples⟩
instance : Size GraphGraphPattern := ⟨szGraphGraphPattern⟩
instance : Size ServiceGraphPattern := ⟨szServiceGraphPattern⟩
instance : Size SubSelect := ⟨szSubSelect⟩
instance : Size SelectClause := ⟨szSelectClause⟩
instance : Size SelectVars := ⟨szSelectVars⟩
instance : Size VarOrExpressionAsVar := ⟨szVarOrExpressionAsVar⟩
instance : Size SolutionModifier := ⟨szSolutionModifier⟩
instance : Size HavingClause := ⟨szHavingClause⟩
instance : Size OrderClause := ⟨szOrderClause⟩
instance : Size OrderCondition := ⟨szOrderCondition⟩
instance : Size OrderExpression := ⟨szOrderExpression⟩
instance : Size GroupClause := ⟨szGroupClause⟩
instance : Size GroupCondition := ⟨szGroupCondition⟩
instance : Size SelectQuery := ⟨szSelectQuery⟩
instance : Size AskQuery := ⟨szAskQuery⟩
instance : Size DescribeQuery := ⟨szDescribeQuery⟩
instance : Size SubConstruct := ⟨szSubConstruct⟩
instance : Size SubTriples := ⟨szSubTriples⟩
instance : Size ConstructQuery := ⟨szConstructQuery⟩
instance : Size SparqlQuery := ⟨szSparqlQuery⟩
instance : Size SparqlQueryStatement := ⟨szSparqlQueryStatement⟩
instance : Size GraphOrDefault := ⟨szGraphOrDefault⟩
instance : Size GraphRefAll := ⟨szGraphRefAll⟩
instance : Size LoadStatement := ⟨szLoadStatement⟩
instance : Size ClearStatement := ⟨szClearStatement⟩
instance : Size DropStatement := ⟨szDropStatement⟩
instance : Size CreateStatement := ⟨szCreateStatement⟩
instance : Size AddStatement := ⟨szAddStatement⟩
instance : Size MoveStatement := ⟨szMoveStatement⟩
instance : Size CopyStatement := ⟨szCopyStatement⟩
instance : Size DeleteInsert := ⟨szDeleteInsert⟩
instance : Size ModifyStatement := ⟨szModifyStatement⟩
instance : Size UpdateStatement := ⟨szUpdateStatement⟩
instance : Size Update := ⟨szUpdate⟩

end NomSparql
