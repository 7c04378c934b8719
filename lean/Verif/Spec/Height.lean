import Verif.Model.Ast
import Verif.Spec.Brackets

/-!
# The height of a tree, and how deeply the brackets of a text are nested

The height counts the values of the types of the crate (src/) on the longest way from the root to a leaf; vectors, strings, numbers and flags belong to the
value that has them.  Code that walks the tree by recursion, such as the derived `Drop`, `Clone`, `PartialEq` and `Debug`, takes stack in proportion to it.
-/

namespace NomSparql

/-- The highest of the values in a `Vec`. -/
def htList (f : α → Nat) : List α → Nat
  | [] => 0
  | x :: l => max (f x) (htList f l)
def htOption (f : α → Nat) : Option α → Nat
  | none => 0
  | some x => f x

def htVar : Var → Nat
  | .qmark _ => 1
  | .dollar _ => 1
def htPrefixedName : PrefixedName → Nat
  | .pnameLN _ _ => 1
  | .pnameNS _ => 1
def htIri : Iri → Nat
  | .iri _ => 1
  | .prefixedName x0 => 1 + htPrefixedName x0
def htDefaultOrNamedIri : DefaultOrNamedIri → Nat
  | .default x0 => 1 + htIri x0
  | .named x0 => 1 + htIri x0
def htRdfLiteralDescriptor : RdfLiteralDescriptor → Nat
  | .langTag _ => 1
  | .iriRef x0 => 1 + htIri x0
def htRdfLiteral : RdfLiteral → Nat
  | ⟨_, x1⟩ => 1 + htOption htRdfLiteralDescriptor x1
def htStringLiteral : StringLiteral → Nat
  | .simple _ => 1
  | .language _ _ => 1
  | .typed _ => 1
def htDecimal : Decimal → Nat
  | ⟨_, _, _⟩ => 1
def htNumericLiteral : NumericLiteral → Nat
  | .int _ => 1
  | .double x0 _ => 1 + htDecimal x0
def htBlankNode : BlankNode → Nat
  | .anon => 1
  | .label _ => 1
def htGraphTerm : GraphTerm → Nat
  | .iri x0 => 1 + htIri x0
  | .rdfLiteral x0 => 1 + htRdfLiteral x0
  | .numericLiteral x0 => 1 + htNumericLiteral x0
  | .booleanLiteral _ => 1
  | .blankNode x0 => 1 + htBlankNode x0
  | .nil => 1
def htVarOrIri : VarOrIri → Nat
  | .var x0 => 1 + htVar x0
  | .iri x0 => 1 + htIri x0
def htVarOrTerm : VarOrTerm → Nat
  | .var x0 => 1 + htVar x0
  | .term x0 => 1 + htGraphTerm x0
def htVarOrIrisOrAll : VarOrIrisOrAll → Nat
  | .varIri x0 => 1 + htList htVarOrIri x0
  | .all => 1
def htVerb : Verb → Nat
  | .varOrIri x0 => 1 + htVarOrIri x0
  | .a => 1
def htSign : Sign → Nat
  | .pos => 1
  | .neg => 1
def htPrefixDecl : PrefixDecl → Nat
  | ⟨_, _⟩ => 1
def htBaseOrPrefixDecl : BaseOrPrefixDecl → Nat
  | .base _ => 1
  | .prefix x0 => 1 + htPrefixDecl x0
def htPrologue : Prologue → Nat
  | ⟨x0⟩ => 1 + htList htBaseOrPrefixDecl x0
def htDataBlockValue : DataBlockValue → Nat
  | .iri x0 => 1 + htIri x0
  | .rdfLiteral x0 => 1 + htRdfLiteral x0
  | .numericLiteral x0 => 1 + htNumericLiteral x0
  | .booleanLiteral _ => 1
  | .undef => 1
def htInlineDataOneVar : InlineDataOneVar → Nat
  | ⟨x0, x1⟩ => 1 + max (htVar x0) (htList htDataBlockValue x1)
def htInlineDataFull : InlineDataFull → Nat
  | ⟨x0, x1⟩ => 1 + max (htList htVar x0) (htList (htList htDataBlockValue) x1)
def htDataBlock : DataBlock → Nat
  | .inlineDataOneVar x0 => 1 + htInlineDataOneVar x0
  | .inlineDataFull x0 => 1 + htInlineDataFull x0
mutual
def htGraphNode : GraphNode → Nat
  | .varOrTerm x0 => 1 + htVarOrTerm x0
  | .triplesNode x0 => 1 + htTriplesNode x0
def htTriplesNode : TriplesNode → Nat
  | .collection x0 => 1 + htListGraphNode x0
  | .blankNodePropertyList x0 => 1 + htPropertyList x0
def htPropertyList : PropertyList → Nat
  | .mk x0 => 1 + htListVerbList x0
def htVerbList : VerbList → Nat
  | .mk x0 x1 => 1 + max (htVerb x0) (htListGraphNode x1)
def htListGraphNode : List GraphNode → Nat
  | [] => 0
  | x :: l => max (htGraphNode x) (htListGraphNode l)
def htListVerbList : List VerbList → Nat
  | [] => 0
  | x :: l => max (htVerbList x) (htListVerbList l)
end
@[simp] theorem htListGraphNode_eq (l : List GraphNode) : htListGraphNode l = htList htGraphNode l := by
  induction l with
  | nil => simp [htListGraphNode, htList]
  | cons a l ih => simp [htListGraphNode, htList, ih]
@[simp] theorem htListVerbList_eq (l : List VerbList) : htListVerbList l = htList htVerbList l := by
  induction l with
  | nil => simp [htListVerbList, htList]
  | cons a l ih => simp [htListVerbList, htList, ih]
def htTriplesSameSubject : TriplesSameSubject → Nat
  | .term x0 x1 => 1 + max (htVarOrTerm x0) (htPropertyList x1)
  | .node x0 x1 => 1 + max (htTriplesNode x0) (htOption htPropertyList x1)
def htQuadsNotTriples : QuadsNotTriples → Nat
  | ⟨x0, x1⟩ => 1 + max (htVarOrIri x0) (htOption (htList htTriplesSameSubject) x1)
def htQuadsEntry : QuadsEntry → Nat
  | ⟨x0, x1⟩ => 1 + max (htQuadsNotTriples x0) (htOption (htList htTriplesSameSubject) x1)
def htQuads : Quads → Nat
  | ⟨x0, x1⟩ => 1 + max (htOption (htList htTriplesSameSubject) x0) (htList htQuadsEntry x1)
def htIriOrA : IriOrA → Nat
  | .iri x0 => 1 + htIri x0
  | .a => 1
def htIriOrAOrCaret : IriOrAOrCaret → Nat
  | .iriOrA x0 => 1 + htIriOrA x0
  | .caret x0 => 1 + htIriOrA x0
def htPathMod : PathMod → Nat
  | .questionMark => 1
  | .asterisk => 1
  | .plus => 1
mutual
def htPathAlternative : PathAlternative → Nat
  | .mk x0 => 1 + htListPathSequence x0
def htPathSequence : PathSequence → Nat
  | .mk x0 => 1 + htListPathEltOrInverse x0
def htPathEltOrInverse : PathEltOrInverse → Nat
  | .pathElt x0 => 1 + htPathElt x0
  | .inverse x0 => 1 + htPathElt x0
def htPathElt : PathElt → Nat
  | .mk x0 x1 => 1 + max (htPathPrimary x0) (htOption htPathMod x1)
def htPathPrimary : PathPrimary → Nat
  | .iri x0 => 1 + htIri x0
  | .a => 1
  | .pathNegatedPropertySet x0 => 1 + htList htIriOrAOrCaret x0
  | .path x0 => 1 + htPathAlternative x0
def htListPathSequence : List PathSequence → Nat
  | [] => 0
  | x :: l => max (htPathSequence x) (htListPathSequence l)
def htListPathEltOrInverse : List PathEltOrInverse → Nat
  | [] => 0
  | x :: l => max (htPathEltOrInverse x) (htListPathEltOrInverse l)
end
@[simp] theorem htListPathSequence_eq (l : List PathSequence) : htListPathSequence l = htList htPathSequence l := by
  induction l with
  | nil => simp [htListPathSequence, htList]
  | cons a l ih => simp [htListPathSequence, htList, ih]
@[simp] theorem htListPathEltOrInverse_eq (l : List PathEltOrInverse) : htListPathEltOrInverse l = htList htPathEltOrInverse l := by
  induction l with
  | nil => simp [htListPathEltOrInverse, htList]
  | cons a l ih => simp [htListPathEltOrInverse, htList, ih]
def htVerbPathOrSimple : VerbPathOrSimple → Nat
  | .path x0 => 1 + htPathAlternative x0
  | .simple x0 => 1 + htVar x0
def htPropertyListPathEntry : PropertyListPathEntry → Nat
  | ⟨x0, x1⟩ => 1 + max (htVerbPathOrSimple x0) (htList htGraphNode x1)
mutual
def htGraphNodePath : GraphNodePath → Nat
  | .varOrTerm x0 => 1 + htVarOrTerm x0
  | .triplesNodePath x0 => 1 + htTriplesNodePath x0
def htTriplesNodePath : TriplesNodePath → Nat
  | .collectionPath x0 => 1 + htListGraphNodePath x0
  | .blankNodePropertyListPath x0 => 1 + htPropertyListPath x0
def htPropertyListPath : PropertyListPath → Nat
  | .mk x0 x1 x2 => 1 + max (htVerbPathOrSimple x0) (max (htListGraphNodePath x1) (htList htPropertyListPathEntry x2))
def htListGraphNodePath : List GraphNodePath → Nat
  | [] => 0
  | x :: l => max (htGraphNodePath x) (htListGraphNodePath l)
end
@[simp] theorem htListGraphNodePath_eq (l : List GraphNodePath) : htListGraphNodePath l = htList htGraphNodePath l := by
  induction l with
  | nil => simp [htListGraphNodePath, htList]
  | cons a l ih => simp [htListGraphNodePath, htList, ih]
def htTriplesSameSubjectPath : TriplesSameSubjectPath → Nat
  | .term x0 x1 => 1 + max (htVarOrTerm x0) (htPropertyListPath x1)
  | .node x0 x1 => 1 + max (htTriplesNodePath x0) (htOption htPropertyListPath x1)
def htTriplesBlock : TriplesBlock → Nat
  | ⟨x0⟩ => 1 + htList htTriplesSameSubjectPath x0
def htOrder : Order → Nat
  | .asc => 1
  | .desc => 1
def htLimitOffsetClause : LimitOffsetClause → Nat
  | .limitOffset _ _ => 1
  | .offsetLimit _ _ => 1
def htSelectModifier : SelectModifier → Nat
  | .distinct => 1
  | .reduced => 1
mutual
def htExpression : Expression → Nat
  | .mk x0 => 1 + htListConditionalAndExpression x0
def htConditionalAndExpression : ConditionalAndExpression → Nat
  | .mk x0 => 1 + htListRelationalExpression x0
def htRelationalExpression : RelationalExpression → Nat
  | .mk x0 x1 => 1 + max (htAdditiveExpression x0) (htOptionOpExpression x1)
def htOpExpression : OpExpression → Nat
  | .eq x0 => 1 + htAdditiveExpression x0
  | .ne x0 => 1 + htAdditiveExpression x0
  | .lt x0 => 1 + htAdditiveExpression x0
  | .gt x0 => 1 + htAdditiveExpression x0
  | .le x0 => 1 + htAdditiveExpression x0
  | .ge x0 => 1 + htAdditiveExpression x0
  | .in x0 => 1 + htExpressionList x0
  | .nin x0 => 1 + htExpressionList x0
def htAdditiveExpression : AdditiveExpression → Nat
  | .mk x0 x1 => 1 + max (htMultiplicativeExpression x0) (htListAddExpression x1)
def htAddExpression : AddExpression → Nat
  | .add x0 => 1 + htMultiplicativeExpression x0
  | .sub x0 => 1 + htMultiplicativeExpression x0
  | .numeric x0 x1 => 1 + max (htNumericLiteral x0) (htListMultExpression x1)
def htMultiplicativeExpression : MultiplicativeExpression → Nat
  | .mk x0 x1 => 1 + max (htUnaryExpression x0) (htListMultExpression x1)
def htMultExpression : MultExpression → Nat
  | .mult x0 => 1 + htUnaryExpression x0
  | .div x0 => 1 + htUnaryExpression x0
def htUnaryExpression : UnaryExpression → Nat
  | .not x0 => 1 + htPrimaryExpression x0
  | .add x0 => 1 + htPrimaryExpression x0
  | .sub x0 => 1 + htPrimaryExpression x0
  | .default x0 => 1 + htPrimaryExpression x0
def htPrimaryExpression : PrimaryExpression → Nat
  | .brackettedExpression x0 => 1 + htExpression x0
  | .builtInCall x0 => 1 + htBuiltInCall x0
  | .iriOrFunction x0 => 1 + htIriOrFunction x0
  | .rdfLiteral x0 => 1 + htRdfLiteral x0
  | .numericLiteral x0 => 1 + htNumericLiteral x0
  | .booleanLiteral _ => 1
  | .var x0 => 1 + htVar x0
def htExpressionList : ExpressionList → Nat
  | .nil => 1
  | .list x0 => 1 + htListExpression x0
def htIriOrFunction : IriOrFunction → Nat
  | .mk x0 x1 => 1 + max (htIri x0) (htOptionArgList x1)
def htArgList : ArgList → Nat
  | .nil => 1
  | .expression _ x1 => 1 + htListExpression x1
def htDistinctExpression : DistinctExpression → Nat
  | .mk _ x1 => 1 + htExpression x1
def htExpressionAsVar : ExpressionAsVar → Nat
  | .mk x0 x1 => 1 + max (htExpression x0) (htVar x1)
def htExpressionAsVarOpt : ExpressionAsVarOpt → Nat
  | .mk x0 x1 => 1 + max (htExpression x0) (htOption htVar x1)
def htRegexExpression : RegexExpression → Nat
  | .mk x0 x1 x2 => 1 + max (htExpression x0) (max (htExpression x1) (htOptionExpression x2))
def htStrReplaceExpression : StrReplaceExpression → Nat
  | .mk x0 x1 x2 x3 => 1 + max (htExpression x0) (max (htExpression x1) (max (htExpression x2) (htOptionExpression x3)))
def htConstraint : Constraint → Nat
  | .bracketted x0 => 1 + htExpression x0
  | .builtInCall x0 => 1 + htBuiltInCall x0
  | .functionCall x0 => 1 + htFunctionCall x0
def htFunctionCall : FunctionCall → Nat
  | .mk x0 x1 => 1 + max (htIri x0) (htArgList x1)
def htBuiltInCall : BuiltInCall → Nat
  | .aggregate x0 => 1 + htAggregate x0
  | .str x0 => 1 + htExpression x0
  | .lang x0 => 1 + htExpression x0
  | .langMatches x0 x1 => 1 + max (htExpression x0) (htExpression x1)
  | .datatype x0 => 1 + htExpression x0
  | .bound x0 => 1 + htVar x0
  | .iri x0 => 1 + htExpression x0
  | .uri x0 => 1 + htExpression x0
  | .bnode x0 => 1 + htOptionExpression x0
  | .rand => 1
  | .abs x0 => 1 + htExpression x0
  | .ceil x0 => 1 + htExpression x0
  | .floor x0 => 1 + htExpression x0
  | .round x0 => 1 + htExpression x0
  | .concat x0 x1 => 1 + max (htExpressionList x0) (htRegexExpression x1)
  | .strLen x0 x1 => 1 + max (htExpression x0) (htStrReplaceExpression x1)
  | .uCase x0 => 1 + htExpression x0
  | .lCase x0 => 1 + htExpression x0
  | .encodeForUri x0 => 1 + htExpression x0
  | .contains x0 x1 => 1 + max (htExpression x0) (htExpression x1)
  | .strStarts x0 x1 => 1 + max (htExpression x0) (htExpression x1)
  | .strEnds x0 x1 => 1 + max (htExpression x0) (htExpression x1)
  | .strBefore x0 x1 => 1 + max (htExpression x0) (htExpression x1)
  | .strAfter x0 x1 => 1 + max (htExpression x0) (htExpression x1)
  | .year x0 => 1 + htExpression x0
  | .month x0 => 1 + htExpression x0
  | .day x0 => 1 + htExpression x0
  | .hours x0 => 1 + htExpression x0
  | .minutes x0 => 1 + htExpression x0
  | .seconds x0 => 1 + htExpression x0
  | .timezone x0 => 1 + htExpression x0
  | .tz x0 => 1 + htExpression x0
  | .now => 1
  | .uuid => 1
  | .strUuid => 1
  | .md5 x0 => 1 + htExpression x0
  | .sha1 x0 => 1 + htExpression x0
  | .sha256 x0 => 1 + htExpression x0
  | .sha384 x0 => 1 + htExpression x0
  | .sha512 x0 => 1 + htExpression x0
  | .coalesce x0 => 1 + htExpressionList x0
  | .if x0 x1 x2 => 1 + max (htExpression x0) (max (htExpression x1) (htExpression x2))
  | .strLang x0 x1 => 1 + max (htExpression x0) (htExpression x1)
  | .strDt x0 x1 => 1 + max (htExpression x0) (htExpression x1)
  | .sameTerm x0 x1 => 1 + max (htExpression x0) (htExpression x1)
  | .isIri x0 => 1 + htExpression x0
  | .isUri x0 => 1 + htExpression x0
  | .isBlank x0 => 1 + htExpression x0
  | .isLiteral x0 => 1 + htExpression x0
  | .isNumeric x0 => 1 + htExpression x0
  | .regex x0 => 1 + htRegexExpression x0
  | .existsFunc x0 => 1 + htGroupGraphPattern x0
  | .notExistsFunc x0 => 1 + htGroupGraphPattern x0
def htAggregate : Aggregate → Nat
  | .count x0 => 1 + htCount x0
  | .sum x0 => 1 + htDistinctExpression x0
  | .min x0 => 1 + htDistinctExpression x0
  | .max x0 => 1 + htDistinctExpression x0
  | .avg x0 => 1 + htDistinctExpression x0
  | .sample x0 => 1 + htDistinctExpression x0
  | .groupConcat x0 => 1 + htGroupConcat x0
def htCount : Count → Nat
  | .mk _ x1 => 1 + htCountTarget x1
def htCountTarget : CountTarget → Nat
  | .all => 1
  | .expr x0 => 1 + htExpression x0
def htGroupConcat : GroupConcat → Nat
  | .mk x0 _ => 1 + htDistinctExpression x0
def htGroupGraphPattern : GroupGraphPattern → Nat
  | .subSelect x0 => 1 + htSubSelect x0
  | .groupGraphPatternSub x0 => 1 + htGroupGraphPatternSub x0
def htGroupGraphPatternSub : GroupGraphPatternSub → Nat
  | .mk x0 x1 => 1 + max (htOption htTriplesBlock x0) (htListGraphPatternAndTriples x1)
def htGraphPatternAndTriples : GraphPatternAndTriples → Nat
  | .mk x0 x1 => 1 + max (htGraphPatternNotTriples x0) (htOption htTriplesBlock x1)
def htGraphPatternNotTriples : GraphPatternNotTriples → Nat
  | .optional x0 => 1 + htGroupGraphPattern x0
  | .groupOrUnion x0 => 1 + htListGroupGraphPattern x0
  | .minus x0 => 1 + htGroupGraphPattern x0
  | .graph x0 => 1 + htGraphGraphPattern x0
  | .service x0 => 1 + htServiceGraphPattern x0
  | .filter x0 => 1 + htConstraint x0
  | .bind x0 => 1 + htExpressionAsVar x0
  | .inlineData x0 => 1 + htDataBlock x0
def htGraphGraphPattern : GraphGraphPattern → Nat
  | .mk x0 x1 => 1 + max (htVarOrIri x0) (htGroupGraphPattern x1)
def htServiceGraphPattern : ServiceGraphPattern → Nat
  | .mk x0 _ x2 => 1 + max (htVarOrIri x0) (htGroupGraphPattern x2)
def htSubSelect : SubSelect → Nat
  | .mk x0 x1 x2 x3 => 1 + max (htSelectClause x0) (max (htGroupGraphPattern x1) (max (htSolutionModifier x2) (htOption htDataBlock x3)))
def htSelectClause : SelectClause → Nat
  | .mk x0 x1 => 1 + max (htOption htSelectModifier x0) (htSelectVars x1)
def htSelectVars : SelectVars → Nat
  | .varOrExpressionAsVar x0 => 1 + htListVarOrExpressionAsVar x0
  | .all => 1
def htVarOrExpressionAsVar : VarOrExpressionAsVar → Nat
  | .var x0 => 1 + htVar x0
  | .expressionAsVar x0 => 1 + htExpressionAsVar x0
def htSolutionModifier : SolutionModifier → Nat
  | .mk x0 x1 x2 x3 => 1 + max (htOptionOrderClause x0) (max (htOptionGroupClause x1) (max (htOptionHavingClause x2) (htOption htLimitOffsetClause x3)))
def htHavingClause : HavingClause → Nat
  | .mk x0 => 1 + htListConstraint x0
def htOrderClause : OrderClause → Nat
  | .mk x0 => 1 + htListOrderCondition x0
def htOrderCondition : OrderCondition → Nat
  | .order x0 => 1 + htOrderExpression x0
  | .constraint x0 => 1 + htConstraint x0
  | .var x0 => 1 + htVar x0
def htOrderExpression : OrderExpression → Nat
  | .mk x0 x1 => 1 + max (htOrder x0) (htExpression x1)
def htGroupClause : GroupClause → Nat
  | .mk x0 => 1 + htListGroupCondition x0
def htGroupCondition : GroupCondition → Nat
  | .builtInCall x0 => 1 + htBuiltInCall x0
  | .functionCall x0 => 1 + htFunctionCall x0
  | .expressionAsVarOpt x0 => 1 + htExpressionAsVarOpt x0
  | .var x0 => 1 + htVar x0
def htListConditionalAndExpression : List ConditionalAndExpression → Nat
  | [] => 0
  | x :: l => max (htConditionalAndExpression x) (htListConditionalAndExpression l)
def htListRelationalExpression : List RelationalExpression → Nat
  | [] => 0
  | x :: l => max (htRelationalExpression x) (htListRelationalExpression l)
def htOptionOpExpression : Option OpExpression → Nat
  | none => 0
  | some x => htOpExpression x
def htListAddExpression : List AddExpression → Nat
  | [] => 0
  | x :: l => max (htAddExpression x) (htListAddExpression l)
def htListMultExpression : List MultExpression → Nat
  | [] => 0
  | x :: l => max (htMultExpression x) (htListMultExpression l)
def htListExpression : List Expression → Nat
  | [] => 0
  | x :: l => max (htExpression x) (htListExpression l)
def htOptionArgList : Option ArgList → Nat
  | none => 0
  | some x => htArgList x
def htOptionExpression : Option Expression → Nat
  | none => 0
  | some x => htExpression x
def htListGraphPatternAndTriples : List GraphPatternAndTriples → Nat
  | [] => 0
  | x :: l => max (htGraphPatternAndTriples x) (htListGraphPatternAndTriples l)
def htListGroupGraphPattern : List GroupGraphPattern → Nat
  | [] => 0
  | x :: l => max (htGroupGraphPattern x) (htListGroupGraphPattern l)
def htListVarOrExpressionAsVar : List VarOrExpressionAsVar → Nat
  | [] => 0
  | x :: l => max (htVarOrExpressionAsVar x) (htListVarOrExpressionAsVar l)
def htOptionOrderClause : Option OrderClause → Nat
  | none => 0
  | some x => htOrderClause x
def htOptionGroupClause : Option GroupClause → Nat
  | none => 0
  | some x => htGroupClause x
def htOptionHavingClause : Option HavingClause → Nat
  | none => 0
  | some x => htHavingClause x
def htListConstraint : List Constraint → Nat
  | [] => 0
  | x :: l => max (htConstraint x) (htListConstraint l)
def htListOrderCondition : List OrderCondition → Nat
  | [] => 0
  | x :: l => max (htOrderCondition x) (htListOrderCondition l)
def htListGroupCondition : List GroupCondition → Nat
  | [] => 0
  | x :: l => max (htGroupCondition x) (htListGroupCondition l)
end
@[simp] theorem htListConditionalAndExpression_eq (l : List ConditionalAndExpression) : htListConditionalAndExpression l = htList htConditionalAndExpression l := by
  induction l with
  | nil => simp [htListConditionalAndExpression, htList]
  | cons a l ih => simp [htListConditionalAndExpression, htList, ih]
@[simp] theorem htListRelationalExpression_eq (l : List RelationalExpression) : htListRelationalExpression l = htList htRelationalExpression l := by
  induction l with
  | nil => simp [htListRelationalExpression, htList]
  | cons a l ih => simp [htListRelationalExpression, htList, ih]
@[simp] theorem htOptionOpExpression_eq (l : Option OpExpression) : htOptionOpExpression l = htOption htOpExpression l := by cases l <;> simp [htOptionOpExpression, htOption]
@[simp] theorem htListAddExpression_eq (l : List AddExpression) : htListAddExpression l = htList htAddExpression l := by
  induction l with
  | nil => simp [htListAddExpression, htList]
  | cons a l ih => simp [htListAddExpression, htList, ih]
@[simp] theorem htListMultExpression_eq (l : List MultExpression) : htListMultExpression l = htList htMultExpression l := by
  induction l with
  | nil => simp [htListMultExpression, htList]
  | cons a l ih => simp [htListMultExpression, htList, ih]
@[simp] theorem htListExpression_eq (l : List Expression) : htListExpression l = htList htExpression l := by
  induction l with
  | nil => simp [htListExpression, htList]
  | cons a l ih => simp [htListExpression, htList, ih]
@[simp] theorem htOptionArgList_eq (l : Option ArgList) : htOptionArgList l = htOption htArgList l := by cases l <;> simp [htOptionArgList, htOption]
@[simp] theorem htOptionExpression_eq (l : Option Expression) : htOptionExpression l = htOption htExpression l := by cases l <;> simp [htOptionExpression, htOption]
@[simp] theorem htListGraphPatternAndTriples_eq (l : List GraphPatternAndTriples) : htListGraphPatternAndTriples l = htList htGraphPatternAndTriples l := by
  induction l with
  | nil => simp [htListGraphPatternAndTriples, htList]
  | cons a l ih => simp [htListGraphPatternAndTriples, htList, ih]
@[simp] theorem htListGroupGraphPattern_eq (l : List GroupGraphPattern) : htListGroupGraphPattern l = htList htGroupGraphPattern l := by
  induction l with
  | nil => simp [htListGroupGraphPattern, htList]
  | cons a l ih => simp [htListGroupGraphPattern, htList, ih]
@[simp] theorem htListVarOrExpressionAsVar_eq (l : List VarOrExpressionAsVar) : htListVarOrExpressionAsVar l = htList htVarOrExpressionAsVar l := by
  induction l with
  | nil => simp [htListVarOrExpressionAsVar, htList]
  | cons a l ih => simp [htListVarOrExpressionAsVar, htList, ih]
@[simp] theorem htOptionOrderClause_eq (l : Option OrderClause) : htOptionOrderClause l = htOption htOrderClause l := by cases l <;> simp [htOptionOrderClause, htOption]
@[simp] theorem htOptionGroupClause_eq (l : Option GroupClause) : htOptionGroupClause l = htOption htGroupClause l := by cases l <;> simp [htOptionGroupClause, htOption]
@[simp] theorem htOptionHavingClause_eq (l : Option HavingClause) : htOptionHavingClause l = htOption htHavingClause l := by cases l <;> simp [htOptionHavingClause, htOption]
@[simp] theorem htListConstraint_eq (l : List Constraint) : htListConstraint l = htList htConstraint l := by
  induction l with
  | nil => simp [htListConstraint, htList]
  | cons a l ih => simp [htListConstraint, htList, ih]
@[simp] theorem htListOrderCondition_eq (l : List OrderCondition) : htListOrderCondition l = htList htOrderCondition l := by
  induction l with
  | nil => simp [htListOrderCondition, htList]
  | cons a l ih => simp [htListOrderCondition, htList, ih]
@[simp] theorem htListGroupCondition_eq (l : List GroupCondition) : htListGroupCondition l = htList htGroupCondition l := by
  induction l with
  | nil => simp [htListGroupCondition, htList]
  | cons a l ih => simp [htListGroupCondition, htList, ih]
def htSelectQuery : SelectQuery → Nat
  | ⟨x0, x1, x2, x3⟩ => 1 + max (htSelectClause x0) (max (htList htDefaultOrNamedIri x1) (max (htGroupGraphPattern x2) (htSolutionModifier x3)))
def htAskQuery : AskQuery → Nat
  | ⟨x0, x1, x2⟩ => 1 + max (htList htDefaultOrNamedIri x0) (max (htGroupGraphPattern x1) (htSolutionModifier x2))
def htDescribeQuery : DescribeQuery → Nat
  | ⟨x0, x1, x2, x3⟩ => 1 + max (htList htDefaultOrNamedIri x0) (max (htVarOrIrisOrAll x1) (max (htOption htGroupGraphPattern x2) (htSolutionModifier x3)))
def htSubConstruct : SubConstruct → Nat
  | ⟨x0, x1, x2, x3⟩ => 1 + max (htList htTriplesSameSubject x0) (max (htList htDefaultOrNamedIri x1) (max (htGroupGraphPattern x2) (htSolutionModifier x3)))
def htSubTriples : SubTriples → Nat
  | ⟨x0, x1, x2⟩ => 1 + max (htList htDefaultOrNamedIri x0) (max (htOption (htList htTriplesSameSubject) x1) (htSolutionModifier x2))
def htConstructQuery : ConstructQuery → Nat
  | .subConstruct x0 => 1 + htSubConstruct x0
  | .subTriples x0 => 1 + htSubTriples x0
def htSparqlQuery : SparqlQuery → Nat
  | .ask x0 => 1 + htAskQuery x0
  | .select x0 => 1 + htSelectQuery x0
  | .describe x0 => 1 + htDescribeQuery x0
  | .construct x0 => 1 + htConstructQuery x0
def htSparqlQueryStatement : SparqlQueryStatement → Nat
  | ⟨x0, x1, x2⟩ => 1 + max (htPrologue x0) (max (htSparqlQuery x1) (htOption htDataBlock x2))
def htGraphOrDefault : GraphOrDefault → Nat
  | .graph x0 => 1 + htIri x0
  | .default => 1
def htGraphRefAll : GraphRefAll → Nat
  | .graphRef x0 => 1 + htIri x0
  | .default => 1
  | .named => 1
  | .all => 1
def htLoadStatement : LoadStatement → Nat
  | ⟨x0, _, x2⟩ => 1 + max (htIri x0) (htOption htIri x2)
def htClearStatement : ClearStatement → Nat
  | ⟨_, x1⟩ => 1 + htGraphRefAll x1
def htDropStatement : DropStatement → Nat
  | ⟨_, x1⟩ => 1 + htGraphRefAll x1
def htCreateStatement : CreateStatement → Nat
  | ⟨_, x1⟩ => 1 + htIri x1
def htAddStatement : AddStatement → Nat
  | ⟨_, x1, x2⟩ => 1 + max (htGraphOrDefault x1) (htGraphOrDefault x2)
def htMoveStatement : MoveStatement → Nat
  | ⟨_, x1, x2⟩ => 1 + max (htGraphOrDefault x1) (htGraphOrDefault x2)
def htCopyStatement : CopyStatement → Nat
  | ⟨_, x1, x2⟩ => 1 + max (htGraphOrDefault x1) (htGraphOrDefault x2)
def htDeleteInsert : DeleteInsert → Nat
  | .deleteInsert x0 x1 => 1 + max (htQuads x0) (htOption htQuads x1)
  | .insert x0 => 1 + htQuads x0
def htModifyStatement : ModifyStatement → Nat
  | ⟨x0, x1, x2, x3⟩ => 1 + max (htOption htIri x0) (max (htDeleteInsert x1) (max (htList htDefaultOrNamedIri x2) (htGroupGraphPattern x3)))
def htUpdateStatement : UpdateStatement → Nat
  | .load x0 => 1 + htLoadStatement x0
  | .clear x0 => 1 + htClearStatement x0
  | .drop x0 => 1 + htDropStatement x0
  | .create x0 => 1 + htCreateStatement x0
  | .add x0 => 1 + htAddStatement x0
  | .move x0 => 1 + htMoveStatement x0
  | .copy x0 => 1 + htCopyStatement x0
  | .insertData x0 => 1 + htQuads x0
  | .deleteData x0 => 1 + htQuads x0
  | .deleteWhere x0 => 1 + htQuads x0
  | .modify x0 => 1 + htModifyStatement x0
def htUpdate : Update → Nat
  | .mk x0 x1 none => 1 + max (htPrologue x0) (htOption htUpdateStatement x1)
  | .mk x0 x1 (some x2) => 1 + max (htPrologue x0) (max (htOption htUpdateStatement x1) (htUpdate x2))

/-- Types of values that have a height. -/
class Height (α : Type) where
  height : α → Nat
export Height (height)

instance [Height α] : Height (List α) := ⟨htList height⟩
instance [Height α] : Height (Option α) := ⟨htOption height⟩
instance : Height Var := ⟨htVar⟩
instance : Height PrefixedName := ⟨htPrefixedName⟩
instance : Height Iri := ⟨htIri⟩
instance : Height DefaultOrNamedIri := ⟨htDefaultOrNamedIri⟩
instance : Height RdfLiteralDescriptor := ⟨htRdfLiteralDescriptor⟩
instance : Height RdfLiteral := ⟨htRdfLiteral⟩
instance : Height StringLiteral := ⟨htStringLiteral⟩
instance : Height Decimal := ⟨htDecimal⟩
instance : Height NumericLiteral := ⟨htNumericLiteral⟩
instance : Height BlankNode := ⟨htBlankNode⟩
instance : Height GraphTerm := ⟨htGraphTerm⟩
instance : Height VarOrIri := ⟨htVarOrIri⟩
instance : Height VarOrTerm := ⟨htVarOrTerm⟩
instance : Height VarOrIrisOrAll := ⟨htVarOrIrisOrAll⟩
instance : Height Verb := ⟨htVerb⟩
instance : Height Sign := ⟨htSign⟩
instance : Height PrefixDecl := ⟨htPrefixDecl⟩
instance : Height BaseOrPrefixDecl := ⟨htBaseOrPrefixDecl⟩
instance : Height Prologue := ⟨htPrologue⟩
instance : Height DataBlockValue := ⟨htDataBlockValue⟩
instance : Height InlineDataOneVar := ⟨htInlineDataOneVar⟩
instance : Height InlineDataFull := ⟨htInlineDataFull⟩
instance : Height DataBlock := ⟨htDataBlock⟩
instance : Height GraphNode := ⟨htGraphNode⟩
instance : Height TriplesNode := ⟨htTriplesNode⟩
instance : Height PropertyList := ⟨htPropertyList⟩
instance : Height VerbList := ⟨htVerbList⟩
instance : Height TriplesSameSubject := ⟨htTriplesSameSubject⟩
instance : Height QuadsNotTriples := ⟨htQuadsNotTriples⟩
instance : Height QuadsEntry := ⟨htQuadsEntry⟩
instance : Height Quads := ⟨htQuads⟩
instance : Height IriOrA := ⟨htIriOrA⟩
instance : Height IriOrAOrCaret := ⟨htIriOrAOrCaret⟩
instance : Height PathMod := ⟨htPathMod⟩
instance : Height PathAlternative := ⟨htPathAlternative⟩
instance : Height PathSequence := ⟨htPathSequence⟩
instance : Height PathEltOrInverse := ⟨htPathEltOrInverse⟩
instance : Height PathElt := ⟨htPathElt⟩
instance : Height PathPrimary := ⟨htPathPrimary⟩
instance : Height VerbPathOrSimple := ⟨htVerbPathOrSimple⟩
instance : Height PropertyListPathEntry := ⟨htPropertyListPathEntry⟩
instance : Height GraphNodePath := ⟨htGraphNodePath⟩
instance : Height TriplesNodePath := ⟨htTriplesNodePath⟩
instance : Height PropertyListPath := ⟨htPropertyListPath⟩
instance : Height TriplesSameSubjectPath := ⟨htTriplesSameSubjectPath⟩
instance : Height TriplesBlock := ⟨htTriplesBlock⟩
instance : Height Order := ⟨htOrder⟩
instance : Height LimitOffsetClause := ⟨htLimitOffsetClause⟩
instance : Height SelectModifier := ⟨htSelectModifier⟩
instance : Height Expression := ⟨htExpression⟩
instance : Height ConditionalAndExpression := ⟨htConditionalAndExpression⟩
instance : Height RelationalExpression := ⟨htRelationalExpression⟩
instance : Height OpExpression := ⟨htOpExpression⟩
instance : Height AdditiveExpression := ⟨htAdditiveExpression⟩
instance : Height AddExpression := ⟨htAddExpression⟩
instance : Height MultiplicativeExpression := ⟨htMultiplicativeExpression⟩
instance : Height MultExpression := ⟨htMultExpression⟩
instance : Height UnaryExpression := ⟨htUnaryExpression⟩
instance : Height PrimaryExpression := ⟨htPrimaryExpression⟩
instance : Height ExpressionList := ⟨htExpressionList⟩
instance : Height IriOrFunction := ⟨htIriOrFunction⟩
instance : Height ArgList := ⟨htArgList⟩
instance : Height DistinctExpression := ⟨htDistinctExpression⟩
instance : Height ExpressionAsVar := ⟨htExpressionAsVar⟩
instance : Height ExpressionAsVarOpt := ⟨htExpressionAsVarOpt⟩
instance : Height RegexExpression := ⟨htRegexExpression⟩
instance : Height StrReplaceExpression := ⟨htStrReplaceExpression⟩
instance : Height Constraint := ⟨htConstraint⟩
instance : Height FunctionCall := ⟨htFunctionCall⟩
instance : Height BuiltInCall := ⟨htBuiltInCall⟩
instance : Height Aggregate := ⟨htAggregate⟩
instance : Height Count := ⟨htCount⟩
instance : Height CountTarget := ⟨htCountTarget⟩
instance : Height GroupConcat := ⟨htGroupConcat⟩
instance : Height GroupGraphPattern := ⟨htGroupGraphPattern⟩
instance : Height GroupGraphPatternSub := ⟨htGroupGraphPatternSub⟩
instance : Height GraphPatternAndTriples := ⟨htGraphPatternAndTriples⟩
instance : Height GraphPatternNotTriples := ⟨htGraphPatternNotTriples⟩
instance : Height GraphGraphPattern := ⟨htGraphGraphPattern⟩
instance : Height ServiceGraphPattern := ⟨htServiceGraphPattern⟩
instance : Height SubSelect := ⟨htSubSelect⟩
instance : Height SelectClause := ⟨htSelectClause⟩
instance : Height SelectVars := ⟨htSelectVars⟩
instance : Height VarOrExpressionAsVar := ⟨htVarOrExpressionAsVar⟩
instance : Height SolutionModifier := ⟨htSolutionModifier⟩
instance : Height HavingClause := ⟨htHavingClause⟩
instance : Height OrderClause := ⟨htOrderClause⟩
instance : Height OrderCondition := ⟨htOrderCondition⟩
instance : Height OrderExpression := ⟨htOrderExpression⟩
instance : Height GroupClause := ⟨htGroupClause⟩
instance : Height GroupCondition := ⟨htGroupCondition⟩
instance : Height SelectQuery := ⟨htSelectQuery⟩
instance : Height AskQuery := ⟨htAskQuery⟩
instance : Height DescribeQuery := ⟨htDescribeQuery⟩
instance : Height SubConstruct := ⟨htSubConstruct⟩
instance : Height SubTriples := ⟨htSubTriples⟩
instance : Height ConstructQuery := ⟨htConstructQuery⟩
instance : Height SparqlQuery := ⟨htSparqlQuery⟩
instance : Height SparqlQueryStatement := ⟨htSparqlQueryStatement⟩
instance : Height GraphOrDefault := ⟨htGraphOrDefault⟩
instance : Height GraphRefAll := ⟨htGraphRefAll⟩
instance : Height LoadStatement := ⟨htLoadStatement⟩
instance : Height ClearStatement := ⟨htClearStatement⟩
instance : Height DropStatement := ⟨htDropStatement⟩
instance : Height CreateStatement := ⟨htCreateStatement⟩
instance : Height AddStatement := ⟨htAddStatement⟩
instance : Height MoveStatement := ⟨htMoveStatement⟩
instance : Height CopyStatement := ⟨htCopyStatement⟩
instance : Height DeleteInsert := ⟨htDeleteInsert⟩
instance : Height ModifyStatement := ⟨htModifyStatement⟩
instance : Height UpdateStatement := ⟨htUpdateStatement⟩
instance : Height Update := ⟨htUpdate⟩

/-- The number of statements that hang on one another in an update request. -/
def links : Update → Nat
  | .mk _ _ none => 1
  | .mk _ _ (some u) => 1 + links u

/-- `NestsAt d s`: in `s` every bracket is closed by its partner, in the right order, and at the deepest place `d` brackets are open.  Brackets count only
outside strings, IRIs, comments and escapes.  (A refinement of `Nested`.) -/
inductive NestsAt : Nat → Str → Prop
  | nil : NestsAt 0 []
  | char {d c s} : c ∉ special → NestsAt d s → NestsAt d (c :: s)
  | group {d e o c s t} : (o, c) ∈ brackets → NestsAt d s → NestsAt e t → NestsAt (max (d + 1) e) (o :: (s ++ c :: t))
  | string {d q s t} : q = '"' ∨ q = '\'' → StrBody q s → NestsAt d t → NestsAt d (q :: (s ++ q :: t))
  | iri {d s t} : (∀ c ∈ s, c ∉ iriStops) → NestsAt d t → NestsAt d ('<' :: (s ++ '>' :: t))
  | comment {d s e t} : (∀ c ∈ s, c ≠ '\n' ∧ c ≠ '\r') → e ∈ ['\n', '\r'] → NestsAt d t → NestsAt d ('#' :: (s ++ e :: t))
  | escape {d c s} : c ∈ localEscapes → NestsAt d s → NestsAt d ('\\' :: c :: s)

/-- A reader that goes through a text character by character, counts the open brackets and keeps the largest count.  It knows strings, comments and escapes,
but no IRIs: for texts without `<`. -/
def deepest : Mode → Nat → Str → Nat
  | _, k, [] => k
  | .escape, k, _ :: s => deepest .code k s
  | .comment, k, c :: s => deepest (if c = '\n' ∨ c = '\r' then .code else .comment) k s
  | .string q, k, c :: s => deepest (if c = q then .code else if c = '\\' then .stringEscape q else .string q) k s
  | .stringEscape q, k, _ :: s => deepest (.string q) k s
  | .code, k, c :: s =>
    if c ∈ ['(', '[', '{'] then deepest .code (k + 1) s
    else if c ∈ [')', ']', '}'] then max k (deepest .code (k - 1) s)
    else if c = '"' ∨ c = '\'' then deepest (.string c) k s
    else if c = '#' then deepest .comment k s
    else if c = '\\' then deepest .escape k s
    else deepest .code k s

end NomSparql
