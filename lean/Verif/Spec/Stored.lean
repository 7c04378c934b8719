import Verif.Model.Ast

/-!
# How often a character is stored in a tree

`occ c a` counts the character `c` in the strings inside `a`: names, IRIs, contents of literals, language tags, labels.  The sigil of a variable `$x` is stored
as the constructor `dollar` and counts as a `$`.
-/

namespace NomSparql

/-- The number of times `c` stands in a text. -/
def ocStr (c : Char) (s : Str) : Nat := s.count c
/-- All of a `Vec`. -/
def ocList (f : α → Nat) : List α → Nat
  | [] => 0
  | x :: l => f x + ocList f l
def ocOption (f : α → Nat) : Option α → Nat
  | none => 0
  | some x => f x

def ocVar (c : Char) : Var → Nat
  | .qmark x0 => ocStr c x0
  | .dollar x0 => ocStr c ('$' :: x0)
def ocPrefixedName (c : Char) : PrefixedName → Nat
  | .pnameLN x0 x1 => ocOption (ocStr c) x0 + ocStr c x1
  | .pnameNS x0 => ocOption (ocStr c) x0
def ocIri (c : Char) : Iri → Nat
  | .iri x0 => ocStr c x0
  | .prefixedName x0 => ocPrefixedName c x0
def ocDefaultOrNamedIri (c : Char) : DefaultOrNamedIri → Nat
  | .default x0 => ocIri c x0
  | .named x0 => ocIri c x0
def ocRdfLiteralDescriptor (c : Char) : RdfLiteralDescriptor → Nat
  | .langTag x0 => ocStr c x0
  | .iriRef x0 => ocIri c x0
def ocRdfLiteral (c : Char) : RdfLiteral → Nat
  | ⟨x0, x1⟩ => ocStr c x0 + ocOption (ocRdfLiteralDescriptor c) x1
def ocStringLiteral (c : Char) : StringLiteral → Nat
  | .simple x0 => ocStr c x0
  | .language x0 x1 => ocStr c x0 + ocStr c x1
  | .typed x0 => ocStr c x0
def ocDecimal (_ : Char) : Decimal → Nat
  | ⟨_, _, _⟩ => 0
def ocNumericLiteral (c : Char) : NumericLiteral → Nat
  | .int _ => 0
  | .double x0 _ => ocDecimal c x0
def ocBlankNode (c : Char) : BlankNode → Nat
  | .anon => 0
  | .label x0 => ocStr c x0
def ocGraphTerm (c : Char) : GraphTerm → Nat
  | .iri x0 => ocIri c x0
  | .rdfLiteral x0 => ocRdfLiteral c x0
  | .numericLiteral x0 => ocNumericLiteral c x0
  | .booleanLiteral _ => 0
  | .blankNode x0 => ocBlankNode c x0
  | .nil => 0
def ocVarOrIri (c : Char) : VarOrIri → Nat
  | .var x0 => ocVar c x0
  | .iri x0 => ocIri c x0
def ocVarOrTerm (c : Char) : VarOrTerm → Nat
  | .var x0 => ocVar c x0
  | .term x0 => ocGraphTerm c x0
def ocVarOrIrisOrAll (c : Char) : VarOrIrisOrAll → Nat
  | .varIri x0 => ocList (ocVarOrIri c) x0
  | .all => 0
def ocVerb (c : Char) : Verb → Nat
  | .varOrIri x0 => ocVarOrIri c x0
  | .a => 0
def ocSign (_ : Char) : Sign → Nat
  | .pos => 0
  | .neg => 0
def ocPrefixDecl (c : Char) : PrefixDecl → Nat
  | ⟨x0, x1⟩ => ocOption (ocStr c) x0 + ocStr c x1
def ocBaseOrPrefixDecl (c : Char) : BaseOrPrefixDecl → Nat
  | .base x0 => ocStr c x0
  | .prefix x0 => ocPrefixDecl c x0
def ocPrologue (c : Char) : Prologue → Nat
  | ⟨x0⟩ => ocList (ocBaseOrPrefixDecl c) x0
def ocDataBlockValue (c : Char) : DataBlockValue → Nat
  | .iri x0 => ocIri c x0
  | .rdfLiteral x0 => ocRdfLiteral c x0
  | .numericLiteral x0 => ocNumericLiteral c x0
  | .booleanLiteral _ => 0
  | .undef => 0
def ocInlineDataOneVar (c : Char) : InlineDataOneVar → Nat
  | ⟨x0, x1⟩ => ocVar c x0 + ocList (ocDataBlockValue c) x1
def ocInlineDataFull (c : Char) : InlineDataFull → Nat
  | ⟨x0, x1⟩ => ocList (ocVar c) x0 + ocList (ocList (ocDataBlockValue c)) x1
def ocDataBlock (c : Char) : DataBlock → Nat
  | .inlineDataOneVar x0 => ocInlineDataOneVar c x0
  | .inlineDataFull x0 => ocInlineDataFull c x0
mutual
def ocGraphNode (c : Char) : GraphNode → Nat
  | .varOrTerm x0 => ocVarOrTerm c x0
  | .triplesNode x0 => ocTriplesNode c x0
def ocTriplesNode (c : Char) : TriplesNode → Nat
  | .collection x0 => ocListGraphNode c x0
  | .blankNodePropertyList x0 => ocPropertyList c x0
def ocPropertyList (c : Char) : PropertyList → Nat
  | .mk x0 => ocListVerbList c x0
def ocVerbList (c : Char) : VerbList → Nat
  | .mk x0 x1 => ocVerb c x0 + ocListGraphNode c x1
def ocListGraphNode (c : Char) : List GraphNode → Nat
  | [] => 0
  | x :: l => ocGraphNode c x + ocListGraphNode c l
def ocListVerbList (c : Char) : List VerbList → Nat
  | [] => 0
  | x :: l => ocVerbList c x + ocListVerbList c l
end
@[simp] theorem ocListGraphNode_eq (c) (l : List GraphNode) : ocListGraphNode c l = ocList (ocGraphNode c) l := by
  induction l with
  | nil => simp [ocListGraphNode, ocList]
  | cons a l ih => simp [ocListGraphNode, ocList, ih]
@[simp] theorem ocListVerbList_eq (c) (l : List VerbList) : ocListVerbList c l = ocList (ocVerbList c) l := by
  induction l with
  | nil => simp [ocListVerbList, ocList]
  | cons a l ih => simp [ocListVerbList, ocList, ih]
def ocTriplesSameSubject (c : Char) : TriplesSameSubject → Nat
  | .term x0 x1 => ocVarOrTerm c x0 + ocPropertyList c x1
  | .node x0 x1 => ocTriplesNode c x0 + ocOption (ocPropertyList c) x1
def ocQuadsNotTriples (c : Char) : QuadsNotTriples → Nat
  | ⟨x0, x1⟩ => ocVarOrIri c x0 + ocOption (ocList (ocTriplesSameSubject c)) x1
def ocQuadsEntry (c : Char) : QuadsEntry → Nat
  | ⟨x0, x1⟩ => ocQuadsNotTriples c x0 + ocOption (ocList (ocTriplesSameSubject c)) x1
def ocQuads (c : Char) : Quads → Nat
  | ⟨x0, x1⟩ => ocOption (ocList (ocTriplesSameSubject c)) x0 + ocList (ocQuadsEntry c) x1
def ocIriOrA (c : Char) : IriOrA → Nat
  | .iri x0 => ocIri c x0
  | .a => 0
def ocIriOrAOrCaret (c : Char) : IriOrAOrCaret → Nat
  | .iriOrA x0 => ocIriOrA c x0
  | .caret x0 => ocIriOrA c x0
def ocPathMod (_ : Char) : PathMod → Nat
  | .questionMark => 0
  | .asterisk => 0
  | .plus => 0
mutual
def ocPathAlternative (c : Char) : PathAlternative → Nat
  | .mk x0 => ocListPathSequence c x0
def ocPathSequence (c : Char) : PathSequence → Nat
  | .mk x0 => ocListPathEltOrInverse c x0
def ocPathEltOrInverse (c : Char) : PathEltOrInverse → Nat
  | .pathElt x0 => ocPathElt c x0
  | .inverse x0 => ocPathElt c x0
def ocPathElt (c : Char) : PathElt → Nat
  | .mk x0 x1 => ocPathPrimary c x0 + ocOption (ocPathMod c) x1
def ocPathPrimary (c : Char) : PathPrimary → Nat
  | .iri x0 => ocIri c x0
  | .a => 0
  | .pathNegatedPropertySet x0 => ocList (ocIriOrAOrCaret c) x0
  | .path x0 => ocPathAlternative c x0
def ocListPathSequence (c : Char) : List PathSequence → Nat
  | [] => 0
  | x :: l => ocPathSequence c x + ocListPathSequence c l
def ocListPathEltOrInverse (c : Char) : List PathEltOrInverse → Nat
  | [] => 0
  | x :: l => ocPathEltOrInverse c x + ocListPathEltOrInverse c l
end
@[simp] theorem ocListPathSequence_eq (c) (l : List PathSequence) : ocListPathSequence c l = ocList (ocPathSequence c) l := by
  induction l with
  | nil => simp [ocListPathSequence, ocList]
  | cons a l ih => simp [ocListPathSequence, ocList, ih]
@[simp] theorem ocListPathEltOrInverse_eq (c) (l : List PathEltOrInverse) : ocListPathEltOrInverse c l = ocList (ocPathEltOrInverse c) l := by
  induction l with
  | nil => simp [ocListPathEltOrInverse, ocList]
  | cons a l ih => simp [ocListPathEltOrInverse, ocList, ih]
def ocVerbPathOrSimple (c : Char) : VerbPathOrSimple → Nat
  | .path x0 => ocPathAlternative c x0
  | .simple x0 => ocVar c x0
def ocPropertyListPathEntry (c : Char) : PropertyListPathEntry → Nat
  | ⟨x0, x1⟩ => ocVerbPathOrSimple c x0 + ocList (ocGraphNode c) x1
mutual
def ocGraphNodePath (c : Char) : GraphNodePath → Nat
  | .varOrTerm x0 => ocVarOrTerm c x0
  | .triplesNodePath x0 => ocTriplesNodePath c x0
def ocTriplesNodePath (c : Char) : TriplesNodePath → Nat
  | .collectionPath x0 => ocListGraphNodePath c x0
  | .blankNodePropertyListPath x0 => ocPropertyListPath c x0
def ocPropertyListPath (c : Char) : PropertyListPath → Nat
  | .mk x0 x1 x2 => ocVerbPathOrSimple c x0 + ocListGraphNodePath c x1 + ocList (ocPropertyListPathEntry c) x2
def ocListGraphNodePath (c : Char) : List GraphNodePath → Nat
  | [] => 0
  | x :: l => ocGraphNodePath c x + ocListGraphNodePath c l
end
@[simp] theorem ocListGraphNodePath_eq (c) (l : List GraphNodePath) : ocListGraphNodePath c l = ocList (ocGraphNodePath c) l := by
  induction l with
  | nil => simp [ocListGraphNodePath, ocList]
  | cons a l ih => simp [ocListGraphNodePath, ocList, ih]
def ocTriplesSameSubjectPath (c : Char) : TriplesSameSubjectPath → Nat
  | .term x0 x1 => ocVarOrTerm c x0 + ocPropertyListPath c x1
  | .node x0 x1 => ocTriplesNodePath c x0 + ocOption (ocPropertyListPath c) x1
def ocTriplesBlock (c : Char) : TriplesBlock → Nat
  | ⟨x0⟩ => ocList (ocTriplesSameSubjectPath c) x0
def ocOrder (_ : Char) : Order → Nat
  | .asc => 0
  | .desc => 0
def ocLimitOffsetClause (_ : Char) : LimitOffsetClause → Nat
  | .limitOffset _ _ => 0
  | .offsetLimit _ _ => 0
def ocSelectModifier (_ : Char) : SelectModifier → Nat
  | .distinct => 0
  | .reduced => 0
mutual
def ocExpression (c : Char) : Expression → Nat
  | .mk x0 => ocListConditionalAndExpression c x0
def ocConditionalAndExpression (c : Char) : ConditionalAndExpression → Nat
  | .mk x0 => ocListRelationalExpression c x0
def ocRelationalExpression (c : Char) : RelationalExpression → Nat
  | .mk x0 x1 => ocAdditiveExpression c x0 + ocOptionOpExpression c x1
def ocOpExpression (c : Char) : OpExpression → Nat
  | .eq x0 => ocAdditiveExpression c x0
  | .ne x0 => ocAdditiveExpression c x0
  | .lt x0 => ocAdditiveExpression c x0
  | .gt x0 => ocAdditiveExpression c x0
  | .le x0 => ocAdditiveExpression c x0
  | .ge x0 => ocAdditiveExpression c x0
  | .in x0 => ocExpressionList c x0
  | .nin x0 => ocExpressionList c x0
def ocAdditiveExpression (c : Char) : AdditiveExpression → Nat
  | .mk x0 x1 => ocMultiplicativeExpression c x0 + ocListAddExpression c x1
def ocAddExpression (c : Char) : AddExpression → Nat
  | .add x0 => ocMultiplicativeExpression c x0
  | .sub x0 => ocMultiplicativeExpression c x0
  | .numeric x0 x1 => ocNumericLiteral c x0 + ocListMultExpression c x1
def ocMultiplicativeExpression (c : Char) : MultiplicativeExpression → Nat
  | .mk x0 x1 => ocUnaryExpression c x0 + ocListMultExpression c x1
def ocMultExpression (c : Char) : MultExpression → Nat
  | .mult x0 => ocUnaryExpression c x0
  | .div x0 => ocUnaryExpression c x0
def ocUnaryExpression (c : Char) : UnaryExpression → Nat
  | .not x0 => ocPrimaryExpression c x0
  | .add x0 => ocPrimaryExpression c x0
  | .sub x0 => ocPrimaryExpression c x0
  | .default x0 => ocPrimaryExpression c x0
def ocPrimaryExpression (c : Char) : PrimaryExpression → Nat
  | .brackettedExpression x0 => ocExpression c x0
  | .builtInCall x0 => ocBuiltInCall c x0
  | .iriOrFunction x0 => ocIriOrFunction c x0
  | .rdfLiteral x0 => ocRdfLiteral c x0
  | .numericLiteral x0 => ocNumericLiteral c x0
  | .booleanLiteral _ => 0
  | .var x0 => ocVar c x0
def ocExpressionList (c : Char) : ExpressionList → Nat
  | .nil => 0
  | .list x0 => ocListExpression c x0
def ocIriOrFunction (c : Char) : IriOrFunction → Nat
  | .mk x0 x1 => ocIri c x0 + ocOptionArgList c x1
def ocArgList (c : Char) : ArgList → Nat
  | .nil => 0
  | .expression _ x1 => ocListExpression c x1
def ocDistinctExpression (c : Char) : DistinctExpression → Nat
  | .mk _ x1 => ocExpression c x1
def ocExpressionAsVar (c : Char) : ExpressionAsVar → Nat
  | .mk x0 x1 => ocExpression c x0 + ocVar c x1
def ocExpressionAsVarOpt (c : Char) : ExpressionAsVarOpt → Nat
  | .mk x0 x1 => ocExpression c x0 + ocOption (ocVar c) x1
def ocRegexExpression (c : Char) : RegexExpression → Nat
  | .mk x0 x1 x2 => ocExpression c x0 + ocExpression c x1 + ocOptionExpression c x2
def ocStrReplaceExpression (c : Char) : StrReplaceExpression → Nat
  | .mk x0 x1 x2 x3 => ocExpression c x0 + ocExpression c x1 + ocExpression c x2 + ocOptionExpression c x3
def ocConstraint (c : Char) : Constraint → Nat
  | .bracketted x0 => ocExpression c x0
  | .builtInCall x0 => ocBuiltInCall c x0
  | .functionCall x0 => ocFunctionCall c x0
def ocFunctionCall (c : Char) : FunctionCall → Nat
  | .mk x0 x1 => ocIri c x0 + ocArgList c x1
def ocBuiltInCall (c : Char) : BuiltInCall → Nat
  | .aggregate x0 => ocAggregate c x0
  | .str x0 => ocExpression c x0
  | .lang x0 => ocExpression c x0
  | .langMatches x0 x1 => ocExpression c x0 + ocExpression c x1
  | .datatype x0 => ocExpression c x0
  | .bound x0 => ocVar c x0
  | .iri x0 => ocExpression c x0
  | .uri x0 => ocExpression c x0
  | .bnode x0 => ocOptionExpression c x0
  | .rand => 0
  | .abs x0 => ocExpression c x0
  | .ceil x0 => ocExpression c x0
  | .floor x0 => ocExpression c x0
  | .round x0 => ocExpression c x0
  | .concat x0 x1 => ocExpressionList c x0 + ocRegexExpression c x1
  | .strLen x0 x1 => ocExpression c x0 + ocStrReplaceExpression c x1
  | .uCase x0 => ocExpression c x0
  | .lCase x0 => ocExpression c x0
  | .encodeForUri x0 => ocExpression c x0
  | .contains x0 x1 => ocExpression c x0 + ocExpression c x1
  | .strStarts x0 x1 => ocExpression c x0 + ocExpression c x1
  | .strEnds x0 x1 => ocExpression c x0 + ocExpression c x1
  | .strBefore x0 x1 => ocExpression c x0 + ocExpression c x1
  | .strAfter x0 x1 => ocExpression c x0 + ocExpression c x1
  | .year x0 => ocExpression c x0
  | .month x0 => ocExpression c x0
  | .day x0 => ocExpression c x0
  | .hours x0 => ocExpression c x0
  | .minutes x0 => ocExpression c x0
  | .seconds x0 => ocExpression c x0
  | .timezone x0 => ocExpression c x0
  | .tz x0 => ocExpression c x0
  | .now => 0
  | .uuid => 0
  | .strUuid => 0
  | .md5 x0 => ocExpression c x0
  | .sha1 x0 => ocExpression c x0
  | .sha256 x0 => ocExpression c x0
  | .sha384 x0 => ocExpression c x0
  | .sha512 x0 => ocExpression c x0
  | .coalesce x0 => ocExpressionList c x0
  | .if x0 x1 x2 => ocExpression c x0 + ocExpression c x1 + ocExpression c x2
  | .strLang x0 x1 => ocExpression c x0 + ocExpression c x1
  | .strDt x0 x1 => ocExpression c x0 + ocExpression c x1
  | .sameTerm x0 x1 => ocExpression c x0 + ocExpression c x1
  | .isIri x0 => ocExpression c x0
  | .isUri x0 => ocExpression c x0
  | .isBlank x0 => ocExpression c x0
  | .isLiteral x0 => ocExpression c x0
  | .isNumeric x0 => ocExpression c x0
  | .regex x0 => ocRegexExpression c x0
  | .existsFunc x0 => ocGroupGraphPattern c x0
  | .notExistsFunc x0 => ocGroupGraphPattern c x0
def ocAggregate (c : Char) : Aggregate → Nat
  | .count x0 => ocCount c x0
  | .sum x0 => ocDistinctExpression c x0
  | .min x0 => ocDistinctExpression c x0
  | .max x0 => ocDistinctExpression c x0
  | .avg x0 => ocDistinctExpression c x0
  | .sample x0 => ocDistinctExpression c x0
  | .groupConcat x0 => ocGroupConcat c x0
def ocCount (c : Char) : Count → Nat
  | .mk _ x1 => ocCountTarget c x1
def ocCountTarget (c : Char) : CountTarget → Nat
  | .all => 0
  | .expr x0 => ocExpression c x0
def ocGroupConcat (c : Char) : GroupConcat → Nat
  | .mk x0 x1 => ocDistinctExpression c x0 + ocOption (ocStr c) x1
def ocGroupGraphPattern (c : Char) : GroupGraphPattern → Nat
  | .subSelect x0 => ocSubSelect c x0
  | .groupGraphPatternSub x0 => ocGroupGraphPatternSub c x0
def ocGroupGraphPatternSub (c : Char) : GroupGraphPatternSub → Nat
  | .mk x0 x1 => ocOption (ocTriplesBlock c) x0 + ocListGraphPatternAndTriples c x1
def ocGraphPatternAndTriples (c : Char) : GraphPatternAndTriples → Nat
  | .mk x0 x1 => ocGraphPatternNotTriples c x0 + ocOption (ocTriplesBlock c) x1
def ocGraphPatternNotTriples (c : Char) : GraphPatternNotTriples → Nat
  | .optional x0 => ocGroupGraphPattern c x0
  | .groupOrUnion x0 => ocListGroupGraphPattern c x0
  | .minus x0 => ocGroupGraphPattern c x0
  | .graph x0 => ocGraphGraphPattern c x0
  | .service x0 => ocServiceGraphPattern c x0
  | .filter x0 => ocConstraint c x0
  | .bind x0 => ocExpressionAsVar c x0
  | .inlineData x0 => ocDataBlock c x0
def ocGraphGraphPattern (c : Char) : GraphGraphPattern → Nat
  | .mk x0 x1 => ocVarOrIri c x0 + ocGroupGraphPattern c x1
def ocServiceGraphPattern (c : Char) : ServiceGraphPattern → Nat
  | .mk x0 _ x2 => ocVarOrIri c x0 + ocGroupGraphPattern c x2
def ocSubSelect (c : Char) : SubSelect → Nat
  | .mk x0 x1 x2 x3 => ocSelectClause c x0 + ocGroupGraphPattern c x1 + ocSolutionModifier c x2 + ocOption (ocDataBlock c) x3
def ocSelectClause (c : Char) : SelectClause → Nat
  | .mk x0 x1 => ocOption (ocSelectModifier c) x0 + ocSelectVars c x1
def ocSelectVars (c : Char) : SelectVars → Nat
  | .varOrExpressionAsVar x0 => ocListVarOrExpressionAsVar c x0
  | .all => 0
def ocVarOrExpressionAsVar (c : Char) : VarOrExpressionAsVar → Nat
  | .var x0 => ocVar c x0
  | .expressionAsVar x0 => ocExpressionAsVar c x0
def ocSolutionModifier (c : Char) : SolutionModifier → Nat
  | .mk x0 x1 x2 x3 => ocOptionOrderClause c x0 + ocOptionGroupClause c x1 + ocOptionHavingClause c x2 + ocOption (ocLimitOffsetClause c) x3
def ocHavingClause (c : Char) : HavingClause → Nat
  | .mk x0 => ocListConstraint c x0
def ocOrderClause (c : Char) : OrderClause → Nat
  | .mk x0 => ocListOrderCondition c x0
def ocOrderCondition (c : Char) : OrderCondition → Nat
  | .order x0 => ocOrderExpression c x0
  | .constraint x0 => ocConstraint c x0
  | .var x0 => ocVar c x0
def ocOrderExpression (c : Char) : OrderExpression → Nat
  | .mk x0 x1 => ocOrder c x0 + ocExpression c x1
def ocGroupClause (c : Char) : GroupClause → Nat
  | .mk x0 => ocListGroupCondition c x0
def ocGroupCondition (c : Char) : GroupCondition → Nat
  | .builtInCall x0 => ocBuiltInCall c x0
  | .functionCall x0 => ocFunctionCall c x0
  | .expressionAsVarOpt x0 => ocExpressionAsVarOpt c x0
  | .var x0 => ocVar c x0
def ocListConditionalAndExpression (c : Char) : List ConditionalAndExpression → Nat
  | [] => 0
  | x :: l => ocConditionalAndExpression c x + ocListConditionalAndExpression c l
def ocListRelationalExpression (c : Char) : List RelationalExpression → Nat
  | [] => 0
  | x :: l => ocRelationalExpression c x + ocListRelationalExpression c l
def ocOptionOpExpression (c : Char) : Option OpExpression → Nat
  | none => 0
  | some x => ocOpExpression c x
def ocListAddExpression (c : Char) : List AddExpression → Nat
  | [] => 0
  | x :: l => ocAddExpression c x + ocListAddExpression c l
def ocListMultExpression (c : Char) : List MultExpression → Nat
  | [] => 0
  | x :: l => ocMultExpression c x + ocListMultExpression c l
def ocListExpression (c : Char) : List Expression → Nat
  | [] => 0
  | x :: l => ocExpression c x + ocListExpression c l
def ocOptionArgList (c : Char) : Option ArgList → Nat
  | none => 0
  | some x => ocArgList c x
def ocOptionExpression (c : Char) : Option Expression → Nat
  | none => 0
  | some x => ocExpression c x
def ocListGraphPatternAndTriples (c : Char) : List GraphPatternAndTriples → Nat
  | [] => 0
  | x :: l => ocGraphPatternAndTriples c x + ocListGraphPatternAndTriples c l
def ocListGroupGraphPattern (c : Char) : List GroupGraphPattern → Nat
  | [] => 0
  | x :: l => ocGroupGraphPattern c x + ocListGroupGraphPattern c l
def ocListVarOrExpressionAsVar (c : Char) : List VarOrExpressionAsVar → Nat
  | [] => 0
  | x :: l => ocVarOrExpressionAsVar c x + ocListVarOrExpressionAsVar c l
def ocOptionOrderClause (c : Char) : Option OrderClause → Nat
  | none => 0
  | some x => ocOrderClause c x
def ocOptionGroupClause (c : Char) : Option GroupClause → Nat
  | none => 0
  | some x => ocGroupClause c x
def ocOptionHavingClause (c : Char) : Option HavingClause → Nat
  | none => 0
  | some x => ocHavingClause c x
def ocListConstraint (c : Char) : List Constraint → Nat
  | [] => 0
  | x :: l => ocConstraint c x + ocListConstraint c l
def ocListOrderCondition (c : Char) : List OrderCondition → Nat
  | [] => 0
  | x :: l => ocOrderCondition c x + ocListOrderCondition c l
def ocListGroupCondition (c : Char) : List GroupCondition → Nat
  | [] => 0
  | x :: l => ocGroupCondition c x + ocListGroupCondition c l
end
@[simp] theorem ocListConditionalAndExpression_eq (c) (l : List ConditionalAndExpression) : ocListConditionalAndExpression c l = ocList (ocConditionalAndExpression c) l := by
  induction l with
  | nil => simp [ocListConditionalAndExpression, ocList]
  | cons a l ih => simp [ocListConditionalAndExpression, ocList, ih]
@[simp] theorem ocListRelationalExpression_eq (c) (l : List RelationalExpression) : ocListRelationalExpression c l = ocList (ocRelationalExpression c) l := by
  induction l with
  | nil => simp [ocListRelationalExpression, ocList]
  | cons a l ih => simp [ocListRelationalExpression, ocList, ih]
@[simp] theorem ocOptionOpExpression_eq (c) (l : Option OpExpression) : ocOptionOpExpression c l = ocOption (ocOpExpression c) l := by cases l <;> simp [ocOptionOpExpression, ocOption]
@[simp] theorem ocListAddExpression_eq (c) (l : List AddExpression) : ocListAddExpression c l = ocList (ocAddExpression c) l := by
  induction l with
  | nil => simp [ocListAddExpression, ocList]
  | cons a l ih => simp [ocListAddExpression, ocList, ih]
@[simp] theorem ocListMultExpression_eq (c) (l : List MultExpression) : ocListMultExpression c l = ocList (ocMultExpression c) l := by
  induction l with
  | nil => simp [ocListMultExpression, ocList]
  | cons a l ih => simp [ocListMultExpression, ocList, ih]
@[simp] theorem ocListExpression_eq (c) (l : List Expression) : ocListExpression c l = ocList (ocExpression c) l := by
  induction l with
  | nil => simp [ocListExpression, ocList]
  | cons a l ih => simp [ocListExpression, ocList, ih]
@[simp] theorem ocOptionArgList_eq (c) (l : Option ArgList) : ocOptionArgList c l = ocOption (ocArgList c) l := by cases l <;> simp [ocOptionArgList, ocOption]
@[simp] theorem ocOptionExpression_eq (c) (l : Option Expression) : ocOptionExpression c l = ocOption (ocExpression c) l := by cases l <;> simp [ocOptionExpression, ocOption]
@[simp] theorem ocListGraphPatternAndTriples_eq (c) (l : List GraphPatternAndTriples) : ocListGraphPatternAndTriples c l = ocList (ocGraphPatternAndTriples c) l := by
  induction l with
  | nil => simp [ocListGraphPatternAndTriples, ocList]
  | cons a l ih => simp [ocListGraphPatternAndTriples, ocList, ih]
@[simp] theorem ocListGroupGraphPattern_eq (c) (l : List GroupGraphPattern) : ocListGroupGraphPattern c l = ocList (ocGroupGraphPattern c) l := by
  induction l with
  | nil => simp [ocListGroupGraphPattern, ocList]
  | cons a l ih => simp [ocListGroupGraphPattern, ocList, ih]
@[simp] theorem ocListVarOrExpressionAsVar_eq (c) (l : List VarOrExpressionAsVar) : ocListVarOrExpressionAsVar c l = ocList (ocVarOrExpressionAsVar c) l := by
  induction l with
  | nil => simp [ocListVarOrExpressionAsVar, ocList]
  | cons a l ih => simp [ocListVarOrExpressionAsVar, ocList, ih]
@[simp] theorem ocOptionOrderClause_eq (c) (l : Option OrderClause) : ocOptionOrderClause c l = ocOption (ocOrderClause c) l := by cases l <;> simp [ocOptionOrderClause, ocOption]
@[simp] theorem ocOptionGroupClause_eq (c) (l : Option GroupClause) : ocOptionGroupClause c l = ocOption (ocGroupClause c) l := by cases l <;> simp [ocOptionGroupClause, ocOption]
@[simp] theorem ocOptionHavingClause_eq (c) (l : Option HavingClause) : ocOptionHavingClause c l = ocOption (ocHavingClause c) l := by cases l <;> simp [ocOptionHavingClause, ocOption]
@[simp] theorem ocListConstraint_eq (c) (l : List Constraint) : ocListConstraint c l = ocList (ocConstraint c) l := by
  induction l with
  | nil => simp [ocListConstraint, ocList]
  | cons a l ih => simp [ocListConstraint, ocList, ih]
@[simp] theorem ocListOrderCondition_eq (c) (l : List OrderCondition) : ocListOrderCondition c l = ocList (ocOrderCondition c) l := by
  induction l with
  | nil => simp [ocListOrderCondition, ocList]
  | cons a l ih => simp [ocListOrderCondition, ocList, ih]
@[simp] theorem ocListGroupCondition_eq (c) (l : List GroupCondition) : ocListGroupCondition c l = ocList (ocGroupCondition c) l := by
  induction l with
  | nil => simp [ocListGroupCondition, ocList]
  | cons a l ih => simp [ocListGroupCondition, ocList, ih]
def ocSelectQuery (c : Char) : SelectQuery → Nat
  | ⟨x0, x1, x2, x3⟩ => ocSelectClause c x0 + ocList (ocDefaultOrNamedIri c) x1 + ocGroupGraphPattern c x2 + ocSolutionModifier c x3
def ocAskQuery (c : Char) : AskQuery → Nat
  | ⟨x0, x1, x2⟩ => ocList (ocDefaultOrNamedIri c) x0 + ocGroupGraphPattern c x1 + ocSolutionModifier c x2
def ocDescribeQuery (c : Char) : DescribeQuery → Nat
  | ⟨x0, x1, x2, x3⟩ => ocList (ocDefaultOrNamedIri c) x0 + ocVarOrIrisOrAll c x1 + ocOption (ocGroupGraphPattern c) x2 + ocSolutionModifier c x3
def ocSubConstruct (c : Char) : SubConstruct → Nat
  | ⟨x0, x1, x2, x3⟩ => ocList (ocTriplesSameSubject c) x0 + ocList (ocDefaultOrNamedIri c) x1 + ocGroupGraphPattern c x2 + ocSolutionModifier c x3
def ocSubTriples (c : Char) : SubTriples → Nat
  | ⟨x0, x1, x2⟩ => ocList (ocDefaultOrNamedIri c) x0 + ocOption (ocList (ocTriplesSameSubject c)) x1 + ocSolutionModifier c x2
def ocConstructQuery (c : Char) : ConstructQuery → Nat
  | .subConstruct x0 => ocSubConstruct c x0
  | .subTriples x0 => ocSubTriples c x0
def ocSparqlQuery (c : Char) : SparqlQuery → Nat
  | .ask x0 => ocAskQuery c x0
  | .select x0 => ocSelectQuery c x0
  | .describe x0 => ocDescribeQuery c x0
  | .construct x0 => ocConstructQuery c x0
def ocSparqlQueryStatement (c : Char) : SparqlQueryStatement → Nat
  | ⟨x0, x1, x2⟩ => ocPrologue c x0 + ocSparqlQuery c x1 + ocOption (ocDataBlock c) x2
def ocGraphOrDefault (c : Char) : GraphOrDefault → Nat
  | .graph x0 => ocIri c x0
  | .default => 0
def ocGraphRefAll (c : Char) : GraphRefAll → Nat
  | .graphRef x0 => ocIri c x0
  | .default => 0
  | .named => 0
  | .all => 0
def ocLoadStatement (c : Char) : LoadStatement → Nat
  | ⟨x0, _, x2⟩ => ocIri c x0 + ocOption (ocIri c) x2
def ocClearStatement (c : Char) : ClearStatement → Nat
  | ⟨_, x1⟩ => ocGraphRefAll c x1
def ocDropStatement (c : Char) : DropStatement → Nat
  | ⟨_, x1⟩ => ocGraphRefAll c x1
def ocCreateStatement (c : Char) : CreateStatement → Nat
  | ⟨_, x1⟩ => ocIri c x1
def ocAddStatement (c : Char) : AddStatement → Nat
  | ⟨_, x1, x2⟩ => ocGraphOrDefault c x1 + ocGraphOrDefault c x2
def ocMoveStatement (c : Char) : MoveStatement → Nat
  | ⟨_, x1, x2⟩ => ocGraphOrDefault c x1 + ocGraphOrDefault c x2
def ocCopyStatement (c : Char) : CopyStatement → Nat
  | ⟨_, x1, x2⟩ => ocGraphOrDefault c x1 + ocGraphOrDefault c x2
def ocDeleteInsert (c : Char) : DeleteInsert → Nat
  | .deleteInsert x0 x1 => ocQuads c x0 + ocOption (ocQuads c) x1
  | .insert x0 => ocQuads c x0
def ocModifyStatement (c : Char) : ModifyStatement → Nat
  | ⟨x0, x1, x2, x3⟩ => ocOption (ocIri c) x0 + ocDeleteInsert c x1 + ocList (ocDefaultOrNamedIri c) x2 + ocGroupGraphPattern c x3
def ocUpdateStatement (c : Char) : UpdateStatement → Nat
  | .load x0 => ocLoadStatement c x0
  | .clear x0 => ocClearStatement c x0
  | .drop x0 => ocDropStatement c x0
  | .create x0 => ocCreateStatement c x0
  | .add x0 => ocAddStatement c x0
  | .move x0 => ocMoveStatement c x0
  | .copy x0 => ocCopyStatement c x0
  | .insertData x0 => ocQuads c x0
  | .deleteData x0 => ocQuads c x0
  | .deleteWhere x0 => ocQuads c x0
  | .modify x0 => ocModifyStatement c x0
def ocUpdate (c : Char) : Update → Nat
  | .mk x0 x1 none => ocPrologue c x0 + ocOption (ocUpdateStatement c) x1
  | .mk x0 x1 (some x2) => ocPrologue c x0 + ocOption (ocUpdateStatement c) x1 + ocUpdate c x2

class Occ (α : Type) where
  occ : Char → α → Nat
export Occ (occ)
instance [Occ α] : Occ (List α) := ⟨fun c => ocList (occ c)⟩
instance [Occ α] : Occ (Option α) := ⟨fun c => ocOption (occ c)⟩
instance : Occ Char := ⟨fun _ _ => 0⟩
instance : Occ Bool := ⟨fun _ _ => 0⟩
instance : Occ Nat := ⟨fun _ _ => 0⟩
instance (priority := high) : Occ Str := ⟨ocStr⟩
instance [Occ α] [Occ β] : Occ (α × β) := ⟨fun c x => occ c x.1 + occ c x.2⟩
instance : Occ Var := ⟨ocVar⟩
instance : Occ PrefixedName := ⟨ocPrefixedName⟩
instance : Occ Iri := ⟨ocIri⟩
instance : Occ DefaultOrNamedIri := ⟨ocDefaultOrNamedIri⟩
instance : Occ RdfLiteralDescriptor := ⟨ocRdfLiteralDescriptor⟩
instance : Occ RdfLiteral := ⟨ocRdfLiteral⟩
instance : Occ StringLiteral := ⟨ocStringLiteral⟩
instance : Occ Decimal := ⟨ocDecimal⟩
instance : Occ NumericLiteral := ⟨ocNumericLiteral⟩
instance : Occ BlankNode := ⟨ocBlankNode⟩
instance : Occ GraphTerm := ⟨ocGraphTerm⟩
instance : Occ VarOrIri := ⟨ocVarOrIri⟩
instance : Occ VarOrTerm := ⟨ocVarOrTerm⟩
instance : Occ VarOrIrisOrAll := ⟨ocVarOrIrisOrAll⟩
instance : Occ Verb := ⟨ocVerb⟩
instance : Occ Sign := ⟨ocSign⟩
instance : Occ PrefixDecl := ⟨ocPrefixDecl⟩
instance : Occ BaseOrPrefixDecl := ⟨ocBaseOrPrefixDecl⟩
instance : Occ Prologue := ⟨ocPrologue⟩
instance : Occ DataBlockValue := ⟨ocDataBlockValue⟩
instance : Occ InlineDataOneVar := ⟨ocInlineDataOneVar⟩
instance : Occ InlineDataFull := ⟨ocInlineDataFull⟩
instance : Occ DataBlock := ⟨ocDataBlock⟩
instance : Occ GraphNode := ⟨ocGraphNode⟩
instance : Occ TriplesNode := ⟨ocTriplesNode⟩
instance : Occ PropertyList := ⟨ocPropertyList⟩
instance : Occ VerbList := ⟨ocVerbList⟩
instance : Occ TriplesSameSubject := ⟨ocTriplesSameSubject⟩
instance : Occ QuadsNotTriples := ⟨ocQuadsNotTriples⟩
instance : Occ QuadsEntry := ⟨ocQuadsEntry⟩
instance : Occ Quads := ⟨ocQuads⟩
instance : Occ IriOrA := ⟨ocIriOrA⟩
instance : Occ IriOrAOrCaret := ⟨ocIriOrAOrCaret⟩
instance : Occ PathMod := ⟨ocPathMod⟩
instance : Occ PathAlternative := ⟨ocPathAlternative⟩
instance : Occ PathSequence := ⟨ocPathSequence⟩
instance : Occ PathEltOrInverse := ⟨ocPathEltOrInverse⟩
instance : Occ PathElt := ⟨ocPathElt⟩
instance : Occ PathPrimary := ⟨ocPathPrimary⟩
instance : Occ VerbPathOrSimple := ⟨ocVerbPathOrSimple⟩
instance : Occ PropertyListPathEntry := ⟨ocPropertyListPathEntry⟩
instance : Occ GraphNodePath := ⟨ocGraphNodePath⟩
instance : Occ TriplesNodePath := ⟨ocTriplesNodePath⟩
instance : Occ PropertyListPath := ⟨ocPropertyListPath⟩
instance : Occ TriplesSameSubjectPath := ⟨ocTriplesSameSubjectPath⟩
instance : Occ TriplesBlock := ⟨ocTriplesBlock⟩
instance : Occ Order := ⟨ocOrder⟩
instance : Occ LimitOffsetClause := ⟨ocLimitOffsetClause⟩
instance : Occ SelectModifier := ⟨ocSelectModifier⟩
instance : Occ Expression := ⟨ocExpression⟩
instance : Occ ConditionalAndExpression := ⟨ocConditionalAndExpression⟩
instance : Occ RelationalExpression := ⟨ocRelationalExpression⟩
instance : Occ OpExpression := ⟨ocOpExpression⟩
instance : Occ AdditiveExpression := ⟨ocAdditiveExpression⟩
instance : Occ AddExpression := ⟨ocAddExpression⟩
instance : Occ MultiplicativeExpression := ⟨ocMultiplicativeExpression⟩
instance : Occ MultExpression := ⟨ocMultExpression⟩
instance : Occ UnaryExpression := ⟨ocUnaryExpression⟩
instance : Occ PrimaryExpression := ⟨ocPrimaryExpression⟩
instance : Occ ExpressionList := ⟨ocExpressionList⟩
instance : Occ IriOrFunction := ⟨ocIriOrFunction⟩
instance : Occ ArgList := ⟨ocArgList⟩
instance : Occ DistinctExpression := ⟨ocDistinctExpression⟩
instance : Occ ExpressionAsVar := ⟨ocExpressionAsVar⟩
instance : Occ ExpressionAsVarOpt := ⟨ocExpressionAsVarOpt⟩
instance : Occ RegexExpression := ⟨ocRegexExpression⟩
instance : Occ StrReplaceExpression := ⟨ocStrReplaceExpression⟩
instance : Occ Constraint := ⟨ocConstraint⟩
instance : Occ FunctionCall := ⟨ocFunctionCall⟩
instance : Occ BuiltInCall := ⟨ocBuiltInCall⟩
instance : Occ Aggregate := ⟨ocAggregate⟩
instance : Occ Count := ⟨ocCount⟩
instance : Occ CountTarget := ⟨ocCountTarget⟩
instance : Occ GroupConcat := ⟨ocGroupConcat⟩
instance : Occ GroupGraphPattern := ⟨ocGroupGraphPattern⟩
instance : Occ GroupGraphPatternSub := ⟨ocGroupGraphPatternSub⟩
instance : Occ GraphPatternAndTriples := ⟨ocGraphPatternAndTriples⟩
instance : Occ GraphPatternNotTriples := ⟨ocGraphPatternNotTriples⟩
instance : Occ GraphGraphPattern := ⟨ocGraphGraphPattern⟩
instance : Occ ServiceGraphPattern := ⟨ocServiceGraphPattern⟩
instance : Occ SubSelect := ⟨ocSubSelect⟩
instance : Occ SelectClause := ⟨ocSelectClause⟩
instance : Occ SelectVars := ⟨ocSelectVars⟩
instance : Occ VarOrExpressionAsVar := ⟨ocVarOrExpressionAsVar⟩
instance : Occ SolutionModifier := ⟨ocSolutionModifier⟩
instance : Occ HavingClause := ⟨ocHavingClause⟩
instance : Occ OrderClause := ⟨ocOrderClause⟩
instance : Occ OrderCondition := ⟨ocOrderCondition⟩
instance : Occ OrderExpression := ⟨ocOrderExpression⟩
instance : Occ GroupClause := ⟨ocGroupClause⟩
instance : Occ GroupCondition := ⟨ocGroupCondition⟩
instance : Occ SelectQuery := ⟨ocSelectQuery⟩
instance : Occ AskQuery := ⟨ocAskQuery⟩
instance : Occ DescribeQuery := ⟨ocDescribeQuery⟩
instance : Occ SubConstruct := ⟨ocSubConstruct⟩
instance : Occ SubTriples := ⟨ocSubTriples⟩
instance : Occ ConstructQuery := ⟨ocConstructQuery⟩
instance : Occ SparqlQuery := ⟨ocSparqlQuery⟩
instance : Occ SparqlQueryStatement := ⟨ocSparqlQueryStatement⟩
instance : Occ GraphOrDefault := ⟨ocGraphOrDefault⟩
instance : Occ GraphRefAll := ⟨ocGraphRefAll⟩
instance : Occ LoadStatement := ⟨ocLoadStatement⟩
instance : Occ ClearStatement := ⟨ocClearStatement⟩
instance : Occ DropStatement := ⟨ocDropStatement⟩
instance : Occ CreateStatement := ⟨ocCreateStatement⟩
instance : Occ AddStatement := ⟨ocAddStatement⟩
instance : Occ MoveStatement := ⟨ocMoveStatement⟩
instance : Occ CopyStatement := ⟨ocCopyStatement⟩
instance : Occ DeleteInsert := ⟨ocDeleteInsert⟩
instance : Occ ModifyStatement := ⟨ocModifyStatement⟩
instance : Occ UpdateStatement := ⟨ocUpdateStatement⟩
instance : Occ Update := ⟨ocUpdate⟩

/-- `c` is in no comment: on no line does it stand behind a `#`.  (A `#` inside an IRI or a string counts too, so this asks for more than is needed.) -/
def PlainIn (c : Char) (s : Str) : Prop := ∀ a body b, s = a ++ '#' :: (body ++ c :: b) → '\n' ∈ body ∨ '\r' ∈ body

end NomSparql
