import Verif.Model.Ast

/-!
# A syntax tree with other numbers

`renumX f` applies `f` to every number in a tree of type `X` and leaves everything else as it is.
-/

namespace NomSparql

def renumGraphTerm (f : NumericLiteral → NumericLiteral) : GraphTerm → GraphTerm
  | .iri a0 => .iri a0
  | .rdfLiteral a0 => .rdfLiteral a0
  | .numericLiteral a0 => .numericLiteral (f a0)
  | .booleanLiteral a0 => .booleanLiteral a0
  | .blankNode a0 => .blankNode a0
  | .nil => .nil
def renumVarOrTerm (f : NumericLiteral → NumericLiteral) : VarOrTerm → VarOrTerm
  | .var a0 => .var a0
  | .term a0 => .term (renumGraphTerm f a0)
def renumDataBlockValue (f : NumericLiteral → NumericLiteral) : DataBlockValue → DataBlockValue
  | .iri a0 => .iri a0
  | .rdfLiteral a0 => .rdfLiteral a0
  | .numericLiteral a0 => .numericLiteral (f a0)
  | .booleanLiteral a0 => .booleanLiteral a0
  | .undef => .undef
def renumInlineDataOneVar (f : NumericLiteral → NumericLiteral) : InlineDataOneVar → InlineDataOneVar
  | ⟨a0, a1⟩ => ⟨a0, List.map (renumDataBlockValue f) a1⟩
def renumInlineDataFull (f : NumericLiteral → NumericLiteral) : InlineDataFull → InlineDataFull
  | ⟨a0, a1⟩ => ⟨a0, List.map (List.map (renumDataBlockValue f)) a1⟩
def renumDataBlock (f : NumericLiteral → NumericLiteral) : DataBlock → DataBlock
  | .inlineDataOneVar a0 => .inlineDataOneVar (renumInlineDataOneVar f a0)
  | .inlineDataFull a0 => .inlineDataFull (renumInlineDataFull f a0)
mutual
def renumGraphNode (f : NumericLiteral → NumericLiteral) : GraphNode → GraphNode
  | .varOrTerm a0 => .varOrTerm (renumVarOrTerm f a0)
  | .triplesNode a0 => .triplesNode (renumTriplesNode f a0)
def renumTriplesNode (f : NumericLiteral → NumericLiteral) : TriplesNode → TriplesNode
  | .collection a0 => .collection (renumListGraphNode f a0)
  | .blankNodePropertyList a0 => .blankNodePropertyList (renumPropertyList f a0)
def renumPropertyList (f : NumericLiteral → NumericLiteral) : PropertyList → PropertyList
  | .mk a0 => .mk (renumListVerbList f a0)
def renumVerbList (f : NumericLiteral → NumericLiteral) : VerbList → VerbList
  | .mk a0 a1 => .mk a0 (renumListGraphNode f a1)
def renumListGraphNode (f : NumericLiteral → NumericLiteral) : List GraphNode → List GraphNode
  | [] => []
  | a :: l => renumGraphNode f a :: renumListGraphNode f l
def renumListVerbList (f : NumericLiteral → NumericLiteral) : List VerbList → List VerbList
  | [] => []
  | a :: l => renumVerbList f a :: renumListVerbList f l
end
@[simp] theorem renumListGraphNode_eq (f : NumericLiteral → NumericLiteral) (l : List GraphNode) : renumListGraphNode f l = List.map (renumGraphNode f) l := by
  induction l with
  | nil => simp [renumListGraphNode]
  | cons a l ih => simp [renumListGraphNode, ih]
@[simp] theorem renumListVerbList_eq (f : NumericLiteral → NumericLiteral) (l : List VerbList) : renumListVerbList f l = List.map (renumVerbList f) l := by
  induction l with
  | nil => simp [renumListVerbList]
  | cons a l ih => simp [renumListVerbList, ih]
def renumTriplesSameSubject (f : NumericLiteral → NumericLiteral) : TriplesSameSubject → TriplesSameSubject
  | .term a0 a1 => .term (renumVarOrTerm f a0) (renumPropertyList f a1)
  | .node a0 a1 => .node (renumTriplesNode f a0) (Option.map (renumPropertyList f) a1)
def renumQuadsNotTriples (f : NumericLiteral → NumericLiteral) : QuadsNotTriples → QuadsNotTriples
  | ⟨a0, a1⟩ => ⟨a0, Option.map (List.map (renumTriplesSameSubject f)) a1⟩
def renumQuadsEntry (f : NumericLiteral → NumericLiteral) : QuadsEntry → QuadsEntry
  | ⟨a0, a1⟩ => ⟨renumQuadsNotTriples f a0, Option.map (List.map (renumTriplesSameSubject f)) a1⟩
def renumQuads (f : NumericLiteral → NumericLiteral) : Quads → Quads
  | ⟨a0, a1⟩ => ⟨Option.map (List.map (renumTriplesSameSubject f)) a0, List.map (renumQuadsEntry f) a1⟩
mutual
def renumPathAlternative (f : NumericLiteral → NumericLiteral) : PathAlternative → PathAlternative
  | .mk a0 => .mk (renumListPathSequence f a0)
def renumPathSequence (f : NumericLiteral → NumericLiteral) : PathSequence → PathSequence
  | .mk a0 => .mk (renumListPathEltOrInverse f a0)
def renumPathEltOrInverse (f : NumericLiteral → NumericLiteral) : PathEltOrInverse → PathEltOrInverse
  | .pathElt a0 => .pathElt (renumPathElt f a0)
  | .inverse a0 => .inverse (renumPathElt f a0)
def renumPathElt (f : NumericLiteral → NumericLiteral) : PathElt → PathElt
  | .mk a0 a1 => .mk (renumPathPrimary f a0) a1
def renumPathPrimary (f : NumericLiteral → NumericLiteral) : PathPrimary → PathPrimary
  | .iri a0 => .iri a0
  | .a => .a
  | .pathNegatedPropertySet a0 => .pathNegatedPropertySet a0
  | .path a0 => .path (renumPathAlternative f a0)
def renumListPathSequence (f : NumericLiteral → NumericLiteral) : List PathSequence → List PathSequence
  | [] => []
  | a :: l => renumPathSequence f a :: renumListPathSequence f l
def renumListPathEltOrInverse (f : NumericLiteral → NumericLiteral) : List PathEltOrInverse → List PathEltOrInverse
  | [] => []
  | a :: l => renumPathEltOrInverse f a :: renumListPathEltOrInverse f l
end
@[simp] theorem renumListPathSequence_eq (f : NumericLiteral → NumericLiteral) (l : List PathSequence) : renumListPathSequence f l = List.map (renumPathSequence f) l := by
  induction l with
  | nil => simp [renumListPathSequence]
  | cons a l ih => simp [renumListPathSequence, ih]
@[simp] theorem renumListPathEltOrInverse_eq (f : NumericLiteral → NumericLiteral) (l : List PathEltOrInverse) : renumListPathEltOrInverse f l = List.map (renumPathEltOrInverse f) l := by
  induction l with
  | nil => simp [renumListPathEltOrInverse]
  | cons a l ih => simp [renumListPathEltOrInverse, ih]
def renumVerbPathOrSimple (f : NumericLiteral → NumericLiteral) : VerbPathOrSimple → VerbPathOrSimple
  | .path a0 => .path (renumPathAlternative f a0)
  | .simple a0 => .simple a0
def renumPropertyListPathEntry (f : NumericLiteral → NumericLiteral) : PropertyListPathEntry → PropertyListPathEntry
  | ⟨a0, a1⟩ => ⟨renumVerbPathOrSimple f a0, List.map (renumGraphNode f) a1⟩
mutual
def renumGraphNodePath (f : NumericLiteral → NumericLiteral) : GraphNodePath → GraphNodePath
  | .varOrTerm a0 => .varOrTerm (renumVarOrTerm f a0)
  | .triplesNodePath a0 => .triplesNodePath (renumTriplesNodePath f a0)
def renumTriplesNodePath (f : NumericLiteral → NumericLiteral) : TriplesNodePath → TriplesNodePath
  | .collectionPath a0 => .collectionPath (renumListGraphNodePath f a0)
  | .blankNodePropertyListPath a0 => .blankNodePropertyListPath (renumPropertyListPath f a0)
def renumPropertyListPath (f : NumericLiteral → NumericLiteral) : PropertyListPath → PropertyListPath
  | .mk a0 a1 a2 => .mk (renumVerbPathOrSimple f a0) (renumListGraphNodePath f a1) (List.map (renumPropertyListPathEntry f) a2)
def renumListGraphNodePath (f : NumericLiteral → NumericLiteral) : List GraphNodePath → List GraphNodePath
  | [] => []
  | a :: l => renumGraphNodePath f a :: renumListGraphNodePath f l
end
@[simp] theorem renumListGraphNodePath_eq (f : NumericLiteral → NumericLiteral) (l : List GraphNodePath) : renumListGraphNodePath f l = List.map (renumGraphNodePath f) l := by
  induction l with
  | nil => simp [renumListGraphNodePath]
  | cons a l ih => simp [renumListGraphNodePath, ih]
def renumTriplesSameSubjectPath (f : NumericLiteral → NumericLiteral) : TriplesSameSubjectPath → TriplesSameSubjectPath
  | .term a0 a1 => .term (renumVarOrTerm f a0) (renumPropertyListPath f a1)
  | .node a0 a1 => .node (renumTriplesNodePath f a0) (Option.map (renumPropertyListPath f) a1)
def renumTriplesBlock (f : NumericLiteral → NumericLiteral) : TriplesBlock → TriplesBlock
  | ⟨a0⟩ => ⟨List.map (renumTriplesSameSubjectPath f) a0⟩
mutual
def renumExpression (f : NumericLiteral → NumericLiteral) : Expression → Expression
  | .mk a0 => .mk (renumListConditionalAndExpression f a0)
def renumConditionalAndExpression (f : NumericLiteral → NumericLiteral) : ConditionalAndExpression → ConditionalAndExpression
  | .mk a0 => .mk (renumListRelationalExpression f a0)
def renumRelationalExpression (f : NumericLiteral → NumericLiteral) : RelationalExpression → RelationalExpression
  | .mk a0 a1 => .mk (renumAdditiveExpression f a0) (renumOptionOpExpression f a1)
def renumOpExpression (f : NumericLiteral → NumericLiteral) : OpExpression → OpExpression
  | .eq a0 => .eq (renumAdditiveExpression f a0)
  | .ne a0 => .ne (renumAdditiveExpression f a0)
  | .lt a0 => .lt (renumAdditiveExpression f a0)
  | .gt a0 => .gt (renumAdditiveExpression f a0)
  | .le a0 => .le (renumAdditiveExpression f a0)
  | .ge a0 => .ge (renumAdditiveExpression f a0)
  | .in a0 => .in (renumExpressionList f a0)
  | .nin a0 => .nin (renumExpressionList f a0)
def renumAdditiveExpression (f : NumericLiteral → NumericLiteral) : AdditiveExpression → AdditiveExpression
  | .mk a0 a1 => .mk (renumMultiplicativeExpression f a0) (renumListAddExpression f a1)
def renumAddExpression (f : NumericLiteral → NumericLiteral) : AddExpression → AddExpression
  | .add a0 => .add (renumMultiplicativeExpression f a0)
  | .sub a0 => .sub (renumMultiplicativeExpression f a0)
  | .numeric a0 a1 => .numeric (f a0) (renumListMultExpression f a1)
def renumMultiplicativeExpression (f : NumericLiteral → NumericLiteral) : MultiplicativeExpression → MultiplicativeExpression
  | .mk a0 a1 => .mk (renumUnaryExpression f a0) (renumListMultExpression f a1)
def renumMultExpression (f : NumericLiteral → NumericLiteral) : MultExpression → MultExpression
  | .mult a0 => .mult (renumUnaryExpression f a0)
  | .div a0 => .div (renumUnaryExpression f a0)
def renumUnaryExpression (f : NumericLiteral → NumericLiteral) : UnaryExpression → UnaryExpression
  | .not a0 => .not (renumPrimaryExpression f a0)
  | .add a0 => .add (renumPrimaryExpression f a0)
  | .sub a0 => .sub (renumPrimaryExpression f a0)
  | .default a0 => .default (renumPrimaryExpression f a0)
def renumPrimaryExpression (f : NumericLiteral → NumericLiteral) : PrimaryExpression → PrimaryExpression
  | .brackettedExpression a0 => .brackettedExpression (renumExpression f a0)
  | .builtInCall a0 => .builtInCall (renumBuiltInCall f a0)
  | .iriOrFunction a0 => .iriOrFunction (renumIriOrFunction f a0)
  | .rdfLiteral a0 => .rdfLiteral a0
  | .numericLiteral a0 => .numericLiteral (f a0)
  | .booleanLiteral a0 => .booleanLiteral a0
  | .var a0 => .var a0
def renumExpressionList (f : NumericLiteral → NumericLiteral) : ExpressionList → ExpressionList
  | .nil => .nil
  | .list a0 => .list (renumListExpression f a0)
def renumIriOrFunction (f : NumericLiteral → NumericLiteral) : IriOrFunction → IriOrFunction
  | .mk a0 a1 => .mk a0 (renumOptionArgList f a1)
def renumArgList (f : NumericLiteral → NumericLiteral) : ArgList → ArgList
  | .nil => .nil
  | .expression a0 a1 => .expression a0 (renumListExpression f a1)
def renumDistinctExpression (f : NumericLiteral → NumericLiteral) : DistinctExpression → DistinctExpression
  | .mk a0 a1 => .mk a0 (renumExpression f a1)
def renumExpressionAsVar (f : NumericLiteral → NumericLiteral) : ExpressionAsVar → ExpressionAsVar
  | .mk a0 a1 => .mk (renumExpression f a0) a1
def renumExpressionAsVarOpt (f : NumericLiteral → NumericLiteral) : ExpressionAsVarOpt → ExpressionAsVarOpt
  | .mk a0 a1 => .mk (renumExpression f a0) a1
def renumRegexExpression (f : NumericLiteral → NumericLiteral) : RegexExpression → RegexExpression
  | .mk a0 a1 a2 => .mk (renumExpression f a0) (renumExpression f a1) (renumOptionExpression f a2)
def renumStrReplaceExpression (f : NumericLiteral → NumericLiteral) : StrReplaceExpression → StrReplaceExpression
  | .mk a0 a1 a2 a3 => .mk (renumExpression f a0) (renumExpression f a1) (renumExpression f a2) (renumOptionExpression f a3)
def renumConstraint (f : NumericLiteral → NumericLiteral) : Constraint → Constraint
  | .bracketted a0 => .bracketted (renumExpression f a0)
  | .builtInCall a0 => .builtInCall (renumBuiltInCall f a0)
  | .functionCall a0 => .functionCall (renumFunctionCall f a0)
def renumFunctionCall (f : NumericLiteral → NumericLiteral) : FunctionCall → FunctionCall
  | .mk a0 a1 => .mk a0 (renumArgList f a1)
def renumBuiltInCall (f : NumericLiteral → NumericLiteral) : BuiltInCall → BuiltInCall
  | .aggregate a0 => .aggregate (renumAggregate f a0)
  | .str a0 => .str (renumExpression f a0)
  | .lang a0 => .lang (renumExpression f a0)
  | .langMatches a0 a1 => .langMatches (renumExpression f a0) (renumExpression f a1)
  | .datatype a0 => .datatype (renumExpression f a0)
  | .bound a0 => .bound a0
  | .iri a0 => .iri (renumExpression f a0)
  | .uri a0 => .uri (renumExpression f a0)
  | .bnode a0 => .bnode (renumOptionExpression f a0)
  | .rand => .rand
  | .abs a0 => .abs (renumExpression f a0)
  | .ceil a0 => .ceil (renumExpression f a0)
  | .floor a0 => .floor (renumExpression f a0)
  | .round a0 => .round (renumExpression f a0)
  | .concat a0 a1 => .concat (renumExpressionList f a0) (renumRegexExpression f a1)
  | .strLen a0 a1 => .strLen (renumExpression f a0) (renumStrReplaceExpression f a1)
  | .uCase a0 => .uCase (renumExpression f a0)
  | .lCase a0 => .lCase (renumExpression f a0)
  | .encodeForUri a0 => .encodeForUri (renumExpression f a0)
  | .contains a0 a1 => .contains (renumExpression f a0) (renumExpression f a1)
  | .strStarts a0 a1 => .strStarts (renumExpression f a0) (renumExpression f a1)
  | .strEnds a0 a1 => .strEnds (renumExpression f a0) (renumExpression f a1)
  | .strBefore a0 a1 => .strBefore (renumExpression f a0) (renumExpression f a1)
  | .strAfter a0 a1 => .strAfter (renumExpression f a0) (renumExpression f a1)
  | .year a0 => .year (renumExpression f a0)
  | .month a0 => .month (renumExpression f a0)
  | .day a0 => .day (renumExpression f a0)
  | .hours a0 => .hours (renumExpression f a0)
  | .minutes a0 => .minutes (renumExpression f a0)
  | .seconds a0 => .seconds (renumExpression f a0)
  | .timezone a0 => .timezone (renumExpression f a0)
  | .tz a0 => .tz (renumExpression f a0)
  | .now => .now
  | .uuid => .uuid
  | .strUuid => .strUuid
  | .md5 a0 => .md5 (renumExpression f a0)
  | .sha1 a0 => .sha1 (renumExpression f a0)
  | .sha256 a0 => .sha256 (renumExpression f a0)
  | .sha384 a0 => .sha384 (renumExpression f a0)
  | .sha512 a0 => .sha512 (renumExpression f a0)
  | .coalesce a0 => .coalesce (renumExpressionList f a0)
  | .if a0 a1 a2 => .if (renumExpression f a0) (renumExpression f a1) (renumExpression f a2)
  | .strLang a0 a1 => .strLang (renumExpression f a0) (renumExpression f a1)
  | .strDt a0 a1 => .strDt (renumExpression f a0) (renumExpression f a1)
  | .sameTerm a0 a1 => .sameTerm (renumExpression f a0) (renumExpression f a1)
  | .isIri a0 => .isIri (renumExpression f a0)
  | .isUri a0 => .isUri (renumExpression f a0)
  | .isBlank a0 => .isBlank (renumExpression f a0)
  | .isLiteral a0 => .isLiteral (renumExpression f a0)
  | .isNumeric a0 => .isNumeric (renumExpression f a0)
  | .regex a0 => .regex (renumRegexExpression f a0)
  | .existsFunc a0 => .existsFunc (renumGroupGraphPattern f a0)
  | .notExistsFunc a0 => .notExistsFunc (renumGroupGraphPattern f a0)
def renumAggregate (f : NumericLiteral → NumericLiteral) : Aggregate → Aggregate
  | .count a0 => .count (renumCount f a0)
  | .sum a0 => .sum (renumDistinctExpression f a0)
  | .min a0 => .min (renumDistinctExpression f a0)
  | .max a0 => .max (renumDistinctExpression f a0)
  | .avg a0 => .avg (renumDistinctExpression f a0)
  | .sample a0 => .sample (renumDistinctExpression f a0)
  | .groupConcat a0 => .groupConcat (renumGroupConcat f a0)
def renumCount (f : NumericLiteral → NumericLiteral) : Count → Count
  | .mk a0 a1 => .mk a0 (renumCountTarget f a1)
def renumCountTarget (f : NumericLiteral → NumericLiteral) : CountTarget → CountTarget
  | .all => .all
  | .expr a0 => .expr (renumExpression f a0)
def renumGroupConcat (f : NumericLiteral → NumericLiteral) : GroupConcat → GroupConcat
  | .mk a0 a1 => .mk (renumDistinctExpression f a0) a1
def renumGroupGraphPattern (f : NumericLiteral → NumericLiteral) : GroupGraphPattern → GroupGraphPattern
  | .subSelect a0 => .subSelect (renumSubSelect f a0)
  | .groupGraphPatternSub a0 => .groupGraphPatternSub (renumGroupGraphPatternSub f a0)
def renumGroupGraphPatternSub (f : NumericLiteral → NumericLiteral) : GroupGraphPatternSub → GroupGraphPatternSub
  | .mk a0 a1 => .mk (Option.map (renumTriplesBlock f) a0) (renumListGraphPatternAndTriples f a1)
def renumGraphPatternAndTriples (f : NumericLiteral → NumericLiteral) : GraphPatternAndTriples → GraphPatternAndTriples
  | .mk a0 a1 => .mk (renumGraphPatternNotTriples f a0) (Option.map (renumTriplesBlock f) a1)
def renumGraphPatternNotTriples (f : NumericLiteral → NumericLiteral) : GraphPatternNotTriples → GraphPatternNotTriples
  | .optional a0 => .optional (renumGroupGraphPattern f a0)
  | .groupOrUnion a0 => .groupOrUnion (renumListGroupGraphPattern f a0)
  | .minus a0 => .minus (renumGroupGraphPattern f a0)
  | .graph a0 => .graph (renumGraphGraphPattern f a0)
  | .service a0 => .service (renumServiceGraphPattern f a0)
  | .filter a0 => .filter (renumConstraint f a0)
  | .bind a0 => .bind (renumExpressionAsVar f a0)
  | .inlineData a0 => .inlineData (renumDataBlock f a0)
def renumGraphGraphPattern (f : NumericLiteral → NumericLiteral) : GraphGraphPattern → GraphGraphPattern
  | .mk a0 a1 => .mk a0 (renumGroupGraphPattern f a1)
def renumServiceGraphPattern (f : NumericLiteral → NumericLiteral) : ServiceGraphPattern → ServiceGraphPattern
  | .mk a0 a1 a2 => .mk a0 a1 (renumGroupGraphPattern f a2)
def renumSubSelect (f : NumericLiteral → NumericLiteral) : SubSelect → SubSelect
  | .mk a0 a1 a2 a3 => .mk (renumSelectClause f a0) (renumGroupGraphPattern f a1) (renumSolutionModifier f a2) (Option.map (renumDataBlock f) a3)
def renumSelectClause (f : NumericLiteral → NumericLiteral) : SelectClause → SelectClause
  | .mk a0 a1 => .mk a0 (renumSelectVars f a1)
def renumSelectVars (f : NumericLiteral → NumericLiteral) : SelectVars → SelectVars
  | .varOrExpressionAsVar a0 => .varOrExpressionAsVar (renumListVarOrExpressionAsVar f a0)
  | .all => .all
def renumVarOrExpressionAsVar (f : NumericLiteral → NumericLiteral) : VarOrExpressionAsVar → VarOrExpressionAsVar
  | .var a0 => .var a0
  | .expressionAsVar a0 => .expressionAsVar (renumExpressionAsVar f a0)
def renumSolutionModifier (f : NumericLiteral → NumericLiteral) : SolutionModifier → SolutionModifier
  | .mk a0 a1 a2 a3 => .mk (renumOptionOrderClause f a0) (renumOptionGroupClause f a1) (renumOptionHavingClause f a2) a3
def renumHavingClause (f : NumericLiteral → NumericLiteral) : HavingClause → HavingClause
  | .mk a0 => .mk (renumListConstraint f a0)
def renumOrderClause (f : NumericLiteral → NumericLiteral) : OrderClause → OrderClause
  | .mk a0 => .mk (renumListOrderCondition f a0)
def renumOrderCondition (f : NumericLiteral → NumericLiteral) : OrderCondition → OrderCondition
  | .order a0 => .order (renumOrderExpression f a0)
  | .constraint a0 => .constraint (renumConstraint f a0)
  | .var a0 => .var a0
def renumOrderExpression (f : NumericLiteral → NumericLiteral) : OrderExpression → OrderExpression
  | .mk a0 a1 => .mk a0 (renumExpression f a1)
def renumGroupClause (f : NumericLiteral → NumericLiteral) : GroupClause → GroupClause
  | .mk a0 => .mk (renumListGroupCondition f a0)
def renumGroupCondition (f : NumericLiteral → NumericLiteral) : GroupCondition → GroupCondition
  | .builtInCall a0 => .builtInCall (renumBuiltInCall f a0)
  | .functionCall a0 => .functionCall (renumFunctionCall f a0)
  | .expressionAsVarOpt a0 => .expressionAsVarOpt (renumExpressionAsVarOpt f a0)
  | .var a0 => .var a0
def renumListConditionalAndExpression (f : NumericLiteral → NumericLiteral) : List ConditionalAndExpression → List ConditionalAndExpression
  | [] => []
  | a :: l => renumConditionalAndExpression f a :: renumListConditionalAndExpression f l
def renumListRelationalExpression (f : NumericLiteral → NumericLiteral) : List RelationalExpression → List RelationalExpression
  | [] => []
  | a :: l => renumRelationalExpression f a :: renumListRelationalExpression f l
def renumOptionOpExpression (f : NumericLiteral → NumericLiteral) : Option OpExpression → Option OpExpression
  | none => none
  | some a => some (renumOpExpression f a)
def renumListAddExpression (f : NumericLiteral → NumericLiteral) : List AddExpression → List AddExpression
  | [] => []
  | a :: l => renumAddExpression f a :: renumListAddExpression f l
def renumListMultExpression (f : NumericLiteral → NumericLiteral) : List MultExpression → List MultExpression
  | [] => []
  | a :: l => renumMultExpression f a :: renumListMultExpression f l
def renumListExpression (f : NumericLiteral → NumericLiteral) : List Expression → List Expression
  | [] => []
  | a :: l => renumExpression f a :: renumListExpression f l
def renumOptionArgList (f : NumericLiteral → NumericLiteral) : Option ArgList → Option ArgList
  | none => none
  | some a => some (renumArgList f a)
def renumOptionExpression (f : NumericLiteral → NumericLiteral) : Option Expression → Option Expression
  | none => none
  | some a => some (renumExpression f a)
def renumListGraphPatternAndTriples (f : NumericLiteral → NumericLiteral) : List GraphPatternAndTriples → List GraphPatternAndTriples
  | [] => []
  | a :: l => renumGraphPatternAndTriples f a :: renumListGraphPatternAndTriples f l
def renumListGroupGraphPattern (f : NumericLiteral → NumericLiteral) : List GroupGraphPattern → List GroupGraphPattern
  | [] => []
  | a :: l => renumGroupGraphPattern f a :: renumListGroupGraphPattern f l
def renumListVarOrExpressionAsVar (f : NumericLiteral → NumericLiteral) : List VarOrExpressionAsVar → List VarOrExpressionAsVar
  | [] => []
  | a :: l => renumVarOrExpressionAsVar f a :: renumListVarOrExpressionAsVar f l
def renumOptionOrderClause (f : NumericLiteral → NumericLiteral) : Option OrderClause → Option OrderClause
  | none => none
  | some a => some (renumOrderClause f a)
def renumOptionGroupClause (f : NumericLiteral → NumericLiteral) : Option GroupClause → Option GroupClause
  | none => none
  | some a => some (renumGroupClause f a)
def renumOptionHavingClause (f : NumericLiteral → NumericLiteral) : Option HavingClause → Option HavingClause
  | none => none
  | some a => some (renumHavingClause f a)
def renumListConstraint (f : NumericLiteral → NumericLiteral) : List Constraint → List Constraint
  | [] => []
  | a :: l => renumConstraint f a :: renumListConstraint f l
def renumListOrderCondition (f : NumericLiteral → NumericLiteral) : List OrderCondition → List OrderCondition
  | [] => []
  | a :: l => renumOrderCondition f a :: renumListOrderCondition f l
def renumListGroupCondition (f : NumericLiteral → NumericLiteral) : List GroupCondition → List GroupCondition
  | [] => []
  | a :: l => renumGroupCondition f a :: renumListGroupCondition f l
end
@[simp] theorem renumListConditionalAndExpression_eq (f : NumericLiteral → NumericLiteral) (l : List ConditionalAndExpression) : renumListConditionalAndExpression f l = List.map (renumConditionalAndExpression f) l := by
  induction l with
  | nil => simp [renumListConditionalAndExpression]
  | cons a l ih => simp [renumListConditionalAndExpression, ih]
@[simp] theorem renumListRelationalExpression_eq (f : NumericLiteral → NumericLiteral) (l : List RelationalExpression) : renumListRelationalExpression f l = List.map (renumRelationalExpression f) l := by
  induction l with
  | nil => simp [renumListRelationalExpression]
  | cons a l ih => simp [renumListRelationalExpression, ih]
@[simp] theorem renumOptionOpExpression_eq (f : NumericLiteral → NumericLiteral) (l : Option OpExpression) : renumOptionOpExpression f l = Option.map (renumOpExpression f) l := by cases l <;> simp [renumOptionOpExpression]
@[simp] theorem renumListAddExpression_eq (f : NumericLiteral → NumericLiteral) (l : List AddExpression) : renumListAddExpression f l = List.map (renumAddExpression f) l := by
  induction l with
  | nil => simp [renumListAddExpression]
  | cons a l ih => simp [renumListAddExpression, ih]
@[simp] theorem renumListMultExpression_eq (f : NumericLiteral → NumericLiteral) (l : List MultExpression) : renumListMultExpression f l = List.map (renumMultExpression f) l := by
  induction l with
  | nil => simp [renumListMultExpression]
  | cons a l ih => simp [renumListMultExpression, ih]
@[simp] theorem renumListExpression_eq (f : NumericLiteral → NumericLiteral) (l : List Expression) : renumListExpression f l = List.map (renumExpression f) l := by
  induction l with
  | nil => simp [renumListExpression]
  | cons a l ih => simp [renumListExpression, ih]
@[simp] theorem renumOptionArgList_eq (f : NumericLiteral → NumericLiteral) (l : Option ArgList) : renumOptionArgList f l = Option.map (renumArgList f) l := by cases l <;> simp [renumOptionArgList]
@[simp] theorem renumOptionExpression_eq (f : NumericLiteral → NumericLiteral) (l : Option Expression) : renumOptionExpression f l = Option.map (renumExpression f) l := by cases l <;> simp [renumOptionExpression]
@[simp] theorem renumListGraphPatternAndTriples_eq (f : NumericLiteral → NumericLiteral) (l : List GraphPatternAndTriples) : renumListGraphPatternAndTriples f l = List.map (renumGraphPatternAndTriples f) l := by
  induction l with
  | nil => simp [renumListGraphPatternAndTriples]
  | cons a l ih => simp [renumListGraphPatternAndTriples, ih]
@[simp] theorem renumListGroupGraphPattern_eq (f : NumericLiteral → NumericLiteral) (l : List GroupGraphPattern) : renumListGroupGraphPattern f l = List.map (renumGroupGraphPattern f) l := by
  induction l with
  | nil => simp [renumListGroupGraphPattern]
  | cons a l ih => simp [renumListGroupGraphPattern, ih]
@[simp] theorem renumListVarOrExpressionAsVar_eq (f : NumericLiteral → NumericLiteral) (l : List VarOrExpressionAsVar) : renumListVarOrExpressionAsVar f l = List.map (renumVarOrExpressionAsVar f) l := by
  induction l with
  | nil => simp [renumListVarOrExpressionAsVar]
  | cons a l ih => simp [renumListVarOrExpressionAsVar, ih]
@[simp] theorem renumOptionOrderClause_eq (f : NumericLiteral → NumericLiteral) (l : Option OrderClause) : renumOptionOrderClause f l = Option.map (renumOrderClause f) l := by cases l <;> simp [renumOptionOrderClause]
@[simp] theorem renumOptionGroupClause_eq (f : NumericLiteral → NumericLiteral) (l : Option GroupClause) : renumOptionGroupClause f l = Option.map (renumGroupClause f) l := by cases l <;> simp [renumOptionGroupClause]
@[simp] theorem renumOptionHavingClause_eq (f : NumericLiteral → NumericLiteral) (l : Option HavingClause) : renumOptionHavingClause f l = Option.map (renumHavingClause f) l := by cases l <;> simp [renumOptionHavingClause]
@[simp] theorem renumListConstraint_eq (f : NumericLiteral → NumericLiteral) (l : List Constraint) : renumListConstraint f l = List.map (renumConstraint f) l := by
  induction l with
  | nil => simp [renumListConstraint]
  | cons a l ih => simp [renumListConstraint, ih]
@[simp] theorem renumListOrderCondition_eq (f : NumericLiteral → NumericLiteral) (l : List OrderCondition) : renumListOrderCondition f l = List.map (renumOrderCondition f) l := by
  induction l with
  | nil => simp [renumListOrderCondition]
  | cons a l ih => simp [renumListOrderCondition, ih]
@[simp] theorem renumListGroupCondition_eq (f : NumericLiteral → NumericLiteral) (l : List GroupCondition) : renumListGroupCondition f l = List.map (renumGroupCondition f) l := by
  induction l with
  | nil => simp [renumListGroupCondition]
  | cons a l ih => simp [renumListGroupCondition, ih]
def renumSelectQuery (f : NumericLiteral → NumericLiteral) : SelectQuery → SelectQuery
  | ⟨a0, a1, a2, a3⟩ => ⟨renumSelectClause f a0, a1, renumGroupGraphPattern f a2, renumSolutionModifier f a3⟩
def renumAskQuery (f : NumericLiteral → NumericLiteral) : AskQuery → AskQuery
  | ⟨a0, a1, a2⟩ => ⟨a0, renumGroupGraphPattern f a1, renumSolutionModifier f a2⟩
def renumDescribeQuery (f : NumericLiteral → NumericLiteral) : DescribeQuery → DescribeQuery
  | ⟨a0, a1, a2, a3⟩ => ⟨a0, a1, Option.map (renumGroupGraphPattern f) a2, renumSolutionModifier f a3⟩
def renumSubConstruct (f : NumericLiteral → NumericLiteral) : SubConstruct → SubConstruct
  | ⟨a0, a1, a2, a3⟩ => ⟨List.map (renumTriplesSameSubject f) a0, a1, renumGroupGraphPattern f a2, renumSolutionModifier f a3⟩
def renumSubTriples (f : NumericLiteral → NumericLiteral) : SubTriples → SubTriples
  | ⟨a0, a1, a2⟩ => ⟨a0, Option.map (List.map (renumTriplesSameSubject f)) a1, renumSolutionModifier f a2⟩
def renumConstructQuery (f : NumericLiteral → NumericLiteral) : ConstructQuery → ConstructQuery
  | .subConstruct a0 => .subConstruct (renumSubConstruct f a0)
  | .subTriples a0 => .subTriples (renumSubTriples f a0)
def renumSparqlQuery (f : NumericLiteral → NumericLiteral) : SparqlQuery → SparqlQuery
  | .ask a0 => .ask (renumAskQuery f a0)
  | .select a0 => .select (renumSelectQuery f a0)
  | .describe a0 => .describe (renumDescribeQuery f a0)
  | .construct a0 => .construct (renumConstructQuery f a0)
def renumSparqlQueryStatement (f : NumericLiteral → NumericLiteral) : SparqlQueryStatement → SparqlQueryStatement
  | ⟨a0, a1, a2⟩ => ⟨a0, renumSparqlQuery f a1, Option.map (renumDataBlock f) a2⟩
def renumDeleteInsert (f : NumericLiteral → NumericLiteral) : DeleteInsert → DeleteInsert
  | .deleteInsert a0 a1 => .deleteInsert (renumQuads f a0) (Option.map (renumQuads f) a1)
  | .insert a0 => .insert (renumQuads f a0)
def renumModifyStatement (f : NumericLiteral → NumericLiteral) : ModifyStatement → ModifyStatement
  | ⟨a0, a1, a2, a3⟩ => ⟨a0, renumDeleteInsert f a1, a2, renumGroupGraphPattern f a3⟩
def renumUpdateStatement (f : NumericLiteral → NumericLiteral) : UpdateStatement → UpdateStatement
  | .load a0 => .load a0
  | .clear a0 => .clear a0
  | .drop a0 => .drop a0
  | .create a0 => .create a0
  | .add a0 => .add a0
  | .move a0 => .move a0
  | .copy a0 => .copy a0
  | .insertData a0 => .insertData (renumQuads f a0)
  | .deleteData a0 => .deleteData (renumQuads f a0)
  | .deleteWhere a0 => .deleteWhere (renumQuads f a0)
  | .modify a0 => .modify (renumModifyStatement f a0)
def renumUpdate (f : NumericLiteral → NumericLiteral) : Update → Update
  | .mk a0 a1 none => .mk a0 (Option.map (renumUpdateStatement f) a1) none
  | .mk a0 a1 (some a2) => .mk a0 (Option.map (renumUpdateStatement f) a1) (some (renumUpdate f a2))

end NomSparql
