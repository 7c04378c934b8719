import Verif.Model.Ast
import Verif.Model.Float

/-!
# `==` of the syntax trees

Every type of the trees has `#[derive(PartialEq)]`: two values are equal if they have the same constructor and equal fields.  Numbers are compared with
`NumericLiteral.rustEq` (Model/Float), everything without numbers inside and without recursion with the equality of Lean.  `Vec`, `Option` and `Box` compare
their contents.
-/

namespace NomSparql

/-- `PartialEq` of `Vec` -/
def rsEqList (e : α → α → Bool) : List α → List α → Bool
  | [], [] => true
  | a :: l, b :: m => e a b && rsEqList e l m
  | _, _ => false

/-- `PartialEq` of `Option` -/
def rsEqOption (e : α → α → Bool) : Option α → Option α → Bool
  | none, none => true
  | some a, some b => e a b
  | _, _ => false

/-- src/graph.rs:36-45, derived `PartialEq` -/
def rsEqGraphTerm : GraphTerm → GraphTerm → Bool
  | .iri a0, y => match y with
    | .iri b0 => a0 == b0
    | _ => false
  | .rdfLiteral a0, y => match y with
    | .rdfLiteral b0 => a0 == b0
    | _ => false
  | .numericLiteral a0, y => match y with
    | .numericLiteral b0 => NumericLiteral.rustEq a0 b0
    | _ => false
  | .booleanLiteral a0, y => match y with
    | .booleanLiteral b0 => a0 == b0
    | _ => false
  | .blankNode a0, y => match y with
    | .blankNode b0 => a0 == b0
    | _ => false
  | .nil, y => match y with
    | .nil => true
    | _ => false
/-- src/var.rs:27-31, derived `PartialEq` -/
def rsEqVarOrTerm : VarOrTerm → VarOrTerm → Bool
  | .var a0, y => match y with
    | .var b0 => a0 == b0
    | _ => false
  | .term a0, y => match y with
    | .term b0 => rsEqGraphTerm a0 b0
    | _ => false
/-- src/data.rs:40-49, derived `PartialEq` -/
def rsEqDataBlockValue : DataBlockValue → DataBlockValue → Bool
  | .iri a0, y => match y with
    | .iri b0 => a0 == b0
    | _ => false
  | .rdfLiteral a0, y => match y with
    | .rdfLiteral b0 => a0 == b0
    | _ => false
  | .numericLiteral a0, y => match y with
    | .numericLiteral b0 => NumericLiteral.rustEq a0 b0
    | _ => false
  | .booleanLiteral a0, y => match y with
    | .booleanLiteral b0 => a0 == b0
    | _ => false
  | .undef, y => match y with
    | .undef => true
    | _ => false
/-- src/data.rs:28-32, derived `PartialEq` -/
def rsEqInlineDataOneVar : InlineDataOneVar → InlineDataOneVar → Bool
  | ⟨a0, a1⟩, y => match y with
    | ⟨b0, b1⟩ => a0 == b0 && rsEqList rsEqDataBlockValue a1 b1
/-- src/data.rs:34-38, derived `PartialEq` -/
def rsEqInlineDataFull : InlineDataFull → InlineDataFull → Bool
  | ⟨a0, a1⟩, y => match y with
    | ⟨b0, b1⟩ => a0 == b0 && rsEqList (rsEqList rsEqDataBlockValue) a1 b1
/-- src/data.rs:22-26, derived `PartialEq` -/
def rsEqDataBlock : DataBlock → DataBlock → Bool
  | .inlineDataOneVar a0, y => match y with
    | .inlineDataOneVar b0 => rsEqInlineDataOneVar a0 b0
    | _ => false
  | .inlineDataFull a0, y => match y with
    | .inlineDataFull b0 => rsEqInlineDataFull a0 b0
    | _ => false
mutual
/-- src/graph.rs:67-71, derived `PartialEq` -/
def rsEqGraphNode : GraphNode → GraphNode → Bool
  | .varOrTerm a0, y => match y with
    | .varOrTerm b0 => rsEqVarOrTerm a0 b0
    | _ => false
  | .triplesNode a0, y => match y with
    | .triplesNode b0 => rsEqTriplesNode a0 b0
    | _ => false
termination_by structural x => x
/-- src/node.rs:51-55, derived `PartialEq` -/
def rsEqTriplesNode : TriplesNode → TriplesNode → Bool
  | .collection a0, y => match y with
    | .collection b0 => rsEqListGraphNode a0 b0
    | _ => false
  | .blankNodePropertyList a0, y => match y with
    | .blankNodePropertyList b0 => rsEqPropertyList a0 b0
    | _ => false
termination_by structural x => x
/-- src/node.rs:9-10, derived `PartialEq` -/
def rsEqPropertyList : PropertyList → PropertyList → Bool
  | .mk a0, y => match y with
    | .mk b0 => rsEqListVerbList a0 b0
termination_by structural x => x
/-- src/var.rs:33-37, derived `PartialEq` -/
def rsEqVerbList : VerbList → VerbList → Bool
  | .mk a0 a1, y => match y with
    | .mk b0 b1 => a0 == b0 && rsEqListGraphNode a1 b1
termination_by structural x => x
/-- `PartialEq` of `Vec` -/
def rsEqListGraphNode : List GraphNode → List GraphNode → Bool
  | [], y => match y with
    | [] => true
    | _ => false
  | a :: l, y => match y with
    | b :: m => rsEqGraphNode a b && rsEqListGraphNode l m
    | _ => false
termination_by structural x => x
/-- `PartialEq` of `Vec` -/
def rsEqListVerbList : List VerbList → List VerbList → Bool
  | [], y => match y with
    | [] => true
    | _ => false
  | a :: l, y => match y with
    | b :: m => rsEqVerbList a b && rsEqListVerbList l m
    | _ => false
termination_by structural x => x
end
/-- src/triple.rs:23-33, derived `PartialEq` -/
def rsEqTriplesSameSubject : TriplesSameSubject → TriplesSameSubject → Bool
  | .term a0 a1, y => match y with
    | .term b0 b1 => rsEqVarOrTerm a0 b0 && rsEqPropertyList a1 b1
    | _ => false
  | .node a0 a1, y => match y with
    | .node b0 b1 => rsEqTriplesNode a0 b0 && rsEqOption rsEqPropertyList a1 b1
    | _ => false
/-- src/quads.rs:36-40, derived `PartialEq` -/
def rsEqQuadsNotTriples : QuadsNotTriples → QuadsNotTriples → Bool
  | ⟨a0, a1⟩, y => match y with
    | ⟨b0, b1⟩ => a0 == b0 && rsEqOption (rsEqList rsEqTriplesSameSubject) a1 b1
/-- src/quads.rs:30-34, derived `PartialEq` -/
def rsEqQuadsEntry : QuadsEntry → QuadsEntry → Bool
  | ⟨a0, a1⟩, y => match y with
    | ⟨b0, b1⟩ => rsEqQuadsNotTriples a0 b0 && rsEqOption (rsEqList rsEqTriplesSameSubject) a1 b1
/-- src/quads.rs:24-28, derived `PartialEq` -/
def rsEqQuads : Quads → Quads → Bool
  | ⟨a0, a1⟩, y => match y with
    | ⟨b0, b1⟩ => rsEqOption (rsEqList rsEqTriplesSameSubject) a0 b0 && rsEqList rsEqQuadsEntry a1 b1
mutual
/-- src/path.rs:73-74, derived `PartialEq` -/
def rsEqPathAlternative : PathAlternative → PathAlternative → Bool
  | .mk a0, y => match y with
    | .mk b0 => rsEqListPathSequence a0 b0
termination_by structural x => x
/-- src/path.rs:76-77, derived `PartialEq` -/
def rsEqPathSequence : PathSequence → PathSequence → Bool
  | .mk a0, y => match y with
    | .mk b0 => rsEqListPathEltOrInverse a0 b0
termination_by structural x => x
/-- src/path.rs:79-83, derived `PartialEq` -/
def rsEqPathEltOrInverse : PathEltOrInverse → PathEltOrInverse → Bool
  | .pathElt a0, y => match y with
    | .pathElt b0 => rsEqPathElt a0 b0
    | _ => false
  | .inverse a0, y => match y with
    | .inverse b0 => rsEqPathElt a0 b0
    | _ => false
termination_by structural x => x
/-- src/path.rs:85-89, derived `PartialEq` -/
def rsEqPathElt : PathElt → PathElt → Bool
  | .mk a0 a1, y => match y with
    | .mk b0 b1 => rsEqPathPrimary a0 b0 && a1 == b1
termination_by structural x => x
/-- src/path.rs:111-117, derived `PartialEq` -/
def rsEqPathPrimary : PathPrimary → PathPrimary → Bool
  | .iri a0, y => match y with
    | .iri b0 => a0 == b0
    | _ => false
  | .a, y => match y with
    | .a => true
    | _ => false
  | .pathNegatedPropertySet a0, y => match y with
    | .pathNegatedPropertySet b0 => a0 == b0
    | _ => false
  | .path a0, y => match y with
    | .path b0 => rsEqPathAlternative a0 b0
    | _ => false
termination_by structural x => x
/-- `PartialEq` of `Vec` -/
def rsEqListPathSequence : List PathSequence → List PathSequence → Bool
  | [], y => match y with
    | [] => true
    | _ => false
  | a :: l, y => match y with
    | b :: m => rsEqPathSequence a b && rsEqListPathSequence l m
    | _ => false
termination_by structural x => x
/-- `PartialEq` of `Vec` -/
def rsEqListPathEltOrInverse : List PathEltOrInverse → List PathEltOrInverse → Bool
  | [], y => match y with
    | [] => true
    | _ => false
  | a :: l, y => match y with
    | b :: m => rsEqPathEltOrInverse a b && rsEqListPathEltOrInverse l m
    | _ => false
termination_by structural x => x
end
/-- src/path.rs:65-69, derived `PartialEq` -/
def rsEqVerbPathOrSimple : VerbPathOrSimple → VerbPathOrSimple → Bool
  | .path a0, y => match y with
    | .path b0 => rsEqPathAlternative a0 b0
    | _ => false
  | .simple a0, y => match y with
    | .simple b0 => a0 == b0
    | _ => false
/-- src/path.rs:56-60, derived `PartialEq` -/
def rsEqPropertyListPathEntry : PropertyListPathEntry → PropertyListPathEntry → Bool
  | ⟨a0, a1⟩, y => match y with
    | ⟨b0, b1⟩ => rsEqVerbPathOrSimple a0 b0 && rsEqList rsEqGraphNode a1 b1
mutual
/-- src/path.rs:25-29, derived `PartialEq` -/
def rsEqGraphNodePath : GraphNodePath → GraphNodePath → Bool
  | .varOrTerm a0, y => match y with
    | .varOrTerm b0 => rsEqVarOrTerm a0 b0
    | _ => false
  | .triplesNodePath a0, y => match y with
    | .triplesNodePath b0 => rsEqTriplesNodePath a0 b0
    | _ => false
termination_by structural x => x
/-- src/path.rs:30-34, derived `PartialEq` -/
def rsEqTriplesNodePath : TriplesNodePath → TriplesNodePath → Bool
  | .collectionPath a0, y => match y with
    | .collectionPath b0 => rsEqListGraphNodePath a0 b0
    | _ => false
  | .blankNodePropertyListPath a0, y => match y with
    | .blankNodePropertyListPath b0 => rsEqPropertyListPath a0 b0
    | _ => false
termination_by structural x => x
/-- src/path.rs:48-54, derived `PartialEq` -/
def rsEqPropertyListPath : PropertyListPath → PropertyListPath → Bool
  | .mk a0 a1 a2, y => match y with
    | .mk b0 b1 b2 => rsEqVerbPathOrSimple a0 b0 && rsEqListGraphNodePath a1 b1 && rsEqList rsEqPropertyListPathEntry a2 b2
termination_by structural x => x
/-- `PartialEq` of `Vec` -/
def rsEqListGraphNodePath : List GraphNodePath → List GraphNodePath → Bool
  | [], y => match y with
    | [] => true
    | _ => false
  | a :: l, y => match y with
    | b :: m => rsEqGraphNodePath a b && rsEqListGraphNodePath l m
    | _ => false
termination_by structural x => x
end
/-- src/path.rs:36-46, derived `PartialEq` -/
def rsEqTriplesSameSubjectPath : TriplesSameSubjectPath → TriplesSameSubjectPath → Bool
  | .term a0 a1, y => match y with
    | .term b0 b1 => rsEqVarOrTerm a0 b0 && rsEqPropertyListPath a1 b1
    | _ => false
  | .node a0 a1, y => match y with
    | .node b0 b1 => rsEqTriplesNodePath a0 b0 && rsEqOption rsEqPropertyListPath a1 b1
    | _ => false
/-- src/triple.rs:41-42, derived `PartialEq` -/
def rsEqTriplesBlock : TriplesBlock → TriplesBlock → Bool
  | ⟨a0⟩, y => match y with
    | ⟨b0⟩ => rsEqList rsEqTriplesSameSubjectPath a0 b0
mutual
/-- src/expression/mod.rs:24-25, derived `PartialEq` -/
def rsEqExpression : Expression → Expression → Bool
  | .mk a0, y => match y with
    | .mk b0 => rsEqListConditionalAndExpression a0 b0
termination_by structural x => x
/-- src/arithmetic.rs:20-21, derived `PartialEq` -/
def rsEqConditionalAndExpression : ConditionalAndExpression → ConditionalAndExpression → Bool
  | .mk a0, y => match y with
    | .mk b0 => rsEqListRelationalExpression a0 b0
termination_by structural x => x
/-- src/arithmetic.rs:14-18, derived `PartialEq` -/
def rsEqRelationalExpression : RelationalExpression → RelationalExpression → Bool
  | .mk a0 a1, y => match y with
    | .mk b0 b1 => rsEqAdditiveExpression a0 b0 && rsEqOptionOpExpression a1 b1
termination_by structural x => x
/-- src/arithmetic.rs:23-33, derived `PartialEq` -/
def rsEqOpExpression : OpExpression → OpExpression → Bool
  | .eq a0, y => match y with
    | .eq b0 => rsEqAdditiveExpression a0 b0
    | _ => false
  | .ne a0, y => match y with
    | .ne b0 => rsEqAdditiveExpression a0 b0
    | _ => false
  | .lt a0, y => match y with
    | .lt b0 => rsEqAdditiveExpression a0 b0
    | _ => false
  | .gt a0, y => match y with
    | .gt b0 => rsEqAdditiveExpression a0 b0
    | _ => false
  | .le a0, y => match y with
    | .le b0 => rsEqAdditiveExpression a0 b0
    | _ => false
  | .ge a0, y => match y with
    | .ge b0 => rsEqAdditiveExpression a0 b0
    | _ => false
  | .in a0, y => match y with
    | .in b0 => rsEqExpressionList a0 b0
    | _ => false
  | .nin a0, y => match y with
    | .nin b0 => rsEqExpressionList a0 b0
    | _ => false
termination_by structural x => x
/-- src/arithmetic.rs:35-39, derived `PartialEq` -/
def rsEqAdditiveExpression : AdditiveExpression → AdditiveExpression → Bool
  | .mk a0 a1, y => match y with
    | .mk b0 b1 => rsEqMultiplicativeExpression a0 b0 && rsEqListAddExpression a1 b1
termination_by structural x => x
/-- src/arithmetic.rs:41-49, derived `PartialEq` -/
def rsEqAddExpression : AddExpression → AddExpression → Bool
  | .add a0, y => match y with
    | .add b0 => rsEqMultiplicativeExpression a0 b0
    | _ => false
  | .sub a0, y => match y with
    | .sub b0 => rsEqMultiplicativeExpression a0 b0
    | _ => false
  | .numeric a0 a1, y => match y with
    | .numeric b0 b1 => NumericLiteral.rustEq a0 b0 && rsEqListMultExpression a1 b1
    | _ => false
termination_by structural x => x
/-- src/arithmetic.rs:51-55, derived `PartialEq` -/
def rsEqMultiplicativeExpression : MultiplicativeExpression → MultiplicativeExpression → Bool
  | .mk a0 a1, y => match y with
    | .mk b0 b1 => rsEqUnaryExpression a0 b0 && rsEqListMultExpression a1 b1
termination_by structural x => x
/-- src/arithmetic.rs:57-61, derived `PartialEq` -/
def rsEqMultExpression : MultExpression → MultExpression → Bool
  | .mult a0, y => match y with
    | .mult b0 => rsEqUnaryExpression a0 b0
    | _ => false
  | .div a0, y => match y with
    | .div b0 => rsEqUnaryExpression a0 b0
    | _ => false
termination_by structural x => x
/-- src/arithmetic.rs:63-69, derived `PartialEq` -/
def rsEqUnaryExpression : UnaryExpression → UnaryExpression → Bool
  | .not a0, y => match y with
    | .not b0 => rsEqPrimaryExpression a0 b0
    | _ => false
  | .add a0, y => match y with
    | .add b0 => rsEqPrimaryExpression a0 b0
    | _ => false
  | .sub a0, y => match y with
    | .sub b0 => rsEqPrimaryExpression a0 b0
    | _ => false
  | .default a0, y => match y with
    | .default b0 => rsEqPrimaryExpression a0 b0
    | _ => false
termination_by structural x => x
/-- src/expression/mod.rs:33-42, derived `PartialEq` -/
def rsEqPrimaryExpression : PrimaryExpression → PrimaryExpression → Bool
  | .brackettedExpression a0, y => match y with
    | .brackettedExpression b0 => rsEqExpression a0 b0
    | _ => false
  | .builtInCall a0, y => match y with
    | .builtInCall b0 => rsEqBuiltInCall a0 b0
    | _ => false
  | .iriOrFunction a0, y => match y with
    | .iriOrFunction b0 => rsEqIriOrFunction a0 b0
    | _ => false
  | .rdfLiteral a0, y => match y with
    | .rdfLiteral b0 => a0 == b0
    | _ => false
  | .numericLiteral a0, y => match y with
    | .numericLiteral b0 => NumericLiteral.rustEq a0 b0
    | _ => false
  | .booleanLiteral a0, y => match y with
    | .booleanLiteral b0 => a0 == b0
    | _ => false
  | .var a0, y => match y with
    | .var b0 => a0 == b0
    | _ => false
termination_by structural x => x
/-- src/expression/mod.rs:27-31, derived `PartialEq` -/
def rsEqExpressionList : ExpressionList → ExpressionList → Bool
  | .nil, y => match y with
    | .nil => true
    | _ => false
  | .list a0, y => match y with
    | .list b0 => rsEqListExpression a0 b0
    | _ => false
termination_by structural x => x
/-- src/expression/mod.rs:75-79, derived `PartialEq` -/
def rsEqIriOrFunction : IriOrFunction → IriOrFunction → Bool
  | .mk a0 a1, y => match y with
    | .mk b0 b1 => a0 == b0 && rsEqOptionArgList a1 b1
termination_by structural x => x
/-- src/expression/mod.rs:81-88, derived `PartialEq` -/
def rsEqArgList : ArgList → ArgList → Bool
  | .nil, y => match y with
    | .nil => true
    | _ => false
  | .expression a0 a1, y => match y with
    | .expression b0 b1 => a0 == b0 && rsEqListExpression a1 b1
    | _ => false
termination_by structural x => x
/-- src/expression/mod.rs:90-94, derived `PartialEq` -/
def rsEqDistinctExpression : DistinctExpression → DistinctExpression → Bool
  | .mk a0 a1, y => match y with
    | .mk b0 b1 => a0 == b0 && rsEqExpression a1 b1
termination_by structural x => x
/-- src/expression/mod.rs:96-100, derived `PartialEq` -/
def rsEqExpressionAsVar : ExpressionAsVar → ExpressionAsVar → Bool
  | .mk a0 a1, y => match y with
    | .mk b0 b1 => rsEqExpression a0 b0 && a1 == b1
termination_by structural x => x
/-- src/expression/mod.rs:102-106, derived `PartialEq` -/
def rsEqExpressionAsVarOpt : ExpressionAsVarOpt → ExpressionAsVarOpt → Bool
  | .mk a0 a1, y => match y with
    | .mk b0 b1 => rsEqExpression a0 b0 && a1 == b1
termination_by structural x => x
/-- src/expression/functions.rs:11-18, derived `PartialEq` -/
def rsEqRegexExpression : RegexExpression → RegexExpression → Bool
  | .mk a0 a1 a2, y => match y with
    | .mk b0 b1 b2 => rsEqExpression a0 b0 && rsEqExpression a1 b1 && rsEqOptionExpression a2 b2
termination_by structural x => x
/-- src/expression/functions.rs:20-26, derived `PartialEq` -/
def rsEqStrReplaceExpression : StrReplaceExpression → StrReplaceExpression → Bool
  | .mk a0 a1 a2 a3, y => match y with
    | .mk b0 b1 b2 b3 => rsEqExpression a0 b0 && rsEqExpression a1 b1 && rsEqExpression a2 b2 && rsEqOptionExpression a3 b3
termination_by structural x => x
/-- src/expression/functions.rs:28-33, derived `PartialEq` -/
def rsEqConstraint : Constraint → Constraint → Bool
  | .bracketted a0, y => match y with
    | .bracketted b0 => rsEqExpression a0 b0
    | _ => false
  | .builtInCall a0, y => match y with
    | .builtInCall b0 => rsEqBuiltInCall a0 b0
    | _ => false
  | .functionCall a0, y => match y with
    | .functionCall b0 => rsEqFunctionCall a0 b0
    | _ => false
termination_by structural x => x
/-- src/call.rs:27-31, derived `PartialEq` -/
def rsEqFunctionCall : FunctionCall → FunctionCall → Bool
  | .mk a0 a1, y => match y with
    | .mk b0 b1 => a0 == b0 && rsEqArgList a1 b1
termination_by structural x => x
/-- src/call.rs:33-88, derived `PartialEq` -/
def rsEqBuiltInCall : BuiltInCall → BuiltInCall → Bool
  | .aggregate a0, y => match y with
    | .aggregate b0 => rsEqAggregate a0 b0
    | _ => false
  | .str a0, y => match y with
    | .str b0 => rsEqExpression a0 b0
    | _ => false
  | .lang a0, y => match y with
    | .lang b0 => rsEqExpression a0 b0
    | _ => false
  | .langMatches a0 a1, y => match y with
    | .langMatches b0 b1 => rsEqExpression a0 b0 && rsEqExpression a1 b1
    | _ => false
  | .datatype a0, y => match y with
    | .datatype b0 => rsEqExpression a0 b0
    | _ => false
  | .bound a0, y => match y with
    | .bound b0 => a0 == b0
    | _ => false
  | .iri a0, y => match y with
    | .iri b0 => rsEqExpression a0 b0
    | _ => false
  | .uri a0, y => match y with
    | .uri b0 => rsEqExpression a0 b0
    | _ => false
  | .bnode a0, y => match y with
    | .bnode b0 => rsEqOptionExpression a0 b0
    | _ => false
  | .rand, y => match y with
    | .rand => true
    | _ => false
  | .abs a0, y => match y with
    | .abs b0 => rsEqExpression a0 b0
    | _ => false
  | .ceil a0, y => match y with
    | .ceil b0 => rsEqExpression a0 b0
    | _ => false
  | .floor a0, y => match y with
    | .floor b0 => rsEqExpression a0 b0
    | _ => false
  | .round a0, y => match y with
    | .round b0 => rsEqExpression a0 b0
    | _ => false
  | .concat a0 a1, y => match y with
    | .concat b0 b1 => rsEqExpressionList a0 b0 && rsEqRegexExpression a1 b1
    | _ => false
  | .strLen a0 a1, y => match y with
    | .strLen b0 b1 => rsEqExpression a0 b0 && rsEqStrReplaceExpression a1 b1
    | _ => false
  | .uCase a0, y => match y with
    | .uCase b0 => rsEqExpression a0 b0
    | _ => false
  | .lCase a0, y => match y with
    | .lCase b0 => rsEqExpression a0 b0
    | _ => false
  | .encodeForUri a0, y => match y with
    | .encodeForUri b0 => rsEqExpression a0 b0
    | _ => false
  | .contains a0 a1, y => match y with
    | .contains b0 b1 => rsEqExpression a0 b0 && rsEqExpression a1 b1
    | _ => false
  | .strStarts a0 a1, y => match y with
    | .strStarts b0 b1 => rsEqExpression a0 b0 && rsEqExpression a1 b1
    | _ => false
  | .strEnds a0 a1, y => match y with
    | .strEnds b0 b1 => rsEqExpression a0 b0 && rsEqExpression a1 b1
    | _ => false
  | .strBefore a0 a1, y => match y with
    | .strBefore b0 b1 => rsEqExpression a0 b0 && rsEqExpression a1 b1
    | _ => false
  | .strAfter a0 a1, y => match y with
    | .strAfter b0 b1 => rsEqExpression a0 b0 && rsEqExpression a1 b1
    | _ => false
  | .year a0, y => match y with
    | .year b0 => rsEqExpression a0 b0
    | _ => false
  | .month a0, y => match y with
    | .month b0 => rsEqExpression a0 b0
    | _ => false
  | .day a0, y => match y with
    | .day b0 => rsEqExpression a0 b0
    | _ => false
  | .hours a0, y => match y with
    | .hours b0 => rsEqExpression a0 b0
    | _ => false
  | .minutes a0, y => match y with
    | .minutes b0 => rsEqExpression a0 b0
    | _ => false
  | .seconds a0, y => match y with
    | .seconds b0 => rsEqExpression a0 b0
    | _ => false
  | .timezone a0, y => match y with
    | .timezone b0 => rsEqExpression a0 b0
    | _ => false
  | .tz a0, y => match y with
    | .tz b0 => rsEqExpression a0 b0
    | _ => false
  | .now, y => match y with
    | .now => true
    | _ => false
  | .uuid, y => match y with
    | .uuid => true
    | _ => false
  | .strUuid, y => match y with
    | .strUuid => true
    | _ => false
  | .md5 a0, y => match y with
    | .md5 b0 => rsEqExpression a0 b0
    | _ => false
  | .sha1 a0, y => match y with
    | .sha1 b0 => rsEqExpression a0 b0
    | _ => false
  | .sha256 a0, y => match y with
    | .sha256 b0 => rsEqExpression a0 b0
    | _ => false
  | .sha384 a0, y => match y with
    | .sha384 b0 => rsEqExpression a0 b0
    | _ => false
  | .sha512 a0, y => match y with
    | .sha512 b0 => rsEqExpression a0 b0
    | _ => false
  | .coalesce a0, y => match y with
    | .coalesce b0 => rsEqExpressionList a0 b0
    | _ => false
  | .if a0 a1 a2, y => match y with
    | .if b0 b1 b2 => rsEqExpression a0 b0 && rsEqExpression a1 b1 && rsEqExpression a2 b2
    | _ => false
  | .strLang a0 a1, y => match y with
    | .strLang b0 b1 => rsEqExpression a0 b0 && rsEqExpression a1 b1
    | _ => false
  | .strDt a0 a1, y => match y with
    | .strDt b0 b1 => rsEqExpression a0 b0 && rsEqExpression a1 b1
    | _ => false
  | .sameTerm a0 a1, y => match y with
    | .sameTerm b0 b1 => rsEqExpression a0 b0 && rsEqExpression a1 b1
    | _ => false
  | .isIri a0, y => match y with
    | .isIri b0 => rsEqExpression a0 b0
    | _ => false
  | .isUri a0, y => match y with
    | .isUri b0 => rsEqExpression a0 b0
    | _ => false
  | .isBlank a0, y => match y with
    | .isBlank b0 => rsEqExpression a0 b0
    | _ => false
  | .isLiteral a0, y => match y with
    | .isLiteral b0 => rsEqExpression a0 b0
    | _ => false
  | .isNumeric a0, y => match y with
    | .isNumeric b0 => rsEqExpression a0 b0
    | _ => false
  | .regex a0, y => match y with
    | .regex b0 => rsEqRegexExpression a0 b0
    | _ => false
  | .existsFunc a0, y => match y with
    | .existsFunc b0 => rsEqGroupGraphPattern a0 b0
    | _ => false
  | .notExistsFunc a0, y => match y with
    | .notExistsFunc b0 => rsEqGroupGraphPattern a0 b0
    | _ => false
termination_by structural x => x
/-- src/aggregate.rs:15-24, derived `PartialEq` -/
def rsEqAggregate : Aggregate → Aggregate → Bool
  | .count a0, y => match y with
    | .count b0 => rsEqCount a0 b0
    | _ => false
  | .sum a0, y => match y with
    | .sum b0 => rsEqDistinctExpression a0 b0
    | _ => false
  | .min a0, y => match y with
    | .min b0 => rsEqDistinctExpression a0 b0
    | _ => false
  | .max a0, y => match y with
    | .max b0 => rsEqDistinctExpression a0 b0
    | _ => false
  | .avg a0, y => match y with
    | .avg b0 => rsEqDistinctExpression a0 b0
    | _ => false
  | .sample a0, y => match y with
    | .sample b0 => rsEqDistinctExpression a0 b0
    | _ => false
  | .groupConcat a0, y => match y with
    | .groupConcat b0 => rsEqGroupConcat a0 b0
    | _ => false
termination_by structural x => x
/-- src/aggregate.rs:40-44, derived `PartialEq` -/
def rsEqCount : Count → Count → Bool
  | .mk a0 a1, y => match y with
    | .mk b0 b1 => a0 == b0 && rsEqCountTarget a1 b1
termination_by structural x => x
/-- src/aggregate.rs:46-50, derived `PartialEq` -/
def rsEqCountTarget : CountTarget → CountTarget → Bool
  | .all, y => match y with
    | .all => true
    | _ => false
  | .expr a0, y => match y with
    | .expr b0 => rsEqExpression a0 b0
    | _ => false
termination_by structural x => x
/-- src/aggregate.rs:52-56, derived `PartialEq` -/
def rsEqGroupConcat : GroupConcat → GroupConcat → Bool
  | .mk a0 a1, y => match y with
    | .mk b0 b1 => rsEqDistinctExpression a0 b0 && a1 == b1
termination_by structural x => x
/-- src/graph.rs:73-77, derived `PartialEq` -/
def rsEqGroupGraphPattern : GroupGraphPattern → GroupGraphPattern → Bool
  | .subSelect a0, y => match y with
    | .subSelect b0 => rsEqSubSelect a0 b0
    | _ => false
  | .groupGraphPatternSub a0, y => match y with
    | .groupGraphPatternSub b0 => rsEqGroupGraphPatternSub a0 b0
    | _ => false
termination_by structural x => x
/-- src/graph.rs:47-51, derived `PartialEq` -/
def rsEqGroupGraphPatternSub : GroupGraphPatternSub → GroupGraphPatternSub → Bool
  | .mk a0 a1, y => match y with
    | .mk b0 b1 => rsEqOption rsEqTriplesBlock a0 b0 && rsEqListGraphPatternAndTriples a1 b1
termination_by structural x => x
/-- src/graph.rs:103-107, derived `PartialEq` -/
def rsEqGraphPatternAndTriples : GraphPatternAndTriples → GraphPatternAndTriples → Bool
  | .mk a0 a1, y => match y with
    | .mk b0 b1 => rsEqGraphPatternNotTriples a0 b0 && rsEqOption rsEqTriplesBlock a1 b1
termination_by structural x => x
/-- src/graph.rs:91-101, derived `PartialEq` -/
def rsEqGraphPatternNotTriples : GraphPatternNotTriples → GraphPatternNotTriples → Bool
  | .optional a0, y => match y with
    | .optional b0 => rsEqGroupGraphPattern a0 b0
    | _ => false
  | .groupOrUnion a0, y => match y with
    | .groupOrUnion b0 => rsEqListGroupGraphPattern a0 b0
    | _ => false
  | .minus a0, y => match y with
    | .minus b0 => rsEqGroupGraphPattern a0 b0
    | _ => false
  | .graph a0, y => match y with
    | .graph b0 => rsEqGraphGraphPattern a0 b0
    | _ => false
  | .service a0, y => match y with
    | .service b0 => rsEqServiceGraphPattern a0 b0
    | _ => false
  | .filter a0, y => match y with
    | .filter b0 => rsEqConstraint a0 b0
    | _ => false
  | .bind a0, y => match y with
    | .bind b0 => rsEqExpressionAsVar a0 b0
    | _ => false
  | .inlineData a0, y => match y with
    | .inlineData b0 => rsEqDataBlock a0 b0
    | _ => false
termination_by structural x => x
/-- src/graph.rs:112-116, derived `PartialEq` -/
def rsEqGraphGraphPattern : GraphGraphPattern → GraphGraphPattern → Bool
  | .mk a0 a1, y => match y with
    | .mk b0 b1 => a0 == b0 && rsEqGroupGraphPattern a1 b1
termination_by structural x => x
/-- src/graph.rs:118-123, derived `PartialEq` -/
def rsEqServiceGraphPattern : ServiceGraphPattern → ServiceGraphPattern → Bool
  | .mk a0 a1 a2, y => match y with
    | .mk b0 b1 b2 => a0 == b0 && a1 == b1 && rsEqGroupGraphPattern a2 b2
termination_by structural x => x
/-- src/query/select.rs:27-33, derived `PartialEq` -/
def rsEqSubSelect : SubSelect → SubSelect → Bool
  | .mk a0 a1 a2 a3, y => match y with
    | .mk b0 b1 b2 b3 => rsEqSelectClause a0 b0 && rsEqGroupGraphPattern a1 b1 && rsEqSolutionModifier a2 b2 && rsEqOption rsEqDataBlock a3 b3
termination_by structural x => x
/-- src/query/select.rs:35-39, derived `PartialEq` -/
def rsEqSelectClause : SelectClause → SelectClause → Bool
  | .mk a0 a1, y => match y with
    | .mk b0 b1 => a0 == b0 && rsEqSelectVars a1 b1
termination_by structural x => x
/-- src/query/select.rs:41-45, derived `PartialEq` -/
def rsEqSelectVars : SelectVars → SelectVars → Bool
  | .varOrExpressionAsVar a0, y => match y with
    | .varOrExpressionAsVar b0 => rsEqListVarOrExpressionAsVar a0 b0
    | _ => false
  | .all, y => match y with
    | .all => true
    | _ => false
termination_by structural x => x
/-- src/var.rs:52-56, derived `PartialEq` -/
def rsEqVarOrExpressionAsVar : VarOrExpressionAsVar → VarOrExpressionAsVar → Bool
  | .var a0, y => match y with
    | .var b0 => a0 == b0
    | _ => false
  | .expressionAsVar a0, y => match y with
    | .expressionAsVar b0 => rsEqExpressionAsVar a0 b0
    | _ => false
termination_by structural x => x
/-- src/clauses.rs:25-31, derived `PartialEq` -/
def rsEqSolutionModifier : SolutionModifier → SolutionModifier → Bool
  | .mk a0 a1 a2 a3, y => match y with
    | .mk b0 b1 b2 b3 => rsEqOptionOrderClause a0 b0 && rsEqOptionGroupClause a1 b1 && rsEqOptionHavingClause a2 b2 && a3 == b3
termination_by structural x => x
/-- src/clauses.rs:33-34, derived `PartialEq` -/
def rsEqHavingClause : HavingClause → HavingClause → Bool
  | .mk a0, y => match y with
    | .mk b0 => rsEqListConstraint a0 b0
termination_by structural x => x
/-- src/clauses.rs:36-37, derived `PartialEq` -/
def rsEqOrderClause : OrderClause → OrderClause → Bool
  | .mk a0, y => match y with
    | .mk b0 => rsEqListOrderCondition a0 b0
termination_by structural x => x
/-- src/order.rs:24-29, derived `PartialEq` -/
def rsEqOrderCondition : OrderCondition → OrderCondition → Bool
  | .order a0, y => match y with
    | .order b0 => rsEqOrderExpression a0 b0
    | _ => false
  | .constraint a0, y => match y with
    | .constraint b0 => rsEqConstraint a0 b0
    | _ => false
  | .var a0, y => match y with
    | .var b0 => a0 == b0
    | _ => false
termination_by structural x => x
/-- src/order.rs:18-22, derived `PartialEq` -/
def rsEqOrderExpression : OrderExpression → OrderExpression → Bool
  | .mk a0 a1, y => match y with
    | .mk b0 b1 => a0 == b0 && rsEqExpression a1 b1
termination_by structural x => x
/-- src/group.rs:22-23, derived `PartialEq` -/
def rsEqGroupClause : GroupClause → GroupClause → Bool
  | .mk a0, y => match y with
    | .mk b0 => rsEqListGroupCondition a0 b0
termination_by structural x => x
/-- src/group.rs:25-31, derived `PartialEq` -/
def rsEqGroupCondition : GroupCondition → GroupCondition → Bool
  | .builtInCall a0, y => match y with
    | .builtInCall b0 => rsEqBuiltInCall a0 b0
    | _ => false
  | .functionCall a0, y => match y with
    | .functionCall b0 => rsEqFunctionCall a0 b0
    | _ => false
  | .expressionAsVarOpt a0, y => match y with
    | .expressionAsVarOpt b0 => rsEqExpressionAsVarOpt a0 b0
    | _ => false
  | .var a0, y => match y with
    | .var b0 => a0 == b0
    | _ => false
termination_by structural x => x
/-- `PartialEq` of `Vec` -/
def rsEqListConditionalAndExpression : List ConditionalAndExpression → List ConditionalAndExpression → Bool
  | [], y => match y with
    | [] => true
    | _ => false
  | a :: l, y => match y with
    | b :: m => rsEqConditionalAndExpression a b && rsEqListConditionalAndExpression l m
    | _ => false
termination_by structural x => x
/-- `PartialEq` of `Vec` -/
def rsEqListRelationalExpression : List RelationalExpression → List RelationalExpression → Bool
  | [], y => match y with
    | [] => true
    | _ => false
  | a :: l, y => match y with
    | b :: m => rsEqRelationalExpression a b && rsEqListRelationalExpression l m
    | _ => false
termination_by structural x => x
/-- `PartialEq` of `Option` -/
def rsEqOptionOpExpression : Option OpExpression → Option OpExpression → Bool
  | none, y => match y with
    | none => true
    | _ => false
  | some a, y => match y with
    | some b => rsEqOpExpression a b
    | _ => false
termination_by structural x => x
/-- `PartialEq` of `Vec` -/
def rsEqListAddExpression : List AddExpression → List AddExpression → Bool
  | [], y => match y with
    | [] => true
    | _ => false
  | a :: l, y => match y with
    | b :: m => rsEqAddExpression a b && rsEqListAddExpression l m
    | _ => false
termination_by structural x => x
/-- `PartialEq` of `Vec` -/
def rsEqListMultExpression : List MultExpression → List MultExpression → Bool
  | [], y => match y with
    | [] => true
    | _ => false
  | a :: l, y => match y with
    | b :: m => rsEqMultExpression a b && rsEqListMultExpression l m
    | _ => false
termination_by structural x => x
/-- `PartialEq` of `Vec` -/
def rsEqListExpression : List Expression → List Expression → Bool
  | [], y => match y with
    | [] => true
    | _ => false
  | a :: l, y => match y with
    | b :: m => rsEqExpression a b && rsEqListExpression l m
    | _ => false
termination_by structural x => x
/-- `PartialEq` of `Option` -/
def rsEqOptionArgList : Option ArgList → Option ArgList → Bool
  | none, y => match y with
    | none => true
    | _ => false
  | some a, y => match y with
    | some b => rsEqArgList a b
    | _ => false
termination_by structural x => x
/-- `PartialEq` of `Option` -/
def rsEqOptionExpression : Option Expression → Option Expression → Bool
  | none, y => match y with
    | none => true
    | _ => false
  | some a, y => match y with
    | some b => rsEqExpression a b
    | _ => false
termination_by structural x => x
/-- `PartialEq` of `Vec` -/
def rsEqListGraphPatternAndTriples : List GraphPatternAndTriples → List GraphPatternAndTriples → Bool
  | [], y => match y with
    | [] => true
    | _ => false
  | a :: l, y => match y with
    | b :: m => rsEqGraphPatternAndTriples a b && rsEqListGraphPatternAndTriples l m
    | _ => false
termination_by structural x => x
/-- `PartialEq` of `Vec` -/
def rsEqListGroupGraphPattern : List GroupGraphPattern → List GroupGraphPattern → Bool
  | [], y => match y with
    | [] => true
    | _ => false
  | a :: l, y => match y with
    | b :: m => rsEqGroupGraphPattern a b && rsEqListGroupGraphPattern l m
    | _ => false
termination_by structural x => x
/-- `PartialEq` of `Vec` -/
def rsEqListVarOrExpressionAsVar : List VarOrExpressionAsVar → List VarOrExpressionAsVar → Bool
  | [], y => match y with
    | [] => true
    | _ => false
  | a :: l, y => match y with
    | b :: m => rsEqVarOrExpressionAsVar a b && rsEqListVarOrExpressionAsVar l m
    | _ => false
termination_by structural x => x
/-- `PartialEq` of `Option` -/
def rsEqOptionOrderClause : Option OrderClause → Option OrderClause → Bool
  | none, y => match y with
    | none => true
    | _ => false
  | some a, y => match y with
    | some b => rsEqOrderClause a b
    | _ => false
termination_by structural x => x
/-- `PartialEq` of `Option` -/
def rsEqOptionGroupClause : Option GroupClause → Option GroupClause → Bool
  | none, y => match y with
    | none => true
    | _ => false
  | some a, y => match y with
    | some b => rsEqGroupClause a b
    | _ => false
termination_by structural x => x
/-- `PartialEq` of `Option` -/
def rsEqOptionHavingClause : Option HavingClause → Option HavingClause → Bool
  | none, y => match y with
    | none => true
    | _ => false
  | some a, y => match y with
    | some b => rsEqHavingClause a b
    | _ => false
termination_by structural x => x
/-- `PartialEq` of `Vec` -/
def rsEqListConstraint : List Constraint → List Constraint → Bool
  | [], y => match y with
    | [] => true
    | _ => false
  | a :: l, y => match y with
    | b :: m => rsEqConstraint a b && rsEqListConstraint l m
    | _ => false
termination_by structural x => x
/-- `PartialEq` of `Vec` -/
def rsEqListOrderCondition : List OrderCondition → List OrderCondition → Bool
  | [], y => match y with
    | [] => true
    | _ => false
  | a :: l, y => match y with
    | b :: m => rsEqOrderCondition a b && rsEqListOrderCondition l m
    | _ => false
termination_by structural x => x
/-- `PartialEq` of `Vec` -/
def rsEqListGroupCondition : List GroupCondition → List GroupCondition → Bool
  | [], y => match y with
    | [] => true
    | _ => false
  | a :: l, y => match y with
    | b :: m => rsEqGroupCondition a b && rsEqListGroupCondition l m
    | _ => false
termination_by structural x => x
end
/-- src/query/select.rs:19-25, derived `PartialEq` -/
def rsEqSelectQuery : SelectQuery → SelectQuery → Bool
  | ⟨a0, a1, a2, a3⟩, y => match y with
    | ⟨b0, b1, b2, b3⟩ => rsEqSelectClause a0 b0 && a1 == b1 && rsEqGroupGraphPattern a2 b2 && rsEqSolutionModifier a3 b3
/-- src/query/ask.rs:11-16, derived `PartialEq` -/
def rsEqAskQuery : AskQuery → AskQuery → Bool
  | ⟨a0, a1, a2⟩, y => match y with
    | ⟨b0, b1, b2⟩ => a0 == b0 && rsEqGroupGraphPattern a1 b1 && rsEqSolutionModifier a2 b2
/-- src/query/describe.rs:16-22, derived `PartialEq` -/
def rsEqDescribeQuery : DescribeQuery → DescribeQuery → Bool
  | ⟨a0, a1, a2, a3⟩, y => match y with
    | ⟨b0, b1, b2, b3⟩ => a0 == b0 && a1 == b1 && rsEqOption rsEqGroupGraphPattern a2 b2 && rsEqSolutionModifier a3 b3
/-- src/query/construct.rs:28-34, derived `PartialEq` -/
def rsEqSubConstruct : SubConstruct → SubConstruct → Bool
  | ⟨a0, a1, a2, a3⟩, y => match y with
    | ⟨b0, b1, b2, b3⟩ => rsEqList rsEqTriplesSameSubject a0 b0 && a1 == b1 && rsEqGroupGraphPattern a2 b2 && rsEqSolutionModifier a3 b3
/-- src/query/construct.rs:36-41, derived `PartialEq` -/
def rsEqSubTriples : SubTriples → SubTriples → Bool
  | ⟨a0, a1, a2⟩, y => match y with
    | ⟨b0, b1, b2⟩ => a0 == b0 && rsEqOption (rsEqList rsEqTriplesSameSubject) a1 b1 && rsEqSolutionModifier a2 b2
/-- src/query/construct.rs:22-26, derived `PartialEq` -/
def rsEqConstructQuery : ConstructQuery → ConstructQuery → Bool
  | .subConstruct a0, y => match y with
    | .subConstruct b0 => rsEqSubConstruct a0 b0
    | _ => false
  | .subTriples a0, y => match y with
    | .subTriples b0 => rsEqSubTriples a0 b0
    | _ => false
/-- src/query/mod.rs:21-27, derived `PartialEq` -/
def rsEqSparqlQuery : SparqlQuery → SparqlQuery → Bool
  | .ask a0, y => match y with
    | .ask b0 => rsEqAskQuery a0 b0
    | _ => false
  | .select a0, y => match y with
    | .select b0 => rsEqSelectQuery a0 b0
    | _ => false
  | .describe a0, y => match y with
    | .describe b0 => rsEqDescribeQuery a0 b0
    | _ => false
  | .construct a0, y => match y with
    | .construct b0 => rsEqConstructQuery a0 b0
    | _ => false
/-- src/query/mod.rs:14-19, derived `PartialEq` -/
def rsEqSparqlQueryStatement : SparqlQueryStatement → SparqlQueryStatement → Bool
  | ⟨a0, a1, a2⟩, y => match y with
    | ⟨b0, b1, b2⟩ => a0 == b0 && rsEqSparqlQuery a1 b1 && rsEqOption rsEqDataBlock a2 b2
/-- src/operations.rs:79-86, derived `PartialEq` -/
def rsEqDeleteInsert : DeleteInsert → DeleteInsert → Bool
  | .deleteInsert a0 a1, y => match y with
    | .deleteInsert b0 b1 => rsEqQuads a0 b0 && rsEqOption rsEqQuads a1 b1
    | _ => false
  | .insert a0, y => match y with
    | .insert b0 => rsEqQuads a0 b0
    | _ => false
/-- src/operations.rs:71-77, derived `PartialEq` -/
def rsEqModifyStatement : ModifyStatement → ModifyStatement → Bool
  | ⟨a0, a1, a2, a3⟩, y => match y with
    | ⟨b0, b1, b2, b3⟩ => a0 == b0 && rsEqDeleteInsert a1 b1 && a2 == b2 && rsEqGroupGraphPattern a3 b3
/-- src/update.rs:26-39, derived `PartialEq` -/
def rsEqUpdateStatement : UpdateStatement → UpdateStatement → Bool
  | .load a0, y => match y with
    | .load b0 => a0 == b0
    | _ => false
  | .clear a0, y => match y with
    | .clear b0 => a0 == b0
    | _ => false
  | .drop a0, y => match y with
    | .drop b0 => a0 == b0
    | _ => false
  | .create a0, y => match y with
    | .create b0 => a0 == b0
    | _ => false
  | .add a0, y => match y with
    | .add b0 => a0 == b0
    | _ => false
  | .move a0, y => match y with
    | .move b0 => a0 == b0
    | _ => false
  | .copy a0, y => match y with
    | .copy b0 => a0 == b0
    | _ => false
  | .insertData a0, y => match y with
    | .insertData b0 => rsEqQuads a0 b0
    | _ => false
  | .deleteData a0, y => match y with
    | .deleteData b0 => rsEqQuads a0 b0
    | _ => false
  | .deleteWhere a0, y => match y with
    | .deleteWhere b0 => rsEqQuads a0 b0
    | _ => false
  | .modify a0, y => match y with
    | .modify b0 => rsEqModifyStatement a0 b0
    | _ => false
/-- src/update.rs:19-24, derived `PartialEq` -/
def rsEqUpdate : Update → Update → Bool
  | .mk a0 a1 none, y => match y with
    | .mk b0 b1 none => a0 == b0 && rsEqOption rsEqUpdateStatement a1 b1
    | _ => false
  | .mk a0 a1 (some a2), y => match y with
    | .mk b0 b1 (some b2) => a0 == b0 && rsEqOption rsEqUpdateStatement a1 b1 && rsEqUpdate a2 b2
    | _ => false

end NomSparql
