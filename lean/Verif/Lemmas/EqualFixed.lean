import Verif.Spec.Filled
import Verif.Spec.Renumber

/-!
# Trees whose numbers are left alone by `f` are left alone by `renumX f`
-/

namespace NomSparql

set_option linter.unusedVariables false

theorem mapFix {g : α → α} {l : List α} (h : ∀ a ∈ l, g a = a) : l.map g = l := (List.map_congr_left h).trans (List.map_id' l)
theorem optFix {g : α → α} {l : Option α} (h : ∀ a ∈ l, g a = a) : l.map g = l := by
  cases l with
  | none => rfl
  | some a => exact congrArg some (h a rfl)

theorem fixGraphTerm {f : NumericLiteral → NumericLiteral} {T : Leaves} (hn : ∀ n, T.number n → f n = n) :
    ∀ {x : GraphTerm}, FGraphTerm T x → renumGraphTerm f x = x
  | _, .iri _ => rfl
  | _, .rdfLiteral _ => rfl
  | _, .numericLiteral h0 => by
    show GraphTerm.numericLiteral (f _) = _
    rw [(hn _ h0)]
  | _, .booleanLiteral => rfl
  | _, .blankNode _ => rfl
  | _, .nil => rfl
theorem fixVarOrTerm {f : NumericLiteral → NumericLiteral} {T : Leaves} (hn : ∀ n, T.number n → f n = n) :
    ∀ {x : VarOrTerm}, FVarOrTerm T x → renumVarOrTerm f x = x
  | _, .var _ => rfl
  | _, .term h0 => by
    show VarOrTerm.term (renumGraphTerm f _) = _
    rw [(fixGraphTerm hn h0)]
theorem fixDataBlockValue {f : NumericLiteral → NumericLiteral} {T : Leaves} (hn : ∀ n, T.number n → f n = n) :
    ∀ {x : DataBlockValue}, FDataBlockValue T x → renumDataBlockValue f x = x
  | _, .iri _ => rfl
  | _, .rdfLiteral _ => rfl
  | _, .numericLiteral h0 => by
    show DataBlockValue.numericLiteral (f _) = _
    rw [(hn _ h0)]
  | _, .booleanLiteral => rfl
  | _, .undef => rfl
theorem fixInlineDataOneVar {f : NumericLiteral → NumericLiteral} {T : Leaves} (hn : ∀ n, T.number n → f n = n) :
    ∀ {x : InlineDataOneVar}, FInlineDataOneVar T x → renumInlineDataOneVar f x = x
  | _, .mk _ h1 => by
    show InlineDataOneVar.mk _ (List.map (renumDataBlockValue f) _) = _
    rw [(mapFix (fun _ hm0 => (fixDataBlockValue hn (h1 _ hm0))))]
theorem fixInlineDataFull {f : NumericLiteral → NumericLiteral} {T : Leaves} (hn : ∀ n, T.number n → f n = n) :
    ∀ {x : InlineDataFull}, FInlineDataFull T x → renumInlineDataFull f x = x
  | _, .mk _ h1 => by
    show InlineDataFull.mk _ (List.map (List.map (renumDataBlockValue f)) _) = _
    rw [(mapFix (fun _ hm0 => (mapFix (fun _ hm1 => (fixDataBlockValue hn ((h1 _ hm0) _ hm1))))))]
theorem fixDataBlock {f : NumericLiteral → NumericLiteral} {T : Leaves} (hn : ∀ n, T.number n → f n = n) :
    ∀ {x : DataBlock}, FDataBlock T x → renumDataBlock f x = x
  | _, .inlineDataOneVar h0 => by
    show DataBlock.inlineDataOneVar (renumInlineDataOneVar f _) = _
    rw [(fixInlineDataOneVar hn h0)]
  | _, .inlineDataFull h0 => by
    show DataBlock.inlineDataFull (renumInlineDataFull f _) = _
    rw [(fixInlineDataFull hn h0)]
mutual
theorem fixGraphNode {f : NumericLiteral → NumericLiteral} {T : Leaves} (hn : ∀ n, T.number n → f n = n) :
    ∀ {x : GraphNode}, FGraphNode T x → renumGraphNode f x = x
  | _, .varOrTerm h0 => by
    show GraphNode.varOrTerm (renumVarOrTerm f _) = _
    rw [(fixVarOrTerm hn h0)]
  | _, .triplesNode _ h1 => by
    show GraphNode.triplesNode (renumTriplesNode f _) = _
    rw [(fixTriplesNode hn h1)]
theorem fixTriplesNode {f : NumericLiteral → NumericLiteral} {T : Leaves} (hn : ∀ n, T.number n → f n = n) :
    ∀ {x : TriplesNode}, FTriplesNode T x → renumTriplesNode f x = x
  | _, .collection _ h1 => by
    show TriplesNode.collection (renumListGraphNode f _) = _
    rw [((renumListGraphNode_eq f _).trans (mapFix (fun _ hm0 => (fixGraphNode hn (h1 _ hm0)))))]
  | _, .blankNodePropertyList h0 => by
    show TriplesNode.blankNodePropertyList (renumPropertyList f _) = _
    rw [(fixPropertyList hn h0)]
theorem fixPropertyList {f : NumericLiteral → NumericLiteral} {T : Leaves} (hn : ∀ n, T.number n → f n = n) :
    ∀ {x : PropertyList}, FPropertyList T x → renumPropertyList f x = x
  | _, .mk _ h1 => by
    show PropertyList.mk (renumListVerbList f _) = _
    rw [((renumListVerbList_eq f _).trans (mapFix (fun _ hm0 => (fixVerbList hn (h1 _ hm0)))))]
theorem fixVerbList {f : NumericLiteral → NumericLiteral} {T : Leaves} (hn : ∀ n, T.number n → f n = n) :
    ∀ {x : VerbList}, FVerbList T x → renumVerbList f x = x
  | _, .mk _ _ h2 => by
    show VerbList.mk _ (renumListGraphNode f _) = _
    rw [((renumListGraphNode_eq f _).trans (mapFix (fun _ hm0 => (fixGraphNode hn (h2 _ hm0)))))]
end
theorem fixTriplesSameSubject {f : NumericLiteral → NumericLiteral} {T : Leaves} (hn : ∀ n, T.number n → f n = n) :
    ∀ {x : TriplesSameSubject}, FTriplesSameSubject T x → renumTriplesSameSubject f x = x
  | _, .term h0 h1 => by
    show TriplesSameSubject.term (renumVarOrTerm f _) (renumPropertyList f _) = _
    rw [(fixVarOrTerm hn h0), (fixPropertyList hn h1)]
  | _, .node h0 h1 => by
    show TriplesSameSubject.node (renumTriplesNode f _) (Option.map (renumPropertyList f) _) = _
    rw [(fixTriplesNode hn h0), (optFix (fun _ hm0 => (fixPropertyList hn (h1 _ hm0))))]
theorem fixQuadsNotTriples {f : NumericLiteral → NumericLiteral} {T : Leaves} (hn : ∀ n, T.number n → f n = n) :
    ∀ {x : QuadsNotTriples}, FQuadsNotTriples T x → renumQuadsNotTriples f x = x
  | _, .mk _ h1 => by
    show QuadsNotTriples.mk _ (Option.map (List.map (renumTriplesSameSubject f)) _) = _
    rw [(optFix (fun _ hm0 => (mapFix (fun _ hm1 => (fixTriplesSameSubject hn ((h1 _ hm0).2 _ hm1))))))]
theorem fixQuadsEntry {f : NumericLiteral → NumericLiteral} {T : Leaves} (hn : ∀ n, T.number n → f n = n) :
    ∀ {x : QuadsEntry}, FQuadsEntry T x → renumQuadsEntry f x = x
  | _, .mk h0 h1 => by
    show QuadsEntry.mk (renumQuadsNotTriples f _) (Option.map (List.map (renumTriplesSameSubject f)) _) = _
    rw [(fixQuadsNotTriples hn h0), (optFix (fun _ hm0 => (mapFix (fun _ hm1 => (fixTriplesSameSubject hn ((h1 _ hm0).2 _ hm1))))))]
theorem fixQuads {f : NumericLiteral → NumericLiteral} {T : Leaves} (hn : ∀ n, T.number n → f n = n) :
    ∀ {x : Quads}, FQuads T x → renumQuads f x = x
  | _, .mk h0 h1 => by
    show Quads.mk (Option.map (List.map (renumTriplesSameSubject f)) _) (List.map (renumQuadsEntry f) _) = _
    rw [(optFix (fun _ hm0 => (mapFix (fun _ hm1 => (fixTriplesSameSubject hn ((h0 _ hm0).2 _ hm1)))))), (mapFix (fun _ hm0 => (fixQuadsEntry hn (h1 _ hm0))))]
mutual
theorem fixPathAlternative {f : NumericLiteral → NumericLiteral} {T : Leaves} (hn : ∀ n, T.number n → f n = n) :
    ∀ {x : PathAlternative}, FPathAlternative T x → renumPathAlternative f x = x
  | _, .mk _ h1 => by
    show PathAlternative.mk (renumListPathSequence f _) = _
    rw [((renumListPathSequence_eq f _).trans (mapFix (fun _ hm0 => (fixPathSequence hn (h1 _ hm0)))))]
theorem fixPathSequence {f : NumericLiteral → NumericLiteral} {T : Leaves} (hn : ∀ n, T.number n → f n = n) :
    ∀ {x : PathSequence}, FPathSequence T x → renumPathSequence f x = x
  | _, .mk _ h1 => by
    show PathSequence.mk (renumListPathEltOrInverse f _) = _
    rw [((renumListPathEltOrInverse_eq f _).trans (mapFix (fun _ hm0 => (fixPathEltOrInverse hn (h1 _ hm0)))))]
theorem fixPathEltOrInverse {f : NumericLiteral → NumericLiteral} {T : Leaves} (hn : ∀ n, T.number n → f n = n) :
    ∀ {x : PathEltOrInverse}, FPathEltOrInverse T x → renumPathEltOrInverse f x = x
  | _, .pathElt h0 => by
    show PathEltOrInverse.pathElt (renumPathElt f _) = _
    rw [(fixPathElt hn h0)]
  | _, .inverse h0 => by
    show PathEltOrInverse.inverse (renumPathElt f _) = _
    rw [(fixPathElt hn h0)]
theorem fixPathElt {f : NumericLiteral → NumericLiteral} {T : Leaves} (hn : ∀ n, T.number n → f n = n) :
    ∀ {x : PathElt}, FPathElt T x → renumPathElt f x = x
  | _, .mk h0 => by
    show PathElt.mk (renumPathPrimary f _) _ = _
    rw [(fixPathPrimary hn h0)]
theorem fixPathPrimary {f : NumericLiteral → NumericLiteral} {T : Leaves} (hn : ∀ n, T.number n → f n = n) :
    ∀ {x : PathPrimary}, FPathPrimary T x → renumPathPrimary f x = x
  | _, .iri _ => rfl
  | _, .a => rfl
  | _, .pathNegatedPropertySet _ _ => rfl
  | _, .path h0 => by
    show PathPrimary.path (renumPathAlternative f _) = _
    rw [(fixPathAlternative hn h0)]
end
theorem fixVerbPathOrSimple {f : NumericLiteral → NumericLiteral} {T : Leaves} (hn : ∀ n, T.number n → f n = n) :
    ∀ {x : VerbPathOrSimple}, FVerbPathOrSimple T x → renumVerbPathOrSimple f x = x
  | _, .path h0 => by
    show VerbPathOrSimple.path (renumPathAlternative f _) = _
    rw [(fixPathAlternative hn h0)]
  | _, .simple _ => rfl
theorem fixPropertyListPathEntry {f : NumericLiteral → NumericLiteral} {T : Leaves} (hn : ∀ n, T.number n → f n = n) :
    ∀ {x : PropertyListPathEntry}, FPropertyListPathEntry T x → renumPropertyListPathEntry f x = x
  | _, .mk h0 _ h2 => by
    show PropertyListPathEntry.mk (renumVerbPathOrSimple f _) (List.map (renumGraphNode f) _) = _
    rw [(fixVerbPathOrSimple hn h0), (mapFix (fun _ hm0 => (fixGraphNode hn (h2 _ hm0))))]
mutual
theorem fixGraphNodePath {f : NumericLiteral → NumericLiteral} {T : Leaves} (hn : ∀ n, T.number n → f n = n) :
    ∀ {x : GraphNodePath}, FGraphNodePath T x → renumGraphNodePath f x = x
  | _, .varOrTerm h0 => by
    show GraphNodePath.varOrTerm (renumVarOrTerm f _) = _
    rw [(fixVarOrTerm hn h0)]
  | _, .triplesNodePath _ h1 => by
    show GraphNodePath.triplesNodePath (renumTriplesNodePath f _) = _
    rw [(fixTriplesNodePath hn h1)]
theorem fixTriplesNodePath {f : NumericLiteral → NumericLiteral} {T : Leaves} (hn : ∀ n, T.number n → f n = n) :
    ∀ {x : TriplesNodePath}, FTriplesNodePath T x → renumTriplesNodePath f x = x
  | _, .collectionPath _ h1 => by
    show TriplesNodePath.collectionPath (renumListGraphNodePath f _) = _
    rw [((renumListGraphNodePath_eq f _).trans (mapFix (fun _ hm0 => (fixGraphNodePath hn (h1 _ hm0)))))]
  | _, .blankNodePropertyListPath h0 => by
    show TriplesNodePath.blankNodePropertyListPath (renumPropertyListPath f _) = _
    rw [(fixPropertyListPath hn h0)]
theorem fixPropertyListPath {f : NumericLiteral → NumericLiteral} {T : Leaves} (hn : ∀ n, T.number n → f n = n) :
    ∀ {x : PropertyListPath}, FPropertyListPath T x → renumPropertyListPath f x = x
  | _, .mk h0 _ h2 h3 => by
    show PropertyListPath.mk (renumVerbPathOrSimple f _) (renumListGraphNodePath f _) (List.map (renumPropertyListPathEntry f) _) = _
    rw [(fixVerbPathOrSimple hn h0), ((renumListGraphNodePath_eq f _).trans (mapFix (fun _ hm0 => (fixGraphNodePath hn (h2 _ hm0))))), (mapFix (fun _ hm0 => (fixPropertyListPathEntry hn (h3 _ hm0))))]
end
theorem fixTriplesSameSubjectPath {f : NumericLiteral → NumericLiteral} {T : Leaves} (hn : ∀ n, T.number n → f n = n) :
    ∀ {x : TriplesSameSubjectPath}, FTriplesSameSubjectPath T x → renumTriplesSameSubjectPath f x = x
  | _, .term h0 h1 => by
    show TriplesSameSubjectPath.term (renumVarOrTerm f _) (renumPropertyListPath f _) = _
    rw [(fixVarOrTerm hn h0), (fixPropertyListPath hn h1)]
  | _, .node _ h1 h2 => by
    show TriplesSameSubjectPath.node (renumTriplesNodePath f _) (Option.map (renumPropertyListPath f) _) = _
    rw [(fixTriplesNodePath hn h1), (optFix (fun _ hm0 => (fixPropertyListPath hn (h2 _ hm0))))]
theorem fixTriplesBlock {f : NumericLiteral → NumericLiteral} {T : Leaves} (hn : ∀ n, T.number n → f n = n) :
    ∀ {x : TriplesBlock}, FTriplesBlock T x → renumTriplesBlock f x = x
  | _, .mk _ h1 => by
    show TriplesBlock.mk (List.map (renumTriplesSameSubjectPath f) _) = _
    rw [(mapFix (fun _ hm0 => (fixTriplesSameSubjectPath hn (h1 _ hm0))))]
theorem fixExpressionList {f : NumericLiteral → NumericLiteral} {T : Leaves} {Q : Fam} (hn : ∀ n, T.number n → f n = n) (hE : ∀ e, Q.expr e → renumExpression f e = e) (hG : ∀ g, Q.group g → renumGroupGraphPattern f g = g) :
    ∀ {x : ExpressionList}, FExpressionListS T Q x → renumExpressionList f x = x
  | _, .nil => rfl
  | _, .list _ _ h2 => by
    show ExpressionList.list (renumListExpression f _) = _
    rw [((renumListExpression_eq f _).trans (mapFix (fun _ hm0 => (hE _ (h2 _ hm0)))))]
theorem fixArgList {f : NumericLiteral → NumericLiteral} {T : Leaves} {Q : Fam} (hn : ∀ n, T.number n → f n = n) (hE : ∀ e, Q.expr e → renumExpression f e = e) (hG : ∀ g, Q.group g → renumGroupGraphPattern f g = g) :
    ∀ {x : ArgList}, FArgListS T Q x → renumArgList f x = x
  | _, .nil => rfl
  | _, .expression _ _ h2 => by
    show ArgList.expression _ (renumListExpression f _) = _
    rw [((renumListExpression_eq f _).trans (mapFix (fun _ hm0 => (hE _ (h2 _ hm0)))))]
theorem fixDistinctExpression {f : NumericLiteral → NumericLiteral} {T : Leaves} {Q : Fam} (hn : ∀ n, T.number n → f n = n) (hE : ∀ e, Q.expr e → renumExpression f e = e) (hG : ∀ g, Q.group g → renumGroupGraphPattern f g = g) :
    ∀ {x : DistinctExpression}, FDistinctExpressionS T Q x → renumDistinctExpression f x = x
  | _, .mk h0 => by
    show DistinctExpression.mk _ (renumExpression f _) = _
    rw [(hE _ h0)]
theorem fixExpressionAsVar {f : NumericLiteral → NumericLiteral} {T : Leaves} {Q : Fam} (hn : ∀ n, T.number n → f n = n) (hE : ∀ e, Q.expr e → renumExpression f e = e) (hG : ∀ g, Q.group g → renumGroupGraphPattern f g = g) :
    ∀ {x : ExpressionAsVar}, FExpressionAsVarS T Q x → renumExpressionAsVar f x = x
  | _, .mk h0 _ => by
    show ExpressionAsVar.mk (renumExpression f _) _ = _
    rw [(hE _ h0)]
theorem fixExpressionAsVarOpt {f : NumericLiteral → NumericLiteral} {T : Leaves} {Q : Fam} (hn : ∀ n, T.number n → f n = n) (hE : ∀ e, Q.expr e → renumExpression f e = e) (hG : ∀ g, Q.group g → renumGroupGraphPattern f g = g) :
    ∀ {x : ExpressionAsVarOpt}, FExpressionAsVarOptS T Q x → renumExpressionAsVarOpt f x = x
  | _, .mk h0 _ => by
    show ExpressionAsVarOpt.mk (renumExpression f _) _ = _
    rw [(hE _ h0)]
theorem fixRegexExpression {f : NumericLiteral → NumericLiteral} {T : Leaves} {Q : Fam} (hn : ∀ n, T.number n → f n = n) (hE : ∀ e, Q.expr e → renumExpression f e = e) (hG : ∀ g, Q.group g → renumGroupGraphPattern f g = g) :
    ∀ {x : RegexExpression}, FRegexExpressionS T Q x → renumRegexExpression f x = x
  | _, .mk h0 h1 h2 => by
    show RegexExpression.mk (renumExpression f _) (renumExpression f _) (renumOptionExpression f _) = _
    rw [(hE _ h0), (hE _ h1), ((renumOptionExpression_eq f _).trans (optFix (fun _ hm0 => (hE _ (h2 _ hm0)))))]
theorem fixStrReplaceExpression {f : NumericLiteral → NumericLiteral} {T : Leaves} {Q : Fam} (hn : ∀ n, T.number n → f n = n) (hE : ∀ e, Q.expr e → renumExpression f e = e) (hG : ∀ g, Q.group g → renumGroupGraphPattern f g = g) :
    ∀ {x : StrReplaceExpression}, FStrReplaceExpressionS T Q x → renumStrReplaceExpression f x = x
  | _, .mk h0 h1 h2 h3 => by
    show StrReplaceExpression.mk (renumExpression f _) (renumExpression f _) (renumExpression f _) (renumOptionExpression f _) = _
    rw [(hE _ h0), (hE _ h1), (hE _ h2), ((renumOptionExpression_eq f _).trans (optFix (fun _ hm0 => (hE _ (h3 _ hm0)))))]
theorem fixFunctionCall {f : NumericLiteral → NumericLiteral} {T : Leaves} {Q : Fam} (hn : ∀ n, T.number n → f n = n) (hE : ∀ e, Q.expr e → renumExpression f e = e) (hG : ∀ g, Q.group g → renumGroupGraphPattern f g = g) :
    ∀ {x : FunctionCall}, FFunctionCallS T Q x → renumFunctionCall f x = x
  | _, .mk _ h1 => by
    show FunctionCall.mk _ (renumArgList f _) = _
    rw [(fixArgList hn hE hG h1)]
theorem fixCountTarget {f : NumericLiteral → NumericLiteral} {T : Leaves} {Q : Fam} (hn : ∀ n, T.number n → f n = n) (hE : ∀ e, Q.expr e → renumExpression f e = e) (hG : ∀ g, Q.group g → renumGroupGraphPattern f g = g) :
    ∀ {x : CountTarget}, FCountTargetS T Q x → renumCountTarget f x = x
  | _, .all => rfl
  | _, .expr h0 => by
    show CountTarget.expr (renumExpression f _) = _
    rw [(hE _ h0)]
theorem fixGroupConcat {f : NumericLiteral → NumericLiteral} {T : Leaves} {Q : Fam} (hn : ∀ n, T.number n → f n = n) (hE : ∀ e, Q.expr e → renumExpression f e = e) (hG : ∀ g, Q.group g → renumGroupGraphPattern f g = g) :
    ∀ {x : GroupConcat}, FGroupConcatS T Q x → renumGroupConcat f x = x
  | _, .mk h0 _ => by
    show GroupConcat.mk (renumDistinctExpression f _) _ = _
    rw [(fixDistinctExpression hn hE hG h0)]
theorem fixGraphGraphPattern {f : NumericLiteral → NumericLiteral} {T : Leaves} {Q : Fam} (hn : ∀ n, T.number n → f n = n) (hE : ∀ e, Q.expr e → renumExpression f e = e) (hG : ∀ g, Q.group g → renumGroupGraphPattern f g = g) :
    ∀ {x : GraphGraphPattern}, FGraphGraphPatternS T Q x → renumGraphGraphPattern f x = x
  | _, .mk _ h1 => by
    show GraphGraphPattern.mk _ (renumGroupGraphPattern f _) = _
    rw [(hG _ h1)]
theorem fixServiceGraphPattern {f : NumericLiteral → NumericLiteral} {T : Leaves} {Q : Fam} (hn : ∀ n, T.number n → f n = n) (hE : ∀ e, Q.expr e → renumExpression f e = e) (hG : ∀ g, Q.group g → renumGroupGraphPattern f g = g) :
    ∀ {x : ServiceGraphPattern}, FServiceGraphPatternS T Q x → renumServiceGraphPattern f x = x
  | _, .mk _ h1 => by
    show ServiceGraphPattern.mk _ _ (renumGroupGraphPattern f _) = _
    rw [(hG _ h1)]
theorem fixVarOrExpressionAsVar {f : NumericLiteral → NumericLiteral} {T : Leaves} {Q : Fam} (hn : ∀ n, T.number n → f n = n) (hE : ∀ e, Q.expr e → renumExpression f e = e) (hG : ∀ g, Q.group g → renumGroupGraphPattern f g = g) :
    ∀ {x : VarOrExpressionAsVar}, FVarOrExpressionAsVarS T Q x → renumVarOrExpressionAsVar f x = x
  | _, .var _ => rfl
  | _, .expressionAsVar h0 => by
    show VarOrExpressionAsVar.expressionAsVar (renumExpressionAsVar f _) = _
    rw [(fixExpressionAsVar hn hE hG h0)]
theorem fixOrderExpression {f : NumericLiteral → NumericLiteral} {T : Leaves} {Q : Fam} (hn : ∀ n, T.number n → f n = n) (hE : ∀ e, Q.expr e → renumExpression f e = e) (hG : ∀ g, Q.group g → renumGroupGraphPattern f g = g) :
    ∀ {x : OrderExpression}, FOrderExpressionS T Q x → renumOrderExpression f x = x
  | _, .mk h0 => by
    show OrderExpression.mk _ (renumExpression f _) = _
    rw [(hE _ h0)]
theorem fixIriOrFunction {f : NumericLiteral → NumericLiteral} {T : Leaves} {Q : Fam} (hn : ∀ n, T.number n → f n = n) (hE : ∀ e, Q.expr e → renumExpression f e = e) (hG : ∀ g, Q.group g → renumGroupGraphPattern f g = g) :
    ∀ {x : IriOrFunction}, FIriOrFunctionS T Q x → renumIriOrFunction f x = x
  | _, .mk _ h1 => by
    show IriOrFunction.mk _ (renumOptionArgList f _) = _
    rw [((renumOptionArgList_eq f _).trans (optFix (fun _ hm0 => (fixArgList hn hE hG (h1 _ hm0)))))]
theorem fixCount {f : NumericLiteral → NumericLiteral} {T : Leaves} {Q : Fam} (hn : ∀ n, T.number n → f n = n) (hE : ∀ e, Q.expr e → renumExpression f e = e) (hG : ∀ g, Q.group g → renumGroupGraphPattern f g = g) :
    ∀ {x : Count}, FCountS T Q x → renumCount f x = x
  | _, .mk h0 => by
    show Count.mk _ (renumCountTarget f _) = _
    rw [(fixCountTarget hn hE hG h0)]
theorem fixSelectVars {f : NumericLiteral → NumericLiteral} {T : Leaves} {Q : Fam} (hn : ∀ n, T.number n → f n = n) (hE : ∀ e, Q.expr e → renumExpression f e = e) (hG : ∀ g, Q.group g → renumGroupGraphPattern f g = g) :
    ∀ {x : SelectVars}, FSelectVarsS T Q x → renumSelectVars f x = x
  | _, .varOrExpressionAsVar _ h1 => by
    show SelectVars.varOrExpressionAsVar (renumListVarOrExpressionAsVar f _) = _
    rw [((renumListVarOrExpressionAsVar_eq f _).trans (mapFix (fun _ hm0 => (fixVarOrExpressionAsVar hn hE hG (h1 _ hm0)))))]
  | _, .all => rfl
theorem fixAggregate {f : NumericLiteral → NumericLiteral} {T : Leaves} {Q : Fam} (hn : ∀ n, T.number n → f n = n) (hE : ∀ e, Q.expr e → renumExpression f e = e) (hG : ∀ g, Q.group g → renumGroupGraphPattern f g = g) :
    ∀ {x : Aggregate}, FAggregateS T Q x → renumAggregate f x = x
  | _, .count h0 => by
    show Aggregate.count (renumCount f _) = _
    rw [(fixCount hn hE hG h0)]
  | _, .sum h0 => by
    show Aggregate.sum (renumDistinctExpression f _) = _
    rw [(fixDistinctExpression hn hE hG h0)]
  | _, .min h0 => by
    show Aggregate.min (renumDistinctExpression f _) = _
    rw [(fixDistinctExpression hn hE hG h0)]
  | _, .max h0 => by
    show Aggregate.max (renumDistinctExpression f _) = _
    rw [(fixDistinctExpression hn hE hG h0)]
  | _, .avg h0 => by
    show Aggregate.avg (renumDistinctExpression f _) = _
    rw [(fixDistinctExpression hn hE hG h0)]
  | _, .sample h0 => by
    show Aggregate.sample (renumDistinctExpression f _) = _
    rw [(fixDistinctExpression hn hE hG h0)]
  | _, .groupConcat h0 => by
    show Aggregate.groupConcat (renumGroupConcat f _) = _
    rw [(fixGroupConcat hn hE hG h0)]
theorem fixSelectClause {f : NumericLiteral → NumericLiteral} {T : Leaves} {Q : Fam} (hn : ∀ n, T.number n → f n = n) (hE : ∀ e, Q.expr e → renumExpression f e = e) (hG : ∀ g, Q.group g → renumGroupGraphPattern f g = g) :
    ∀ {x : SelectClause}, FSelectClauseS T Q x → renumSelectClause f x = x
  | _, .mk h0 => by
    show SelectClause.mk _ (renumSelectVars f _) = _
    rw [(fixSelectVars hn hE hG h0)]
theorem fixBuiltInCall {f : NumericLiteral → NumericLiteral} {T : Leaves} {Q : Fam} (hn : ∀ n, T.number n → f n = n) (hE : ∀ e, Q.expr e → renumExpression f e = e) (hG : ∀ g, Q.group g → renumGroupGraphPattern f g = g) :
    ∀ {x : BuiltInCall}, FBuiltInCallS T Q x → renumBuiltInCall f x = x
  | _, .aggregate h0 => by
    show BuiltInCall.aggregate (renumAggregate f _) = _
    rw [(fixAggregate hn hE hG h0)]
  | _, .str h0 => by
    show BuiltInCall.str (renumExpression f _) = _
    rw [(hE _ h0)]
  | _, .lang h0 => by
    show BuiltInCall.lang (renumExpression f _) = _
    rw [(hE _ h0)]
  | _, .langMatches h0 h1 => by
    show BuiltInCall.langMatches (renumExpression f _) (renumExpression f _) = _
    rw [(hE _ h0), (hE _ h1)]
  | _, .datatype h0 => by
    show BuiltInCall.datatype (renumExpression f _) = _
    rw [(hE _ h0)]
  | _, .bound _ => rfl
  | _, .iri h0 => by
    show BuiltInCall.iri (renumExpression f _) = _
    rw [(hE _ h0)]
  | _, .uri h0 => by
    show BuiltInCall.uri (renumExpression f _) = _
    rw [(hE _ h0)]
  | _, .bnode h0 => by
    show BuiltInCall.bnode (renumOptionExpression f _) = _
    rw [((renumOptionExpression_eq f _).trans (optFix (fun _ hm0 => (hE _ (h0 _ hm0)))))]
  | _, .rand => rfl
  | _, .abs _ h1 => by
    show BuiltInCall.abs (renumExpression f _) = _
    rw [(hE _ h1)]
  | _, .ceil _ h1 => by
    show BuiltInCall.ceil (renumExpression f _) = _
    rw [(hE _ h1)]
  | _, .floor _ h1 => by
    show BuiltInCall.floor (renumExpression f _) = _
    rw [(hE _ h1)]
  | _, .round _ h1 => by
    show BuiltInCall.round (renumExpression f _) = _
    rw [(hE _ h1)]
  | _, .concat h0 h1 => by
    show BuiltInCall.concat (renumExpressionList f _) (renumRegexExpression f _) = _
    rw [(fixExpressionList hn hE hG h0), (fixRegexExpression hn hE hG h1)]
  | _, .strLen h0 h1 => by
    show BuiltInCall.strLen (renumExpression f _) (renumStrReplaceExpression f _) = _
    rw [(hE _ h0), (fixStrReplaceExpression hn hE hG h1)]
  | _, .uCase h0 => by
    show BuiltInCall.uCase (renumExpression f _) = _
    rw [(hE _ h0)]
  | _, .lCase h0 => by
    show BuiltInCall.lCase (renumExpression f _) = _
    rw [(hE _ h0)]
  | _, .encodeForUri h0 => by
    show BuiltInCall.encodeForUri (renumExpression f _) = _
    rw [(hE _ h0)]
  | _, .contains h0 h1 => by
    show BuiltInCall.contains (renumExpression f _) (renumExpression f _) = _
    rw [(hE _ h0), (hE _ h1)]
  | _, .strStarts h0 h1 => by
    show BuiltInCall.strStarts (renumExpression f _) (renumExpression f _) = _
    rw [(hE _ h0), (hE _ h1)]
  | _, .strEnds h0 h1 => by
    show BuiltInCall.strEnds (renumExpression f _) (renumExpression f _) = _
    rw [(hE _ h0), (hE _ h1)]
  | _, .strBefore h0 h1 => by
    show BuiltInCall.strBefore (renumExpression f _) (renumExpression f _) = _
    rw [(hE _ h0), (hE _ h1)]
  | _, .strAfter h0 h1 => by
    show BuiltInCall.strAfter (renumExpression f _) (renumExpression f _) = _
    rw [(hE _ h0), (hE _ h1)]
  | _, .year h0 => by
    show BuiltInCall.year (renumExpression f _) = _
    rw [(hE _ h0)]
  | _, .month h0 => by
    show BuiltInCall.month (renumExpression f _) = _
    rw [(hE _ h0)]
  | _, .day h0 => by
    show BuiltInCall.day (renumExpression f _) = _
    rw [(hE _ h0)]
  | _, .hours h0 => by
    show BuiltInCall.hours (renumExpression f _) = _
    rw [(hE _ h0)]
  | _, .minutes h0 => by
    show BuiltInCall.minutes (renumExpression f _) = _
    rw [(hE _ h0)]
  | _, .seconds h0 => by
    show BuiltInCall.seconds (renumExpression f _) = _
    rw [(hE _ h0)]
  | _, .timezone h0 => by
    show BuiltInCall.timezone (renumExpression f _) = _
    rw [(hE _ h0)]
  | _, .tz h0 => by
    show BuiltInCall.tz (renumExpression f _) = _
    rw [(hE _ h0)]
  | _, .now => rfl
  | _, .uuid => rfl
  | _, .strUuid => rfl
  | _, .md5 h0 => by
    show BuiltInCall.md5 (renumExpression f _) = _
    rw [(hE _ h0)]
  | _, .sha1 h0 => by
    show BuiltInCall.sha1 (renumExpression f _) = _
    rw [(hE _ h0)]
  | _, .sha256 h0 => by
    show BuiltInCall.sha256 (renumExpression f _) = _
    rw [(hE _ h0)]
  | _, .sha384 h0 => by
    show BuiltInCall.sha384 (renumExpression f _) = _
    rw [(hE _ h0)]
  | _, .sha512 h0 => by
    show BuiltInCall.sha512 (renumExpression f _) = _
    rw [(hE _ h0)]
  | _, .coalesce h0 => by
    show BuiltInCall.coalesce (renumExpressionList f _) = _
    rw [(fixExpressionList hn hE hG h0)]
  | _, .if h0 h1 h2 => by
    show BuiltInCall.if (renumExpression f _) (renumExpression f _) (renumExpression f _) = _
    rw [(hE _ h0), (hE _ h1), (hE _ h2)]
  | _, .strLang h0 h1 => by
    show BuiltInCall.strLang (renumExpression f _) (renumExpression f _) = _
    rw [(hE _ h0), (hE _ h1)]
  | _, .strDt h0 h1 => by
    show BuiltInCall.strDt (renumExpression f _) (renumExpression f _) = _
    rw [(hE _ h0), (hE _ h1)]
  | _, .sameTerm h0 h1 => by
    show BuiltInCall.sameTerm (renumExpression f _) (renumExpression f _) = _
    rw [(hE _ h0), (hE _ h1)]
  | _, .isIri h0 => by
    show BuiltInCall.isIri (renumExpression f _) = _
    rw [(hE _ h0)]
  | _, .isUri h0 => by
    show BuiltInCall.isUri (renumExpression f _) = _
    rw [(hE _ h0)]
  | _, .isBlank h0 => by
    show BuiltInCall.isBlank (renumExpression f _) = _
    rw [(hE _ h0)]
  | _, .isLiteral h0 => by
    show BuiltInCall.isLiteral (renumExpression f _) = _
    rw [(hE _ h0)]
  | _, .isNumeric h0 => by
    show BuiltInCall.isNumeric (renumExpression f _) = _
    rw [(hE _ h0)]
  | _, .regex h0 => by
    show BuiltInCall.regex (renumRegexExpression f _) = _
    rw [(fixRegexExpression hn hE hG h0)]
  | _, .existsFunc h0 => by
    show BuiltInCall.existsFunc (renumGroupGraphPattern f _) = _
    rw [(hG _ h0)]
  | _, .notExistsFunc h0 => by
    show BuiltInCall.notExistsFunc (renumGroupGraphPattern f _) = _
    rw [(hG _ h0)]
theorem fixGroupCondition {f : NumericLiteral → NumericLiteral} {T : Leaves} {Q : Fam} (hn : ∀ n, T.number n → f n = n) (hE : ∀ e, Q.expr e → renumExpression f e = e) (hG : ∀ g, Q.group g → renumGroupGraphPattern f g = g) :
    ∀ {x : GroupCondition}, FGroupConditionS T Q x → renumGroupCondition f x = x
  | _, .builtInCall h0 => by
    show GroupCondition.builtInCall (renumBuiltInCall f _) = _
    rw [(fixBuiltInCall hn hE hG h0)]
  | _, .functionCall h0 => by
    show GroupCondition.functionCall (renumFunctionCall f _) = _
    rw [(fixFunctionCall hn hE hG h0)]
  | _, .expressionAsVarOpt h0 => by
    show GroupCondition.expressionAsVarOpt (renumExpressionAsVarOpt f _) = _
    rw [(fixExpressionAsVarOpt hn hE hG h0)]
  | _, .var _ => rfl
theorem fixPrimaryExpression {f : NumericLiteral → NumericLiteral} {T : Leaves} {Q : Fam} (hn : ∀ n, T.number n → f n = n) (hE : ∀ e, Q.expr e → renumExpression f e = e) (hG : ∀ g, Q.group g → renumGroupGraphPattern f g = g) :
    ∀ {x : PrimaryExpression}, FPrimaryExpressionS T Q x → renumPrimaryExpression f x = x
  | _, .brackettedExpression h0 => by
    show PrimaryExpression.brackettedExpression (renumExpression f _) = _
    rw [(hE _ h0)]
  | _, .builtInCall h0 => by
    show PrimaryExpression.builtInCall (renumBuiltInCall f _) = _
    rw [(fixBuiltInCall hn hE hG h0)]
  | _, .iriOrFunction h0 => by
    show PrimaryExpression.iriOrFunction (renumIriOrFunction f _) = _
    rw [(fixIriOrFunction hn hE hG h0)]
  | _, .rdfLiteral _ => rfl
  | _, .numericLiteral h0 => by
    show PrimaryExpression.numericLiteral (f _) = _
    rw [(hn _ h0)]
  | _, .booleanLiteral => rfl
  | _, .var _ => rfl
theorem fixConstraint {f : NumericLiteral → NumericLiteral} {T : Leaves} {Q : Fam} (hn : ∀ n, T.number n → f n = n) (hE : ∀ e, Q.expr e → renumExpression f e = e) (hG : ∀ g, Q.group g → renumGroupGraphPattern f g = g) :
    ∀ {x : Constraint}, FConstraintS T Q x → renumConstraint f x = x
  | _, .bracketted h0 => by
    show Constraint.bracketted (renumExpression f _) = _
    rw [(hE _ h0)]
  | _, .builtInCall h0 => by
    show Constraint.builtInCall (renumBuiltInCall f _) = _
    rw [(fixBuiltInCall hn hE hG h0)]
  | _, .functionCall h0 => by
    show Constraint.functionCall (renumFunctionCall f _) = _
    rw [(fixFunctionCall hn hE hG h0)]
theorem fixGraphPatternNotTriples {f : NumericLiteral → NumericLiteral} {T : Leaves} {Q : Fam} (hn : ∀ n, T.number n → f n = n) (hE : ∀ e, Q.expr e → renumExpression f e = e) (hG : ∀ g, Q.group g → renumGroupGraphPattern f g = g) :
    ∀ {x : GraphPatternNotTriples}, FGraphPatternNotTriplesS T Q x → renumGraphPatternNotTriples f x = x
  | _, .optional h0 => by
    show GraphPatternNotTriples.optional (renumGroupGraphPattern f _) = _
    rw [(hG _ h0)]
  | _, .groupOrUnion _ h1 => by
    show GraphPatternNotTriples.groupOrUnion (renumListGroupGraphPattern f _) = _
    rw [((renumListGroupGraphPattern_eq f _).trans (mapFix (fun _ hm0 => (hG _ (h1 _ hm0)))))]
  | _, .minus h0 => by
    show GraphPatternNotTriples.minus (renumGroupGraphPattern f _) = _
    rw [(hG _ h0)]
  | _, .graph h0 => by
    show GraphPatternNotTriples.graph (renumGraphGraphPattern f _) = _
    rw [(fixGraphGraphPattern hn hE hG h0)]
  | _, .service h0 => by
    show GraphPatternNotTriples.service (renumServiceGraphPattern f _) = _
    rw [(fixServiceGraphPattern hn hE hG h0)]
  | _, .filter h0 => by
    show GraphPatternNotTriples.filter (renumConstraint f _) = _
    rw [(fixConstraint hn hE hG h0)]
  | _, .bind h0 => by
    show GraphPatternNotTriples.bind (renumExpressionAsVar f _) = _
    rw [(fixExpressionAsVar hn hE hG h0)]
  | _, .inlineData h0 => by
    show GraphPatternNotTriples.inlineData (renumDataBlock f _) = _
    rw [(fixDataBlock hn h0)]
theorem fixHavingClause {f : NumericLiteral → NumericLiteral} {T : Leaves} {Q : Fam} (hn : ∀ n, T.number n → f n = n) (hE : ∀ e, Q.expr e → renumExpression f e = e) (hG : ∀ g, Q.group g → renumGroupGraphPattern f g = g) :
    ∀ {x : HavingClause}, FHavingClauseS T Q x → renumHavingClause f x = x
  | _, .mk _ h1 => by
    show HavingClause.mk (renumListConstraint f _) = _
    rw [((renumListConstraint_eq f _).trans (mapFix (fun _ hm0 => (fixConstraint hn hE hG (h1 _ hm0)))))]
theorem fixOrderCondition {f : NumericLiteral → NumericLiteral} {T : Leaves} {Q : Fam} (hn : ∀ n, T.number n → f n = n) (hE : ∀ e, Q.expr e → renumExpression f e = e) (hG : ∀ g, Q.group g → renumGroupGraphPattern f g = g) :
    ∀ {x : OrderCondition}, FOrderConditionS T Q x → renumOrderCondition f x = x
  | _, .order h0 => by
    show OrderCondition.order (renumOrderExpression f _) = _
    rw [(fixOrderExpression hn hE hG h0)]
  | _, .constraint h0 => by
    show OrderCondition.constraint (renumConstraint f _) = _
    rw [(fixConstraint hn hE hG h0)]
  | _, .var _ => rfl
theorem fixGroupClause {f : NumericLiteral → NumericLiteral} {T : Leaves} {Q : Fam} (hn : ∀ n, T.number n → f n = n) (hE : ∀ e, Q.expr e → renumExpression f e = e) (hG : ∀ g, Q.group g → renumGroupGraphPattern f g = g) :
    ∀ {x : GroupClause}, FGroupClauseS T Q x → renumGroupClause f x = x
  | _, .mk _ h1 => by
    show GroupClause.mk (renumListGroupCondition f _) = _
    rw [((renumListGroupCondition_eq f _).trans (mapFix (fun _ hm0 => (fixGroupCondition hn hE hG (h1 _ hm0)))))]
theorem fixUnaryExpression {f : NumericLiteral → NumericLiteral} {T : Leaves} {Q : Fam} (hn : ∀ n, T.number n → f n = n) (hE : ∀ e, Q.expr e → renumExpression f e = e) (hG : ∀ g, Q.group g → renumGroupGraphPattern f g = g) :
    ∀ {x : UnaryExpression}, FUnaryExpressionS T Q x → renumUnaryExpression f x = x
  | _, .not h0 => by
    show UnaryExpression.not (renumPrimaryExpression f _) = _
    rw [(fixPrimaryExpression hn hE hG h0)]
  | _, .add h0 => by
    show UnaryExpression.add (renumPrimaryExpression f _) = _
    rw [(fixPrimaryExpression hn hE hG h0)]
  | _, .sub h0 => by
    show UnaryExpression.sub (renumPrimaryExpression f _) = _
    rw [(fixPrimaryExpression hn hE hG h0)]
  | _, .default h0 => by
    show UnaryExpression.default (renumPrimaryExpression f _) = _
    rw [(fixPrimaryExpression hn hE hG h0)]
theorem fixGraphPatternAndTriples {f : NumericLiteral → NumericLiteral} {T : Leaves} {Q : Fam} (hn : ∀ n, T.number n → f n = n) (hE : ∀ e, Q.expr e → renumExpression f e = e) (hG : ∀ g, Q.group g → renumGroupGraphPattern f g = g) :
    ∀ {x : GraphPatternAndTriples}, FGraphPatternAndTriplesS T Q x → renumGraphPatternAndTriples f x = x
  | _, .mk h0 h1 => by
    show GraphPatternAndTriples.mk (renumGraphPatternNotTriples f _) (Option.map (renumTriplesBlock f) _) = _
    rw [(fixGraphPatternNotTriples hn hE hG h0), (optFix (fun _ hm0 => (fixTriplesBlock hn (h1 _ hm0))))]
theorem fixOrderClause {f : NumericLiteral → NumericLiteral} {T : Leaves} {Q : Fam} (hn : ∀ n, T.number n → f n = n) (hE : ∀ e, Q.expr e → renumExpression f e = e) (hG : ∀ g, Q.group g → renumGroupGraphPattern f g = g) :
    ∀ {x : OrderClause}, FOrderClauseS T Q x → renumOrderClause f x = x
  | _, .mk _ h1 => by
    show OrderClause.mk (renumListOrderCondition f _) = _
    rw [((renumListOrderCondition_eq f _).trans (mapFix (fun _ hm0 => (fixOrderCondition hn hE hG (h1 _ hm0)))))]
theorem fixMultExpression {f : NumericLiteral → NumericLiteral} {T : Leaves} {Q : Fam} (hn : ∀ n, T.number n → f n = n) (hE : ∀ e, Q.expr e → renumExpression f e = e) (hG : ∀ g, Q.group g → renumGroupGraphPattern f g = g) :
    ∀ {x : MultExpression}, FMultExpressionS T Q x → renumMultExpression f x = x
  | _, .mult h0 => by
    show MultExpression.mult (renumUnaryExpression f _) = _
    rw [(fixUnaryExpression hn hE hG h0)]
  | _, .div h0 => by
    show MultExpression.div (renumUnaryExpression f _) = _
    rw [(fixUnaryExpression hn hE hG h0)]
theorem fixGroupGraphPatternSub {f : NumericLiteral → NumericLiteral} {T : Leaves} {Q : Fam} (hn : ∀ n, T.number n → f n = n) (hE : ∀ e, Q.expr e → renumExpression f e = e) (hG : ∀ g, Q.group g → renumGroupGraphPattern f g = g) :
    ∀ {x : GroupGraphPatternSub}, FGroupGraphPatternSubS T Q x → renumGroupGraphPatternSub f x = x
  | _, .mk h0 h1 => by
    show GroupGraphPatternSub.mk (Option.map (renumTriplesBlock f) _) (renumListGraphPatternAndTriples f _) = _
    rw [(optFix (fun _ hm0 => (fixTriplesBlock hn (h0 _ hm0)))), ((renumListGraphPatternAndTriples_eq f _).trans (mapFix (fun _ hm0 => (fixGraphPatternAndTriples hn hE hG (h1 _ hm0)))))]
theorem fixSolutionModifier {f : NumericLiteral → NumericLiteral} {T : Leaves} {Q : Fam} (hn : ∀ n, T.number n → f n = n) (hE : ∀ e, Q.expr e → renumExpression f e = e) (hG : ∀ g, Q.group g → renumGroupGraphPattern f g = g) :
    ∀ {x : SolutionModifier}, FSolutionModifierS T Q x → renumSolutionModifier f x = x
  | _, .mk h0 h1 h2 _ => by
    show SolutionModifier.mk (renumOptionOrderClause f _) (renumOptionGroupClause f _) (renumOptionHavingClause f _) _ = _
    rw [((renumOptionOrderClause_eq f _).trans (optFix (fun _ hm0 => (fixOrderClause hn hE hG (h0 _ hm0))))), ((renumOptionGroupClause_eq f _).trans (optFix (fun _ hm0 => (fixGroupClause hn hE hG (h1 _ hm0))))), ((renumOptionHavingClause_eq f _).trans (optFix (fun _ hm0 => (fixHavingClause hn hE hG (h2 _ hm0)))))]
theorem fixMultiplicativeExpression {f : NumericLiteral → NumericLiteral} {T : Leaves} {Q : Fam} (hn : ∀ n, T.number n → f n = n) (hE : ∀ e, Q.expr e → renumExpression f e = e) (hG : ∀ g, Q.group g → renumGroupGraphPattern f g = g) :
    ∀ {x : MultiplicativeExpression}, FMultiplicativeExpressionS T Q x → renumMultiplicativeExpression f x = x
  | _, .mk h0 h1 => by
    show MultiplicativeExpression.mk (renumUnaryExpression f _) (renumListMultExpression f _) = _
    rw [(fixUnaryExpression hn hE hG h0), ((renumListMultExpression_eq f _).trans (mapFix (fun _ hm0 => (fixMultExpression hn hE hG (h1 _ hm0)))))]
theorem fixSubSelect {f : NumericLiteral → NumericLiteral} {T : Leaves} {Q : Fam} (hn : ∀ n, T.number n → f n = n) (hE : ∀ e, Q.expr e → renumExpression f e = e) (hG : ∀ g, Q.group g → renumGroupGraphPattern f g = g) :
    ∀ {x : SubSelect}, FSubSelectS T Q x → renumSubSelect f x = x
  | _, .mk h0 h1 h2 h3 => by
    show SubSelect.mk (renumSelectClause f _) (renumGroupGraphPattern f _) (renumSolutionModifier f _) (Option.map (renumDataBlock f) _) = _
    rw [(fixSelectClause hn hE hG h0), (hG _ h1), (fixSolutionModifier hn hE hG h2), (optFix (fun _ hm0 => (fixDataBlock hn (h3 _ hm0))))]
theorem fixAddExpression {f : NumericLiteral → NumericLiteral} {T : Leaves} {Q : Fam} (hn : ∀ n, T.number n → f n = n) (hE : ∀ e, Q.expr e → renumExpression f e = e) (hG : ∀ g, Q.group g → renumGroupGraphPattern f g = g) :
    ∀ {x : AddExpression}, FAddExpressionS T Q x → renumAddExpression f x = x
  | _, .add h0 => by
    show AddExpression.add (renumMultiplicativeExpression f _) = _
    rw [(fixMultiplicativeExpression hn hE hG h0)]
  | _, .sub h0 => by
    show AddExpression.sub (renumMultiplicativeExpression f _) = _
    rw [(fixMultiplicativeExpression hn hE hG h0)]
  | _, .numeric h0 h1 => by
    show AddExpression.numeric (f _) (renumListMultExpression f _) = _
    rw [(hn _ h0), ((renumListMultExpression_eq f _).trans (mapFix (fun _ hm0 => (fixMultExpression hn hE hG (h1 _ hm0)))))]
theorem fixGroupGraphPattern {f : NumericLiteral → NumericLiteral} {T : Leaves} {Q : Fam} (hn : ∀ n, T.number n → f n = n) (hE : ∀ e, Q.expr e → renumExpression f e = e) (hG : ∀ g, Q.group g → renumGroupGraphPattern f g = g) :
    ∀ {x : GroupGraphPattern}, FGroupGraphPatternS T Q x → renumGroupGraphPattern f x = x
  | _, .subSelect h0 => by
    show GroupGraphPattern.subSelect (renumSubSelect f _) = _
    rw [(fixSubSelect hn hE hG h0)]
  | _, .groupGraphPatternSub h0 => by
    show GroupGraphPattern.groupGraphPatternSub (renumGroupGraphPatternSub f _) = _
    rw [(fixGroupGraphPatternSub hn hE hG h0)]
theorem fixAdditiveExpression {f : NumericLiteral → NumericLiteral} {T : Leaves} {Q : Fam} (hn : ∀ n, T.number n → f n = n) (hE : ∀ e, Q.expr e → renumExpression f e = e) (hG : ∀ g, Q.group g → renumGroupGraphPattern f g = g) :
    ∀ {x : AdditiveExpression}, FAdditiveExpressionS T Q x → renumAdditiveExpression f x = x
  | _, .mk h0 h1 => by
    show AdditiveExpression.mk (renumMultiplicativeExpression f _) (renumListAddExpression f _) = _
    rw [(fixMultiplicativeExpression hn hE hG h0), ((renumListAddExpression_eq f _).trans (mapFix (fun _ hm0 => (fixAddExpression hn hE hG (h1 _ hm0)))))]
theorem fixOpExpression {f : NumericLiteral → NumericLiteral} {T : Leaves} {Q : Fam} (hn : ∀ n, T.number n → f n = n) (hE : ∀ e, Q.expr e → renumExpression f e = e) (hG : ∀ g, Q.group g → renumGroupGraphPattern f g = g) :
    ∀ {x : OpExpression}, FOpExpressionS T Q x → renumOpExpression f x = x
  | _, .eq h0 => by
    show OpExpression.eq (renumAdditiveExpression f _) = _
    rw [(fixAdditiveExpression hn hE hG h0)]
  | _, .ne h0 => by
    show OpExpression.ne (renumAdditiveExpression f _) = _
    rw [(fixAdditiveExpression hn hE hG h0)]
  | _, .lt h0 => by
    show OpExpression.lt (renumAdditiveExpression f _) = _
    rw [(fixAdditiveExpression hn hE hG h0)]
  | _, .gt h0 => by
    show OpExpression.gt (renumAdditiveExpression f _) = _
    rw [(fixAdditiveExpression hn hE hG h0)]
  | _, .le h0 => by
    show OpExpression.le (renumAdditiveExpression f _) = _
    rw [(fixAdditiveExpression hn hE hG h0)]
  | _, .ge h0 => by
    show OpExpression.ge (renumAdditiveExpression f _) = _
    rw [(fixAdditiveExpression hn hE hG h0)]
  | _, .in h0 => by
    show OpExpression.in (renumExpressionList f _) = _
    rw [(fixExpressionList hn hE hG h0)]
  | _, .nin h0 => by
    show OpExpression.nin (renumExpressionList f _) = _
    rw [(fixExpressionList hn hE hG h0)]
theorem fixRelationalExpression {f : NumericLiteral → NumericLiteral} {T : Leaves} {Q : Fam} (hn : ∀ n, T.number n → f n = n) (hE : ∀ e, Q.expr e → renumExpression f e = e) (hG : ∀ g, Q.group g → renumGroupGraphPattern f g = g) :
    ∀ {x : RelationalExpression}, FRelationalExpressionS T Q x → renumRelationalExpression f x = x
  | _, .mk h0 h1 => by
    show RelationalExpression.mk (renumAdditiveExpression f _) (renumOptionOpExpression f _) = _
    rw [(fixAdditiveExpression hn hE hG h0), ((renumOptionOpExpression_eq f _).trans (optFix (fun _ hm0 => (fixOpExpression hn hE hG (h1 _ hm0)))))]
theorem fixConditionalAndExpression {f : NumericLiteral → NumericLiteral} {T : Leaves} {Q : Fam} (hn : ∀ n, T.number n → f n = n) (hE : ∀ e, Q.expr e → renumExpression f e = e) (hG : ∀ g, Q.group g → renumGroupGraphPattern f g = g) :
    ∀ {x : ConditionalAndExpression}, FConditionalAndExpressionS T Q x → renumConditionalAndExpression f x = x
  | _, .mk _ h1 => by
    show ConditionalAndExpression.mk (renumListRelationalExpression f _) = _
    rw [((renumListRelationalExpression_eq f _).trans (mapFix (fun _ hm0 => (fixRelationalExpression hn hE hG (h1 _ hm0)))))]
theorem fixExpression {f : NumericLiteral → NumericLiteral} {T : Leaves} {Q : Fam} (hn : ∀ n, T.number n → f n = n) (hE : ∀ e, Q.expr e → renumExpression f e = e) (hG : ∀ g, Q.group g → renumGroupGraphPattern f g = g) :
    ∀ {x : Expression}, FExpressionS T Q x → renumExpression f x = x
  | _, .mk _ h1 => by
    show Expression.mk (renumListConditionalAndExpression f _) = _
    rw [((renumListConditionalAndExpression_eq f _).trans (mapFix (fun _ hm0 => (fixConditionalAndExpression hn hE hG (h1 _ hm0)))))]
theorem fixSelectQuery {f : NumericLiteral → NumericLiteral} {T : Leaves} (hn : ∀ n, T.number n → f n = n) (hE : ∀ e, FExpression T e → renumExpression f e = e) (hG : ∀ g, FGroupGraphPattern T g → renumGroupGraphPattern f g = g) :
    ∀ {x : SelectQuery}, FSelectQuery T x → renumSelectQuery f x = x
  | _, .mk h0 _ h2 h3 => by
    show SelectQuery.mk (renumSelectClause f _) _ (renumGroupGraphPattern f _) (renumSolutionModifier f _) = _
    rw [(fixSelectClause hn hE hG h0), (hG _ h2), (fixSolutionModifier hn hE hG h3)]
theorem fixAskQuery {f : NumericLiteral → NumericLiteral} {T : Leaves} (hn : ∀ n, T.number n → f n = n) (hE : ∀ e, FExpression T e → renumExpression f e = e) (hG : ∀ g, FGroupGraphPattern T g → renumGroupGraphPattern f g = g) :
    ∀ {x : AskQuery}, FAskQuery T x → renumAskQuery f x = x
  | _, .mk _ h1 h2 => by
    show AskQuery.mk _ (renumGroupGraphPattern f _) (renumSolutionModifier f _) = _
    rw [(hG _ h1), (fixSolutionModifier hn hE hG h2)]
theorem fixDescribeQuery {f : NumericLiteral → NumericLiteral} {T : Leaves} (hn : ∀ n, T.number n → f n = n) (hE : ∀ e, FExpression T e → renumExpression f e = e) (hG : ∀ g, FGroupGraphPattern T g → renumGroupGraphPattern f g = g) :
    ∀ {x : DescribeQuery}, FDescribeQuery T x → renumDescribeQuery f x = x
  | _, .mk _ _ h2 h3 => by
    show DescribeQuery.mk _ _ (Option.map (renumGroupGraphPattern f) _) (renumSolutionModifier f _) = _
    rw [(optFix (fun _ hm0 => (hG _ (h2 _ hm0)))), (fixSolutionModifier hn hE hG h3)]
theorem fixSubConstruct {f : NumericLiteral → NumericLiteral} {T : Leaves} (hn : ∀ n, T.number n → f n = n) (hE : ∀ e, FExpression T e → renumExpression f e = e) (hG : ∀ g, FGroupGraphPattern T g → renumGroupGraphPattern f g = g) :
    ∀ {x : SubConstruct}, FSubConstruct T x → renumSubConstruct f x = x
  | _, .mk h0 _ h2 h3 => by
    show SubConstruct.mk (List.map (renumTriplesSameSubject f) _) _ (renumGroupGraphPattern f _) (renumSolutionModifier f _) = _
    rw [(mapFix (fun _ hm0 => (fixTriplesSameSubject hn (h0 _ hm0)))), (hG _ h2), (fixSolutionModifier hn hE hG h3)]
theorem fixSubTriples {f : NumericLiteral → NumericLiteral} {T : Leaves} (hn : ∀ n, T.number n → f n = n) (hE : ∀ e, FExpression T e → renumExpression f e = e) (hG : ∀ g, FGroupGraphPattern T g → renumGroupGraphPattern f g = g) :
    ∀ {x : SubTriples}, FSubTriples T x → renumSubTriples f x = x
  | _, .mk _ h1 h2 => by
    show SubTriples.mk _ (Option.map (List.map (renumTriplesSameSubject f)) _) (renumSolutionModifier f _) = _
    rw [(optFix (fun _ hm0 => (mapFix (fun _ hm1 => (fixTriplesSameSubject hn ((h1 _ hm0).2 _ hm1)))))), (fixSolutionModifier hn hE hG h2)]
theorem fixConstructQuery {f : NumericLiteral → NumericLiteral} {T : Leaves} (hn : ∀ n, T.number n → f n = n) (hE : ∀ e, FExpression T e → renumExpression f e = e) (hG : ∀ g, FGroupGraphPattern T g → renumGroupGraphPattern f g = g) :
    ∀ {x : ConstructQuery}, FConstructQuery T x → renumConstructQuery f x = x
  | _, .subConstruct h0 => by
    show ConstructQuery.subConstruct (renumSubConstruct f _) = _
    rw [(fixSubConstruct hn hE hG h0)]
  | _, .subTriples h0 => by
    show ConstructQuery.subTriples (renumSubTriples f _) = _
    rw [(fixSubTriples hn hE hG h0)]
theorem fixSparqlQuery {f : NumericLiteral → NumericLiteral} {T : Leaves} (hn : ∀ n, T.number n → f n = n) (hE : ∀ e, FExpression T e → renumExpression f e = e) (hG : ∀ g, FGroupGraphPattern T g → renumGroupGraphPattern f g = g) :
    ∀ {x : SparqlQuery}, FSparqlQuery T x → renumSparqlQuery f x = x
  | _, .ask h0 => by
    show SparqlQuery.ask (renumAskQuery f _) = _
    rw [(fixAskQuery hn hE hG h0)]
  | _, .select h0 => by
    show SparqlQuery.select (renumSelectQuery f _) = _
    rw [(fixSelectQuery hn hE hG h0)]
  | _, .describe h0 => by
    show SparqlQuery.describe (renumDescribeQuery f _) = _
    rw [(fixDescribeQuery hn hE hG h0)]
  | _, .construct h0 => by
    show SparqlQuery.construct (renumConstructQuery f _) = _
    rw [(fixConstructQuery hn hE hG h0)]
theorem fixSparqlQueryStatement {f : NumericLiteral → NumericLiteral} {T : Leaves} (hn : ∀ n, T.number n → f n = n) (hE : ∀ e, FExpression T e → renumExpression f e = e) (hG : ∀ g, FGroupGraphPattern T g → renumGroupGraphPattern f g = g) :
    ∀ {x : SparqlQueryStatement}, FSparqlQueryStatement T x → renumSparqlQueryStatement f x = x
  | _, .mk _ h1 h2 => by
    show SparqlQueryStatement.mk _ (renumSparqlQuery f _) (Option.map (renumDataBlock f) _) = _
    rw [(fixSparqlQuery hn hE hG h1), (optFix (fun _ hm0 => (fixDataBlock hn (h2 _ hm0))))]
theorem fixDeleteInsert {f : NumericLiteral → NumericLiteral} {T : Leaves} (hn : ∀ n, T.number n → f n = n) :
    ∀ {x : DeleteInsert}, FDeleteInsert T x → renumDeleteInsert f x = x
  | _, .deleteInsert h0 h1 => by
    show DeleteInsert.deleteInsert (renumQuads f _) (Option.map (renumQuads f) _) = _
    rw [(fixQuads hn h0), (optFix (fun _ hm0 => (fixQuads hn (h1 _ hm0))))]
  | _, .insert h0 => by
    show DeleteInsert.insert (renumQuads f _) = _
    rw [(fixQuads hn h0)]
theorem fixModifyStatement {f : NumericLiteral → NumericLiteral} {T : Leaves} (hn : ∀ n, T.number n → f n = n) (hE : ∀ e, FExpression T e → renumExpression f e = e) (hG : ∀ g, FGroupGraphPattern T g → renumGroupGraphPattern f g = g) :
    ∀ {x : ModifyStatement}, FModifyStatement T x → renumModifyStatement f x = x
  | _, .mk _ h1 _ h3 => by
    show ModifyStatement.mk _ (renumDeleteInsert f _) _ (renumGroupGraphPattern f _) = _
    rw [(fixDeleteInsert hn h1), (hG _ h3)]
theorem fixUpdateStatement {f : NumericLiteral → NumericLiteral} {T : Leaves} (hn : ∀ n, T.number n → f n = n) (hE : ∀ e, FExpression T e → renumExpression f e = e) (hG : ∀ g, FGroupGraphPattern T g → renumGroupGraphPattern f g = g) :
    ∀ {x : UpdateStatement}, FUpdateStatement T x → renumUpdateStatement f x = x
  | _, .load _ => rfl
  | _, .clear _ => rfl
  | _, .drop _ => rfl
  | _, .create _ => rfl
  | _, .add _ _ => rfl
  | _, .move _ _ => rfl
  | _, .copy _ => rfl
  | _, .insertData h0 => by
    show UpdateStatement.insertData (renumQuads f _) = _
    rw [(fixQuads hn h0)]
  | _, .deleteData h0 => by
    show UpdateStatement.deleteData (renumQuads f _) = _
    rw [(fixQuads hn h0)]
  | _, .deleteWhere h0 => by
    show UpdateStatement.deleteWhere (renumQuads f _) = _
    rw [(fixQuads hn h0)]
  | _, .modify h0 => by
    show UpdateStatement.modify (renumModifyStatement f _) = _
    rw [(fixModifyStatement hn hE hG h0)]
theorem fixFilledF {f : NumericLiteral → NumericLiteral} {T : Leaves} (hn : ∀ n, T.number n → f n = n) : ∀ n,
    (∀ e, (filledF T n).expr e → renumExpression f e = e) ∧ (∀ g, (filledF T n).group g → renumGroupGraphPattern f g = g)
  | 0 => ⟨fun _ h => h.elim, fun _ h => h.elim⟩
  | n + 1 => ⟨fun _ h => fixExpression hn (fixFilledF hn n).1 (fixFilledF hn n).2 h, fun _ h => fixGroupGraphPattern hn (fixFilledF hn n).1 (fixFilledF hn n).2 h⟩

theorem fixFExpression {f : NumericLiteral → NumericLiteral} {T : Leaves} (hn : ∀ n, T.number n → f n = n) (e : Expression) :
    FExpression T e → renumExpression f e = e := fun ⟨n, h⟩ => (fixFilledF hn n).1 e h
theorem fixFGroup {f : NumericLiteral → NumericLiteral} {T : Leaves} (hn : ∀ n, T.number n → f n = n) (g : GroupGraphPattern) :
    FGroupGraphPattern T g → renumGroupGraphPattern f g = g := fun ⟨n, h⟩ => (fixFilledF hn n).2 g h

theorem fixUpdate {f : NumericLiteral → NumericLiteral} {T : Leaves} (hn : ∀ n, T.number n → f n = n) :
    ∀ u : Update, FUpdate T u → renumUpdate f u = u
  | .mk a0 a1 none, h => by
    cases h with
    | mk _ h1 _ => rw [renumUpdate, optFix (fun _ hm => fixUpdateStatement hn (fixFExpression hn) (fixFGroup hn) (h1 _ hm))]
  | .mk a0 a1 (some a2), h => by
    cases h with
    | mk _ h1 h2 => rw [renumUpdate, optFix (fun _ hm => fixUpdateStatement hn (fixFExpression hn) (fixFGroup hn) (h1 _ hm)), fixUpdate hn a2 (h2 _ rfl)]

end NomSparql
