import Verif.Lemmas.SwapTail

/-!
# Other strings and other variables, for every parser
-/

namespace NomSparql

set_option synthInstance.maxSize 4000
set_option synthInstance.maxHeartbeats 400000

variable {T : Swap}

instance : Rl T AddExpression (SwAddExpression T) where
instance : Rl T AdditiveExpression (SwAdditiveExpression T) where
instance : Rl T Aggregate (SwAggregate T) where
instance : Rl T ArgList (SwArgList T) where
instance : Rl T AskQuery (SwAskQuery T) where
instance : Rl T BuiltInCall (SwBuiltInCall T) where
instance : Rl T ConditionalAndExpression (SwConditionalAndExpression T) where
instance : Rl T Constraint (SwConstraint T) where
instance : Rl T ConstructQuery (SwConstructQuery T) where
instance : Rl T Count (SwCount T) where
instance : Rl T CountTarget (SwCountTarget T) where
instance : Rl T DataBlock (SwDataBlock T) where
instance : Rl T DataBlockValue (SwDataBlockValue T) where
instance : Rl T DeleteInsert (SwDeleteInsert T) where
instance : Rl T DescribeQuery (SwDescribeQuery T) where
instance : Rl T DistinctExpression (SwDistinctExpression T) where
instance : Rl T Expression (SwExpression T) where
instance : Rl T ExpressionAsVar (SwExpressionAsVar T) where
instance : Rl T ExpressionAsVarOpt (SwExpressionAsVarOpt T) where
instance : Rl T ExpressionList (SwExpressionList T) where
instance : Rl T FunctionCall (SwFunctionCall T) where
instance : Rl T GraphGraphPattern (SwGraphGraphPattern T) where
instance : Rl T GraphNode (SwGraphNode T) where
instance : Rl T GraphNodePath (SwGraphNodePath T) where
instance : Rl T GraphPatternAndTriples (SwGraphPatternAndTriples T) where
instance : Rl T GraphPatternNotTriples (SwGraphPatternNotTriples T) where
instance : Rl T GraphTerm (SwGraphTerm T) where
instance : Rl T GroupClause (SwGroupClause T) where
instance : Rl T GroupConcat (SwGroupConcat T) where
instance : Rl T GroupCondition (SwGroupCondition T) where
instance : Rl T GroupGraphPattern (SwGroupGraphPattern T) where
instance : Rl T GroupGraphPatternSub (SwGroupGraphPatternSub T) where
instance : Rl T HavingClause (SwHavingClause T) where
instance : Rl T InlineDataFull (SwInlineDataFull T) where
instance : Rl T InlineDataOneVar (SwInlineDataOneVar T) where
instance : Rl T IriOrFunction (SwIriOrFunction T) where
instance : Rl T ModifyStatement (SwModifyStatement T) where
instance : Rl T MultExpression (SwMultExpression T) where
instance : Rl T MultiplicativeExpression (SwMultiplicativeExpression T) where
instance : Rl T OpExpression (SwOpExpression T) where
instance : Rl T OrderClause (SwOrderClause T) where
instance : Rl T OrderCondition (SwOrderCondition T) where
instance : Rl T OrderExpression (SwOrderExpression T) where
instance : Rl T PrimaryExpression (SwPrimaryExpression T) where
instance : Rl T PropertyList (SwPropertyList T) where
instance : Rl T PropertyListPath (SwPropertyListPath T) where
instance : Rl T PropertyListPathEntry (SwPropertyListPathEntry T) where
instance : Rl T Quads (SwQuads T) where
instance : Rl T QuadsEntry (SwQuadsEntry T) where
instance : Rl T QuadsNotTriples (SwQuadsNotTriples T) where
instance : Rl T RdfLiteral (SwRdfLiteral T) where
instance : Rl T RegexExpression (SwRegexExpression T) where
instance : Rl T RelationalExpression (SwRelationalExpression T) where
instance : Rl T SelectClause (SwSelectClause T) where
instance : Rl T SelectQuery (SwSelectQuery T) where
instance : Rl T SelectVars (SwSelectVars T) where
instance : Rl T ServiceGraphPattern (SwServiceGraphPattern T) where
instance : Rl T SolutionModifier (SwSolutionModifier T) where
instance : Rl T SparqlQuery (SwSparqlQuery T) where
instance : Rl T SparqlQueryStatement (SwSparqlQueryStatement T) where
instance : Rl T StrReplaceExpression (SwStrReplaceExpression T) where
instance : Rl T StringLiteral (SwStringLiteral T) where
instance : Rl T SubConstruct (SwSubConstruct T) where
instance : Rl T SubSelect (SwSubSelect T) where
instance : Rl T SubTriples (SwSubTriples T) where
instance : Rl T TriplesBlock (SwTriplesBlock T) where
instance : Rl T TriplesNode (SwTriplesNode T) where
instance : Rl T TriplesNodePath (SwTriplesNodePath T) where
instance : Rl T TriplesSameSubject (SwTriplesSameSubject T) where
instance : Rl T TriplesSameSubjectPath (SwTriplesSameSubjectPath T) where
instance : Rl T UnaryExpression (SwUnaryExpression T) where
instance : Rl T Update (SwUpdate T) where
instance : Rl T UpdateStatement (SwUpdateStatement T) where
instance : Rl T Var (SwVar T) where
instance : Rl T VarOrExpressionAsVar (SwVarOrExpressionAsVar T) where
instance : Rl T VarOrIri (SwVarOrIri T) where
instance : Rl T VarOrIrisOrAll (SwVarOrIrisOrAll T) where
instance : Rl T VarOrTerm (SwVarOrTerm T) where
instance : Rl T Verb (SwVerb T) where
instance : Rl T VerbList (SwVerbList T) where
instance : Rl T VerbPathOrSimple (SwVerbPathOrSimple T) where

section
variable {p : P α} {q : P β} {V : α → α → Prop} {W : β → β → Prop} {t : List Char} {kb : Bool}

theorem Sub.bracketted (h : Sub T false false false p V) : Sub T false false false (bracketted p) V := by unfold NomSparql.bracketted; sub
theorem Sub.precededTag1 [PlainTag2 t] (h : Sub T false false kb p V) : Sub T false false kb (precededTag1 t p) V := by
  unfold NomSparql.precededTag1; sub
theorem Sub.precededTag [PlainTag2 t] (h : Sub T false false kb p V) : Sub T false false kb (precededTag t p) V := by
  unfold NomSparql.precededTag; sub
theorem Sub.precededBracketted [PlainTag2 t] (h : Sub T false false false p V) : Sub T false false false (precededBracketted t p) V := by
  unfold NomSparql.precededBracketted; exact .precededTag h.bracketted
theorem Sub.spEnc (h : Sub T false false false p V) : Sub T false false false (spEnc p) V := by unfold NomSparql.spEnc; sub
theorem Sub.spEnc1 (h : Sub T false false kb p V) : Sub T false false false (spEnc1 p) V := by unfold NomSparql.spEnc1; sub
theorem Sub.spSep1 (h : Sub T false false kb p V) (h' : Sub T false false false q W) : Sub T false false false (spSep1 p q) (PrRel V W) := by
  unfold NomSparql.spSep1; sub
theorem Sub.spSep (h : Sub T false false false p V) (h' : Sub T false false false q W) : Sub T false false false (spSep p q) (PrRel V W) := by
  unfold NomSparql.spSep; sub
instance : Sub T false false false comma Eq := by unfold comma; exact .spEnc inferInstance
theorem Sub.bracketted3 (h : Sub T false false false p V) : Sub T false false false (bracketted3 p) (PrRel V (PrRel V (Opt2 V))) := by
  unfold NomSparql.bracketted3; apply Sub.bracketted; sub
end

macro "sub!" : tactic => `(tactic| repeat' (first
  | infer_instance
  | with_reducible exact Sub.wide inferInstance
  | with_reducible apply Sub.pair
  | with_reducible apply Sub.map'
  | with_reducible apply Sub.bracketted
  | with_reducible apply Sub.precededTag1
  | with_reducible apply Sub.precededTag
  | with_reducible apply Sub.precededBracketted
  | with_reducible apply Sub.spEnc1
  | with_reducible apply Sub.spEnc
  | with_reducible apply Sub.spSep1
  | with_reducible apply Sub.spSep
  | with_reducible apply Sub.bracketted3
  | with_reducible apply Sub.preceded
  | with_reducible apply Sub.terminated
  | with_reducible apply Sub.delimited
  | with_reducible apply Sub.separatedPair
  | with_reducible apply Sub.alt_cons
  | with_reducible apply Sub.alt_one
  | with_reducible apply Sub.opt
  | with_reducible apply Sub.cut
  | with_reducible apply Sub.recognize
  | with_reducible apply Sub.mapRes
  | with_reducible apply Sub.many0
  | with_reducible apply Sub.many1
  | with_reducible apply Sub.separatedNonemptyList
  | with_reducible apply Sub.separatedList
  | with_reducible apply Sub.tuple3
  | with_reducible apply Sub.tuple4
  | with_reducible apply Sub.tuple5
  | rel))

section
variable {s : Bool}
instance : Sub T s false false hexPrimary Eq := by unfold hexPrimary; sub!
instance : Sub T s false false plx Eq := by
  unfold plx
  refine Sub.recognize (.alt_cons (V := Eq) ?_ (.alt_one inferInstance))
  rw [← prRel_eq]; sub!
instance : Sub T s false false pnCharsBaseOne Eq := by unfold pnCharsBaseOne; sub!
instance : Sub T s false false pnCharsBase1 Eq := by unfold pnCharsBase1; sub!
instance : Sub T s false false pnCharsUOne Eq := by unfold pnCharsUOne; sub!
instance : Sub T s false false pnCharsU1 Eq := by unfold pnCharsU1; sub!
instance : Sub T s false false pnCharsOne Eq := by unfold pnCharsOne; sub!
instance : Sub T s false false pnChars1 Eq := by unfold pnChars1; sub!
instance : Sub T s false false languageTag Eq := by unfold languageTag; sub!
instance : Sub T s false false pnCharsTail Eq := by unfold pnCharsTail; sub!
instance : Sub T s false false pnLocalFirst Eq := by unfold pnLocalFirst; sub!
instance : Sub T s false false pnLocalChunk (All2 Eq) := by unfold pnLocalChunk; sub!
instance : Sub T s false false pnLocal Eq := by unfold pnLocal; sub!
instance : Sub T s false false pnPrefix Eq := by unfold pnPrefix; sub!
instance : Sub T s false false silent Eq := by unfold silent; sub!
instance : Sub T s false false distinct Eq := by unfold distinct; sub!
instance : Sub T s false false boolean Eq := by unfold boolean; sub!
instance : Sub T s false false sign Eq := by unfold sign; sub!
instance : Sub T s false false sparqlDouble (PrRel Eq (Opt2 Eq)) := by unfold sparqlDouble; sub!
instance : Sub T s false false numericLiteral Eq := by unfold numericLiteral; sub!
instance : Sub T s false false order Eq := by unfold order; sub!
instance : Sub T s false false selectModifier Eq := by unfold selectModifier; sub!

instance : Sub T false false false anon (fun _ _ => True) := by unfold anon; sub!
instance : Sub T false false false nil (fun _ _ => True) := by unfold nil; sub!
end

/-! ## Names, literals, data -/

instance : Sub T false false false pnameNs (Opt2 Eq) := by unfold pnameNs; sub!
instance : Sub T false false false pnameLn (PrRel (Opt2 Eq) Eq) := by unfold pnameLn; sub!
instance : Sub T false false false prefixedName Eq := by unfold prefixedName; sub!
instance : Sub T false false false iri Eq := by unfold iri; sub!
instance : Sub T false false false namedIri Eq := by unfold namedIri; sub!
instance : Sub T false false false defaultOrNamedIri Eq := by unfold defaultOrNamedIri; sub!
instance : Sub T false false false rdfLiteral (SwRdfLiteral T) := by unfold rdfLiteral; sub!
instance : Sub T false false false baseDecl Eq := by unfold baseDecl; sub!
instance : Sub T false false false prefixDecl Eq := by unfold prefixDecl; sub!
instance : Sub T false false false prologue Eq := by unfold prologue; sub!
instance : Sub T false false false stringLiteralArg (SwStringLiteral T) := by
  unfold stringLiteralArg
  have h1 : Sub T false false false (map (terminated stringLiteral (tagNoCase c!"^^xsd:string")) StringLiteral.simple) (SwStringLiteral T) := by sub!
  have h2 : Sub T false false false (pair stringLiteral (opt languageTag)) (PrRel T.text (Opt2 Eq)) := by sub!
  refine .alt_cons h1 (.alt_one (h2.map ?_))
  rintro ⟨a, o⟩ ⟨a', o'⟩ ⟨g1, g2⟩
  rw [opt2_eq] at g2
  cases g2
  cases o with
  | none => exact .simple g1
  | some l => exact .language g1
instance : Sub T false false false varOrIri (SwVarOrIri T) := by unfold varOrIri; sub!
instance : Sub T false false false verb (SwVerb T) := by unfold verb; sub!
instance : Sub T false false false varOrIrisOrAll (SwVarOrIrisOrAll T) := by unfold varOrIrisOrAll; sub!
instance : Sub T false false false blankNode Eq := by unfold blankNode; sub!
instance : Sub T false false false graphTerm (SwGraphTerm T) := by unfold graphTerm; sub!
instance : Sub T false false false varOrTerm (SwVarOrTerm T) := by unfold varOrTerm; sub!
instance : Sub T false false false graphRef Eq := by unfold graphRef; sub!
instance : Sub T false false false graphOrDefault Eq := by unfold graphOrDefault; sub!
instance : Sub T false false false graphRefAll Eq := by unfold graphRefAll; sub!
instance : Sub T false false false dataSetClause Eq := by unfold dataSetClause; sub!
instance : Sub T false false false datablockValue (SwDataBlockValue T) := by unfold datablockValue; sub!
instance : Sub T false false false inlineDataFull (SwInlineDataFull T) := by unfold inlineDataFull; sub!
instance : Sub T false false false inlineDataOneVar (SwInlineDataOneVar T) := by unfold inlineDataOneVar; sub!
instance : Sub T false false false datablock (SwDataBlock T) := by unfold datablock; sub!
instance : Sub T false false false inlineData (SwDataBlock T) := by unfold inlineData; sub!
instance : Sub T false false false valuesClause (Opt2 (SwDataBlock T)) := by unfold valuesClause; sub!
instance : Sub T false false false usingClause Eq := by unfold usingClause; sub!
instance {pat : P Str} {U : Str → Str → Prop} [Sub T false false false pat U] : Sub T false false false (intClause pat) Eq := by unfold intClause; sub!
instance : Sub T false false false limitClause Eq := by unfold limitClause; sub!
instance : Sub T false false false offsetClause Eq := by unfold offsetClause; sub!
instance : Sub T false false false limitOffsetClause Eq := by unfold limitOffsetClause; sub!
instance : Sub T false false false optDistinct Eq := by unfold optDistinct; sub!
instance : Sub T false false false optSilent Eq := by unfold optSilent; sub!
instance : Sub T false false false iriOrA Eq := by unfold iriOrA; sub!
instance : Sub T false false false iriOrAOrCaret Eq := by unfold iriOrAOrCaret; sub!
instance : Sub T false false false pathOneInPropertySet Eq := by unfold pathOneInPropertySet; sub!
instance : Sub T false false false pathNegatedPropertySet (All2 Eq) := by unfold pathNegatedPropertySet; sub!
instance : Sub T false false false separatorEq (PrRel Eq (PrRel Eq Eq)) := by unfold separatorEq; sub!

/-! ## Recursive parsers: a budget for both texts -/

/-- A closed parser from its approximations. -/
theorem sub_closed {p : P α} {V : α → α → Prop} {pF : Nat → P α} (h : ∀ n, Sub T false a b (pF n) V) (ha : ∀ n, Agree n (pF n) p) :
    Sub T false a b p V where
  out i i' t := by
    have h1 := ((ha (max i.length i'.length + 1)).out i (by omega)).1
    have h2 := ((ha (max i.length i'.length + 1)).out i' (by omega)).1
    rw [← h1, ← h2]
    exact (h _).out i i' t

section
variable {gn : P GraphNode} [Sub T false false false gn (SwGraphNode T)]

instance : Sub T false false false (collectionS gn) (All2 (SwGraphNode T)) := by unfold collectionS; sub!
instance : Sub T false false false (objectListS gn) (All2 (SwGraphNode T)) := by unfold objectListS; sub!
instance : Sub T false false false (propertyListNotEmptyS gn) (SwPropertyList T) := by unfold propertyListNotEmptyS; sub!
instance : Sub T false false false (propertyListS gn) (Opt2 (SwPropertyList T)) := by unfold propertyListS; sub!
instance : Sub T false false false (blankNodePropertyListS gn) (SwPropertyList T) := by unfold blankNodePropertyListS; sub!
instance : Sub T false false false (triplesNodeS gn) (SwTriplesNode T) := by unfold triplesNodeS; sub!
instance : Sub T false false false (graphNodeStep gn) (SwGraphNode T) := by unfold graphNodeStep; sub!
end

theorem graphNodeF_sub : ∀ n, Sub T false false false (graphNodeF n) (SwGraphNode T)
  | 0 => ⟨fun _ _ _ _ => rfl⟩
  | n + 1 => by have := graphNodeF_sub n; unfold graphNodeF; infer_instance
instance : Sub T false false false graphNode (SwGraphNode T) := sub_closed graphNodeF_sub graphNodeF_agree_closed

instance : Sub T false false false collection (All2 (SwGraphNode T)) := by unfold collection; sub!
instance : Sub T false false false objectList (All2 (SwGraphNode T)) := by unfold objectList; sub!
instance : Sub T false false false propertyListNotEmpty (SwPropertyList T) := by unfold propertyListNotEmpty; sub!
instance : Sub T false false false propertyList (Opt2 (SwPropertyList T)) := by unfold propertyList; sub!
instance : Sub T false false false blankNodePropertyList (SwPropertyList T) := by unfold blankNodePropertyList; sub!
instance : Sub T false false false triplesNode (SwTriplesNode T) := by unfold triplesNode; sub!
instance : Sub T false false false triplesSameSubject (SwTriplesSameSubject T) := by unfold triplesSameSubject; sub!
instance : Sub T false false false triplesTemplate (All2 (SwTriplesSameSubject T)) := by unfold triplesTemplate; sub!
instance : Sub T false false false quadsNotTriples (SwQuadsNotTriples T) := by unfold quadsNotTriples; sub!
instance : Sub T false false false quadsEntry (SwQuadsEntry T) := by unfold quadsEntry; sub!
instance : Sub T false false false quads (SwQuads T) := by unfold quads; sub!
instance : Sub T false false false quadsPattern (SwQuads T) := by unfold quadsPattern; sub!
instance : Sub T false false false quadData (SwQuads T) := by unfold quadData; sub!
instance : Sub T false false false insertClause (SwQuads T) := by unfold insertClause; sub!
instance : Sub T false false false deleteClause (SwQuads T) := by unfold deleteClause; sub!

section
variable {pa : P PathAlternative} [Sub T false false true pa Eq]

instance : Sub T false false false (pathPrimaryS pa) Eq := by unfold pathPrimaryS; sub!
instance : Sub T false false true (pathEltS pa) Eq := by unfold pathEltS; sub!
instance : Sub T false false true (pathEltOrInverseS pa) Eq := by unfold pathEltOrInverseS; sub!
instance : Sub T false false true (pathSequenceS pa) Eq := by unfold pathSequenceS; sub!
instance : Sub T false false true (pathAlternativeStep pa) Eq := by unfold pathAlternativeStep; sub!
end

theorem pathAlternativeF_sub : ∀ n, Sub T false false true (pathAlternativeF n) Eq
  | 0 => ⟨fun _ _ _ _ => rfl⟩
  | n + 1 => by have := pathAlternativeF_sub n; unfold pathAlternativeF; infer_instance
instance : Sub T false false true pathAlternative Eq := sub_closed pathAlternativeF_sub pathAlternativeF_agree_closed

instance : Sub T false false false pathPrimary Eq := by unfold pathPrimary; sub!
instance : Sub T false false true pathElt Eq := by unfold pathElt; sub!
instance : Sub T false false true pathEltOrInverse Eq := by unfold pathEltOrInverse; sub!
instance : Sub T false false true pathSequence Eq := by unfold pathSequence; sub!
instance : Sub T false false true verbPathOrSimple (SwVerbPathOrSimple T) := by unfold verbPathOrSimple; sub!
instance : Sub T false false false propertyListPathEntry (SwPropertyListPathEntry T) := by unfold propertyListPathEntry; sub!

section
variable {gn : P GraphNodePath} [Sub T false false false gn (SwGraphNodePath T)]

instance : Sub T false false false (objectListPathS gn) (All2 (SwGraphNodePath T)) := by unfold objectListPathS; sub!
instance : Sub T false false false (propertyListPathNotEmptyS gn) (SwPropertyListPath T) := by unfold propertyListPathNotEmptyS; sub!
instance : Sub T false false false (propertyListPathS gn) (Opt2 (SwPropertyListPath T)) := by unfold propertyListPathS; sub!
instance : Sub T false false false (blankNodePropertyListPathS gn) (SwPropertyListPath T) := by unfold blankNodePropertyListPathS; sub!
instance : Sub T false false false (triplesNodePathS gn) (SwTriplesNodePath T) := by unfold triplesNodePathS; sub!
instance : Sub T false false false (graphNodePathStep gn) (SwGraphNodePath T) := by unfold graphNodePathStep; sub!
end

theorem graphNodePathF_sub : ∀ n, Sub T false false false (graphNodePathF n) (SwGraphNodePath T)
  | 0 => ⟨fun _ _ _ _ => rfl⟩
  | n + 1 => by have := graphNodePathF_sub n; unfold graphNodePathF; infer_instance
instance : Sub T false false false graphNodePath (SwGraphNodePath T) := sub_closed graphNodePathF_sub graphNodePathF_agree_closed

instance : Sub T false false false objectListPath (All2 (SwGraphNodePath T)) := by unfold objectListPath; sub!
instance : Sub T false false false propertyListPathNotEmpty (SwPropertyListPath T) := by unfold propertyListPathNotEmpty; sub!
instance : Sub T false false false propertyListPath (Opt2 (SwPropertyListPath T)) := by unfold propertyListPath; sub!
instance : Sub T false false false blankNodePropertyListPath (SwPropertyListPath T) := by unfold blankNodePropertyListPath; sub!
instance : Sub T false false false triplesNodePath (SwTriplesNodePath T) := by unfold triplesNodePath; sub!
instance : Sub T false false false triplesSameSubjectPath (SwTriplesSameSubjectPath T) := by unfold triplesSameSubjectPath; sub!
instance : Sub T false false false triplesBlock (SwTriplesBlock T) := by unfold triplesBlock; sub!

/-! ## Expressions and patterns -/

class RecSub (T : Swap) (R : Rec) : Prop where
  expr : Sub T false false false R.expr (SwExpression T)
  ggp : Sub T false false false R.ggp (SwGroupGraphPattern T)
  good : RecGood R
  ends : Ends R.ggp

section
variable {R : Rec} [h : RecSub T R]

instance : Sub T false false false R.expr (SwExpression T) := h.expr
instance : Sub T false false false R.ggp (SwGroupGraphPattern T) := h.ggp
theorem recSub_good (T : Swap) {R : Rec} (h : RecSub T R) : RecGood R := h.good

instance : Sub T false false false (brackettedExpr3S R) (PrRel (SwExpression T) (PrRel (SwExpression T) (Opt2 (SwExpression T)))) := by unfold brackettedExpr3S; sub!
instance : Sub T false false false (expressionAsVarOptS R) (SwExpressionAsVarOpt T) := by unfold expressionAsVarOptS; sub!
instance : Sub T false false false (expressionAsVarS R) (SwExpressionAsVar T) := by unfold expressionAsVarS; sub!
instance : Sub T false false false (expressionListS R) (SwExpressionList T) := by unfold expressionListS; sub!
instance : Sub T false false false (distinctExpressionS R) (SwDistinctExpression T) := by unfold distinctExpressionS; sub!
instance : Sub T false false false (brackettedExpressionS R) (SwExpression T) := by unfold brackettedExpressionS; sub!
instance : Sub T false false false (bindS R) (SwExpressionAsVar T) := by unfold bindS; sub!
instance : Sub T false false false (regexExpressionS R) (SwRegexExpression T) := by unfold regexExpressionS; sub!
instance : Sub T false false false (substringExpressionS R) (SwRegexExpression T) := by unfold substringExpressionS; sub!
instance : Sub T false false false (strReplaceExpressionS R) (SwStrReplaceExpression T) := by unfold strReplaceExpressionS; sub!
instance : Sub T false false false (argListS R) (SwArgList T) := by unfold argListS; sub!
instance : Sub T false false false (functionCallS R) (SwFunctionCall T) := by unfold functionCallS; sub!
instance : Sub T false false false (iriOrFunS R) (SwIriOrFunction T) := by unfold iriOrFunS; sub!
instance : Sub T false false false (countTargetS R) (SwCountTarget T) := by unfold countTargetS; sub!
instance : Sub T false false false (countS R) (SwCount T) := by unfold countS; sub!
instance : Sub T false false false (groupConcatS R) (SwGroupConcat T) := by unfold groupConcatS; sub!
instance : Sub T false false false (aggregateS R) (SwAggregate T) := by unfold aggregateS; sub!
instance : Sub T false false false (exprPairS R) (PrRel (SwExpression T) (SwExpression T)) := by unfold exprPairS; sub!
instance : Sub T false false false (builtInCall1S R) (SwBuiltInCall T) := by unfold builtInCall1S; sub!
instance : Sub T false false false (builtInCall2S R) (SwBuiltInCall T) := by unfold builtInCall2S; sub!
instance : Sub T false false false (builtInCallS R) (SwBuiltInCall T) := by unfold builtInCallS; sub!
instance : Sub T false false false (primaryExpressionS R) (SwPrimaryExpression T) := by unfold primaryExpressionS; sub!
instance : Sub T false false false (unaryExpressionS R) (SwUnaryExpression T) := by unfold unaryExpressionS; sub!
instance : Sub T false false false (multExpressionS R) (SwMultExpression T) := by unfold multExpressionS; sub!
instance : Sub T false false false (multiplicativeExpressionS R) (SwMultiplicativeExpression T) := by unfold multiplicativeExpressionS; sub!
instance : Sub T false false false (addExpressionS R) (SwAddExpression T) := by unfold addExpressionS; sub!
instance : Sub T false false false (additiveExpressionS R) (SwAdditiveExpression T) := by unfold additiveExpressionS; sub!
instance : Sub T false false false (opExpressionS R) (SwOpExpression T) := by unfold opExpressionS; sub!
instance : Sub T false false false (relationalExpressionS R) (SwRelationalExpression T) := by unfold relationalExpressionS; sub!
instance : Sub T false false false (conditionalAndExpressionS R) (SwConditionalAndExpression T) := by unfold conditionalAndExpressionS; sub!
instance : Sub T false false false (expressionStep R) (SwExpression T) := by unfold expressionStep; sub!
instance : Sub T false false false (constraintS R) (SwConstraint T) := by unfold constraintS; sub!
instance : Sub T false false false (filterS R) (SwConstraint T) := by unfold filterS; sub!
instance : Sub T false false false (orderExpressionS R) (SwOrderExpression T) := by unfold orderExpressionS; sub!
instance : Sub T false false false (orderConditionS R) (SwOrderCondition T) := by unfold orderConditionS; sub!
instance : Sub T false false false (groupConditionS R) (SwGroupCondition T) := by unfold groupConditionS; sub!
instance : Sub T false false false (groupClauseS R) (SwGroupClause T) := by unfold groupClauseS; sub!
instance : Sub T false false false (orderClauseS R) (SwOrderClause T) := by unfold orderClauseS; sub!
instance : Sub T false false false (havingClauseS R) (SwHavingClause T) := by unfold havingClauseS; sub!
instance : Sub T false false false (solutionModifierS R) (SwSolutionModifier T) := by unfold solutionModifierS; sub!
instance : Sub T false false false (whereClauseS R) (SwGroupGraphPattern T) := by unfold whereClauseS; sub!
instance : Sub T false false false (varOrExpressionAsVarS R) (SwVarOrExpressionAsVar T) := by unfold varOrExpressionAsVarS; sub!
instance : Sub T false false false (selectVarsS R) (SwSelectVars T) := by unfold selectVarsS; sub!
instance : Sub T false false false (selectClauseS R) (SwSelectClause T) := by unfold selectClauseS; sub!
instance : Sub T false false false (subSelectS R) (SwSubSelect T) := by unfold subSelectS; sub!
instance : Sub T false false false (groupOrUnionGraphPatternS R) (All2 (SwGroupGraphPattern T)) := by unfold groupOrUnionGraphPatternS; sub!
instance : Sub T false false false (optionalGroupGraphPatternS R) (SwGroupGraphPattern T) := by unfold optionalGroupGraphPatternS; sub!
instance : Sub T false false false (minusGraphPatternS R) (SwGroupGraphPattern T) := by unfold minusGraphPatternS; sub!
instance : Sub T false false false (graphGraphPatternS R) (SwGraphGraphPattern T) := by unfold graphGraphPatternS; sub!
instance : Sub T false false false (serviceGraphPatternS R) (SwServiceGraphPattern T) := by unfold serviceGraphPatternS; sub!
instance : Sub T false false false (graphPatternNotTriplesS R) (SwGraphPatternNotTriples T) := by unfold graphPatternNotTriplesS; sub!
instance : Sub T false false true (groupGraphPatternAndTriplesS R) (SwGraphPatternAndTriples T) := by
  have := h.good
  have := h.ends
  exact andTriples_sub inferInstance inferInstance
instance : Sub T false false false (groupGraphPatternSubS R) (SwGroupGraphPatternSub T) := by
  unfold groupGraphPatternSubS
  have h : Sub T false false false (separatedList sp (groupGraphPatternAndTriplesS R)) (All2 (SwGraphPatternAndTriples T)) := .separatedListSp inferInstance
  sub!
instance : Sub T false false false (groupGraphPatternStep R) (SwGroupGraphPattern T) := by unfold groupGraphPatternStep; sub!
end

theorem recF_sub : ∀ n, RecSub T (recF n)
  | 0 => ⟨⟨fun _ _ _ _ => rfl⟩, ⟨fun _ _ _ _ => rfl⟩, inferInstance, ⟨fun _ _ _ e => by cases e⟩⟩
  | n + 1 => by
    have := recF_sub n
    exact ⟨inferInstanceAs (Sub T false false false (expressionStep (recF n)) (SwExpression T)),
      inferInstanceAs (Sub T false false false (groupGraphPatternStep (recF n)) (SwGroupGraphPattern T)), inferInstance, inferInstanceAs (Ends (groupGraphPatternStep (recF n)))⟩
instance : Sub T false false false expression (SwExpression T) :=
  sub_closed (pF := fun n => (recF n).expr) (fun n => (recF_sub n).expr) (fun n => (recF_agree_closed n).expr)
instance : Sub T false false false groupGraphPattern (SwGroupGraphPattern T) :=
  sub_closed (pF := fun n => (recF n).ggp) (fun n => (recF_sub n).ggp) (fun n => (recF_agree_closed n).ggp)
instance : RecSub T R₀ := ⟨inferInstanceAs (Sub T false false false expression _), inferInstanceAs (Sub T false false false groupGraphPattern _), inferInstance, 
  show Ends groupGraphPattern by rw [groupGraphPattern_eq]; infer_instance⟩

instance : Sub T false false false whereClause (SwGroupGraphPattern T) := by unfold whereClause; sub!
instance : Sub T false false false solutionModifier (SwSolutionModifier T) := by unfold solutionModifier; sub!
instance : Sub T false false false selectClause (SwSelectClause T) := by unfold selectClause; sub!
instance : Sub T false false false subSelect (SwSubSelect T) := by unfold subSelect; sub!

/-! ## Queries and updates -/

instance : Sub T false false false dataSetClauses (All2 Eq) := by unfold dataSetClauses; sub!
instance : Sub T false false false selectQuery (SwSelectQuery T) := by unfold selectQuery; sub!
instance : Sub T false false false askQuery (SwAskQuery T) := by unfold askQuery; sub!
instance : Sub T false false false describeQuery (SwDescribeQuery T) := by unfold describeQuery; sub!
instance : Sub T false false false constructTemplate (All2 (SwTriplesSameSubject T)) := by unfold constructTemplate; sub!
instance : Sub T false false false subTriples (SwSubTriples T) := by unfold subTriples; sub!
instance : Sub T false false false subConstruct (SwSubConstruct T) := by unfold subConstruct; sub!
instance : Sub T false false false constructQuery (SwConstructQuery T) := by unfold constructQuery; sub!
instance : Sub T false false false sparqlQuery (SwSparqlQuery T) := by unfold sparqlQuery; sub!
instance : Sub T false false false sparqlQueryStmt (SwSparqlQueryStatement T) := by unfold sparqlQueryStmt; sub!
instance : Sub T false false false silentFromTo (PrRel Eq (PrRel Eq Eq)) := by unfold silentFromTo; sub!
instance : Sub T false false false addStmt Eq := by unfold addStmt; sub!
instance : Sub T false false false moveStmt Eq := by unfold moveStmt; sub!
instance : Sub T false false false copyStmt Eq := by unfold copyStmt; sub!
instance : Sub T false false false createStmt Eq := by unfold createStmt; sub!
instance : Sub T false false false silentGraphRefAll (PrRel Eq Eq) := by unfold silentGraphRefAll; sub!
instance : Sub T false false false dropStmt Eq := by unfold dropStmt; sub!
instance : Sub T false false false clearStmt Eq := by unfold clearStmt; sub!
instance : Sub T false false false loadStmt Eq := by unfold loadStmt; sub!
instance : Sub T false false false insertData (SwQuads T) := by unfold insertData; sub!
instance : Sub T false false false deleteData (SwQuads T) := by unfold deleteData; sub!
instance : Sub T false false false deleteWhereData (SwQuads T) := by unfold deleteWhereData; sub!
instance : Sub T false false false deleteInsert (SwDeleteInsert T) := by unfold deleteInsert; sub!
instance : Sub T false false false modifyStmt (SwModifyStatement T) := by unfold modifyStmt; sub!
instance : Sub T false false false updateStmt (SwUpdateStatement T) := by unfold updateStmt; sub!
instance {up : P Update} [Sub T false false false up (SwUpdate T)] : Sub T false false false (updateStep up) (SwUpdate T) := by
  unfold updateStep
  refine Sub.map (V := PrRel Eq (Opt2 (PrRel (SwUpdateStatement T) (Opt2 (SwUpdate T))))) ?_ ?_
  · sub!
  · rintro ⟨a, o⟩ ⟨a', o'⟩ ⟨g1, g2⟩
    cases g1
    rcases g2.elim with ⟨rfl, rfl⟩ | ⟨⟨s, u⟩, ⟨s', u'⟩, rfl, rfl, g3, g4⟩
    · exact .mk rfl (fun _ e => by cases e) rfl (fun _ e => by cases e)
    · exact .mk rfl (fun _ e _ e' => by cases e; cases e'; exact g3) g4.some g4.both

theorem updateF_sub : ∀ n, Sub T false false false (updateF n) (SwUpdate T)
  | 0 => ⟨fun _ _ _ _ => rfl⟩
  | n + 1 => by have := updateF_sub n; unfold updateF; infer_instance
instance : Sub T false false false update (SwUpdate T) := sub_closed updateF_sub updateF_agree_closed

end NomSparql
