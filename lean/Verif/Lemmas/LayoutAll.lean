import Verif.Lemmas.LayoutLeaf

/-!
# The layout judgement for every parser
-/

namespace NomSparql

set_option synthInstance.maxSize 4000
set_option synthInstance.maxHeartbeats 400000

section
variable {p : P α} {q : P β} {v : Bool} {t : List Char}

instance [Lay false v p] : Lay false v (bracketted p) := by unfold bracketted; infer_instance
instance [PlainTag t] [Lay false v p] : Lay false v (precededTag1 t p) := by unfold precededTag1; infer_instance
instance [PlainTag t] [Lay false v p] : Lay false v (precededTag t p) := by unfold precededTag; infer_instance
instance [PlainTag t] [Lay false v p] : Lay false v (precededBracketted t p) := by unfold precededBracketted; infer_instance
instance [Lay false v p] : Lay false v (spEnc p) := by unfold spEnc; infer_instance
instance [Lay false v p] : Lay false v (spEnc1 p) := by unfold spEnc1; infer_instance
instance [Lay false v p] [Lay false v q] : Lay false v (spSep1 p q) := by unfold spSep1; infer_instance
instance [Lay false v p] [Lay false v q] : Lay false v (spSep p q) := by unfold spSep; infer_instance
instance : Lay false true comma := by unfold comma; infer_instance
instance [Lay false v p] : Lay false v (bracketted3 p) := by unfold bracketted3; infer_instance
end

section
variable {s v : Bool}
instance : Lay s v hexPrimary := by unfold hexPrimary; infer_instance
instance : Lay s v plx := by unfold plx; infer_instance
instance : Lay s v pnCharsBaseOne := by unfold pnCharsBaseOne; infer_instance
instance : Lay s v pnCharsBase1 := by unfold pnCharsBase1; infer_instance
instance : Lay s v pnCharsUOne := by unfold pnCharsUOne; infer_instance
instance : Lay s v pnCharsU1 := by unfold pnCharsU1; infer_instance
instance : Lay s v pnCharsOne := by unfold pnCharsOne; infer_instance
instance : Lay s v pnChars1 := by unfold pnChars1; infer_instance
instance : Lay s v languageTag := by unfold languageTag; infer_instance
instance : Lay s v pnCharsTail := by unfold pnCharsTail; infer_instance
instance : Lay s v pnLocalFirst := by unfold pnLocalFirst; infer_instance
instance : Lay s v pnLocalChunk := by unfold pnLocalChunk; infer_instance
instance : Lay s v pnLocal := by unfold pnLocal; infer_instance
instance : Lay s v pnPrefix := by unfold pnPrefix; infer_instance
instance : Lay s v silent := by unfold silent; infer_instance
instance : Lay s v distinct := by unfold distinct; infer_instance
instance : Lay s v boolean := by unfold boolean; infer_instance
instance : Lay s v sign := by unfold sign; infer_instance
instance : Lay s v sparqlDouble := by unfold sparqlDouble; infer_instance
instance : Lay s v numericLiteral := by unfold numericLiteral; infer_instance
instance : Lay s v varName := by unfold varName; infer_instance
instance : Lay s v order := by unfold order; infer_instance
instance : Lay s v selectModifier := by unfold selectModifier; infer_instance

instance : Lay false false anon := by unfold anon; infer_instance
instance : Lay false false nil := by unfold nil; infer_instance
end

/-! ## Names, literals, data -/

instance : Lay false true pnameNs := by unfold pnameNs; infer_instance
instance : Lay false true pnameLn := by unfold pnameLn; infer_instance
instance : Lay false true prefixedName := by unfold prefixedName; infer_instance
instance : Lay false true iri := by unfold iri; infer_instance
instance : Lay false true namedIri := by unfold namedIri; infer_instance
instance : Lay false true defaultOrNamedIri := by unfold defaultOrNamedIri; infer_instance
instance : Lay false true rdfLiteral := by unfold rdfLiteral; infer_instance
instance : Lay false true baseDecl := by unfold baseDecl; infer_instance
instance : Lay false true prefixDecl := by unfold prefixDecl; infer_instance
instance : Lay false true prologue := by unfold prologue; infer_instance
instance : Lay false true stringLiteralArg := by unfold stringLiteralArg; infer_instance
instance : Lay false true var := by unfold var; infer_instance
instance : Lay false true varOrIri := by unfold varOrIri; infer_instance
instance : Lay false true verb := by unfold verb; infer_instance
instance : Lay false true varOrIrisOrAll := by unfold varOrIrisOrAll; infer_instance
instance : Lay false true blankNode := by unfold blankNode; infer_instance
instance : Lay false true graphTerm := by unfold graphTerm; infer_instance
instance : Lay false true varOrTerm := by unfold varOrTerm; infer_instance
instance : Lay false true graphRef := by unfold graphRef; infer_instance
instance : Lay false true graphOrDefault := by
  unfold graphOrDefault
  have : Lay false true (map (pair (opt (pair (tagNoCase c!"graph") sp1)) iri) (fun x => GraphOrDefault.graph x.2)) :=
    Lay.map_of inferInstance (g := Prod.snd) (inferInstanceAs (Lay false true (preceded _ _))) (fun a a' h => by rw [h])
  infer_instance
instance : Lay false true graphRefAll := by unfold graphRefAll; infer_instance
instance : Lay false true dataSetClause := by unfold dataSetClause; infer_instance
instance : Lay false true datablockValue := by unfold datablockValue; infer_instance
instance : Lay false true inlineDataFull := by unfold inlineDataFull; infer_instance
instance : Lay false true inlineDataOneVar := by unfold inlineDataOneVar; infer_instance
instance : Lay false true datablock := by unfold datablock; infer_instance
instance : Lay false true inlineData := by unfold inlineData; infer_instance
instance : Lay false true valuesClause := by unfold valuesClause; infer_instance
instance : Lay false true usingClause := by unfold usingClause; infer_instance
instance {pat : P Str} [Lay false false pat] : Lay false true (intClause pat) := by unfold intClause; infer_instance
instance : Lay false true limitClause := by unfold limitClause; infer_instance
instance : Lay false true offsetClause := by unfold offsetClause; infer_instance
instance : Lay false true limitOffsetClause := by unfold limitOffsetClause; infer_instance
instance : Lay false true optDistinct := by unfold optDistinct; infer_instance
instance : Lay false true optSilent := by unfold optSilent; infer_instance
instance : Lay false true iriOrA := by unfold iriOrA; infer_instance
instance : Lay false true iriOrAOrCaret := by unfold iriOrAOrCaret; infer_instance
instance : Lay false true pathOneInPropertySet := by unfold pathOneInPropertySet; infer_instance
instance : Lay false true pathNegatedPropertySet := by unfold pathNegatedPropertySet; infer_instance
instance : Lay false true separatorEq := by unfold separatorEq; infer_instance

/-! ## Recursive parsers: a budget for both texts -/

/-- A closed parser from its approximations. -/
theorem lay_closed {p : P α} {pF : Nat → P α} (h : ∀ n, Lay false true (pF n)) (ha : ∀ n, Agree n (pF n) p) : Lay false true p where
  out i i' t := by
    have h1 := ((ha (max i.length i'.length + 1)).out i (by omega)).1
    have h2 := ((ha (max i.length i'.length + 1)).out i' (by omega)).1
    rw [← h1, ← h2]
    exact (h _).out i i' t

section
variable {gn : P GraphNode} [Lay false true gn]

instance : Lay false true (collectionS gn) := by unfold collectionS; infer_instance
instance : Lay false true (objectListS gn) := by unfold objectListS; infer_instance
instance : Lay false true (propertyListNotEmptyS gn) := by unfold propertyListNotEmptyS; infer_instance
instance : Lay false true (propertyListS gn) := by unfold propertyListS; infer_instance
instance : Lay false true (blankNodePropertyListS gn) := by unfold blankNodePropertyListS; infer_instance
instance : Lay false true (triplesNodeS gn) := by unfold triplesNodeS; infer_instance
instance : Lay false true (graphNodeStep gn) := by unfold graphNodeStep; infer_instance
end

theorem graphNodeF_lay : ∀ n, Lay false true (graphNodeF n)
  | 0 => ⟨fun _ _ _ => rfl⟩
  | n + 1 => by have := graphNodeF_lay n; unfold graphNodeF; infer_instance
instance : Lay false true graphNode := lay_closed graphNodeF_lay graphNodeF_agree_closed

instance : Lay false true collection := by unfold collection; infer_instance
instance : Lay false true objectList := by unfold objectList; infer_instance
instance : Lay false true propertyListNotEmpty := by unfold propertyListNotEmpty; infer_instance
instance : Lay false true propertyList := by unfold propertyList; infer_instance
instance : Lay false true blankNodePropertyList := by unfold blankNodePropertyList; infer_instance
instance : Lay false true triplesNode := by unfold triplesNode; infer_instance
instance : Lay false true triplesSameSubject := by unfold triplesSameSubject; infer_instance
instance : Lay false true triplesTemplate := by unfold triplesTemplate; infer_instance
instance : Lay false true quadsNotTriples := by unfold quadsNotTriples; infer_instance
instance : Lay false true quadsEntry := by unfold quadsEntry; infer_instance
instance : Lay false true quads := by unfold quads; infer_instance
instance : Lay false true quadsPattern := by unfold quadsPattern; infer_instance
instance : Lay false true quadData := by unfold quadData; infer_instance
instance : Lay false true insertClause := by unfold insertClause; infer_instance
instance : Lay false true deleteClause := by unfold deleteClause; infer_instance

section
variable {pa : P PathAlternative} [Lay false true pa]

instance : Lay false true (pathPrimaryS pa) := by unfold pathPrimaryS; infer_instance
instance : Lay false true (pathEltS pa) := by unfold pathEltS; infer_instance
instance : Lay false true (pathEltOrInverseS pa) := by unfold pathEltOrInverseS; infer_instance
instance : Lay false true (pathSequenceS pa) := by unfold pathSequenceS; infer_instance
instance : Lay false true (pathAlternativeStep pa) := by unfold pathAlternativeStep; infer_instance
end

theorem pathAlternativeF_lay : ∀ n, Lay false true (pathAlternativeF n)
  | 0 => ⟨fun _ _ _ => rfl⟩
  | n + 1 => by have := pathAlternativeF_lay n; unfold pathAlternativeF; infer_instance
instance : Lay false true pathAlternative := lay_closed pathAlternativeF_lay pathAlternativeF_agree_closed

instance : Lay false true pathPrimary := by unfold pathPrimary; infer_instance
instance : Lay false true pathElt := by unfold pathElt; infer_instance
instance : Lay false true pathEltOrInverse := by unfold pathEltOrInverse; infer_instance
instance : Lay false true pathSequence := by unfold pathSequence; infer_instance
instance : Lay false true verbPathOrSimple := by unfold verbPathOrSimple; infer_instance
instance : Lay false true propertyListPathEntry := by unfold propertyListPathEntry; infer_instance

section
variable {gn : P GraphNodePath} [Lay false true gn]

instance : Lay false true (objectListPathS gn) := by unfold objectListPathS; infer_instance
instance : Lay false true (propertyListPathNotEmptyS gn) := by unfold propertyListPathNotEmptyS; infer_instance
instance : Lay false true (propertyListPathS gn) := by unfold propertyListPathS; infer_instance
instance : Lay false true (blankNodePropertyListPathS gn) := by unfold blankNodePropertyListPathS; infer_instance
instance : Lay false true (triplesNodePathS gn) := by unfold triplesNodePathS; infer_instance
instance : Lay false true (graphNodePathStep gn) := by unfold graphNodePathStep; infer_instance
end

theorem graphNodePathF_lay : ∀ n, Lay false true (graphNodePathF n)
  | 0 => ⟨fun _ _ _ => rfl⟩
  | n + 1 => by have := graphNodePathF_lay n; unfold graphNodePathF; infer_instance
instance : Lay false true graphNodePath := lay_closed graphNodePathF_lay graphNodePathF_agree_closed

instance : Lay false true objectListPath := by unfold objectListPath; infer_instance
instance : Lay false true propertyListPathNotEmpty := by unfold propertyListPathNotEmpty; infer_instance
instance : Lay false true propertyListPath := by unfold propertyListPath; infer_instance
instance : Lay false true blankNodePropertyListPath := by unfold blankNodePropertyListPath; infer_instance
instance : Lay false true triplesNodePath := by unfold triplesNodePath; infer_instance
instance : Lay false true triplesSameSubjectPath := by unfold triplesSameSubjectPath; infer_instance
instance : Lay false true triplesBlock := by unfold triplesBlock; infer_instance

/-! ## Expressions and patterns -/

class RecLay (R : Rec) : Prop where
  expr : Lay false true R.expr
  ggp : Lay false true R.ggp

section
variable {R : Rec} [h : RecLay R]

instance : Lay false true R.expr := h.expr
instance : Lay false true R.ggp := h.ggp

instance : Lay false true (brackettedExpr3S R) := by unfold brackettedExpr3S; infer_instance
instance : Lay false true (expressionAsVarOptS R) := by unfold expressionAsVarOptS; infer_instance
instance : Lay false true (expressionAsVarS R) := by unfold expressionAsVarS; infer_instance
instance : Lay false true (expressionListS R) := by unfold expressionListS; infer_instance
instance : Lay false true (distinctExpressionS R) := by unfold distinctExpressionS; infer_instance
instance : Lay false true (brackettedExpressionS R) := by unfold brackettedExpressionS; infer_instance
instance : Lay false true (bindS R) := by unfold bindS; infer_instance
instance : Lay false true (regexExpressionS R) := by unfold regexExpressionS; infer_instance
instance : Lay false true (substringExpressionS R) := by unfold substringExpressionS; infer_instance
instance : Lay false true (strReplaceExpressionS R) := by unfold strReplaceExpressionS; infer_instance
instance : Lay false true (argListS R) := by unfold argListS; infer_instance
instance : Lay false true (functionCallS R) := by unfold functionCallS; infer_instance
instance : Lay false true (iriOrFunS R) := by unfold iriOrFunS; infer_instance
instance : Lay false true (countTargetS R) := by unfold countTargetS; infer_instance
instance : Lay false true (countS R) := by unfold countS; infer_instance
instance : Lay false true (groupConcatS R) := by unfold groupConcatS; infer_instance
instance : Lay false true (aggregateS R) := by unfold aggregateS; infer_instance
instance : Lay false true (exprPairS R) := by unfold exprPairS; infer_instance
instance : Lay false true (builtInCall1S R) := by unfold builtInCall1S; infer_instance
instance : Lay false true (builtInCall2S R) := by unfold builtInCall2S; infer_instance
instance : Lay false true (builtInCallS R) := by unfold builtInCallS; infer_instance
instance : Lay false true (primaryExpressionS R) := by unfold primaryExpressionS; infer_instance
instance : Lay false true (unaryExpressionS R) := by unfold unaryExpressionS; infer_instance
instance : Lay false true (multExpressionS R) := by unfold multExpressionS; infer_instance
instance : Lay false true (multiplicativeExpressionS R) := by unfold multiplicativeExpressionS; infer_instance
instance : Lay false true (addExpressionS R) := by unfold addExpressionS; infer_instance
instance : Lay false true (additiveExpressionS R) := by unfold additiveExpressionS; infer_instance
instance : Lay false true (opExpressionS R) := by unfold opExpressionS; infer_instance
instance : Lay false true (relationalExpressionS R) := by unfold relationalExpressionS; infer_instance
instance : Lay false true (conditionalAndExpressionS R) := by unfold conditionalAndExpressionS; infer_instance
instance : Lay false true (expressionStep R) := by unfold expressionStep; infer_instance
instance : Lay false true (constraintS R) := by unfold constraintS; infer_instance
instance : Lay false true (filterS R) := by unfold filterS; infer_instance
instance : Lay false true (orderExpressionS R) := by unfold orderExpressionS; infer_instance
instance : Lay false true (orderConditionS R) := by unfold orderConditionS; infer_instance
instance : Lay false true (groupConditionS R) := by unfold groupConditionS; infer_instance
instance : Lay false true (groupClauseS R) := by unfold groupClauseS; infer_instance
instance : Lay false true (orderClauseS R) := by unfold orderClauseS; infer_instance
instance : Lay false true (havingClauseS R) := by unfold havingClauseS; infer_instance
instance : Lay false true (solutionModifierS R) := by unfold solutionModifierS; infer_instance
instance : Lay false true (whereClauseS R) := by unfold whereClauseS; infer_instance
instance : Lay false true (varOrExpressionAsVarS R) := by unfold varOrExpressionAsVarS; infer_instance
instance : Lay false true (selectVarsS R) := by unfold selectVarsS; infer_instance
instance : Lay false true (selectClauseS R) := by unfold selectClauseS; infer_instance
instance : Lay false true (subSelectS R) := by unfold subSelectS; infer_instance
instance : Lay false true (groupOrUnionGraphPatternS R) := by unfold groupOrUnionGraphPatternS; infer_instance
instance : Lay false true (optionalGroupGraphPatternS R) := by unfold optionalGroupGraphPatternS; infer_instance
instance : Lay false true (minusGraphPatternS R) := by unfold minusGraphPatternS; infer_instance
instance : Lay false true (graphGraphPatternS R) := by unfold graphGraphPatternS; infer_instance
instance : Lay false true (serviceGraphPatternS R) := by unfold serviceGraphPatternS; infer_instance
instance : Lay false true (graphPatternNotTriplesS R) := by unfold graphPatternNotTriplesS; infer_instance
instance : Lay false true (groupGraphPatternAndTriplesS R) := by unfold groupGraphPatternAndTriplesS; infer_instance
instance : Lay false true (groupGraphPatternSubS R) := by unfold groupGraphPatternSubS; infer_instance
instance : Lay false true (groupGraphPatternStep R) := by unfold groupGraphPatternStep; infer_instance
end

theorem recF_lay : ∀ n, RecLay (recF n)
  | 0 => ⟨⟨fun _ _ _ => rfl⟩, ⟨fun _ _ _ => rfl⟩⟩
  | n + 1 => by
    have := recF_lay n
    exact ⟨inferInstanceAs (Lay false true (expressionStep (recF n))), inferInstanceAs (Lay false true (groupGraphPatternStep (recF n)))⟩
instance : Lay false true expression := lay_closed (pF := fun n => (recF n).expr) (fun n => (recF_lay n).expr) (fun n => (recF_agree_closed n).expr)
instance : Lay false true groupGraphPattern :=
  lay_closed (pF := fun n => (recF n).ggp) (fun n => (recF_lay n).ggp) (fun n => (recF_agree_closed n).ggp)
instance : RecLay R₀ := ⟨inferInstanceAs (Lay false true expression), inferInstanceAs (Lay false true groupGraphPattern)⟩

instance : Lay false true whereClause := by unfold whereClause; infer_instance
instance : Lay false true solutionModifier := by unfold solutionModifier; infer_instance
instance : Lay false true selectClause := by unfold selectClause; infer_instance
instance : Lay false true subSelect := by unfold subSelect; infer_instance

/-! ## Queries and updates -/

instance : Lay false true dataSetClauses := by unfold dataSetClauses; infer_instance
instance : Lay false true selectQuery := by unfold selectQuery; infer_instance
instance : Lay false true askQuery := by unfold askQuery; infer_instance
instance : Lay false true describeQuery := by unfold describeQuery; infer_instance
instance : Lay false true constructTemplate := by unfold constructTemplate; infer_instance
instance : Lay false true subTriples := by unfold subTriples; infer_instance
instance : Lay false true subConstruct := by unfold subConstruct; infer_instance
instance : Lay false true constructQuery := by unfold constructQuery; infer_instance
instance : Lay false true sparqlQuery := by unfold sparqlQuery; infer_instance
instance : Lay false true sparqlQueryStmt := by unfold sparqlQueryStmt; infer_instance
instance : Lay false true silentFromTo := by unfold silentFromTo; infer_instance
instance : Lay false true addStmt := by
  unfold addStmt
  exact Lay.map_of inferInstance (g := Prod.snd) (inferInstanceAs (Lay false true (preceded _ _))) (fun a a' h => by rw [h])
instance : Lay false true moveStmt := by
  unfold moveStmt
  exact Lay.map_of inferInstance (g := Prod.snd) (inferInstanceAs (Lay false true (preceded _ _))) (fun a a' h => by rw [h])
instance : Lay false true copyStmt := by
  unfold copyStmt
  exact Lay.map_of inferInstance (g := Prod.snd) (inferInstanceAs (Lay false true (preceded _ _))) (fun a a' h => by rw [h])
instance : Lay false true createStmt := by
  unfold createStmt tuple3
  exact Lay.map_of inferInstance (g := Prod.snd) (inferInstanceAs (Lay false true (preceded _ _))) (fun a a' h => by rw [h])
instance : Lay false true silentGraphRefAll := by unfold silentGraphRefAll; infer_instance
instance : Lay false true dropStmt := by
  unfold dropStmt
  exact Lay.map_of inferInstance (g := Prod.snd) (inferInstanceAs (Lay false true (preceded _ _))) (fun a a' h => by rw [h])
instance : Lay false true clearStmt := by
  unfold clearStmt
  exact Lay.map_of inferInstance (g := Prod.snd) (inferInstanceAs (Lay false true (preceded _ _))) (fun a a' h => by rw [h])
instance : Lay false true loadStmt := by
  unfold loadStmt tuple4
  exact Lay.map_of inferInstance (g := Prod.snd) (inferInstanceAs (Lay false true (preceded _ _))) (fun a a' h => by rw [h])
instance : Lay false true insertData := by unfold insertData; infer_instance
instance : Lay false true deleteData := by unfold deleteData; infer_instance
instance : Lay false true deleteWhereData := by unfold deleteWhereData; infer_instance
instance : Lay false true deleteInsert := by unfold deleteInsert; infer_instance
instance : Lay false true modifyStmt := by unfold modifyStmt; infer_instance
instance : Lay false true updateStmt := by unfold updateStmt; infer_instance
instance {up : P Update} [Lay false true up] : Lay false true (updateStep up) := by unfold updateStep; infer_instance

theorem updateF_lay : ∀ n, Lay false true (updateF n)
  | 0 => ⟨fun _ _ _ => rfl⟩
  | n + 1 => by have := updateF_lay n; unfold updateF; infer_instance
instance : Lay false true update := lay_closed updateF_lay updateF_agree_closed

end NomSparql
