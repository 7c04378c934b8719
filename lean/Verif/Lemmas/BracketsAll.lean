import Verif.Lemmas.Brackets

/-!
# Every parser of the crate reads a text with balanced brackets
-/

namespace NomSparql

set_option synthInstance.maxSize 4000
set_option synthInstance.maxHeartbeats 400000

section
variable {p : P α} {q : P β} {t : List Char}

instance [Bal p] : Bal (bracketted p) := by unfold bracketted; infer_instance
instance [KwTag t] [DullTag t] [Bal p] : Bal (precededTag1 t p) := by unfold precededTag1; infer_instance
instance [KwTag t] [DullTag t] [Bal p] : Bal (precededTag t p) := by unfold precededTag; infer_instance
instance [KwTag t] [DullTag t] [Bal p] : Bal (precededBracketted t p) := by unfold precededBracketted; infer_instance
instance [Bal p] : Bal (spEnc p) := by unfold spEnc; infer_instance
instance [Bal p] : Bal (spEnc1 p) := by unfold spEnc1; infer_instance
instance [Bal p] [Bal q] : Bal (spSep1 p q) := by unfold spSep1; infer_instance
instance [Bal p] [Bal q] : Bal (spSep p q) := by unfold spSep; infer_instance
instance : Bal comma := by unfold comma; infer_instance
instance [Bal p] : Bal (bracketted3 p) := by unfold bracketted3; infer_instance
end

section
instance : Bal hexPrimary := by unfold hexPrimary; infer_instance
instance : Bal plx := by unfold plx; infer_instance
instance : Bal pnCharsBaseOne := by unfold pnCharsBaseOne; infer_instance
instance : Bal pnCharsBase1 := by unfold pnCharsBase1; infer_instance
instance : Bal pnCharsUOne := by unfold pnCharsUOne; infer_instance
instance : Bal pnCharsU1 := by unfold pnCharsU1; infer_instance
instance : Bal pnCharsOne := by unfold pnCharsOne; infer_instance
instance : Bal pnChars1 := by unfold pnChars1; infer_instance
instance : Bal languageTag := by unfold languageTag; infer_instance
instance : Bal pnCharsTail := by unfold pnCharsTail; infer_instance
instance : Bal pnLocalFirst := by unfold pnLocalFirst; infer_instance
instance : Bal pnLocalChunk := by unfold pnLocalChunk; infer_instance
instance : Bal pnLocal := by unfold pnLocal; infer_instance
instance : Bal pnPrefix := by unfold pnPrefix; infer_instance
instance : Bal silent := by unfold silent; infer_instance
instance : Bal distinct := by unfold distinct; infer_instance
instance : Bal boolean := by unfold boolean; infer_instance
instance : Bal sign := by unfold sign; infer_instance
instance : Bal optSign := by unfold optSign; infer_instance
instance : Bal exponent := by unfold exponent; infer_instance
instance : Bal recognizeSparqlFloat := by unfold recognizeSparqlFloat; infer_instance
instance : Bal sparqlDecimal where
  out {i r a} e := by
    unfold sparqlDecimal at e
    split at e
    · cases e
    · rename_i h
      split at e
      · cases e; exact Bal.out h
      · cases e
instance : Bal sparqlInt where
  out {i r a} e := by
    unfold sparqlInt at e
    split at e
    · rename_i h
      split at e
      · cases e
      · split at e
        · cases e; exact Bal.out h
        · cases e
    · cases e
instance : Bal sparqlDouble := by unfold sparqlDouble; infer_instance
instance : Bal numericLiteral := by unfold numericLiteral; infer_instance
instance : Bal varName := by unfold varName; infer_instance
instance : Bal order := by unfold order; infer_instance
instance : Bal selectModifier := by unfold selectModifier; infer_instance

instance : Bal anon := by unfold anon; infer_instance
instance : Bal nil := by unfold nil; infer_instance
end

/-! ## Names, literals, data -/

instance : Bal pnameNs := by unfold pnameNs; infer_instance
instance : Bal pnameLn := by unfold pnameLn; infer_instance
instance : Bal prefixedName := by unfold prefixedName; infer_instance
instance : Bal iri := by unfold iri; infer_instance
instance : Bal namedIri := by unfold namedIri; infer_instance
instance : Bal defaultOrNamedIri := by unfold defaultOrNamedIri; infer_instance
instance : Bal rdfLiteral := by unfold rdfLiteral; infer_instance
instance : Bal baseDecl := by unfold baseDecl; infer_instance
instance : Bal prefixDecl := by unfold prefixDecl; infer_instance
instance : Bal prologue := by unfold prologue; infer_instance
instance : Bal stringLiteralArg := by unfold stringLiteralArg; infer_instance
instance : Bal var := by unfold var; infer_instance
instance : Bal varOrIri := by unfold varOrIri; infer_instance
instance : Bal verb := by unfold verb; infer_instance
instance : Bal varOrIrisOrAll := by unfold varOrIrisOrAll; infer_instance
instance : Bal blankNode := by unfold blankNode; infer_instance
instance : Bal graphTerm := by unfold graphTerm; infer_instance
instance : Bal varOrTerm := by unfold varOrTerm; infer_instance
instance : Bal graphRef := by unfold graphRef; infer_instance
instance : Bal graphOrDefault := by unfold graphOrDefault; infer_instance
instance : Bal graphRefAll := by unfold graphRefAll; infer_instance
instance : Bal dataSetClause := by unfold dataSetClause; infer_instance
instance : Bal datablockValue := by unfold datablockValue; infer_instance
instance : Bal inlineDataFull := by unfold inlineDataFull; infer_instance
instance : Bal inlineDataOneVar := by unfold inlineDataOneVar; infer_instance
instance : Bal datablock := by unfold datablock; infer_instance
instance : Bal inlineData := by unfold inlineData; infer_instance
instance : Bal valuesClause := by unfold valuesClause; infer_instance
instance : Bal usingClause := by unfold usingClause; infer_instance
instance {pat : P Str} [Bal pat] : Bal (intClause pat) := by unfold intClause; infer_instance
instance : Bal limitClause := by unfold limitClause; infer_instance
instance : Bal offsetClause := by unfold offsetClause; infer_instance
instance : Bal limitOffsetClause := by unfold limitOffsetClause; infer_instance
instance : Bal optDistinct := by unfold optDistinct; infer_instance
instance : Bal optSilent := by unfold optSilent; infer_instance
instance : Bal pathMod where
  out e := by
    obtain ⟨s, rfl, h⟩ := (inferInstance : Sound pathMod rPathMod).out e
    refine ⟨s, rfl, .chars ?_⟩
    rename_i m
    cases m <;> (have : s = _ := h; subst this; decide)
instance : Bal iriOrA := by unfold iriOrA; infer_instance
instance : Bal iriOrAOrCaret := by unfold iriOrAOrCaret; infer_instance
instance : Bal pathOneInPropertySet := by unfold pathOneInPropertySet; infer_instance
instance : Bal pathNegatedPropertySet := by unfold pathNegatedPropertySet; infer_instance
instance : Bal separatorEq := by unfold separatorEq; infer_instance

/-! ## Recursive parsers -/

/-- A closed parser from its approximations. -/
theorem bal_closed {p : P α} {pF : Nat → P α} (h : ∀ n, Bal (pF n)) (ha : ∀ n, Agree n (pF n) p) : Bal p where
  out {i r a} e := by
    rw [← ((ha (i.length + 1)).out i (by omega)).1] at e
    exact (h _).out e

section
variable {gn : P GraphNode} [Bal gn]

instance : Bal (collectionS gn) := by unfold collectionS; infer_instance
instance : Bal (objectListS gn) := by unfold objectListS; infer_instance
instance : Bal (propertyListNotEmptyS gn) := by unfold propertyListNotEmptyS; infer_instance
instance : Bal (propertyListS gn) := by unfold propertyListS; infer_instance
instance : Bal (blankNodePropertyListS gn) := by unfold blankNodePropertyListS; infer_instance
instance : Bal (triplesNodeS gn) := by unfold triplesNodeS; infer_instance
instance : Bal (graphNodeStep gn) := by unfold graphNodeStep; infer_instance
end

theorem graphNodeF_bal : ∀ n, Bal (graphNodeF n)
  | 0 => ⟨fun e => by cases e⟩
  | n + 1 => by have := graphNodeF_bal n; unfold graphNodeF; infer_instance
instance : Bal graphNode := bal_closed graphNodeF_bal graphNodeF_agree_closed

instance : Bal collection := by unfold collection; infer_instance
instance : Bal objectList := by unfold objectList; infer_instance
instance : Bal propertyListNotEmpty := by unfold propertyListNotEmpty; infer_instance
instance : Bal propertyList := by unfold propertyList; infer_instance
instance : Bal blankNodePropertyList := by unfold blankNodePropertyList; infer_instance
instance : Bal triplesNode := by unfold triplesNode; infer_instance
instance : Bal triplesSameSubject := by unfold triplesSameSubject; infer_instance
instance : Bal triplesTemplate := by unfold triplesTemplate; infer_instance
instance : Bal quadsNotTriples := by unfold quadsNotTriples; infer_instance
instance : Bal quadsEntry := by unfold quadsEntry; infer_instance
instance : Bal quads := by unfold quads; infer_instance
instance : Bal quadsPattern := by unfold quadsPattern; infer_instance
instance : Bal quadData := by unfold quadData; infer_instance
instance : Bal insertClause := by unfold insertClause; infer_instance
instance : Bal deleteClause := by unfold deleteClause; infer_instance

section
variable {pa : P PathAlternative} [Bal pa]

instance : Bal (pathPrimaryS pa) := by unfold pathPrimaryS; infer_instance
instance : Bal (pathEltS pa) := by unfold pathEltS; infer_instance
instance : Bal (pathEltOrInverseS pa) := by unfold pathEltOrInverseS; infer_instance
instance : Bal (pathSequenceS pa) := by unfold pathSequenceS; infer_instance
instance : Bal (pathAlternativeStep pa) := by unfold pathAlternativeStep; infer_instance
end

theorem pathAlternativeF_bal : ∀ n, Bal (pathAlternativeF n)
  | 0 => ⟨fun e => by cases e⟩
  | n + 1 => by have := pathAlternativeF_bal n; unfold pathAlternativeF; infer_instance
instance : Bal pathAlternative := bal_closed pathAlternativeF_bal pathAlternativeF_agree_closed

instance : Bal pathPrimary := by unfold pathPrimary; infer_instance
instance : Bal pathElt := by unfold pathElt; infer_instance
instance : Bal pathEltOrInverse := by unfold pathEltOrInverse; infer_instance
instance : Bal pathSequence := by unfold pathSequence; infer_instance
instance : Bal verbPathOrSimple := by unfold verbPathOrSimple; infer_instance
instance : Bal propertyListPathEntry := by unfold propertyListPathEntry; infer_instance

section
variable {gn : P GraphNodePath} [Bal gn]

instance : Bal (objectListPathS gn) := by unfold objectListPathS; infer_instance
instance : Bal (propertyListPathNotEmptyS gn) := by unfold propertyListPathNotEmptyS; infer_instance
instance : Bal (propertyListPathS gn) := by unfold propertyListPathS; infer_instance
instance : Bal (blankNodePropertyListPathS gn) := by unfold blankNodePropertyListPathS; infer_instance
instance : Bal (triplesNodePathS gn) := by unfold triplesNodePathS; infer_instance
instance : Bal (graphNodePathStep gn) := by unfold graphNodePathStep; infer_instance
end

theorem graphNodePathF_bal : ∀ n, Bal (graphNodePathF n)
  | 0 => ⟨fun e => by cases e⟩
  | n + 1 => by have := graphNodePathF_bal n; unfold graphNodePathF; infer_instance
instance : Bal graphNodePath := bal_closed graphNodePathF_bal graphNodePathF_agree_closed

instance : Bal objectListPath := by unfold objectListPath; infer_instance
instance : Bal propertyListPathNotEmpty := by unfold propertyListPathNotEmpty; infer_instance
instance : Bal propertyListPath := by unfold propertyListPath; infer_instance
instance : Bal blankNodePropertyListPath := by unfold blankNodePropertyListPath; infer_instance
instance : Bal triplesNodePath := by unfold triplesNodePath; infer_instance
instance : Bal triplesSameSubjectPath := by unfold triplesSameSubjectPath; infer_instance
instance : Bal triplesBlock := by unfold triplesBlock; infer_instance

/-! ## Expressions and patterns -/

class RecBal (R : Rec) : Prop where
  expr : Bal R.expr
  ggp : Bal R.ggp

section
variable {R : Rec} [h : RecBal R]

instance : Bal R.expr := h.expr
instance : Bal R.ggp := h.ggp

instance : Bal (brackettedExpr3S R) := by unfold brackettedExpr3S; infer_instance
instance : Bal (expressionAsVarOptS R) := by unfold expressionAsVarOptS; infer_instance
instance : Bal (expressionAsVarS R) := by unfold expressionAsVarS; infer_instance
instance : Bal (expressionListS R) := by unfold expressionListS; infer_instance
instance : Bal (distinctExpressionS R) := by unfold distinctExpressionS; infer_instance
instance : Bal (brackettedExpressionS R) := by unfold brackettedExpressionS; infer_instance
instance : Bal (bindS R) := by unfold bindS; infer_instance
instance : Bal (regexExpressionS R) := by unfold regexExpressionS; infer_instance
instance : Bal (substringExpressionS R) := by unfold substringExpressionS; infer_instance
instance : Bal (strReplaceExpressionS R) := by unfold strReplaceExpressionS; infer_instance
instance : Bal (argListS R) := by unfold argListS; infer_instance
instance : Bal (functionCallS R) := by unfold functionCallS; infer_instance
instance : Bal (iriOrFunS R) := by unfold iriOrFunS; infer_instance
instance : Bal (countTargetS R) := by unfold countTargetS; infer_instance
instance : Bal (countS R) := by unfold countS; infer_instance
instance : Bal (groupConcatS R) := by unfold groupConcatS; infer_instance
instance : Bal (aggregateS R) := by unfold aggregateS; infer_instance
instance : Bal (exprPairS R) := by unfold exprPairS; infer_instance
instance : Bal (builtInCall1S R) := by unfold builtInCall1S; infer_instance
instance : Bal (builtInCall2S R) := by unfold builtInCall2S; infer_instance
instance : Bal (builtInCallS R) := by unfold builtInCallS; infer_instance
instance : Bal (primaryExpressionS R) := by unfold primaryExpressionS; infer_instance
instance : Bal (unaryExpressionS R) := by unfold unaryExpressionS; infer_instance
instance : Bal (multExpressionS R) := by unfold multExpressionS; infer_instance
instance : Bal (multiplicativeExpressionS R) := by unfold multiplicativeExpressionS; infer_instance
instance : Bal (addExpressionS R) := by unfold addExpressionS; infer_instance
instance : Bal (additiveExpressionS R) := by unfold additiveExpressionS; infer_instance
instance : Bal (opExpressionS R) := by unfold opExpressionS; infer_instance
instance : Bal (relationalExpressionS R) := by unfold relationalExpressionS; infer_instance
instance : Bal (conditionalAndExpressionS R) := by unfold conditionalAndExpressionS; infer_instance
instance : Bal (expressionStep R) := by unfold expressionStep; infer_instance
instance : Bal (constraintS R) := by unfold constraintS; infer_instance
instance : Bal (filterS R) := by unfold filterS; infer_instance
instance : Bal (orderExpressionS R) := by unfold orderExpressionS; infer_instance
instance : Bal (orderConditionS R) := by unfold orderConditionS; infer_instance
instance : Bal (groupConditionS R) := by unfold groupConditionS; infer_instance
instance : Bal (groupClauseS R) := by unfold groupClauseS; infer_instance
instance : Bal (orderClauseS R) := by unfold orderClauseS; infer_instance
instance : Bal (havingClauseS R) := by unfold havingClauseS; infer_instance
instance : Bal (solutionModifierS R) := by unfold solutionModifierS; infer_instance
instance : Bal (whereClauseS R) := by unfold whereClauseS; infer_instance
instance : Bal (varOrExpressionAsVarS R) := by unfold varOrExpressionAsVarS; infer_instance
instance : Bal (selectVarsS R) := by unfold selectVarsS; infer_instance
instance : Bal (selectClauseS R) := by unfold selectClauseS; infer_instance
instance : Bal (subSelectS R) := by unfold subSelectS; infer_instance
instance : Bal (groupOrUnionGraphPatternS R) := by unfold groupOrUnionGraphPatternS; infer_instance
instance : Bal (optionalGroupGraphPatternS R) := by unfold optionalGroupGraphPatternS; infer_instance
instance : Bal (minusGraphPatternS R) := by unfold minusGraphPatternS; infer_instance
instance : Bal (graphGraphPatternS R) := by unfold graphGraphPatternS; infer_instance
instance : Bal (serviceGraphPatternS R) := by unfold serviceGraphPatternS; infer_instance
instance : Bal (graphPatternNotTriplesS R) := by unfold graphPatternNotTriplesS; infer_instance
instance : Bal (groupGraphPatternAndTriplesS R) := by unfold groupGraphPatternAndTriplesS; infer_instance
instance : Bal (groupGraphPatternSubS R) := by unfold groupGraphPatternSubS; infer_instance
instance : Bal (groupGraphPatternStep R) := by unfold groupGraphPatternStep; infer_instance
end

theorem recF_bal : ∀ n, RecBal (recF n)
  | 0 => ⟨⟨fun e => by cases e⟩, ⟨fun e => by cases e⟩⟩
  | n + 1 => by
    have := recF_bal n
    exact ⟨inferInstanceAs (Bal (expressionStep (recF n))), inferInstanceAs (Bal (groupGraphPatternStep (recF n)))⟩
instance : Bal expression := bal_closed (pF := fun n => (recF n).expr) (fun n => (recF_bal n).expr) (fun n => (recF_agree_closed n).expr)
instance : Bal groupGraphPattern :=
  bal_closed (pF := fun n => (recF n).ggp) (fun n => (recF_bal n).ggp) (fun n => (recF_agree_closed n).ggp)
instance : RecBal R₀ := ⟨inferInstanceAs (Bal expression), inferInstanceAs (Bal groupGraphPattern)⟩

instance : Bal whereClause := by unfold whereClause; infer_instance
instance : Bal solutionModifier := by unfold solutionModifier; infer_instance
instance : Bal selectClause := by unfold selectClause; infer_instance
instance : Bal subSelect := by unfold subSelect; infer_instance

/-! ## Queries and updates -/

instance : Bal dataSetClauses := by unfold dataSetClauses; infer_instance
instance : Bal selectQuery := by unfold selectQuery; infer_instance
instance : Bal askQuery := by unfold askQuery; infer_instance
instance : Bal describeQuery := by unfold describeQuery; infer_instance
instance : Bal constructTemplate := by unfold constructTemplate; infer_instance
instance : Bal subTriples := by unfold subTriples; infer_instance
instance : Bal subConstruct := by unfold subConstruct; infer_instance
instance : Bal constructQuery := by unfold constructQuery; infer_instance
instance : Bal sparqlQuery := by unfold sparqlQuery; infer_instance
instance : Bal sparqlQueryStmt := by unfold sparqlQueryStmt; infer_instance
instance : Bal silentFromTo := by unfold silentFromTo; infer_instance
instance : Bal addStmt := by unfold addStmt; infer_instance
instance : Bal moveStmt := by unfold moveStmt; infer_instance
instance : Bal copyStmt := by unfold copyStmt; infer_instance
instance : Bal createStmt := by unfold createStmt; infer_instance
instance : Bal silentGraphRefAll := by unfold silentGraphRefAll; infer_instance
instance : Bal dropStmt := by unfold dropStmt; infer_instance
instance : Bal clearStmt := by unfold clearStmt; infer_instance
instance : Bal loadStmt := by unfold loadStmt; infer_instance
instance : Bal insertData := by unfold insertData; infer_instance
instance : Bal deleteData := by unfold deleteData; infer_instance
instance : Bal deleteWhereData := by unfold deleteWhereData; infer_instance
instance : Bal deleteInsert := by unfold deleteInsert; infer_instance
instance : Bal modifyStmt := by unfold modifyStmt; infer_instance
instance : Bal updateStmt := by unfold updateStmt; infer_instance
instance {up : P Update} [Bal up] : Bal (updateStep up) := by unfold updateStep; infer_instance

theorem updateF_bal : ∀ n, Bal (updateF n)
  | 0 => ⟨fun e => by cases e⟩
  | n + 1 => by have := updateF_bal n; unfold updateF; infer_instance
instance : Bal update := bal_closed updateF_bal updateF_agree_closed

end NomSparql
