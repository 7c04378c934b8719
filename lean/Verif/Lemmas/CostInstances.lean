import Verif.Lemmas.CostJudge

/-!
# Counting parsers: judgements for every parser of the nest, and the equations of the two recursive parsers

Written after Lemmas/Instances.lean.
-/

set_option synthInstance.maxSize 4000
set_option synthInstance.maxHeartbeats 400000

namespace NomSparql.Cost

class KRecGood (R : Rec) : Prop where
  expr : KGood R.expr
  ggp : KGood R.ggp

class KRecAgree (m : Nat) (R R' : Rec) : Prop where
  expr : KAgree m R.expr R'.expr
  ggp : KAgree m R.ggp R'.ggp

class RecB (F : Nat → Nat) (R : Rec) : Prop where
  expr : Bd F 1 R.expr
  ggp : Bd F 1 R.ggp

instance {R : Rec} [KRecGood R] : KGood R.expr := KRecGood.expr
instance {R : Rec} [KRecGood R] : KGood R.ggp := KRecGood.ggp
instance {m : Nat} {R R' : Rec} [KRecAgree m R R'] : KAgree m R.expr R'.expr := KRecAgree.expr
instance {m : Nat} {R R' : Rec} [KRecAgree m R R'] : KAgree m R.ggp R'.ggp := KRecAgree.ggp
instance {F : Nat → Nat} {R : Rec} [RecB F R] : Bd F 1 R.expr := RecB.expr
instance {F : Nat → Nat} {R : Rec} [RecB F R] : Bd F 1 R.ggp := RecB.ggp
instance {R : Rec} [h : KRecGood R] : RecGood (eraseR R) := ⟨h.expr.out, h.ggp.out⟩

instance (c : Char) : KGood (char c) := inferInstanceAs (KGood (lift _))
instance (priority := high) (c : Char) (m : Nat) : KAgree m (char c) (char c) := inferInstanceAs (KAgree m (lift _) (lift _))
instance (priority := high) (c : Char) (F : Nat → Nat) : Bd F 0 (char c) := inferInstanceAs (Bd F 0 (lift _))
instance (t : List Char) : KGood (tag t) := inferInstanceAs (KGood (lift _))
instance (priority := high) (t : List Char) (m : Nat) : KAgree m (tag t) (tag t) := inferInstanceAs (KAgree m (lift _) (lift _))
instance (priority := high) (t : List Char) (F : Nat → Nat) : Bd F 0 (tag t) := inferInstanceAs (Bd F 0 (lift _))
instance (t : List Char) : KGood (tagNoCase t) := inferInstanceAs (KGood (lift _))
instance (priority := high) (t : List Char) (m : Nat) : KAgree m (tagNoCase t) (tagNoCase t) := inferInstanceAs (KAgree m (lift _) (lift _))
instance (priority := high) (t : List Char) (F : Nat → Nat) : Bd F 0 (tagNoCase t) := inferInstanceAs (Bd F 0 (lift _))
instance (t : List Char) : KGood (tagNoCaseStreaming t) := inferInstanceAs (KGood (lift _))
instance (priority := high) (t : List Char) (m : Nat) : KAgree m (tagNoCaseStreaming t) (tagNoCaseStreaming t) := inferInstanceAs (KAgree m (lift _) (lift _))
instance (priority := high) (t : List Char) (F : Nat → Nat) : Bd F 0 (tagNoCaseStreaming t) := inferInstanceAs (Bd F 0 (lift _))
instance (c : Char) : KConsumes (char c) := inferInstanceAs (KConsumes (lift _))
instance (c : Char) (t : List Char) : KConsumes (tagNoCase (c :: t)) := inferInstanceAs (KConsumes (lift (NomSparql.tagNoCase (c :: t))))
instance (c : Char) (t : List Char) : KConsumes (tag (c :: t)) := inferInstanceAs (KConsumes (lift (NomSparql.tag (c :: t))))
instance (c : Char) (t : List Char) : KConsumes (tagNoCaseStreaming (c :: t)) := inferInstanceAs (KConsumes (lift (NomSparql.tagNoCaseStreaming (c :: t))))
instance : KGood sp := inferInstanceAs (KGood (lift _))
instance (priority := high) (m : Nat) : KAgree m sp sp := inferInstanceAs (KAgree m (lift _) (lift _))
instance (priority := high) (F : Nat → Nat) : Bd F 0 sp := inferInstanceAs (Bd F 0 (lift _))
instance : KGood sp1 := inferInstanceAs (KGood (lift _))
instance (priority := high) (m : Nat) : KAgree m sp1 sp1 := inferInstanceAs (KAgree m (lift _) (lift _))
instance (priority := high) (F : Nat → Nat) : Bd F 0 sp1 := inferInstanceAs (Bd F 0 (lift _))
instance : KConsumes sp1 := inferInstanceAs (KConsumes (lift _))
instance : KGood var := inferInstanceAs (KGood (lift _))
instance (priority := high) (m : Nat) : KAgree m var var := inferInstanceAs (KAgree m (lift _) (lift _))
instance (priority := high) (F : Nat → Nat) : Bd F 0 var := inferInstanceAs (Bd F 0 (lift _))
instance : KConsumes var := inferInstanceAs (KConsumes (lift _))
instance : KGood iri := inferInstanceAs (KGood (lift _))
instance (priority := high) (m : Nat) : KAgree m iri iri := inferInstanceAs (KAgree m (lift _) (lift _))
instance (priority := high) (F : Nat → Nat) : Bd F 0 iri := inferInstanceAs (Bd F 0 (lift _))
instance : KConsumes iri := inferInstanceAs (KConsumes (lift _))
instance : KGood nil := inferInstanceAs (KGood (lift _))
instance (priority := high) (m : Nat) : KAgree m nil nil := inferInstanceAs (KAgree m (lift _) (lift _))
instance (priority := high) (F : Nat → Nat) : Bd F 0 nil := inferInstanceAs (Bd F 0 (lift _))
instance : KConsumes nil := inferInstanceAs (KConsumes (lift _))
instance : KGood stringLiteral := inferInstanceAs (KGood (lift _))
instance (priority := high) (m : Nat) : KAgree m stringLiteral stringLiteral := inferInstanceAs (KAgree m (lift _) (lift _))
instance (priority := high) (F : Nat → Nat) : Bd F 0 stringLiteral := inferInstanceAs (Bd F 0 (lift _))
instance : KConsumes stringLiteral := inferInstanceAs (KConsumes (lift _))
instance : KGood rdfLiteral := inferInstanceAs (KGood (lift _))
instance (priority := high) (m : Nat) : KAgree m rdfLiteral rdfLiteral := inferInstanceAs (KAgree m (lift _) (lift _))
instance (priority := high) (F : Nat → Nat) : Bd F 0 rdfLiteral := inferInstanceAs (Bd F 0 (lift _))
instance : KConsumes rdfLiteral := inferInstanceAs (KConsumes (lift _))
instance : KGood numericLiteral := inferInstanceAs (KGood (lift _))
instance (priority := high) (m : Nat) : KAgree m numericLiteral numericLiteral := inferInstanceAs (KAgree m (lift _) (lift _))
instance (priority := high) (F : Nat → Nat) : Bd F 0 numericLiteral := inferInstanceAs (Bd F 0 (lift _))
instance : KConsumes numericLiteral := inferInstanceAs (KConsumes (lift _))
instance : KGood boolean := inferInstanceAs (KGood (lift _))
instance (priority := high) (m : Nat) : KAgree m boolean boolean := inferInstanceAs (KAgree m (lift _) (lift _))
instance (priority := high) (F : Nat → Nat) : Bd F 0 boolean := inferInstanceAs (Bd F 0 (lift _))
instance : KConsumes boolean := inferInstanceAs (KConsumes (lift _))
instance : KGood varOrIri := inferInstanceAs (KGood (lift _))
instance (priority := high) (m : Nat) : KAgree m varOrIri varOrIri := inferInstanceAs (KAgree m (lift _) (lift _))
instance (priority := high) (F : Nat → Nat) : Bd F 0 varOrIri := inferInstanceAs (Bd F 0 (lift _))
instance : KConsumes varOrIri := inferInstanceAs (KConsumes (lift _))
instance : KGood inlineData := inferInstanceAs (KGood (lift _))
instance (priority := high) (m : Nat) : KAgree m inlineData inlineData := inferInstanceAs (KAgree m (lift _) (lift _))
instance (priority := high) (F : Nat → Nat) : Bd F 0 inlineData := inferInstanceAs (Bd F 0 (lift _))
instance : KConsumes inlineData := inferInstanceAs (KConsumes (lift _))
instance : KGood triplesBlock := inferInstanceAs (KGood (lift _))
instance (priority := high) (m : Nat) : KAgree m triplesBlock triplesBlock := inferInstanceAs (KAgree m (lift _) (lift _))
instance (priority := high) (F : Nat → Nat) : Bd F 0 triplesBlock := inferInstanceAs (Bd F 0 (lift _))
instance : KConsumes triplesBlock := inferInstanceAs (KConsumes (lift _))
instance : KGood limitOffsetClause := inferInstanceAs (KGood (lift _))
instance (priority := high) (m : Nat) : KAgree m limitOffsetClause limitOffsetClause := inferInstanceAs (KAgree m (lift _) (lift _))
instance (priority := high) (F : Nat → Nat) : Bd F 0 limitOffsetClause := inferInstanceAs (Bd F 0 (lift _))
instance : KConsumes limitOffsetClause := inferInstanceAs (KConsumes (lift _))
instance : KGood valuesClause := inferInstanceAs (KGood (lift _))
instance (priority := high) (m : Nat) : KAgree m valuesClause valuesClause := inferInstanceAs (KAgree m (lift _) (lift _))
instance (priority := high) (F : Nat → Nat) : Bd F 0 valuesClause := inferInstanceAs (Bd F 0 (lift _))
instance : KGood comma := inferInstanceAs (KGood (lift _))
instance (priority := high) (m : Nat) : KAgree m comma comma := inferInstanceAs (KAgree m (lift _) (lift _))
instance (priority := high) (F : Nat → Nat) : Bd F 0 comma := inferInstanceAs (Bd F 0 (lift _))
instance : KConsumes comma := inferInstanceAs (KConsumes (lift _))
instance : KGood optDistinct := inferInstanceAs (KGood (lift _))
instance (priority := high) (m : Nat) : KAgree m optDistinct optDistinct := inferInstanceAs (KAgree m (lift _) (lift _))
instance (priority := high) (F : Nat → Nat) : Bd F 0 optDistinct := inferInstanceAs (Bd F 0 (lift _))
instance : KGood optSilent := inferInstanceAs (KGood (lift _))
instance (priority := high) (m : Nat) : KAgree m optSilent optSilent := inferInstanceAs (KAgree m (lift _) (lift _))
instance (priority := high) (F : Nat → Nat) : Bd F 0 optSilent := inferInstanceAs (Bd F 0 (lift _))
instance : KGood separatorEq := inferInstanceAs (KGood (lift _))
instance (priority := high) (m : Nat) : KAgree m separatorEq separatorEq := inferInstanceAs (KAgree m (lift _) (lift _))
instance (priority := high) (F : Nat → Nat) : Bd F 0 separatorEq := inferInstanceAs (Bd F 0 (lift _))
instance : KConsumes separatorEq := inferInstanceAs (KConsumes (lift _))
instance : KGood order := inferInstanceAs (KGood (lift _))
instance (priority := high) (m : Nat) : KAgree m order order := inferInstanceAs (KAgree m (lift _) (lift _))
instance (priority := high) (F : Nat → Nat) : Bd F 0 order := inferInstanceAs (Bd F 0 (lift _))
instance : KConsumes order := inferInstanceAs (KConsumes (lift _))
instance : KGood selectModifier := inferInstanceAs (KGood (lift _))
instance (priority := high) (m : Nat) : KAgree m selectModifier selectModifier := inferInstanceAs (KAgree m (lift _) (lift _))
instance (priority := high) (F : Nat → Nat) : Bd F 0 selectModifier := inferInstanceAs (Bd F 0 (lift _))
instance : KConsumes selectModifier := inferInstanceAs (KConsumes (lift _))
instance : KGood dataSetClauses := inferInstanceAs (KGood (lift _))
instance (priority := high) (m : Nat) : KAgree m dataSetClauses dataSetClauses := inferInstanceAs (KAgree m (lift _) (lift _))
instance (priority := high) (F : Nat → Nat) : Bd F 0 dataSetClauses := inferInstanceAs (Bd F 0 (lift _))
instance : KGood varOrIrisOrAll := inferInstanceAs (KGood (lift _))
instance (priority := high) (m : Nat) : KAgree m varOrIrisOrAll varOrIrisOrAll := inferInstanceAs (KAgree m (lift _) (lift _))
instance (priority := high) (F : Nat → Nat) : Bd F 0 varOrIrisOrAll := inferInstanceAs (Bd F 0 (lift _))
instance : KConsumes varOrIrisOrAll := inferInstanceAs (KConsumes (lift _))
instance : KGood constructTemplate := inferInstanceAs (KGood (lift _))
instance (priority := high) (m : Nat) : KAgree m constructTemplate constructTemplate := inferInstanceAs (KAgree m (lift _) (lift _))
instance (priority := high) (F : Nat → Nat) : Bd F 0 constructTemplate := inferInstanceAs (Bd F 0 (lift _))
instance : KConsumes constructTemplate := inferInstanceAs (KConsumes (lift _))
instance : KGood triplesTemplate := inferInstanceAs (KGood (lift _))
instance (priority := high) (m : Nat) : KAgree m triplesTemplate triplesTemplate := inferInstanceAs (KAgree m (lift _) (lift _))
instance (priority := high) (F : Nat → Nat) : Bd F 0 triplesTemplate := inferInstanceAs (Bd F 0 (lift _))
instance : KConsumes triplesTemplate := inferInstanceAs (KConsumes (lift _))
instance : KGood prologue := inferInstanceAs (KGood (lift _))
instance (priority := high) (m : Nat) : KAgree m prologue prologue := inferInstanceAs (KAgree m (lift _) (lift _))
instance (priority := high) (F : Nat → Nat) : Bd F 0 prologue := inferInstanceAs (Bd F 0 (lift _))
instance : KGood datablock := inferInstanceAs (KGood (lift _))
instance (priority := high) (m : Nat) : KAgree m datablock datablock := inferInstanceAs (KAgree m (lift _) (lift _))
instance (priority := high) (F : Nat → Nat) : Bd F 0 datablock := inferInstanceAs (Bd F 0 (lift _))
instance : KConsumes datablock := inferInstanceAs (KConsumes (lift _))

section
variable {p : K α} {F : Nat → Nat} {w m : Nat} {p' : K α}

instance [KGood p] : KGood (bracketted p) := inferInstanceAs (KGood (delimited (char '(') p (char ')')))
instance [h : KConsumes (delimited (char '(') p (char ')'))] : KConsumes (bracketted p) := h
instance [h : KAgree m (delimited (char '(') p (char ')')) (delimited (char '(') p' (char ')'))] : KAgree m (bracketted p) (bracketted p') := h
instance [h : Bd F w (delimited (char '(') p (char ')'))] : Bd F w (bracketted p) := h
instance [KGood p] : KGood (spEnc p) := inferInstanceAs (KGood (delimited sp p sp))
instance [h : KConsumes (delimited sp p sp)] : KConsumes (spEnc p) := h
instance [h : KAgree m (delimited sp p sp) (delimited sp p' sp)] : KAgree m (spEnc p) (spEnc p') := h
instance [h : Bd F w (delimited sp p sp)] : Bd F w (spEnc p) := h
instance [KGood p] : KGood (spEnc1 p) := inferInstanceAs (KGood (delimited sp1 p sp1))
instance [h : KConsumes (delimited sp1 p sp1)] : KConsumes (spEnc1 p) := h
instance [h : KAgree m (delimited sp1 p sp1) (delimited sp1 p' sp1)] : KAgree m (spEnc1 p) (spEnc1 p') := h
instance [h : Bd F w (delimited sp1 p sp1)] : Bd F w (spEnc1 p) := h
instance {t : Str} [KGood p] : KGood (precededTag1 t p) := inferInstanceAs (KGood (preceded (terminated (tagNoCase t) sp1) p))
instance {t : Str} [h : KConsumes (preceded (terminated (tagNoCase t) sp1) p)] : KConsumes (precededTag1 t p) := h
instance {t : Str} [h : KAgree m (preceded (terminated (tagNoCase t) sp1) p) (preceded (terminated (tagNoCase t) sp1) p')] : KAgree m (precededTag1 t p) (precededTag1 t p') := h
instance {t : Str} [h : Bd F w (preceded (terminated (tagNoCase t) sp1) p)] : Bd F w (precededTag1 t p) := h
instance {t : Str} [KGood p] : KGood (precededTag t p) := inferInstanceAs (KGood (preceded (terminated (tagNoCase t) sp) p))
instance {t : Str} [h : KConsumes (preceded (terminated (tagNoCase t) sp) p)] : KConsumes (precededTag t p) := h
instance {t : Str} [h : KAgree m (preceded (terminated (tagNoCase t) sp) p) (preceded (terminated (tagNoCase t) sp) p')] : KAgree m (precededTag t p) (precededTag t p') := h
instance {t : Str} [h : Bd F w (preceded (terminated (tagNoCase t) sp) p)] : Bd F w (precededTag t p) := h
instance {t : Str} [KGood p] : KGood (precededBracketted t p) := inferInstanceAs (KGood (precededTag t (bracketted p)))
instance {t : Str} [h : KConsumes (precededTag t (bracketted p))] : KConsumes (precededBracketted t p) := h
instance {t : Str} [h : KAgree m (precededTag t (bracketted p)) (precededTag t (bracketted p'))] : KAgree m (precededBracketted t p) (precededBracketted t p') := h
instance {t : Str} [h : Bd F w (precededTag t (bracketted p))] : Bd F w (precededBracketted t p) := h
instance [KGood p] : KGood (bracketted3 p) := inferInstanceAs (KGood (bracketted (tuple3 p (preceded comma p) (opt (preceded comma p)))))
instance [h : KConsumes (bracketted (tuple3 p (preceded comma p) (opt (preceded comma p))))] : KConsumes (bracketted3 p) := h
instance [h : KAgree m (bracketted (tuple3 p (preceded comma p) (opt (preceded comma p)))) (bracketted (tuple3 p' (preceded comma p') (opt (preceded comma p'))))] : KAgree m (bracketted3 p) (bracketted3 p') := h
instance [h : Bd F w (bracketted (tuple3 p (preceded comma p) (opt (preceded comma p))))] : Bd F w (bracketted3 p) := h
end

section
variable {R : Rec} [KRecGood R]

instance : KGood (brackettedExpr3S R) := ⟨by rw [erase_brackettedExpr3S]; infer_instance⟩
instance : KGood (expressionAsVarOptS R) := ⟨by rw [erase_expressionAsVarOptS]; infer_instance⟩
instance : KGood (expressionAsVarS R) := ⟨by rw [erase_expressionAsVarS]; infer_instance⟩
instance : KGood (expressionListS R) := ⟨by rw [erase_expressionListS]; infer_instance⟩
instance : KGood (brackettedExpressionS R) := ⟨by rw [erase_brackettedExpressionS]; infer_instance⟩
instance : KGood (bindS R) := ⟨by rw [erase_bindS]; infer_instance⟩
instance : KGood (regexExpressionS R) := ⟨by rw [erase_regexExpressionS]; infer_instance⟩
instance : KGood (substringExpressionS R) := ⟨by rw [erase_substringExpressionS]; infer_instance⟩
instance : KGood (strReplaceExpressionS R) := ⟨by rw [erase_strReplaceExpressionS]; infer_instance⟩
instance : KGood (argListS R) := ⟨by rw [erase_argListS]; infer_instance⟩
instance : KGood (functionCallS R) := ⟨by rw [erase_functionCallS]; infer_instance⟩
instance : KGood (iriOrFunS R) := ⟨by rw [erase_iriOrFunS]; infer_instance⟩
instance : KGood (distinctExpressionS R) := ⟨by rw [erase_distinctExpressionS]; infer_instance⟩
instance : KGood (countTargetS R) := ⟨by rw [erase_countTargetS]; infer_instance⟩
instance : KGood (exprPairS R) := ⟨by rw [erase_exprPairS]; infer_instance⟩
instance : KGood (countS R) := ⟨by rw [erase_countS]; infer_instance⟩
instance : KGood (groupConcatS R) := ⟨by rw [erase_groupConcatS]; infer_instance⟩
instance : KGood (aggregateS R) := ⟨by rw [erase_aggregateS]; infer_instance⟩
instance : KGood (builtInCall1S R) := ⟨by rw [erase_builtInCall1S]; infer_instance⟩
instance : KGood (builtInCall2S R) := ⟨by rw [erase_builtInCall2S]; infer_instance⟩
instance : KGood (builtInCallS R) := ⟨by rw [erase_builtInCallS]; infer_instance⟩
instance : KGood (primaryExpressionS R) := ⟨by rw [erase_primaryExpressionS]; infer_instance⟩
instance : KGood (unaryExpressionS R) := ⟨by rw [erase_unaryExpressionS]; infer_instance⟩
instance : KGood (multExpressionS R) := ⟨by rw [erase_multExpressionS]; infer_instance⟩
instance : KGood (multiplicativeExpressionS R) := ⟨by rw [erase_multiplicativeExpressionS]; infer_instance⟩
instance : KGood (addExpressionS R) := ⟨by rw [erase_addExpressionS]; infer_instance⟩
instance : KGood (additiveExpressionS R) := ⟨by rw [erase_additiveExpressionS]; infer_instance⟩
instance : KGood (opExpressionS R) := ⟨by rw [erase_opExpressionS]; infer_instance⟩
instance : KGood (relationalExpressionS R) := ⟨by rw [erase_relationalExpressionS]; infer_instance⟩
instance : KGood (conditionalAndExpressionS R) := ⟨by rw [erase_conditionalAndExpressionS]; infer_instance⟩
instance : KGood (expressionStep R) := ⟨by rw [erase_expressionStep]; infer_instance⟩
instance : KGood (constraintS R) := ⟨by rw [erase_constraintS]; infer_instance⟩
instance : KGood (filterS R) := ⟨by rw [erase_filterS]; infer_instance⟩
instance : KGood (orderExpressionS R) := ⟨by rw [erase_orderExpressionS]; infer_instance⟩
instance : KGood (orderConditionS R) := ⟨by rw [erase_orderConditionS]; infer_instance⟩
instance : KGood (groupConditionS R) := ⟨by rw [erase_groupConditionS]; infer_instance⟩
instance : KGood (groupClauseS R) := ⟨by rw [erase_groupClauseS]; infer_instance⟩
instance : KGood (orderClauseS R) := ⟨by rw [erase_orderClauseS]; infer_instance⟩
instance : KGood (havingClauseS R) := ⟨by rw [erase_havingClauseS]; infer_instance⟩
instance : KGood (solutionModifierS R) := ⟨by rw [erase_solutionModifierS]; infer_instance⟩
instance : KGood (whereClauseS R) := ⟨by rw [erase_whereClauseS]; infer_instance⟩
instance : KGood (varOrExpressionAsVarS R) := ⟨by rw [erase_varOrExpressionAsVarS]; infer_instance⟩
instance : KGood (selectVarsS R) := ⟨by rw [erase_selectVarsS]; infer_instance⟩
instance : KGood (selectClauseS R) := ⟨by rw [erase_selectClauseS]; infer_instance⟩
instance : KGood (subSelectS R) := ⟨by rw [erase_subSelectS]; infer_instance⟩
instance : KGood (groupOrUnionGraphPatternS R) := ⟨by rw [erase_groupOrUnionGraphPatternS]; infer_instance⟩
instance : KGood (optionalGroupGraphPatternS R) := ⟨by rw [erase_optionalGroupGraphPatternS]; infer_instance⟩
instance : KGood (minusGraphPatternS R) := ⟨by rw [erase_minusGraphPatternS]; infer_instance⟩
instance : KGood (graphGraphPatternS R) := ⟨by rw [erase_graphGraphPatternS]; infer_instance⟩
instance : KGood (serviceGraphPatternS R) := ⟨by rw [erase_serviceGraphPatternS]; infer_instance⟩
instance : KGood (graphPatternNotTriplesS R) := ⟨by rw [erase_graphPatternNotTriplesS]; infer_instance⟩
instance : KGood (groupGraphPatternAndTriplesS R) := ⟨by rw [erase_groupGraphPatternAndTriplesS]; infer_instance⟩
instance : KGood (groupGraphPatternSubS R) := ⟨by rw [erase_groupGraphPatternSubS]; infer_instance⟩
instance : KGood (groupGraphPatternStep R) := ⟨by rw [erase_groupGraphPatternStep]; infer_instance⟩

instance : KConsumes (brackettedExpr3S R) := ⟨by rw [erase_brackettedExpr3S]; infer_instance⟩
instance : KConsumes (expressionAsVarOptS R) := ⟨by rw [erase_expressionAsVarOptS]; infer_instance⟩
instance : KConsumes (expressionAsVarS R) := ⟨by rw [erase_expressionAsVarS]; infer_instance⟩
instance : KConsumes (expressionListS R) := ⟨by rw [erase_expressionListS]; infer_instance⟩
instance : KConsumes (brackettedExpressionS R) := ⟨by rw [erase_brackettedExpressionS]; infer_instance⟩
instance : KConsumes (bindS R) := ⟨by rw [erase_bindS]; infer_instance⟩
instance : KConsumes (regexExpressionS R) := ⟨by rw [erase_regexExpressionS]; infer_instance⟩
instance : KConsumes (substringExpressionS R) := ⟨by rw [erase_substringExpressionS]; infer_instance⟩
instance : KConsumes (strReplaceExpressionS R) := ⟨by rw [erase_strReplaceExpressionS]; infer_instance⟩
instance : KConsumes (argListS R) := ⟨by rw [erase_argListS]; infer_instance⟩
instance : KConsumes (functionCallS R) := ⟨by rw [erase_functionCallS]; infer_instance⟩
instance : KConsumes (iriOrFunS R) := ⟨by rw [erase_iriOrFunS]; infer_instance⟩
instance : KConsumes (countS R) := ⟨by rw [erase_countS]; infer_instance⟩
instance : KConsumes (groupConcatS R) := ⟨by rw [erase_groupConcatS]; infer_instance⟩
instance : KConsumes (aggregateS R) := ⟨by rw [erase_aggregateS]; infer_instance⟩
instance : KConsumes (builtInCall1S R) := ⟨by rw [erase_builtInCall1S]; infer_instance⟩
instance : KConsumes (builtInCall2S R) := ⟨by rw [erase_builtInCall2S]; infer_instance⟩
instance : KConsumes (builtInCallS R) := ⟨by rw [erase_builtInCallS]; infer_instance⟩
instance : KConsumes (primaryExpressionS R) := ⟨by rw [erase_primaryExpressionS]; infer_instance⟩
instance : KConsumes (unaryExpressionS R) := ⟨by rw [erase_unaryExpressionS]; infer_instance⟩
instance : KConsumes (multExpressionS R) := ⟨by rw [erase_multExpressionS]; infer_instance⟩
instance : KConsumes (multiplicativeExpressionS R) := ⟨by rw [erase_multiplicativeExpressionS]; infer_instance⟩
instance : KConsumes (addExpressionS R) := ⟨by rw [erase_addExpressionS]; infer_instance⟩
instance : KConsumes (additiveExpressionS R) := ⟨by rw [erase_additiveExpressionS]; infer_instance⟩
instance : KConsumes (opExpressionS R) := ⟨by rw [erase_opExpressionS]; infer_instance⟩
instance : KConsumes (relationalExpressionS R) := ⟨by rw [erase_relationalExpressionS]; infer_instance⟩
instance : KConsumes (conditionalAndExpressionS R) := ⟨by rw [erase_conditionalAndExpressionS]; infer_instance⟩
instance : KConsumes (expressionStep R) := ⟨by rw [erase_expressionStep]; infer_instance⟩
instance : KConsumes (constraintS R) := ⟨by rw [erase_constraintS]; infer_instance⟩
instance : KConsumes (filterS R) := ⟨by rw [erase_filterS]; infer_instance⟩
instance : KConsumes (orderExpressionS R) := ⟨by rw [erase_orderExpressionS]; infer_instance⟩
instance : KConsumes (orderConditionS R) := ⟨by rw [erase_orderConditionS]; infer_instance⟩
instance : KConsumes (groupConditionS R) := ⟨by rw [erase_groupConditionS]; infer_instance⟩
instance : KConsumes (groupClauseS R) := ⟨by rw [erase_groupClauseS]; infer_instance⟩
instance : KConsumes (orderClauseS R) := ⟨by rw [erase_orderClauseS]; infer_instance⟩
instance : KConsumes (havingClauseS R) := ⟨by rw [erase_havingClauseS]; infer_instance⟩
instance : KConsumes (varOrExpressionAsVarS R) := ⟨by rw [erase_varOrExpressionAsVarS]; infer_instance⟩
instance : KConsumes (selectVarsS R) := ⟨by rw [erase_selectVarsS]; infer_instance⟩
instance : KConsumes (selectClauseS R) := ⟨by rw [erase_selectClauseS]; infer_instance⟩
instance : KConsumes (subSelectS R) := ⟨by rw [erase_subSelectS]; infer_instance⟩
instance : KConsumes (groupOrUnionGraphPatternS R) := ⟨by rw [erase_groupOrUnionGraphPatternS]; infer_instance⟩
instance : KConsumes (optionalGroupGraphPatternS R) := ⟨by rw [erase_optionalGroupGraphPatternS]; infer_instance⟩
instance : KConsumes (minusGraphPatternS R) := ⟨by rw [erase_minusGraphPatternS]; infer_instance⟩
instance : KConsumes (graphGraphPatternS R) := ⟨by rw [erase_graphGraphPatternS]; infer_instance⟩
instance : KConsumes (serviceGraphPatternS R) := ⟨by rw [erase_serviceGraphPatternS]; infer_instance⟩
instance : KConsumes (graphPatternNotTriplesS R) := ⟨by rw [erase_graphPatternNotTriplesS]; infer_instance⟩
instance : KConsumes (groupGraphPatternAndTriplesS R) := ⟨by rw [erase_groupGraphPatternAndTriplesS]; infer_instance⟩
instance : KConsumes (groupGraphPatternStep R) := ⟨by rw [erase_groupGraphPatternStep]; infer_instance⟩

end

section
variable {m : Nat} {R R' : Rec} [KRecGood R] [KRecAgree m R R']

instance (priority := high) kagree_brackettedExpr3S : KAgree (m + 1) (brackettedExpr3S R) (brackettedExpr3S R') := by
  unfold brackettedExpr3S; infer_instance
instance : KAgree m (brackettedExpr3S R) (brackettedExpr3S R') := kagree_brackettedExpr3S.down
instance (priority := high) kagree_expressionAsVarOptS : KAgree (m + 1) (expressionAsVarOptS R) (expressionAsVarOptS R') := by
  unfold expressionAsVarOptS; infer_instance
instance : KAgree m (expressionAsVarOptS R) (expressionAsVarOptS R') := kagree_expressionAsVarOptS.down
instance (priority := high) kagree_expressionAsVarS : KAgree (m + 1) (expressionAsVarS R) (expressionAsVarS R') := by
  unfold expressionAsVarS; infer_instance
instance : KAgree m (expressionAsVarS R) (expressionAsVarS R') := kagree_expressionAsVarS.down
instance (priority := high) kagree_expressionListS : KAgree (m + 1) (expressionListS R) (expressionListS R') := by
  unfold expressionListS; infer_instance
instance : KAgree m (expressionListS R) (expressionListS R') := kagree_expressionListS.down
instance (priority := high) kagree_brackettedExpressionS : KAgree (m + 1) (brackettedExpressionS R) (brackettedExpressionS R') := by
  unfold brackettedExpressionS; infer_instance
instance : KAgree m (brackettedExpressionS R) (brackettedExpressionS R') := kagree_brackettedExpressionS.down
instance (priority := high) kagree_bindS : KAgree (m + 1) (bindS R) (bindS R') := by
  unfold bindS; infer_instance
instance : KAgree m (bindS R) (bindS R') := kagree_bindS.down
instance (priority := high) kagree_regexExpressionS : KAgree (m + 1) (regexExpressionS R) (regexExpressionS R') := by
  unfold regexExpressionS; infer_instance
instance : KAgree m (regexExpressionS R) (regexExpressionS R') := kagree_regexExpressionS.down
instance (priority := high) kagree_substringExpressionS : KAgree (m + 1) (substringExpressionS R) (substringExpressionS R') := by
  unfold substringExpressionS; infer_instance
instance : KAgree m (substringExpressionS R) (substringExpressionS R') := kagree_substringExpressionS.down
instance (priority := high) kagree_strReplaceExpressionS : KAgree (m + 1) (strReplaceExpressionS R) (strReplaceExpressionS R') := by
  unfold strReplaceExpressionS; infer_instance
instance : KAgree m (strReplaceExpressionS R) (strReplaceExpressionS R') := kagree_strReplaceExpressionS.down
instance (priority := high) kagree_argListS : KAgree (m + 1) (argListS R) (argListS R') := by
  unfold argListS; infer_instance
instance : KAgree m (argListS R) (argListS R') := kagree_argListS.down
instance (priority := high) kagree_functionCallS : KAgree (m + 1) (functionCallS R) (functionCallS R') := by
  unfold functionCallS; infer_instance
instance : KAgree m (functionCallS R) (functionCallS R') := kagree_functionCallS.down
instance (priority := high) kagree_iriOrFunS : KAgree (m + 1) (iriOrFunS R) (iriOrFunS R') := by
  unfold iriOrFunS; infer_instance
instance : KAgree m (iriOrFunS R) (iriOrFunS R') := kagree_iriOrFunS.down
instance : KAgree m (distinctExpressionS R) (distinctExpressionS R') := by unfold distinctExpressionS; infer_instance
instance : KAgree m (countTargetS R) (countTargetS R') := by unfold countTargetS; infer_instance
instance : KAgree m (exprPairS R) (exprPairS R') := by unfold exprPairS; infer_instance
instance (priority := high) kagree_countS : KAgree (m + 1) (countS R) (countS R') := by
  unfold countS; infer_instance
instance : KAgree m (countS R) (countS R') := kagree_countS.down
instance (priority := high) kagree_groupConcatS : KAgree (m + 1) (groupConcatS R) (groupConcatS R') := by
  unfold groupConcatS; infer_instance
instance : KAgree m (groupConcatS R) (groupConcatS R') := kagree_groupConcatS.down
instance (priority := high) kagree_aggregateS : KAgree (m + 1) (aggregateS R) (aggregateS R') := by
  unfold aggregateS; infer_instance
instance : KAgree m (aggregateS R) (aggregateS R') := kagree_aggregateS.down
instance (priority := high) kagree_builtInCall1S : KAgree (m + 1) (builtInCall1S R) (builtInCall1S R') := by
  unfold builtInCall1S; infer_instance
instance : KAgree m (builtInCall1S R) (builtInCall1S R') := kagree_builtInCall1S.down
instance (priority := high) kagree_builtInCall2S : KAgree (m + 1) (builtInCall2S R) (builtInCall2S R') := by
  unfold builtInCall2S; infer_instance
instance : KAgree m (builtInCall2S R) (builtInCall2S R') := kagree_builtInCall2S.down
instance (priority := high) kagree_builtInCallS : KAgree (m + 1) (builtInCallS R) (builtInCallS R') := by
  unfold builtInCallS; infer_instance
instance : KAgree m (builtInCallS R) (builtInCallS R') := kagree_builtInCallS.down
instance (priority := high) kagree_primaryExpressionS : KAgree (m + 1) (primaryExpressionS R) (primaryExpressionS R') := by
  unfold primaryExpressionS; infer_instance
instance : KAgree m (primaryExpressionS R) (primaryExpressionS R') := kagree_primaryExpressionS.down
instance (priority := high) kagree_unaryExpressionS : KAgree (m + 1) (unaryExpressionS R) (unaryExpressionS R') := by
  unfold unaryExpressionS; infer_instance
instance : KAgree m (unaryExpressionS R) (unaryExpressionS R') := kagree_unaryExpressionS.down
instance (priority := high) kagree_multExpressionS : KAgree (m + 1) (multExpressionS R) (multExpressionS R') := by
  unfold multExpressionS; infer_instance
instance : KAgree m (multExpressionS R) (multExpressionS R') := kagree_multExpressionS.down
instance (priority := high) kagree_multiplicativeExpressionS : KAgree (m + 1) (multiplicativeExpressionS R) (multiplicativeExpressionS R') := by
  unfold multiplicativeExpressionS; infer_instance
instance : KAgree m (multiplicativeExpressionS R) (multiplicativeExpressionS R') := kagree_multiplicativeExpressionS.down
instance (priority := high) kagree_addExpressionS : KAgree (m + 1) (addExpressionS R) (addExpressionS R') := by
  unfold addExpressionS; infer_instance
instance : KAgree m (addExpressionS R) (addExpressionS R') := kagree_addExpressionS.down
instance (priority := high) kagree_additiveExpressionS : KAgree (m + 1) (additiveExpressionS R) (additiveExpressionS R') := by
  unfold additiveExpressionS; infer_instance
instance : KAgree m (additiveExpressionS R) (additiveExpressionS R') := kagree_additiveExpressionS.down
instance (priority := high) kagree_opExpressionS : KAgree (m + 1) (opExpressionS R) (opExpressionS R') := by
  unfold opExpressionS; infer_instance
instance : KAgree m (opExpressionS R) (opExpressionS R') := kagree_opExpressionS.down
instance (priority := high) kagree_relationalExpressionS : KAgree (m + 1) (relationalExpressionS R) (relationalExpressionS R') := by
  unfold relationalExpressionS; infer_instance
instance : KAgree m (relationalExpressionS R) (relationalExpressionS R') := kagree_relationalExpressionS.down
instance (priority := high) kagree_conditionalAndExpressionS : KAgree (m + 1) (conditionalAndExpressionS R) (conditionalAndExpressionS R') := by
  unfold conditionalAndExpressionS; infer_instance
instance : KAgree m (conditionalAndExpressionS R) (conditionalAndExpressionS R') := kagree_conditionalAndExpressionS.down
instance (priority := high) kagree_expressionStep : KAgree (m + 1) (expressionStep R) (expressionStep R') := by
  unfold expressionStep; infer_instance
instance : KAgree m (expressionStep R) (expressionStep R') := kagree_expressionStep.down
instance (priority := high) kagree_constraintS : KAgree (m + 1) (constraintS R) (constraintS R') := by
  unfold constraintS; infer_instance
instance : KAgree m (constraintS R) (constraintS R') := kagree_constraintS.down
instance (priority := high) kagree_filterS : KAgree (m + 1) (filterS R) (filterS R') := by
  unfold filterS; infer_instance
instance : KAgree m (filterS R) (filterS R') := kagree_filterS.down
instance (priority := high) kagree_orderExpressionS : KAgree (m + 1) (orderExpressionS R) (orderExpressionS R') := by
  unfold orderExpressionS; infer_instance
instance : KAgree m (orderExpressionS R) (orderExpressionS R') := kagree_orderExpressionS.down
instance (priority := high) kagree_orderConditionS : KAgree (m + 1) (orderConditionS R) (orderConditionS R') := by
  unfold orderConditionS; infer_instance
instance : KAgree m (orderConditionS R) (orderConditionS R') := kagree_orderConditionS.down
instance (priority := high) kagree_groupConditionS : KAgree (m + 1) (groupConditionS R) (groupConditionS R') := by
  unfold groupConditionS; infer_instance
instance : KAgree m (groupConditionS R) (groupConditionS R') := kagree_groupConditionS.down
instance (priority := high) kagree_groupClauseS : KAgree (m + 1) (groupClauseS R) (groupClauseS R') := by
  unfold groupClauseS; infer_instance
instance : KAgree m (groupClauseS R) (groupClauseS R') := kagree_groupClauseS.down
instance (priority := high) kagree_orderClauseS : KAgree (m + 1) (orderClauseS R) (orderClauseS R') := by
  unfold orderClauseS; infer_instance
instance : KAgree m (orderClauseS R) (orderClauseS R') := kagree_orderClauseS.down
instance (priority := high) kagree_havingClauseS : KAgree (m + 1) (havingClauseS R) (havingClauseS R') := by
  unfold havingClauseS; infer_instance
instance : KAgree m (havingClauseS R) (havingClauseS R') := kagree_havingClauseS.down
instance (priority := high) kagree_solutionModifierS : KAgree (m + 1) (solutionModifierS R) (solutionModifierS R') := by
  unfold solutionModifierS; infer_instance
instance : KAgree m (solutionModifierS R) (solutionModifierS R') := kagree_solutionModifierS.down
instance : KAgree m (whereClauseS R) (whereClauseS R') := by unfold whereClauseS; infer_instance
instance (priority := high) kagree_varOrExpressionAsVarS : KAgree (m + 1) (varOrExpressionAsVarS R) (varOrExpressionAsVarS R') := by
  unfold varOrExpressionAsVarS; infer_instance
instance : KAgree m (varOrExpressionAsVarS R) (varOrExpressionAsVarS R') := kagree_varOrExpressionAsVarS.down
instance (priority := high) kagree_selectVarsS : KAgree (m + 1) (selectVarsS R) (selectVarsS R') := by
  unfold selectVarsS; infer_instance
instance : KAgree m (selectVarsS R) (selectVarsS R') := kagree_selectVarsS.down
instance (priority := high) kagree_selectClauseS : KAgree (m + 1) (selectClauseS R) (selectClauseS R') := by
  unfold selectClauseS; infer_instance
instance : KAgree m (selectClauseS R) (selectClauseS R') := kagree_selectClauseS.down
instance (priority := high) kagree_subSelectS : KAgree (m + 1) (subSelectS R) (subSelectS R') := by
  unfold subSelectS; infer_instance
instance : KAgree m (subSelectS R) (subSelectS R') := kagree_subSelectS.down
instance : KAgree m (groupOrUnionGraphPatternS R) (groupOrUnionGraphPatternS R') := by unfold groupOrUnionGraphPatternS; infer_instance
instance (priority := high) kagree_optionalGroupGraphPatternS : KAgree (m + 1) (optionalGroupGraphPatternS R) (optionalGroupGraphPatternS R') := by
  unfold optionalGroupGraphPatternS; infer_instance
instance : KAgree m (optionalGroupGraphPatternS R) (optionalGroupGraphPatternS R') := kagree_optionalGroupGraphPatternS.down
instance (priority := high) kagree_minusGraphPatternS : KAgree (m + 1) (minusGraphPatternS R) (minusGraphPatternS R') := by
  unfold minusGraphPatternS; infer_instance
instance : KAgree m (minusGraphPatternS R) (minusGraphPatternS R') := kagree_minusGraphPatternS.down
instance (priority := high) kagree_graphGraphPatternS : KAgree (m + 1) (graphGraphPatternS R) (graphGraphPatternS R') := by
  unfold graphGraphPatternS; infer_instance
instance : KAgree m (graphGraphPatternS R) (graphGraphPatternS R') := kagree_graphGraphPatternS.down
instance (priority := high) kagree_serviceGraphPatternS : KAgree (m + 1) (serviceGraphPatternS R) (serviceGraphPatternS R') := by
  unfold serviceGraphPatternS; infer_instance
instance : KAgree m (serviceGraphPatternS R) (serviceGraphPatternS R') := kagree_serviceGraphPatternS.down
instance : KAgree m (graphPatternNotTriplesS R) (graphPatternNotTriplesS R') := by unfold graphPatternNotTriplesS; infer_instance
instance : KAgree m (groupGraphPatternAndTriplesS R) (groupGraphPatternAndTriplesS R') := by unfold groupGraphPatternAndTriplesS; infer_instance
instance : KAgree m (groupGraphPatternSubS R) (groupGraphPatternSubS R') := by unfold groupGraphPatternSubS; infer_instance
instance (priority := high) kagree_groupGraphPatternStep : KAgree (m + 1) (groupGraphPatternStep R) (groupGraphPatternStep R') := by
  unfold groupGraphPatternStep; infer_instance
instance : KAgree m (groupGraphPatternStep R) (groupGraphPatternStep R') := kagree_groupGraphPatternStep.down

end

section
variable {F : Nat → Nat} [Dbl F] {R : Rec} [KRecGood R] [RecB F R]

def bd_brackettedExpr3S : {w : Nat // ∀ {F : Nat → Nat} [Dbl F] {R : Rec} [KRecGood R] [RecB F R], Bd (sh F) w (brackettedExpr3S R)} :=
  ⟨_, fun {_ _ _ _ _} => by unfold brackettedExpr3S; infer_instance⟩
instance (priority := high) : Bd (sh F) bd_brackettedExpr3S.1 (brackettedExpr3S R) := bd_brackettedExpr3S.2
instance : Bd F bd_brackettedExpr3S.1 (brackettedExpr3S R) := Bd.up bd_brackettedExpr3S.2
def bd_expressionAsVarOptS : {w : Nat // ∀ {F : Nat → Nat} [Dbl F] {R : Rec} [KRecGood R] [RecB F R], Bd (sh F) w (expressionAsVarOptS R)} :=
  ⟨_, fun {_ _ _ _ _} => by unfold expressionAsVarOptS; infer_instance⟩
instance (priority := high) : Bd (sh F) bd_expressionAsVarOptS.1 (expressionAsVarOptS R) := bd_expressionAsVarOptS.2
instance : Bd F bd_expressionAsVarOptS.1 (expressionAsVarOptS R) := Bd.up bd_expressionAsVarOptS.2
def bd_expressionAsVarS : {w : Nat // ∀ {F : Nat → Nat} [Dbl F] {R : Rec} [KRecGood R] [RecB F R], Bd (sh F) w (expressionAsVarS R)} :=
  ⟨_, fun {_ _ _ _ _} => by unfold expressionAsVarS; infer_instance⟩
instance (priority := high) : Bd (sh F) bd_expressionAsVarS.1 (expressionAsVarS R) := bd_expressionAsVarS.2
instance : Bd F bd_expressionAsVarS.1 (expressionAsVarS R) := Bd.up bd_expressionAsVarS.2
def bd_expressionListS : {w : Nat // ∀ {F : Nat → Nat} [Dbl F] {R : Rec} [KRecGood R] [RecB F R], Bd (sh F) w (expressionListS R)} :=
  ⟨_, fun {_ _ _ _ _} => by unfold expressionListS; infer_instance⟩
instance (priority := high) : Bd (sh F) bd_expressionListS.1 (expressionListS R) := bd_expressionListS.2
instance : Bd F bd_expressionListS.1 (expressionListS R) := Bd.up bd_expressionListS.2
def bd_brackettedExpressionS : {w : Nat // ∀ {F : Nat → Nat} [Dbl F] {R : Rec} [KRecGood R] [RecB F R], Bd (sh F) w (brackettedExpressionS R)} :=
  ⟨_, fun {_ _ _ _ _} => by unfold brackettedExpressionS; infer_instance⟩
instance (priority := high) : Bd (sh F) bd_brackettedExpressionS.1 (brackettedExpressionS R) := bd_brackettedExpressionS.2
instance : Bd F bd_brackettedExpressionS.1 (brackettedExpressionS R) := Bd.up bd_brackettedExpressionS.2
def bd_bindS : {w : Nat // ∀ {F : Nat → Nat} [Dbl F] {R : Rec} [KRecGood R] [RecB F R], Bd (sh F) w (bindS R)} :=
  ⟨_, fun {_ _ _ _ _} => by unfold bindS; infer_instance⟩
instance (priority := high) : Bd (sh F) bd_bindS.1 (bindS R) := bd_bindS.2
instance : Bd F bd_bindS.1 (bindS R) := Bd.up bd_bindS.2
def bd_regexExpressionS : {w : Nat // ∀ {F : Nat → Nat} [Dbl F] {R : Rec} [KRecGood R] [RecB F R], Bd (sh F) w (regexExpressionS R)} :=
  ⟨_, fun {_ _ _ _ _} => by unfold regexExpressionS; infer_instance⟩
instance (priority := high) : Bd (sh F) bd_regexExpressionS.1 (regexExpressionS R) := bd_regexExpressionS.2
instance : Bd F bd_regexExpressionS.1 (regexExpressionS R) := Bd.up bd_regexExpressionS.2
def bd_substringExpressionS : {w : Nat // ∀ {F : Nat → Nat} [Dbl F] {R : Rec} [KRecGood R] [RecB F R], Bd (sh F) w (substringExpressionS R)} :=
  ⟨_, fun {_ _ _ _ _} => by unfold substringExpressionS; infer_instance⟩
instance (priority := high) : Bd (sh F) bd_substringExpressionS.1 (substringExpressionS R) := bd_substringExpressionS.2
instance : Bd F bd_substringExpressionS.1 (substringExpressionS R) := Bd.up bd_substringExpressionS.2
def bd_strReplaceExpressionS : {w : Nat // ∀ {F : Nat → Nat} [Dbl F] {R : Rec} [KRecGood R] [RecB F R], Bd (sh F) w (strReplaceExpressionS R)} :=
  ⟨_, fun {_ _ _ _ _} => by unfold strReplaceExpressionS; infer_instance⟩
instance (priority := high) : Bd (sh F) bd_strReplaceExpressionS.1 (strReplaceExpressionS R) := bd_strReplaceExpressionS.2
instance : Bd F bd_strReplaceExpressionS.1 (strReplaceExpressionS R) := Bd.up bd_strReplaceExpressionS.2
def bd_argListS : {w : Nat // ∀ {F : Nat → Nat} [Dbl F] {R : Rec} [KRecGood R] [RecB F R], Bd (sh F) w (argListS R)} :=
  ⟨_, fun {_ _ _ _ _} => by unfold argListS; infer_instance⟩
instance (priority := high) : Bd (sh F) bd_argListS.1 (argListS R) := bd_argListS.2
instance : Bd F bd_argListS.1 (argListS R) := Bd.up bd_argListS.2
def bd_functionCallS : {w : Nat // ∀ {F : Nat → Nat} [Dbl F] {R : Rec} [KRecGood R] [RecB F R], Bd (sh F) w (functionCallS R)} :=
  ⟨_, fun {_ _ _ _ _} => by unfold functionCallS; infer_instance⟩
instance (priority := high) : Bd (sh F) bd_functionCallS.1 (functionCallS R) := bd_functionCallS.2
instance : Bd F bd_functionCallS.1 (functionCallS R) := Bd.up bd_functionCallS.2
def bd_iriOrFunS : {w : Nat // ∀ {F : Nat → Nat} [Dbl F] {R : Rec} [KRecGood R] [RecB F R], Bd (sh F) w (iriOrFunS R)} :=
  ⟨_, fun {_ _ _ _ _} => by unfold iriOrFunS; infer_instance⟩
instance (priority := high) : Bd (sh F) bd_iriOrFunS.1 (iriOrFunS R) := bd_iriOrFunS.2
instance : Bd F bd_iriOrFunS.1 (iriOrFunS R) := Bd.up bd_iriOrFunS.2
def bd_distinctExpressionS : {w : Nat // ∀ {F : Nat → Nat} [Dbl F] {R : Rec} [KRecGood R] [RecB F R], Bd F w (distinctExpressionS R)} :=
  ⟨_, fun {_ _ _ _ _} => by unfold distinctExpressionS; infer_instance⟩
instance : Bd F bd_distinctExpressionS.1 (distinctExpressionS R) := bd_distinctExpressionS.2
def bd_countTargetS : {w : Nat // ∀ {F : Nat → Nat} [Dbl F] {R : Rec} [KRecGood R] [RecB F R], Bd F w (countTargetS R)} :=
  ⟨_, fun {_ _ _ _ _} => by unfold countTargetS; infer_instance⟩
instance : Bd F bd_countTargetS.1 (countTargetS R) := bd_countTargetS.2
def bd_exprPairS : {w : Nat // ∀ {F : Nat → Nat} [Dbl F] {R : Rec} [KRecGood R] [RecB F R], Bd F w (exprPairS R)} :=
  ⟨_, fun {_ _ _ _ _} => by unfold exprPairS; infer_instance⟩
instance : Bd F bd_exprPairS.1 (exprPairS R) := bd_exprPairS.2
def bd_countS : {w : Nat // ∀ {F : Nat → Nat} [Dbl F] {R : Rec} [KRecGood R] [RecB F R], Bd (sh F) w (countS R)} :=
  ⟨_, fun {_ _ _ _ _} => by unfold countS; infer_instance⟩
instance (priority := high) : Bd (sh F) bd_countS.1 (countS R) := bd_countS.2
instance : Bd F bd_countS.1 (countS R) := Bd.up bd_countS.2
def bd_groupConcatS : {w : Nat // ∀ {F : Nat → Nat} [Dbl F] {R : Rec} [KRecGood R] [RecB F R], Bd (sh F) w (groupConcatS R)} :=
  ⟨_, fun {_ _ _ _ _} => by unfold groupConcatS; infer_instance⟩
instance (priority := high) : Bd (sh F) bd_groupConcatS.1 (groupConcatS R) := bd_groupConcatS.2
instance : Bd F bd_groupConcatS.1 (groupConcatS R) := Bd.up bd_groupConcatS.2
def bd_aggregateS : {w : Nat // ∀ {F : Nat → Nat} [Dbl F] {R : Rec} [KRecGood R] [RecB F R], Bd (sh F) w (aggregateS R)} :=
  ⟨_, fun {_ _ _ _ _} => by unfold aggregateS; infer_instance⟩
instance (priority := high) : Bd (sh F) bd_aggregateS.1 (aggregateS R) := bd_aggregateS.2
instance : Bd F bd_aggregateS.1 (aggregateS R) := Bd.up bd_aggregateS.2
def bd_builtInCall1S : {w : Nat // ∀ {F : Nat → Nat} [Dbl F] {R : Rec} [KRecGood R] [RecB F R], Bd (sh F) w (builtInCall1S R)} :=
  ⟨_, fun {_ _ _ _ _} => by unfold builtInCall1S; infer_instance⟩
instance (priority := high) : Bd (sh F) bd_builtInCall1S.1 (builtInCall1S R) := bd_builtInCall1S.2
instance : Bd F bd_builtInCall1S.1 (builtInCall1S R) := Bd.up bd_builtInCall1S.2
def bd_builtInCall2S : {w : Nat // ∀ {F : Nat → Nat} [Dbl F] {R : Rec} [KRecGood R] [RecB F R], Bd (sh F) w (builtInCall2S R)} :=
  ⟨_, fun {_ _ _ _ _} => by unfold builtInCall2S; infer_instance⟩
instance (priority := high) : Bd (sh F) bd_builtInCall2S.1 (builtInCall2S R) := bd_builtInCall2S.2
instance : Bd F bd_builtInCall2S.1 (builtInCall2S R) := Bd.up bd_builtInCall2S.2
def bd_builtInCallS : {w : Nat // ∀ {F : Nat → Nat} [Dbl F] {R : Rec} [KRecGood R] [RecB F R], Bd (sh F) w (builtInCallS R)} :=
  ⟨_, fun {_ _ _ _ _} => by unfold builtInCallS; infer_instance⟩
instance (priority := high) : Bd (sh F) bd_builtInCallS.1 (builtInCallS R) := bd_builtInCallS.2
instance : Bd F bd_builtInCallS.1 (builtInCallS R) := Bd.up bd_builtInCallS.2
def bd_primaryExpressionS : {w : Nat // ∀ {F : Nat → Nat} [Dbl F] {R : Rec} [KRecGood R] [RecB F R], Bd (sh F) w (primaryExpressionS R)} :=
  ⟨_, fun {_ _ _ _ _} => by unfold primaryExpressionS; infer_instance⟩
instance (priority := high) : Bd (sh F) bd_primaryExpressionS.1 (primaryExpressionS R) := bd_primaryExpressionS.2
instance : Bd F bd_primaryExpressionS.1 (primaryExpressionS R) := Bd.up bd_primaryExpressionS.2
def bd_unaryExpressionS : {w : Nat // ∀ {F : Nat → Nat} [Dbl F] {R : Rec} [KRecGood R] [RecB F R], Bd (sh F) w (unaryExpressionS R)} :=
  ⟨_, fun {_ _ _ _ _} => by unfold unaryExpressionS; infer_instance⟩
instance (priority := high) : Bd (sh F) bd_unaryExpressionS.1 (unaryExpressionS R) := bd_unaryExpressionS.2
instance : Bd F bd_unaryExpressionS.1 (unaryExpressionS R) := Bd.up bd_unaryExpressionS.2
def bd_multExpressionS : {w : Nat // ∀ {F : Nat → Nat} [Dbl F] {R : Rec} [KRecGood R] [RecB F R], Bd (sh F) w (multExpressionS R)} :=
  ⟨_, fun {_ _ _ _ _} => by unfold multExpressionS; infer_instance⟩
instance (priority := high) : Bd (sh F) bd_multExpressionS.1 (multExpressionS R) := bd_multExpressionS.2
instance : Bd F bd_multExpressionS.1 (multExpressionS R) := Bd.up bd_multExpressionS.2
def bd_multiplicativeExpressionS : {w : Nat // ∀ {F : Nat → Nat} [Dbl F] {R : Rec} [KRecGood R] [RecB F R], Bd (sh F) w (multiplicativeExpressionS R)} :=
  ⟨_, fun {_ _ _ _ _} => by unfold multiplicativeExpressionS; infer_instance⟩
instance (priority := high) : Bd (sh F) bd_multiplicativeExpressionS.1 (multiplicativeExpressionS R) := bd_multiplicativeExpressionS.2
instance : Bd F bd_multiplicativeExpressionS.1 (multiplicativeExpressionS R) := Bd.up bd_multiplicativeExpressionS.2
def bd_addExpressionS : {w : Nat // ∀ {F : Nat → Nat} [Dbl F] {R : Rec} [KRecGood R] [RecB F R], Bd (sh F) w (addExpressionS R)} :=
  ⟨_, fun {_ _ _ _ _} => by unfold addExpressionS; infer_instance⟩
instance (priority := high) : Bd (sh F) bd_addExpressionS.1 (addExpressionS R) := bd_addExpressionS.2
instance : Bd F bd_addExpressionS.1 (addExpressionS R) := Bd.up bd_addExpressionS.2
def bd_additiveExpressionS : {w : Nat // ∀ {F : Nat → Nat} [Dbl F] {R : Rec} [KRecGood R] [RecB F R], Bd (sh F) w (additiveExpressionS R)} :=
  ⟨_, fun {_ _ _ _ _} => by unfold additiveExpressionS; infer_instance⟩
instance (priority := high) : Bd (sh F) bd_additiveExpressionS.1 (additiveExpressionS R) := bd_additiveExpressionS.2
instance : Bd F bd_additiveExpressionS.1 (additiveExpressionS R) := Bd.up bd_additiveExpressionS.2
def bd_opExpressionS : {w : Nat // ∀ {F : Nat → Nat} [Dbl F] {R : Rec} [KRecGood R] [RecB F R], Bd (sh F) w (opExpressionS R)} :=
  ⟨_, fun {_ _ _ _ _} => by unfold opExpressionS; infer_instance⟩
instance (priority := high) : Bd (sh F) bd_opExpressionS.1 (opExpressionS R) := bd_opExpressionS.2
instance : Bd F bd_opExpressionS.1 (opExpressionS R) := Bd.up bd_opExpressionS.2
def bd_relationalExpressionS : {w : Nat // ∀ {F : Nat → Nat} [Dbl F] {R : Rec} [KRecGood R] [RecB F R], Bd (sh F) w (relationalExpressionS R)} :=
  ⟨_, fun {_ _ _ _ _} => by unfold relationalExpressionS; infer_instance⟩
instance (priority := high) : Bd (sh F) bd_relationalExpressionS.1 (relationalExpressionS R) := bd_relationalExpressionS.2
instance : Bd F bd_relationalExpressionS.1 (relationalExpressionS R) := Bd.up bd_relationalExpressionS.2
def bd_conditionalAndExpressionS : {w : Nat // ∀ {F : Nat → Nat} [Dbl F] {R : Rec} [KRecGood R] [RecB F R], Bd (sh F) w (conditionalAndExpressionS R)} :=
  ⟨_, fun {_ _ _ _ _} => by unfold conditionalAndExpressionS; infer_instance⟩
instance (priority := high) : Bd (sh F) bd_conditionalAndExpressionS.1 (conditionalAndExpressionS R) := bd_conditionalAndExpressionS.2
instance : Bd F bd_conditionalAndExpressionS.1 (conditionalAndExpressionS R) := Bd.up bd_conditionalAndExpressionS.2
def bd_expressionStep : {w : Nat // ∀ {F : Nat → Nat} [Dbl F] {R : Rec} [KRecGood R] [RecB F R], Bd (sh F) w (expressionStep R)} :=
  ⟨_, fun {_ _ _ _ _} => by unfold expressionStep; infer_instance⟩
instance (priority := high) : Bd (sh F) bd_expressionStep.1 (expressionStep R) := bd_expressionStep.2
instance : Bd F bd_expressionStep.1 (expressionStep R) := Bd.up bd_expressionStep.2
def bd_constraintS : {w : Nat // ∀ {F : Nat → Nat} [Dbl F] {R : Rec} [KRecGood R] [RecB F R], Bd (sh F) w (constraintS R)} :=
  ⟨_, fun {_ _ _ _ _} => by unfold constraintS; infer_instance⟩
instance (priority := high) : Bd (sh F) bd_constraintS.1 (constraintS R) := bd_constraintS.2
instance : Bd F bd_constraintS.1 (constraintS R) := Bd.up bd_constraintS.2
def bd_filterS : {w : Nat // ∀ {F : Nat → Nat} [Dbl F] {R : Rec} [KRecGood R] [RecB F R], Bd (sh F) w (filterS R)} :=
  ⟨_, fun {_ _ _ _ _} => by unfold filterS; infer_instance⟩
instance (priority := high) : Bd (sh F) bd_filterS.1 (filterS R) := bd_filterS.2
instance : Bd F bd_filterS.1 (filterS R) := Bd.up bd_filterS.2
def bd_orderExpressionS : {w : Nat // ∀ {F : Nat → Nat} [Dbl F] {R : Rec} [KRecGood R] [RecB F R], Bd (sh F) w (orderExpressionS R)} :=
  ⟨_, fun {_ _ _ _ _} => by unfold orderExpressionS; infer_instance⟩
instance (priority := high) : Bd (sh F) bd_orderExpressionS.1 (orderExpressionS R) := bd_orderExpressionS.2
instance : Bd F bd_orderExpressionS.1 (orderExpressionS R) := Bd.up bd_orderExpressionS.2
def bd_orderConditionS : {w : Nat // ∀ {F : Nat → Nat} [Dbl F] {R : Rec} [KRecGood R] [RecB F R], Bd (sh F) w (orderConditionS R)} :=
  ⟨_, fun {_ _ _ _ _} => by unfold orderConditionS; infer_instance⟩
instance (priority := high) : Bd (sh F) bd_orderConditionS.1 (orderConditionS R) := bd_orderConditionS.2
instance : Bd F bd_orderConditionS.1 (orderConditionS R) := Bd.up bd_orderConditionS.2
def bd_groupConditionS : {w : Nat // ∀ {F : Nat → Nat} [Dbl F] {R : Rec} [KRecGood R] [RecB F R], Bd (sh F) w (groupConditionS R)} :=
  ⟨_, fun {_ _ _ _ _} => by unfold groupConditionS; infer_instance⟩
instance (priority := high) : Bd (sh F) bd_groupConditionS.1 (groupConditionS R) := bd_groupConditionS.2
instance : Bd F bd_groupConditionS.1 (groupConditionS R) := Bd.up bd_groupConditionS.2
def bd_groupClauseS : {w : Nat // ∀ {F : Nat → Nat} [Dbl F] {R : Rec} [KRecGood R] [RecB F R], Bd (sh F) w (groupClauseS R)} :=
  ⟨_, fun {_ _ _ _ _} => by unfold groupClauseS; infer_instance⟩
instance (priority := high) : Bd (sh F) bd_groupClauseS.1 (groupClauseS R) := bd_groupClauseS.2
instance : Bd F bd_groupClauseS.1 (groupClauseS R) := Bd.up bd_groupClauseS.2
def bd_orderClauseS : {w : Nat // ∀ {F : Nat → Nat} [Dbl F] {R : Rec} [KRecGood R] [RecB F R], Bd (sh F) w (orderClauseS R)} :=
  ⟨_, fun {_ _ _ _ _} => by unfold orderClauseS; infer_instance⟩
instance (priority := high) : Bd (sh F) bd_orderClauseS.1 (orderClauseS R) := bd_orderClauseS.2
instance : Bd F bd_orderClauseS.1 (orderClauseS R) := Bd.up bd_orderClauseS.2
def bd_havingClauseS : {w : Nat // ∀ {F : Nat → Nat} [Dbl F] {R : Rec} [KRecGood R] [RecB F R], Bd (sh F) w (havingClauseS R)} :=
  ⟨_, fun {_ _ _ _ _} => by unfold havingClauseS; infer_instance⟩
instance (priority := high) : Bd (sh F) bd_havingClauseS.1 (havingClauseS R) := bd_havingClauseS.2
instance : Bd F bd_havingClauseS.1 (havingClauseS R) := Bd.up bd_havingClauseS.2
def bd_solutionModifierS : {w : Nat // ∀ {F : Nat → Nat} [Dbl F] {R : Rec} [KRecGood R] [RecB F R], Bd (sh F) w (solutionModifierS R)} :=
  ⟨_, fun {_ _ _ _ _} => by unfold solutionModifierS; infer_instance⟩
instance (priority := high) : Bd (sh F) bd_solutionModifierS.1 (solutionModifierS R) := bd_solutionModifierS.2
instance : Bd F bd_solutionModifierS.1 (solutionModifierS R) := Bd.up bd_solutionModifierS.2
def bd_whereClauseS : {w : Nat // ∀ {F : Nat → Nat} [Dbl F] {R : Rec} [KRecGood R] [RecB F R], Bd F w (whereClauseS R)} :=
  ⟨_, fun {_ _ _ _ _} => by unfold whereClauseS; infer_instance⟩
instance : Bd F bd_whereClauseS.1 (whereClauseS R) := bd_whereClauseS.2
def bd_varOrExpressionAsVarS : {w : Nat // ∀ {F : Nat → Nat} [Dbl F] {R : Rec} [KRecGood R] [RecB F R], Bd (sh F) w (varOrExpressionAsVarS R)} :=
  ⟨_, fun {_ _ _ _ _} => by unfold varOrExpressionAsVarS; infer_instance⟩
instance (priority := high) : Bd (sh F) bd_varOrExpressionAsVarS.1 (varOrExpressionAsVarS R) := bd_varOrExpressionAsVarS.2
instance : Bd F bd_varOrExpressionAsVarS.1 (varOrExpressionAsVarS R) := Bd.up bd_varOrExpressionAsVarS.2
def bd_selectVarsS : {w : Nat // ∀ {F : Nat → Nat} [Dbl F] {R : Rec} [KRecGood R] [RecB F R], Bd (sh F) w (selectVarsS R)} :=
  ⟨_, fun {_ _ _ _ _} => by unfold selectVarsS; infer_instance⟩
instance (priority := high) : Bd (sh F) bd_selectVarsS.1 (selectVarsS R) := bd_selectVarsS.2
instance : Bd F bd_selectVarsS.1 (selectVarsS R) := Bd.up bd_selectVarsS.2
def bd_selectClauseS : {w : Nat // ∀ {F : Nat → Nat} [Dbl F] {R : Rec} [KRecGood R] [RecB F R], Bd (sh F) w (selectClauseS R)} :=
  ⟨_, fun {_ _ _ _ _} => by unfold selectClauseS; infer_instance⟩
instance (priority := high) : Bd (sh F) bd_selectClauseS.1 (selectClauseS R) := bd_selectClauseS.2
instance : Bd F bd_selectClauseS.1 (selectClauseS R) := Bd.up bd_selectClauseS.2
def bd_subSelectS : {w : Nat // ∀ {F : Nat → Nat} [Dbl F] {R : Rec} [KRecGood R] [RecB F R], Bd (sh F) w (subSelectS R)} :=
  ⟨_, fun {_ _ _ _ _} => by unfold subSelectS; infer_instance⟩
instance (priority := high) : Bd (sh F) bd_subSelectS.1 (subSelectS R) := bd_subSelectS.2
instance : Bd F bd_subSelectS.1 (subSelectS R) := Bd.up bd_subSelectS.2
def bd_groupOrUnionGraphPatternS : {w : Nat // ∀ {F : Nat → Nat} [Dbl F] {R : Rec} [KRecGood R] [RecB F R], Bd F w (groupOrUnionGraphPatternS R)} :=
  ⟨_, fun {_ _ _ _ _} => by unfold groupOrUnionGraphPatternS; infer_instance⟩
instance : Bd F bd_groupOrUnionGraphPatternS.1 (groupOrUnionGraphPatternS R) := bd_groupOrUnionGraphPatternS.2
def bd_optionalGroupGraphPatternS : {w : Nat // ∀ {F : Nat → Nat} [Dbl F] {R : Rec} [KRecGood R] [RecB F R], Bd (sh F) w (optionalGroupGraphPatternS R)} :=
  ⟨_, fun {_ _ _ _ _} => by unfold optionalGroupGraphPatternS; infer_instance⟩
instance (priority := high) : Bd (sh F) bd_optionalGroupGraphPatternS.1 (optionalGroupGraphPatternS R) := bd_optionalGroupGraphPatternS.2
instance : Bd F bd_optionalGroupGraphPatternS.1 (optionalGroupGraphPatternS R) := Bd.up bd_optionalGroupGraphPatternS.2
def bd_minusGraphPatternS : {w : Nat // ∀ {F : Nat → Nat} [Dbl F] {R : Rec} [KRecGood R] [RecB F R], Bd (sh F) w (minusGraphPatternS R)} :=
  ⟨_, fun {_ _ _ _ _} => by unfold minusGraphPatternS; infer_instance⟩
instance (priority := high) : Bd (sh F) bd_minusGraphPatternS.1 (minusGraphPatternS R) := bd_minusGraphPatternS.2
instance : Bd F bd_minusGraphPatternS.1 (minusGraphPatternS R) := Bd.up bd_minusGraphPatternS.2
def bd_graphGraphPatternS : {w : Nat // ∀ {F : Nat → Nat} [Dbl F] {R : Rec} [KRecGood R] [RecB F R], Bd (sh F) w (graphGraphPatternS R)} :=
  ⟨_, fun {_ _ _ _ _} => by unfold graphGraphPatternS; infer_instance⟩
instance (priority := high) : Bd (sh F) bd_graphGraphPatternS.1 (graphGraphPatternS R) := bd_graphGraphPatternS.2
instance : Bd F bd_graphGraphPatternS.1 (graphGraphPatternS R) := Bd.up bd_graphGraphPatternS.2
def bd_serviceGraphPatternS : {w : Nat // ∀ {F : Nat → Nat} [Dbl F] {R : Rec} [KRecGood R] [RecB F R], Bd (sh F) w (serviceGraphPatternS R)} :=
  ⟨_, fun {_ _ _ _ _} => by unfold serviceGraphPatternS; infer_instance⟩
instance (priority := high) : Bd (sh F) bd_serviceGraphPatternS.1 (serviceGraphPatternS R) := bd_serviceGraphPatternS.2
instance : Bd F bd_serviceGraphPatternS.1 (serviceGraphPatternS R) := Bd.up bd_serviceGraphPatternS.2
def bd_graphPatternNotTriplesS : {w : Nat // ∀ {F : Nat → Nat} [Dbl F] {R : Rec} [KRecGood R] [RecB F R], Bd F w (graphPatternNotTriplesS R)} :=
  ⟨_, fun {_ _ _ _ _} => by unfold graphPatternNotTriplesS; infer_instance⟩
instance : Bd F bd_graphPatternNotTriplesS.1 (graphPatternNotTriplesS R) := bd_graphPatternNotTriplesS.2
def bd_groupGraphPatternAndTriplesS : {w : Nat // ∀ {F : Nat → Nat} [Dbl F] {R : Rec} [KRecGood R] [RecB F R], Bd F w (groupGraphPatternAndTriplesS R)} :=
  ⟨_, fun {_ _ _ _ _} => by unfold groupGraphPatternAndTriplesS; infer_instance⟩
instance : Bd F bd_groupGraphPatternAndTriplesS.1 (groupGraphPatternAndTriplesS R) := bd_groupGraphPatternAndTriplesS.2
def bd_groupGraphPatternSubS : {w : Nat // ∀ {F : Nat → Nat} [Dbl F] {R : Rec} [KRecGood R] [RecB F R], Bd F w (groupGraphPatternSubS R)} :=
  ⟨_, fun {_ _ _ _ _} => by unfold groupGraphPatternSubS; infer_instance⟩
instance : Bd F bd_groupGraphPatternSubS.1 (groupGraphPatternSubS R) := bd_groupGraphPatternSubS.2
def bd_groupGraphPatternStep : {w : Nat // ∀ {F : Nat → Nat} [Dbl F] {R : Rec} [KRecGood R] [RecB F R], Bd (sh F) w (groupGraphPatternStep R)} :=
  ⟨_, fun {_ _ _ _ _} => by unfold groupGraphPatternStep; infer_instance⟩
instance (priority := high) : Bd (sh F) bd_groupGraphPatternStep.1 (groupGraphPatternStep R) := bd_groupGraphPatternStep.2
instance : Bd F bd_groupGraphPatternStep.1 (groupGraphPatternStep R) := Bd.up bd_groupGraphPatternStep.2

end

/-! ## The recursive parsers -/

theorem erase_recF_expr (n : Nat) : erase (recF n).expr = (NomSparql.recF n).expr := funext fun i => expr_recF n i
theorem erase_recF_ggp (n : Nat) : erase (recF n).ggp = (NomSparql.recF n).ggp := funext fun i => ggp_recF n i

instance krecF_good (n : Nat) : KRecGood (recF n) where
  expr := ⟨by rw [erase_recF_expr]; infer_instance⟩
  ggp := ⟨by rw [erase_recF_ggp]; infer_instance⟩

instance : KGood expression := ⟨by rw [erase_expression]; infer_instance⟩
instance : KGood groupGraphPattern := ⟨by rw [erase_groupGraphPattern]; infer_instance⟩
instance : KRecGood R₀ := ⟨inferInstanceAs (KGood expression), inferInstanceAs (KGood groupGraphPattern)⟩

theorem tick_agree {m : Nat} {p p' : K α} (h : KAgree m p p') : KAgree m (tick p) (tick p') :=
  ⟨h.res, fun i hi => congrArg (· + 1) (h.cost i hi)⟩

theorem krecF_agree : ∀ n k, KRecAgree n (recF n) (recF (n + k))
  | 0, _ => ⟨⟨⟨fun _ h => by omega⟩, fun _ h => by omega⟩, ⟨⟨fun _ h => by omega⟩, fun _ h => by omega⟩⟩
  | n + 1, k => by
    have := krecF_agree n k
    rw [Nat.add_right_comm]
    exact ⟨tick_agree (kagree_expressionStep (R := recF n) (R' := recF (n + k))),
      tick_agree (kagree_groupGraphPatternStep (R := recF n) (R' := recF (n + k)))⟩

theorem krecF_agree_closed (n : Nat) : KRecAgree n (recF n) R₀ where
  expr := {
    res := by
      show Agree n (erase (recF n).expr) (erase expression)
      rw [erase_recF_expr, erase_expression]
      exact (recF_agree_closed n).expr
    cost i hi := by
      have h := (krecF_agree (i.length + 1) (n - (i.length + 1))).expr.cost i (by omega)
      rw [show i.length + 1 + (n - (i.length + 1)) = n by omega] at h
      exact h.symm }
  ggp := {
    res := by
      show Agree n (erase (recF n).ggp) (erase groupGraphPattern)
      rw [erase_recF_ggp, erase_groupGraphPattern]
      exact (recF_agree_closed n).ggp
    cost i hi := by
      have h := (krecF_agree (i.length + 1) (n - (i.length + 1))).ggp.cost i (by omega)
      rw [show i.length + 1 + (n - (i.length + 1)) = n by omega] at h
      exact h.symm }

/-- A call of `expression` counts one and then what its body counts. -/
theorem expression_cost (i : Input) : (expression i).2 = (expressionStep R₀ i).2 + 1 := by
  have := krecF_agree_closed i.length
  exact congrArg (· + 1) ((kagree_expressionStep (m := i.length) (R := recF i.length) (R' := R₀)).cost i (by omega))

/-- A call of `group_graph_pattern` counts one and then what its body counts. -/
theorem groupGraphPattern_cost (i : Input) : (groupGraphPattern i).2 = (groupGraphPatternStep R₀ i).2 + 1 := by
  have := krecF_agree_closed i.length
  exact congrArg (· + 1) ((kagree_groupGraphPatternStep (m := i.length) (R := recF i.length) (R' := R₀)).cost i (by omega))

/-! ## The upper bound -/

/-- Calls of the recursive parsers in one body, weighted. -/
def weight : Nat := bd_expressionStep.1 + bd_groupGraphPatternStep.1

def bound (n : Nat) : Nat := (weight + 2) ^ n

instance : Dbl bound where
  out n := by
    unfold bound
    rw [Nat.pow_succ, Nat.mul_comm]
    exact Nat.mul_le_mul_left _ (by omega)

theorem bound_step {w : Nat} (hw : w ≤ weight) {p : K α} (h : Bd (sh bound) w p) : Bd bound 1 (tick p) where
  out i := by
    have h1 := h.out i
    have h2 : w * sh bound i.length + 1 ≤ bound i.length := by
      cases i.length with
      | zero => simp [sh, bound]
      | succ n =>
        have h3 := Nat.mul_le_mul_right (bound n) hw
        have h4 : 0 < bound n := Nat.pow_pos (by omega)
        have h5 : bound (n + 1) = weight * bound n + 2 * bound n := by
          unfold bound
          rw [Nat.pow_succ, Nat.mul_comm, Nat.add_mul]
        show w * bound n + 1 ≤ _
        omega
    show (p i).2 + 1 ≤ _
    omega

instance recF_bound : ∀ n, RecB bound (recF n)
  | 0 => ⟨⟨fun _ => Nat.zero_le _⟩, ⟨fun _ => Nat.zero_le _⟩⟩
  | n + 1 => by
    have := recF_bound n
    exact ⟨bound_step (Nat.le_add_right _ _) (bd_expressionStep.2 (R := recF n)),
      bound_step (Nat.le_add_left _ _) (bd_groupGraphPatternStep.2 (R := recF n))⟩

instance : RecB bound R₀ := ⟨⟨fun i => (recF_bound (i.length + 1)).expr.out i⟩, ⟨fun i => (recF_bound (i.length + 1)).ggp.out i⟩⟩

instance : KGood selectClause := inferInstanceAs (KGood (selectClauseS R₀))
instance : KGood whereClause := inferInstanceAs (KGood (whereClauseS R₀))
instance : KGood solutionModifier := inferInstanceAs (KGood (solutionModifierS R₀))
instance : Bd bound bd_selectClauseS.1 selectClause := inferInstanceAs (Bd bound _ (selectClauseS R₀))
instance : Bd bound bd_whereClauseS.1 whereClause := inferInstanceAs (Bd bound _ (whereClauseS R₀))
instance : Bd bound bd_solutionModifierS.1 solutionModifier := inferInstanceAs (Bd bound _ (solutionModifierS R₀))

def bd_sparqlQueryStmt : {w : Nat // Bd bound w sparqlQueryStmt} := ⟨_, by
  unfold sparqlQueryStmt sparqlQuery selectQuery constructQuery describeQuery askQuery subConstruct subTriples; infer_instance⟩


end NomSparql.Cost

