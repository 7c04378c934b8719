import Verif.Model.Cost
import Verif.Props.C01_C04

/-!
# Counting calls: the results are those of the model
-/

namespace NomSparql.Cost

def eraseR (R : Rec) : NomSparql.Rec := ⟨erase R.expr, erase R.ggp⟩

@[simp] theorem erase_lift (p : P α) : erase (lift p) = p := rfl
@[simp] theorem erase_tick (p : K α) : erase (tick p) = erase p := rfl
@[simp] theorem erase_map (p : K α) (f : α → β) : erase (map p f) = NomSparql.map (erase p) f := rfl
@[simp] theorem erase_opt (p : K α) : erase (opt p) = NomSparql.opt (erase p) := rfl
@[simp] theorem erase_pair (p : K α) (q : K β) : erase (pair p q) = NomSparql.pair (erase p) (erase q) := rfl
@[simp] theorem erase_tuple3 (p : K α) (q : K β) (s : K γ) : erase (tuple3 p q s) = NomSparql.tuple3 (erase p) (erase q) (erase s) := rfl
@[simp] theorem erase_tuple4 (p : K α) (q : K β) (s : K γ) (t : K δ) :
    erase (tuple4 p q s t) = NomSparql.tuple4 (erase p) (erase q) (erase s) (erase t) := rfl
@[simp] theorem erase_tuple5 (p : K α) (q : K β) (s : K γ) (t : K δ) (u : K ε) :
    erase (tuple5 p q s t u) = NomSparql.tuple5 (erase p) (erase q) (erase s) (erase t) (erase u) := rfl
@[simp] theorem erase_preceded (p : K α) (q : K β) : erase (preceded p q) = NomSparql.preceded (erase p) (erase q) := rfl
@[simp] theorem erase_terminated (p : K α) (q : K β) : erase (terminated p q) = NomSparql.terminated (erase p) (erase q) := rfl
@[simp] theorem erase_delimited (p : K α) (q : K β) (s : K γ) : erase (delimited p q s) = NomSparql.delimited (erase p) (erase q) (erase s) := rfl
@[simp] theorem erase_separatedPair (p : K α) (s : K γ) (q : K β) :
    erase (separatedPair p s q) = NomSparql.separatedPair (erase p) (erase s) (erase q) := rfl
@[simp] theorem erase_alt (l : List (K α)) : erase (alt l) = NomSparql.alt (l.map erase) := rfl
@[simp] theorem erase_many1 (p : K α) : erase (many1 p) = NomSparql.many1 (erase p) := rfl
@[simp] theorem erase_separatedList (s : K σ) (p : K α) : erase (separatedList s p) = NomSparql.separatedList (erase s) (erase p) := rfl
@[simp] theorem erase_separatedNonemptyList (s : K σ) (p : K α) :
    erase (separatedNonemptyList s p) = NomSparql.separatedNonemptyList (erase s) (erase p) := rfl
@[simp] theorem erase_bracketted (p : K α) : erase (bracketted p) = NomSparql.bracketted (erase p) := rfl
@[simp] theorem erase_precededTag1 (t : Str) (p : K α) : erase (precededTag1 t p) = NomSparql.precededTag1 t (erase p) := rfl
@[simp] theorem erase_precededTag (t : Str) (p : K α) : erase (precededTag t p) = NomSparql.precededTag t (erase p) := rfl
@[simp] theorem erase_precededBracketted (t : Str) (p : K α) : erase (precededBracketted t p) = NomSparql.precededBracketted t (erase p) := rfl
@[simp] theorem erase_spEnc (p : K α) : erase (spEnc p) = NomSparql.spEnc (erase p) := rfl
@[simp] theorem erase_spEnc1 (p : K α) : erase (spEnc1 p) = NomSparql.spEnc1 (erase p) := rfl
@[simp] theorem erase_bracketted3 (p : K α) : erase (bracketted3 p) = NomSparql.bracketted3 (erase p) := rfl

@[simp] theorem erase_sp : erase sp = NomSparql.sp := rfl
@[simp] theorem erase_sp1 : erase sp1 = NomSparql.sp1 := rfl
@[simp] theorem erase_var : erase var = NomSparql.var := rfl
@[simp] theorem erase_iri : erase iri = NomSparql.iri := rfl
@[simp] theorem erase_nil : erase nil = NomSparql.nil := rfl
@[simp] theorem erase_stringLiteral : erase stringLiteral = NomSparql.stringLiteral := rfl
@[simp] theorem erase_rdfLiteral : erase rdfLiteral = NomSparql.rdfLiteral := rfl
@[simp] theorem erase_numericLiteral : erase numericLiteral = NomSparql.numericLiteral := rfl
@[simp] theorem erase_boolean : erase boolean = NomSparql.boolean := rfl
@[simp] theorem erase_varOrIri : erase varOrIri = NomSparql.varOrIri := rfl
@[simp] theorem erase_inlineData : erase inlineData = NomSparql.inlineData := rfl
@[simp] theorem erase_triplesBlock : erase triplesBlock = NomSparql.triplesBlock := rfl
@[simp] theorem erase_limitOffsetClause : erase limitOffsetClause = NomSparql.limitOffsetClause := rfl
@[simp] theorem erase_valuesClause : erase valuesClause = NomSparql.valuesClause := rfl
@[simp] theorem erase_comma : erase comma = NomSparql.comma := rfl
@[simp] theorem erase_optDistinct : erase optDistinct = NomSparql.optDistinct := rfl
@[simp] theorem erase_optSilent : erase optSilent = NomSparql.optSilent := rfl
@[simp] theorem erase_separatorEq : erase separatorEq = NomSparql.separatorEq := rfl
@[simp] theorem erase_order : erase order = NomSparql.order := rfl
@[simp] theorem erase_selectModifier : erase selectModifier = NomSparql.selectModifier := rfl
@[simp] theorem erase_dataSetClauses : erase dataSetClauses = NomSparql.dataSetClauses := rfl
@[simp] theorem erase_varOrIrisOrAll : erase varOrIrisOrAll = NomSparql.varOrIrisOrAll := rfl
@[simp] theorem erase_constructTemplate : erase constructTemplate = NomSparql.constructTemplate := rfl
@[simp] theorem erase_triplesTemplate : erase triplesTemplate = NomSparql.triplesTemplate := rfl
@[simp] theorem erase_prologue : erase prologue = NomSparql.prologue := rfl
@[simp] theorem erase_datablock : erase datablock = NomSparql.datablock := rfl
@[simp] theorem erase_char (c : Char) : erase (char c) = NomSparql.char c := rfl
@[simp] theorem erase_tag (t : Str) : erase (tag t) = NomSparql.tag t := rfl
@[simp] theorem erase_tagNoCase (t : Str) : erase (tagNoCase t) = NomSparql.tagNoCase t := rfl
@[simp] theorem erase_tagNoCaseStreaming (t : Str) : erase (tagNoCaseStreaming t) = NomSparql.tagNoCaseStreaming t := rfl
@[simp] theorem erase_expr (R : Rec) : erase R.expr = (eraseR R).expr := rfl
@[simp] theorem erase_ggp (R : Rec) : erase R.ggp = (eraseR R).ggp := rfl
@[simp] theorem erase_brackettedExpr3S (R : Rec) : erase (brackettedExpr3S R) = NomSparql.brackettedExpr3S (eraseR R) := by simp [brackettedExpr3S, NomSparql.brackettedExpr3S]
@[simp] theorem erase_expressionAsVarOptS (R : Rec) : erase (expressionAsVarOptS R) = NomSparql.expressionAsVarOptS (eraseR R) := by simp [expressionAsVarOptS, NomSparql.expressionAsVarOptS]
@[simp] theorem erase_expressionAsVarS (R : Rec) : erase (expressionAsVarS R) = NomSparql.expressionAsVarS (eraseR R) := by simp [expressionAsVarS, NomSparql.expressionAsVarS]
@[simp] theorem erase_expressionListS (R : Rec) : erase (expressionListS R) = NomSparql.expressionListS (eraseR R) := by simp [expressionListS, NomSparql.expressionListS]
@[simp] theorem erase_distinctExpressionS (R : Rec) : erase (distinctExpressionS R) = NomSparql.distinctExpressionS (eraseR R) := by simp [distinctExpressionS, NomSparql.distinctExpressionS]
@[simp] theorem erase_brackettedExpressionS (R : Rec) : erase (brackettedExpressionS R) = NomSparql.brackettedExpressionS (eraseR R) := by simp [brackettedExpressionS, NomSparql.brackettedExpressionS]
@[simp] theorem erase_bindS (R : Rec) : erase (bindS R) = NomSparql.bindS (eraseR R) := by simp [bindS, NomSparql.bindS]
@[simp] theorem erase_regexExpressionS (R : Rec) : erase (regexExpressionS R) = NomSparql.regexExpressionS (eraseR R) := by simp [regexExpressionS, NomSparql.regexExpressionS]
@[simp] theorem erase_substringExpressionS (R : Rec) : erase (substringExpressionS R) = NomSparql.substringExpressionS (eraseR R) := by simp [substringExpressionS, NomSparql.substringExpressionS]
@[simp] theorem erase_strReplaceExpressionS (R : Rec) : erase (strReplaceExpressionS R) = NomSparql.strReplaceExpressionS (eraseR R) := by simp [strReplaceExpressionS, NomSparql.strReplaceExpressionS]
@[simp] theorem erase_argListS (R : Rec) : erase (argListS R) = NomSparql.argListS (eraseR R) := by simp [argListS, NomSparql.argListS]
@[simp] theorem erase_functionCallS (R : Rec) : erase (functionCallS R) = NomSparql.functionCallS (eraseR R) := by simp [functionCallS, NomSparql.functionCallS]
@[simp] theorem erase_iriOrFunS (R : Rec) : erase (iriOrFunS R) = NomSparql.iriOrFunS (eraseR R) := by simp [iriOrFunS, NomSparql.iriOrFunS]
@[simp] theorem erase_countTargetS (R : Rec) : erase (countTargetS R) = NomSparql.countTargetS (eraseR R) := by simp [countTargetS, NomSparql.countTargetS]
@[simp] theorem erase_countS (R : Rec) : erase (countS R) = NomSparql.countS (eraseR R) := by simp [countS, NomSparql.countS]
@[simp] theorem erase_groupConcatS (R : Rec) : erase (groupConcatS R) = NomSparql.groupConcatS (eraseR R) := by simp [groupConcatS, NomSparql.groupConcatS]
@[simp] theorem erase_aggregateS (R : Rec) : erase (aggregateS R) = NomSparql.aggregateS (eraseR R) := by simp [aggregateS, NomSparql.aggregateS]
@[simp] theorem erase_exprPairS (R : Rec) : erase (exprPairS R) = NomSparql.exprPairS (eraseR R) := by simp [exprPairS, NomSparql.exprPairS]
@[simp] theorem erase_builtInCall1S (R : Rec) : erase (builtInCall1S R) = NomSparql.builtInCall1S (eraseR R) := by simp [builtInCall1S, NomSparql.builtInCall1S]
@[simp] theorem erase_builtInCall2S (R : Rec) : erase (builtInCall2S R) = NomSparql.builtInCall2S (eraseR R) := by simp [builtInCall2S, NomSparql.builtInCall2S]
@[simp] theorem erase_builtInCallS (R : Rec) : erase (builtInCallS R) = NomSparql.builtInCallS (eraseR R) := by simp [builtInCallS, NomSparql.builtInCallS]
@[simp] theorem erase_primaryExpressionS (R : Rec) : erase (primaryExpressionS R) = NomSparql.primaryExpressionS (eraseR R) := by simp [primaryExpressionS, NomSparql.primaryExpressionS]
@[simp] theorem erase_unaryExpressionS (R : Rec) : erase (unaryExpressionS R) = NomSparql.unaryExpressionS (eraseR R) := by simp [unaryExpressionS, NomSparql.unaryExpressionS]
@[simp] theorem erase_multExpressionS (R : Rec) : erase (multExpressionS R) = NomSparql.multExpressionS (eraseR R) := by simp [multExpressionS, NomSparql.multExpressionS]
@[simp] theorem erase_multiplicativeExpressionS (R : Rec) : erase (multiplicativeExpressionS R) = NomSparql.multiplicativeExpressionS (eraseR R) := by simp [multiplicativeExpressionS, NomSparql.multiplicativeExpressionS]
@[simp] theorem erase_addExpressionS (R : Rec) : erase (addExpressionS R) = NomSparql.addExpressionS (eraseR R) := by simp [addExpressionS, NomSparql.addExpressionS]
@[simp] theorem erase_additiveExpressionS (R : Rec) : erase (additiveExpressionS R) = NomSparql.additiveExpressionS (eraseR R) := by simp [additiveExpressionS, NomSparql.additiveExpressionS]
@[simp] theorem erase_opExpressionS (R : Rec) : erase (opExpressionS R) = NomSparql.opExpressionS (eraseR R) := by simp [opExpressionS, NomSparql.opExpressionS]
@[simp] theorem erase_relationalExpressionS (R : Rec) : erase (relationalExpressionS R) = NomSparql.relationalExpressionS (eraseR R) := by simp [relationalExpressionS, NomSparql.relationalExpressionS]
@[simp] theorem erase_conditionalAndExpressionS (R : Rec) : erase (conditionalAndExpressionS R) = NomSparql.conditionalAndExpressionS (eraseR R) := by simp [conditionalAndExpressionS, NomSparql.conditionalAndExpressionS]
@[simp] theorem erase_expressionStep (R : Rec) : erase (expressionStep R) = NomSparql.expressionStep (eraseR R) := by simp [expressionStep, NomSparql.expressionStep]
@[simp] theorem erase_constraintS (R : Rec) : erase (constraintS R) = NomSparql.constraintS (eraseR R) := by simp [constraintS, NomSparql.constraintS]
@[simp] theorem erase_filterS (R : Rec) : erase (filterS R) = NomSparql.filterS (eraseR R) := by simp [filterS, NomSparql.filterS]
@[simp] theorem erase_orderExpressionS (R : Rec) : erase (orderExpressionS R) = NomSparql.orderExpressionS (eraseR R) := by simp [orderExpressionS, NomSparql.orderExpressionS]
@[simp] theorem erase_orderConditionS (R : Rec) : erase (orderConditionS R) = NomSparql.orderConditionS (eraseR R) := by simp [orderConditionS, NomSparql.orderConditionS]
@[simp] theorem erase_groupConditionS (R : Rec) : erase (groupConditionS R) = NomSparql.groupConditionS (eraseR R) := by simp [groupConditionS, NomSparql.groupConditionS]
@[simp] theorem erase_groupClauseS (R : Rec) : erase (groupClauseS R) = NomSparql.groupClauseS (eraseR R) := by simp [groupClauseS, NomSparql.groupClauseS]
@[simp] theorem erase_orderClauseS (R : Rec) : erase (orderClauseS R) = NomSparql.orderClauseS (eraseR R) := by simp [orderClauseS, NomSparql.orderClauseS]
@[simp] theorem erase_havingClauseS (R : Rec) : erase (havingClauseS R) = NomSparql.havingClauseS (eraseR R) := by simp [havingClauseS, NomSparql.havingClauseS]
@[simp] theorem erase_solutionModifierS (R : Rec) : erase (solutionModifierS R) = NomSparql.solutionModifierS (eraseR R) := by simp [solutionModifierS, NomSparql.solutionModifierS]
@[simp] theorem erase_whereClauseS (R : Rec) : erase (whereClauseS R) = NomSparql.whereClauseS (eraseR R) := by simp [whereClauseS, NomSparql.whereClauseS]
@[simp] theorem erase_varOrExpressionAsVarS (R : Rec) : erase (varOrExpressionAsVarS R) = NomSparql.varOrExpressionAsVarS (eraseR R) := by simp [varOrExpressionAsVarS, NomSparql.varOrExpressionAsVarS]
@[simp] theorem erase_selectVarsS (R : Rec) : erase (selectVarsS R) = NomSparql.selectVarsS (eraseR R) := by simp [selectVarsS, NomSparql.selectVarsS]
@[simp] theorem erase_selectClauseS (R : Rec) : erase (selectClauseS R) = NomSparql.selectClauseS (eraseR R) := by simp [selectClauseS, NomSparql.selectClauseS]
@[simp] theorem erase_subSelectS (R : Rec) : erase (subSelectS R) = NomSparql.subSelectS (eraseR R) := by simp [subSelectS, NomSparql.subSelectS]
@[simp] theorem erase_groupOrUnionGraphPatternS (R : Rec) : erase (groupOrUnionGraphPatternS R) = NomSparql.groupOrUnionGraphPatternS (eraseR R) := by simp [groupOrUnionGraphPatternS, NomSparql.groupOrUnionGraphPatternS]
@[simp] theorem erase_optionalGroupGraphPatternS (R : Rec) : erase (optionalGroupGraphPatternS R) = NomSparql.optionalGroupGraphPatternS (eraseR R) := by simp [optionalGroupGraphPatternS, NomSparql.optionalGroupGraphPatternS]
@[simp] theorem erase_minusGraphPatternS (R : Rec) : erase (minusGraphPatternS R) = NomSparql.minusGraphPatternS (eraseR R) := by simp [minusGraphPatternS, NomSparql.minusGraphPatternS]
@[simp] theorem erase_graphGraphPatternS (R : Rec) : erase (graphGraphPatternS R) = NomSparql.graphGraphPatternS (eraseR R) := by simp [graphGraphPatternS, NomSparql.graphGraphPatternS]
@[simp] theorem erase_serviceGraphPatternS (R : Rec) : erase (serviceGraphPatternS R) = NomSparql.serviceGraphPatternS (eraseR R) := by simp [serviceGraphPatternS, NomSparql.serviceGraphPatternS]
@[simp] theorem erase_graphPatternNotTriplesS (R : Rec) : erase (graphPatternNotTriplesS R) = NomSparql.graphPatternNotTriplesS (eraseR R) := by simp [graphPatternNotTriplesS, NomSparql.graphPatternNotTriplesS]
@[simp] theorem erase_groupGraphPatternAndTriplesS (R : Rec) : erase (groupGraphPatternAndTriplesS R) = NomSparql.groupGraphPatternAndTriplesS (eraseR R) := by simp [groupGraphPatternAndTriplesS, NomSparql.groupGraphPatternAndTriplesS]
@[simp] theorem erase_groupGraphPatternSubS (R : Rec) : erase (groupGraphPatternSubS R) = NomSparql.groupGraphPatternSubS (eraseR R) := by simp [groupGraphPatternSubS, NomSparql.groupGraphPatternSubS]
@[simp] theorem erase_groupGraphPatternStep (R : Rec) : erase (groupGraphPatternStep R) = NomSparql.groupGraphPatternStep (eraseR R) := by simp [groupGraphPatternStep, NomSparql.groupGraphPatternStep]

theorem eraseR_recF (n : Nat) : eraseR (recF n) = NomSparql.recF n := by
  induction n with
  | zero => rfl
  | succ n ih =>
    show NomSparql.Rec.mk (erase (tick (expressionStep (recF n)))) (erase (tick (groupGraphPatternStep (recF n)))) = _
    rw [erase_tick, erase_tick, erase_expressionStep, erase_groupGraphPatternStep, ih]
    rfl

theorem expr_recF (n : Nat) (i : Input) : ((recF n).expr i).1 = (NomSparql.recF n).expr i := by rw [← eraseR_recF n]; rfl

theorem ggp_recF (n : Nat) (i : Input) : ((recF n).ggp i).1 = (NomSparql.recF n).ggp i := by rw [← eraseR_recF n]; rfl

theorem erase_expression : erase expression = NomSparql.expression := funext fun i => expr_recF (i.length + 1) i

theorem erase_groupGraphPattern : erase groupGraphPattern = NomSparql.groupGraphPattern := funext fun i => ggp_recF (i.length + 1) i

theorem eraseR_R₀ : eraseR R₀ = NomSparql.R₀ := by
  show NomSparql.Rec.mk (erase expression) (erase groupGraphPattern) = _
  rw [erase_expression, erase_groupGraphPattern]
  rfl

@[simp] theorem erase_selectClause : erase selectClause = NomSparql.selectClause := (erase_selectClauseS R₀).trans (by rw [eraseR_R₀]; rfl)
@[simp] theorem erase_whereClause : erase whereClause = NomSparql.whereClause := (erase_whereClauseS R₀).trans (by rw [eraseR_R₀]; rfl)
@[simp] theorem erase_solutionModifier : erase solutionModifier = NomSparql.solutionModifier := (erase_solutionModifierS R₀).trans (by rw [eraseR_R₀]; rfl)

@[simp] theorem erase_selectQuery : erase selectQuery = NomSparql.selectQuery := by simp [selectQuery, NomSparql.selectQuery]
@[simp] theorem erase_askQuery : erase askQuery = NomSparql.askQuery := by simp [askQuery, NomSparql.askQuery]
@[simp] theorem erase_describeQuery : erase describeQuery = NomSparql.describeQuery := by simp [describeQuery, NomSparql.describeQuery]
@[simp] theorem erase_subTriples : erase subTriples = NomSparql.subTriples := by simp [subTriples, NomSparql.subTriples]
@[simp] theorem erase_subConstruct : erase subConstruct = NomSparql.subConstruct := by simp [subConstruct, NomSparql.subConstruct]
@[simp] theorem erase_constructQuery : erase constructQuery = NomSparql.constructQuery := by simp [constructQuery, NomSparql.constructQuery]
@[simp] theorem erase_sparqlQuery : erase sparqlQuery = NomSparql.sparqlQuery := by simp [sparqlQuery, NomSparql.sparqlQuery]
@[simp] theorem erase_sparqlQueryStmt : erase sparqlQueryStmt = NomSparql.sparqlQueryStmt := by simp [sparqlQueryStmt, NomSparql.sparqlQueryStmt]

end NomSparql.Cost
