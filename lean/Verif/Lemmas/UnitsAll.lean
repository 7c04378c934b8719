import Verif.Lemmas.UnitsLeaf

/-!
# Answers that do not depend on what follows: every parser
-/

namespace NomSparql

set_option synthInstance.maxSize 4000
set_option synthInstance.maxHeartbeats 400000

section
variable {p : P α} {q : P β} {d : Nat} {t : List Char}

instance [Loc d p] : Loc d (bracketted p) := by unfold bracketted; infer_instance
instance [SmallTag d t] [Loc d p] : Loc d (precededTag1 t p) := by unfold precededTag1; infer_instance
instance [SmallTag d t] [Loc d p] : Loc d (precededTag t p) := by unfold precededTag; infer_instance
instance [SmallTag d t] [Loc d p] : Loc d (precededBracketted t p) := by unfold precededBracketted; infer_instance
instance [Loc d p] : Loc d (spEnc p) := by unfold spEnc; infer_instance
instance [Loc d p] : Loc d (spEnc1 p) := by unfold spEnc1; infer_instance
instance [Loc d p] [Loc d q] : Loc d (spSep1 p q) := by unfold spSep1; infer_instance
instance [Loc d p] [Loc d q] : Loc d (spSep p q) := by unfold spSep; infer_instance
instance : Loc d comma := by unfold comma; infer_instance
instance [Loc d p] : Loc d (bracketted3 p) := by unfold bracketted3; infer_instance
end

section
variable {d : Nat}
instance : Loc d hexPrimary := by unfold hexPrimary; infer_instance
instance : Loc d plx := by unfold plx; infer_instance
instance : Loc d pnCharsBaseOne := by unfold pnCharsBaseOne; infer_instance
instance : Loc d pnCharsBase1 := by unfold pnCharsBase1; infer_instance
instance : Loc d pnCharsUOne := by unfold pnCharsUOne; infer_instance
instance : Loc d pnCharsU1 := by unfold pnCharsU1; infer_instance
instance : Loc d pnCharsOne := by unfold pnCharsOne; infer_instance
instance : Loc d pnChars1 := by unfold pnChars1; infer_instance
instance : Loc d languageTag := by unfold languageTag; infer_instance
instance : Loc d pnCharsTail := by unfold pnCharsTail; infer_instance
instance : Loc d pnLocalFirst := by unfold pnLocalFirst; infer_instance
instance : Loc d pnLocalChunk := by unfold pnLocalChunk; infer_instance
instance : Loc d pnLocal := by unfold pnLocal; infer_instance
instance : Loc d pnPrefix := by unfold pnPrefix; infer_instance
instance : Loc d silent := by unfold silent; infer_instance
instance : Loc d distinct := by unfold distinct; infer_instance
instance : Loc d boolean := by unfold boolean; infer_instance
instance : Loc d sign := by unfold sign; infer_instance
instance : Loc d sparqlDouble := by unfold sparqlDouble; infer_instance
instance : Loc d numericLiteral := by unfold numericLiteral; infer_instance
instance : Loc d varName := by unfold varName; infer_instance
instance : Loc d order := by unfold order; infer_instance
instance : Loc d selectModifier := by unfold selectModifier; infer_instance

instance : Loc d anon := by unfold anon; infer_instance
instance : Loc d nil := by unfold nil; infer_instance
end

/-! ## Names, literals, data -/

section
variable {d : Nat}

instance : Loc d pnameNs := by unfold pnameNs; infer_instance
instance : Loc d pnameLn := by unfold pnameLn; infer_instance
instance : Loc d prefixedName := by unfold prefixedName; infer_instance
instance : Loc d iri := by unfold iri; infer_instance
instance : Loc d namedIri := by unfold namedIri; infer_instance
instance : Loc d defaultOrNamedIri := by unfold defaultOrNamedIri; infer_instance
instance : Loc d rdfLiteral := by unfold rdfLiteral; infer_instance
instance : Loc d baseDecl := by unfold baseDecl; infer_instance
instance : Loc d prefixDecl := by unfold prefixDecl; infer_instance
instance : Loc d prologue := by unfold prologue; infer_instance
instance : Loc d stringLiteralArg := by unfold stringLiteralArg; infer_instance
instance : Loc d var := by unfold var; infer_instance
instance : Loc d varOrIri := by unfold varOrIri; infer_instance
instance : Loc d verb := by unfold verb; infer_instance
instance : Loc d varOrIrisOrAll := by unfold varOrIrisOrAll; infer_instance
instance : Loc d blankNode := by unfold blankNode; infer_instance
instance : Loc d graphTerm := by unfold graphTerm; infer_instance
instance : Loc d varOrTerm := by unfold varOrTerm; infer_instance
instance : Loc d graphRef := by unfold graphRef; infer_instance
instance : Loc d graphOrDefault := by unfold graphOrDefault; infer_instance
instance : Loc d graphRefAll := by unfold graphRefAll; infer_instance
instance : Loc d dataSetClause := by unfold dataSetClause; infer_instance
instance : Loc d datablockValue := by unfold datablockValue; infer_instance
instance : Loc d inlineDataFull := by unfold inlineDataFull; infer_instance
instance : Loc d inlineDataOneVar := by unfold inlineDataOneVar; infer_instance
instance : Loc d datablock := by unfold datablock; infer_instance
instance : Loc d inlineData := by unfold inlineData; infer_instance
instance : Loc d valuesClause := by unfold valuesClause; infer_instance
instance : Loc d usingClause := by unfold usingClause; infer_instance
instance {pat : P Str} [Loc d pat] : Loc d (intClause pat) := by unfold intClause; infer_instance
instance : Loc d limitClause := by unfold limitClause; infer_instance
instance : Loc d offsetClause := by unfold offsetClause; infer_instance
instance : Loc d limitOffsetClause := by unfold limitOffsetClause; infer_instance
instance : Loc d optDistinct := by unfold optDistinct; infer_instance
instance : Loc d optSilent := by unfold optSilent; infer_instance
instance : Loc d iriOrA := by unfold iriOrA; infer_instance
instance : Loc d iriOrAOrCaret := by unfold iriOrAOrCaret; infer_instance
instance : Loc d pathOneInPropertySet := by unfold pathOneInPropertySet; infer_instance
instance : Loc d pathNegatedPropertySet := by unfold pathNegatedPropertySet; infer_instance
instance : Loc 1 separatorEq := by unfold separatorEq; infer_instance

end

/-! ## Recursive parsers: a budget for both texts -/

theorem lower_slash {c : Char} (h : lower c = lower '/') : c = '/' := by
  by_cases hc : c ∈ oddChars ∨ c = ';' ∨ c = '<'
  · simp only [oddChars, List.mem_cons, List.not_mem_nil, or_false] at hc
    revert h
    rcases hc with (rfl | rfl | rfl | rfl | rfl | rfl | rfl | rfl | rfl | rfl | rfl) | rfl | rfl <;> decide
  · have e : lower '/' = '/' := by decide
    rw [e] at h
    unfold lower at h
    split at h
    · rename_i hu
      have := congrArg Char.toNat h
      rw [toNat_ofNat_small (show c.toNat + 32 < 256 by omega)] at this
      have : ('/' : Char).toNat = 47 := rfl
      omega
    · split at h
      · exact absurd h (by decide)
      · exact h

/-- Division: not at the two slashes of a URL. -/
theorem slash_loc {q : P α} [hq : Loc 1 q] (h : ∀ t, ∃ p k, q ('/' :: t) = .err (.error p k)) : Loc 1 (precededTag c!"/" q) where
  out {X a n u} hX hu := by
    have hs : Loc 1 (preceded sp q) := inferInstance
    have one : ∀ {t : Str}, tagNoCase c!"/" ('/' :: t) = .ok t ['/'] := fun {t} => by
      have : overlapNoCase ('/' :: t) c!"/" = true := by cases t <;> rfl
      have hb : byteLen c!"/" = 1 := rfl
      simp only [tagNoCase, this, hb, byteLen_cons, Bool.true_and, decide_eq_true_eq]
      rw [if_pos (by have : ('/' : Char).utf8Size = 1 := rfl; omega)]
      simp [takeBytes, takeBytes_zero, show ('/' : Char).utf8Size = 1 from rfl]
    have no : ∀ {i : Str}, i.head? ≠ some '/' → i ≠ [] → ∃ p k, precededTag c!"/" q i = .err (.error p k) := by
      intro i h h'
      cases i with
      | nil => exact absurd rfl h'
      | cons c t =>
        have : (lower c == lower '/') = false := by
          simp only [beq_eq_false_iff_ne, ne_eq]
          exact fun e => h (by rw [lower_slash e]; rfl)
        exact ⟨c :: t, .Tag, preceded_stop (terminated_stop (by simp [tagNoCase, overlapNoCase, this]))⟩
    have step : ∀ {t : Str}, precededTag c!"/" q ('/' :: t) = preceded sp q t := by
      intro t
      simp only [precededTag, preceded, terminated, map, pair, one]
      cases sp t with
      | ok r w => simp only; cases q r <;> rfl
      | err e => rfl
    generalize hk : n + 1 = k at hu ⊢
    cases hu with
    | nil => omega
    | @char _ c s h1 h2 h3 =>
      by_cases hc : c = '/'
      · subst hc
        subst hk
        refine ((hs.out hX h3).after (m := ['/'])).congr fun x hx => step
      · exact .error fun x hx => no (by simpa using hc) (by simp)
    | gap h1 =>
      refine .error fun x hx => no ?_ (by simp)
      simp only [List.cons_append, List.head?_cons, ne_eq, Option.some.injEq]
      rintro rfl; revert h1; decide
    | str h1 => exact .error fun x hx => no (by rcases h1 with rfl | rfl <;> simp) (by simp)
    | @url _ b s h1 h2 =>
      refine .error fun x hx => ?_
      obtain ⟨p, k, e⟩ := h (b ++ '>' :: s ++ x)
      refine ⟨p, k, ?_⟩
      show precededTag c!"/" q ('/' :: '/' :: (b ++ '>' :: s ++ x)) = _
      rw [step]
      exact preceded_cont (sp_append (w := []) .nil (not_startsWs_cons rfl)) |>.trans e
    | _ => exact .error fun x hx => no (by simp) (by simp)

theorem slash_unary (R : Rec) (t : Str) : ∃ p k, unaryExpressionS R ('/' :: t) = .err (.error p k) := ⟨_, _, rfl⟩

theorem fuel_loc {d : Nat} : Loc d (fun _ => .err .fuel : P α) where
  out _ _ := .inr (.inr fun _ _ => ⟨.fuel, rfl, by simp⟩)

section
variable {gn : P GraphNode} [Loc 1 gn]

instance : Loc 1 (collectionS gn) := by unfold collectionS; infer_instance
instance : Loc 1 (objectListS gn) := by unfold objectListS; infer_instance
instance : Loc 1 (propertyListNotEmptyS gn) := by unfold propertyListNotEmptyS; infer_instance
instance : Loc 1 (propertyListS gn) := by unfold propertyListS; infer_instance
instance : Loc 1 (blankNodePropertyListS gn) := by unfold blankNodePropertyListS; infer_instance
instance : Loc 1 (triplesNodeS gn) := by unfold triplesNodeS; infer_instance
instance : Loc 1 (graphNodeStep gn) := by unfold graphNodeStep; infer_instance
end

theorem graphNodeF_loc : ∀ n, Loc 1 (graphNodeF n)
  | 0 => fuel_loc
  | n + 1 => by have := graphNodeF_loc n; unfold graphNodeF; infer_instance
instance : Loc 1 graphNode := loc_closed graphNodeF_loc graphNodeF_agree_closed

instance : Loc 1 collection := by unfold collection; infer_instance
instance : Loc 1 objectList := by unfold objectList; infer_instance
instance : Loc 1 propertyListNotEmpty := by unfold propertyListNotEmpty; infer_instance
instance : Loc 1 propertyList := by unfold propertyList; infer_instance
instance : Loc 1 blankNodePropertyList := by unfold blankNodePropertyList; infer_instance
instance : Loc 1 triplesNode := by unfold triplesNode; infer_instance
instance : Loc 1 triplesSameSubject := by unfold triplesSameSubject; infer_instance
instance : Loc 1 triplesTemplate := by unfold triplesTemplate; infer_instance
instance {d : Nat} : Loc d quadsNotTriples := by unfold quadsNotTriples; infer_instance
instance : Loc 1 quadsEntry := by unfold quadsEntry; infer_instance
instance : Loc 1 quads := by unfold quads; infer_instance
instance {d : Nat} : Loc d quadsPattern := by unfold quadsPattern; infer_instance
instance {d : Nat} : Loc d quadData := by unfold quadData; infer_instance
instance {d : Nat} : Loc d insertClause := by unfold insertClause; infer_instance
instance {d : Nat} : Loc d deleteClause := by unfold deleteClause; infer_instance

section
variable {pa : P PathAlternative} [Loc 1 pa]

instance : Loc 1 (pathPrimaryS pa) := by unfold pathPrimaryS; infer_instance
instance : Loc 1 (pathEltS pa) := by unfold pathEltS; infer_instance
instance : Loc 1 (pathEltOrInverseS pa) := by unfold pathEltOrInverseS; infer_instance
instance : Loc 1 (pathSequenceS pa) := by unfold pathSequenceS; infer_instance
instance : Loc 1 (pathAlternativeStep pa) := by unfold pathAlternativeStep; infer_instance
end

theorem pathAlternativeF_loc : ∀ n, Loc 1 (pathAlternativeF n)
  | 0 => fuel_loc
  | n + 1 => by have := pathAlternativeF_loc n; unfold pathAlternativeF; infer_instance
instance : Loc 1 pathAlternative := loc_closed pathAlternativeF_loc pathAlternativeF_agree_closed

instance : Loc 1 pathPrimary := by unfold pathPrimary; infer_instance
instance : Loc 1 pathElt := by unfold pathElt; infer_instance
instance : Loc 1 pathEltOrInverse := by unfold pathEltOrInverse; infer_instance
instance : Loc 1 pathSequence := by unfold pathSequence; infer_instance
instance : Loc 1 verbPathOrSimple := by unfold verbPathOrSimple; infer_instance
instance : Loc 1 propertyListPathEntry := by unfold propertyListPathEntry; infer_instance

section
variable {gn : P GraphNodePath} [Loc 1 gn]

instance : Loc 1 (objectListPathS gn) := by unfold objectListPathS; infer_instance
instance : Loc 1 (propertyListPathNotEmptyS gn) := by unfold propertyListPathNotEmptyS; infer_instance
instance : Loc 1 (propertyListPathS gn) := by unfold propertyListPathS; infer_instance
instance : Loc 1 (blankNodePropertyListPathS gn) := by unfold blankNodePropertyListPathS; infer_instance
instance : Loc 1 (triplesNodePathS gn) := by unfold triplesNodePathS; infer_instance
instance : Loc 1 (graphNodePathStep gn) := by unfold graphNodePathStep; infer_instance
end

theorem graphNodePathF_loc : ∀ n, Loc 1 (graphNodePathF n)
  | 0 => fuel_loc
  | n + 1 => by have := graphNodePathF_loc n; unfold graphNodePathF; infer_instance
instance : Loc 1 graphNodePath := loc_closed graphNodePathF_loc graphNodePathF_agree_closed

instance : Loc 1 objectListPath := by unfold objectListPath; infer_instance
instance : Loc 1 propertyListPathNotEmpty := by unfold propertyListPathNotEmpty; infer_instance
instance : Loc 1 propertyListPath := by unfold propertyListPath; infer_instance
instance : Loc 1 blankNodePropertyListPath := by unfold blankNodePropertyListPath; infer_instance
instance : Loc 1 triplesNodePath := by unfold triplesNodePath; infer_instance
instance : Loc 1 triplesSameSubjectPath := by unfold triplesSameSubjectPath; infer_instance
instance : Loc 1 triplesBlock := by unfold triplesBlock; infer_instance

/-! ## Expressions and patterns -/

class RecLoc (R : Rec) : Prop where
  expr : Loc 1 R.expr
  ggp : ∀ d, Loc d R.ggp

section
variable {R : Rec} [h : RecLoc R]

instance : Loc 1 R.expr := h.expr
instance {d : Nat} : Loc d R.ggp := h.ggp d

instance : Loc 1 (brackettedExpr3S R) := by unfold brackettedExpr3S; infer_instance
instance : Loc 1 (expressionAsVarOptS R) := by unfold expressionAsVarOptS; infer_instance
instance : Loc 1 (expressionAsVarS R) := by unfold expressionAsVarS; infer_instance
instance : Loc 1 (expressionListS R) := by unfold expressionListS; infer_instance
instance : Loc 1 (distinctExpressionS R) := by unfold distinctExpressionS; infer_instance
instance : Loc 1 (brackettedExpressionS R) := by unfold brackettedExpressionS; infer_instance
instance : Loc 1 (bindS R) := by unfold bindS; infer_instance
instance : Loc 1 (regexExpressionS R) := by unfold regexExpressionS; infer_instance
instance : Loc 1 (substringExpressionS R) := by unfold substringExpressionS; infer_instance
instance : Loc 1 (strReplaceExpressionS R) := by unfold strReplaceExpressionS; infer_instance
instance : Loc 1 (argListS R) := by unfold argListS; infer_instance
instance : Loc 1 (functionCallS R) := by unfold functionCallS; infer_instance
instance : Loc 1 (iriOrFunS R) := by unfold iriOrFunS; infer_instance
instance : Loc 1 (countTargetS R) := by unfold countTargetS; infer_instance
instance : Loc 1 (countS R) := by unfold countS; infer_instance
instance : Loc 1 (groupConcatS R) := by unfold groupConcatS; infer_instance
instance : Loc 1 (aggregateS R) := by unfold aggregateS; infer_instance
instance : Loc 1 (exprPairS R) := by unfold exprPairS; infer_instance
instance : Loc 1 (builtInCall1S R) := by unfold builtInCall1S; infer_instance
instance : Loc 1 (builtInCall2S R) := by unfold builtInCall2S; infer_instance
instance : Loc 1 (builtInCallS R) := by unfold builtInCallS; infer_instance
instance : Loc 1 (primaryExpressionS R) := by unfold primaryExpressionS; infer_instance
instance : Loc 1 (unaryExpressionS R) := by unfold unaryExpressionS; infer_instance
instance : Loc 1 (precededTag c!"/" (unaryExpressionS R)) := slash_loc fun t => slash_unary R t
instance : Loc 1 (multExpressionS R) := by unfold multExpressionS; infer_instance
instance : Loc 1 (multiplicativeExpressionS R) := by unfold multiplicativeExpressionS; infer_instance
instance : Loc 1 (addExpressionS R) := by unfold addExpressionS; infer_instance
instance : Loc 1 (additiveExpressionS R) := by unfold additiveExpressionS; infer_instance
instance : Loc 1 (opExpressionS R) := by unfold opExpressionS; infer_instance
instance : Loc 1 (relationalExpressionS R) := by unfold relationalExpressionS; infer_instance
instance : Loc 1 (conditionalAndExpressionS R) := by unfold conditionalAndExpressionS; infer_instance
instance : Loc 1 (expressionStep R) := by unfold expressionStep; infer_instance
instance : Loc 1 (constraintS R) := by unfold constraintS; infer_instance
instance : Loc 1 (filterS R) := by unfold filterS; infer_instance
instance : Loc 1 (orderExpressionS R) := by unfold orderExpressionS; infer_instance
instance : Loc 1 (orderConditionS R) := by unfold orderConditionS; infer_instance
instance : Loc 1 (groupConditionS R) := by unfold groupConditionS; infer_instance
instance : Loc 1 (groupClauseS R) := by unfold groupClauseS; infer_instance
instance : Loc 1 (orderClauseS R) := by unfold orderClauseS; infer_instance
instance : Loc 1 (havingClauseS R) := by unfold havingClauseS; infer_instance
instance : Loc 1 (solutionModifierS R) := by unfold solutionModifierS; infer_instance
instance : Loc 1 (whereClauseS R) := by unfold whereClauseS; infer_instance
instance : Loc 1 (varOrExpressionAsVarS R) := by unfold varOrExpressionAsVarS; infer_instance
instance : Loc 1 (selectVarsS R) := by unfold selectVarsS; infer_instance
instance : Loc 1 (selectClauseS R) := by unfold selectClauseS; infer_instance
instance : Loc 1 (subSelectS R) := by unfold subSelectS; infer_instance
instance : Loc 1 (groupOrUnionGraphPatternS R) := by unfold groupOrUnionGraphPatternS; infer_instance
instance : Loc 1 (optionalGroupGraphPatternS R) := by unfold optionalGroupGraphPatternS; infer_instance
instance : Loc 1 (minusGraphPatternS R) := by unfold minusGraphPatternS; infer_instance
instance : Loc 1 (graphGraphPatternS R) := by unfold graphGraphPatternS; infer_instance
instance : Loc 1 (serviceGraphPatternS R) := by unfold serviceGraphPatternS; infer_instance
instance : Loc 1 (graphPatternNotTriplesS R) := by unfold graphPatternNotTriplesS; infer_instance
instance : Loc 1 (groupGraphPatternAndTriplesS R) := by unfold groupGraphPatternAndTriplesS; infer_instance
instance : Loc 1 (groupGraphPatternSubS R) := by unfold groupGraphPatternSubS; infer_instance
instance {d : Nat} : Loc d (groupGraphPatternStep R) := by unfold groupGraphPatternStep; infer_instance
end

theorem recF_loc : ∀ n, RecLoc (recF n)
  | 0 => ⟨fuel_loc, fun _ => fuel_loc⟩
  | n + 1 => by
    have := recF_loc n
    exact ⟨inferInstanceAs (Loc 1 (expressionStep (recF n))), fun d => inferInstanceAs (Loc d (groupGraphPatternStep (recF n)))⟩
instance : Loc 1 expression := loc_closed (pF := fun n => (recF n).expr) (fun n => (recF_loc n).expr) (fun n => (recF_agree_closed n).expr)
instance {d : Nat} : Loc d groupGraphPattern :=
  loc_closed (pF := fun n => (recF n).ggp) (fun n => (recF_loc n).ggp d) (fun n => (recF_agree_closed n).ggp)
instance : RecLoc R₀ := ⟨inferInstanceAs (Loc 1 expression), fun d => inferInstanceAs (Loc d groupGraphPattern)⟩

instance : Loc 1 whereClause := by unfold whereClause; infer_instance
instance : Loc 1 solutionModifier := by unfold solutionModifier; infer_instance
instance : Loc 1 selectClause := by unfold selectClause; infer_instance
instance : Loc 1 subSelect := by unfold subSelect; infer_instance

/-! ## Updates -/

section
variable {d : Nat}
instance : Loc d silentFromTo := by unfold silentFromTo; infer_instance
instance : Loc d addStmt := by unfold addStmt; infer_instance
instance : Loc d moveStmt := by unfold moveStmt; infer_instance
instance : Loc d copyStmt := by unfold copyStmt; infer_instance
instance : Loc d createStmt := by unfold createStmt; infer_instance
instance : Loc d silentGraphRefAll := by unfold silentGraphRefAll; infer_instance
instance : Loc d dropStmt := by unfold dropStmt; infer_instance
instance : Loc d clearStmt := by unfold clearStmt; infer_instance
instance : Loc d loadStmt := by unfold loadStmt; infer_instance
instance : Loc d insertData := by unfold insertData; infer_instance
instance : Loc d deleteData := by unfold deleteData; infer_instance
instance : Loc d deleteWhereData := by unfold deleteWhereData; infer_instance
instance : Loc d deleteInsert := by unfold deleteInsert; infer_instance
instance : Loc d modifyStmt := by unfold modifyStmt; infer_instance
instance : Loc d updateStmt := by unfold updateStmt; infer_instance
end

end NomSparql
