import Verif.Lemmas.Dead
import Verif.Model.Depth

/-!
# Recursion depth

`Near f b p q`: `p` and `q` give the same result on every input with fewer than `b` characters satisfying `f`.  With `f` the opening brackets,
`p` a parser with recursion budget and `q` the closed parser this bounds the recursion depth by the number of brackets.
`Opens f p`: success of `p` reads a character satisfying `f`.
-/

namespace NomSparql

set_option synthInstance.maxSize 4000
set_option synthInstance.maxHeartbeats 400000

class Near (f : Char → Bool) (b : Nat) (p q : P α) : Prop where
  out : ∀ i, i.countP f < b → p i = q i

class Opens (f : Char → Bool) (p : P α) : Prop where
  out : ∀ i r a, p i = .ok r a → r.countP f < i.countP f

theorem Good.cnt {p : P α} [Good p] {i r a} (f : Char → Bool) (e : p i = .ok r a) : r.countP f ≤ i.countP f :=
  (Good.ok e).sublist.countP_le

section
variable {f : Char → Bool} {b : Nat} {p p' : P α} {q q' : P β}

instance (priority := high) near_refl : Near f b p p := ⟨fun _ _ => rfl⟩

instance near_map [Near f b p p'] (g : α → β) : Near f b (map p g) (map p' g) where
  out i hi := by unfold map; rw [Near.out (p := p) (q := p') i hi]

instance near_opt [Near f b p p'] : Near f b (opt p) (opt p') where
  out i hi := by unfold opt; rw [Near.out (p := p) (q := p') i hi]

theorem pair_near_aux {i : Input} (h : p i = p' i) (hq : ∀ r a, p i = .ok r a → q r = q' r) : pair p q i = pair p' q' i := by
  unfold pair
  rw [← h]
  split
  · rename_i r a e; rw [hq r a e]
  · rfl

instance (priority := low) near_pair [Near f b p p'] [Good p] [Near f b q q'] : Near f b (pair p q) (pair p' q') where
  out i hi := pair_near_aux (Near.out i hi) (fun r a e => Near.out (f := f) (b := b) r (by have := Good.cnt f e; omega))

instance near_pair_opens [Opens f p] [Near f b q q'] : Near f (b + 1) (pair p q) (pair p q') where
  out i hi := pair_near_aux rfl (fun r a e => Near.out (f := f) (b := b) r (by have := Opens.out (f := f) _ _ _ e; omega))

instance near_tuple3 {s s' : P γ} [Near f b (pair p (pair q s)) (pair p' (pair q' s'))] :
    Near f b (tuple3 p q s) (tuple3 p' q' s') := by unfold tuple3; infer_instance
instance near_tuple4 {s s' : P γ} {t t' : P δ} [Near f b (pair p (pair q (pair s t))) (pair p' (pair q' (pair s' t')))] :
    Near f b (tuple4 p q s t) (tuple4 p' q' s' t') := by unfold tuple4; infer_instance
instance near_tuple5 {s s' : P γ} {t t' : P δ} {u u' : P ε}
    [Near f b (pair p (pair q (pair s (pair t u)))) (pair p' (pair q' (pair s' (pair t' u'))))] :
    Near f b (tuple5 p q s t u) (tuple5 p' q' s' t' u') := by unfold tuple5; infer_instance
instance near_preceded [Near f b (pair p q) (pair p' q')] : Near f b (preceded p q) (preceded p' q') := by
  unfold preceded; infer_instance
instance near_terminated [Near f b (pair p q) (pair p' q')] : Near f b (terminated p q) (terminated p' q') := by
  unfold terminated; infer_instance
instance near_delimited {s s' : P γ} [Near f b (pair p (terminated q s)) (pair p' (terminated q' s'))] :
    Near f b (delimited p q s) (delimited p' q' s') := by unfold delimited; infer_instance
instance near_separatedPair {s s' : P γ} [Near f b (pair p (preceded s q)) (pair p' (preceded s' q'))] :
    Near f b (separatedPair p s q) (separatedPair p' s' q') := by unfold separatedPair; infer_instance

instance near_alt_one [h : Near f b p p'] : Near f b (alt [p]) (alt [p']) where
  out i hi := by unfold alt; exact h.out i hi

instance near_alt_cons {p₂ p₂' : P α} {ps ps'} [Near f b p p'] [Near f b (alt (p₂ :: ps)) (alt (p₂' :: ps'))] :
    Near f b (alt (p :: p₂ :: ps)) (alt (p' :: p₂' :: ps')) where
  out i hi := by
    have h3 := Near.out (f := f) (p := alt (p₂ :: ps)) (q := alt (p₂' :: ps')) i hi
    rw [alt, alt, ← Near.out (f := f) (p := p) (q := p') i hi]
    split
    · exact h3
    · rfl

theorem manyLoop_near (k : Kind) [Near f b p p'] [Good p] : ∀ n i, i.countP f < b → manyLoop k p n i = manyLoop k p' n i := by
  intro n
  induction n with
  | zero => intro i _; rfl
  | succ n ih =>
    intro i hm
    unfold manyLoop
    rw [← Near.out (f := f) (p := p) (q := p') i hm]
    split
    · rfl
    · rfl
    · rename_i r a e
      rw [ih r (by have := Good.cnt f e; omega)]

instance near_many0 [Near f b p p'] [Good p] : Near f b (many0 p) (many0 p') where
  out i hi := manyLoop_near _ _ i hi

instance near_many1 [Near f b p p'] [Good p] : Near f b (many1 p) (many1 p') where
  out i hi := by
    unfold many1
    rw [← Near.out (f := f) (p := p) (q := p') i hi]
    split
    · rfl
    · rename_i r a e
      rw [manyLoop_near (f := f) (b := b) (p := p) (p' := p') _ _ r (by have := Good.cnt f e; omega)]

theorem sepLoop_near [Near f b q q'] [Good q] [Near f b p p'] [Good p] :
    ∀ n i, i.countP f < b → sepLoop q p n i = sepLoop q' p' n i := by
  intro n
  induction n with
  | zero => intro i _; rfl
  | succ n ih =>
    intro i hm
    unfold sepLoop
    rw [← Near.out (f := f) (p := q) (q := q') i hm]
    split
    · rfl
    · rfl
    · rename_i r c e
      have hr := Good.cnt f e
      rw [← Near.out (f := f) (b := b) (p := p) (q := p') r (by omega)]
      split
      · rfl
      · split
        · rfl
        · rfl
        · rename_i r2 a e2
          rw [ih r2 (by have := Good.cnt f e2; omega)]

instance near_separatedList [Near f b q q'] [Good q] [Near f b p p'] [Good p] :
    Near f b (separatedList q p) (separatedList q' p') where
  out i hi := by
    unfold separatedList
    rw [← Near.out (f := f) (p := p) (q := p') i hi]
    split
    · rfl
    · rfl
    · rename_i r a e
      rw [sepLoop_near (f := f) (b := b) (q := q) (q' := q') (p := p) (p' := p') _ r (by have := Good.cnt f e; omega)]

instance near_separatedNonemptyList [Near f b q q'] [Good q] [Near f b p p'] [Good p] :
    Near f b (separatedNonemptyList q p) (separatedNonemptyList q' p') where
  out i hi := by
    unfold separatedNonemptyList
    rw [← Near.out (f := f) (p := p) (q := p') i hi]
    split
    · rfl
    · rename_i r a e
      rw [sepLoop_near (f := f) (b := b) (q := q) (q' := q') (p := p) (p' := p') _ r (by have := Good.cnt f e; omega)]

/-! ## `Opens` -/

instance opens_map [Opens f p] (g : α → β) : Opens f (map p g) where
  out i r a h := by
    unfold map at h
    split at h
    · cases h; exact Opens.out _ _ _ ‹_›
    · cases h

instance opens_pair [Opens f p] [Good q] : Opens f (pair p q) where
  out i r a h := by
    unfold pair at h
    split at h
    · rename_i r1 a1 e
      split at h
      · rename_i r2 b2 e2
        cases h
        have := Opens.out (f := f) _ _ _ e
        have := Good.cnt f e2
        omega
      · cases h
    · cases h

instance opens_terminated [Opens f p] [Good q] : Opens f (terminated p q) := by unfold terminated; infer_instance

/-- The second parser opens. -/
theorem opens_pair_snd [Good p] [Opens f q] : Opens f (pair p q) where
  out i r a h := by
    unfold pair at h
    split at h
    · rename_i r1 a1 e
      split at h
      · rename_i r2 b2 e2
        cases h
        have := Good.cnt f e
        have := Opens.out (f := f) _ _ _ e2
        omega
      · cases h
    · cases h

theorem opens_char {c : Char} (hc : f c = true) : Opens f (char c) where
  out i r a h := by
    unfold char at h
    split at h
    · split at h
      · cases h; rename_i hd; subst hd; simp [hc]
      · cases h
    · cases h

theorem opens_tag {c : Char} (hc : f c = true) : Opens f (tag [c]) where
  out i r a h := by
    unfold tag at h
    split at h
    · rename_i e
      cases h
      cases i with
      | nil => simp [stripPrefix] at e
      | cons d i =>
        unfold stripPrefix at e
        split at e
        · rename_i hd; subst hd; simp [stripPrefix] at e; subst e; simp [hc]
        · cases e
    · cases h

end

/-! ## Opening brackets -/

/-- An opening bracket. -/
def isOpen (c : Char) : Bool := c == '(' || c == '{' || c == '['

instance : Opens isOpen (char '(') := opens_char rfl
instance : Opens isOpen (char '{') := opens_char rfl
instance : Opens isOpen (char '[') := opens_char rfl
instance : Opens isOpen (tag ['(']) := opens_tag rfl
instance : Opens isOpen (tag ['[']) := opens_tag rfl

section
variable {b : Nat} {p p' : P α} {q q' : P β} {t : List Char}

instance near_bracketted [Good p] [Near isOpen b p p'] : Near isOpen (b + 1) (bracketted p) (bracketted p') := by
  unfold bracketted; infer_instance
instance near_precededTag1 [Good p] [Near isOpen b p p'] : Near isOpen b (precededTag1 t p) (precededTag1 t p') := by
  unfold precededTag1; infer_instance
instance near_precededTag [Good p] [Near isOpen b p p'] : Near isOpen b (precededTag t p) (precededTag t p') := by
  unfold precededTag; infer_instance
instance near_precededBracketted [Good p] [Near isOpen b p p'] :
    Near isOpen (b + 1) (precededBracketted t p) (precededBracketted t p') := by unfold precededBracketted; infer_instance
instance near_spEnc [Good p] [Near isOpen b p p'] : Near isOpen b (spEnc p) (spEnc p') := by unfold spEnc; infer_instance
instance near_spEnc1 [Good p] [Near isOpen b p p'] : Near isOpen b (spEnc1 p) (spEnc1 p') := by unfold spEnc1; infer_instance
instance near_bracketted3 [Good p] [Near isOpen b p p'] : Near isOpen (b + 1) (bracketted3 p) (bracketted3 p') := by
  unfold bracketted3; infer_instance
end

/-! ## Paths -/

section
variable {b : Nat} {pa pa' : P PathAlternative} [Good pa] [Near isOpen b pa pa']
instance near_pathPrimaryS : Near isOpen (b + 1) (pathPrimaryS pa) (pathPrimaryS pa') := by unfold pathPrimaryS; infer_instance
instance near_pathEltS : Near isOpen (b + 1) (pathEltS pa) (pathEltS pa') := by unfold pathEltS; infer_instance
instance near_pathEltOrInverseS : Near isOpen (b + 1) (pathEltOrInverseS pa) (pathEltOrInverseS pa') := by
  unfold pathEltOrInverseS; infer_instance
instance near_pathSequenceS : Near isOpen (b + 1) (pathSequenceS pa) (pathSequenceS pa') := by unfold pathSequenceS; infer_instance
instance near_pathAlternativeStep : Near isOpen (b + 1) (pathAlternativeStep pa) (pathAlternativeStep pa') := by
  unfold pathAlternativeStep; infer_instance
end

theorem pathAlternativeF_near : ∀ n, Near isOpen n (pathAlternativeF n) pathAlternative
  | 0 => ⟨fun _ h => absurd h (Nat.not_lt_zero _)⟩
  | n + 1 => by
    have := pathAlternativeF_near n
    rw [pathAlternative_eq]; unfold pathAlternativeF; infer_instance

/-! ## The expression / graph pattern nest

`expression` is called only after an opening bracket, `group_graph_pattern` begins with one; so the bound for the latter is one higher. -/

class RecNear (b : Nat) (R R' : Rec) : Prop where
  expr : Near isOpen b R.expr R'.expr
  ggp : Near isOpen (b + 1) R.ggp R'.ggp

section
variable {b : Nat} {R R' : Rec} [RecGood R] [RecNear b R R']

instance near_expr : Near isOpen b R.expr R'.expr := RecNear.expr
instance near_ggp : Near isOpen (b + 1) R.ggp R'.ggp := RecNear.ggp
instance near_distinctExpressionS : Near isOpen b (distinctExpressionS R) (distinctExpressionS R') := by unfold distinctExpressionS; infer_instance
instance near_countTargetS : Near isOpen b (countTargetS R) (countTargetS R') := by unfold countTargetS; infer_instance
instance near_exprPairS : Near isOpen b (exprPairS R) (exprPairS R') := by unfold exprPairS; infer_instance
instance near_brackettedExpr3S : Near isOpen (b + 1) (brackettedExpr3S R) (brackettedExpr3S R') := by unfold brackettedExpr3S; infer_instance
instance near_expressionAsVarOptS : Near isOpen (b + 1) (expressionAsVarOptS R) (expressionAsVarOptS R') := by unfold expressionAsVarOptS; infer_instance
instance near_expressionAsVarS : Near isOpen (b + 1) (expressionAsVarS R) (expressionAsVarS R') := by unfold expressionAsVarS; infer_instance
instance near_expressionListS : Near isOpen (b + 1) (expressionListS R) (expressionListS R') := by unfold expressionListS; infer_instance
instance near_brackettedExpressionS : Near isOpen (b + 1) (brackettedExpressionS R) (brackettedExpressionS R') := by unfold brackettedExpressionS; infer_instance
instance near_bindS : Near isOpen (b + 1) (bindS R) (bindS R') := by unfold bindS; infer_instance
instance near_regexExpressionS : Near isOpen (b + 1) (regexExpressionS R) (regexExpressionS R') := by unfold regexExpressionS; infer_instance
instance near_substringExpressionS : Near isOpen (b + 1) (substringExpressionS R) (substringExpressionS R') := by unfold substringExpressionS; infer_instance
instance near_strReplaceExpressionS : Near isOpen (b + 1) (strReplaceExpressionS R) (strReplaceExpressionS R') := by unfold strReplaceExpressionS; infer_instance
instance near_argListS : Near isOpen (b + 1) (argListS R) (argListS R') := by unfold argListS; infer_instance
instance near_functionCallS : Near isOpen (b + 1) (functionCallS R) (functionCallS R') := by unfold functionCallS; infer_instance
instance near_iriOrFunS : Near isOpen (b + 1) (iriOrFunS R) (iriOrFunS R') := by unfold iriOrFunS; infer_instance
instance near_countS : Near isOpen (b + 1) (countS R) (countS R') := by unfold countS; infer_instance
instance near_groupConcatS : Near isOpen (b + 1) (groupConcatS R) (groupConcatS R') := by unfold groupConcatS; infer_instance
instance near_aggregateS : Near isOpen (b + 1) (aggregateS R) (aggregateS R') := by unfold aggregateS; infer_instance
instance near_builtInCall1S : Near isOpen (b + 1) (builtInCall1S R) (builtInCall1S R') := by unfold builtInCall1S; infer_instance
instance near_builtInCall2S : Near isOpen (b + 1) (builtInCall2S R) (builtInCall2S R') := by unfold builtInCall2S; infer_instance
instance near_builtInCallS : Near isOpen (b + 1) (builtInCallS R) (builtInCallS R') := by unfold builtInCallS; infer_instance
instance near_primaryExpressionS : Near isOpen (b + 1) (primaryExpressionS R) (primaryExpressionS R') := by unfold primaryExpressionS; infer_instance
instance near_unaryExpressionS : Near isOpen (b + 1) (unaryExpressionS R) (unaryExpressionS R') := by unfold unaryExpressionS; infer_instance
instance near_multExpressionS : Near isOpen (b + 1) (multExpressionS R) (multExpressionS R') := by unfold multExpressionS; infer_instance
instance near_multiplicativeExpressionS : Near isOpen (b + 1) (multiplicativeExpressionS R) (multiplicativeExpressionS R') := by unfold multiplicativeExpressionS; infer_instance
instance near_addExpressionS : Near isOpen (b + 1) (addExpressionS R) (addExpressionS R') := by unfold addExpressionS; infer_instance
instance near_additiveExpressionS : Near isOpen (b + 1) (additiveExpressionS R) (additiveExpressionS R') := by unfold additiveExpressionS; infer_instance
instance near_opExpressionS : Near isOpen (b + 1) (opExpressionS R) (opExpressionS R') := by unfold opExpressionS; infer_instance
instance near_relationalExpressionS : Near isOpen (b + 1) (relationalExpressionS R) (relationalExpressionS R') := by unfold relationalExpressionS; infer_instance
instance near_conditionalAndExpressionS : Near isOpen (b + 1) (conditionalAndExpressionS R) (conditionalAndExpressionS R') := by unfold conditionalAndExpressionS; infer_instance
instance near_expressionStep : Near isOpen (b + 1) (expressionStep R) (expressionStep R') := by unfold expressionStep; infer_instance
instance near_constraintS : Near isOpen (b + 1) (constraintS R) (constraintS R') := by unfold constraintS; infer_instance
instance near_filterS : Near isOpen (b + 1) (filterS R) (filterS R') := by unfold filterS; infer_instance
instance near_orderExpressionS : Near isOpen (b + 1) (orderExpressionS R) (orderExpressionS R') := by unfold orderExpressionS; infer_instance
instance near_orderConditionS : Near isOpen (b + 1) (orderConditionS R) (orderConditionS R') := by unfold orderConditionS; infer_instance
instance near_groupConditionS : Near isOpen (b + 1) (groupConditionS R) (groupConditionS R') := by unfold groupConditionS; infer_instance
instance near_groupClauseS : Near isOpen (b + 1) (groupClauseS R) (groupClauseS R') := by unfold groupClauseS; infer_instance
instance near_orderClauseS : Near isOpen (b + 1) (orderClauseS R) (orderClauseS R') := by unfold orderClauseS; infer_instance
instance near_havingClauseS : Near isOpen (b + 1) (havingClauseS R) (havingClauseS R') := by unfold havingClauseS; infer_instance
instance near_solutionModifierS : Near isOpen (b + 1) (solutionModifierS R) (solutionModifierS R') := by unfold solutionModifierS; infer_instance
instance near_whereClauseS : Near isOpen (b + 1) (whereClauseS R) (whereClauseS R') := by unfold whereClauseS; infer_instance
instance near_varOrExpressionAsVarS : Near isOpen (b + 1) (varOrExpressionAsVarS R) (varOrExpressionAsVarS R') := by unfold varOrExpressionAsVarS; infer_instance
instance near_selectVarsS : Near isOpen (b + 1) (selectVarsS R) (selectVarsS R') := by unfold selectVarsS; infer_instance
instance near_selectClauseS : Near isOpen (b + 1) (selectClauseS R) (selectClauseS R') := by unfold selectClauseS; infer_instance
instance near_subSelectS : Near isOpen (b + 1) (subSelectS R) (subSelectS R') := by unfold subSelectS; infer_instance
instance near_groupOrUnionGraphPatternS : Near isOpen (b + 1) (groupOrUnionGraphPatternS R) (groupOrUnionGraphPatternS R') := by unfold groupOrUnionGraphPatternS; infer_instance
instance near_optionalGroupGraphPatternS : Near isOpen (b + 1) (optionalGroupGraphPatternS R) (optionalGroupGraphPatternS R') := by unfold optionalGroupGraphPatternS; infer_instance
instance near_minusGraphPatternS : Near isOpen (b + 1) (minusGraphPatternS R) (minusGraphPatternS R') := by unfold minusGraphPatternS; infer_instance
instance near_graphGraphPatternS : Near isOpen (b + 1) (graphGraphPatternS R) (graphGraphPatternS R') := by unfold graphGraphPatternS; infer_instance
instance near_serviceGraphPatternS : Near isOpen (b + 1) (serviceGraphPatternS R) (serviceGraphPatternS R') := by unfold serviceGraphPatternS; infer_instance
instance near_graphPatternNotTriplesS : Near isOpen (b + 1) (graphPatternNotTriplesS R) (graphPatternNotTriplesS R') := by unfold graphPatternNotTriplesS; infer_instance
instance near_groupGraphPatternAndTriplesS : Near isOpen (b + 1) (groupGraphPatternAndTriplesS R) (groupGraphPatternAndTriplesS R') := by unfold groupGraphPatternAndTriplesS; infer_instance
instance near_groupGraphPatternSubS : Near isOpen (b + 1) (groupGraphPatternSubS R) (groupGraphPatternSubS R') := by unfold groupGraphPatternSubS; infer_instance
theorem near_groupGraphPatternStep : Near isOpen (b + 2) (groupGraphPatternStep R) (groupGraphPatternStep R') := by
  unfold groupGraphPatternStep; infer_instance
end

theorem recF_expr (n : Nat) : (recF (n + 1)).expr = expressionStep (recF n) := by rw [recF]
theorem recF_ggp (n : Nat) : (recF (n + 1)).ggp = groupGraphPatternStep (recF n) := by rw [recF]
theorem R₀_expr : R₀.expr = expressionStep R₀ := expression_eq
theorem R₀_ggp : R₀.ggp = groupGraphPatternStep R₀ := groupGraphPattern_eq

theorem group_unopened (R : Rec) (i : Input) (h : i.countP isOpen = 0) : groupGraphPatternStep R i = .err (.error i .Char) := by
  have hc : char '{' i = .err (.error i .Char) := by
    cases i with
    | nil => rfl
    | cons c i =>
      have hc : c ≠ '{' := by
        rintro rfl; rw [List.countP_cons_of_pos rfl] at h; omega
      simp only [char, hc, if_false]
  unfold groupGraphPatternStep delimited preceded
  exact map_stop (pair_stop hc)

theorem recF_near : ∀ n, RecNear n (recF (n + 1)) R₀
  | 0 => ⟨⟨fun _ h => absurd h (Nat.not_lt_zero _)⟩, ⟨fun i h => by
      have h : i.countP isOpen = 0 := by omega
      rw [recF_ggp, R₀_ggp, group_unopened _ _ h, group_unopened _ _ h]⟩⟩
  | n + 1 => by
    have := recF_near n
    refine ⟨?_, ?_⟩
    · rw [recF_expr, R₀_expr]; exact near_expressionStep
    · rw [recF_ggp, R₀_ggp]; exact near_groupGraphPatternStep

/-! ## Entry points -/

section
variable {b : Nat} {R R' : Rec} [RecGood R]
instance good_selectQueryS : Good (selectQueryS R) := by unfold selectQueryS; infer_instance
instance good_askQueryS : Good (askQueryS R) := by unfold askQueryS; infer_instance
instance good_describeQueryS : Good (describeQueryS R) := by unfold describeQueryS; infer_instance
instance good_subTriplesS : Good (subTriplesS R) := by unfold subTriplesS; infer_instance
instance good_subConstructS : Good (subConstructS R) := by unfold subConstructS; infer_instance
instance good_constructQueryS : Good (constructQueryS R) := by unfold constructQueryS; infer_instance
instance good_sparqlQueryS : Good (sparqlQueryS R) := by unfold sparqlQueryS; infer_instance
variable [RecNear b R R']
instance near_selectQueryS : Near isOpen (b + 1) (selectQueryS R) (selectQueryS R') := by unfold selectQueryS; infer_instance
instance near_askQueryS : Near isOpen (b + 1) (askQueryS R) (askQueryS R') := by unfold askQueryS; infer_instance
instance near_describeQueryS : Near isOpen (b + 1) (describeQueryS R) (describeQueryS R') := by unfold describeQueryS; infer_instance
instance near_subTriplesS : Near isOpen (b + 1) (subTriplesS R) (subTriplesS R') := by unfold subTriplesS; infer_instance
instance near_subConstructS : Near isOpen (b + 1) (subConstructS R) (subConstructS R') := by unfold subConstructS; infer_instance
instance near_constructQueryS : Near isOpen (b + 1) (constructQueryS R) (constructQueryS R') := by unfold constructQueryS; infer_instance
instance near_sparqlQueryS : Near isOpen (b + 1) (sparqlQueryS R) (sparqlQueryS R') := by unfold sparqlQueryS; infer_instance
instance near_sparqlQueryStmtS : Near isOpen (b + 1) (sparqlQueryStmtS R) (sparqlQueryStmtS R') := by unfold sparqlQueryStmtS; infer_instance
instance near_modifyStmtS : Near isOpen (b + 1) (modifyStmtS R) (modifyStmtS R') := by unfold modifyStmtS; infer_instance
instance near_updateStmtS : Near isOpen (b + 1) (updateStmtS R) (updateStmtS R') := by unfold updateStmtS; infer_instance
end

/-! ## Nodes

`graph_node` and `graph_node_path` call themselves only after `varOrTerm` has answered `Error`, which it never does at a bracket. -/

theorem graphNodeStep_const (gn gn' : P GraphNode) (i : Input) : graphNodeStep gn i = graphNodeStep gn' i := by
  by_cases h : ∃ c x, i = c :: x ∧ (c = '(' ∨ c = '[')
  · obtain ⟨c, x, rfl, hc⟩ := h
    have := varOrTerm_hard hc x
    unfold graphNodeStep
    cases e : varOrTerm (c :: x) with
    | ok r a => rw [alt_eval1 (map_eval e), alt_eval1 (map_eval e)]
    | err e' =>
      have hf : Fatal e' := fun pos k h => this ⟨pos, k, h ▸ e⟩
      rw [alt_hard (map_stop e) hf, alt_hard (map_stop e) hf]
  · have ht : ∀ gn, triplesNodeS gn i = .err (.error i .Char) := by
      intro gn
      cases i with
      | nil => rfl
      | cons c x =>
        have h1 : c ≠ '(' := fun e => h ⟨c, x, rfl, .inl e⟩
        have h2 : c ≠ '[' := fun e => h ⟨c, x, rfl, .inr e⟩
        simp [triplesNodeS, alt, map, collectionS, bracketted, blankNodePropertyListS, delimited, preceded, terminated, pair, char, h1, h2]
    unfold graphNodeStep alt
    simp only [alt, map, ht]

theorem graphNodePathStep_const (gn gn' : P GraphNodePath) (i : Input) : graphNodePathStep gn i = graphNodePathStep gn' i := by
  by_cases h : ∃ c x, i = c :: x ∧ (c = '(' ∨ c = '[')
  · obtain ⟨c, x, rfl, hc⟩ := h
    have := varOrTerm_hard hc x
    unfold graphNodePathStep
    cases e : varOrTerm (c :: x) with
    | ok r a => rw [alt_eval1 (map_eval e), alt_eval1 (map_eval e)]
    | err e' =>
      have hf : Fatal e' := fun pos k h => this ⟨pos, k, h ▸ e⟩
      rw [alt_hard (map_stop e) hf, alt_hard (map_stop e) hf]
  · have ht : ∀ gn, triplesNodePathS gn i = .err (.error i .Tag) := by
      intro gn
      cases i with
      | nil => rfl
      | cons c x =>
        have h1 : c ≠ '(' := fun e => h ⟨c, x, rfl, .inl e⟩
        have h2 : c ≠ '[' := fun e => h ⟨c, x, rfl, .inr e⟩
        simp [triplesNodePathS, alt, map, blankNodePropertyListPathS, delimited, preceded, terminated, pair, tag, stripPrefix, h1, h2]
    unfold graphNodePathStep alt
    simp only [alt, map, ht]

/-! ## Updates: the recursion of `update` is opened by semicolons -/

/-- A semicolon. -/
def isSemi (c : Char) : Bool := c == ';'

instance : Opens isSemi (char ';') := opens_char rfl
instance : Opens isSemi (spEnc (char ';')) := by
  unfold spEnc delimited preceded
  have : Opens isSemi (pair sp (terminated (char ';') sp)) := opens_pair_snd
  infer_instance

section
variable {b : Nat} {up up' : P Update} [Near isSemi b up up']
instance near_updateStep : Near isSemi (b + 1) (updateStep up) (updateStep up') := by unfold updateStep; infer_instance
end

theorem updateF_near : ∀ n, Near isSemi n (updateF n) update
  | 0 => ⟨fun _ h => absurd h (Nat.not_lt_zero _)⟩
  | n + 1 => by
    have := updateF_near n
    rw [update_eq]; unfold updateF; infer_instance

end NomSparql
