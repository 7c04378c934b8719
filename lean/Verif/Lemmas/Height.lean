import Verif.Lemmas.Flat

/-!
# The height of an answer against the nesting of the text it was made of

`Climbs p wp`: if `wp post` holds, every answer of `p` satisfies `post a d`, where `d` is how deeply the brackets of the text are nested that `p` consumed.
`wp` is computed from `p`, bottom up; for the named parsers it is `Ht c b`: the height is at most `14 d + c`, and `d` is at most the height plus `b`.
-/

namespace NomSparql

set_option synthInstance.maxSize 4000
set_option synthInstance.maxHeartbeats 400000

class Climbs (p : P α) (wp : outParam ((α → Nat → Prop) → Prop)) : Prop where
  out : ∀ {post : α → Nat → Prop} {i r a}, wp post → p i = .ok r a → ∃ s d, i = s ++ r ∧ NestsAt d s ∧ post a d

abbrev Ht [Height α] (c b : Nat) (post : α → Nat → Prop) : Prop := ∀ a d, height a ≤ 14 * d + c → d ≤ height a + b → post a d

section
variable {p : P α} {q : P β} {s : P γ} {t : P δ} {u : P ε} {W : (α → Nat → Prop) → Prop} {W' : (β → Nat → Prop) → Prop} {W2 : (γ → Nat → Prop) → Prop}
  {W3 : (δ → Nat → Prop) → Prop} {W4 : (ε → Nat → Prop) → Prop} {o c : Char}

theorem Climbs.ht [Height α] (h : Climbs p W) {c b : Nat} (hw : W fun a d => height a ≤ 14 * d + c ∧ d ≤ height a + b) : Climbs p (Ht c b) where
  out hp e := by obtain ⟨s, d, h1, h2, h3⟩ := h.out hw e; exact ⟨s, d, h1, h2, hp _ _ h3.1 h3.2⟩

instance (priority := 1) [h : Flat p] : Climbs p (fun post => ∀ a, post a 0) where
  out hp e := by obtain ⟨s, h1, h2⟩ := h.out e; exact ⟨s, 0, h1, h2, hp _⟩
instance [h : Climbs p W] {f : α → β} : Climbs (map p f) (fun post => W fun a n => post (f a) n) where
  out hp e := by obtain ⟨a, h1, rfl⟩ := map_ok.mp e; exact h.out hp h1
instance [h : Climbs p W] [h' : Climbs q W'] : Climbs (pair p q) (fun post => W fun a m => W' fun b n => post (a, b) (max m n)) where
  out hp e := by
    obtain ⟨j, h1, h2⟩ := pair_ok e
    obtain ⟨x, m, rfl, hx, hm⟩ := h.out hp h1
    obtain ⟨y, n, rfl, hy, hn⟩ := h'.out hm h2
    exact ⟨x ++ y, max m n, by simp, hx.append hy, hn⟩
instance [Climbs p W] [Climbs q W'] : Climbs (preceded p q) (fun post => W fun _ m => W' fun b n => post b (max m n)) := by
  unfold preceded; infer_instance
instance [Climbs p W] [Climbs q W'] : Climbs (terminated p q) (fun post => W fun a m => W' fun _ n => post a (max m n)) := by
  unfold terminated; infer_instance
instance [Climbs p W] [Climbs q W'] [Climbs s W2] : Climbs (tuple3 p q s) (fun post => W fun a m => W' fun b n => W2 fun c k => post (a, b, c) (max m (max n k))) := by
  unfold tuple3; infer_instance
instance [Climbs p W] [Climbs q W'] [Climbs s W2] [Climbs t W3] :
    Climbs (tuple4 p q s t) (fun post => W fun a m => W' fun b n => W2 fun c k => W3 fun d l => post (a, b, c, d) (max m (max n (max k l)))) := by
  unfold tuple4; infer_instance
instance [Climbs p W] [Climbs q W'] [Climbs s W2] [Climbs t W3] [Climbs u W4] :
    Climbs (tuple5 p q s t u) (fun post => W fun a m => W' fun b n => W2 fun c k => W3 fun d l => W4 fun e o => post (a, b, c, d, e) (max m (max n (max k (max l o))))) := by
  unfold tuple5; infer_instance
instance (priority := low) [Climbs p W] [Climbs q W'] [Climbs s W2] : Climbs (delimited p q s) (fun post => W fun _ m => W' fun b n => W2 fun _ k => post b (max m (max n k))) := by
  unfold delimited; infer_instance
instance [h : Opens0 o p] [h1 : Climbs q W'] [h2 : Closes0 c s] [hm : Match o c] : Climbs (delimited p q s) (fun post => W' fun b n => post b (n + 1)) where
  out hp e := by
    obtain ⟨_, _, _, _, e1, e2, e3⟩ := delimited_ok.mp e
    obtain ⟨x, y, rfl, hx, hy⟩ := h.out e1
    obtain ⟨z, d, rfl, hz, hd⟩ := h1.out hp e2
    obtain ⟨x', y', rfl, hx', hy'⟩ := h2.out e3
    refine ⟨x ++ o :: ((y ++ (z ++ x')) ++ c :: y'), d + 1, by simp, ?_, hd⟩
    have := hx.append (NestsAt.group hm.out (hy.append (hz.append hx')) hy')
    simpa using this
instance [Climbs p W] [Climbs q W'] [Climbs s W2] : Climbs (separatedPair p s q) (fun post => W fun a m => W2 fun _ k => W' fun b n => post (a, b) (max m (max k n))) := by
  unfold separatedPair; infer_instance
instance [h : Climbs p W] : Climbs (opt p) (fun post => post none 0 ∧ W fun a n => post (some a) n) where
  out hp e := by
    rcases opt_ok.mp e with ⟨a, rfl, h1⟩ | ⟨rfl, rfl, _⟩
    · exact h.out hp.2 h1
    · exact ⟨[], 0, rfl, .nil, hp.1⟩
instance [h : Climbs p W] : Climbs (alt [p]) W := ⟨fun hp e => h.out hp e⟩
instance {p' : P α} {ps} {V : (α → Nat → Prop) → Prop} [h : Climbs p W] [h' : Climbs (alt (p' :: ps)) V] : Climbs (alt (p :: p' :: ps)) (fun post => W post ∧ V post) where
  out hp e := by
    rcases alt_two_ok.mp e with e' | ⟨_, e'⟩
    · exact h.out hp.1 e'
    · exact h'.out hp.2 e'

theorem manyRun_climbs [Height α] (h : Climbs p W) {c b : Nat} (hw : W fun a d => height a ≤ 14 * d + c ∧ d ≤ height a + b) {i r as} (hr : ManyRun p i r as) :
    ∃ s d, i = s ++ r ∧ NestsAt d s ∧ height as ≤ 14 * d + c ∧ d ≤ height as + b := by
  induction hr with
  | stop _ => exact ⟨[], 0, rfl, .nil, by simp [height, htList]⟩
  | step e _ _ ih =>
    obtain ⟨x, m, rfl, hx, h1⟩ := h.out hw e
    obtain ⟨y, n, rfl, hy, h2⟩ := ih
    exact ⟨x ++ y, max m n, by simp, hx.append hy, by simp only [height, htList] at *; omega⟩
theorem sepRun_climbs [Height α] (h : Climbs p W) [hq : Flat q] {c b : Nat} (hw : W fun a d => height a ≤ 14 * d + c ∧ d ≤ height a + b) {i r as} (hr : SepRun q p i r as) :
    ∃ s d, i = s ++ r ∧ NestsAt d s ∧ height as ≤ 14 * d + c ∧ d ≤ height as + b := by
  induction hr with
  | stopSep _ => exact ⟨[], 0, rfl, .nil, by simp [height, htList]⟩
  | stopElem _ _ _ => exact ⟨[], 0, rfl, .nil, by simp [height, htList]⟩
  | @step i j l r s a as e' _ e _ _ ih =>
    obtain ⟨z, rfl, hz⟩ := hq.out e'
    obtain ⟨x, m, rfl, hx, h1⟩ := h.out hw e
    obtain ⟨y, n, rfl, hy, h2⟩ := ih
    refine ⟨z ++ (x ++ y), max m n, by simp, ?_, by simp only [height, htList] at *; omega⟩
    simpa using hz.append (hx.append hy)
/-- What is known of lists. -/
abbrev Ls [Height α] (W : (α → Nat → Prop) → Prop) (post : List α → Nat → Prop) : Prop :=
  ∃ c b, (W fun a d => height a ≤ 14 * d + c ∧ d ≤ height a + b) ∧ ∀ l d, height l ≤ 14 * d + c → d ≤ height l + b → post l d
instance [Height α] [Good p] [h : Climbs p W] : Climbs (many0 p) (Ls W) where
  out hp e := by
    obtain ⟨c, b, hw, hp⟩ := hp
    obtain ⟨s, d, h1, h2, h3, h4⟩ := manyRun_climbs h hw (many0_ok.mp e)
    exact ⟨s, d, h1, h2, hp _ _ h3 h4⟩
instance [Height α] [Good p] [h : Climbs p W] : Climbs (many1 p) (Ls W) where
  out hp e := by
    obtain ⟨c, b, hw, hp⟩ := hp
    obtain ⟨_, _, _, rfl, h1, h2⟩ := many1_ok.mp e
    obtain ⟨x, m, rfl, hx, h3⟩ := h.out hw h1
    obtain ⟨y, n, rfl, hy, h4, h5⟩ := manyRun_climbs h hw h2
    exact ⟨x ++ y, max m n, by simp, hx.append hy, hp _ _ (by simp only [height, htList] at *; omega) (by simp only [height, htList] at *; omega)⟩
instance [Height α] [Good p] [Good q] [Flat q] [h : Climbs p W] : Climbs (separatedNonemptyList q p) (Ls W) where
  out hp e := by
    obtain ⟨c, b, hw, hp⟩ := hp
    obtain ⟨_, _, _, rfl, h1, _, h2⟩ := separatedNonemptyList_ok.mp e
    obtain ⟨x, m, rfl, hx, h3⟩ := h.out hw h1
    obtain ⟨y, n, rfl, hy, h4, h5⟩ := sepRun_climbs h hw h2
    exact ⟨x ++ y, max m n, by simp, hx.append hy, hp _ _ (by simp only [height, htList] at *; omega) (by simp only [height, htList] at *; omega)⟩
instance [Height α] [Good p] [Good q] [Flat q] [h : Climbs p W] : Climbs (separatedList q p) (Ls W) where
  out hp e := by
    obtain ⟨c, b, hw, hp⟩ := hp
    rcases separatedList_ok.mp e with ⟨rfl, rfl, _⟩ | ⟨_, _, _, rfl, h1, _, h2⟩
    · exact ⟨[], 0, rfl, .nil, hp _ _ (by simp [height, htList]) (by simp)⟩
    obtain ⟨x, m, rfl, hx, h3⟩ := h.out hw h1
    obtain ⟨y, n, rfl, hy, h4, h5⟩ := sepRun_climbs h hw h2
    exact ⟨x ++ y, max m n, by simp, hx.append hy, hp _ _ (by simp only [height, htList] at *; omega) (by simp only [height, htList] at *; omega)⟩

instance [Climbs p W] : Climbs (spEnc p) (fun post => ∀ _ : Str, W fun b n => ∀ _ : Str, post b (max 0 (max n 0))) := by unfold spEnc; infer_instance
instance [Climbs p W] : Climbs (spEnc1 p) (fun post => ∀ _ : Str, W fun b n => ∀ _ : Str, post b (max 0 (max n 0))) := by unfold spEnc1; infer_instance
instance [Climbs p W] [Climbs q W'] : Climbs (spSep p q) (fun post => W fun a m => ∀ _ : Str, W' fun b n => post (a, b) (max m (max 0 n))) := by
  unfold spSep; infer_instance
instance [Climbs p W] [Climbs q W'] : Climbs (spSep1 p q) (fun post => W fun a m => ∀ _ : Str, W' fun b n => post (a, b) (max m (max 0 n))) := by
  unfold spSep1; infer_instance
instance [Climbs p W] : Climbs (bracketted p) (fun post => W fun b n => post b (n + 1)) := by
  unfold bracketted; infer_instance
variable {t : List Char} [KwTag t] [DullTag t]
instance [Climbs p W] : Climbs (precededTag1 t p) (fun post => ∀ _ _ : Str, W fun b n => post b (max (max 0 0) n)) := by
  unfold precededTag1; infer_instance
instance [Climbs p W] : Climbs (precededTag t p) (fun post => ∀ _ _ : Str, W fun b n => post b (max (max 0 0) n)) := by
  unfold precededTag; infer_instance
instance [Climbs p W] : Climbs (precededBracketted t p) (fun post => ∀ _ _ : Str, W fun b n => post b (max (max 0 0) (n + 1))) := by
  unfold precededBracketted; infer_instance
end

theorem htOrder_one (x : Order) : htOrder x = 1 := by cases x <;> rfl
theorem htPathMod_one (x : PathMod) : htPathMod x = 1 := by cases x <;> rfl
theorem htSelectModifier_one (x : SelectModifier) : htSelectModifier x = 1 := by cases x <;> rfl
theorem htSign_one (x : Sign) : htSign x = 1 := by cases x <;> rfl

/-- Takes a condition apart and compares the numbers; lists within it have elements bounded by `c` and `b`. -/
macro "climb " c:num b:num : tactic => `(tactic|
  ((repeat' first | apply And.intro | intro _ | refine Exists.intro $c (Exists.intro $b ?_)) <;> (simp only [height, htList, htOption, htVar, htPrefixedName, htIri, htDefaultOrNamedIri, htRdfLiteralDescriptor, htRdfLiteral, htStringLiteral, htDecimal, htNumericLiteral, htBlankNode, htGraphTerm, htVarOrIri, htVarOrTerm, htVarOrIrisOrAll, htVerb, htSign_one, htPrefixDecl, htBaseOrPrefixDecl, htPrologue, htDataBlockValue, htInlineDataOneVar, htInlineDataFull, htDataBlock, htGraphNode, htTriplesNode, htPropertyList, htVerbList, htTriplesSameSubject, htQuadsNotTriples, htQuadsEntry, htQuads, htIriOrA, htIriOrAOrCaret, htPathMod_one, htPathAlternative, htPathSequence, htPathEltOrInverse, htPathElt, htPathPrimary, htVerbPathOrSimple, htPropertyListPathEntry, htGraphNodePath, htTriplesNodePath, htPropertyListPath, htTriplesSameSubjectPath, htTriplesBlock, htOrder_one, htLimitOffsetClause, htSelectModifier_one, htExpression, htConditionalAndExpression, htRelationalExpression, htOpExpression, htAdditiveExpression, htAddExpression, htMultiplicativeExpression, htMultExpression, htUnaryExpression, htPrimaryExpression, htExpressionList, htIriOrFunction, htArgList, htDistinctExpression, htExpressionAsVar, htExpressionAsVarOpt, htRegexExpression, htStrReplaceExpression, htConstraint, htFunctionCall, htBuiltInCall, htAggregate, htCount, htCountTarget, htGroupConcat, htGroupGraphPattern, htGroupGraphPatternSub, htGraphPatternAndTriples, htGraphPatternNotTriples, htGraphGraphPattern, htServiceGraphPattern, htSubSelect, htSelectClause, htSelectVars, htVarOrExpressionAsVar, htSolutionModifier, htHavingClause, htOrderClause, htOrderCondition, htOrderExpression, htGroupClause, htGroupCondition, htSelectQuery, htAskQuery, htDescribeQuery, htSubConstruct, htSubTriples, htConstructQuery, htSparqlQuery, htSparqlQueryStatement, htGraphOrDefault, htGraphRefAll, htLoadStatement, htClearStatement, htDropStatement, htCreateStatement, htAddStatement, htMoveStatement, htCopyStatement, htDeleteInsert, htModifyStatement, htUpdateStatement, htUpdate, htListGraphNode_eq, htListVerbList_eq, htListPathSequence_eq, htListPathEltOrInverse_eq, htListGraphNodePath_eq, htListConditionalAndExpression_eq, htListRelationalExpression_eq, htOptionOpExpression_eq, htListAddExpression_eq, htListMultExpression_eq, htListExpression_eq, htOptionArgList_eq, htOptionExpression_eq, htListGraphPatternAndTriples_eq, htListGroupGraphPattern_eq, htListVarOrExpressionAsVar_eq, htOptionOrderClause_eq, htOptionGroupClause_eq, htOptionHavingClause_eq, htListConstraint_eq, htListOrderCondition_eq, htListGroupCondition_eq] at * <;> omega)))

macro "ht! " n:ident c:num b:num : command => `(instance : Climbs $n (Ht $c $b) := by unfold $n; exact Climbs.ht inferInstance (by climb 0 0))
macro "ht! " n:ident c:num b:num " lists " c':num b':num : command =>
  `(instance : Climbs $n (Ht $c $b) := by unfold $n; exact Climbs.ht inferInstance (by climb $c' $b'))
macro "ht! " n:ident r:ident c:num b:num : command => `(instance : Climbs ($n $r) (Ht $c $b) := by unfold $n; exact Climbs.ht inferInstance (by climb 0 0))
macro "ht! " n:ident r:ident c:num b:num " lists " c':num b':num : command =>
  `(instance : Climbs ($n $r) (Ht $c $b) := by unfold $n; exact Climbs.ht inferInstance (by climb $c' $b'))

/-! ## Leaves -/

theorem climbs_pair {o c : Char} (h : (o, c) ∈ brackets) : Climbs (preceded (char o) (cut (terminated sp (char c)))) (fun post => ∀ a : Str, post a 1) where
  out hp e := by
    obtain ⟨_, _, e1, e2⟩ := preceded_ok.mp e
    obtain ⟨_, rfl⟩ := char_ok.mp e1
    obtain ⟨_, _, e3, e4⟩ := terminated_ok.mp (cut_ok.mp e2)
    obtain ⟨x, rfl, hx⟩ := Flat.out e3
    obtain ⟨_, rfl⟩ := char_ok.mp e4
    exact ⟨o :: (x ++ c :: []), 1, by simp, by simpa using NestsAt.group h hx .nil, hp _⟩
instance : Climbs anon (fun post => ∀ a : Str, post a 1) := climbs_pair (by decide)
instance : Climbs nil (fun post => ∀ a : Str, post a 1) := climbs_pair (by decide)

theorem htList_le {f : α → Nat} {c : Nat} (h : ∀ a, f a ≤ c) : ∀ l, htList f l ≤ c
  | [] => by simp [htList]
  | a :: l => by simp only [htList]; have := h a; have := htList_le h l; omega
theorem htOption_le {f : α → Nat} {c : Nat} (h : ∀ a, f a ≤ c) : ∀ l, htOption f l ≤ c
  | none => by simp [htOption]
  | some a => h a
theorem Flat.climbs [Height α] {p : P α} [Flat p] {c : Nat} (h : ∀ a : α, height a ≤ c) : Climbs p (fun post => ∀ a, height a ≤ c → post a 0) where
  out hp e := by obtain ⟨s, h1, h2⟩ := Flat.out e; exact ⟨s, 0, h1, h2, hp _ (h _)⟩
theorem htPrefixedName_le (x : PrefixedName) : htPrefixedName x ≤ 1 := by
  cases x <;> (simp only [htPrefixedName]; first | omega | grind)
theorem htVar_le (x : Var) : htVar x ≤ 1 := by
  cases x <;> (simp only [htVar]; first | omega | grind)
theorem htIri_le (x : Iri) : htIri x ≤ 2 := by
  cases x <;> (simp only [htIri]; have h0 := htPrefixedName_le; first | omega | grind)
theorem htVarOrIri_le (x : VarOrIri) : htVarOrIri x ≤ 3 := by
  cases x <;> (simp only [htVarOrIri]; have h0 := htVar_le; have h1 := htIri_le; first | omega | grind)
theorem htRdfLiteralDescriptor_le (x : RdfLiteralDescriptor) : htRdfLiteralDescriptor x ≤ 3 := by
  cases x <;> (simp only [htRdfLiteralDescriptor]; have h0 := htIri_le; first | omega | grind)
theorem htRdfLiteral_le (x : RdfLiteral) : htRdfLiteral x ≤ 4 := by
  cases x <;> (simp only [htRdfLiteral]; have h0 := htOption_le htRdfLiteralDescriptor_le; first | omega | grind)
theorem htDecimal_le (x : Decimal) : htDecimal x ≤ 1 := by
  cases x <;> (simp only [htDecimal]; first | omega | grind)
theorem htNumericLiteral_le (x : NumericLiteral) : htNumericLiteral x ≤ 2 := by
  cases x <;> (simp only [htNumericLiteral]; have h0 := htDecimal_le; first | omega | grind)
theorem htVerb_le (x : Verb) : htVerb x ≤ 4 := by
  cases x <;> (simp only [htVerb]; have h0 := htVarOrIri_le; first | omega | grind)
theorem htDataBlockValue_le (x : DataBlockValue) : htDataBlockValue x ≤ 5 := by
  cases x <;> (simp only [htDataBlockValue]; have h0 := htIri_le; have h1 := htRdfLiteral_le; have h2 := htNumericLiteral_le; first | omega | grind)
theorem htDefaultOrNamedIri_le (x : DefaultOrNamedIri) : htDefaultOrNamedIri x ≤ 3 := by
  cases x <;> (simp only [htDefaultOrNamedIri]; have h0 := htIri_le; first | omega | grind)
theorem htLimitOffsetClause_le (x : LimitOffsetClause) : htLimitOffsetClause x ≤ 1 := by
  cases x <;> (simp only [htLimitOffsetClause]; first | omega | grind)
theorem htPrefixDecl_le (x : PrefixDecl) : htPrefixDecl x ≤ 3 := by
  cases x <;> (simp only [htPrefixDecl]; have h0 := htIri_le; first | omega | grind)
theorem htBaseOrPrefixDecl_le (x : BaseOrPrefixDecl) : htBaseOrPrefixDecl x ≤ 4 := by
  cases x <;> (simp only [htBaseOrPrefixDecl]; have h0 := htPrefixDecl_le; first | omega | grind)
theorem htPrologue_le (x : Prologue) : htPrologue x ≤ 5 := by
  cases x <;> (simp only [htPrologue]; have h0 := htList_le htBaseOrPrefixDecl_le; first | omega | grind)
theorem htVarOrIrisOrAll_le (x : VarOrIrisOrAll) : htVarOrIrisOrAll x ≤ 4 := by
  cases x <;> (simp only [htVarOrIrisOrAll]; have h0 := htList_le htVarOrIri_le; first | omega | grind)
theorem htIriOrA_le (x : IriOrA) : htIriOrA x ≤ 3 := by
  cases x <;> (simp only [htIriOrA]; have h0 := htIri_le; first | omega | grind)
theorem htIriOrAOrCaret_le (x : IriOrAOrCaret) : htIriOrAOrCaret x ≤ 4 := by
  cases x <;> (simp only [htIriOrAOrCaret]; have h0 := htIriOrA_le; first | omega | grind)
theorem htGraphOrDefault_le (x : GraphOrDefault) : htGraphOrDefault x ≤ 3 := by
  cases x <;> (simp only [htGraphOrDefault]; have h0 := htIri_le; first | omega | grind)
theorem htGraphRefAll_le (x : GraphRefAll) : htGraphRefAll x ≤ 3 := by
  cases x <;> (simp only [htGraphRefAll]; have h0 := htIri_le; first | omega | grind)
theorem htAddStatement_le (x : AddStatement) : htAddStatement x ≤ 4 := by
  cases x <;> (simp only [htAddStatement]; have h0 := htGraphOrDefault_le; first | omega | grind)
theorem htMoveStatement_le (x : MoveStatement) : htMoveStatement x ≤ 4 := by
  cases x <;> (simp only [htMoveStatement]; have h0 := htGraphOrDefault_le; first | omega | grind)
theorem htCopyStatement_le (x : CopyStatement) : htCopyStatement x ≤ 4 := by
  cases x <;> (simp only [htCopyStatement]; have h0 := htGraphOrDefault_le; first | omega | grind)
theorem htCreateStatement_le (x : CreateStatement) : htCreateStatement x ≤ 3 := by
  cases x <;> (simp only [htCreateStatement]; have h0 := htIri_le; first | omega | grind)
theorem htDropStatement_le (x : DropStatement) : htDropStatement x ≤ 4 := by
  cases x <;> (simp only [htDropStatement]; have h0 := htGraphRefAll_le; first | omega | grind)
theorem htClearStatement_le (x : ClearStatement) : htClearStatement x ≤ 4 := by
  cases x <;> (simp only [htClearStatement]; have h0 := htGraphRefAll_le; first | omega | grind)
theorem htLoadStatement_le (x : LoadStatement) : htLoadStatement x ≤ 3 := by
  cases x <;> (simp only [htLoadStatement]; have h0 := htIri_le; have h1 := htOption_le htIri_le; first | omega | grind)
instance : Climbs iri (fun post => ∀ a, height a ≤ 2 → post a 0) := Flat.climbs htIri_le
instance : Climbs var (fun post => ∀ a, height a ≤ 1 → post a 0) := Flat.climbs htVar_le
instance : Climbs varOrIri (fun post => ∀ a, height a ≤ 3 → post a 0) := Flat.climbs htVarOrIri_le
instance : Climbs rdfLiteral (fun post => ∀ a, height a ≤ 4 → post a 0) := Flat.climbs htRdfLiteral_le
instance : Climbs numericLiteral (fun post => ∀ a, height a ≤ 2 → post a 0) := Flat.climbs htNumericLiteral_le
instance : Climbs verb (fun post => ∀ a, height a ≤ 4 → post a 0) := Flat.climbs htVerb_le
instance : Climbs datablockValue (fun post => ∀ a, height a ≤ 5 → post a 0) := Flat.climbs htDataBlockValue_le
instance : Climbs defaultOrNamedIri (fun post => ∀ a, height a ≤ 3 → post a 0) := Flat.climbs htDefaultOrNamedIri_le
instance : Climbs dataSetClause (fun post => ∀ a, height a ≤ 3 → post a 0) := Flat.climbs htDefaultOrNamedIri_le
instance : Climbs namedIri (fun post => ∀ a, height a ≤ 2 → post a 0) := Flat.climbs htIri_le
instance : Climbs graphRef (fun post => ∀ a, height a ≤ 2 → post a 0) := Flat.climbs htIri_le
instance : Climbs limitOffsetClause (fun post => ∀ a, height a ≤ 1 → post a 0) := Flat.climbs htLimitOffsetClause_le
instance : Climbs prologue (fun post => ∀ a, height a ≤ 5 → post a 0) := Flat.climbs htPrologue_le
instance : Climbs varOrIrisOrAll (fun post => ∀ a, height a ≤ 4 → post a 0) := Flat.climbs htVarOrIrisOrAll_le
instance : Climbs usingClause (fun post => ∀ a, height a ≤ 3 → post a 0) := Flat.climbs htDefaultOrNamedIri_le
instance : Climbs iriOrA (fun post => ∀ a, height a ≤ 3 → post a 0) := Flat.climbs htIriOrA_le
instance : Climbs iriOrAOrCaret (fun post => ∀ a, height a ≤ 4 → post a 0) := Flat.climbs htIriOrAOrCaret_le
instance : Climbs pathOneInPropertySet (fun post => ∀ a, height a ≤ 4 → post a 0) := Flat.climbs htIriOrAOrCaret_le
instance : Climbs graphOrDefault (fun post => ∀ a, height a ≤ 3 → post a 0) := Flat.climbs htGraphOrDefault_le
instance : Climbs graphRefAll (fun post => ∀ a, height a ≤ 3 → post a 0) := Flat.climbs htGraphRefAll_le
instance : Climbs copyStmt (fun post => ∀ a, height a ≤ 4 → post a 0) := Flat.climbs htCopyStatement_le
instance : Climbs createStmt (fun post => ∀ a, height a ≤ 3 → post a 0) := Flat.climbs htCreateStatement_le
instance : Climbs dropStmt (fun post => ∀ a, height a ≤ 4 → post a 0) := Flat.climbs htDropStatement_le
instance : Climbs clearStmt (fun post => ∀ a, height a ≤ 4 → post a 0) := Flat.climbs htClearStatement_le
instance : Climbs loadStmt (fun post => ∀ a, height a ≤ 3 → post a 0) := Flat.climbs htLoadStatement_le
instance : Climbs dataSetClauses (fun post => ∀ a, height a ≤ 3 → post a 0) := Flat.climbs (htList_le htDefaultOrNamedIri_le)

instance [Height α] [Height β] : Height (α × β) := ⟨fun x => max (height x.1) (height x.2)⟩

/-! ## Terms and data -/

ht! blankNode 1 0
ht! graphTerm 6 0
ht! varOrTerm 7 0
instance : Climbs inlineDataFull (Ht 6 1) := by
  unfold inlineDataFull
  exact Climbs.ht inferInstance fun _ => ⟨1, 0, by climb 0 0, fun _ _ _ _ => ⟨5, 1, fun _ _ => ⟨5, 0, by climb 0 0, by climb 0 0⟩, by climb 0 0⟩⟩
ht! inlineDataOneVar 6 0 lists 5 0
ht! datablock 7 0
ht! inlineData 7 0
ht! valuesClause 7 0

/-! ## Triples -/

section
variable {gn : P GraphNode} [Good gn] [Climbs gn (Ht 8 0)]
ht! collectionS gn 0 1 lists 8 0
ht! objectListS gn 8 0 lists 8 0
ht! propertyListNotEmptyS gn 10 0 lists 9 0
ht! blankNodePropertyListS gn 0 1
ht! triplesNodeS gn 1 0
ht! graphNodeStep gn 8 0
end
theorem climbs_fuel {W : (α → Nat → Prop) → Prop} : Climbs (fun _ => .err .fuel : P α) W := ⟨fun _ h => by cases h⟩
instance graphNodeF_climbs : ∀ n, Climbs (graphNodeF n) (Ht 8 0)
  | 0 => climbs_fuel
  | n + 1 => by have := graphNodeF_climbs n; unfold graphNodeF; infer_instance
instance : Climbs graphNode (Ht 8 0) := ⟨fun hp h => (graphNodeF_climbs _).out hp h⟩
ht! objectList 8 0
ht! propertyListNotEmpty 10 0
ht! triplesNode 1 0
instance : Climbs propertyList (Ht 10 0) := by unfold propertyList propertyListS; exact Climbs.ht inferInstance (by climb 0 0)
ht! triplesSameSubject 11 0
ht! triplesTemplate 11 0 lists 11 0
ht! quadsNotTriples 4 0
ht! quadsEntry 12 0
ht! quads 13 0 lists 12 0
ht! quadsPattern 0 1
ht! quadData 0 1
ht! insertClause 0 1
ht! deleteClause 0 1

/-! ## Paths -/

ht! pathNegatedPropertySet 0 1 lists 4 0
section
variable {pa : P PathAlternative} [Good pa] [Climbs pa (Ht 7 0)]
ht! pathPrimaryS pa 3 0
ht! pathEltS pa 4 0
ht! pathEltOrInverseS pa 5 0
ht! pathSequenceS pa 6 0 lists 5 0
ht! pathAlternativeStep pa 7 0 lists 6 0
end
instance pathAlternativeF_climbs : ∀ n, Climbs (pathAlternativeF n) (Ht 7 0)
  | 0 => climbs_fuel
  | n + 1 => by have := pathAlternativeF_climbs n; unfold pathAlternativeF; infer_instance
instance : Climbs pathAlternative (Ht 7 0) := ⟨fun hp h => (pathAlternativeF_climbs _).out hp h⟩
ht! verbPathOrSimple 8 0
ht! propertyListPathEntry 9 0
section
variable {gn : P GraphNodePath} [Good gn] [Climbs gn (Ht 8 0)]
ht! objectListPathS gn 8 0 lists 8 0
ht! propertyListPathNotEmptyS gn 10 0 lists 9 0
ht! blankNodePropertyListPathS gn 0 1
ht! triplesNodePathS gn 1 0 lists 8 0
ht! graphNodePathStep gn 8 0
end
instance graphNodePathF_climbs : ∀ n, Climbs (graphNodePathF n) (Ht 8 0)
  | 0 => climbs_fuel
  | n + 1 => by have := graphNodePathF_climbs n; unfold graphNodePathF; infer_instance
instance : Climbs graphNodePath (Ht 8 0) := ⟨fun hp h => (graphNodePathF_climbs _).out hp h⟩
ht! propertyListPathNotEmpty 10 0
ht! triplesNodePath 1 0
instance : Climbs propertyListPath (Ht 10 0) := by unfold propertyListPath propertyListPathS; exact Climbs.ht inferInstance (by climb 0 0)
ht! triplesSameSubjectPath 11 0
ht! triplesBlock 12 0 lists 11 0

/-! ## The expression / graph pattern nest -/

class CRec (R : Rec) : Prop where
  expr : Climbs R.expr (Ht 14 0)
  ggp : Climbs R.ggp (Ht 1 0)
instance {R : Rec} [CRec R] : Climbs R.expr (Ht 14 0) := CRec.expr
instance {R : Rec} [CRec R] : Climbs R.ggp (Ht 1 0) := CRec.ggp
section
variable {R : Rec} [RecGood R] [CRec R]
ht! exprPairS R 14 0
instance : Climbs (brackettedExpr3S R) (Ht 0 1) := by unfold brackettedExpr3S bracketted3; exact Climbs.ht inferInstance (by climb 0 0)
ht! expressionAsVarOptS R 1 0
ht! expressionAsVarS R 1 0
ht! expressionListS R 1 0 lists 14 0
ht! brackettedExpressionS R 0 1
ht! bindS R 1 0
ht! regexExpressionS R 1 0
ht! substringExpressionS R 1 0
ht! strReplaceExpressionS R 1 0
ht! argListS R 1 0 lists 14 0
ht! functionCallS R 3 0
ht! iriOrFunS R 3 0
ht! distinctExpressionS R 15 0
ht! countTargetS R 15 0
ht! countS R 2 0
ht! groupConcatS R 2 0
ht! aggregateS R 3 0
ht! builtInCall1S R 4 1
ht! builtInCall2S R 4 1
ht! builtInCallS R 4 1
ht! primaryExpressionS R 5 0
ht! unaryExpressionS R 6 0
ht! multExpressionS R 7 0
ht! multiplicativeExpressionS R 8 0 lists 7 0
ht! addExpressionS R 9 0 lists 7 0
ht! additiveExpressionS R 10 0 lists 9 0
ht! opExpressionS R 11 0
ht! relationalExpressionS R 12 0
ht! conditionalAndExpressionS R 13 0 lists 12 0
ht! expressionStep R 14 0 lists 13 0
ht! constraintS R 5 0
ht! filterS R 5 0
ht! orderExpressionS R 2 0
ht! orderConditionS R 6 0
ht! groupConditionS R 5 0
ht! groupClauseS R 6 0 lists 5 0
ht! orderClauseS R 7 0 lists 6 0
ht! havingClauseS R 6 0 lists 5 0
ht! solutionModifierS R 8 0
ht! whereClauseS R 1 0
ht! varOrExpressionAsVarS R 2 0
ht! selectVarsS R 3 0 lists 2 0
ht! selectClauseS R 4 0
ht! subSelectS R 9 0
ht! groupOrUnionGraphPatternS R 1 0 lists 1 0
ht! optionalGroupGraphPatternS R 1 0
ht! minusGraphPatternS R 1 0
ht! graphGraphPatternS R 4 0
ht! serviceGraphPatternS R 4 0
ht! graphPatternNotTriplesS R 8 0
ht! groupGraphPatternAndTriplesS R 13 0
ht! groupGraphPatternSubS R 14 0 lists 13 0
ht! groupGraphPatternStep R 1 0
end

instance recF_climbs : ∀ n, CRec (recF n)
  | 0 => ⟨climbs_fuel, climbs_fuel⟩
  | n + 1 => by
    have := recF_climbs n
    exact ⟨inferInstanceAs (Climbs (expressionStep (recF n)) (Ht 14 0)), inferInstanceAs (Climbs (groupGraphPatternStep (recF n)) (Ht 1 0))⟩
instance : Climbs expression (Ht 14 0) := ⟨fun hp h => (recF_climbs _).expr.out hp h⟩
instance : Climbs groupGraphPattern (Ht 1 0) := ⟨fun hp h => (recF_climbs _).ggp.out hp h⟩
instance : CRec R₀ := ⟨inferInstanceAs (Climbs expression (Ht 14 0)), inferInstanceAs (Climbs groupGraphPattern (Ht 1 0))⟩

/-! ## Queries and update requests -/

ht! solutionModifier 8 0
ht! whereClause 1 0
ht! selectClause 4 0
ht! selectQuery 9 0
ht! askQuery 9 0
ht! describeQuery 9 0
ht! constructTemplate 0 1 lists 11 0
ht! subTriples 9 0
ht! subConstruct 9 0
ht! constructQuery 10 0
ht! sparqlQuery 11 0
ht! sparqlQueryStmt 12 0
ht! insertData 0 1
ht! deleteData 0 1
ht! deleteWhereData 0 1
ht! deleteInsert 1 0
ht! modifyStmt 4 0 lists 3 0
ht! updateStmt 5 0

abbrev HtUpdate (post : Update → Nat → Prop) : Prop := ∀ u d, height u ≤ 14 * d + 5 + links u → d ≤ height u → post u d
instance {up : P Update} [Good up] [h : Climbs up HtUpdate] : Climbs (updateStep up) HtUpdate where
  out hp e := by
    unfold updateStep at e
    refine Climbs.out ?_ e
    (repeat' first | apply And.intro | intro _) <;> (apply hp <;> simp only [links] <;> climb 0 0)
instance updateF_climbs : ∀ n, Climbs (updateF n) HtUpdate
  | 0 => climbs_fuel
  | n + 1 => by have := updateF_climbs n; unfold updateF; infer_instance
instance : Climbs update HtUpdate := ⟨fun hp h => (updateF_climbs _).out hp h⟩

end NomSparql
