import Verif.Spec.Size
import Verif.Lemmas.Rendered
import Verif.Lemmas.Escaped

/-!
# The size of an answer against the text it was made of

`Weighs p wp`: if `wp post` holds, every answer of `p` satisfies `post a n`, where `n` is the number of characters `p` consumed.  `wp` is computed from
`p`, bottom up; for the named parsers it is `Std c`: the size of the answer is at most `12 n - c`.
-/

namespace NomSparql

set_option synthInstance.maxSize 4000
set_option synthInstance.maxHeartbeats 400000

class Weighs (p : P α) (wp : outParam ((α → Nat → Prop) → Prop)) : Prop where
  out : ∀ {post : α → Nat → Prop} {i r a}, wp post → p i = .ok r a → ∃ n, i.length = r.length + n ∧ post a n

/-- At most twelve for every character, less `c`. -/
abbrev Std [Size α] (c : Nat) (post : α → Nat → Prop) : Prop := ∀ a n, size a + c ≤ 12 * n → post a n
/-- At most twelve for every character, and `d` more. -/
abbrev Lax [Size α] (d : Nat) (post : α → Nat → Prop) : Prop := ∀ a n, size a ≤ 12 * n + d → post a n

section
variable {p : P α} {q : P β} {s : P γ} {t : P δ} {u : P ε} {W : (α → Nat → Prop) → Prop} {W' : (β → Nat → Prop) → Prop} {W2 : (γ → Nat → Prop) → Prop}
  {W3 : (δ → Nat → Prop) → Prop} {W4 : (ε → Nat → Prop) → Prop}

theorem Weighs.std [Size α] (h : Weighs p W) {c : Nat} (hw : W fun a n => size a + c ≤ 12 * n) : Weighs p (Std c) where
  out hp e := by obtain ⟨n, h1, h2⟩ := h.out hw e; exact ⟨n, h1, hp _ _ h2⟩
theorem Weighs.lax [Size α] (h : Weighs p W) {c : Nat} (hw : W fun a n => size a ≤ 12 * n + c) : Weighs p (Lax c) where
  out hp e := by obtain ⟨n, h1, h2⟩ := h.out hw e; exact ⟨n, h1, hp _ _ h2⟩

instance (priority := 1) [h : Good p] : Weighs p (fun post => ∀ a n, post a n) where
  out := by
    intro post i r a hp e
    have := h.out i
    rw [e] at this
    obtain ⟨x, rfl⟩ := this
    exact ⟨x.length, by simp; omega, hp _ _⟩
instance (priority := 2) [Good p] [h : Consumes p] : Weighs p (fun post => ∀ a n, 1 ≤ n → post a n) where
  out := by
    intro post i r a hp e
    have := h.out _ _ _ e
    exact ⟨i.length - r.length, by omega, hp _ _ (by omega)⟩
instance [h : Weighs p W] {f : α → β} : Weighs (map p f) (fun post => W fun a n => post (f a) n) where
  out hp e := by obtain ⟨a, h1, rfl⟩ := map_ok.mp e; exact h.out hp h1
instance [h : Weighs p W] [h' : Weighs q W'] : Weighs (pair p q) (fun post => W fun a m => W' fun b n => post (a, b) (m + n)) where
  out hp e := by
    obtain ⟨j, h1, h2⟩ := pair_ok e
    obtain ⟨m, e1, hm⟩ := h.out hp h1
    obtain ⟨n, e2, hn⟩ := h'.out hm h2
    exact ⟨m + n, by omega, hn⟩
instance [Weighs p W] [Weighs q W'] : Weighs (preceded p q) (fun post => W fun _ m => W' fun b n => post b (m + n)) := by
  unfold preceded; infer_instance
instance [Weighs p W] [Weighs q W'] : Weighs (terminated p q) (fun post => W fun a m => W' fun _ n => post a (m + n)) := by
  unfold terminated; infer_instance
instance [Weighs p W] [Weighs q W'] [Weighs s W2] : Weighs (tuple3 p q s) (fun post => W fun a m => W' fun b n => W2 fun c k => post (a, b, c) (m + (n + k))) := by
  unfold tuple3; infer_instance
instance [Weighs p W] [Weighs q W'] [Weighs s W2] [Weighs t W3] :
    Weighs (tuple4 p q s t) (fun post => W fun a m => W' fun b n => W2 fun c k => W3 fun d l => post (a, b, c, d) (m + (n + (k + l)))) := by
  unfold tuple4; infer_instance
instance [Weighs p W] [Weighs q W'] [Weighs s W2] [Weighs t W3] [Weighs u W4] :
    Weighs (tuple5 p q s t u) (fun post => W fun a m => W' fun b n => W2 fun c k => W3 fun d l => W4 fun e o => post (a, b, c, d, e) (m + (n + (k + (l + o))))) := by
  unfold tuple5; infer_instance
instance [Weighs p W] [Weighs q W'] [Weighs s W2] : Weighs (delimited p q s) (fun post => W fun _ m => W' fun b n => W2 fun _ k => post b (m + (n + k))) := by
  unfold delimited; infer_instance
instance [Weighs p W] [Weighs q W'] [Weighs s W2] : Weighs (separatedPair p s q) (fun post => W fun a m => W2 fun _ k => W' fun b n => post (a, b) (m + (k + n))) := by
  unfold separatedPair; infer_instance
instance [h : Weighs p W] : Weighs (opt p) (fun post => post none 0 ∧ W fun a n => post (some a) n) where
  out hp e := by
    rcases opt_ok.mp e with ⟨a, rfl, h1⟩ | ⟨rfl, rfl, _⟩
    · exact h.out hp.2 h1
    · exact ⟨0, rfl, hp.1⟩
instance [h : Weighs p W] : Weighs (alt [p]) W := ⟨fun hp e => h.out hp e⟩
instance {p' : P α} {ps} {V : (α → Nat → Prop) → Prop} [h : Weighs p W] [h' : Weighs (alt (p' :: ps)) V] : Weighs (alt (p :: p' :: ps)) (fun post => W post ∧ V post) where
  out hp e := by
    rcases alt_two_ok.mp e with e' | ⟨_, e'⟩
    · exact h.out hp.1 e'
    · exact h'.out hp.2 e'
instance [Good p] : Weighs (recognize p) (fun post => ∀ s : Str, post s s.length) where
  out hp e := by
    obtain ⟨h1, _⟩ := recognize_ok_iff.mp e
    exact ⟨_, by rw [h1]; simp; omega, hp _⟩

theorem manyRun_weighs [Size α] (h : Weighs p W) (hw : W fun a n => 1 + size a ≤ 12 * n) {i r as} (hr : ManyRun p i r as) :
    ∃ n, i.length = r.length + n ∧ size as ≤ 12 * n := by
  induction hr with
  | stop _ => exact ⟨0, rfl, by simp [size, szList]⟩
  | step e _ _ ih =>
    obtain ⟨m, e1, h1⟩ := h.out hw e
    obtain ⟨n, e2, h2⟩ := ih
    exact ⟨m + n, by omega, by simp [size, szList] at *; omega⟩
theorem sepRun_weighs [Size α] (h : Weighs p W) (hq : Weighs q W') (hw : W' fun _ k => W fun a n => 1 + size a ≤ 12 * (k + n)) {i r as} (hr : SepRun q p i r as) :
    ∃ n, i.length = r.length + n ∧ size as ≤ 12 * n := by
  induction hr with
  | stopSep _ => exact ⟨0, rfl, by simp [size, szList]⟩
  | stopElem _ _ _ => exact ⟨0, rfl, by simp [size, szList]⟩
  | @step i j l r s a as e' _ e _ _ ih =>
    obtain ⟨k, e0, h0⟩ := hq.out hw e'
    obtain ⟨m, e1, h1⟩ := h.out h0 e
    obtain ⟨n, e2, h2⟩ := ih
    exact ⟨k + m + n, by omega, by simp [size, szList] at *; omega⟩
instance [Size α] [Good p] [h : Weighs p W] : Weighs (many0 p) (fun post => (W fun a n => 1 + size a ≤ 12 * n) ∧ ∀ l n, size l ≤ 12 * n → post l n) where
  out hp e := by
    obtain ⟨n, e1, h1⟩ := manyRun_weighs h hp.1 (many0_ok.mp e)
    exact ⟨n, e1, hp.2 _ _ h1⟩
instance [Size α] [Good p] [h : Weighs p W] :
    Weighs (many1 p) (fun post => (W fun a n => 1 + size a ≤ 12 * n) ∧ W fun a m => ∀ l n, size l ≤ 12 * n → post (a :: l) (m + n)) where
  out hp e := by
    obtain ⟨_, _, _, rfl, h1, h2⟩ := many1_ok.mp e
    obtain ⟨m, e1, h1⟩ := h.out hp.2 h1
    obtain ⟨n, e2, h2⟩ := manyRun_weighs h hp.1 h2
    exact ⟨m + n, by omega, h1 _ _ h2⟩
instance [Size α] [Good p] [Good q] [hq : Weighs q W'] [h : Weighs p W] :
    Weighs (separatedNonemptyList q p) (fun post => (W' fun _ k => W fun a n => 1 + size a ≤ 12 * (k + n)) ∧ W fun a m => ∀ l n, size l ≤ 12 * n → post (a :: l) (m + n)) where
  out hp e := by
    obtain ⟨_, _, _, rfl, h1, _, h2⟩ := separatedNonemptyList_ok.mp e
    obtain ⟨m, e1, h1⟩ := h.out hp.2 h1
    obtain ⟨n, e2, h2⟩ := sepRun_weighs h hq hp.1 h2
    exact ⟨m + n, by omega, h1 _ _ h2⟩
instance [Size α] [Good p] [Good q] [hq : Weighs q W'] [h : Weighs p W] :
    Weighs (separatedList q p) (fun post => (W' fun _ k => W fun a n => 1 + size a ≤ 12 * (k + n)) ∧ post [] 0 ∧ W fun a m => ∀ l n, size l ≤ 12 * n → post (a :: l) (m + n)) where
  out hp e := by
    rcases separatedList_ok.mp e with ⟨rfl, rfl, _⟩ | ⟨_, _, _, rfl, h1, _, h2⟩
    · exact ⟨0, rfl, hp.2.1⟩
    obtain ⟨m, e1, h1⟩ := h.out hp.2.2 h1
    obtain ⟨n, e2, h2⟩ := sepRun_weighs h hq hp.1 h2
    exact ⟨m + n, by omega, h1 _ _ h2⟩
instance {f : Char → Bool} : Weighs (takeWhile f) (fun post => ∀ s : Str, post s s.length) where
  out hp e := by
    have h := (takeWhile_ok.mp e).1
    exact ⟨_, by rw [h]; simp; omega, hp _⟩

instance [Weighs p W] : Weighs (spEnc p) (fun post => ∀ (_ : Str) m, W fun b n => ∀ (_ : Str) k, post b (m + (n + k))) := by unfold spEnc; infer_instance
instance [Weighs p W] : Weighs (spEnc1 p) (fun post => ∀ (_ : Str) m, 1 ≤ m → W fun b n => ∀ (_ : Str) k, 1 ≤ k → post b (m + (n + k))) := by unfold spEnc1; infer_instance
instance [Weighs p W] [Weighs q W'] : Weighs (spSep p q) (fun post => W fun a m => ∀ (_ : Str) k, W' fun b n => post (a, b) (m + (k + n))) := by
  unfold spSep; infer_instance
instance [Weighs p W] [Weighs q W'] : Weighs (spSep1 p q) (fun post => W fun a m => ∀ (_ : Str) k, 1 ≤ k → W' fun b n => post (a, b) (m + (k + n))) := by
  unfold spSep1; infer_instance
instance [Weighs p W] : Weighs (bracketted p) (fun post => ∀ (_ : Char) m, 1 ≤ m → W fun b n => ∀ (_ : Char) k, 1 ≤ k → post b (m + (n + k))) := by
  unfold bracketted; infer_instance
instance {c t} [Weighs p W] : Weighs (precededTag1 (c :: t) p) (fun post => ∀ (_ : Str) m, 1 ≤ m → ∀ (_ : Str) k, 1 ≤ k → W fun b n => post b (m + k + n)) := by
  unfold precededTag1; infer_instance
instance {c t} [Weighs p W] : Weighs (precededTag (c :: t) p) (fun post => ∀ (_ : Str) m, 1 ≤ m → ∀ (_ : Str) k, W fun b n => post b (m + k + n)) := by
  unfold precededTag; infer_instance
instance {c t} [Weighs p W] : Weighs (precededBracketted (c :: t) p)
    (fun post => ∀ (_ : Str) m, 1 ≤ m → ∀ (_ : Str) k, ∀ (_ : Char) m', 1 ≤ m' → W fun b n => ∀ (_ : Char) k', 1 ≤ k' → post b (m + k + (m' + (n + k')))) := by
  unfold precededBracketted; infer_instance
end

theorem szPathMod_one (x : PathMod) : szPathMod x = 1 := by cases x <;> rfl
theorem szSelectModifier_one (x : SelectModifier) : szSelectModifier x = 1 := by cases x <;> rfl
theorem szOrder_one (x : Order) : szOrder x = 1 := by cases x <;> rfl
theorem szSign_one (x : Sign) : szSign x = 1 := by cases x <;> rfl

/-- Takes a condition apart and compares the numbers. -/
macro "weigh" : tactic => `(tactic|
  ((repeat' first | apply And.intro | intro _) <;> (simp only [size, szList, szOption, szStr, szVar, szPrefixedName, szIri, szDefaultOrNamedIri, szRdfLiteralDescriptor, szRdfLiteral, szStringLiteral, szDecimal, szNumericLiteral, szBlankNode, szGraphTerm, szVarOrIri, szVarOrTerm, szVarOrIrisOrAll, szVerb, szSign_one, szPrefixDecl, szBaseOrPrefixDecl, szPrologue, szDataBlockValue, szInlineDataOneVar, szInlineDataFull, szDataBlock, szGraphNode, szTriplesNode, szPropertyList, szVerbList, szTriplesSameSubject, szQuadsNotTriples, szQuadsEntry, szQuads, szIriOrA, szIriOrAOrCaret, szPathMod_one, szPathAlternative, szPathSequence, szPathEltOrInverse, szPathElt, szPathPrimary, szVerbPathOrSimple, szPropertyListPathEntry, szGraphNodePath, szTriplesNodePath, szPropertyListPath, szTriplesSameSubjectPath, szTriplesBlock, szOrder_one, szLimitOffsetClause, szSelectModifier_one, szExpression, szConditionalAndExpression, szRelationalExpression, szOpExpression, szAdditiveExpression, szAddExpression, szMultiplicativeExpression, szMultExpression, szUnaryExpression, szPrimaryExpression, szExpressionList, szIriOrFunction, szArgList, szDistinctExpression, szExpressionAsVar, szExpressionAsVarOpt, szRegexExpression, szStrReplaceExpression, szConstraint, szFunctionCall, szBuiltInCall, szAggregate, szCount, szCountTarget, szGroupConcat, szGroupGraphPattern, szGroupGraphPatternSub, szGraphPatternAndTriples, szGraphPatternNotTriples, szGraphGraphPattern, szServiceGraphPattern, szSubSelect, szSelectClause, szSelectVars, szVarOrExpressionAsVar, szSolutionModifier, szHavingClause, szOrderClause, szOrderCondition, szOrderExpression, szGroupClause, szGroupCondition, szSelectQuery, szAskQuery, szDescribeQuery, szSubConstruct, szSubTriples, szConstructQuery, szSparqlQuery, szSparqlQueryStatement, szGraphOrDefault, szGraphRefAll, szLoadStatement, szClearStatement, szDropStatement, szCreateStatement, szAddStatement, szMoveStatement, szCopyStatement, szDeleteInsert, szModifyStatement, szUpdateStatement, szUpdate,
    List.length_nil, List.length_cons, szListGraphNode_eq, szListVerbList_eq, szListPathSequence_eq, szListPathEltOrInverse_eq, szListGraphNodePath_eq, szListConditionalAndExpression_eq, szListRelationalExpression_eq, szOptionOpExpression_eq, szListAddExpression_eq, szListMultExpression_eq, szListExpression_eq, szOptionArgList_eq, szOptionExpression_eq, szListGraphPatternAndTriples_eq, szListGroupGraphPattern_eq, szListVarOrExpressionAsVar_eq, szOptionOrderClause_eq, szOptionGroupClause_eq, szOptionHavingClause_eq, szListConstraint_eq, szListOrderCondition_eq, szListGroupCondition_eq] at * <;> omega)))

macro "std! " n:ident c:num : command => `(instance : Weighs $n (Std $c) := by unfold $n; exact Weighs.std inferInstance (by weigh))
macro "lax! " n:ident c:num : command => `(instance : Weighs $n (Lax $c) := by unfold $n; exact Weighs.lax inferInstance (by weigh))

/-! ## src/terminals.rs -/
theorem escaped_weighs {a b} (ha : '\\' ∈ a) : Weighs (escaped (noneOf a) '\\' (oneOf b)) (fun post => ∀ s : Str, post s s.length) where
  out hp e := by
    have h := ((escaped_ok ha).mp e).1
    exact ⟨_, by rw [h]; simp; omega, hp _⟩
instance {c b} : Weighs (escaped (noneOf [c, '\\']) '\\' (oneOf b)) (fun post => ∀ s : Str, post s s.length) := escaped_weighs (by simp)
instance : Weighs stringLiteral (fun post => ∀ (s : Str) n, s.length + 2 ≤ n → post s n) where
  out hp e := by
    unfold stringLiteral at e
    exact Weighs.out (by (repeat' first | apply And.intro | intro _) <;> (apply hp; omega)) e
instance : Weighs iriRef (fun post => ∀ (s : Str) n, s.length + 2 ≤ n → post s n) where
  out hp e := by
    unfold iriRef at e
    exact Weighs.out (by (repeat' first | apply And.intro | intro _) <;> (apply hp; omega)) e
instance : Weighs languageTag (fun post => ∀ (s : Str) n, s.length + 1 ≤ n → post s n) where
  out hp e := by
    unfold languageTag at e
    exact Weighs.out (by (repeat' first | apply And.intro | intro _) <;> (apply hp; omega)) e
instance : Weighs pnLocal (fun post => ∀ s : Str, post s s.length) := by unfold pnLocal; infer_instance
instance : Weighs pnPrefix (fun post => ∀ s : Str, post s s.length) := by unfold pnPrefix; infer_instance
instance : Weighs pnameNs (fun post => ∀ (s : Option Str) n, szOption szStr s + 1 ≤ n → post s n) where
  out hp e := by
    unfold pnameNs at e
    exact Weighs.out (by (repeat' first | apply And.intro | intro _) <;> (apply hp; simp only [szOption, szStr] at *; omega)) e
instance : Weighs varName (fun post => ∀ s : Str, post s s.length) := by unfold varName; infer_instance
instance : Weighs pnameLn (fun post => ∀ (s : Option Str × Str) n, szOption szStr s.1 + szStr s.2 + 1 ≤ n → post s n) where
  out hp e := by
    unfold pnameLn at e
    exact Weighs.out (by (repeat' first | apply And.intro | intro _) <;> (apply hp; simp only [szOption, szStr] at *; omega)) e
std! prefixedName 11
std! iri 10
std! namedIri 30
std! defaultOrNamedIri 9
std! rdfLiteral 20
/-! ## Prologue -/
instance : Weighs baseDecl (fun post => ∀ (s : Str) n, s.length + 2 ≤ n → post s n) where
  out hp e := by
    unfold baseDecl at e
    exact Weighs.out (by (repeat' first | apply And.intro | intro _) <;> (apply hp; first | omega | (simp only [size, szOption] at *; omega))) e
std! prefixDecl 20
lax! prologue 1
std! numericLiteral 10
std! var 11
std! varOrIri 9
std! verb 8
std! varOrIrisOrAll 7
std! blankNode 11
std! graphTerm 9
std! varOrTerm 8
std! graphRef 20
std! graphOrDefault 9
std! graphRefAll 10
std! dataSetClause 20
std! datablockValue 9
std! inlineDataFull 20
std! inlineDataOneVar 20
std! datablock 19
std! inlineData 19
instance : Weighs valuesClause (fun post => ∀ (s : Option DataBlock) n, size s ≤ 12 * n → post s n) where
  out hp e := by
    unfold valuesClause at e
    exact Weighs.out (by (repeat' first | apply And.intro | intro _) <;> (apply hp; first | omega | (simp only [size, szOption] at *; omega))) e
std! usingClause 20
std! limitOffsetClause 11
section
variable {gn : P GraphNode} [Good gn] [Weighs gn (Std 7)]
instance : Weighs (collectionS gn) (Std 30) := by unfold collectionS; exact Weighs.std inferInstance (by weigh)
instance : Weighs (objectListS gn) (Std 6) := by unfold objectListS; exact Weighs.std inferInstance (by weigh)
instance : Weighs (propertyListNotEmptyS gn) (Std 11) := by unfold propertyListNotEmptyS; exact Weighs.std inferInstance (by weigh)
instance : Weighs (blankNodePropertyListS gn) (Std 30) := by unfold blankNodePropertyListS; exact Weighs.std inferInstance (by weigh)
instance : Weighs (triplesNodeS gn) (Std 29) := by unfold triplesNodeS; exact Weighs.std inferInstance (by weigh)
instance : Weighs (graphNodeStep gn) (Std 7) := by unfold graphNodeStep; exact Weighs.std inferInstance (by weigh)
end
theorem weighs_fuel {W : (α → Nat → Prop) → Prop} : Weighs (fun _ => .err .fuel : P α) W := ⟨fun _ h => by cases h⟩
instance graphNodeF_weighs : ∀ n, Weighs (graphNodeF n) (Std 7)
  | 0 => weighs_fuel
  | n + 1 => by have := graphNodeF_weighs n; unfold graphNodeF; infer_instance
instance : Weighs graphNode (Std 7) := ⟨fun hp h => (graphNodeF_weighs _).out hp h⟩
std! objectList 6
std! propertyListNotEmpty 11
std! triplesNode 29
instance : Weighs propertyList (fun post => ∀ o n, size o ≤ 12 * n → post o n) where
  out hp e := by
    unfold propertyList propertyListS at e
    exact Weighs.out (by (repeat' first | apply And.intro | intro _) <;> (apply hp; simp only [size, szOption] at *; omega)) e
std! triplesSameSubject 18
std! triplesTemplate 17
std! quadsNotTriples 30
std! quadsEntry 29
lax! quads 1
std! quadsPattern 23
std! quadData 23
std! insertClause 23
std! deleteClause 23
/-! ## Paths -/
std! iriOrA 9
std! iriOrAOrCaret 8
std! pathOneInPropertySet 8
std! pathNegatedPropertySet 20
section
variable {pa : P PathAlternative} [Good pa] [Weighs pa (Std 3)]
instance : Weighs (pathPrimaryS pa) (Std 9) := by unfold pathPrimaryS; exact Weighs.std inferInstance (by weigh)
instance : Weighs (pathEltS pa) (Std 8) := by unfold pathEltS; exact Weighs.std inferInstance (by weigh)
instance : Weighs (pathEltOrInverseS pa) (Std 7) := by unfold pathEltOrInverseS; exact Weighs.std inferInstance (by weigh)
instance : Weighs (pathSequenceS pa) (Std 5) := by unfold pathSequenceS; exact Weighs.std inferInstance (by weigh)
instance : Weighs (pathAlternativeStep pa) (Std 3) := by unfold pathAlternativeStep; exact Weighs.std inferInstance (by weigh)
end
instance pathAlternativeF_weighs : ∀ n, Weighs (pathAlternativeF n) (Std 3)
  | 0 => weighs_fuel
  | n + 1 => by have := pathAlternativeF_weighs n; unfold pathAlternativeF; infer_instance
instance : Weighs pathAlternative (Std 3) := ⟨fun hp h => (pathAlternativeF_weighs _).out hp h⟩
std! verbPathOrSimple 2
std! propertyListPathEntry 7
section
variable {gn : P GraphNodePath} [Good gn] [Weighs gn (Std 7)]
instance : Weighs (objectListPathS gn) (Std 6) := by unfold objectListPathS; exact Weighs.std inferInstance (by weigh)
instance : Weighs (propertyListPathNotEmptyS gn) (Std 7) := by unfold propertyListPathNotEmptyS; exact Weighs.std inferInstance (by weigh)
instance : Weighs (blankNodePropertyListPathS gn) (Std 30) := by unfold blankNodePropertyListPathS; exact Weighs.std inferInstance (by weigh)
instance : Weighs (triplesNodePathS gn) (Std 29) := by unfold triplesNodePathS; exact Weighs.std inferInstance (by weigh)
instance : Weighs (graphNodePathStep gn) (Std 7) := by unfold graphNodePathStep; exact Weighs.std inferInstance (by weigh)
end
instance graphNodePathF_weighs : ∀ n, Weighs (graphNodePathF n) (Std 7)
  | 0 => weighs_fuel
  | n + 1 => by have := graphNodePathF_weighs n; unfold graphNodePathF; infer_instance
instance : Weighs graphNodePath (Std 7) := ⟨fun hp h => (graphNodePathF_weighs _).out hp h⟩
std! propertyListPathNotEmpty 7
std! triplesNodePath 29
instance : Weighs propertyListPath (fun post => ∀ o n, size o ≤ 12 * n → post o n) where
  out hp e := by
    unfold propertyListPath propertyListPathS at e
    exact Weighs.out (by (repeat' first | apply And.intro | intro _) <;> (apply hp; simp only [size, szOption] at *; omega)) e
std! triplesSameSubjectPath 14
std! triplesBlock 12
/-! ## The expression / graph pattern nest -/
class WRec (R : Rec) : Prop where
  expr : Weighs R.expr (Std 0)
  ggp : Weighs R.ggp (Std 20)
instance {R : Rec} [WRec R] : Weighs R.expr (Std 0) := WRec.expr
instance {R : Rec} [WRec R] : Weighs R.ggp (Std 20) := WRec.ggp
section
variable {R : Rec} [RecGood R] [WRec R]
instance : Weighs (exprPairS R) (fun post => ∀ (s : Expression × Expression) n, size s.1 + size s.2 ≤ 12 * n → post s n) where
  out hp e := by
    unfold exprPairS at e
    exact Weighs.out (by (repeat' first | apply And.intro | intro _) <;> (apply hp; first | omega | (simp only [size] at *; omega))) e
instance : Weighs (brackettedExpr3S R) (fun post => ∀ (s : Expression × Expression × Option Expression) n, size s.1 + size s.2.1 + size s.2.2 + 24 ≤ 12 * n → post s n) where
  out hp e := by
    unfold brackettedExpr3S bracketted3 at e
    exact Weighs.out (by (repeat' first | apply And.intro | intro _) <;> (apply hp; first | omega | (simp only [size, szOption] at *; omega))) e
instance : Weighs (expressionAsVarOptS R) (Std 23) := by unfold expressionAsVarOptS; exact Weighs.std inferInstance (by weigh)
instance : Weighs (expressionAsVarS R) (Std 23) := by unfold expressionAsVarS; exact Weighs.std inferInstance (by weigh)
instance : Weighs (expressionListS R) (Std 11) := by unfold expressionListS; exact Weighs.std inferInstance (by weigh)
instance : Weighs (brackettedExpressionS R) (Std 24) := by unfold brackettedExpressionS; exact Weighs.std inferInstance (by weigh)
instance : Weighs (bindS R) (Std 23) := by unfold bindS; exact Weighs.std inferInstance (by weigh)
instance : Weighs (regexExpressionS R) (Std 30) := by unfold regexExpressionS; exact Weighs.std inferInstance (by weigh)
instance : Weighs (substringExpressionS R) (Std 30) := by unfold substringExpressionS; exact Weighs.std inferInstance (by weigh)
instance : Weighs (strReplaceExpressionS R) (Std 30) := by unfold strReplaceExpressionS; exact Weighs.std inferInstance (by weigh)
instance : Weighs (argListS R) (Std 11) := by unfold argListS; exact Weighs.std inferInstance (by weigh)
instance : Weighs (functionCallS R) (Std 20) := by unfold functionCallS; exact Weighs.std inferInstance (by weigh)
instance : Weighs (iriOrFunS R) (Std 9) := by unfold iriOrFunS; exact Weighs.std inferInstance (by weigh)
instance : Weighs (distinctExpressionS R) (Lax 1) := by unfold distinctExpressionS; exact Weighs.lax inferInstance (by weigh)
instance : Weighs (countTargetS R) (Lax 1) := by unfold countTargetS; exact Weighs.lax inferInstance (by weigh)
instance : Weighs (countS R) (Std 22) := by unfold countS; exact Weighs.std inferInstance (by weigh)
instance : Weighs (groupConcatS R) (Std 22) := by unfold groupConcatS; exact Weighs.std inferInstance (by weigh)
instance : Weighs (aggregateS R) (Std 21) := by unfold aggregateS; exact Weighs.std inferInstance (by weigh)
instance : Weighs (builtInCall1S R) (Std 20) := by unfold builtInCall1S; exact Weighs.std inferInstance (by weigh)
instance : Weighs (builtInCall2S R) (Std 20) := by unfold builtInCall2S; exact Weighs.std inferInstance (by weigh)
instance : Weighs (builtInCallS R) (Std 20) := by unfold builtInCallS; exact Weighs.std inferInstance (by weigh)
instance : Weighs (primaryExpressionS R) (Std 8) := by unfold primaryExpressionS; exact Weighs.std inferInstance (by weigh)
instance : Weighs (unaryExpressionS R) (Std 7) := by unfold unaryExpressionS; exact Weighs.std inferInstance (by weigh)
instance : Weighs (multExpressionS R) (Std 6) := by unfold multExpressionS; exact Weighs.std inferInstance (by weigh)
instance : Weighs (multiplicativeExpressionS R) (Std 6) := by unfold multiplicativeExpressionS; exact Weighs.std inferInstance (by weigh)
instance : Weighs (addExpressionS R) (Std 9) := by unfold addExpressionS; exact Weighs.std inferInstance (by weigh)
instance : Weighs (additiveExpressionS R) (Std 5) := by unfold additiveExpressionS; exact Weighs.std inferInstance (by weigh)
instance : Weighs (opExpressionS R) (Std 11) := by unfold opExpressionS; exact Weighs.std inferInstance (by weigh)
instance : Weighs (relationalExpressionS R) (Std 4) := by unfold relationalExpressionS; exact Weighs.std inferInstance (by weigh)
instance : Weighs (conditionalAndExpressionS R) (Std 2) := by unfold conditionalAndExpressionS; exact Weighs.std inferInstance (by weigh)
instance : Weighs (expressionStep R) (Std 0) := by unfold expressionStep; exact Weighs.std inferInstance (by weigh)
instance : Weighs (constraintS R) (Std 19) := by unfold constraintS; exact Weighs.std inferInstance (by weigh)
instance : Weighs (filterS R) (Std 19) := by unfold filterS; exact Weighs.std inferInstance (by weigh)
instance : Weighs (orderExpressionS R) (Std 19) := by unfold orderExpressionS; exact Weighs.std inferInstance (by weigh)
instance : Weighs (orderConditionS R) (Std 10) := by unfold orderConditionS; exact Weighs.std inferInstance (by weigh)
instance : Weighs (groupConditionS R) (Std 10) := by unfold groupConditionS; exact Weighs.std inferInstance (by weigh)
instance : Weighs (groupClauseS R) (Std 10) := by unfold groupClauseS; exact Weighs.std inferInstance (by weigh)
instance : Weighs (orderClauseS R) (Std 10) := by unfold orderClauseS; exact Weighs.std inferInstance (by weigh)
instance : Weighs (havingClauseS R) (Std 18) := by unfold havingClauseS; exact Weighs.std inferInstance (by weigh)
instance : Weighs (solutionModifierS R) (Lax 1) := by unfold solutionModifierS; exact Weighs.lax inferInstance (by weigh)
instance : Weighs (whereClauseS R) (Std 20) := by unfold whereClauseS; exact Weighs.std inferInstance (by weigh)
instance : Weighs (varOrExpressionAsVarS R) (Std 10) := by unfold varOrExpressionAsVarS; exact Weighs.std inferInstance (by weigh)
instance : Weighs (selectVarsS R) (Std 8) := by unfold selectVarsS; exact Weighs.std inferInstance (by weigh)
instance : Weighs (selectClauseS R) (Std 20) := by unfold selectClauseS; exact Weighs.std inferInstance (by weigh)
instance : Weighs (subSelectS R) (Std 20) := by unfold subSelectS; exact Weighs.std inferInstance (by weigh)
instance : Weighs (groupOrUnionGraphPatternS R) (Std 19) := by unfold groupOrUnionGraphPatternS; exact Weighs.std inferInstance (by weigh)
instance : Weighs (optionalGroupGraphPatternS R) (Std 19) := by unfold optionalGroupGraphPatternS; exact Weighs.std inferInstance (by weigh)
instance : Weighs (minusGraphPatternS R) (Std 19) := by unfold minusGraphPatternS; exact Weighs.std inferInstance (by weigh)
instance : Weighs (graphGraphPatternS R) (Std 18) := by unfold graphGraphPatternS; exact Weighs.std inferInstance (by weigh)
instance : Weighs (serviceGraphPatternS R) (Std 18) := by unfold serviceGraphPatternS; exact Weighs.std inferInstance (by weigh)
instance : Weighs (graphPatternNotTriplesS R) (Std 17) := by unfold graphPatternNotTriplesS; exact Weighs.std inferInstance (by weigh)
instance : Weighs (groupGraphPatternAndTriplesS R) (Std 16) := by unfold groupGraphPatternAndTriplesS; exact Weighs.std inferInstance (by weigh)
instance : Weighs (groupGraphPatternSubS R) (Lax 1) := by unfold groupGraphPatternSubS; exact Weighs.lax inferInstance (by weigh)
instance : Weighs (groupGraphPatternStep R) (Std 20) := by unfold groupGraphPatternStep; exact Weighs.std inferInstance (by weigh)
end

instance recF_weighs : ∀ n, WRec (recF n)
  | 0 => ⟨weighs_fuel, weighs_fuel⟩
  | n + 1 => by
    have := recF_weighs n
    exact ⟨inferInstanceAs (Weighs (expressionStep (recF n)) (Std 0)), inferInstanceAs (Weighs (groupGraphPatternStep (recF n)) (Std 20))⟩
instance : Weighs expression (Std 0) := ⟨fun hp h => (recF_weighs _).expr.out hp h⟩
instance : Weighs groupGraphPattern (Std 20) := ⟨fun hp h => (recF_weighs _).ggp.out hp h⟩
instance : WRec R₀ := ⟨inferInstanceAs (Weighs expression (Std 0)), inferInstanceAs (Weighs groupGraphPattern (Std 20))⟩
lax! solutionModifier 1
std! whereClause 20
std! selectClause 20
instance : Weighs dataSetClauses (fun post => ∀ (s : List DataSetClause) n, size s ≤ 12 * n → post s n) where
  out hp e := by
    unfold dataSetClauses at e
    refine Weighs.out ⟨by weigh, ?_, ?_⟩ e
    · exact hp _ _ (by weigh)
    · intro a m h l n h'
      exact hp _ _ (by weigh)
std! selectQuery 20
std! askQuery 20
std! describeQuery 20
std! subTriples 20
std! constructTemplate 20
std! subConstruct 20
std! constructQuery 20
std! sparqlQuery 19
std! sparqlQueryStmt 16
instance : Weighs silentFromTo (fun post => ∀ s n, size s.2.1 + size s.2.2 + 20 ≤ 12 * n → post s n) where
  out hp e := by
    unfold silentFromTo at e
    refine Weighs.out ?_ e
    (repeat' intro _) <;> (apply hp; weigh)
instance : Weighs silentGraphRefAll (fun post => ∀ s n, size s.2 + 10 ≤ 12 * n → post s n) where
  out hp e := by
    unfold silentGraphRefAll at e
    refine Weighs.out ?_ e
    (repeat' intro _) <;> (apply hp; weigh)
std! addStmt 10
std! moveStmt 10
std! copyStmt 10
std! createStmt 10
std! dropStmt 10
std! clearStmt 10
std! loadStmt 10
std! insertData 10
std! deleteData 10
std! deleteWhereData 10
std! deleteInsert 10
std! modifyStmt 10
std! updateStmt 9
instance {up : P Update} [Good up] [Weighs up (Lax 2)] : Weighs (updateStep up) (Lax 2) := by
  unfold updateStep
  exact Weighs.lax inferInstance (by weigh)
instance updateF_weighs : ∀ n, Weighs (updateF n) (Lax 2)
  | 0 => weighs_fuel
  | n + 1 => by have := updateF_weighs n; unfold updateF; infer_instance
instance : Weighs update (Lax 2) := ⟨fun hp h => (updateF_weighs _).out hp h⟩

end NomSparql
