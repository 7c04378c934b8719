import Verif.Spec.Swap

/-!
# Replacing by a function gives one tree

If names and strings are replaced by at most one other each, then a tree has at most one tree that the relations of Verif.Spec.Swap relate
to it: they leave nothing open but names and strings.
-/

namespace NomSparql

set_option maxHeartbeats 1000000
set_option linter.constructorNameAsVariable false

variable {T : Swap}

theorem each_det {R : α → α → Prop} {l b c : List α} (h1 : l.length = b.length) (h2 : Each2 (fun a x => ∀ y, R a y → x = y) l b)
    (g1 : l.length = c.length) (g2 : Each2 R l c) : b = c := by
  apply List.ext_getElem (by omega)
  intro k hb hc
  have hk : k < l.length := by omega
  exact h2 k l[k] (List.getElem?_eq_getElem hk) b[k] (List.getElem?_eq_getElem hb) c[k]
    (g2 k l[k] (List.getElem?_eq_getElem hk) c[k] (List.getElem?_eq_getElem hc))

theorem both_det {R : α → α → Prop} {l b c : Option α} (h1 : l.isSome = b.isSome) (h2 : Both2 (fun a x => ∀ y, R a y → x = y) l b)
    (g1 : l.isSome = c.isSome) (g2 : Both2 R l c) : b = c := by
  cases l with
  | none => cases b <;> cases c <;> simp_all
  | some a =>
    cases b with
    | none => cases h1
    | some b => cases c with
      | none => cases g1
      | some c => rw [h2 a rfl b rfl c (g2 a rfl c rfl)]

theorem all_det {R : α → α → Prop} (h : ∀ {a b}, R a b → ∀ c, R a c → b = c) {l b : List α} (h1 : All2 R l b) (c) (h2 : All2 R l c) : b = c :=
  each_det h1.len (fun k a e a' e' => h (h1.each k a e a' e')) h2.len h2.each

theorem opt_det {R : α → α → Prop} (h : ∀ {a b}, R a b → ∀ c, R a c → b = c) {l b : Option α} (h1 : Opt2 R l b) (c) (h2 : Opt2 R l c) : b = c :=
  both_det h1.some (fun a e a' e' => h (h1.both a e a' e')) h2.some h2.both

theorem SwVar.det (hT : T.Fun) : ∀ {a b}, SwVar T a b → ∀ c, SwVar T a c → b = c
  | _, _, .qmark h0, c, g => by
    cases g with
    | qmark g0 =>
      cases (hT.name h0 g0)
      rfl
  | _, _, .dollar h0, c, g => by
    cases g with
    | dollar g0 =>
      cases (hT.name h0 g0)
      rfl

theorem SwRdfLiteral.det (hT : T.Fun) : ∀ {a b}, SwRdfLiteral T a b → ∀ c, SwRdfLiteral T a c → b = c
  | _, _, .mk h0, c, g => by
    cases g with
    | mk g0 =>
      cases (hT.text h0 g0)
      rfl

theorem SwStringLiteral.det (hT : T.Fun) : ∀ {a b}, SwStringLiteral T a b → ∀ c, SwStringLiteral T a c → b = c
  | _, _, .simple h0, c, g => by
    cases g with
    | simple g0 =>
      cases (hT.text h0 g0)
      rfl
  | _, _, .language h0, c, g => by
    cases g with
    | language g0 =>
      cases (hT.text h0 g0)
      rfl
  | _, _, .typed h0, c, g => by
    cases g with
    | typed g0 =>
      cases (hT.text h0 g0)
      rfl

theorem SwGraphTerm.det (hT : T.Fun) : ∀ {a b}, SwGraphTerm T a b → ∀ c, SwGraphTerm T a c → b = c
  | _, _, .iri, c, g => by cases g; rfl
  | _, _, .rdfLiteral h0, c, g => by
    cases g with
    | rdfLiteral g0 =>
      cases (SwRdfLiteral.det hT h0 _ g0)
      rfl
  | _, _, .numericLiteral, c, g => by cases g; rfl
  | _, _, .booleanLiteral, c, g => by cases g; rfl
  | _, _, .blankNode, c, g => by cases g; rfl
  | _, _, .nil, c, g => by cases g; rfl

theorem SwVarOrIri.det (hT : T.Fun) : ∀ {a b}, SwVarOrIri T a b → ∀ c, SwVarOrIri T a c → b = c
  | _, _, .var h0, c, g => by
    cases g with
    | var g0 =>
      cases (SwVar.det hT h0 _ g0)
      rfl
  | _, _, .iri, c, g => by cases g; rfl

theorem SwVarOrTerm.det (hT : T.Fun) : ∀ {a b}, SwVarOrTerm T a b → ∀ c, SwVarOrTerm T a c → b = c
  | _, _, .var h0, c, g => by
    cases g with
    | var g0 =>
      cases (SwVar.det hT h0 _ g0)
      rfl
  | _, _, .term h0, c, g => by
    cases g with
    | term g0 =>
      cases (SwGraphTerm.det hT h0 _ g0)
      rfl

theorem SwVarOrIrisOrAll.det (hT : T.Fun) : ∀ {a b}, SwVarOrIrisOrAll T a b → ∀ c, SwVarOrIrisOrAll T a c → b = c
  | _, _, .varIri h0, c, g => by
    cases g with
    | varIri g0 =>
      cases ((all_det (R := (SwVarOrIri T)) (fun h => SwVarOrIri.det hT h)) h0 _ g0)
      rfl
  | _, _, .all, c, g => by cases g; rfl

theorem SwVerb.det (hT : T.Fun) : ∀ {a b}, SwVerb T a b → ∀ c, SwVerb T a c → b = c
  | _, _, .varOrIri h0, c, g => by
    cases g with
    | varOrIri g0 =>
      cases (SwVarOrIri.det hT h0 _ g0)
      rfl
  | _, _, .a, c, g => by cases g; rfl

theorem SwDataBlockValue.det (hT : T.Fun) : ∀ {a b}, SwDataBlockValue T a b → ∀ c, SwDataBlockValue T a c → b = c
  | _, _, .iri, c, g => by cases g; rfl
  | _, _, .rdfLiteral h0, c, g => by
    cases g with
    | rdfLiteral g0 =>
      cases (SwRdfLiteral.det hT h0 _ g0)
      rfl
  | _, _, .numericLiteral, c, g => by cases g; rfl
  | _, _, .booleanLiteral, c, g => by cases g; rfl
  | _, _, .undef, c, g => by cases g; rfl

theorem SwInlineDataOneVar.det (hT : T.Fun) : ∀ {a b}, SwInlineDataOneVar T a b → ∀ c, SwInlineDataOneVar T a c → b = c
  | _, _, .mk h0 h1, c, g => by
    cases g with
    | mk g0 g1 =>
      cases (SwVar.det hT h0 _ g0)
      cases ((all_det (R := (SwDataBlockValue T)) (fun h => SwDataBlockValue.det hT h)) h1 _ g1)
      rfl

theorem SwInlineDataFull.det (hT : T.Fun) : ∀ {a b}, SwInlineDataFull T a b → ∀ c, SwInlineDataFull T a c → b = c
  | _, _, .mk h0 h1, c, g => by
    cases g with
    | mk g0 g1 =>
      cases ((all_det (R := (SwVar T)) (fun h => SwVar.det hT h)) h0 _ g0)
      cases ((all_det (R := (All2 (SwDataBlockValue T))) (all_det (R := (SwDataBlockValue T)) (fun h => SwDataBlockValue.det hT h))) h1 _ g1)
      rfl

theorem SwDataBlock.det (hT : T.Fun) : ∀ {a b}, SwDataBlock T a b → ∀ c, SwDataBlock T a c → b = c
  | _, _, .inlineDataOneVar h0, c, g => by
    cases g with
    | inlineDataOneVar g0 =>
      cases (SwInlineDataOneVar.det hT h0 _ g0)
      rfl
  | _, _, .inlineDataFull h0, c, g => by
    cases g with
    | inlineDataFull g0 =>
      cases (SwInlineDataFull.det hT h0 _ g0)
      rfl

mutual
theorem SwGraphNode.det (hT : T.Fun) : ∀ {a b}, SwGraphNode T a b → ∀ c, SwGraphNode T a c → b = c
  | _, _, .varOrTerm h0, c, g => by
    cases g with
    | varOrTerm g0 =>
      cases (SwVarOrTerm.det hT h0 _ g0)
      rfl
  | _, _, .triplesNode h0, c, g => by
    cases g with
    | triplesNode g0 =>
      cases (SwTriplesNode.det hT h0 _ g0)
      rfl
termination_by structural _ _ h => h
theorem SwTriplesNode.det (hT : T.Fun) : ∀ {a b}, SwTriplesNode T a b → ∀ c, SwTriplesNode T a c → b = c
  | _, _, .collection h0 h1, c, g => by
    cases g with
    | collection g0 g1 =>
      cases (each_det h0 (fun k a e a' e' => SwGraphNode.det hT (h1 k a e a' e')) g0 g1)
      rfl
  | _, _, .blankNodePropertyList h0, c, g => by
    cases g with
    | blankNodePropertyList g0 =>
      cases (SwPropertyList.det hT h0 _ g0)
      rfl
termination_by structural _ _ h => h
theorem SwPropertyList.det (hT : T.Fun) : ∀ {a b}, SwPropertyList T a b → ∀ c, SwPropertyList T a c → b = c
  | _, _, .mk h0 h1, c, g => by
    cases g with
    | mk g0 g1 =>
      cases (each_det h0 (fun k a e a' e' => SwVerbList.det hT (h1 k a e a' e')) g0 g1)
      rfl
termination_by structural _ _ h => h
theorem SwVerbList.det (hT : T.Fun) : ∀ {a b}, SwVerbList T a b → ∀ c, SwVerbList T a c → b = c
  | _, _, .mk h0 h1 h2, c, g => by
    cases g with
    | mk g0 g1 g2 =>
      cases (SwVerb.det hT h0 _ g0)
      cases (each_det h1 (fun k a e a' e' => SwGraphNode.det hT (h2 k a e a' e')) g1 g2)
      rfl
termination_by structural _ _ h => h
end

theorem SwTriplesSameSubject.det (hT : T.Fun) : ∀ {a b}, SwTriplesSameSubject T a b → ∀ c, SwTriplesSameSubject T a c → b = c
  | _, _, .term h0 h1, c, g => by
    cases g with
    | term g0 g1 =>
      cases (SwVarOrTerm.det hT h0 _ g0)
      cases (SwPropertyList.det hT h1 _ g1)
      rfl
  | _, _, .node h0 h1, c, g => by
    cases g with
    | node g0 g1 =>
      cases (SwTriplesNode.det hT h0 _ g0)
      cases ((opt_det (R := (SwPropertyList T)) (fun h => SwPropertyList.det hT h)) h1 _ g1)
      rfl

theorem SwQuadsNotTriples.det (hT : T.Fun) : ∀ {a b}, SwQuadsNotTriples T a b → ∀ c, SwQuadsNotTriples T a c → b = c
  | _, _, .mk h0 h1, c, g => by
    cases g with
    | mk g0 g1 =>
      cases (SwVarOrIri.det hT h0 _ g0)
      cases ((opt_det (R := (All2 (SwTriplesSameSubject T))) (all_det (R := (SwTriplesSameSubject T)) (fun h => SwTriplesSameSubject.det hT h))) h1 _ g1)
      rfl

theorem SwQuadsEntry.det (hT : T.Fun) : ∀ {a b}, SwQuadsEntry T a b → ∀ c, SwQuadsEntry T a c → b = c
  | _, _, .mk h0 h1, c, g => by
    cases g with
    | mk g0 g1 =>
      cases (SwQuadsNotTriples.det hT h0 _ g0)
      cases ((opt_det (R := (All2 (SwTriplesSameSubject T))) (all_det (R := (SwTriplesSameSubject T)) (fun h => SwTriplesSameSubject.det hT h))) h1 _ g1)
      rfl

theorem SwQuads.det (hT : T.Fun) : ∀ {a b}, SwQuads T a b → ∀ c, SwQuads T a c → b = c
  | _, _, .mk h0 h1, c, g => by
    cases g with
    | mk g0 g1 =>
      cases ((opt_det (R := (All2 (SwTriplesSameSubject T))) (all_det (R := (SwTriplesSameSubject T)) (fun h => SwTriplesSameSubject.det hT h))) h0 _ g0)
      cases ((all_det (R := (SwQuadsEntry T)) (fun h => SwQuadsEntry.det hT h)) h1 _ g1)
      rfl

theorem SwVerbPathOrSimple.det (hT : T.Fun) : ∀ {a b}, SwVerbPathOrSimple T a b → ∀ c, SwVerbPathOrSimple T a c → b = c
  | _, _, .path, c, g => by cases g; rfl
  | _, _, .simple h0, c, g => by
    cases g with
    | simple g0 =>
      cases (SwVar.det hT h0 _ g0)
      rfl

theorem SwPropertyListPathEntry.det (hT : T.Fun) : ∀ {a b}, SwPropertyListPathEntry T a b → ∀ c, SwPropertyListPathEntry T a c → b = c
  | _, _, .mk h0 h1, c, g => by
    cases g with
    | mk g0 g1 =>
      cases (SwVerbPathOrSimple.det hT h0 _ g0)
      cases ((all_det (R := (SwGraphNode T)) (fun h => SwGraphNode.det hT h)) h1 _ g1)
      rfl

mutual
theorem SwGraphNodePath.det (hT : T.Fun) : ∀ {a b}, SwGraphNodePath T a b → ∀ c, SwGraphNodePath T a c → b = c
  | _, _, .varOrTerm h0, c, g => by
    cases g with
    | varOrTerm g0 =>
      cases (SwVarOrTerm.det hT h0 _ g0)
      rfl
  | _, _, .triplesNodePath h0, c, g => by
    cases g with
    | triplesNodePath g0 =>
      cases (SwTriplesNodePath.det hT h0 _ g0)
      rfl
termination_by structural _ _ h => h
theorem SwTriplesNodePath.det (hT : T.Fun) : ∀ {a b}, SwTriplesNodePath T a b → ∀ c, SwTriplesNodePath T a c → b = c
  | _, _, .collectionPath h0 h1, c, g => by
    cases g with
    | collectionPath g0 g1 =>
      cases (each_det h0 (fun k a e a' e' => SwGraphNodePath.det hT (h1 k a e a' e')) g0 g1)
      rfl
  | _, _, .blankNodePropertyListPath h0, c, g => by
    cases g with
    | blankNodePropertyListPath g0 =>
      cases (SwPropertyListPath.det hT h0 _ g0)
      rfl
termination_by structural _ _ h => h
theorem SwPropertyListPath.det (hT : T.Fun) : ∀ {a b}, SwPropertyListPath T a b → ∀ c, SwPropertyListPath T a c → b = c
  | _, _, .mk h0 h1 h2 h3 h4, c, g => by
    cases g with
    | mk g0 g1 g2 g3 g4 =>
      cases (SwVerbPathOrSimple.det hT h0 _ g0)
      cases (each_det h1 (fun k a e a' e' => SwGraphNodePath.det hT (h2 k a e a' e')) g1 g2)
      cases (each_det h3 (fun k a e a' e' => SwPropertyListPathEntry.det hT (h4 k a e a' e')) g3 g4)
      rfl
termination_by structural _ _ h => h
end

theorem SwTriplesSameSubjectPath.det (hT : T.Fun) : ∀ {a b}, SwTriplesSameSubjectPath T a b → ∀ c, SwTriplesSameSubjectPath T a c → b = c
  | _, _, .term h0 h1, c, g => by
    cases g with
    | term g0 g1 =>
      cases (SwVarOrTerm.det hT h0 _ g0)
      cases (SwPropertyListPath.det hT h1 _ g1)
      rfl
  | _, _, .node h0 h1, c, g => by
    cases g with
    | node g0 g1 =>
      cases (SwTriplesNodePath.det hT h0 _ g0)
      cases ((opt_det (R := (SwPropertyListPath T)) (fun h => SwPropertyListPath.det hT h)) h1 _ g1)
      rfl

theorem SwTriplesBlock.det (hT : T.Fun) : ∀ {a b}, SwTriplesBlock T a b → ∀ c, SwTriplesBlock T a c → b = c
  | _, _, .mk h0, c, g => by
    cases g with
    | mk g0 =>
      cases ((all_det (R := (SwTriplesSameSubjectPath T)) (fun h => SwTriplesSameSubjectPath.det hT h)) h0 _ g0)
      rfl

mutual
theorem SwExpression.det (hT : T.Fun) : ∀ {a b}, SwExpression T a b → ∀ c, SwExpression T a c → b = c
  | _, _, .mk h0 h1, c, g => by
    cases g with
    | mk g0 g1 =>
      cases (each_det h0 (fun k a e a' e' => SwConditionalAndExpression.det hT (h1 k a e a' e')) g0 g1)
      rfl
termination_by structural _ _ h => h
theorem SwConditionalAndExpression.det (hT : T.Fun) : ∀ {a b}, SwConditionalAndExpression T a b → ∀ c, SwConditionalAndExpression T a c → b = c
  | _, _, .mk h0 h1, c, g => by
    cases g with
    | mk g0 g1 =>
      cases (each_det h0 (fun k a e a' e' => SwRelationalExpression.det hT (h1 k a e a' e')) g0 g1)
      rfl
termination_by structural _ _ h => h
theorem SwRelationalExpression.det (hT : T.Fun) : ∀ {a b}, SwRelationalExpression T a b → ∀ c, SwRelationalExpression T a c → b = c
  | _, _, .mk h0 h1 h2, c, g => by
    cases g with
    | mk g0 g1 g2 =>
      cases (SwAdditiveExpression.det hT h0 _ g0)
      cases (both_det h1 (fun a e a' e' => SwOpExpression.det hT (h2 a e a' e')) g1 g2)
      rfl
termination_by structural _ _ h => h
theorem SwOpExpression.det (hT : T.Fun) : ∀ {a b}, SwOpExpression T a b → ∀ c, SwOpExpression T a c → b = c
  | _, _, .eq h0, c, g => by
    cases g with
    | eq g0 =>
      cases (SwAdditiveExpression.det hT h0 _ g0)
      rfl
  | _, _, .ne h0, c, g => by
    cases g with
    | ne g0 =>
      cases (SwAdditiveExpression.det hT h0 _ g0)
      rfl
  | _, _, .lt h0, c, g => by
    cases g with
    | lt g0 =>
      cases (SwAdditiveExpression.det hT h0 _ g0)
      rfl
  | _, _, .gt h0, c, g => by
    cases g with
    | gt g0 =>
      cases (SwAdditiveExpression.det hT h0 _ g0)
      rfl
  | _, _, .le h0, c, g => by
    cases g with
    | le g0 =>
      cases (SwAdditiveExpression.det hT h0 _ g0)
      rfl
  | _, _, .ge h0, c, g => by
    cases g with
    | ge g0 =>
      cases (SwAdditiveExpression.det hT h0 _ g0)
      rfl
  | _, _, .in h0, c, g => by
    cases g with
    | «in» g0 =>
      cases (SwExpressionList.det hT h0 _ g0)
      rfl
  | _, _, .nin h0, c, g => by
    cases g with
    | nin g0 =>
      cases (SwExpressionList.det hT h0 _ g0)
      rfl
termination_by structural _ _ h => h
theorem SwAdditiveExpression.det (hT : T.Fun) : ∀ {a b}, SwAdditiveExpression T a b → ∀ c, SwAdditiveExpression T a c → b = c
  | _, _, .mk h0 h1 h2, c, g => by
    cases g with
    | mk g0 g1 g2 =>
      cases (SwMultiplicativeExpression.det hT h0 _ g0)
      cases (each_det h1 (fun k a e a' e' => SwAddExpression.det hT (h2 k a e a' e')) g1 g2)
      rfl
termination_by structural _ _ h => h
theorem SwAddExpression.det (hT : T.Fun) : ∀ {a b}, SwAddExpression T a b → ∀ c, SwAddExpression T a c → b = c
  | _, _, .add h0, c, g => by
    cases g with
    | add g0 =>
      cases (SwMultiplicativeExpression.det hT h0 _ g0)
      rfl
  | _, _, .sub h0, c, g => by
    cases g with
    | sub g0 =>
      cases (SwMultiplicativeExpression.det hT h0 _ g0)
      rfl
  | _, _, .numeric h0 h1, c, g => by
    cases g with
    | numeric g0 g1 =>
      cases (each_det h0 (fun k a e a' e' => SwMultExpression.det hT (h1 k a e a' e')) g0 g1)
      rfl
termination_by structural _ _ h => h
theorem SwMultiplicativeExpression.det (hT : T.Fun) : ∀ {a b}, SwMultiplicativeExpression T a b → ∀ c, SwMultiplicativeExpression T a c → b = c
  | _, _, .mk h0 h1 h2, c, g => by
    cases g with
    | mk g0 g1 g2 =>
      cases (SwUnaryExpression.det hT h0 _ g0)
      cases (each_det h1 (fun k a e a' e' => SwMultExpression.det hT (h2 k a e a' e')) g1 g2)
      rfl
termination_by structural _ _ h => h
theorem SwMultExpression.det (hT : T.Fun) : ∀ {a b}, SwMultExpression T a b → ∀ c, SwMultExpression T a c → b = c
  | _, _, .mult h0, c, g => by
    cases g with
    | mult g0 =>
      cases (SwUnaryExpression.det hT h0 _ g0)
      rfl
  | _, _, .div h0, c, g => by
    cases g with
    | div g0 =>
      cases (SwUnaryExpression.det hT h0 _ g0)
      rfl
termination_by structural _ _ h => h
theorem SwUnaryExpression.det (hT : T.Fun) : ∀ {a b}, SwUnaryExpression T a b → ∀ c, SwUnaryExpression T a c → b = c
  | _, _, .not h0, c, g => by
    cases g with
    | not g0 =>
      cases (SwPrimaryExpression.det hT h0 _ g0)
      rfl
  | _, _, .add h0, c, g => by
    cases g with
    | add g0 =>
      cases (SwPrimaryExpression.det hT h0 _ g0)
      rfl
  | _, _, .sub h0, c, g => by
    cases g with
    | sub g0 =>
      cases (SwPrimaryExpression.det hT h0 _ g0)
      rfl
  | _, _, .default h0, c, g => by
    cases g with
    | default g0 =>
      cases (SwPrimaryExpression.det hT h0 _ g0)
      rfl
termination_by structural _ _ h => h
theorem SwPrimaryExpression.det (hT : T.Fun) : ∀ {a b}, SwPrimaryExpression T a b → ∀ c, SwPrimaryExpression T a c → b = c
  | _, _, .brackettedExpression h0, c, g => by
    cases g with
    | brackettedExpression g0 =>
      cases (SwExpression.det hT h0 _ g0)
      rfl
  | _, _, .builtInCall h0, c, g => by
    cases g with
    | builtInCall g0 =>
      cases (SwBuiltInCall.det hT h0 _ g0)
      rfl
  | _, _, .iriOrFunction h0, c, g => by
    cases g with
    | iriOrFunction g0 =>
      cases (SwIriOrFunction.det hT h0 _ g0)
      rfl
  | _, _, .rdfLiteral h0, c, g => by
    cases g with
    | rdfLiteral g0 =>
      cases (SwRdfLiteral.det hT h0 _ g0)
      rfl
  | _, _, .numericLiteral, c, g => by cases g; rfl
  | _, _, .booleanLiteral, c, g => by cases g; rfl
  | _, _, .var h0, c, g => by
    cases g with
    | var g0 =>
      cases (SwVar.det hT h0 _ g0)
      rfl
termination_by structural _ _ h => h
theorem SwExpressionList.det (hT : T.Fun) : ∀ {a b}, SwExpressionList T a b → ∀ c, SwExpressionList T a c → b = c
  | _, _, .nil, c, g => by cases g; rfl
  | _, _, .list h0 h1, c, g => by
    cases g with
    | list g0 g1 =>
      cases (each_det h0 (fun k a e a' e' => SwExpression.det hT (h1 k a e a' e')) g0 g1)
      rfl
termination_by structural _ _ h => h
theorem SwIriOrFunction.det (hT : T.Fun) : ∀ {a b}, SwIriOrFunction T a b → ∀ c, SwIriOrFunction T a c → b = c
  | _, _, .mk h0 h1, c, g => by
    cases g with
    | mk g0 g1 =>
      cases (both_det h0 (fun a e a' e' => SwArgList.det hT (h1 a e a' e')) g0 g1)
      rfl
termination_by structural _ _ h => h
theorem SwArgList.det (hT : T.Fun) : ∀ {a b}, SwArgList T a b → ∀ c, SwArgList T a c → b = c
  | _, _, .nil, c, g => by cases g; rfl
  | _, _, .expression h0 h1, c, g => by
    cases g with
    | expression g0 g1 =>
      cases (each_det h0 (fun k a e a' e' => SwExpression.det hT (h1 k a e a' e')) g0 g1)
      rfl
termination_by structural _ _ h => h
theorem SwDistinctExpression.det (hT : T.Fun) : ∀ {a b}, SwDistinctExpression T a b → ∀ c, SwDistinctExpression T a c → b = c
  | _, _, .mk h0, c, g => by
    cases g with
    | mk g0 =>
      cases (SwExpression.det hT h0 _ g0)
      rfl
termination_by structural _ _ h => h
theorem SwExpressionAsVar.det (hT : T.Fun) : ∀ {a b}, SwExpressionAsVar T a b → ∀ c, SwExpressionAsVar T a c → b = c
  | _, _, .mk h0 h1, c, g => by
    cases g with
    | mk g0 g1 =>
      cases (SwExpression.det hT h0 _ g0)
      cases (SwVar.det hT h1 _ g1)
      rfl
termination_by structural _ _ h => h
theorem SwExpressionAsVarOpt.det (hT : T.Fun) : ∀ {a b}, SwExpressionAsVarOpt T a b → ∀ c, SwExpressionAsVarOpt T a c → b = c
  | _, _, .mk h0 h1 h2, c, g => by
    cases g with
    | mk g0 g1 g2 =>
      cases (SwExpression.det hT h0 _ g0)
      cases (both_det h1 (fun a e a' e' => SwVar.det hT (h2 a e a' e')) g1 g2)
      rfl
termination_by structural _ _ h => h
theorem SwRegexExpression.det (hT : T.Fun) : ∀ {a b}, SwRegexExpression T a b → ∀ c, SwRegexExpression T a c → b = c
  | _, _, .mk h0 h1 h2 h3, c, g => by
    cases g with
    | mk g0 g1 g2 g3 =>
      cases (SwExpression.det hT h0 _ g0)
      cases (SwExpression.det hT h1 _ g1)
      cases (both_det h2 (fun a e a' e' => SwExpression.det hT (h3 a e a' e')) g2 g3)
      rfl
termination_by structural _ _ h => h
theorem SwStrReplaceExpression.det (hT : T.Fun) : ∀ {a b}, SwStrReplaceExpression T a b → ∀ c, SwStrReplaceExpression T a c → b = c
  | _, _, .mk h0 h1 h2 h3 h4, c, g => by
    cases g with
    | mk g0 g1 g2 g3 g4 =>
      cases (SwExpression.det hT h0 _ g0)
      cases (SwExpression.det hT h1 _ g1)
      cases (SwExpression.det hT h2 _ g2)
      cases (both_det h3 (fun a e a' e' => SwExpression.det hT (h4 a e a' e')) g3 g4)
      rfl
termination_by structural _ _ h => h
theorem SwConstraint.det (hT : T.Fun) : ∀ {a b}, SwConstraint T a b → ∀ c, SwConstraint T a c → b = c
  | _, _, .bracketted h0, c, g => by
    cases g with
    | bracketted g0 =>
      cases (SwExpression.det hT h0 _ g0)
      rfl
  | _, _, .builtInCall h0, c, g => by
    cases g with
    | builtInCall g0 =>
      cases (SwBuiltInCall.det hT h0 _ g0)
      rfl
  | _, _, .functionCall h0, c, g => by
    cases g with
    | functionCall g0 =>
      cases (SwFunctionCall.det hT h0 _ g0)
      rfl
termination_by structural _ _ h => h
theorem SwFunctionCall.det (hT : T.Fun) : ∀ {a b}, SwFunctionCall T a b → ∀ c, SwFunctionCall T a c → b = c
  | _, _, .mk h0, c, g => by
    cases g with
    | mk g0 =>
      cases (SwArgList.det hT h0 _ g0)
      rfl
termination_by structural _ _ h => h
theorem SwBuiltInCall.det (hT : T.Fun) : ∀ {a b}, SwBuiltInCall T a b → ∀ c, SwBuiltInCall T a c → b = c
  | _, _, .aggregate h0, c, g => by
    cases g with
    | aggregate g0 =>
      cases (SwAggregate.det hT h0 _ g0)
      rfl
  | _, _, .str h0, c, g => by
    cases g with
    | str g0 =>
      cases (SwExpression.det hT h0 _ g0)
      rfl
  | _, _, .lang h0, c, g => by
    cases g with
    | lang g0 =>
      cases (SwExpression.det hT h0 _ g0)
      rfl
  | _, _, .langMatches h0 h1, c, g => by
    cases g with
    | langMatches g0 g1 =>
      cases (SwExpression.det hT h0 _ g0)
      cases (SwExpression.det hT h1 _ g1)
      rfl
  | _, _, .datatype h0, c, g => by
    cases g with
    | datatype g0 =>
      cases (SwExpression.det hT h0 _ g0)
      rfl
  | _, _, .bound h0, c, g => by
    cases g with
    | bound g0 =>
      cases (SwVar.det hT h0 _ g0)
      rfl
  | _, _, .iri h0, c, g => by
    cases g with
    | iri g0 =>
      cases (SwExpression.det hT h0 _ g0)
      rfl
  | _, _, .uri h0, c, g => by
    cases g with
    | uri g0 =>
      cases (SwExpression.det hT h0 _ g0)
      rfl
  | _, _, .bnode h0 h1, c, g => by
    cases g with
    | bnode g0 g1 =>
      cases (both_det h0 (fun a e a' e' => SwExpression.det hT (h1 a e a' e')) g0 g1)
      rfl
  | _, _, .rand, c, g => by cases g; rfl
  | _, _, .abs h0, c, g => by
    cases g with
    | abs g0 =>
      cases (SwExpression.det hT h0 _ g0)
      rfl
  | _, _, .ceil h0, c, g => by
    cases g with
    | ceil g0 =>
      cases (SwExpression.det hT h0 _ g0)
      rfl
  | _, _, .floor h0, c, g => by
    cases g with
    | floor g0 =>
      cases (SwExpression.det hT h0 _ g0)
      rfl
  | _, _, .round h0, c, g => by
    cases g with
    | round g0 =>
      cases (SwExpression.det hT h0 _ g0)
      rfl
  | _, _, .concat h0 h1, c, g => by
    cases g with
    | concat g0 g1 =>
      cases (SwExpressionList.det hT h0 _ g0)
      cases (SwRegexExpression.det hT h1 _ g1)
      rfl
  | _, _, .strLen h0 h1, c, g => by
    cases g with
    | strLen g0 g1 =>
      cases (SwExpression.det hT h0 _ g0)
      cases (SwStrReplaceExpression.det hT h1 _ g1)
      rfl
  | _, _, .uCase h0, c, g => by
    cases g with
    | uCase g0 =>
      cases (SwExpression.det hT h0 _ g0)
      rfl
  | _, _, .lCase h0, c, g => by
    cases g with
    | lCase g0 =>
      cases (SwExpression.det hT h0 _ g0)
      rfl
  | _, _, .encodeForUri h0, c, g => by
    cases g with
    | encodeForUri g0 =>
      cases (SwExpression.det hT h0 _ g0)
      rfl
  | _, _, .contains h0 h1, c, g => by
    cases g with
    | contains g0 g1 =>
      cases (SwExpression.det hT h0 _ g0)
      cases (SwExpression.det hT h1 _ g1)
      rfl
  | _, _, .strStarts h0 h1, c, g => by
    cases g with
    | strStarts g0 g1 =>
      cases (SwExpression.det hT h0 _ g0)
      cases (SwExpression.det hT h1 _ g1)
      rfl
  | _, _, .strEnds h0 h1, c, g => by
    cases g with
    | strEnds g0 g1 =>
      cases (SwExpression.det hT h0 _ g0)
      cases (SwExpression.det hT h1 _ g1)
      rfl
  | _, _, .strBefore h0 h1, c, g => by
    cases g with
    | strBefore g0 g1 =>
      cases (SwExpression.det hT h0 _ g0)
      cases (SwExpression.det hT h1 _ g1)
      rfl
  | _, _, .strAfter h0 h1, c, g => by
    cases g with
    | strAfter g0 g1 =>
      cases (SwExpression.det hT h0 _ g0)
      cases (SwExpression.det hT h1 _ g1)
      rfl
  | _, _, .year h0, c, g => by
    cases g with
    | year g0 =>
      cases (SwExpression.det hT h0 _ g0)
      rfl
  | _, _, .month h0, c, g => by
    cases g with
    | month g0 =>
      cases (SwExpression.det hT h0 _ g0)
      rfl
  | _, _, .day h0, c, g => by
    cases g with
    | day g0 =>
      cases (SwExpression.det hT h0 _ g0)
      rfl
  | _, _, .hours h0, c, g => by
    cases g with
    | hours g0 =>
      cases (SwExpression.det hT h0 _ g0)
      rfl
  | _, _, .minutes h0, c, g => by
    cases g with
    | minutes g0 =>
      cases (SwExpression.det hT h0 _ g0)
      rfl
  | _, _, .seconds h0, c, g => by
    cases g with
    | seconds g0 =>
      cases (SwExpression.det hT h0 _ g0)
      rfl
  | _, _, .timezone h0, c, g => by
    cases g with
    | timezone g0 =>
      cases (SwExpression.det hT h0 _ g0)
      rfl
  | _, _, .tz h0, c, g => by
    cases g with
    | tz g0 =>
      cases (SwExpression.det hT h0 _ g0)
      rfl
  | _, _, .now, c, g => by cases g; rfl
  | _, _, .uuid, c, g => by cases g; rfl
  | _, _, .strUuid, c, g => by cases g; rfl
  | _, _, .md5 h0, c, g => by
    cases g with
    | md5 g0 =>
      cases (SwExpression.det hT h0 _ g0)
      rfl
  | _, _, .sha1 h0, c, g => by
    cases g with
    | sha1 g0 =>
      cases (SwExpression.det hT h0 _ g0)
      rfl
  | _, _, .sha256 h0, c, g => by
    cases g with
    | sha256 g0 =>
      cases (SwExpression.det hT h0 _ g0)
      rfl
  | _, _, .sha384 h0, c, g => by
    cases g with
    | sha384 g0 =>
      cases (SwExpression.det hT h0 _ g0)
      rfl
  | _, _, .sha512 h0, c, g => by
    cases g with
    | sha512 g0 =>
      cases (SwExpression.det hT h0 _ g0)
      rfl
  | _, _, .coalesce h0, c, g => by
    cases g with
    | coalesce g0 =>
      cases (SwExpressionList.det hT h0 _ g0)
      rfl
  | _, _, .if h0 h1 h2, c, g => by
    cases g with
    | «if» g0 g1 g2 =>
      cases (SwExpression.det hT h0 _ g0)
      cases (SwExpression.det hT h1 _ g1)
      cases (SwExpression.det hT h2 _ g2)
      rfl
  | _, _, .strLang h0 h1, c, g => by
    cases g with
    | strLang g0 g1 =>
      cases (SwExpression.det hT h0 _ g0)
      cases (SwExpression.det hT h1 _ g1)
      rfl
  | _, _, .strDt h0 h1, c, g => by
    cases g with
    | strDt g0 g1 =>
      cases (SwExpression.det hT h0 _ g0)
      cases (SwExpression.det hT h1 _ g1)
      rfl
  | _, _, .sameTerm h0 h1, c, g => by
    cases g with
    | sameTerm g0 g1 =>
      cases (SwExpression.det hT h0 _ g0)
      cases (SwExpression.det hT h1 _ g1)
      rfl
  | _, _, .isIri h0, c, g => by
    cases g with
    | isIri g0 =>
      cases (SwExpression.det hT h0 _ g0)
      rfl
  | _, _, .isUri h0, c, g => by
    cases g with
    | isUri g0 =>
      cases (SwExpression.det hT h0 _ g0)
      rfl
  | _, _, .isBlank h0, c, g => by
    cases g with
    | isBlank g0 =>
      cases (SwExpression.det hT h0 _ g0)
      rfl
  | _, _, .isLiteral h0, c, g => by
    cases g with
    | isLiteral g0 =>
      cases (SwExpression.det hT h0 _ g0)
      rfl
  | _, _, .isNumeric h0, c, g => by
    cases g with
    | isNumeric g0 =>
      cases (SwExpression.det hT h0 _ g0)
      rfl
  | _, _, .regex h0, c, g => by
    cases g with
    | regex g0 =>
      cases (SwRegexExpression.det hT h0 _ g0)
      rfl
  | _, _, .existsFunc h0, c, g => by
    cases g with
    | existsFunc g0 =>
      cases (SwGroupGraphPattern.det hT h0 _ g0)
      rfl
  | _, _, .notExistsFunc h0, c, g => by
    cases g with
    | notExistsFunc g0 =>
      cases (SwGroupGraphPattern.det hT h0 _ g0)
      rfl
termination_by structural _ _ h => h
theorem SwAggregate.det (hT : T.Fun) : ∀ {a b}, SwAggregate T a b → ∀ c, SwAggregate T a c → b = c
  | _, _, .count h0, c, g => by
    cases g with
    | count g0 =>
      cases (SwCount.det hT h0 _ g0)
      rfl
  | _, _, .sum h0, c, g => by
    cases g with
    | sum g0 =>
      cases (SwDistinctExpression.det hT h0 _ g0)
      rfl
  | _, _, .min h0, c, g => by
    cases g with
    | min g0 =>
      cases (SwDistinctExpression.det hT h0 _ g0)
      rfl
  | _, _, .max h0, c, g => by
    cases g with
    | max g0 =>
      cases (SwDistinctExpression.det hT h0 _ g0)
      rfl
  | _, _, .avg h0, c, g => by
    cases g with
    | avg g0 =>
      cases (SwDistinctExpression.det hT h0 _ g0)
      rfl
  | _, _, .sample h0, c, g => by
    cases g with
    | sample g0 =>
      cases (SwDistinctExpression.det hT h0 _ g0)
      rfl
  | _, _, .groupConcat h0, c, g => by
    cases g with
    | groupConcat g0 =>
      cases (SwGroupConcat.det hT h0 _ g0)
      rfl
termination_by structural _ _ h => h
theorem SwCount.det (hT : T.Fun) : ∀ {a b}, SwCount T a b → ∀ c, SwCount T a c → b = c
  | _, _, .mk h0, c, g => by
    cases g with
    | mk g0 =>
      cases (SwCountTarget.det hT h0 _ g0)
      rfl
termination_by structural _ _ h => h
theorem SwCountTarget.det (hT : T.Fun) : ∀ {a b}, SwCountTarget T a b → ∀ c, SwCountTarget T a c → b = c
  | _, _, .all, c, g => by cases g; rfl
  | _, _, .expr h0, c, g => by
    cases g with
    | expr g0 =>
      cases (SwExpression.det hT h0 _ g0)
      rfl
termination_by structural _ _ h => h
theorem SwGroupConcat.det (hT : T.Fun) : ∀ {a b}, SwGroupConcat T a b → ∀ c, SwGroupConcat T a c → b = c
  | _, _, .mk h0 h1, c, g => by
    cases g with
    | mk g0 g1 =>
      cases (SwDistinctExpression.det hT h0 _ g0)
      cases ((opt_det (R := T.text) (fun h _ g => hT.text h g)) h1 _ g1)
      rfl
termination_by structural _ _ h => h
theorem SwGroupGraphPattern.det (hT : T.Fun) : ∀ {a b}, SwGroupGraphPattern T a b → ∀ c, SwGroupGraphPattern T a c → b = c
  | _, _, .subSelect h0, c, g => by
    cases g with
    | subSelect g0 =>
      cases (SwSubSelect.det hT h0 _ g0)
      rfl
  | _, _, .groupGraphPatternSub h0, c, g => by
    cases g with
    | groupGraphPatternSub g0 =>
      cases (SwGroupGraphPatternSub.det hT h0 _ g0)
      rfl
termination_by structural _ _ h => h
theorem SwGroupGraphPatternSub.det (hT : T.Fun) : ∀ {a b}, SwGroupGraphPatternSub T a b → ∀ c, SwGroupGraphPatternSub T a c → b = c
  | _, _, .mk h0 h1 h2 h3, c, g => by
    cases g with
    | mk g0 g1 g2 g3 =>
      cases (both_det h0 (fun a e a' e' => SwTriplesBlock.det hT (h1 a e a' e')) g0 g1)
      cases (each_det h2 (fun k a e a' e' => SwGraphPatternAndTriples.det hT (h3 k a e a' e')) g2 g3)
      rfl
termination_by structural _ _ h => h
theorem SwGraphPatternAndTriples.det (hT : T.Fun) : ∀ {a b}, SwGraphPatternAndTriples T a b → ∀ c, SwGraphPatternAndTriples T a c → b = c
  | _, _, .mk h0 h1 h2, c, g => by
    cases g with
    | mk g0 g1 g2 =>
      cases (SwGraphPatternNotTriples.det hT h0 _ g0)
      cases (both_det h1 (fun a e a' e' => SwTriplesBlock.det hT (h2 a e a' e')) g1 g2)
      rfl
termination_by structural _ _ h => h
theorem SwGraphPatternNotTriples.det (hT : T.Fun) : ∀ {a b}, SwGraphPatternNotTriples T a b → ∀ c, SwGraphPatternNotTriples T a c → b = c
  | _, _, .optional h0, c, g => by
    cases g with
    | optional g0 =>
      cases (SwGroupGraphPattern.det hT h0 _ g0)
      rfl
  | _, _, .groupOrUnion h0 h1, c, g => by
    cases g with
    | groupOrUnion g0 g1 =>
      cases (each_det h0 (fun k a e a' e' => SwGroupGraphPattern.det hT (h1 k a e a' e')) g0 g1)
      rfl
  | _, _, .minus h0, c, g => by
    cases g with
    | minus g0 =>
      cases (SwGroupGraphPattern.det hT h0 _ g0)
      rfl
  | _, _, .graph h0, c, g => by
    cases g with
    | graph g0 =>
      cases (SwGraphGraphPattern.det hT h0 _ g0)
      rfl
  | _, _, .service h0, c, g => by
    cases g with
    | service g0 =>
      cases (SwServiceGraphPattern.det hT h0 _ g0)
      rfl
  | _, _, .filter h0, c, g => by
    cases g with
    | filter g0 =>
      cases (SwConstraint.det hT h0 _ g0)
      rfl
  | _, _, .bind h0, c, g => by
    cases g with
    | bind g0 =>
      cases (SwExpressionAsVar.det hT h0 _ g0)
      rfl
  | _, _, .inlineData h0, c, g => by
    cases g with
    | inlineData g0 =>
      cases (SwDataBlock.det hT h0 _ g0)
      rfl
termination_by structural _ _ h => h
theorem SwGraphGraphPattern.det (hT : T.Fun) : ∀ {a b}, SwGraphGraphPattern T a b → ∀ c, SwGraphGraphPattern T a c → b = c
  | _, _, .mk h0 h1, c, g => by
    cases g with
    | mk g0 g1 =>
      cases (SwVarOrIri.det hT h0 _ g0)
      cases (SwGroupGraphPattern.det hT h1 _ g1)
      rfl
termination_by structural _ _ h => h
theorem SwServiceGraphPattern.det (hT : T.Fun) : ∀ {a b}, SwServiceGraphPattern T a b → ∀ c, SwServiceGraphPattern T a c → b = c
  | _, _, .mk h0 h1, c, g => by
    cases g with
    | mk g0 g1 =>
      cases (SwVarOrIri.det hT h0 _ g0)
      cases (SwGroupGraphPattern.det hT h1 _ g1)
      rfl
termination_by structural _ _ h => h
theorem SwSubSelect.det (hT : T.Fun) : ∀ {a b}, SwSubSelect T a b → ∀ c, SwSubSelect T a c → b = c
  | _, _, .mk h0 h1 h2 h3 h4, c, g => by
    cases g with
    | mk g0 g1 g2 g3 g4 =>
      cases (SwSelectClause.det hT h0 _ g0)
      cases (SwGroupGraphPattern.det hT h1 _ g1)
      cases (SwSolutionModifier.det hT h2 _ g2)
      cases (both_det h3 (fun a e a' e' => SwDataBlock.det hT (h4 a e a' e')) g3 g4)
      rfl
termination_by structural _ _ h => h
theorem SwSelectClause.det (hT : T.Fun) : ∀ {a b}, SwSelectClause T a b → ∀ c, SwSelectClause T a c → b = c
  | _, _, .mk h0, c, g => by
    cases g with
    | mk g0 =>
      cases (SwSelectVars.det hT h0 _ g0)
      rfl
termination_by structural _ _ h => h
theorem SwSelectVars.det (hT : T.Fun) : ∀ {a b}, SwSelectVars T a b → ∀ c, SwSelectVars T a c → b = c
  | _, _, .varOrExpressionAsVar h0 h1, c, g => by
    cases g with
    | varOrExpressionAsVar g0 g1 =>
      cases (each_det h0 (fun k a e a' e' => SwVarOrExpressionAsVar.det hT (h1 k a e a' e')) g0 g1)
      rfl
  | _, _, .all, c, g => by cases g; rfl
termination_by structural _ _ h => h
theorem SwVarOrExpressionAsVar.det (hT : T.Fun) : ∀ {a b}, SwVarOrExpressionAsVar T a b → ∀ c, SwVarOrExpressionAsVar T a c → b = c
  | _, _, .var h0, c, g => by
    cases g with
    | var g0 =>
      cases (SwVar.det hT h0 _ g0)
      rfl
  | _, _, .expressionAsVar h0, c, g => by
    cases g with
    | expressionAsVar g0 =>
      cases (SwExpressionAsVar.det hT h0 _ g0)
      rfl
termination_by structural _ _ h => h
theorem SwSolutionModifier.det (hT : T.Fun) : ∀ {a b}, SwSolutionModifier T a b → ∀ c, SwSolutionModifier T a c → b = c
  | _, _, .mk h0 h1 h2 h3 h4 h5, c, g => by
    cases g with
    | mk g0 g1 g2 g3 g4 g5 =>
      cases (both_det h0 (fun a e a' e' => SwOrderClause.det hT (h1 a e a' e')) g0 g1)
      cases (both_det h2 (fun a e a' e' => SwGroupClause.det hT (h3 a e a' e')) g2 g3)
      cases (both_det h4 (fun a e a' e' => SwHavingClause.det hT (h5 a e a' e')) g4 g5)
      rfl
termination_by structural _ _ h => h
theorem SwHavingClause.det (hT : T.Fun) : ∀ {a b}, SwHavingClause T a b → ∀ c, SwHavingClause T a c → b = c
  | _, _, .mk h0 h1, c, g => by
    cases g with
    | mk g0 g1 =>
      cases (each_det h0 (fun k a e a' e' => SwConstraint.det hT (h1 k a e a' e')) g0 g1)
      rfl
termination_by structural _ _ h => h
theorem SwOrderClause.det (hT : T.Fun) : ∀ {a b}, SwOrderClause T a b → ∀ c, SwOrderClause T a c → b = c
  | _, _, .mk h0 h1, c, g => by
    cases g with
    | mk g0 g1 =>
      cases (each_det h0 (fun k a e a' e' => SwOrderCondition.det hT (h1 k a e a' e')) g0 g1)
      rfl
termination_by structural _ _ h => h
theorem SwOrderCondition.det (hT : T.Fun) : ∀ {a b}, SwOrderCondition T a b → ∀ c, SwOrderCondition T a c → b = c
  | _, _, .order h0, c, g => by
    cases g with
    | order g0 =>
      cases (SwOrderExpression.det hT h0 _ g0)
      rfl
  | _, _, .constraint h0, c, g => by
    cases g with
    | constraint g0 =>
      cases (SwConstraint.det hT h0 _ g0)
      rfl
  | _, _, .var h0, c, g => by
    cases g with
    | var g0 =>
      cases (SwVar.det hT h0 _ g0)
      rfl
termination_by structural _ _ h => h
theorem SwOrderExpression.det (hT : T.Fun) : ∀ {a b}, SwOrderExpression T a b → ∀ c, SwOrderExpression T a c → b = c
  | _, _, .mk h0, c, g => by
    cases g with
    | mk g0 =>
      cases (SwExpression.det hT h0 _ g0)
      rfl
termination_by structural _ _ h => h
theorem SwGroupClause.det (hT : T.Fun) : ∀ {a b}, SwGroupClause T a b → ∀ c, SwGroupClause T a c → b = c
  | _, _, .mk h0 h1, c, g => by
    cases g with
    | mk g0 g1 =>
      cases (each_det h0 (fun k a e a' e' => SwGroupCondition.det hT (h1 k a e a' e')) g0 g1)
      rfl
termination_by structural _ _ h => h
theorem SwGroupCondition.det (hT : T.Fun) : ∀ {a b}, SwGroupCondition T a b → ∀ c, SwGroupCondition T a c → b = c
  | _, _, .builtInCall h0, c, g => by
    cases g with
    | builtInCall g0 =>
      cases (SwBuiltInCall.det hT h0 _ g0)
      rfl
  | _, _, .functionCall h0, c, g => by
    cases g with
    | functionCall g0 =>
      cases (SwFunctionCall.det hT h0 _ g0)
      rfl
  | _, _, .expressionAsVarOpt h0, c, g => by
    cases g with
    | expressionAsVarOpt g0 =>
      cases (SwExpressionAsVarOpt.det hT h0 _ g0)
      rfl
  | _, _, .var h0, c, g => by
    cases g with
    | var g0 =>
      cases (SwVar.det hT h0 _ g0)
      rfl
termination_by structural _ _ h => h
end

theorem SwSelectQuery.det (hT : T.Fun) : ∀ {a b}, SwSelectQuery T a b → ∀ c, SwSelectQuery T a c → b = c
  | _, _, .mk h0 h1 h2, c, g => by
    cases g with
    | mk g0 g1 g2 =>
      cases (SwSelectClause.det hT h0 _ g0)
      cases (SwGroupGraphPattern.det hT h1 _ g1)
      cases (SwSolutionModifier.det hT h2 _ g2)
      rfl

theorem SwAskQuery.det (hT : T.Fun) : ∀ {a b}, SwAskQuery T a b → ∀ c, SwAskQuery T a c → b = c
  | _, _, .mk h0 h1, c, g => by
    cases g with
    | mk g0 g1 =>
      cases (SwGroupGraphPattern.det hT h0 _ g0)
      cases (SwSolutionModifier.det hT h1 _ g1)
      rfl

theorem SwDescribeQuery.det (hT : T.Fun) : ∀ {a b}, SwDescribeQuery T a b → ∀ c, SwDescribeQuery T a c → b = c
  | _, _, .mk h0 h1 h2, c, g => by
    cases g with
    | mk g0 g1 g2 =>
      cases (SwVarOrIrisOrAll.det hT h0 _ g0)
      cases ((opt_det (R := (SwGroupGraphPattern T)) (fun h => SwGroupGraphPattern.det hT h)) h1 _ g1)
      cases (SwSolutionModifier.det hT h2 _ g2)
      rfl

theorem SwSubConstruct.det (hT : T.Fun) : ∀ {a b}, SwSubConstruct T a b → ∀ c, SwSubConstruct T a c → b = c
  | _, _, .mk h0 h1 h2, c, g => by
    cases g with
    | mk g0 g1 g2 =>
      cases ((all_det (R := (SwTriplesSameSubject T)) (fun h => SwTriplesSameSubject.det hT h)) h0 _ g0)
      cases (SwGroupGraphPattern.det hT h1 _ g1)
      cases (SwSolutionModifier.det hT h2 _ g2)
      rfl

theorem SwSubTriples.det (hT : T.Fun) : ∀ {a b}, SwSubTriples T a b → ∀ c, SwSubTriples T a c → b = c
  | _, _, .mk h0 h1, c, g => by
    cases g with
    | mk g0 g1 =>
      cases ((opt_det (R := (All2 (SwTriplesSameSubject T))) (all_det (R := (SwTriplesSameSubject T)) (fun h => SwTriplesSameSubject.det hT h))) h0 _ g0)
      cases (SwSolutionModifier.det hT h1 _ g1)
      rfl

theorem SwConstructQuery.det (hT : T.Fun) : ∀ {a b}, SwConstructQuery T a b → ∀ c, SwConstructQuery T a c → b = c
  | _, _, .subConstruct h0, c, g => by
    cases g with
    | subConstruct g0 =>
      cases (SwSubConstruct.det hT h0 _ g0)
      rfl
  | _, _, .subTriples h0, c, g => by
    cases g with
    | subTriples g0 =>
      cases (SwSubTriples.det hT h0 _ g0)
      rfl

theorem SwSparqlQuery.det (hT : T.Fun) : ∀ {a b}, SwSparqlQuery T a b → ∀ c, SwSparqlQuery T a c → b = c
  | _, _, .ask h0, c, g => by
    cases g with
    | ask g0 =>
      cases (SwAskQuery.det hT h0 _ g0)
      rfl
  | _, _, .select h0, c, g => by
    cases g with
    | select g0 =>
      cases (SwSelectQuery.det hT h0 _ g0)
      rfl
  | _, _, .describe h0, c, g => by
    cases g with
    | describe g0 =>
      cases (SwDescribeQuery.det hT h0 _ g0)
      rfl
  | _, _, .construct h0, c, g => by
    cases g with
    | construct g0 =>
      cases (SwConstructQuery.det hT h0 _ g0)
      rfl

theorem SwSparqlQueryStatement.det (hT : T.Fun) : ∀ {a b}, SwSparqlQueryStatement T a b → ∀ c, SwSparqlQueryStatement T a c → b = c
  | _, _, .mk h0 h1, c, g => by
    cases g with
    | mk g0 g1 =>
      cases (SwSparqlQuery.det hT h0 _ g0)
      cases ((opt_det (R := (SwDataBlock T)) (fun h => SwDataBlock.det hT h)) h1 _ g1)
      rfl

theorem SwDeleteInsert.det (hT : T.Fun) : ∀ {a b}, SwDeleteInsert T a b → ∀ c, SwDeleteInsert T a c → b = c
  | _, _, .deleteInsert h0 h1, c, g => by
    cases g with
    | deleteInsert g0 g1 =>
      cases (SwQuads.det hT h0 _ g0)
      cases ((opt_det (R := (SwQuads T)) (fun h => SwQuads.det hT h)) h1 _ g1)
      rfl
  | _, _, .insert h0, c, g => by
    cases g with
    | insert g0 =>
      cases (SwQuads.det hT h0 _ g0)
      rfl

theorem SwModifyStatement.det (hT : T.Fun) : ∀ {a b}, SwModifyStatement T a b → ∀ c, SwModifyStatement T a c → b = c
  | _, _, .mk h0 h1, c, g => by
    cases g with
    | mk g0 g1 =>
      cases (SwDeleteInsert.det hT h0 _ g0)
      cases (SwGroupGraphPattern.det hT h1 _ g1)
      rfl

theorem SwUpdateStatement.det (hT : T.Fun) : ∀ {a b}, SwUpdateStatement T a b → ∀ c, SwUpdateStatement T a c → b = c
  | _, _, .load, c, g => by cases g; rfl
  | _, _, .clear, c, g => by cases g; rfl
  | _, _, .drop, c, g => by cases g; rfl
  | _, _, .create, c, g => by cases g; rfl
  | _, _, .add, c, g => by cases g; rfl
  | _, _, .move, c, g => by cases g; rfl
  | _, _, .copy, c, g => by cases g; rfl
  | _, _, .insertData h0, c, g => by
    cases g with
    | insertData g0 =>
      cases (SwQuads.det hT h0 _ g0)
      rfl
  | _, _, .deleteData h0, c, g => by
    cases g with
    | deleteData g0 =>
      cases (SwQuads.det hT h0 _ g0)
      rfl
  | _, _, .deleteWhere h0, c, g => by
    cases g with
    | deleteWhere g0 =>
      cases (SwQuads.det hT h0 _ g0)
      rfl
  | _, _, .modify h0, c, g => by
    cases g with
    | modify g0 =>
      cases (SwModifyStatement.det hT h0 _ g0)
      rfl

theorem SwUpdate.det (hT : T.Fun) : ∀ {a b}, SwUpdate T a b → ∀ c, SwUpdate T a c → b = c
  | _, _, .mk h0 h1 h2 h3, c, g => by
    cases g with
    | mk g0 g1 g2 g3 =>
      cases (both_det h0 (fun a e a' e' => SwUpdateStatement.det hT (h1 a e a' e')) g0 g1)
      cases (both_det h2 (fun a e a' e' => SwUpdate.det hT (h3 a e a' e')) g2 g3)
      rfl
termination_by structural _ _ h => h

end NomSparql
