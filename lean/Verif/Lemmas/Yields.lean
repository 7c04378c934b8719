import Verif.Spec.Filled
import Verif.Lemmas.Dead
import Verif.Lemmas.Rendered

/-!
# What the parts of an answer satisfy

`YieldsIn S T p Q`: whatever `p` returns for an input in `S` satisfies `Q`.  `S` is closed under suffixes.  `Q` is computed from `p`, bottom up; for
the named parsers it is the predicate of Spec/Filled.
-/

namespace NomSparql

set_option synthInstance.maxSize 4000
set_option synthInstance.maxHeartbeats 400000

class Tails (S : Str → Prop) : Prop where
  out : ∀ {i r}, S i → r <:+ i → S r

instance : Tails (fun _ => True) := ⟨fun _ _ => trivial⟩
instance {i : Str} : Tails (· <:+ i) := ⟨fun h h' => h'.trans h⟩

class YieldsIn (S : Str → Prop) (T : Leaves) (p : P α) (Q : outParam (α → Prop)) : Prop where
  out : ∀ {i r a}, S i → p i = .ok r a → Q a

theorem Yields.out {T : Leaves} {p : P α} {Q : α → Prop} [h : YieldsIn (fun _ => True) T p Q] {i r a} (e : p i = .ok r a) : Q a := h.out trivial e

class LeafIn (S : Str → Prop) (T : Leaves) : Prop where
  var : ∀ {i r a}, S i → NomSparql.var i = .ok r a → T.var a
  iri : ∀ {i r a}, S i → NomSparql.iri i = .ok r a → T.iri a
  literal : ∀ {i r a}, S i → rdfLiteral i = .ok r a → T.literal a
  number : ∀ {i r a}, S i → numericLiteral i = .ok r a → T.number a
  blank : ∀ {i r a}, S i → blankNode i = .ok r a → T.blank a
  limit : ∀ {i r a}, S i → limitOffsetClause i = .ok r a → T.limit a
  separator : ∀ {i r a}, S i → stringLiteral i = .ok r a → T.separator a
  prologue : ∀ {i r a}, S i → NomSparql.prologue i = .ok r a → ∀ d ∈ a.decls, T.decl d

/-- The same for all inputs. -/
abbrev LeafOk (T : Leaves) : Prop := LeafIn (fun _ => True) T

section
variable {S : Str → Prop} [Tails S] {T : Leaves} {p : P α} {q : P β} {s : P γ} {t : P δ} {u : P ε} {Q : α → Prop} {Q' : β → Prop} {Q'' : γ → Prop} {Q3 : δ → Prop} {Q4 : ε → Prop}

theorem Tails.after (S : Str → Prop) [h : Tails S] [hp : Good p] {i r a} (hi : S i) (e : p i = .ok r a) : S r := by
  have := hp.out i
  rw [e] at this
  exact h.out hi this

omit [Tails S] in
theorem YieldsIn.weaken {Q2 : α → Prop} (h : YieldsIn S T p Q) (hi : ∀ a, Q a → Q2 a) : YieldsIn S T p Q2 := ⟨fun m e => hi _ (h.out m e)⟩

theorem imp_or {Q1 Q2 : α → Prop} (h : ∀ a, Q a → Q2 a) (h' : ∀ a, Q1 a → Q2 a) : ∀ a, (Q a ∨ Q1 a) → Q2 a := fun a h1 => h1.elim (h a) (h' a)
theorem imp_map {f : α → β} (h : ∀ a, Q a → Q' (f a)) : ∀ b, (∃ a, Q a ∧ f a = b) → Q' b := by rintro _ ⟨a, h1, rfl⟩; exact h a h1
theorem imp_false : ∀ a, False → Q a := fun _ h => h.elim

instance (priority := 1) : YieldsIn S T p (fun _ => True) := ⟨fun _ _ => trivial⟩
instance [h : YieldsIn S T p Q] {f : α → β} : YieldsIn S T (map p f) (fun b => ∃ a, Q a ∧ f a = b) where
  out m e := by obtain ⟨a, h1, h2⟩ := map_ok.mp e; exact ⟨a, h.out m h1, h2⟩
instance [Good p] [h : YieldsIn S T p Q] [h' : YieldsIn S T q Q'] : YieldsIn S T (pair p q) (fun x => Q x.1 ∧ Q' x.2) where
  out m e := by obtain ⟨_, h1, h2⟩ := pair_ok e; exact ⟨h.out m h1, h'.out (Tails.after S m h1) h2⟩
instance [Good p] [h' : YieldsIn S T q Q'] : YieldsIn S T (preceded p q) Q' where
  out m e := by obtain ⟨_, _, h1, h2⟩ := preceded_ok.mp e; exact h'.out (Tails.after S m h1) h2
instance [h : YieldsIn S T p Q] : YieldsIn S T (terminated p q) Q where
  out m e := by obtain ⟨_, _, h1, _⟩ := terminated_ok.mp e; exact h.out m h1
instance [Good p] [h' : YieldsIn S T q Q'] : YieldsIn S T (delimited p q s) Q' where
  out m e := by obtain ⟨_, _, _, _, h1, h2, _⟩ := delimited_ok.mp e; exact h'.out (Tails.after S m h1) h2
instance [Good p] [Good s] [YieldsIn S T p Q] [YieldsIn S T q Q'] : YieldsIn S T (separatedPair p s q) (fun x => Q x.1 ∧ Q' x.2) := by unfold separatedPair; infer_instance
instance [Good p] [Good q] [YieldsIn S T p Q] [YieldsIn S T q Q'] [YieldsIn S T s Q''] : YieldsIn S T (tuple3 p q s) (fun x => Q x.1 ∧ Q' x.2.1 ∧ Q'' x.2.2) := by
  unfold tuple3; infer_instance
instance [Good p] [Good q] [Good s] [YieldsIn S T p Q] [YieldsIn S T q Q'] [YieldsIn S T s Q''] [YieldsIn S T t Q3] :
    YieldsIn S T (tuple4 p q s t) (fun x => Q x.1 ∧ Q' x.2.1 ∧ Q'' x.2.2.1 ∧ Q3 x.2.2.2) := by unfold tuple4; infer_instance
instance [Good p] [Good q] [Good s] [Good t] [YieldsIn S T p Q] [YieldsIn S T q Q'] [YieldsIn S T s Q''] [YieldsIn S T t Q3] [YieldsIn S T u Q4] :
    YieldsIn S T (tuple5 p q s t u) (fun x => Q x.1 ∧ Q' x.2.1 ∧ Q'' x.2.2.1 ∧ Q3 x.2.2.2.1 ∧ Q4 x.2.2.2.2) := by unfold tuple5; infer_instance
instance [h : YieldsIn S T p Q] : YieldsIn S T (opt p) (fun o => ∀ a ∈ o, Q a) where
  out m e := by
    rcases opt_ok.mp e with ⟨a, rfl, h1⟩ | ⟨rfl, _⟩
    · intro b hb; cases hb; exact h.out m h1
    · intro b hb; cases hb
instance [h : YieldsIn S T p Q] : YieldsIn S T (cut p) Q := ⟨fun m e => h.out m (cut_ok.mp e)⟩
instance : YieldsIn S T (alt ([] : List (P α))) (fun _ => False) := ⟨fun _ h => by cases h⟩
instance {ps : List (P α)} {Q2 : α → Prop} [h : YieldsIn S T p Q] [h' : YieldsIn S T (alt ps) Q2] : YieldsIn S T (alt (p :: ps)) (fun a => Q a ∨ Q2 a) where
  out m e := by
    cases ps with
    | nil => exact .inl (h.out m e)
    | cons p' ps =>
      rcases alt_two_ok.mp e with e' | ⟨_, e'⟩
      · exact .inl (h.out m e')
      · exact .inr (h'.out m e')

theorem manyRun_yields [Good p] [h : YieldsIn S T p Q] {i r as} (m : S i) (hr : ManyRun p i r as) : ∀ a ∈ as, Q a := by
  induction hr with
  | stop _ => intro a ha; cases ha
  | step e _ _ ih =>
    intro a ha
    rcases List.mem_cons.mp ha with rfl | ha
    · exact h.out m e
    · exact ih (Tails.after S m e) a ha
theorem sepRun_yields [Good p] [Good q] [h : YieldsIn S T p Q] {i r as} (m : S i) (hr : SepRun q p i r as) : ∀ a ∈ as, Q a := by
  induction hr with
  | stopSep _ => intro a ha; cases ha
  | stopElem _ _ _ => intro a ha; cases ha
  | step e1 _ e _ _ ih =>
    intro a ha
    rcases List.mem_cons.mp ha with rfl | ha
    · exact h.out (Tails.after S m e1) e
    · exact ih (Tails.after S (Tails.after S m e1) e) a ha
instance [Good p] [YieldsIn S T p Q] : YieldsIn S T (many0 p) (fun l => ∀ a ∈ l, Q a) where
  out m e := manyRun_yields (S := S) (T := T) m (many0_ok.mp e)
instance [Good p] [h : YieldsIn S T p Q] : YieldsIn S T (many1 p) (fun l => l ≠ [] ∧ ∀ a ∈ l, Q a) where
  out m e := by
    obtain ⟨b, l, _, rfl, h1, h2⟩ := many1_ok.mp e
    refine ⟨by simp, fun a ha => ?_⟩
    rcases List.mem_cons.mp ha with rfl | ha
    · exact h.out m h1
    · exact manyRun_yields (S := S) (T := T) (Tails.after S m h1) h2 a ha
instance [Good p] [Good q] [h : YieldsIn S T p Q] : YieldsIn S T (separatedNonemptyList q p) (fun l => l ≠ [] ∧ ∀ a ∈ l, Q a) where
  out m e := by
    obtain ⟨b, l, _, rfl, h1, _, h2⟩ := separatedNonemptyList_ok.mp e
    refine ⟨by simp, fun a ha => ?_⟩
    rcases List.mem_cons.mp ha with rfl | ha
    · exact h.out m h1
    · exact sepRun_yields (S := S) (T := T) (Tails.after S m h1) h2 a ha
instance [Good p] [Good q] [h : YieldsIn S T p Q] : YieldsIn S T (separatedList q p) (fun l => ∀ a ∈ l, Q a) where
  out m e := by
    rcases separatedList_ok.mp e with ⟨rfl, _⟩ | ⟨b, l, _, rfl, h1, _, h2⟩
    · intro a ha; cases ha
    intro a ha
    rcases List.mem_cons.mp ha with rfl | ha
    · exact h.out m h1
    · exact sepRun_yields (S := S) (T := T) (Tails.after S m h1) h2 a ha

instance [YieldsIn S T p Q] : YieldsIn S T (spEnc p) Q := by unfold spEnc; infer_instance
instance [YieldsIn S T p Q] : YieldsIn S T (spEnc1 p) Q := by unfold spEnc1; infer_instance
instance [Good p] [YieldsIn S T p Q] [YieldsIn S T q Q'] : YieldsIn S T (spSep p q) (fun x => Q x.1 ∧ Q' x.2) := by unfold spSep; infer_instance
instance [Good p] [YieldsIn S T p Q] [YieldsIn S T q Q'] : YieldsIn S T (spSep1 p q) (fun x => Q x.1 ∧ Q' x.2) := by unfold spSep1; infer_instance
instance [YieldsIn S T p Q] : YieldsIn S T (bracketted p) Q := by unfold bracketted; infer_instance
instance {t} [YieldsIn S T p Q] : YieldsIn S T (precededTag1 t p) Q := by unfold precededTag1; infer_instance
instance {t} [YieldsIn S T p Q] : YieldsIn S T (precededTag t p) Q := by unfold precededTag; infer_instance
instance {t} [YieldsIn S T p Q] : YieldsIn S T (precededBracketted t p) Q := by unfold precededBracketted; infer_instance
instance [Good p] [YieldsIn S T p Q] : YieldsIn S T (bracketted3 p) (fun x => Q x.1 ∧ Q x.2.1 ∧ ∀ a ∈ x.2.2, Q a) := by unfold bracketted3; infer_instance

end

/-- Splits into the alternatives and applies the rule of the constructor. -/
macro "fill" : tactic => `(tactic|
  ((repeat' (first | apply imp_false | apply imp_or | apply imp_map)) <;> intro a h <;>
    first | exact h | (simp_all; done) | (constructor <;> first | exact h | exact h.1 | exact h.2; done) | (constructor <;> simp_all; done)))

/-- The predicate of an unfolded parser, weakened. -/
macro "yields!" p:ident : tactic => `(tactic| (unfold $p; refine YieldsIn.weaken inferInstance ?_; fill))

variable {S : Str → Prop} [Tails S] {T : Leaves}

section
variable [hT : LeafIn S T]

instance : YieldsIn S T var T.var := ⟨hT.var⟩
instance : YieldsIn S T iri T.iri := ⟨hT.iri⟩
instance : YieldsIn S T rdfLiteral T.literal := ⟨hT.literal⟩
instance : YieldsIn S T numericLiteral T.number := ⟨hT.number⟩
instance : YieldsIn S T blankNode T.blank := ⟨hT.blank⟩
instance : YieldsIn S T limitOffsetClause T.limit := ⟨hT.limit⟩
instance : YieldsIn S T stringLiteral T.separator := ⟨hT.separator⟩
instance : YieldsIn S T prologue (fun p => ∀ d ∈ p.decls, T.decl d) := ⟨hT.prologue⟩

instance : YieldsIn S T namedIri T.iri := inferInstanceAs (YieldsIn S T (precededTag1 c!"named" iri) T.iri)
instance : YieldsIn S T defaultOrNamedIri (FDefaultOrNamedIri T) := by yields! defaultOrNamedIri
instance : YieldsIn S T varOrIri (FVarOrIri T) := by yields! varOrIri
instance : YieldsIn S T verb (FVerb T) := by yields! verb
instance : YieldsIn S T varOrIrisOrAll (FVarOrIrisOrAll T) := by yields! varOrIrisOrAll
instance : YieldsIn S T graphTerm (FGraphTerm T) := by yields! graphTerm
instance : YieldsIn S T varOrTerm (FVarOrTerm T) := by yields! varOrTerm
instance : YieldsIn S T graphRef T.iri := by yields! graphRef
instance : YieldsIn S T graphOrDefault (FGraphOrDefault T) := by yields! graphOrDefault
instance : YieldsIn S T graphRefAll (FGraphRefAll T) := by yields! graphRefAll
instance : YieldsIn S T dataSetClause (FDefaultOrNamedIri T) := by yields! dataSetClause
instance : YieldsIn S T datablockValue (FDataBlockValue T) := by yields! datablockValue
instance : YieldsIn S T inlineDataFull (FInlineDataFull T) := by yields! inlineDataFull
instance : YieldsIn S T inlineDataOneVar (FInlineDataOneVar T) := by yields! inlineDataOneVar
instance : YieldsIn S T datablock (FDataBlock T) := by yields! datablock
instance : YieldsIn S T inlineData (FDataBlock T) := by yields! inlineData
instance : YieldsIn S T valuesClause (fun o => ∀ a ∈ o, (FDataBlock T) a) := by yields! valuesClause
instance : YieldsIn S T usingClause (FDefaultOrNamedIri T) := by yields! usingClause
section
variable {gn : P GraphNode} [Good gn] [YieldsIn S T gn (FGraphNode T)]
instance : YieldsIn S T (collectionS gn) (fun l => l ≠ [] ∧ ∀ a ∈ l, (FGraphNode T) a) := by yields! collectionS
instance : YieldsIn S T (objectListS gn) (fun l => l ≠ [] ∧ ∀ a ∈ l, (FGraphNode T) a) := by yields! objectListS
instance : YieldsIn S T (propertyListNotEmptyS gn) (FPropertyList T) := by
  unfold propertyListNotEmptyS
  refine YieldsIn.weaken inferInstance (imp_map fun l h => .mk h.1 fun a ha => ?_)
  obtain ⟨b, h1, rfl⟩ := h.2 a ha
  exact .mk h1.1 h1.2.1 h1.2.2
instance : YieldsIn S T (propertyListS gn) (fun o => ∀ a ∈ o, (FPropertyList T) a) := by yields! propertyListS
instance : YieldsIn S T (blankNodePropertyListS gn) (FPropertyList T) := by yields! blankNodePropertyListS
instance : YieldsIn S T (triplesNodeS gn) (FTriplesNode T) := by yields! triplesNodeS
end
instance {gn : P GraphNode} : YieldsIn S T (graphNodeStep gn) (FGraphNode T) where
  out m e := by obtain ⟨v, rfl, h⟩ := graphNodeStep_ok e; exact .varOrTerm (YieldsIn.out (S := S) (T := T) m h)
instance graphNodeF_yields : ∀ n, YieldsIn S T (graphNodeF n) (FGraphNode T)
  | 0 => ⟨fun _ h => by cases h⟩
  | n + 1 => by have := graphNodeF_yields n; unfold graphNodeF; infer_instance
instance : YieldsIn S T graphNode (FGraphNode T) := ⟨fun m h => (graphNodeF_yields _).out m h⟩
instance : YieldsIn S T collection (fun l => l ≠ [] ∧ ∀ a ∈ l, (FGraphNode T) a) := by yields! collection
instance : YieldsIn S T objectList (fun l => l ≠ [] ∧ ∀ a ∈ l, (FGraphNode T) a) := by yields! objectList
instance : YieldsIn S T propertyListNotEmpty (FPropertyList T) := by yields! propertyListNotEmpty
instance : YieldsIn S T propertyList (fun o => ∀ a ∈ o, (FPropertyList T) a) := by yields! propertyList
instance : YieldsIn S T blankNodePropertyList (FPropertyList T) := by yields! blankNodePropertyList
instance : YieldsIn S T triplesNode (FTriplesNode T) := by yields! triplesNode
instance : YieldsIn S T triplesSameSubject (FTriplesSameSubject T) := by yields! triplesSameSubject
instance : YieldsIn S T triplesTemplate (fun l => l ≠ [] ∧ ∀ a ∈ l, (FTriplesSameSubject T) a) := by yields! triplesTemplate
instance : YieldsIn S T quadsNotTriples (FQuadsNotTriples T) := by yields! quadsNotTriples
instance : YieldsIn S T quadsEntry (FQuadsEntry T) := by yields! quadsEntry
instance : YieldsIn S T quads (FQuads T) := by yields! quads
instance : YieldsIn S T quadsPattern (FQuads T) := by yields! quadsPattern
instance : YieldsIn S T quadData (FQuads T) := by yields! quadData
instance : YieldsIn S T insertClause (FQuads T) := by yields! insertClause
instance : YieldsIn S T deleteClause (FQuads T) := by yields! deleteClause
instance : YieldsIn S T iriOrA (FIriOrA T) := by yields! iriOrA
instance : YieldsIn S T iriOrAOrCaret (FIriOrAOrCaret T) := by yields! iriOrAOrCaret
instance : YieldsIn S T pathOneInPropertySet (FIriOrAOrCaret T) := by yields! pathOneInPropertySet
instance : YieldsIn S T pathNegatedPropertySet (fun l => l ≠ [] ∧ ∀ a ∈ l, (FIriOrAOrCaret T) a) := by yields! pathNegatedPropertySet
section
variable {pa : P PathAlternative} [Good pa] [YieldsIn S T pa (FPathAlternative T)]
instance : YieldsIn S T (pathPrimaryS pa) (FPathPrimary T) := by yields! pathPrimaryS
instance : YieldsIn S T (pathEltS pa) (FPathElt T) := by yields! pathEltS
instance : YieldsIn S T (pathEltOrInverseS pa) (FPathEltOrInverse T) := by yields! pathEltOrInverseS
instance : YieldsIn S T (pathSequenceS pa) (FPathSequence T) := by yields! pathSequenceS
instance : YieldsIn S T (pathAlternativeStep pa) (FPathAlternative T) := by yields! pathAlternativeStep
end
instance pathAlternativeF_yields : ∀ n, YieldsIn S T (pathAlternativeF n) (FPathAlternative T)
  | 0 => ⟨fun _ h => by cases h⟩
  | n + 1 => by have := pathAlternativeF_yields n; unfold pathAlternativeF; infer_instance
instance : YieldsIn S T pathAlternative (FPathAlternative T) := ⟨fun m h => (pathAlternativeF_yields _).out m h⟩
instance : YieldsIn S T pathPrimary (FPathPrimary T) := by yields! pathPrimary
instance : YieldsIn S T pathElt (FPathElt T) := by yields! pathElt
instance : YieldsIn S T pathEltOrInverse (FPathEltOrInverse T) := by yields! pathEltOrInverse
instance : YieldsIn S T pathSequence (FPathSequence T) := by yields! pathSequence
instance : YieldsIn S T verbPathOrSimple (FVerbPathOrSimple T) := by yields! verbPathOrSimple
instance : YieldsIn S T propertyListPathEntry (FPropertyListPathEntry T) := by yields! propertyListPathEntry
section
variable {gn : P GraphNodePath} [Good gn] [YieldsIn S T gn (FGraphNodePath T)]
instance : YieldsIn S T (objectListPathS gn) (fun l => l ≠ [] ∧ ∀ a ∈ l, (FGraphNodePath T) a) := by yields! objectListPathS
instance : YieldsIn S T (propertyListPathNotEmptyS gn) (FPropertyListPath T) := by yields! propertyListPathNotEmptyS
instance : YieldsIn S T (propertyListPathS gn) (fun o => ∀ a ∈ o, (FPropertyListPath T) a) := by yields! propertyListPathS
instance : YieldsIn S T (blankNodePropertyListPathS gn) (FPropertyListPath T) := by yields! blankNodePropertyListPathS
instance : YieldsIn S T (triplesNodePathS gn) (FTriplesNodePath T) := by yields! triplesNodePathS
end
instance {gn : P GraphNodePath} : YieldsIn S T (graphNodePathStep gn) (FGraphNodePath T) where
  out m e := by obtain ⟨v, rfl, h⟩ := graphNodePathStep_ok e; exact .varOrTerm (YieldsIn.out (S := S) (T := T) m h)
instance graphNodePathF_yields : ∀ n, YieldsIn S T (graphNodePathF n) (FGraphNodePath T)
  | 0 => ⟨fun _ h => by cases h⟩
  | n + 1 => by have := graphNodePathF_yields n; unfold graphNodePathF; infer_instance
instance : YieldsIn S T graphNodePath (FGraphNodePath T) := ⟨fun m h => (graphNodePathF_yields _).out m h⟩
instance : YieldsIn S T objectListPath (fun l => l ≠ [] ∧ ∀ a ∈ l, (FGraphNodePath T) a) := by yields! objectListPath
instance : YieldsIn S T propertyListPathNotEmpty (FPropertyListPath T) := by yields! propertyListPathNotEmpty
instance : YieldsIn S T propertyListPath (fun o => ∀ a ∈ o, (FPropertyListPath T) a) := by yields! propertyListPath
instance : YieldsIn S T blankNodePropertyListPath (FPropertyListPath T) := by yields! blankNodePropertyListPath
instance : YieldsIn S T triplesNodePath (FTriplesNodePath T) := by yields! triplesNodePath
instance : YieldsIn S T triplesSameSubjectPath (FTriplesSameSubjectPath T) where
  out m e := by
    obtain ⟨v, p, rfl, h⟩ := triplesSameSubjectPath_ok e
    have := YieldsIn.out (S := S) (T := T) m h
    exact .term this.1 this.2
instance : YieldsIn S T triplesBlock (FTriplesBlock T) := by yields! triplesBlock
end

class YRec (S : Str → Prop) (T : Leaves) (R : Rec) (Q : outParam Fam) : Prop where
  expr : YieldsIn S T R.expr Q.expr
  ggp : YieldsIn S T R.ggp Q.group

section
variable {R : Rec} {Q : Fam} [RecGood R] [LeafIn S T]
instance [hR : YRec S T R Q] : YieldsIn S T R.expr Q.expr := hR.expr
instance [hR : YRec S T R Q] : YieldsIn S T R.ggp Q.group := hR.ggp

instance [YRec S T R Q] : YieldsIn S T (brackettedExpr3S R) (fun x => Q.expr x.1 ∧ Q.expr x.2.1 ∧ ∀ a ∈ x.2.2, Q.expr a) := by yields! brackettedExpr3S
instance [YRec S T R Q] : YieldsIn S T (expressionAsVarOptS R) (FExpressionAsVarOptS T Q) := by yields! expressionAsVarOptS
instance [YRec S T R Q] : YieldsIn S T (expressionAsVarS R) (FExpressionAsVarS T Q) := by yields! expressionAsVarS
instance [YRec S T R Q] : YieldsIn S T (expressionListS R) (FExpressionListS T Q) := ⟨fun _ h => by rw [expressionListS_ok h]; exact .nil⟩
instance [YRec S T R Q] : YieldsIn S T (distinctExpressionS R) (FDistinctExpressionS T Q) := by yields! distinctExpressionS
instance [YRec S T R Q] : YieldsIn S T (brackettedExpressionS R) Q.expr := by yields! brackettedExpressionS
instance [YRec S T R Q] : YieldsIn S T (bindS R) (FExpressionAsVarS T Q) := by yields! bindS
instance [YRec S T R Q] : YieldsIn S T (regexExpressionS R) (FRegexExpressionS T Q) := by yields! regexExpressionS
instance [YRec S T R Q] : YieldsIn S T (substringExpressionS R) (FRegexExpressionS T Q) := by yields! substringExpressionS
instance [YRec S T R Q] : YieldsIn S T (strReplaceExpressionS R) (FStrReplaceExpressionS T Q) := by yields! strReplaceExpressionS
instance [YRec S T R Q] : YieldsIn S T (argListS R) (FArgListS T Q) := ⟨fun _ h => by rw [argListS_ok h]; exact .nil⟩
instance [YRec S T R Q] : YieldsIn S T (functionCallS R) (FFunctionCallS T Q) := by yields! functionCallS
instance [YRec S T R Q] : YieldsIn S T (iriOrFunS R) (FIriOrFunctionS T Q) := by yields! iriOrFunS
instance [YRec S T R Q] : YieldsIn S T (countTargetS R) (FCountTargetS T Q) := by yields! countTargetS
instance [YRec S T R Q] : YieldsIn S T (countS R) (FCountS T Q) := by yields! countS
instance [YRec S T R Q] : YieldsIn S T (groupConcatS R) (FGroupConcatS T Q) := by yields! groupConcatS
instance [YRec S T R Q] : YieldsIn S T (aggregateS R) (FAggregateS T Q) := by yields! aggregateS
instance [YRec S T R Q] : YieldsIn S T (exprPairS R) (fun x => Q.expr x.1 ∧ Q.expr x.2) := by yields! exprPairS
instance [YRec S T R Q] : YieldsIn S T (builtInCall1S R) (FBuiltInCallS T Q) := by yields! builtInCall1S
instance [YRec S T R Q] : YieldsIn S T (builtInCall2S R) (FBuiltInCallS T Q) := by yields! builtInCall2S
instance [YRec S T R Q] : YieldsIn S T (builtInCallS R) (FBuiltInCallS T Q) := by yields! builtInCallS
instance [YRec S T R Q] : YieldsIn S T (primaryExpressionS R) (FPrimaryExpressionS T Q) := by yields! primaryExpressionS
instance [YRec S T R Q] : YieldsIn S T (unaryExpressionS R) (FUnaryExpressionS T Q) := by yields! unaryExpressionS
instance [YRec S T R Q] : YieldsIn S T (multExpressionS R) (FMultExpressionS T Q) := by yields! multExpressionS
instance [YRec S T R Q] : YieldsIn S T (multiplicativeExpressionS R) (FMultiplicativeExpressionS T Q) := by yields! multiplicativeExpressionS
instance [YRec S T R Q] : YieldsIn S T (addExpressionS R) (FAddExpressionS T Q) := by yields! addExpressionS
instance [YRec S T R Q] : YieldsIn S T (additiveExpressionS R) (FAdditiveExpressionS T Q) := by yields! additiveExpressionS
instance [YRec S T R Q] : YieldsIn S T (opExpressionS R) (FOpExpressionS T Q) := by yields! opExpressionS
instance [YRec S T R Q] : YieldsIn S T (relationalExpressionS R) (FRelationalExpressionS T Q) := by yields! relationalExpressionS
instance [YRec S T R Q] : YieldsIn S T (conditionalAndExpressionS R) (FConditionalAndExpressionS T Q) := by yields! conditionalAndExpressionS
instance [YRec S T R Q] : YieldsIn S T (expressionStep R) (FExpressionS T Q) := by yields! expressionStep
instance [YRec S T R Q] : YieldsIn S T (constraintS R) (FConstraintS T Q) := by yields! constraintS
instance [YRec S T R Q] : YieldsIn S T (filterS R) (FConstraintS T Q) := by yields! filterS
instance [YRec S T R Q] : YieldsIn S T (orderExpressionS R) (FOrderExpressionS T Q) := by yields! orderExpressionS
instance [YRec S T R Q] : YieldsIn S T (orderConditionS R) (FOrderConditionS T Q) := by yields! orderConditionS
instance [YRec S T R Q] : YieldsIn S T (groupConditionS R) (FGroupConditionS T Q) := by yields! groupConditionS
instance [YRec S T R Q] : YieldsIn S T (groupClauseS R) (FGroupClauseS T Q) := by yields! groupClauseS
instance [YRec S T R Q] : YieldsIn S T (orderClauseS R) (FOrderClauseS T Q) := by yields! orderClauseS
instance [YRec S T R Q] : YieldsIn S T (havingClauseS R) (FHavingClauseS T Q) := by yields! havingClauseS
instance [YRec S T R Q] : YieldsIn S T (solutionModifierS R) (FSolutionModifierS T Q) := by yields! solutionModifierS
instance [YRec S T R Q] : YieldsIn S T (whereClauseS R) Q.group := by yields! whereClauseS
instance [YRec S T R Q] : YieldsIn S T (varOrExpressionAsVarS R) (FVarOrExpressionAsVarS T Q) := by yields! varOrExpressionAsVarS
instance [YRec S T R Q] : YieldsIn S T (selectVarsS R) (FSelectVarsS T Q) := by yields! selectVarsS
instance [YRec S T R Q] : YieldsIn S T (selectClauseS R) (FSelectClauseS T Q) := by yields! selectClauseS
instance [YRec S T R Q] : YieldsIn S T (subSelectS R) (FSubSelectS T Q) := by yields! subSelectS
instance [YRec S T R Q] : YieldsIn S T (groupOrUnionGraphPatternS R) (fun l => l ≠ [] ∧ ∀ a ∈ l, Q.group a) := by yields! groupOrUnionGraphPatternS
instance [YRec S T R Q] : YieldsIn S T (optionalGroupGraphPatternS R) Q.group := by yields! optionalGroupGraphPatternS
instance [YRec S T R Q] : YieldsIn S T (minusGraphPatternS R) Q.group := by yields! minusGraphPatternS
instance [YRec S T R Q] : YieldsIn S T (graphGraphPatternS R) (FGraphGraphPatternS T Q) := by yields! graphGraphPatternS
instance [YRec S T R Q] : YieldsIn S T (serviceGraphPatternS R) (FServiceGraphPatternS T Q) := by yields! serviceGraphPatternS
instance [YRec S T R Q] : YieldsIn S T (graphPatternNotTriplesS R) (FGraphPatternNotTriplesS T Q) := by yields! graphPatternNotTriplesS
instance [YRec S T R Q] : YieldsIn S T (groupGraphPatternAndTriplesS R) (FGraphPatternAndTriplesS T Q) := by yields! groupGraphPatternAndTriplesS
instance [YRec S T R Q] : YieldsIn S T (groupGraphPatternSubS R) (FGroupGraphPatternSubS T Q) := by yields! groupGraphPatternSubS
instance [YRec S T R Q] : YieldsIn S T (groupGraphPatternStep R) (FGroupGraphPatternS T Q) := by yields! groupGraphPatternStep
end

theorem recF_yields [LeafIn S T] : ∀ n, YRec S T (recF n) (filledF T n)
  | 0 => ⟨⟨fun _ h => by cases h⟩, ⟨fun _ h => by cases h⟩⟩
  | n + 1 => by
    have := recF_yields n
    exact ⟨inferInstanceAs (YieldsIn S T (expressionStep (recF n)) (FExpressionS T (filledF T n))),
      inferInstanceAs (YieldsIn S T (groupGraphPatternStep (recF n)) (FGroupGraphPatternS T (filledF T n)))⟩
section
variable [LeafIn S T]
instance : YieldsIn S T expression (FExpression T) := ⟨fun m h => ⟨_, (recF_yields _).expr.out m h⟩⟩
instance : YieldsIn S T groupGraphPattern (FGroupGraphPattern T) := ⟨fun m h => ⟨_, (recF_yields _).ggp.out m h⟩⟩
instance : YRec S T R₀ (filled T) :=
  ⟨inferInstanceAs (YieldsIn S T expression (FExpression T)), inferInstanceAs (YieldsIn S T groupGraphPattern (FGroupGraphPattern T))⟩

instance : YieldsIn S T brackettedExpression (FExpression T) := by yields! brackettedExpression
instance : YieldsIn S T expressionList (FExpressionListS T (filled T)) := by yields! expressionList
instance : YieldsIn S T expressionAsVar (FExpressionAsVarS T (filled T)) := by yields! expressionAsVar
instance : YieldsIn S T expressionAsVarOpt (FExpressionAsVarOptS T (filled T)) := by yields! expressionAsVarOpt
instance : YieldsIn S T distinctExpression (FDistinctExpressionS T (filled T)) := by yields! distinctExpression
instance : YieldsIn S T bind (FExpressionAsVarS T (filled T)) := by yields! bind
instance : YieldsIn S T primaryExpression (FPrimaryExpressionS T (filled T)) := by yields! primaryExpression
instance : YieldsIn S T constraint (FConstraintS T (filled T)) := by yields! constraint
instance : YieldsIn S T filter (FConstraintS T (filled T)) := by yields! filter
instance : YieldsIn S T functionCall (FFunctionCallS T (filled T)) := by yields! functionCall
instance : YieldsIn S T argList (FArgListS T (filled T)) := by yields! argList
instance : YieldsIn S T builtInCall (FBuiltInCallS T (filled T)) := by yields! builtInCall
instance : YieldsIn S T iriOrFun (FIriOrFunctionS T (filled T)) := by yields! iriOrFun
instance : YieldsIn S T aggregate (FAggregateS T (filled T)) := by yields! aggregate
instance : YieldsIn S T unaryExpression (FUnaryExpressionS T (filled T)) := by yields! unaryExpression
instance : YieldsIn S T multExpression (FMultExpressionS T (filled T)) := by yields! multExpression
instance : YieldsIn S T multiplicativeExpression (FMultiplicativeExpressionS T (filled T)) := by yields! multiplicativeExpression
instance : YieldsIn S T addExpression (FAddExpressionS T (filled T)) := by yields! addExpression
instance : YieldsIn S T additiveExpression (FAdditiveExpressionS T (filled T)) := by yields! additiveExpression
instance : YieldsIn S T opExpression (FOpExpressionS T (filled T)) := by yields! opExpression
instance : YieldsIn S T relationalExpression (FRelationalExpressionS T (filled T)) := by yields! relationalExpression
instance : YieldsIn S T conditionalAndExpression (FConditionalAndExpressionS T (filled T)) := by yields! conditionalAndExpression
instance : YieldsIn S T orderCondition (FOrderConditionS T (filled T)) := by yields! orderCondition
instance : YieldsIn S T orderClause (FOrderClauseS T (filled T)) := by yields! orderClause
instance : YieldsIn S T havingClause (FHavingClauseS T (filled T)) := by yields! havingClause
instance : YieldsIn S T groupClause (FGroupClauseS T (filled T)) := by yields! groupClause
instance : YieldsIn S T groupCondition (FGroupConditionS T (filled T)) := by yields! groupCondition
instance : YieldsIn S T solutionModifier (FSolutionModifierS T (filled T)) := by yields! solutionModifier
instance : YieldsIn S T whereClause (FGroupGraphPattern T) := by yields! whereClause
instance : YieldsIn S T selectClause (FSelectClauseS T (filled T)) := by yields! selectClause
instance : YieldsIn S T subSelect (FSubSelectS T (filled T)) := by yields! subSelect
instance : YieldsIn S T graphPatternNotTriples (FGraphPatternNotTriplesS T (filled T)) := by yields! graphPatternNotTriples
instance : YieldsIn S T groupGraphPatternSub (FGroupGraphPatternSubS T (filled T)) := by yields! groupGraphPatternSub
instance : YieldsIn S T dataSetClauses (fun l => ∀ a ∈ l, (FDefaultOrNamedIri T) a) := by yields! dataSetClauses
instance : YieldsIn S T selectQuery (FSelectQuery T) := by yields! selectQuery
instance : YieldsIn S T askQuery (FAskQuery T) := by yields! askQuery
instance : YieldsIn S T describeQuery (FDescribeQuery T) := by yields! describeQuery
instance : YieldsIn S T constructTemplate (fun l => ∀ a ∈ l, (FTriplesSameSubject T) a) := by yields! constructTemplate
instance : YieldsIn S T subTriples (FSubTriples T) := by yields! subTriples
instance : YieldsIn S T subConstruct (FSubConstruct T) := by yields! subConstruct
instance : YieldsIn S T constructQuery (FConstructQuery T) := by yields! constructQuery
instance : YieldsIn S T sparqlQuery (FSparqlQuery T) := by yields! sparqlQuery
instance : YieldsIn S T sparqlQueryStmt (FSparqlQueryStatement T) := by yields! sparqlQueryStmt
instance : YieldsIn S T silentFromTo (fun x => FGraphOrDefault T x.2.1 ∧ FGraphOrDefault T x.2.2) := by yields! silentFromTo
instance : YieldsIn S T addStmt (FAddStatement T) := by yields! addStmt
instance : YieldsIn S T moveStmt (FMoveStatement T) := by yields! moveStmt
instance : YieldsIn S T copyStmt (FCopyStatement T) := by yields! copyStmt
instance : YieldsIn S T createStmt (FCreateStatement T) := by yields! createStmt
instance : YieldsIn S T silentGraphRefAll (fun x => FGraphRefAll T x.2) := by yields! silentGraphRefAll
instance : YieldsIn S T dropStmt (FDropStatement T) := by yields! dropStmt
instance : YieldsIn S T clearStmt (FClearStatement T) := by yields! clearStmt
instance : YieldsIn S T loadStmt (FLoadStatement T) := by yields! loadStmt
instance : YieldsIn S T insertData (FQuads T) := by yields! insertData
instance : YieldsIn S T deleteData (FQuads T) := by yields! deleteData
instance : YieldsIn S T deleteWhereData (FQuads T) := by yields! deleteWhereData
instance : YieldsIn S T deleteInsert (FDeleteInsert T) := by yields! deleteInsert
instance : YieldsIn S T modifyStmt (FModifyStatement T) := by yields! modifyStmt
instance : YieldsIn S T updateStmt (FUpdateStatement T) := by yields! updateStmt
instance {up : P Update} [YieldsIn S T up (FUpdate T)] : YieldsIn S T (updateStep up) (FUpdate T) := by
  unfold updateStep
  refine YieldsIn.weaken inferInstance (imp_map ?_)
  rintro ⟨p, o⟩ ⟨hp, h⟩
  cases o with
  | none => exact .mk hp (by simp) (by simp)
  | some x => exact .mk hp (by intro b hb; cases hb; exact (h x rfl).1) (fun b hb => (h x rfl).2 b hb)
instance updateF_yields : ∀ n, YieldsIn S T (updateF n) (FUpdate T)
  | 0 => ⟨fun _ h => by cases h⟩
  | n + 1 => by have := updateF_yields n; unfold updateF; infer_instance
instance : YieldsIn S T update (FUpdate T) := ⟨fun m h => (updateF_yields _).out m h⟩
end

/-! ## The rules of expressions and groups, closed -/

class FamLe (Q Q' : Fam) : Prop where
  expr : ∀ {e}, Q.expr e → Q'.expr e
  group : ∀ {g}, Q.group g → Q'.group g

section
variable {Q Q' : Fam} [hQ : FamLe Q Q']

theorem FExpressionListS.mono {a} (h : FExpressionListS T Q a) : FExpressionListS T Q' a := by
  cases h <;> constructor <;> first | assumption | exact hQ.expr ‹_› | exact hQ.group ‹_› | exact fun a ha => hQ.expr (by first | exact (by assumption : ∀ x ∈ _, Q.expr x) a ha) | exact fun a ha => hQ.group ((by assumption : ∀ x ∈ _, Q.group x) a ha)
theorem FArgListS.mono {a} (h : FArgListS T Q a) : FArgListS T Q' a := by
  cases h <;> constructor <;> first | assumption | exact hQ.expr ‹_› | exact hQ.group ‹_› | exact fun a ha => hQ.expr (by first | exact (by assumption : ∀ x ∈ _, Q.expr x) a ha) | exact fun a ha => hQ.group ((by assumption : ∀ x ∈ _, Q.group x) a ha)
theorem FDistinctExpressionS.mono {a} (h : FDistinctExpressionS T Q a) : FDistinctExpressionS T Q' a := by
  cases h <;> constructor <;> first | assumption | exact hQ.expr ‹_› | exact hQ.group ‹_› | exact fun a ha => hQ.expr (by first | exact (by assumption : ∀ x ∈ _, Q.expr x) a ha) | exact fun a ha => hQ.group ((by assumption : ∀ x ∈ _, Q.group x) a ha)
theorem FExpressionAsVarS.mono {a} (h : FExpressionAsVarS T Q a) : FExpressionAsVarS T Q' a := by
  cases h <;> constructor <;> first | assumption | exact hQ.expr ‹_› | exact hQ.group ‹_› | exact fun a ha => hQ.expr (by first | exact (by assumption : ∀ x ∈ _, Q.expr x) a ha) | exact fun a ha => hQ.group ((by assumption : ∀ x ∈ _, Q.group x) a ha)
theorem FExpressionAsVarOptS.mono {a} (h : FExpressionAsVarOptS T Q a) : FExpressionAsVarOptS T Q' a := by
  cases h <;> constructor <;> first | assumption | exact hQ.expr ‹_› | exact hQ.group ‹_› | exact fun a ha => hQ.expr (by first | exact (by assumption : ∀ x ∈ _, Q.expr x) a ha) | exact fun a ha => hQ.group ((by assumption : ∀ x ∈ _, Q.group x) a ha)
theorem FRegexExpressionS.mono {a} (h : FRegexExpressionS T Q a) : FRegexExpressionS T Q' a := by
  cases h <;> constructor <;> first | assumption | exact hQ.expr ‹_› | exact hQ.group ‹_› | exact fun a ha => hQ.expr (by first | exact (by assumption : ∀ x ∈ _, Q.expr x) a ha) | exact fun a ha => hQ.group ((by assumption : ∀ x ∈ _, Q.group x) a ha)
theorem FStrReplaceExpressionS.mono {a} (h : FStrReplaceExpressionS T Q a) : FStrReplaceExpressionS T Q' a := by
  cases h <;> constructor <;> first | assumption | exact hQ.expr ‹_› | exact hQ.group ‹_› | exact fun a ha => hQ.expr (by first | exact (by assumption : ∀ x ∈ _, Q.expr x) a ha) | exact fun a ha => hQ.group ((by assumption : ∀ x ∈ _, Q.group x) a ha)
theorem FFunctionCallS.mono {a} (h : FFunctionCallS T Q a) : FFunctionCallS T Q' a := by
  cases h <;> constructor <;> first | assumption | exact hQ.expr ‹_› | exact hQ.group ‹_› | exact FArgListS.mono ‹_› | exact fun a ha => hQ.expr (by first | exact (by assumption : ∀ x ∈ _, Q.expr x) a ha) | exact fun a ha => hQ.group ((by assumption : ∀ x ∈ _, Q.group x) a ha) | exact fun a ha => FArgListS.mono ((by assumption : ∀ x ∈ _, FArgListS T Q x) a ha)
theorem FCountTargetS.mono {a} (h : FCountTargetS T Q a) : FCountTargetS T Q' a := by
  cases h <;> constructor <;> first | assumption | exact hQ.expr ‹_› | exact hQ.group ‹_› | exact fun a ha => hQ.expr (by first | exact (by assumption : ∀ x ∈ _, Q.expr x) a ha) | exact fun a ha => hQ.group ((by assumption : ∀ x ∈ _, Q.group x) a ha)
theorem FGroupConcatS.mono {a} (h : FGroupConcatS T Q a) : FGroupConcatS T Q' a := by
  cases h <;> constructor <;> first | assumption | exact hQ.expr ‹_› | exact hQ.group ‹_› | exact FDistinctExpressionS.mono ‹_› | exact fun a ha => hQ.expr (by first | exact (by assumption : ∀ x ∈ _, Q.expr x) a ha) | exact fun a ha => hQ.group ((by assumption : ∀ x ∈ _, Q.group x) a ha) | exact fun a ha => FDistinctExpressionS.mono ((by assumption : ∀ x ∈ _, FDistinctExpressionS T Q x) a ha)
theorem FGraphGraphPatternS.mono {a} (h : FGraphGraphPatternS T Q a) : FGraphGraphPatternS T Q' a := by
  cases h <;> constructor <;> first | assumption | exact hQ.expr ‹_› | exact hQ.group ‹_› | exact fun a ha => hQ.expr (by first | exact (by assumption : ∀ x ∈ _, Q.expr x) a ha) | exact fun a ha => hQ.group ((by assumption : ∀ x ∈ _, Q.group x) a ha)
theorem FServiceGraphPatternS.mono {a} (h : FServiceGraphPatternS T Q a) : FServiceGraphPatternS T Q' a := by
  cases h <;> constructor <;> first | assumption | exact hQ.expr ‹_› | exact hQ.group ‹_› | exact fun a ha => hQ.expr (by first | exact (by assumption : ∀ x ∈ _, Q.expr x) a ha) | exact fun a ha => hQ.group ((by assumption : ∀ x ∈ _, Q.group x) a ha)
theorem FVarOrExpressionAsVarS.mono {a} (h : FVarOrExpressionAsVarS T Q a) : FVarOrExpressionAsVarS T Q' a := by
  cases h <;> constructor <;> first | assumption | exact hQ.expr ‹_› | exact hQ.group ‹_› | exact FExpressionAsVarS.mono ‹_› | exact fun a ha => hQ.expr (by first | exact (by assumption : ∀ x ∈ _, Q.expr x) a ha) | exact fun a ha => hQ.group ((by assumption : ∀ x ∈ _, Q.group x) a ha) | exact fun a ha => FExpressionAsVarS.mono ((by assumption : ∀ x ∈ _, FExpressionAsVarS T Q x) a ha)
theorem FOrderExpressionS.mono {a} (h : FOrderExpressionS T Q a) : FOrderExpressionS T Q' a := by
  cases h <;> constructor <;> first | assumption | exact hQ.expr ‹_› | exact hQ.group ‹_› | exact fun a ha => hQ.expr (by first | exact (by assumption : ∀ x ∈ _, Q.expr x) a ha) | exact fun a ha => hQ.group ((by assumption : ∀ x ∈ _, Q.group x) a ha)
theorem FIriOrFunctionS.mono {a} (h : FIriOrFunctionS T Q a) : FIriOrFunctionS T Q' a := by
  cases h <;> constructor <;> first | assumption | exact hQ.expr ‹_› | exact hQ.group ‹_› | exact FArgListS.mono ‹_› | exact fun a ha => hQ.expr (by first | exact (by assumption : ∀ x ∈ _, Q.expr x) a ha) | exact fun a ha => hQ.group ((by assumption : ∀ x ∈ _, Q.group x) a ha) | exact fun a ha => FArgListS.mono ((by assumption : ∀ x ∈ _, FArgListS T Q x) a ha)
theorem FCountS.mono {a} (h : FCountS T Q a) : FCountS T Q' a := by
  cases h <;> constructor <;> first | assumption | exact hQ.expr ‹_› | exact hQ.group ‹_› | exact FCountTargetS.mono ‹_› | exact fun a ha => hQ.expr (by first | exact (by assumption : ∀ x ∈ _, Q.expr x) a ha) | exact fun a ha => hQ.group ((by assumption : ∀ x ∈ _, Q.group x) a ha) | exact fun a ha => FCountTargetS.mono ((by assumption : ∀ x ∈ _, FCountTargetS T Q x) a ha)
theorem FSelectVarsS.mono {a} (h : FSelectVarsS T Q a) : FSelectVarsS T Q' a := by
  cases h <;> constructor <;> first | assumption | exact hQ.expr ‹_› | exact hQ.group ‹_› | exact FVarOrExpressionAsVarS.mono ‹_› | exact fun a ha => hQ.expr (by first | exact (by assumption : ∀ x ∈ _, Q.expr x) a ha) | exact fun a ha => hQ.group ((by assumption : ∀ x ∈ _, Q.group x) a ha) | exact fun a ha => FVarOrExpressionAsVarS.mono ((by assumption : ∀ x ∈ _, FVarOrExpressionAsVarS T Q x) a ha)
theorem FAggregateS.mono {a} (h : FAggregateS T Q a) : FAggregateS T Q' a := by
  cases h <;> constructor <;> first | assumption | exact hQ.expr ‹_› | exact hQ.group ‹_› | exact FCountS.mono ‹_› | exact FDistinctExpressionS.mono ‹_› | exact FGroupConcatS.mono ‹_› | exact fun a ha => hQ.expr (by first | exact (by assumption : ∀ x ∈ _, Q.expr x) a ha) | exact fun a ha => hQ.group ((by assumption : ∀ x ∈ _, Q.group x) a ha) | exact fun a ha => FCountS.mono ((by assumption : ∀ x ∈ _, FCountS T Q x) a ha) | exact fun a ha => FDistinctExpressionS.mono ((by assumption : ∀ x ∈ _, FDistinctExpressionS T Q x) a ha) | exact fun a ha => FGroupConcatS.mono ((by assumption : ∀ x ∈ _, FGroupConcatS T Q x) a ha)
theorem FSelectClauseS.mono {a} (h : FSelectClauseS T Q a) : FSelectClauseS T Q' a := by
  cases h <;> constructor <;> first | assumption | exact hQ.expr ‹_› | exact hQ.group ‹_› | exact FSelectVarsS.mono ‹_› | exact fun a ha => hQ.expr (by first | exact (by assumption : ∀ x ∈ _, Q.expr x) a ha) | exact fun a ha => hQ.group ((by assumption : ∀ x ∈ _, Q.group x) a ha) | exact fun a ha => FSelectVarsS.mono ((by assumption : ∀ x ∈ _, FSelectVarsS T Q x) a ha)
theorem FBuiltInCallS.mono {a} (h : FBuiltInCallS T Q a) : FBuiltInCallS T Q' a := by
  cases h <;> constructor <;> first | assumption | exact hQ.expr ‹_› | exact hQ.group ‹_› | exact FAggregateS.mono ‹_› | exact FExpressionListS.mono ‹_› | exact FRegexExpressionS.mono ‹_› | exact FStrReplaceExpressionS.mono ‹_› | exact fun a ha => hQ.expr (by first | exact (by assumption : ∀ x ∈ _, Q.expr x) a ha) | exact fun a ha => hQ.group ((by assumption : ∀ x ∈ _, Q.group x) a ha) | exact fun a ha => FAggregateS.mono ((by assumption : ∀ x ∈ _, FAggregateS T Q x) a ha) | exact fun a ha => FExpressionListS.mono ((by assumption : ∀ x ∈ _, FExpressionListS T Q x) a ha) | exact fun a ha => FRegexExpressionS.mono ((by assumption : ∀ x ∈ _, FRegexExpressionS T Q x) a ha) | exact fun a ha => FStrReplaceExpressionS.mono ((by assumption : ∀ x ∈ _, FStrReplaceExpressionS T Q x) a ha)
theorem FGroupConditionS.mono {a} (h : FGroupConditionS T Q a) : FGroupConditionS T Q' a := by
  cases h <;> constructor <;> first | assumption | exact hQ.expr ‹_› | exact hQ.group ‹_› | exact FBuiltInCallS.mono ‹_› | exact FFunctionCallS.mono ‹_› | exact FExpressionAsVarOptS.mono ‹_› | exact fun a ha => hQ.expr (by first | exact (by assumption : ∀ x ∈ _, Q.expr x) a ha) | exact fun a ha => hQ.group ((by assumption : ∀ x ∈ _, Q.group x) a ha) | exact fun a ha => FBuiltInCallS.mono ((by assumption : ∀ x ∈ _, FBuiltInCallS T Q x) a ha) | exact fun a ha => FFunctionCallS.mono ((by assumption : ∀ x ∈ _, FFunctionCallS T Q x) a ha) | exact fun a ha => FExpressionAsVarOptS.mono ((by assumption : ∀ x ∈ _, FExpressionAsVarOptS T Q x) a ha)
theorem FPrimaryExpressionS.mono {a} (h : FPrimaryExpressionS T Q a) : FPrimaryExpressionS T Q' a := by
  cases h <;> constructor <;> first | assumption | exact hQ.expr ‹_› | exact hQ.group ‹_› | exact FBuiltInCallS.mono ‹_› | exact FIriOrFunctionS.mono ‹_› | exact fun a ha => hQ.expr (by first | exact (by assumption : ∀ x ∈ _, Q.expr x) a ha) | exact fun a ha => hQ.group ((by assumption : ∀ x ∈ _, Q.group x) a ha) | exact fun a ha => FBuiltInCallS.mono ((by assumption : ∀ x ∈ _, FBuiltInCallS T Q x) a ha) | exact fun a ha => FIriOrFunctionS.mono ((by assumption : ∀ x ∈ _, FIriOrFunctionS T Q x) a ha)
theorem FConstraintS.mono {a} (h : FConstraintS T Q a) : FConstraintS T Q' a := by
  cases h <;> constructor <;> first | assumption | exact hQ.expr ‹_› | exact hQ.group ‹_› | exact FBuiltInCallS.mono ‹_› | exact FFunctionCallS.mono ‹_› | exact fun a ha => hQ.expr (by first | exact (by assumption : ∀ x ∈ _, Q.expr x) a ha) | exact fun a ha => hQ.group ((by assumption : ∀ x ∈ _, Q.group x) a ha) | exact fun a ha => FBuiltInCallS.mono ((by assumption : ∀ x ∈ _, FBuiltInCallS T Q x) a ha) | exact fun a ha => FFunctionCallS.mono ((by assumption : ∀ x ∈ _, FFunctionCallS T Q x) a ha)
theorem FGraphPatternNotTriplesS.mono {a} (h : FGraphPatternNotTriplesS T Q a) : FGraphPatternNotTriplesS T Q' a := by
  cases h <;> constructor <;> first | assumption | exact hQ.expr ‹_› | exact hQ.group ‹_› | exact FGraphGraphPatternS.mono ‹_› | exact FServiceGraphPatternS.mono ‹_› | exact FConstraintS.mono ‹_› | exact FExpressionAsVarS.mono ‹_› | exact fun a ha => hQ.expr (by first | exact (by assumption : ∀ x ∈ _, Q.expr x) a ha) | exact fun a ha => hQ.group ((by assumption : ∀ x ∈ _, Q.group x) a ha) | exact fun a ha => FGraphGraphPatternS.mono ((by assumption : ∀ x ∈ _, FGraphGraphPatternS T Q x) a ha) | exact fun a ha => FServiceGraphPatternS.mono ((by assumption : ∀ x ∈ _, FServiceGraphPatternS T Q x) a ha) | exact fun a ha => FConstraintS.mono ((by assumption : ∀ x ∈ _, FConstraintS T Q x) a ha) | exact fun a ha => FExpressionAsVarS.mono ((by assumption : ∀ x ∈ _, FExpressionAsVarS T Q x) a ha)
theorem FHavingClauseS.mono {a} (h : FHavingClauseS T Q a) : FHavingClauseS T Q' a := by
  cases h <;> constructor <;> first | assumption | exact hQ.expr ‹_› | exact hQ.group ‹_› | exact FConstraintS.mono ‹_› | exact fun a ha => hQ.expr (by first | exact (by assumption : ∀ x ∈ _, Q.expr x) a ha) | exact fun a ha => hQ.group ((by assumption : ∀ x ∈ _, Q.group x) a ha) | exact fun a ha => FConstraintS.mono ((by assumption : ∀ x ∈ _, FConstraintS T Q x) a ha)
theorem FOrderConditionS.mono {a} (h : FOrderConditionS T Q a) : FOrderConditionS T Q' a := by
  cases h <;> constructor <;> first | assumption | exact hQ.expr ‹_› | exact hQ.group ‹_› | exact FOrderExpressionS.mono ‹_› | exact FConstraintS.mono ‹_› | exact fun a ha => hQ.expr (by first | exact (by assumption : ∀ x ∈ _, Q.expr x) a ha) | exact fun a ha => hQ.group ((by assumption : ∀ x ∈ _, Q.group x) a ha) | exact fun a ha => FOrderExpressionS.mono ((by assumption : ∀ x ∈ _, FOrderExpressionS T Q x) a ha) | exact fun a ha => FConstraintS.mono ((by assumption : ∀ x ∈ _, FConstraintS T Q x) a ha)
theorem FGroupClauseS.mono {a} (h : FGroupClauseS T Q a) : FGroupClauseS T Q' a := by
  cases h <;> constructor <;> first | assumption | exact hQ.expr ‹_› | exact hQ.group ‹_› | exact FGroupConditionS.mono ‹_› | exact fun a ha => hQ.expr (by first | exact (by assumption : ∀ x ∈ _, Q.expr x) a ha) | exact fun a ha => hQ.group ((by assumption : ∀ x ∈ _, Q.group x) a ha) | exact fun a ha => FGroupConditionS.mono ((by assumption : ∀ x ∈ _, FGroupConditionS T Q x) a ha)
theorem FUnaryExpressionS.mono {a} (h : FUnaryExpressionS T Q a) : FUnaryExpressionS T Q' a := by
  cases h <;> constructor <;> first | assumption | exact hQ.expr ‹_› | exact hQ.group ‹_› | exact FPrimaryExpressionS.mono ‹_› | exact fun a ha => hQ.expr (by first | exact (by assumption : ∀ x ∈ _, Q.expr x) a ha) | exact fun a ha => hQ.group ((by assumption : ∀ x ∈ _, Q.group x) a ha) | exact fun a ha => FPrimaryExpressionS.mono ((by assumption : ∀ x ∈ _, FPrimaryExpressionS T Q x) a ha)
theorem FGraphPatternAndTriplesS.mono {a} (h : FGraphPatternAndTriplesS T Q a) : FGraphPatternAndTriplesS T Q' a := by
  cases h <;> constructor <;> first | assumption | exact hQ.expr ‹_› | exact hQ.group ‹_› | exact FGraphPatternNotTriplesS.mono ‹_› | exact fun a ha => hQ.expr (by first | exact (by assumption : ∀ x ∈ _, Q.expr x) a ha) | exact fun a ha => hQ.group ((by assumption : ∀ x ∈ _, Q.group x) a ha) | exact fun a ha => FGraphPatternNotTriplesS.mono ((by assumption : ∀ x ∈ _, FGraphPatternNotTriplesS T Q x) a ha)
theorem FOrderClauseS.mono {a} (h : FOrderClauseS T Q a) : FOrderClauseS T Q' a := by
  cases h <;> constructor <;> first | assumption | exact hQ.expr ‹_› | exact hQ.group ‹_› | exact FOrderConditionS.mono ‹_› | exact fun a ha => hQ.expr (by first | exact (by assumption : ∀ x ∈ _, Q.expr x) a ha) | exact fun a ha => hQ.group ((by assumption : ∀ x ∈ _, Q.group x) a ha) | exact fun a ha => FOrderConditionS.mono ((by assumption : ∀ x ∈ _, FOrderConditionS T Q x) a ha)
theorem FMultExpressionS.mono {a} (h : FMultExpressionS T Q a) : FMultExpressionS T Q' a := by
  cases h <;> constructor <;> first | assumption | exact hQ.expr ‹_› | exact hQ.group ‹_› | exact FUnaryExpressionS.mono ‹_› | exact fun a ha => hQ.expr (by first | exact (by assumption : ∀ x ∈ _, Q.expr x) a ha) | exact fun a ha => hQ.group ((by assumption : ∀ x ∈ _, Q.group x) a ha) | exact fun a ha => FUnaryExpressionS.mono ((by assumption : ∀ x ∈ _, FUnaryExpressionS T Q x) a ha)
theorem FGroupGraphPatternSubS.mono {a} (h : FGroupGraphPatternSubS T Q a) : FGroupGraphPatternSubS T Q' a := by
  cases h <;> constructor <;> first | assumption | exact hQ.expr ‹_› | exact hQ.group ‹_› | exact FGraphPatternAndTriplesS.mono ‹_› | exact fun a ha => hQ.expr (by first | exact (by assumption : ∀ x ∈ _, Q.expr x) a ha) | exact fun a ha => hQ.group ((by assumption : ∀ x ∈ _, Q.group x) a ha) | exact fun a ha => FGraphPatternAndTriplesS.mono ((by assumption : ∀ x ∈ _, FGraphPatternAndTriplesS T Q x) a ha)
theorem FSolutionModifierS.mono {a} (h : FSolutionModifierS T Q a) : FSolutionModifierS T Q' a := by
  cases h <;> constructor <;> first | assumption | exact hQ.expr ‹_› | exact hQ.group ‹_› | exact FOrderClauseS.mono ‹_› | exact FGroupClauseS.mono ‹_› | exact FHavingClauseS.mono ‹_› | exact fun a ha => hQ.expr (by first | exact (by assumption : ∀ x ∈ _, Q.expr x) a ha) | exact fun a ha => hQ.group ((by assumption : ∀ x ∈ _, Q.group x) a ha) | exact fun a ha => FOrderClauseS.mono ((by assumption : ∀ x ∈ _, FOrderClauseS T Q x) a ha) | exact fun a ha => FGroupClauseS.mono ((by assumption : ∀ x ∈ _, FGroupClauseS T Q x) a ha) | exact fun a ha => FHavingClauseS.mono ((by assumption : ∀ x ∈ _, FHavingClauseS T Q x) a ha)
theorem FMultiplicativeExpressionS.mono {a} (h : FMultiplicativeExpressionS T Q a) : FMultiplicativeExpressionS T Q' a := by
  cases h <;> constructor <;> first | assumption | exact hQ.expr ‹_› | exact hQ.group ‹_› | exact FUnaryExpressionS.mono ‹_› | exact FMultExpressionS.mono ‹_› | exact fun a ha => hQ.expr (by first | exact (by assumption : ∀ x ∈ _, Q.expr x) a ha) | exact fun a ha => hQ.group ((by assumption : ∀ x ∈ _, Q.group x) a ha) | exact fun a ha => FUnaryExpressionS.mono ((by assumption : ∀ x ∈ _, FUnaryExpressionS T Q x) a ha) | exact fun a ha => FMultExpressionS.mono ((by assumption : ∀ x ∈ _, FMultExpressionS T Q x) a ha)
theorem FSubSelectS.mono {a} (h : FSubSelectS T Q a) : FSubSelectS T Q' a := by
  cases h <;> constructor <;> first | assumption | exact hQ.expr ‹_› | exact hQ.group ‹_› | exact FSelectClauseS.mono ‹_› | exact FSolutionModifierS.mono ‹_› | exact fun a ha => hQ.expr (by first | exact (by assumption : ∀ x ∈ _, Q.expr x) a ha) | exact fun a ha => hQ.group ((by assumption : ∀ x ∈ _, Q.group x) a ha) | exact fun a ha => FSelectClauseS.mono ((by assumption : ∀ x ∈ _, FSelectClauseS T Q x) a ha) | exact fun a ha => FSolutionModifierS.mono ((by assumption : ∀ x ∈ _, FSolutionModifierS T Q x) a ha)
theorem FAddExpressionS.mono {a} (h : FAddExpressionS T Q a) : FAddExpressionS T Q' a := by
  cases h <;> constructor <;> first | assumption | exact hQ.expr ‹_› | exact hQ.group ‹_› | exact FMultiplicativeExpressionS.mono ‹_› | exact FMultExpressionS.mono ‹_› | exact fun a ha => hQ.expr (by first | exact (by assumption : ∀ x ∈ _, Q.expr x) a ha) | exact fun a ha => hQ.group ((by assumption : ∀ x ∈ _, Q.group x) a ha) | exact fun a ha => FMultiplicativeExpressionS.mono ((by assumption : ∀ x ∈ _, FMultiplicativeExpressionS T Q x) a ha) | exact fun a ha => FMultExpressionS.mono ((by assumption : ∀ x ∈ _, FMultExpressionS T Q x) a ha)
theorem FGroupGraphPatternS.mono {a} (h : FGroupGraphPatternS T Q a) : FGroupGraphPatternS T Q' a := by
  cases h <;> constructor <;> first | assumption | exact hQ.expr ‹_› | exact hQ.group ‹_› | exact FSubSelectS.mono ‹_› | exact FGroupGraphPatternSubS.mono ‹_› | exact fun a ha => hQ.expr (by first | exact (by assumption : ∀ x ∈ _, Q.expr x) a ha) | exact fun a ha => hQ.group ((by assumption : ∀ x ∈ _, Q.group x) a ha) | exact fun a ha => FSubSelectS.mono ((by assumption : ∀ x ∈ _, FSubSelectS T Q x) a ha) | exact fun a ha => FGroupGraphPatternSubS.mono ((by assumption : ∀ x ∈ _, FGroupGraphPatternSubS T Q x) a ha)
theorem FAdditiveExpressionS.mono {a} (h : FAdditiveExpressionS T Q a) : FAdditiveExpressionS T Q' a := by
  cases h <;> constructor <;> first | assumption | exact hQ.expr ‹_› | exact hQ.group ‹_› | exact FMultiplicativeExpressionS.mono ‹_› | exact FAddExpressionS.mono ‹_› | exact fun a ha => hQ.expr (by first | exact (by assumption : ∀ x ∈ _, Q.expr x) a ha) | exact fun a ha => hQ.group ((by assumption : ∀ x ∈ _, Q.group x) a ha) | exact fun a ha => FMultiplicativeExpressionS.mono ((by assumption : ∀ x ∈ _, FMultiplicativeExpressionS T Q x) a ha) | exact fun a ha => FAddExpressionS.mono ((by assumption : ∀ x ∈ _, FAddExpressionS T Q x) a ha)
theorem FOpExpressionS.mono {a} (h : FOpExpressionS T Q a) : FOpExpressionS T Q' a := by
  cases h <;> constructor <;> first | assumption | exact hQ.expr ‹_› | exact hQ.group ‹_› | exact FAdditiveExpressionS.mono ‹_› | exact FExpressionListS.mono ‹_› | exact fun a ha => hQ.expr (by first | exact (by assumption : ∀ x ∈ _, Q.expr x) a ha) | exact fun a ha => hQ.group ((by assumption : ∀ x ∈ _, Q.group x) a ha) | exact fun a ha => FAdditiveExpressionS.mono ((by assumption : ∀ x ∈ _, FAdditiveExpressionS T Q x) a ha) | exact fun a ha => FExpressionListS.mono ((by assumption : ∀ x ∈ _, FExpressionListS T Q x) a ha)
theorem FRelationalExpressionS.mono {a} (h : FRelationalExpressionS T Q a) : FRelationalExpressionS T Q' a := by
  cases h <;> constructor <;> first | assumption | exact hQ.expr ‹_› | exact hQ.group ‹_› | exact FAdditiveExpressionS.mono ‹_› | exact FOpExpressionS.mono ‹_› | exact fun a ha => hQ.expr (by first | exact (by assumption : ∀ x ∈ _, Q.expr x) a ha) | exact fun a ha => hQ.group ((by assumption : ∀ x ∈ _, Q.group x) a ha) | exact fun a ha => FAdditiveExpressionS.mono ((by assumption : ∀ x ∈ _, FAdditiveExpressionS T Q x) a ha) | exact fun a ha => FOpExpressionS.mono ((by assumption : ∀ x ∈ _, FOpExpressionS T Q x) a ha)
theorem FConditionalAndExpressionS.mono {a} (h : FConditionalAndExpressionS T Q a) : FConditionalAndExpressionS T Q' a := by
  cases h <;> constructor <;> first | assumption | exact hQ.expr ‹_› | exact hQ.group ‹_› | exact FRelationalExpressionS.mono ‹_› | exact fun a ha => hQ.expr (by first | exact (by assumption : ∀ x ∈ _, Q.expr x) a ha) | exact fun a ha => hQ.group ((by assumption : ∀ x ∈ _, Q.group x) a ha) | exact fun a ha => FRelationalExpressionS.mono ((by assumption : ∀ x ∈ _, FRelationalExpressionS T Q x) a ha)
theorem FExpressionS.mono {a} (h : FExpressionS T Q a) : FExpressionS T Q' a := by
  cases h <;> constructor <;> first | assumption | exact hQ.expr ‹_› | exact hQ.group ‹_› | exact FConditionalAndExpressionS.mono ‹_› | exact fun a ha => hQ.expr (by first | exact (by assumption : ∀ x ∈ _, Q.expr x) a ha) | exact fun a ha => hQ.group ((by assumption : ∀ x ∈ _, Q.group x) a ha) | exact fun a ha => FConditionalAndExpressionS.mono ((by assumption : ∀ x ∈ _, FConditionalAndExpressionS T Q x) a ha)
end

instance [h : FamLe Q Q'] : FamLe { expr := FExpressionS T Q, group := FGroupGraphPatternS T Q } { expr := FExpressionS T Q', group := FGroupGraphPatternS T Q' } :=
  ⟨FExpressionS.mono, FGroupGraphPatternS.mono⟩

instance (n : Nat) : FamLe (filledF T n) (filled T) := ⟨fun h => ⟨n, h⟩, fun h => ⟨n, h⟩⟩

theorem filledF_cases {n : Nat} {e : Expression} (h : (filledF T n).expr e) : FExpressionS T (filled T) e := by
  cases n with
  | zero => exact h.elim
  | succ n => exact FExpressionS.mono (Q := filledF T n) h

theorem filledF_cases_group {n : Nat} {g : GroupGraphPattern} (h : (filledF T n).group g) : FGroupGraphPatternS T (filled T) g := by
  cases n with
  | zero => exact h.elim
  | succ n => exact FGroupGraphPatternS.mono (Q := filledF T n) h

/-- The parts of an expression that satisfies the rules satisfy them. -/
theorem FExpression.inv {e : Expression} (h : FExpression T e) : FExpressionS T (filled T) e := by
  obtain ⟨n, h⟩ := h
  exact filledF_cases h

theorem FGroupGraphPattern.inv {g : GroupGraphPattern} (h : FGroupGraphPattern T g) : FGroupGraphPatternS T (filled T) g := by
  obtain ⟨n, h⟩ := h
  exact filledF_cases_group h

end NomSparql
