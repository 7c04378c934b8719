import Verif.Lemmas.Judge

/-!
# `Good`, `Consumes`, `NoFuel`, `Agree` for every parser of the model
-/

namespace NomSparql

set_option synthInstance.maxSize 4000
set_option synthInstance.maxHeartbeats 400000

macro "good! " n:ident : command => `(instance : Good $n := by unfold $n; infer_instance)
macro "consumes! " n:ident : command => `(instance : Consumes $n := by unfold $n; infer_instance)
macro "nofuel! " n:ident : command =>
  `(instance : NoFuel $n := NoFuel.of_agree fun m => by unfold $n; infer_instance)

/-! ## Parametrised terminals -/

section
variable {p : P α} {q : P β} (t : List Char) (c : Char)

instance (priority := high) : Good sp := by unfold sp spItem newLine; infer_instance
instance (priority := high) : Good sp1 := by unfold sp1 spItem newLine; infer_instance
good! newLine
good! spItem
consumes! newLine
consumes! spItem
consumes! sp1
nofuel! newLine
nofuel! spItem
nofuel! sp
nofuel! sp1

instance [Good p] : Good (bracketted p) := by unfold bracketted; infer_instance
instance [Good p] : Consumes (bracketted p) := by unfold bracketted; infer_instance
instance [Good p] : Good (precededTag1 t p) := by unfold precededTag1; infer_instance
instance [Good p] : Consumes (precededTag1 (c :: t) p) := by unfold precededTag1; infer_instance
instance [Good p] : Good (precededTag t p) := by unfold precededTag; infer_instance
instance [Good p] : Consumes (precededTag (c :: t) p) := by unfold precededTag; infer_instance
instance [Good p] : Good (precededBracketted t p) := by unfold precededBracketted; infer_instance
instance [Good p] : Consumes (precededBracketted (c :: t) p) := by
  unfold precededBracketted; infer_instance
instance [Good p] : Good (spEnc p) := by unfold spEnc; infer_instance
instance [Good p] [Consumes p] : Consumes (spEnc p) := by unfold spEnc; infer_instance
instance [Good p] : Good (spEnc1 p) := by unfold spEnc1; infer_instance
instance [Good p] : Consumes (spEnc1 p) := by unfold spEnc1; infer_instance
instance [Good p] [Good q] : Good (spSep1 p q) := by unfold spSep1; infer_instance
instance [Good p] [Good q] : Consumes (spSep1 p q) := by unfold spSep1; infer_instance
instance [Good p] [Good q] : Good (spSep p q) := by unfold spSep; infer_instance
instance [Good p] [Consumes p] [Good q] : Consumes (spSep p q) := by unfold spSep; infer_instance
instance [Good p] : Good (bracketted3 p) := by unfold bracketted3 comma; infer_instance
instance [Good p] : Consumes (bracketted3 p) := by unfold bracketted3 comma; infer_instance

section
variable {m : Nat} {p' : P α} {q' : P β}

/-- Marker lemma: agreement after a consuming prefix. -/
theorem agree_bracketted [Good p] [Agree m p p'] : Agree (m + 1) (bracketted p) (bracketted p') := by
  unfold bracketted; infer_instance
instance (priority := high) [Good p] [Agree m p p'] :
    Agree (m + 1) (bracketted p) (bracketted p') := agree_bracketted
instance [Good p] [Agree m p p'] : Agree m (bracketted p) (bracketted p') := agree_bracketted.down

theorem agree_precededTag1 [Good p] [Agree m p p'] :
    Agree (m + 1) (precededTag1 (c :: t) p) (precededTag1 (c :: t) p') := by
  unfold precededTag1; infer_instance
instance (priority := high) [Good p] [Agree m p p'] :
    Agree (m + 1) (precededTag1 (c :: t) p) (precededTag1 (c :: t) p') := agree_precededTag1 t c
instance [Good p] [Agree m p p'] :
    Agree m (precededTag1 (c :: t) p) (precededTag1 (c :: t) p') := (agree_precededTag1 t c).down

theorem agree_precededTag [Good p] [Agree m p p'] :
    Agree (m + 1) (precededTag (c :: t) p) (precededTag (c :: t) p') := by
  unfold precededTag; infer_instance
instance (priority := high) [Good p] [Agree m p p'] :
    Agree (m + 1) (precededTag (c :: t) p) (precededTag (c :: t) p') := agree_precededTag t c
instance [Good p] [Agree m p p'] :
    Agree m (precededTag (c :: t) p) (precededTag (c :: t) p') := (agree_precededTag t c).down

instance (priority := high) [Good p] [Agree m (bracketted p) (bracketted p')] :
    Agree (m + 1) (precededBracketted (c :: t) p) (precededBracketted (c :: t) p') := by
  unfold precededBracketted; infer_instance
instance [Good p] [Agree m (bracketted p) (bracketted p')] :
    Agree m (precededBracketted (c :: t) p) (precededBracketted (c :: t) p') := by
  unfold precededBracketted; infer_instance

instance [Good p] [Agree m p p'] : Agree m (spEnc p) (spEnc p') := by unfold spEnc; infer_instance
instance [Good p] [Agree m p p'] : Agree m (spEnc1 p) (spEnc1 p') := by
  unfold spEnc1; infer_instance
instance [Good p] [Agree m p p'] [Agree m q q'] : Agree m (spSep1 p q) (spSep1 p' q') := by
  unfold spSep1; infer_instance
instance [Good p] [Agree m p p'] [Agree m q q'] : Agree m (spSep p q) (spSep p' q') := by
  unfold spSep; infer_instance
theorem agree_bracketted3 [Good p] [Agree m p p'] :
    Agree (m + 1) (bracketted3 p) (bracketted3 p') := by
  unfold bracketted3 comma; infer_instance
instance (priority := high) [Good p] [Agree m p p'] :
    Agree (m + 1) (bracketted3 p) (bracketted3 p') := agree_bracketted3
instance [Good p] [Agree m p p'] : Agree m (bracketted3 p) (bracketted3 p') :=
  agree_bracketted3.down
end
end

/-! ## src/terminals.rs -/

good! pnCharsBaseOne
good! pnCharsBase1
good! pnCharsUOne
good! pnCharsU1
good! pnCharsOne
good! pnChars1
good! stringContent
good! stringLiteral
good! languageTag
good! echar
good! pnCharsTail
good! hexPrimary
good! plx
good! pnLocalFirst
good! pnLocalChunk
good! pnLocal
good! pnPrefix
good! pnameNs
good! pnameLn
good! prefixedName
good! iriRef
good! iri
good! namedIri
good! defaultOrNamedIri
good! rdfLiteral
good! baseDecl
good! prefixDecl
good! prologue
good! anon
good! nil

consumes! pnCharsBaseOne
consumes! pnCharsBase1
consumes! pnCharsUOne
consumes! pnCharsU1
consumes! pnCharsOne
consumes! pnChars1
consumes! stringLiteral
consumes! languageTag
consumes! hexPrimary
consumes! plx
consumes! pnLocalFirst
consumes! pnLocal
consumes! pnPrefix
consumes! pnameNs
consumes! pnameLn
consumes! prefixedName
consumes! iriRef
consumes! iri
consumes! namedIri
consumes! defaultOrNamedIri
consumes! rdfLiteral
consumes! baseDecl
consumes! prefixDecl
consumes! anon
consumes! nil

nofuel! pnCharsBaseOne
nofuel! pnCharsBase1
nofuel! pnCharsUOne
nofuel! pnCharsU1
nofuel! pnCharsOne
nofuel! pnChars1
nofuel! stringContent
nofuel! stringLiteral
nofuel! languageTag
nofuel! echar
nofuel! pnCharsTail
nofuel! hexPrimary
nofuel! plx
nofuel! pnLocalFirst
nofuel! pnLocalChunk
nofuel! pnLocal
nofuel! pnPrefix
nofuel! pnameNs
nofuel! pnameLn
nofuel! prefixedName
nofuel! iriRef
nofuel! iri
nofuel! namedIri
nofuel! defaultOrNamedIri
nofuel! rdfLiteral
nofuel! baseDecl
nofuel! prefixDecl
nofuel! prologue
nofuel! anon
nofuel! nil

/-! ## src/literal.rs -/

good! stringLiteralArg
good! silent
good! distinct
good! boolean
good! sign
good! optSign
good! exponent
good! recognizeSparqlFloat
consumes! stringLiteralArg
consumes! silent
consumes! distinct
consumes! boolean
consumes! sign
consumes! exponent
instance : Consumes recognizeSparqlFloat := by
  unfold recognizeSparqlFloat; infer_instance
nofuel! stringLiteralArg
nofuel! silent
nofuel! distinct
nofuel! boolean
nofuel! sign
nofuel! optSign
nofuel! exponent
nofuel! recognizeSparqlFloat

instance : Good sparqlDecimal where
  out i := by
    have h := Good.out (p := recognizeSparqlFloat) i
    unfold sparqlDecimal
    split <;> rename_i e <;> rw [e] at h
    · exact h.cast
    · split <;> exact h

instance : Consumes sparqlDecimal where
  out i r a h := by
    unfold sparqlDecimal at h
    split at h
    · cases h
    · rename_i e
      split at h <;> cases h
      exact Consumes.out _ _ _ e

instance : NoFuel sparqlDecimal where
  out i := by
    have h := NoFuel.out (p := recognizeSparqlFloat) i
    unfold sparqlDecimal
    split <;> rename_i e
    · rw [e] at h; simpa using h
    · split <;> simp

good! sparqlDouble
consumes! sparqlDouble
nofuel! sparqlDouble

theorem good_intText : Good (recognize (pair optSign digit1)) := inferInstance
theorem consumes_intText : Consumes (recognize (pair optSign digit1)) := inferInstance
theorem nofuel_intText : NoFuel (recognize (pair optSign digit1)) :=
  NoFuel.of_agree fun _ => inferInstance

instance : Good sparqlInt where
  out i := by
    have h := good_intText.out i
    unfold sparqlInt
    split <;> rename_i e <;> rw [e] at h
    · split
      · exact h
      · split <;> exact h
    · exact h.cast

instance : Consumes sparqlInt where
  out i r a h := by
    unfold sparqlInt at h
    split at h
    · rename_i e
      split at h
      · cases h
      · split at h <;> cases h
        exact consumes_intText.out _ _ _ e
    · cases h

instance : NoFuel sparqlInt where
  out i := by
    have h := nofuel_intText.out i
    unfold sparqlInt
    split
    · split
      · simp
      · split <;> simp
    · rename_i e; rw [e] at h; simpa using h

good! numericLiteral
consumes! numericLiteral
nofuel! numericLiteral

/-! ## src/var.rs, src/data.rs, terms of src/graph.rs, simple clauses -/

good! varName
good! var
good! varOrIri
good! verb
good! varOrIrisOrAll
good! blankNode
good! graphTerm
good! varOrTerm
good! graphRef
good! graphOrDefault
good! graphRefAll
good! dataSetClause
good! datablockValue
good! inlineDataFull
good! inlineDataOneVar
good! datablock
good! inlineData
good! valuesClause
good! usingClause
instance {p : P Str} [Good p] : Good (intClause p) := by unfold intClause; infer_instance
good! limitClause
good! offsetClause
good! limitOffsetClause

consumes! varName
consumes! var
consumes! varOrIri
consumes! verb
consumes! varOrIrisOrAll
consumes! blankNode
consumes! graphTerm
consumes! varOrTerm
consumes! graphRef
consumes! graphOrDefault
consumes! graphRefAll
consumes! dataSetClause
consumes! datablockValue
consumes! inlineDataFull
consumes! inlineDataOneVar
consumes! datablock
consumes! inlineData
consumes! usingClause
instance {p : P Str} [Good p] : Consumes (intClause p) := by unfold intClause; infer_instance
consumes! limitClause
consumes! offsetClause
consumes! limitOffsetClause

nofuel! varName
nofuel! var
nofuel! varOrIri
nofuel! verb
nofuel! varOrIrisOrAll
nofuel! blankNode
nofuel! graphTerm
nofuel! varOrTerm
nofuel! graphRef
nofuel! graphOrDefault
nofuel! graphRefAll
nofuel! dataSetClause
nofuel! datablockValue
nofuel! inlineDataFull
nofuel! inlineDataOneVar
nofuel! datablock
nofuel! inlineData
nofuel! valuesClause
nofuel! usingClause
instance {p : P Str} [Good p] [NoFuel p] : NoFuel (intClause p) :=
  NoFuel.of_agree fun _ => by unfold intClause; infer_instance
nofuel! limitClause
nofuel! offsetClause
nofuel! limitOffsetClause

/-! ## `graph_node` nest -/

section
variable {m : Nat} {gn gn' : P GraphNode}

instance [Good gn] : Good (collectionS gn) := by unfold collectionS; infer_instance
instance [Good gn] : Good (objectListS gn) := by unfold objectListS; infer_instance
instance [Good gn] : Good (propertyListNotEmptyS gn) := by
  unfold propertyListNotEmptyS; infer_instance
instance [Good gn] : Good (propertyListS gn) := by unfold propertyListS; infer_instance
instance [Good gn] : Good (blankNodePropertyListS gn) := by
  unfold blankNodePropertyListS; infer_instance
instance [Good gn] : Good (triplesNodeS gn) := by unfold triplesNodeS; infer_instance
instance [Good gn] : Good (graphNodeStep gn) := by unfold graphNodeStep; infer_instance

instance [Good gn] : Consumes (collectionS gn) := by unfold collectionS; infer_instance
instance [Good gn] : Consumes (objectListS gn) := by unfold objectListS; infer_instance
instance [Good gn] : Consumes (propertyListNotEmptyS gn) := by
  unfold propertyListNotEmptyS; infer_instance
instance [Good gn] : Consumes (blankNodePropertyListS gn) := by
  unfold blankNodePropertyListS; infer_instance
instance [Good gn] : Consumes (triplesNodeS gn) := by unfold triplesNodeS; infer_instance
instance [Good gn] : Consumes (graphNodeStep gn) := by unfold graphNodeStep; infer_instance

instance [Good gn] [Agree m gn gn'] : Agree (m + 1) (collectionS gn) (collectionS gn') := by
  unfold collectionS; infer_instance
instance [Good gn] [Agree m gn gn'] : Agree m (objectListS gn) (objectListS gn') := by
  unfold objectListS; infer_instance
instance [Good gn] [Agree m gn gn'] :
    Agree m (propertyListNotEmptyS gn) (propertyListNotEmptyS gn') := by
  unfold propertyListNotEmptyS; infer_instance
instance [Good gn] [Agree m gn gn'] : Agree m (propertyListS gn) (propertyListS gn') := by
  unfold propertyListS; infer_instance
instance [Good gn] [Agree m gn gn'] :
    Agree (m + 1) (blankNodePropertyListS gn) (blankNodePropertyListS gn') := by
  unfold blankNodePropertyListS; infer_instance
instance [Good gn] [Agree m gn gn'] : Agree (m + 1) (triplesNodeS gn) (triplesNodeS gn') := by
  unfold triplesNodeS; infer_instance
instance [Good gn] [Agree m gn gn'] : Agree (m + 1) (graphNodeStep gn) (graphNodeStep gn') := by
  unfold graphNodeStep; infer_instance
end

theorem good_fuel : Good (fun _ => .err .fuel : P α) := ⟨fun _ => trivial⟩

instance graphNodeF_good : ∀ n, Good (graphNodeF n)
  | 0 => good_fuel
  | n + 1 => by have := graphNodeF_good n; unfold graphNodeF; infer_instance

theorem graphNodeF_agree : ∀ n k, Agree n (graphNodeF n) (graphNodeF (n + k))
  | 0, _ => ⟨fun _ h => by omega⟩
  | n + 1, k => by
    have := graphNodeF_agree n k
    rw [Nat.add_right_comm]; unfold graphNodeF; infer_instance

/-- A budget-indexed family that agrees with larger budgets and is closed at `length + 1`. -/
theorem closed_agree {pF : Nat → P α} (h : ∀ n k, Agree n (pF n) (pF (n + k))) (n : Nat) (i : Input)
    (hi : i.length < n) : pF n i = pF (i.length + 1) i ∧ pF n i ≠ .err .fuel := by
  obtain ⟨k, rfl⟩ : ∃ k, n = i.length + 1 + k := ⟨n - (i.length + 1), by omega⟩
  have ⟨h1, h2⟩ := (h (i.length + 1) k).out i (by omega)
  exact ⟨h1.symm, h1 ▸ h2⟩

theorem graphNode_eq_F (n : Nat) (i : Input) (hi : i.length < n) :
    graphNodeF n i = graphNode i ∧ graphNodeF n i ≠ .err .fuel :=
  closed_agree graphNodeF_agree n i hi

instance : Good graphNode := ⟨fun i => (graphNodeF_good _).out i⟩
instance : NoFuel graphNode := ⟨fun i => (graphNode_eq_F (i.length + 1) i (by omega)).2⟩
theorem graphNodeF_agree_closed (n : Nat) : Agree n (graphNodeF n) graphNode :=
  ⟨fun i hi => graphNode_eq_F n i hi⟩
instance : Consumes graphNode :=
  ⟨fun i r a h => (inferInstance : Consumes (graphNodeStep (graphNodeF i.length))).out i r a h⟩

/-- The Rust equation of `graph_node`. -/
theorem graphNode_eq : graphNode = graphNodeStep graphNode := by
  funext i
  have := graphNodeF_agree_closed i.length
  have h : Agree (i.length + 1) (graphNodeStep (graphNodeF i.length)) (graphNodeStep graphNode) :=
    inferInstance
  exact (h.out i (by omega)).1

good! collection
good! objectList
good! propertyListNotEmpty
good! propertyList
good! blankNodePropertyList
good! triplesNode
good! triplesSameSubject
good! triplesTemplate
good! quadsNotTriples
good! quadsEntry
good! quads
good! quadsPattern
good! quadData
good! insertClause
good! deleteClause
consumes! collection
consumes! objectList
consumes! propertyListNotEmpty
consumes! blankNodePropertyList
consumes! triplesNode
consumes! triplesSameSubject
consumes! triplesTemplate
consumes! quadsNotTriples
consumes! quadsEntry
consumes! quadsPattern
consumes! quadData
consumes! insertClause
consumes! deleteClause
instance : NoFuel collection :=
  NoFuel.of_agree fun m => by unfold collection; exact Agree.down inferInstance
nofuel! objectList
nofuel! propertyListNotEmpty
nofuel! propertyList
instance : NoFuel blankNodePropertyList :=
  NoFuel.of_agree fun m => by unfold blankNodePropertyList; exact Agree.down inferInstance
instance : NoFuel triplesNode :=
  NoFuel.of_agree fun m => by unfold triplesNode; exact Agree.down inferInstance
nofuel! triplesSameSubject
nofuel! triplesTemplate
nofuel! quadsNotTriples
nofuel! quadsEntry
nofuel! quads
nofuel! quadsPattern
nofuel! quadData
nofuel! insertClause
nofuel! deleteClause

/-! ## Paths -/

good! iriOrA
good! iriOrAOrCaret
good! pathOneInPropertySet
good! pathNegatedPropertySet
consumes! iriOrA
consumes! iriOrAOrCaret
consumes! pathOneInPropertySet
consumes! pathNegatedPropertySet
nofuel! iriOrA
nofuel! iriOrAOrCaret
nofuel! pathOneInPropertySet
nofuel! pathNegatedPropertySet

instance : Good pathMod where
  out i := by
    unfold pathMod
    split
    · trivial
    · split
      · trivial
      · rename_i e
        split
        · rw [takeBytes_eq e]; exact List.suffix_append _ _
        · exact List.suffix_refl _

instance : Consumes pathMod where
  out i r a h := by
    unfold pathMod at h
    split at h
    · cases h
    · split at h
      · cases h
      · rename_i a' r' e
        split at h <;> cases h
        have h1 := takeBytes_byteLen e
        rw [takeBytes_eq e]
        cases a' with
        | nil => simp [byteLen] at h1
        | cons => simp; omega

instance : NoFuel pathMod where
  out i := by unfold pathMod; repeat' split
              all_goals simp

section
variable {m : Nat} {pa pa' : P PathAlternative}

instance [Good pa] : Good (pathPrimaryS pa) := by unfold pathPrimaryS; infer_instance
instance [Good pa] : Good (pathEltS pa) := by unfold pathEltS; infer_instance
instance [Good pa] : Good (pathEltOrInverseS pa) := by unfold pathEltOrInverseS; infer_instance
instance [Good pa] : Good (pathSequenceS pa) := by unfold pathSequenceS; infer_instance
instance [Good pa] : Good (pathAlternativeStep pa) := by unfold pathAlternativeStep; infer_instance
instance [Good pa] : Consumes (pathPrimaryS pa) := by unfold pathPrimaryS; infer_instance
instance [Good pa] : Consumes (pathEltS pa) := by unfold pathEltS; infer_instance
instance [Good pa] : Consumes (pathEltOrInverseS pa) := by unfold pathEltOrInverseS; infer_instance
instance [Good pa] : Consumes (pathSequenceS pa) := by unfold pathSequenceS; infer_instance
instance [Good pa] : Consumes (pathAlternativeStep pa) := by
  unfold pathAlternativeStep; infer_instance
instance [Good pa] [Agree m pa pa'] : Agree (m + 1) (pathPrimaryS pa) (pathPrimaryS pa') := by
  unfold pathPrimaryS; infer_instance
instance [Good pa] [Agree m pa pa'] : Agree (m + 1) (pathEltS pa) (pathEltS pa') := by
  unfold pathEltS; infer_instance
instance (priority := low) [Good pa] [Agree m pa pa'] : Agree m (pathEltS pa) (pathEltS pa') :=
  Agree.down inferInstance
instance [Good pa] [Agree m pa pa'] :
    Agree (m + 1) (pathEltOrInverseS pa) (pathEltOrInverseS pa') := by
  unfold pathEltOrInverseS; infer_instance
instance [Good pa] [Agree m pa pa'] : Agree (m + 1) (pathSequenceS pa) (pathSequenceS pa') := by
  unfold pathSequenceS; infer_instance
instance [Good pa] [Agree m pa pa'] :
    Agree (m + 1) (pathAlternativeStep pa) (pathAlternativeStep pa') := by
  unfold pathAlternativeStep; infer_instance
end

instance pathAlternativeF_good : ∀ n, Good (pathAlternativeF n)
  | 0 => good_fuel
  | n + 1 => by have := pathAlternativeF_good n; unfold pathAlternativeF; infer_instance

theorem pathAlternativeF_agree : ∀ n k, Agree n (pathAlternativeF n) (pathAlternativeF (n + k))
  | 0, _ => ⟨fun _ h => by omega⟩
  | n + 1, k => by
    have := pathAlternativeF_agree n k
    rw [Nat.add_right_comm]; unfold pathAlternativeF; infer_instance

theorem pathAlternative_eq_F (n : Nat) (i : Input) (hi : i.length < n) :
    pathAlternativeF n i = pathAlternative i ∧ pathAlternativeF n i ≠ .err .fuel :=
  closed_agree pathAlternativeF_agree n i hi

instance : Good pathAlternative := ⟨fun i => (pathAlternativeF_good _).out i⟩
instance : NoFuel pathAlternative := ⟨fun i => (pathAlternative_eq_F (i.length + 1) i (by omega)).2⟩
theorem pathAlternativeF_agree_closed (n : Nat) : Agree n (pathAlternativeF n) pathAlternative :=
  ⟨fun i hi => pathAlternative_eq_F n i hi⟩
instance : Consumes pathAlternative :=
  ⟨fun i r a h =>
    (inferInstance : Consumes (pathAlternativeStep (pathAlternativeF i.length))).out i r a h⟩

/-- The Rust equation of `path_alternative`. -/
theorem pathAlternative_eq : pathAlternative = pathAlternativeStep pathAlternative := by
  funext i
  have := pathAlternativeF_agree_closed i.length
  have h : Agree (i.length + 1) (pathAlternativeStep (pathAlternativeF i.length))
      (pathAlternativeStep pathAlternative) := inferInstance
  exact (h.out i (by omega)).1

good! pathPrimary
good! pathElt
good! pathEltOrInverse
good! pathSequence
good! verbPathOrSimple
good! propertyListPathEntry
consumes! pathPrimary
consumes! pathElt
consumes! pathEltOrInverse
consumes! pathSequence
consumes! verbPathOrSimple
consumes! propertyListPathEntry
instance : NoFuel pathPrimary :=
  NoFuel.of_agree fun m => by unfold pathPrimary; exact Agree.down inferInstance
nofuel! pathElt
instance : NoFuel pathEltOrInverse :=
  NoFuel.of_agree fun m => by unfold pathEltOrInverse; exact Agree.down inferInstance
instance : NoFuel pathSequence :=
  NoFuel.of_agree fun m => by unfold pathSequence; exact Agree.down inferInstance
nofuel! verbPathOrSimple
nofuel! propertyListPathEntry

section
variable {m : Nat} {gn gn' : P GraphNodePath}

instance [Good gn] : Good (objectListPathS gn) := by unfold objectListPathS; infer_instance
instance [Good gn] : Good (propertyListPathNotEmptyS gn) := by
  unfold propertyListPathNotEmptyS; infer_instance
instance [Good gn] : Good (propertyListPathS gn) := by unfold propertyListPathS; infer_instance
instance [Good gn] : Good (blankNodePropertyListPathS gn) := by
  unfold blankNodePropertyListPathS; infer_instance
instance [Good gn] : Good (triplesNodePathS gn) := by unfold triplesNodePathS; infer_instance
instance [Good gn] : Good (graphNodePathStep gn) := by unfold graphNodePathStep; infer_instance

instance [Good gn] : Consumes (objectListPathS gn) := by unfold objectListPathS; infer_instance
instance [Good gn] : Consumes (propertyListPathNotEmptyS gn) := by
  unfold propertyListPathNotEmptyS; infer_instance
instance [Good gn] : Consumes (blankNodePropertyListPathS gn) := by
  unfold blankNodePropertyListPathS; infer_instance
instance [Good gn] : Consumes (triplesNodePathS gn) := by unfold triplesNodePathS; infer_instance
instance [Good gn] : Consumes (graphNodePathStep gn) := by unfold graphNodePathStep; infer_instance

instance [Good gn] [Agree m gn gn'] : Agree m (objectListPathS gn) (objectListPathS gn') := by
  unfold objectListPathS; infer_instance
instance [Good gn] [Agree m gn gn'] :
    Agree m (propertyListPathNotEmptyS gn) (propertyListPathNotEmptyS gn') := by
  unfold propertyListPathNotEmptyS; infer_instance
instance [Good gn] [Agree m gn gn'] : Agree m (propertyListPathS gn) (propertyListPathS gn') := by
  unfold propertyListPathS; infer_instance
instance [Good gn] [Agree m gn gn'] :
    Agree (m + 1) (blankNodePropertyListPathS gn) (blankNodePropertyListPathS gn') := by
  unfold blankNodePropertyListPathS; infer_instance
instance [Good gn] [Agree m gn gn'] :
    Agree (m + 1) (triplesNodePathS gn) (triplesNodePathS gn') := by
  unfold triplesNodePathS; infer_instance
instance [Good gn] [Agree m gn gn'] :
    Agree (m + 1) (graphNodePathStep gn) (graphNodePathStep gn') := by
  unfold graphNodePathStep; infer_instance
end

instance graphNodePathF_good : ∀ n, Good (graphNodePathF n)
  | 0 => good_fuel
  | n + 1 => by have := graphNodePathF_good n; unfold graphNodePathF; infer_instance

theorem graphNodePathF_agree : ∀ n k, Agree n (graphNodePathF n) (graphNodePathF (n + k))
  | 0, _ => ⟨fun _ h => by omega⟩
  | n + 1, k => by
    have := graphNodePathF_agree n k
    rw [Nat.add_right_comm]; unfold graphNodePathF; infer_instance

theorem graphNodePath_eq_F (n : Nat) (i : Input) (hi : i.length < n) :
    graphNodePathF n i = graphNodePath i ∧ graphNodePathF n i ≠ .err .fuel :=
  closed_agree graphNodePathF_agree n i hi

instance : Good graphNodePath := ⟨fun i => (graphNodePathF_good _).out i⟩
instance : NoFuel graphNodePath := ⟨fun i => (graphNodePath_eq_F (i.length + 1) i (by omega)).2⟩
theorem graphNodePathF_agree_closed (n : Nat) : Agree n (graphNodePathF n) graphNodePath :=
  ⟨fun i hi => graphNodePath_eq_F n i hi⟩
instance : Consumes graphNodePath :=
  ⟨fun i r a h =>
    (inferInstance : Consumes (graphNodePathStep (graphNodePathF i.length))).out i r a h⟩

/-- The Rust equation of `graph_node_path`. -/
theorem graphNodePath_eq : graphNodePath = graphNodePathStep graphNodePath := by
  funext i
  have := graphNodePathF_agree_closed i.length
  have h : Agree (i.length + 1) (graphNodePathStep (graphNodePathF i.length))
      (graphNodePathStep graphNodePath) := inferInstance
  exact (h.out i (by omega)).1

good! objectListPath
good! propertyListPathNotEmpty
good! propertyListPath
good! blankNodePropertyListPath
good! triplesNodePath
good! triplesSameSubjectPath
good! triplesBlock
consumes! objectListPath
consumes! propertyListPathNotEmpty
consumes! blankNodePropertyListPath
consumes! triplesNodePath
consumes! triplesSameSubjectPath
consumes! triplesBlock
nofuel! objectListPath
nofuel! propertyListPathNotEmpty
nofuel! propertyListPath
instance : NoFuel blankNodePropertyListPath :=
  NoFuel.of_agree fun m => by unfold blankNodePropertyListPath; exact Agree.down inferInstance
instance : NoFuel triplesNodePath :=
  NoFuel.of_agree fun m => by unfold triplesNodePath; exact Agree.down inferInstance
nofuel! triplesSameSubjectPath
nofuel! triplesBlock

/-! ## The expression / graph pattern nest -/

class RecGood (R : Rec) : Prop where
  expr : Good R.expr
  ggp : Good R.ggp

class RecAgree (m : Nat) (R R' : Rec) : Prop where
  expr : Agree m R.expr R'.expr
  ggp : Agree m R.ggp R'.ggp

instance {R : Rec} [RecGood R] : Good R.expr := RecGood.expr
instance {R : Rec} [RecGood R] : Good R.ggp := RecGood.ggp
instance {m : Nat} {R R' : Rec} [RecAgree m R R'] : Agree m R.expr R'.expr := RecAgree.expr
instance {m : Nat} {R R' : Rec} [RecAgree m R R'] : Agree m R.ggp R'.ggp := RecAgree.ggp

good! comma
consumes! comma
nofuel! comma
good! optDistinct
nofuel! optDistinct
good! optSilent
nofuel! optSilent
good! separatorEq
consumes! separatorEq
nofuel! separatorEq
good! order
consumes! order
nofuel! order
good! selectModifier
consumes! selectModifier
nofuel! selectModifier

section
variable {R : Rec} [RecGood R]

instance : Good (brackettedExpr3S R) := by unfold brackettedExpr3S; infer_instance
instance : Good (expressionAsVarOptS R) := by unfold expressionAsVarOptS; infer_instance
instance : Good (expressionAsVarS R) := by unfold expressionAsVarS; infer_instance
instance : Good (expressionListS R) := by unfold expressionListS; infer_instance
instance : Good (brackettedExpressionS R) := by unfold brackettedExpressionS; infer_instance
instance : Good (bindS R) := by unfold bindS; infer_instance
instance : Good (regexExpressionS R) := by unfold regexExpressionS; infer_instance
instance : Good (substringExpressionS R) := by unfold substringExpressionS; infer_instance
instance : Good (strReplaceExpressionS R) := by unfold strReplaceExpressionS; infer_instance
instance : Good (argListS R) := by unfold argListS; infer_instance
instance : Good (functionCallS R) := by unfold functionCallS; infer_instance
instance : Good (iriOrFunS R) := by unfold iriOrFunS; infer_instance
instance : Good (distinctExpressionS R) := by unfold distinctExpressionS; infer_instance
instance : Good (countTargetS R) := by unfold countTargetS; infer_instance
instance : Good (exprPairS R) := by unfold exprPairS; infer_instance
instance : Good (countS R) := by unfold countS; infer_instance
instance : Good (groupConcatS R) := by unfold groupConcatS; infer_instance
instance : Good (aggregateS R) := by unfold aggregateS; infer_instance
instance : Good (builtInCall1S R) := by unfold builtInCall1S; infer_instance
instance : Good (builtInCall2S R) := by unfold builtInCall2S; infer_instance
instance : Good (builtInCallS R) := by unfold builtInCallS; infer_instance
instance : Good (primaryExpressionS R) := by unfold primaryExpressionS; infer_instance
instance : Good (unaryExpressionS R) := by unfold unaryExpressionS; infer_instance
instance : Good (multExpressionS R) := by unfold multExpressionS; infer_instance
instance : Good (multiplicativeExpressionS R) := by unfold multiplicativeExpressionS; infer_instance
instance : Good (addExpressionS R) := by unfold addExpressionS; infer_instance
instance : Good (additiveExpressionS R) := by unfold additiveExpressionS; infer_instance
instance : Good (opExpressionS R) := by unfold opExpressionS; infer_instance
instance : Good (relationalExpressionS R) := by unfold relationalExpressionS; infer_instance
instance : Good (conditionalAndExpressionS R) := by unfold conditionalAndExpressionS; infer_instance
instance : Good (expressionStep R) := by unfold expressionStep; infer_instance
instance : Good (constraintS R) := by unfold constraintS; infer_instance
instance : Good (filterS R) := by unfold filterS; infer_instance
instance : Good (orderExpressionS R) := by unfold orderExpressionS; infer_instance
instance : Good (orderConditionS R) := by unfold orderConditionS; infer_instance
instance : Good (groupConditionS R) := by unfold groupConditionS; infer_instance
instance : Good (groupClauseS R) := by unfold groupClauseS; infer_instance
instance : Good (orderClauseS R) := by unfold orderClauseS; infer_instance
instance : Good (havingClauseS R) := by unfold havingClauseS; infer_instance
instance : Good (solutionModifierS R) := by unfold solutionModifierS; infer_instance
instance : Good (whereClauseS R) := by unfold whereClauseS; infer_instance
instance : Good (varOrExpressionAsVarS R) := by unfold varOrExpressionAsVarS; infer_instance
instance : Good (selectVarsS R) := by unfold selectVarsS; infer_instance
instance : Good (selectClauseS R) := by unfold selectClauseS; infer_instance
instance : Good (subSelectS R) := by unfold subSelectS; infer_instance
instance : Good (groupOrUnionGraphPatternS R) := by unfold groupOrUnionGraphPatternS; infer_instance
instance : Good (optionalGroupGraphPatternS R) := by unfold optionalGroupGraphPatternS; infer_instance
instance : Good (minusGraphPatternS R) := by unfold minusGraphPatternS; infer_instance
instance : Good (graphGraphPatternS R) := by unfold graphGraphPatternS; infer_instance
instance : Good (serviceGraphPatternS R) := by unfold serviceGraphPatternS; infer_instance
instance : Good (graphPatternNotTriplesS R) := by unfold graphPatternNotTriplesS; infer_instance
instance : Good (groupGraphPatternAndTriplesS R) := by unfold groupGraphPatternAndTriplesS; infer_instance
instance : Good (groupGraphPatternSubS R) := by unfold groupGraphPatternSubS; infer_instance
instance : Good (groupGraphPatternStep R) := by unfold groupGraphPatternStep; infer_instance

instance : Consumes (brackettedExpr3S R) := by unfold brackettedExpr3S; infer_instance
instance : Consumes (expressionAsVarOptS R) := by unfold expressionAsVarOptS; infer_instance
instance : Consumes (expressionAsVarS R) := by unfold expressionAsVarS; infer_instance
instance : Consumes (expressionListS R) := by unfold expressionListS; infer_instance
instance : Consumes (brackettedExpressionS R) := by unfold brackettedExpressionS; infer_instance
instance : Consumes (bindS R) := by unfold bindS; infer_instance
instance : Consumes (regexExpressionS R) := by unfold regexExpressionS; infer_instance
instance : Consumes (substringExpressionS R) := by unfold substringExpressionS; infer_instance
instance : Consumes (strReplaceExpressionS R) := by unfold strReplaceExpressionS; infer_instance
instance : Consumes (argListS R) := by unfold argListS; infer_instance
instance : Consumes (functionCallS R) := by unfold functionCallS; infer_instance
instance : Consumes (iriOrFunS R) := by unfold iriOrFunS; infer_instance
instance : Consumes (countS R) := by unfold countS; infer_instance
instance : Consumes (groupConcatS R) := by unfold groupConcatS; infer_instance
instance : Consumes (aggregateS R) := by unfold aggregateS; infer_instance
instance : Consumes (builtInCall1S R) := by unfold builtInCall1S; infer_instance
instance : Consumes (builtInCall2S R) := by unfold builtInCall2S; infer_instance
instance : Consumes (builtInCallS R) := by unfold builtInCallS; infer_instance
instance : Consumes (primaryExpressionS R) := by unfold primaryExpressionS; infer_instance
instance : Consumes (unaryExpressionS R) := by unfold unaryExpressionS; infer_instance
instance : Consumes (multExpressionS R) := by unfold multExpressionS; infer_instance
instance : Consumes (multiplicativeExpressionS R) := by unfold multiplicativeExpressionS; infer_instance
instance : Consumes (addExpressionS R) := by unfold addExpressionS; infer_instance
instance : Consumes (additiveExpressionS R) := by unfold additiveExpressionS; infer_instance
instance : Consumes (opExpressionS R) := by unfold opExpressionS; infer_instance
instance : Consumes (relationalExpressionS R) := by unfold relationalExpressionS; infer_instance
instance : Consumes (conditionalAndExpressionS R) := by unfold conditionalAndExpressionS; infer_instance
instance : Consumes (expressionStep R) := by unfold expressionStep; infer_instance
instance : Consumes (constraintS R) := by unfold constraintS; infer_instance
instance : Consumes (filterS R) := by unfold filterS; infer_instance
instance : Consumes (orderExpressionS R) := by unfold orderExpressionS; infer_instance
instance : Consumes (orderConditionS R) := by unfold orderConditionS; infer_instance
instance : Consumes (groupConditionS R) := by unfold groupConditionS; infer_instance
instance : Consumes (groupClauseS R) := by unfold groupClauseS; infer_instance
instance : Consumes (orderClauseS R) := by unfold orderClauseS; infer_instance
instance : Consumes (havingClauseS R) := by unfold havingClauseS; infer_instance
instance : Consumes (varOrExpressionAsVarS R) := by unfold varOrExpressionAsVarS; infer_instance
instance : Consumes (selectVarsS R) := by unfold selectVarsS; infer_instance
instance : Consumes (selectClauseS R) := by unfold selectClauseS; infer_instance
instance : Consumes (subSelectS R) := by unfold subSelectS; infer_instance
instance : Consumes (groupOrUnionGraphPatternS R) := by unfold groupOrUnionGraphPatternS; infer_instance
instance : Consumes (optionalGroupGraphPatternS R) := by unfold optionalGroupGraphPatternS; infer_instance
instance : Consumes (minusGraphPatternS R) := by unfold minusGraphPatternS; infer_instance
instance : Consumes (graphGraphPatternS R) := by unfold graphGraphPatternS; infer_instance
instance : Consumes (serviceGraphPatternS R) := by unfold serviceGraphPatternS; infer_instance
instance : Consumes (graphPatternNotTriplesS R) := by unfold graphPatternNotTriplesS; infer_instance
instance : Consumes (groupGraphPatternAndTriplesS R) := by unfold groupGraphPatternAndTriplesS; infer_instance
instance : Consumes (groupGraphPatternStep R) := by unfold groupGraphPatternStep; infer_instance

end

section
variable {m : Nat} {R R' : Rec} [RecGood R] [RecAgree m R R']

instance (priority := high) agree_brackettedExpr3S : Agree (m + 1) (brackettedExpr3S R) (brackettedExpr3S R') := by
  unfold brackettedExpr3S; infer_instance
instance : Agree m (brackettedExpr3S R) (brackettedExpr3S R') := agree_brackettedExpr3S.down
instance (priority := high) agree_expressionAsVarOptS : Agree (m + 1) (expressionAsVarOptS R) (expressionAsVarOptS R') := by
  unfold expressionAsVarOptS; infer_instance
instance : Agree m (expressionAsVarOptS R) (expressionAsVarOptS R') := agree_expressionAsVarOptS.down
instance (priority := high) agree_expressionAsVarS : Agree (m + 1) (expressionAsVarS R) (expressionAsVarS R') := by
  unfold expressionAsVarS; infer_instance
instance : Agree m (expressionAsVarS R) (expressionAsVarS R') := agree_expressionAsVarS.down
instance (priority := high) agree_expressionListS : Agree (m + 1) (expressionListS R) (expressionListS R') := by
  unfold expressionListS; infer_instance
instance : Agree m (expressionListS R) (expressionListS R') := agree_expressionListS.down
instance (priority := high) agree_brackettedExpressionS : Agree (m + 1) (brackettedExpressionS R) (brackettedExpressionS R') := by
  unfold brackettedExpressionS; infer_instance
instance : Agree m (brackettedExpressionS R) (brackettedExpressionS R') := agree_brackettedExpressionS.down
instance (priority := high) agree_bindS : Agree (m + 1) (bindS R) (bindS R') := by
  unfold bindS; infer_instance
instance : Agree m (bindS R) (bindS R') := agree_bindS.down
instance (priority := high) agree_regexExpressionS : Agree (m + 1) (regexExpressionS R) (regexExpressionS R') := by
  unfold regexExpressionS; infer_instance
instance : Agree m (regexExpressionS R) (regexExpressionS R') := agree_regexExpressionS.down
instance (priority := high) agree_substringExpressionS : Agree (m + 1) (substringExpressionS R) (substringExpressionS R') := by
  unfold substringExpressionS; infer_instance
instance : Agree m (substringExpressionS R) (substringExpressionS R') := agree_substringExpressionS.down
instance (priority := high) agree_strReplaceExpressionS : Agree (m + 1) (strReplaceExpressionS R) (strReplaceExpressionS R') := by
  unfold strReplaceExpressionS; infer_instance
instance : Agree m (strReplaceExpressionS R) (strReplaceExpressionS R') := agree_strReplaceExpressionS.down
instance (priority := high) agree_argListS : Agree (m + 1) (argListS R) (argListS R') := by
  unfold argListS; infer_instance
instance : Agree m (argListS R) (argListS R') := agree_argListS.down
instance (priority := high) agree_functionCallS : Agree (m + 1) (functionCallS R) (functionCallS R') := by
  unfold functionCallS; infer_instance
instance : Agree m (functionCallS R) (functionCallS R') := agree_functionCallS.down
instance (priority := high) agree_iriOrFunS : Agree (m + 1) (iriOrFunS R) (iriOrFunS R') := by
  unfold iriOrFunS; infer_instance
instance : Agree m (iriOrFunS R) (iriOrFunS R') := agree_iriOrFunS.down
instance : Agree m (distinctExpressionS R) (distinctExpressionS R') := by unfold distinctExpressionS; infer_instance
instance : Agree m (countTargetS R) (countTargetS R') := by unfold countTargetS; infer_instance
instance : Agree m (exprPairS R) (exprPairS R') := by unfold exprPairS; infer_instance
instance (priority := high) agree_countS : Agree (m + 1) (countS R) (countS R') := by
  unfold countS; infer_instance
instance : Agree m (countS R) (countS R') := agree_countS.down
instance (priority := high) agree_groupConcatS : Agree (m + 1) (groupConcatS R) (groupConcatS R') := by
  unfold groupConcatS; infer_instance
instance : Agree m (groupConcatS R) (groupConcatS R') := agree_groupConcatS.down
instance (priority := high) agree_aggregateS : Agree (m + 1) (aggregateS R) (aggregateS R') := by
  unfold aggregateS; infer_instance
instance : Agree m (aggregateS R) (aggregateS R') := agree_aggregateS.down
instance (priority := high) agree_builtInCall1S : Agree (m + 1) (builtInCall1S R) (builtInCall1S R') := by
  unfold builtInCall1S; infer_instance
instance : Agree m (builtInCall1S R) (builtInCall1S R') := agree_builtInCall1S.down
instance (priority := high) agree_builtInCall2S : Agree (m + 1) (builtInCall2S R) (builtInCall2S R') := by
  unfold builtInCall2S; infer_instance
instance : Agree m (builtInCall2S R) (builtInCall2S R') := agree_builtInCall2S.down
instance (priority := high) agree_builtInCallS : Agree (m + 1) (builtInCallS R) (builtInCallS R') := by
  unfold builtInCallS; infer_instance
instance : Agree m (builtInCallS R) (builtInCallS R') := agree_builtInCallS.down
instance (priority := high) agree_primaryExpressionS : Agree (m + 1) (primaryExpressionS R) (primaryExpressionS R') := by
  unfold primaryExpressionS; infer_instance
instance : Agree m (primaryExpressionS R) (primaryExpressionS R') := agree_primaryExpressionS.down
instance (priority := high) agree_unaryExpressionS : Agree (m + 1) (unaryExpressionS R) (unaryExpressionS R') := by
  unfold unaryExpressionS; infer_instance
instance : Agree m (unaryExpressionS R) (unaryExpressionS R') := agree_unaryExpressionS.down
instance (priority := high) agree_multExpressionS : Agree (m + 1) (multExpressionS R) (multExpressionS R') := by
  unfold multExpressionS; infer_instance
instance : Agree m (multExpressionS R) (multExpressionS R') := agree_multExpressionS.down
instance (priority := high) agree_multiplicativeExpressionS : Agree (m + 1) (multiplicativeExpressionS R) (multiplicativeExpressionS R') := by
  unfold multiplicativeExpressionS; infer_instance
instance : Agree m (multiplicativeExpressionS R) (multiplicativeExpressionS R') := agree_multiplicativeExpressionS.down
instance (priority := high) agree_addExpressionS : Agree (m + 1) (addExpressionS R) (addExpressionS R') := by
  unfold addExpressionS; infer_instance
instance : Agree m (addExpressionS R) (addExpressionS R') := agree_addExpressionS.down
instance (priority := high) agree_additiveExpressionS : Agree (m + 1) (additiveExpressionS R) (additiveExpressionS R') := by
  unfold additiveExpressionS; infer_instance
instance : Agree m (additiveExpressionS R) (additiveExpressionS R') := agree_additiveExpressionS.down
instance (priority := high) agree_opExpressionS : Agree (m + 1) (opExpressionS R) (opExpressionS R') := by
  unfold opExpressionS; infer_instance
instance : Agree m (opExpressionS R) (opExpressionS R') := agree_opExpressionS.down
instance (priority := high) agree_relationalExpressionS : Agree (m + 1) (relationalExpressionS R) (relationalExpressionS R') := by
  unfold relationalExpressionS; infer_instance
instance : Agree m (relationalExpressionS R) (relationalExpressionS R') := agree_relationalExpressionS.down
instance (priority := high) agree_conditionalAndExpressionS : Agree (m + 1) (conditionalAndExpressionS R) (conditionalAndExpressionS R') := by
  unfold conditionalAndExpressionS; infer_instance
instance : Agree m (conditionalAndExpressionS R) (conditionalAndExpressionS R') := agree_conditionalAndExpressionS.down
instance (priority := high) agree_expressionStep : Agree (m + 1) (expressionStep R) (expressionStep R') := by
  unfold expressionStep; infer_instance
instance : Agree m (expressionStep R) (expressionStep R') := agree_expressionStep.down
instance (priority := high) agree_constraintS : Agree (m + 1) (constraintS R) (constraintS R') := by
  unfold constraintS; infer_instance
instance : Agree m (constraintS R) (constraintS R') := agree_constraintS.down
instance (priority := high) agree_filterS : Agree (m + 1) (filterS R) (filterS R') := by
  unfold filterS; infer_instance
instance : Agree m (filterS R) (filterS R') := agree_filterS.down
instance (priority := high) agree_orderExpressionS : Agree (m + 1) (orderExpressionS R) (orderExpressionS R') := by
  unfold orderExpressionS; infer_instance
instance : Agree m (orderExpressionS R) (orderExpressionS R') := agree_orderExpressionS.down
instance (priority := high) agree_orderConditionS : Agree (m + 1) (orderConditionS R) (orderConditionS R') := by
  unfold orderConditionS; infer_instance
instance : Agree m (orderConditionS R) (orderConditionS R') := agree_orderConditionS.down
instance (priority := high) agree_groupConditionS : Agree (m + 1) (groupConditionS R) (groupConditionS R') := by
  unfold groupConditionS; infer_instance
instance : Agree m (groupConditionS R) (groupConditionS R') := agree_groupConditionS.down
instance (priority := high) agree_groupClauseS : Agree (m + 1) (groupClauseS R) (groupClauseS R') := by
  unfold groupClauseS; infer_instance
instance : Agree m (groupClauseS R) (groupClauseS R') := agree_groupClauseS.down
instance (priority := high) agree_orderClauseS : Agree (m + 1) (orderClauseS R) (orderClauseS R') := by
  unfold orderClauseS; infer_instance
instance : Agree m (orderClauseS R) (orderClauseS R') := agree_orderClauseS.down
instance (priority := high) agree_havingClauseS : Agree (m + 1) (havingClauseS R) (havingClauseS R') := by
  unfold havingClauseS; infer_instance
instance : Agree m (havingClauseS R) (havingClauseS R') := agree_havingClauseS.down
instance (priority := high) agree_solutionModifierS : Agree (m + 1) (solutionModifierS R) (solutionModifierS R') := by
  unfold solutionModifierS; infer_instance
instance : Agree m (solutionModifierS R) (solutionModifierS R') := agree_solutionModifierS.down
instance : Agree m (whereClauseS R) (whereClauseS R') := by unfold whereClauseS; infer_instance
instance (priority := high) agree_varOrExpressionAsVarS : Agree (m + 1) (varOrExpressionAsVarS R) (varOrExpressionAsVarS R') := by
  unfold varOrExpressionAsVarS; infer_instance
instance : Agree m (varOrExpressionAsVarS R) (varOrExpressionAsVarS R') := agree_varOrExpressionAsVarS.down
instance (priority := high) agree_selectVarsS : Agree (m + 1) (selectVarsS R) (selectVarsS R') := by
  unfold selectVarsS; infer_instance
instance : Agree m (selectVarsS R) (selectVarsS R') := agree_selectVarsS.down
instance (priority := high) agree_selectClauseS : Agree (m + 1) (selectClauseS R) (selectClauseS R') := by
  unfold selectClauseS; infer_instance
instance : Agree m (selectClauseS R) (selectClauseS R') := agree_selectClauseS.down
instance (priority := high) agree_subSelectS : Agree (m + 1) (subSelectS R) (subSelectS R') := by
  unfold subSelectS; infer_instance
instance : Agree m (subSelectS R) (subSelectS R') := agree_subSelectS.down
instance : Agree m (groupOrUnionGraphPatternS R) (groupOrUnionGraphPatternS R') := by unfold groupOrUnionGraphPatternS; infer_instance
instance (priority := high) agree_optionalGroupGraphPatternS : Agree (m + 1) (optionalGroupGraphPatternS R) (optionalGroupGraphPatternS R') := by
  unfold optionalGroupGraphPatternS; infer_instance
instance : Agree m (optionalGroupGraphPatternS R) (optionalGroupGraphPatternS R') := agree_optionalGroupGraphPatternS.down
instance (priority := high) agree_minusGraphPatternS : Agree (m + 1) (minusGraphPatternS R) (minusGraphPatternS R') := by
  unfold minusGraphPatternS; infer_instance
instance : Agree m (minusGraphPatternS R) (minusGraphPatternS R') := agree_minusGraphPatternS.down
instance (priority := high) agree_graphGraphPatternS : Agree (m + 1) (graphGraphPatternS R) (graphGraphPatternS R') := by
  unfold graphGraphPatternS; infer_instance
instance : Agree m (graphGraphPatternS R) (graphGraphPatternS R') := agree_graphGraphPatternS.down
instance (priority := high) agree_serviceGraphPatternS : Agree (m + 1) (serviceGraphPatternS R) (serviceGraphPatternS R') := by
  unfold serviceGraphPatternS; infer_instance
instance : Agree m (serviceGraphPatternS R) (serviceGraphPatternS R') := agree_serviceGraphPatternS.down
instance : Agree m (graphPatternNotTriplesS R) (graphPatternNotTriplesS R') := by unfold graphPatternNotTriplesS; infer_instance
instance : Agree m (groupGraphPatternAndTriplesS R) (groupGraphPatternAndTriplesS R') := by unfold groupGraphPatternAndTriplesS; infer_instance
instance : Agree m (groupGraphPatternSubS R) (groupGraphPatternSubS R') := by unfold groupGraphPatternSubS; infer_instance
instance (priority := high) agree_groupGraphPatternStep : Agree (m + 1) (groupGraphPatternStep R) (groupGraphPatternStep R') := by
  unfold groupGraphPatternStep; infer_instance
instance : Agree m (groupGraphPatternStep R) (groupGraphPatternStep R') := agree_groupGraphPatternStep.down

end

instance recF_good : ∀ n, RecGood (recF n)
  | 0 => ⟨good_fuel, good_fuel⟩
  | n + 1 => by
    have := recF_good n
    exact ⟨inferInstanceAs (Good (expressionStep (recF n))),
      inferInstanceAs (Good (groupGraphPatternStep (recF n)))⟩

theorem recF_agree : ∀ n k, RecAgree n (recF n) (recF (n + k))
  | 0, _ => ⟨⟨fun _ h => by omega⟩, ⟨fun _ h => by omega⟩⟩
  | n + 1, k => by
    have := recF_agree n k
    rw [Nat.add_right_comm]
    exact ⟨agree_expressionStep (R := recF n) (R' := recF (n + k)),
      agree_groupGraphPatternStep (R := recF n) (R' := recF (n + k))⟩

theorem expression_eq_F (n : Nat) (i : Input) (hi : i.length < n) :
    (recF n).expr i = expression i ∧ (recF n).expr i ≠ .err .fuel :=
  closed_agree (pF := fun n => (recF n).expr) (fun n k => (recF_agree n k).expr) n i hi

theorem groupGraphPattern_eq_F (n : Nat) (i : Input) (hi : i.length < n) :
    (recF n).ggp i = groupGraphPattern i ∧ (recF n).ggp i ≠ .err .fuel :=
  closed_agree (pF := fun n => (recF n).ggp) (fun n k => (recF_agree n k).ggp) n i hi

instance : Good expression := ⟨fun i => (recF_good _).expr.out i⟩
instance : Good groupGraphPattern := ⟨fun i => (recF_good _).ggp.out i⟩
instance : NoFuel expression := ⟨fun i => (expression_eq_F (i.length + 1) i (by omega)).2⟩
instance : NoFuel groupGraphPattern :=
  ⟨fun i => (groupGraphPattern_eq_F (i.length + 1) i (by omega)).2⟩
instance : RecGood R₀ := ⟨inferInstanceAs (Good expression), inferInstanceAs (Good groupGraphPattern)⟩
instance {m : Nat} : RecAgree m R₀ R₀ :=
  ⟨inferInstanceAs (Agree m expression expression),
   inferInstanceAs (Agree m groupGraphPattern groupGraphPattern)⟩
theorem recF_agree_closed (n : Nat) : RecAgree n (recF n) R₀ :=
  ⟨⟨fun i hi => expression_eq_F n i hi⟩, ⟨fun i hi => groupGraphPattern_eq_F n i hi⟩⟩

instance : Consumes expression :=
  ⟨fun i r a h => (inferInstance : Consumes (expressionStep (recF i.length))).out i r a h⟩
instance : Consumes groupGraphPattern :=
  ⟨fun i r a h => (inferInstance : Consumes (groupGraphPatternStep (recF i.length))).out i r a h⟩

/-- The Rust equation of `expression`. -/
theorem expression_eq : expression = expressionStep R₀ := by
  funext i
  have := recF_agree_closed i.length
  exact ((agree_expressionStep (m := i.length) (R := recF i.length) (R' := R₀)).out i (by omega)).1

/-- The Rust equation of `group_graph_pattern`. -/
theorem groupGraphPattern_eq : groupGraphPattern = groupGraphPatternStep R₀ := by
  funext i
  have := recF_agree_closed i.length
  exact ((agree_groupGraphPatternStep (m := i.length) (R := recF i.length) (R' := R₀)).out i
    (by omega)).1

good! brackettedExpression
good! expressionList
good! expressionAsVar
good! expressionAsVarOpt
good! distinctExpression
good! bind
good! primaryExpression
good! constraint
good! filter
good! functionCall
good! argList
good! builtInCall
good! iriOrFun
good! aggregate
good! unaryExpression
good! multExpression
good! multiplicativeExpression
good! addExpression
good! additiveExpression
good! opExpression
good! relationalExpression
good! conditionalAndExpression
good! orderCondition
good! orderClause
good! havingClause
good! groupClause
good! groupCondition
good! solutionModifier
good! whereClause
good! selectClause
good! subSelect
good! graphPatternNotTriples
good! groupGraphPatternSub
good! dataSetClauses
good! selectQuery
good! askQuery
good! describeQuery
good! constructTemplate
good! subTriples
good! subConstruct
good! constructQuery
good! sparqlQuery
good! sparqlQueryStmt
good! silentFromTo
good! addStmt
good! moveStmt
good! copyStmt
good! createStmt
good! silentGraphRefAll
good! dropStmt
good! clearStmt
good! loadStmt
good! insertData
good! deleteData
good! deleteWhereData
good! deleteInsert
good! modifyStmt
good! updateStmt
consumes! brackettedExpression
consumes! expressionList
consumes! expressionAsVar
consumes! expressionAsVarOpt
consumes! bind
consumes! primaryExpression
consumes! constraint
consumes! filter
consumes! functionCall
consumes! argList
consumes! builtInCall
consumes! iriOrFun
consumes! aggregate
consumes! unaryExpression
consumes! multExpression
consumes! multiplicativeExpression
consumes! addExpression
consumes! additiveExpression
consumes! opExpression
consumes! relationalExpression
consumes! conditionalAndExpression
consumes! orderCondition
consumes! orderClause
consumes! havingClause
consumes! groupClause
consumes! groupCondition
instance : Consumes whereClause := by
  unfold whereClause whereClauseS R₀; infer_instance
consumes! selectClause
consumes! subSelect
consumes! graphPatternNotTriples
consumes! selectQuery
consumes! askQuery
consumes! describeQuery
consumes! constructTemplate
consumes! subTriples
consumes! subConstruct
consumes! constructQuery
consumes! sparqlQuery
consumes! sparqlQueryStmt
consumes! silentFromTo
consumes! addStmt
consumes! moveStmt
consumes! copyStmt
consumes! createStmt
consumes! silentGraphRefAll
consumes! dropStmt
consumes! clearStmt
consumes! loadStmt
consumes! insertData
consumes! deleteData
consumes! deleteWhereData
consumes! deleteInsert
consumes! modifyStmt
consumes! updateStmt
nofuel! brackettedExpression
nofuel! expressionList
nofuel! expressionAsVar
nofuel! expressionAsVarOpt
nofuel! distinctExpression
nofuel! bind
nofuel! primaryExpression
nofuel! constraint
nofuel! filter
nofuel! functionCall
nofuel! argList
nofuel! builtInCall
nofuel! iriOrFun
nofuel! aggregate
nofuel! unaryExpression
nofuel! multExpression
nofuel! multiplicativeExpression
nofuel! addExpression
nofuel! additiveExpression
nofuel! opExpression
nofuel! relationalExpression
nofuel! conditionalAndExpression
nofuel! orderCondition
nofuel! orderClause
nofuel! havingClause
nofuel! groupClause
nofuel! groupCondition
nofuel! solutionModifier
nofuel! whereClause
nofuel! selectClause
nofuel! subSelect
nofuel! graphPatternNotTriples
nofuel! groupGraphPatternSub
nofuel! dataSetClauses
nofuel! selectQuery
nofuel! askQuery
nofuel! describeQuery
nofuel! constructTemplate
nofuel! subTriples
nofuel! subConstruct
nofuel! constructQuery
nofuel! sparqlQuery
nofuel! sparqlQueryStmt
nofuel! silentFromTo
nofuel! addStmt
nofuel! moveStmt
nofuel! copyStmt
nofuel! createStmt
nofuel! silentGraphRefAll
nofuel! dropStmt
nofuel! clearStmt
nofuel! loadStmt
nofuel! insertData
nofuel! deleteData
nofuel! deleteWhereData
nofuel! deleteInsert
nofuel! modifyStmt
nofuel! updateStmt

/-! ## `update` -/

section
variable {m : Nat} {up up' : P Update}

instance [Good up] : Good (updateStep up) := by unfold updateStep; infer_instance
instance [Good up] [Agree m up up'] : Agree (m + 1) (updateStep up) (updateStep up') := by
  unfold updateStep; infer_instance
end

instance updateF_good : ∀ n, Good (updateF n)
  | 0 => good_fuel
  | n + 1 => by have := updateF_good n; unfold updateF; infer_instance

theorem updateF_agree : ∀ n k, Agree n (updateF n) (updateF (n + k))
  | 0, _ => ⟨fun _ h => by omega⟩
  | n + 1, k => by
    have := updateF_agree n k
    rw [Nat.add_right_comm]; unfold updateF; infer_instance

theorem update_eq_F (n : Nat) (i : Input) (hi : i.length < n) :
    updateF n i = update i ∧ updateF n i ≠ .err .fuel :=
  closed_agree updateF_agree n i hi

instance : Good update := ⟨fun i => (updateF_good _).out i⟩
instance : NoFuel update := ⟨fun i => (update_eq_F (i.length + 1) i (by omega)).2⟩
theorem updateF_agree_closed (n : Nat) : Agree n (updateF n) update :=
  ⟨fun i hi => update_eq_F n i hi⟩

/-- The Rust equation of `update`. -/
theorem update_eq : update = updateStep update := by
  funext i
  have := updateF_agree_closed i.length
  have h : Agree (i.length + 1) (updateStep (updateF i.length)) (updateStep update) := inferInstance
  exact (h.out i (by omega)).1

end NomSparql
