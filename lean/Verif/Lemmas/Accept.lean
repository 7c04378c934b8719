import Lean.Elab.Command
import Verif.Lemmas.Blind
import Verif.Lemmas.Avoid

/-!
# Acceptance: evaluating parsers on partly symbolic inputs

* `Fails p i`: `p` answers a recoverable `Error` on `i`.
* `First p F`: `p` fails on every input that is empty or whose first character is not in `F`.
* `LeadKw p t`: `p` fails wherever the keyword `t` does.
-/

namespace NomSparql

set_option synthInstance.maxSize 4000
set_option synthInstance.maxHeartbeats 400000

/-! ## `Fails` -/

def Fails (p : P α) (i : Input) : Prop := ∃ pos k, p i = .err (.error pos k)

section
variable {p : P α} {q : P β} {i r : Input} {a : α}

theorem Fails.map {f : α → β} (h : Fails p i) : Fails (map p f) i := by
  obtain ⟨pos, k, h⟩ := h; exact ⟨pos, k, map_stop h⟩
theorem Fails.pair (h : Fails p i) : Fails (pair p q) i := by
  obtain ⟨pos, k, h⟩ := h; exact ⟨pos, k, pair_stop h⟩
theorem Fails.pair2 (h : p i = .ok r a) (h' : Fails q r) : Fails (NomSparql.pair p q) i := by
  obtain ⟨pos, k, h'⟩ := h'; exact ⟨pos, k, pair_stop2 h h'⟩
theorem Fails.recognize (h : Fails p i) : Fails (recognize p) i := by
  obtain ⟨pos, k, h⟩ := h; exact ⟨pos, k, recognize_stop h⟩
theorem Fails.mapRes {f : α → Option β} (h : Fails p i) : Fails (mapRes p f) i := by
  obtain ⟨pos, k, h⟩ := h; exact ⟨pos, k, mapRes_stop h⟩
theorem Fails.preceded (h : Fails p i) : Fails (preceded p q) i := Fails.map h.pair
theorem Fails.preceded2 (h : p i = .ok r a) (h' : Fails q r) : Fails (NomSparql.preceded p q) i := by
  unfold Fails; rw [preceded_cont h]; exact h'
theorem Fails.terminated (h : Fails p i) : Fails (terminated p q) i := Fails.map h.pair
theorem Fails.terminated2 (h : p i = .ok r a) (h' : Fails q r) : Fails (NomSparql.terminated p q) i :=
  Fails.map (Fails.pair2 h h')
theorem Fails.delimited {s : P γ} (h : Fails p i) : Fails (delimited p q s) i := Fails.preceded h
theorem Fails.delimited2 {s : P γ} (h : p i = .ok r a) (h' : Fails q r) : Fails (NomSparql.delimited p q s) i :=
  Fails.preceded2 h (Fails.terminated h')
theorem Fails.delimited3 {s : P γ} {r' b} (h : p i = .ok r a) (h' : q r = .ok r' b) (h2 : Fails s r') :
    Fails (NomSparql.delimited p q s) i :=
  Fails.preceded2 h (Fails.terminated2 h' h2)
theorem Fails.separatedPair {s : P γ} (h : Fails p i) : Fails (separatedPair p s q) i := Fails.pair h
theorem Fails.tuple3 {s : P γ} (h : Fails p i) : Fails (tuple3 p q s) i := Fails.pair h
theorem Fails.tuple4 {s : P γ} {t : P δ} (h : Fails p i) : Fails (tuple4 p q s t) i := Fails.pair h
theorem Fails.tuple5 {s : P γ} {t : P δ} {u : P ε} (h : Fails p i) : Fails (tuple5 p q s t u) i := Fails.pair h
theorem Fails.many1 (h : Fails p i) : Fails (many1 p) i := by
  obtain ⟨pos, k, h⟩ := h; exact ⟨pos, k, by unfold NomSparql.many1; rw [h]⟩
theorem Fails.sep1 {s : P σ} (h : Fails p i) : Fails (separatedNonemptyList s p) i := by
  obtain ⟨pos, k, h⟩ := h; exact ⟨pos, k, by unfold separatedNonemptyList; rw [h]⟩
theorem Fails.alt_nil : Fails (alt ([] : List (P α))) i := ⟨_, _, rfl⟩
theorem Fails.alt_cons {ps : List (P α)} (h : Fails p i) (h' : Fails (alt ps) i) : Fails (alt (p :: ps)) i := by
  cases ps with
  | nil => exact h
  | cons q ps => obtain ⟨pos, k, h⟩ := h; unfold Fails; rw [alt_skip h]; exact h'

theorem Fails.opt (h : Fails p i) : opt p i = .ok i none := by
  obtain ⟨pos, k, h⟩ := h; exact opt_soft h
theorem Fails.many0 [Good p] (h : Fails p i) : many0 p i = .ok i [] := by
  obtain ⟨pos, k, h⟩ := h; exact many0_ok.mpr (.stop h)
theorem Fails.sep0 {s : P σ} (h : Fails p i) : separatedList s p i = .ok i [] := by
  obtain ⟨pos, k, h⟩ := h; unfold separatedList; rw [h]
theorem Fails.alt {p' : P α} {ps : List (P α)} (h : Fails p i) :
    NomSparql.alt (p :: p' :: ps) i = NomSparql.alt (p' :: ps) i := by
  obtain ⟨pos, k, h⟩ := h; exact alt_skip h

theorem Fails.not_ok (h : Fails p i) : p i ≠ .ok r a := by
  obtain ⟨pos, k, h⟩ := h; rw [h]; simp

end

/-! ## Evaluation of the remaining combinators -/

section
variable {p : P α} {q : P β} {s : P γ} {t : P δ} {i r r1 r2 r3 r4 : Input} {a : α} {b : β} {c : γ} {d : δ}

theorem preceded_eval (h : p i = .ok r1 a) (h' : q r1 = .ok r b) : preceded p q i = .ok r b := by
  rw [preceded_cont h, h']
theorem delimited_eval (h : p i = .ok r1 a) (h' : q r1 = .ok r2 b) (h2 : s r2 = .ok r c) :
    delimited p q s i = .ok r b := preceded_eval h (terminated_eval h' h2)
theorem separatedPair_eval (h : p i = .ok r1 a) (h' : s r1 = .ok r2 c) (h2 : q r2 = .ok r b) :
    separatedPair p s q i = .ok r (a, b) := pair_eval h (preceded_eval h' h2)
theorem tuple3_eval (h : p i = .ok r1 a) (h' : q r1 = .ok r2 b) (h2 : s r2 = .ok r c) :
    tuple3 p q s i = .ok r (a, b, c) := pair_eval h (pair_eval h' h2)
theorem tuple4_eval (h : p i = .ok r1 a) (h' : q r1 = .ok r2 b) (h2 : s r2 = .ok r3 c) (h3 : t r3 = .ok r d) :
    tuple4 p q s t i = .ok r (a, b, c, d) := pair_eval h (tuple3_eval h' h2 h3)
theorem tuple5_eval {u : P ε} {e : ε} (h : p i = .ok r1 a) (h' : q r1 = .ok r2 b) (h2 : s r2 = .ok r3 c)
    (h3 : t r3 = .ok r4 d) (h4 : u r4 = .ok r e) :
    tuple5 p q s t u i = .ok r (a, b, c, d, e) := pair_eval h (tuple4_eval h' h2 h3 h4)
theorem recognize_eval [Good p] {w : Input} (h : p (w ++ r) = .ok r a) : recognize p (w ++ r) = .ok r w :=
  recognize_ok_iff.mpr ⟨rfl, a, h⟩
theorem cut_eval (h : p i = .ok r a) : cut p i = .ok r a := cut_ok.mpr h
theorem mapRes_eval {f : α → Option β} (h : p i = .ok r a) (hf : f a = some b) : mapRes p f i = .ok r b :=
  mapRes_ok.mpr ⟨a, h, hf⟩
theorem alt_eval1 {ps : List (P α)} (h : p i = .ok r a) : alt (p :: ps) i = .ok r a := alt_take h
theorem alt_eval2 {p' : P α} {ps : List (P α)} (h : Fails p i) (h' : alt (p' :: ps) i = .ok r a) :
    alt (p :: p' :: ps) i = .ok r a := by rw [h.alt]; exact h'
theorem char_eval {c : Char} {r : Input} : char c (c :: r) = .ok r c := char_ok.mpr ⟨rfl, rfl⟩
theorem tag_eval {t r : Input} : tag t (t ++ r) = .ok r t := tag_ok.mpr ⟨rfl, rfl⟩
theorem sp_eval {w r : Input} (h : Ws w) (h' : ¬ StartsWs r) : sp (w ++ r) = .ok r w := sp_ok_iff.mpr ⟨rfl, h, h'⟩
theorem sp_zero {r : Input} (h' : ¬ StartsWs r) : sp r = .ok r [] := sp_ok_iff.mpr ⟨rfl, .nil, h'⟩
theorem sp1_eval {w r : Input} (h : Ws1 w) (h' : ¬ StartsWs r) : sp1 (w ++ r) = .ok r w := sp1_ok_iff.mpr ⟨rfl, h, h'⟩
theorem kw_eval {t k r : Input} [KwTag t] (h : CaseVariant t k) : tagNoCase t (k ++ r) = .ok r k := tagNoCase_append h r
end

/-! ## First characters -/

/-- The input is empty or starts with a character outside `F`. -/
def NoHead (F : Char → Bool) (i : Input) : Prop := ∀ c r, i = c :: r → F c = false

class First (p : P α) (F : outParam (Char → Bool)) : Prop where
  out : ∀ i, NoHead F i → Fails p i

theorem noHead_nil {F : Char → Bool} : NoHead F [] := fun _ _ h => by cases h
theorem noHead_cons {F : Char → Bool} {c r} (h : F c = false) : NoHead F (c :: r) := fun _ _ e => by cases e; exact h

theorem First.nil {p : P α} {F} [h : First p F] : Fails p [] := h.out _ noHead_nil
theorem First.cons {p : P α} {F} [h : First p F] {c r} (hc : F c = false) : Fails p (c :: r) := h.out _ (noHead_cons hc)

theorem noHead_or {F G : Char → Bool} {i} (h : NoHead (fun c => F c || G c) i) : NoHead F i ∧ NoHead G i :=
  ⟨fun c r e => by have := h c r e; simp only [Bool.or_eq_false_iff] at this; exact this.1,
   fun c r e => by have := h c r e; simp only [Bool.or_eq_false_iff] at this; exact this.2⟩

section
variable {p : P α} {q : P β} {F G : Char → Bool}

instance (priority := high) {c} : First (char c) (· == c) where
  out i h := by
    cases i with
    | nil => exact ⟨_, _, rfl⟩
    | cons d i =>
      have := h d i rfl
      simp only [beq_eq_false_iff_ne, ne_eq] at this
      exact ⟨_, _, by unfold char; simp only; rw [if_neg this]⟩
instance {cs} : First (oneOf cs) (fun c => decide (c ∈ cs)) where
  out i h := by
    cases i with
    | nil => exact ⟨_, _, rfl⟩
    | cons d i =>
      have := h d i rfl
      simp only [decide_eq_false_iff_not] at this
      exact ⟨_, _, by unfold oneOf; simp only; rw [if_neg this]⟩
instance {c t} : First (tag (c :: t)) (· == c) where
  out i h := by
    rcases Soft.cases (tag (c :: t)) i with ⟨r, a, e⟩ | h
    · obtain ⟨_, rfl⟩ := tag_ok.mp e
      have := h c _ rfl
      simp at this
    · exact h
instance {k f} : First (takeWhile1K k f) f where
  out i h := by
    rcases Soft.cases (takeWhile1K k f) i with ⟨r, a, e⟩ | h
    · obtain ⟨rfl, h1, h2, _⟩ := takeWhile1K_ok.mp e
      cases a with
      | nil => contradiction
      | cons c a =>
        have := h c _ rfl
        rw [h2 c (by simp)] at this; cases this
    · exact h
instance {f} : First (takeWhile1 f) f := by unfold takeWhile1; infer_instance
instance : First digit1 isDecDigit := by unfold digit1; infer_instance
instance : First alpha1 isAlpha := by unfold alpha1; infer_instance
instance {n f} : First (takeWhileN (n + 1) f) f where
  out i h := by
    rcases Soft.cases (takeWhileN (n + 1) f) i with ⟨r, a, e⟩ | h
    · obtain ⟨rfl, h1, h2⟩ := takeWhileN_ok.mp e
      cases a with
      | nil => cases h1
      | cons c a =>
        have := h c _ rfl
        rw [h2 c (by simp)] at this; cases this
    · exact h
instance {f} : First (takeWhileN 1 f) f := inferInstanceAs (First (takeWhileN (0 + 1) f) f)
instance {c t} : First (tagNoCase (c :: t)) (fun d => lower d == lower c) where
  out i h := by
    refine ⟨i, .Tag, ?_⟩
    unfold tagNoCase
    rw [if_neg]
    intro ho
    simp only [Bool.and_eq_true, decide_eq_true_eq] at ho
    cases i with
    | nil => have := ho.2; simp [byteLen] at this; have := Char.utf8Size_pos c; omega
    | cons d i =>
      have := h d i rfl
      simp only [beq_eq_false_iff_ne, ne_eq] at this
      have h1 := ho.1
      simp only [overlapNoCase, Bool.and_eq_true, beq_iff_eq] at h1
      exact this h1.1

instance {f : α → β} [h : First p F] : First (map p f) F := ⟨fun i hi => (h.out i hi).map⟩
instance [h : First p F] : First (recognize p) F := ⟨fun i hi => (h.out i hi).recognize⟩
instance {f : α → Option β} [h : First p F] : First (mapRes p f) F := ⟨fun i hi => (h.out i hi).mapRes⟩
instance [h : First p F] : First (pair p q) F := ⟨fun i hi => (h.out i hi).pair⟩
instance [h : First p F] [h' : First q G] : First (pair (opt p) q) (fun c => F c || G c) where
  out i hi := Fails.pair2 (h.out i (noHead_or hi).1).opt (h'.out i (noHead_or hi).2)
instance [Good p] [h : First p F] [h' : First q G] : First (pair (many0 p) q) (fun c => F c || G c) where
  out i hi := Fails.pair2 (h.out i (noHead_or hi).1).many0 (h'.out i (noHead_or hi).2)
theorem sp_noHead {i : Input} (h : NoHead wsStart i) : sp i = .ok i [] := sp_zero (not_startsWs h)
instance [h' : First q G] : First (pair sp q) (fun c => wsStart c || G c) where
  out i hi := Fails.pair2 (sp_noHead (noHead_or hi).1) (h'.out i (noHead_or hi).2)
instance [h : First (pair p q) F] : First (preceded p q) F := ⟨fun i hi => (h.out i hi).map⟩
instance [h : First (pair p q) F] : First (terminated p q) F := ⟨fun i hi => (h.out i hi).map⟩
instance {s : P γ} [h : First (preceded p (terminated q s)) F] : First (delimited p q s) F := h
instance {s : P γ} [h : First (pair p (preceded s q)) F] : First (separatedPair p s q) F := h
instance {s : P γ} [h : First (pair p (pair q s)) F] : First (tuple3 p q s) F := h
instance {s : P γ} {t : P δ} [h : First (pair p (tuple3 q s t)) F] : First (tuple4 p q s t) F := h
instance {s : P γ} {t : P δ} {u : P ε} [h : First (pair p (tuple4 q s t u)) F] : First (tuple5 p q s t u) F := h
instance [h : First p F] : First (many1 p) F := ⟨fun i hi => (h.out i hi).many1⟩
instance {s : P σ} [h : First p F] : First (separatedNonemptyList s p) F := ⟨fun i hi => (h.out i hi).sep1⟩
instance [h : First p F] : First (alt [p]) F := ⟨fun i hi => (h.out i hi)⟩
instance {p' : P α} {ps} [h : First p F] [h' : First (alt (p' :: ps)) G] : First (alt (p :: p' :: ps)) (fun c => F c || G c) where
  out i hi := Fails.alt_cons (h.out i (noHead_or hi).1) (h'.out i (noHead_or hi).2)

instance [h : First (delimited (char '(') p (char ')')) F] : First (bracketted p) F := h
instance {t} [h : First (preceded (terminated (tagNoCase t) sp1) p) F] : First (precededTag1 t p) F := h
instance {t} [h : First (preceded (terminated (tagNoCase t) sp) p) F] : First (precededTag t p) F := h
instance {t} [h : First (precededTag t (bracketted p)) F] : First (precededBracketted t p) F := h
instance [h : First (delimited sp p sp) F] : First (spEnc p) F := h
instance [h : First (separatedPair p sp q) F] : First (spSep p q) F := h
instance [h : First (separatedPair p sp1 q) F] : First (spSep1 p q) F := h
end

open Lean Meta Elab Command in
/-- `first! f g ...` derives `First f F` by unfolding `f`. -/
elab "first! " ns:ident* : command => do
  for n in ns do
    liftTermElabM do
      let name ← resolveGlobalConstNoOverload n
      let info ← getConstInfo name
      let val := info.value!
      let (ty, prf) ← lambdaTelescope val fun xs body => do
        let app := mkAppN (mkConst name) xs
        let α := (← inferType body).consumeMData
        let α := match α with
          | .app (.const ``P _) a => a
          | _ => α
        let F ← mkFreshExprMVar (← mkArrow (mkConst ``Char) (mkConst ``Bool))
        let inst ← synthInstance (mkAppN (mkConst ``First) #[α, body, F])
        let F ← instantiateMVars F
        -- F from the type of the instance
        let instTy ← whnfR (← inferType inst)
        let F := if F.hasMVar then instTy.getAppArgs[2]! else F
        let ty := mkAppN (mkConst ``First) #[α, app, F]
        return (← mkForallFVars xs ty, ← mkLambdaFVars xs inst)
      let declName := name ++ `first
      addDecl (.thmDecl { name := declName, levelParams := [], type := ty, value := prf })
      addInstance declName .global (eval_prio default)

first! newLine spItem sp1 pnCharsBaseOne pnCharsUOne pnCharsBase1 pnCharsU1 pnCharsOne pnChars1 hexPrimary
  stringLiteral languageTag plx pnLocalFirst pnLocal pnPrefix pnameNs pnameLn prefixedName iriRef iri namedIri
  defaultOrNamedIri rdfLiteral baseDecl prefixDecl anon nil

instance {q : P α} {G} [h : First q G] : First (pair optSign q) (fun c => (c == '+' || c == '-') || G c) := by
  unfold optSign; infer_instance
first! stringLiteralArg silent distinct boolean sign exponent recognizeSparqlFloat
instance sparqlDecimal_first {F} [h : First recognizeSparqlFloat F] : First sparqlDecimal F where
  out i hi := by
    obtain ⟨pos, k, e⟩ := h.out i hi
    exact ⟨pos, k, by unfold sparqlDecimal; rw [e]⟩
first! sparqlDouble
instance : First sparqlInt (fun c => (c == '+' || c == '-') || isDecDigit c) where
  out i hi := by
    obtain ⟨pos, k, e⟩ := First.out (p := recognize (pair optSign digit1)) i hi
    exact ⟨pos, k, by unfold sparqlInt; rw [e]⟩
first! numericLiteral varName var varOrIri verb varOrIrisOrAll blankNode graphTerm varOrTerm graphRef graphOrDefault
  graphRefAll dataSetClause datablockValue inlineDataFull inlineDataOneVar datablock inlineData usingClause
instance {p : P Str} {F} [h : First p F] : First (intClause p) F := by unfold intClause; infer_instance
first! limitClause offsetClause limitOffsetClause
first! collectionS propertyListNotEmptyS blankNodePropertyListS triplesNodeS graphNodeStep
instance {F} [h : First (graphNodeStep graphNode) F] : First graphNode F := graphNode_eq ▸ h
instance {gn : P GraphNode} {F} [h : First gn F] : First (objectListS gn) F := by unfold objectListS; infer_instance
first! collection objectList propertyListNotEmpty blankNodePropertyList triplesNode triplesSameSubject
  triplesTemplate quadsNotTriples quadsEntry quadsPattern quadData insertClause deleteClause

first! iriOrA iriOrAOrCaret pathOneInPropertySet pathNegatedPropertySet pathPrimaryS pathEltS pathEltOrInverseS
  pathSequenceS pathAlternativeStep
instance {F} [h : First (pathAlternativeStep pathAlternative) F] : First pathAlternative F := pathAlternative_eq ▸ h
first! pathPrimary pathElt pathEltOrInverse pathSequence verbPathOrSimple propertyListPathEntry
first! propertyListPathNotEmptyS blankNodePropertyListPathS triplesNodePathS graphNodePathStep
instance {F} [h : First (graphNodePathStep graphNodePath) F] : First graphNodePath F := graphNodePath_eq ▸ h
instance {gn : P GraphNodePath} {F} [h : First gn F] : First (objectListPathS gn) F := by
  unfold objectListPathS; infer_instance
first! objectListPath propertyListPathNotEmpty blankNodePropertyListPath triplesNodePath
  triplesSameSubjectPath triplesBlock

instance {p : P α} : First (bracketted3 p) (· == '(') := by unfold bracketted3; infer_instance
first! comma expressionAsVarOptS expressionAsVarS expressionListS brackettedExpressionS bindS brackettedExpr3S
  regexExpressionS substringExpressionS strReplaceExpressionS argListS functionCallS iriOrFunS countS separatorEq
  groupConcatS aggregateS builtInCall1S builtInCall2S builtInCallS primaryExpressionS unaryExpressionS
  multExpressionS multiplicativeExpressionS addExpressionS additiveExpressionS relationalExpressionS
  conditionalAndExpressionS expressionStep constraintS filterS order orderExpressionS orderConditionS
  groupConditionS groupClauseS orderClauseS havingClauseS selectModifier varOrExpressionAsVarS selectVarsS
  selectClauseS subSelectS optionalGroupGraphPatternS minusGraphPatternS graphGraphPatternS
  serviceGraphPatternS groupGraphPatternStep

instance {F} [h : First (expressionStep R₀) F] : First expression F := expression_eq ▸ h
instance {F} [h : First (groupGraphPatternStep R₀) F] : First groupGraphPattern F := groupGraphPattern_eq ▸ h
instance {F} [h : First expression F] : First R₀.expr F := h
instance {F} [h : First groupGraphPattern F] : First R₀.ggp F := h
instance {R : Rec} {F} [h : First R.ggp F] : First (groupOrUnionGraphPatternS R) F := by
  unfold groupOrUnionGraphPatternS; infer_instance
instance whereClauseS_first {R : Rec} {F} [h : First (preceded (opt (terminated (tagNoCase c!"where") sp1)) R.ggp) F] :
    First (whereClauseS R) F := h
instance {F} [h : First (alt [
  map (groupOrUnionGraphPatternS R₀) GraphPatternNotTriples.groupOrUnion,
  map (optionalGroupGraphPatternS R₀) .optional,
  map (minusGraphPatternS R₀) .minus,
  map (graphGraphPatternS R₀) .graph,
  map (serviceGraphPatternS R₀) .service,
  map (filterS R₀) .filter,
  map (bindS R₀) .bind,
  map inlineData .inlineData]) F] : First (graphPatternNotTriplesS R₀) F := h
instance {R : Rec} {F} [h : First (graphPatternNotTriplesS R) F] : First (groupGraphPatternAndTriplesS R) F := by
  unfold groupGraphPatternAndTriplesS; infer_instance

first! brackettedExpression expressionList expressionAsVar expressionAsVarOpt bind primaryExpression constraint
  filter functionCall argList builtInCall iriOrFun aggregate unaryExpression multExpression multiplicativeExpression
  addExpression additiveExpression relationalExpression conditionalAndExpression orderCondition orderClause
  havingClause groupClause groupCondition whereClause selectClause subSelect graphPatternNotTriples

first! selectQuery askQuery describeQuery constructTemplate subConstruct constructQuery sparqlQuery
first! addStmt moveStmt copyStmt createStmt dropStmt clearStmt loadStmt insertData deleteData deleteWhereData
  deleteInsert
end NomSparql
