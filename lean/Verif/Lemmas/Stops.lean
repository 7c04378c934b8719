import Verif.Lemmas.Tokens
import Verif.Lemmas.Numbers
import Verif.Lemmas.Kw
import Verif.Spec.Mistake

/-!
# The places of unrecoverable failures

`HaltsAt p`: where `p` fails for good, the input is stuck.
-/

namespace NomSparql

set_option synthInstance.maxSize 4000
set_option synthInstance.maxHeartbeats 400000

theorem Stuck.mono {i j pos : Str} {k : Kind} (h : j <:+ i) : Stuck j pos k → Stuck i pos k := by
  obtain ⟨x, rfl⟩ := h
  rintro (⟨h1, h2, rfl, h3, h4⟩ | ⟨h1, h2, h3, rfl, h4⟩)
  · exact .bracket h1 h2 (a := x ++ _) (by simp; rfl) h3 h4
  · exact .exponent h1 h2 h3 (a := x ++ _) (by simp; rfl) h4

/-- A failure of the result on input `i` is at a place where `i` is stuck. -/
def FailIn (i : Input) : Res α → Prop
  | .err (.failure pos k) => Stuck i pos k
  | _ => True

class HaltsAt (p : P α) : Prop where
  out : ∀ i, FailIn i (p i)

theorem FailIn.mono {i j : Input} (h : j <:+ i) {r : Res α} (hr : FailIn j r) : FailIn i r := by
  match r, hr with
  | .ok _ _, _ => trivial
  | .err (.error _ _), _ => trivial
  | .err (.failure _ _), hr => exact Stuck.mono h hr
  | .err (.incomplete _), _ => trivial
  | .err .panic, _ => trivial
  | .err .fuel, _ => trivial

theorem FailIn.cast {i : Input} {e : Err} (h : FailIn i (.err e : Res α)) : FailIn i (.err e : Res β) := by
  cases e <;> exact h

instance (priority := low) haltsAt_soft {p : P α} [h : Soft p] : HaltsAt p where
  out i := by
    rcases Soft.cases p i with ⟨r, a, e⟩ | ⟨pos, k, e⟩ <;> rw [e] <;> trivial

section
variable {p : P α} {q : P β}

instance [HaltsAt p] (f : α → β) : HaltsAt (map p f) where
  out i := by
    have := HaltsAt.out (p := p) i
    unfold map; split <;> rename_i e <;> rw [e] at this
    · trivial
    · exact this.cast

instance [HaltsAt p] : HaltsAt (opt p) where
  out i := by
    have := HaltsAt.out (p := p) i
    unfold opt
    split <;> rename_i e <;> try rw [e] at this
    · trivial
    · trivial
    · exact this.cast

instance [HaltsAt p] : HaltsAt (recognize p) where
  out i := by
    have := HaltsAt.out (p := p) i
    unfold recognize; split <;> rename_i e <;> rw [e] at this
    · trivial
    · exact this.cast

instance [HaltsAt p] (f : α → Option β) : HaltsAt (mapRes p f) where
  out i := by
    have := HaltsAt.out (p := p) i
    unfold mapRes
    split <;> rename_i e <;> rw [e] at this
    · split <;> trivial
    · exact this.cast

instance [Good p] [HaltsAt p] [HaltsAt q] : HaltsAt (pair p q) where
  out i := by
    have := HaltsAt.out (p := p) i
    unfold pair
    split <;> rename_i e <;> rw [e] at this
    · rename_i r a
      have h2 := (HaltsAt.out (p := q) r).mono (Good.ok e)
      split <;> rename_i e2 <;> rw [e2] at h2
      · trivial
      · exact h2.cast
    · exact this.cast

instance {s : P γ} [Good p] [Good q] [HaltsAt p] [HaltsAt q] [HaltsAt s] : HaltsAt (tuple3 p q s) := by
  unfold tuple3; infer_instance
instance {s : P γ} {t : P δ} [Good p] [Good q] [Good s] [HaltsAt p] [HaltsAt q] [HaltsAt s] [HaltsAt t] : HaltsAt (tuple4 p q s t) := by
  unfold tuple4; infer_instance
instance {s : P γ} {t : P δ} {u : P ε} [Good p] [Good q] [Good s] [Good t] [HaltsAt p] [HaltsAt q] [HaltsAt s] [HaltsAt t] [HaltsAt u] :
    HaltsAt (tuple5 p q s t u) := by
  unfold tuple5; infer_instance
instance [Good p] [HaltsAt p] [HaltsAt q] : HaltsAt (preceded p q) := by unfold preceded; infer_instance
instance [Good p] [HaltsAt p] [HaltsAt q] : HaltsAt (terminated p q) := by unfold terminated; infer_instance
instance {s : P γ} [Good p] [Good q] [HaltsAt p] [HaltsAt q] [HaltsAt s] : HaltsAt (delimited p q s) := by
  unfold delimited; infer_instance
instance {s : P γ} [Good p] [Good s] [HaltsAt p] [HaltsAt q] [HaltsAt s] : HaltsAt (separatedPair p s q) := by
  unfold separatedPair; infer_instance

instance [h : HaltsAt p] : HaltsAt (alt [p]) where
  out i := by unfold alt; exact h.out i

instance {p' : P α} {ps} [HaltsAt p] [HaltsAt (alt (p' :: ps))] : HaltsAt (alt (p :: p' :: ps)) where
  out i := by
    have := HaltsAt.out (p := p) i
    unfold alt
    split
    · exact HaltsAt.out i
    · exact this

theorem manyLoop_haltsAt (k : Kind) [Good p] [HaltsAt p] : ∀ n i, FailIn i (manyLoop k p n i) := by
  intro n
  induction n with
  | zero => intro i; exact trivial
  | succ n ih =>
    intro i
    have := HaltsAt.out (p := p) i
    unfold manyLoop
    split <;> rename_i e <;> rw [e] at this
    · trivial
    · exact this.cast
    · split
      · trivial
      · rename_i r a _
        have h2 := (ih r).mono (Good.ok e)
        split <;> rename_i e2 <;> rw [e2] at h2
        · trivial
        · exact h2.cast

instance [Good p] [HaltsAt p] : HaltsAt (many0 p) where
  out i := manyLoop_haltsAt _ _ i

instance [Good p] [HaltsAt p] : HaltsAt (many1 p) where
  out i := by
    have := HaltsAt.out (p := p) i
    unfold many1
    split <;> rename_i e <;> rw [e] at this
    · exact this.cast
    · rename_i r a
      have h2 := (manyLoop_haltsAt (p := p) .Many1 (r.length + 1) r).mono (Good.ok e)
      split <;> rename_i e2 <;> rw [e2] at h2
      · trivial
      · exact h2.cast

theorem sepLoop_haltsAt [Good q] [Good p] [HaltsAt q] [HaltsAt p] : ∀ n i, FailIn i (sepLoop q p n i) := by
  intro n
  induction n with
  | zero => intro i; exact trivial
  | succ n ih =>
    intro i
    have h1 := HaltsAt.out (p := q) i
    unfold sepLoop
    split <;> rename_i e <;> rw [e] at h1
    · trivial
    · exact h1.cast
    · rename_i r b
      split
      · trivial
      · have h2 := (HaltsAt.out (p := p) r).mono (Good.ok e)
        split <;> rename_i e2 <;> rw [e2] at h2
        · trivial
        · exact h2.cast
        · rename_i r2 a
          split
          · trivial
          · have h3 := ((ih r2).mono (Good.ok e2)).mono (Good.ok e)
            split <;> rename_i e3 <;> rw [e3] at h3
            · trivial
            · exact h3.cast

instance [Good q] [Good p] [HaltsAt q] [HaltsAt p] : HaltsAt (separatedList q p) where
  out i := by
    have h1 := HaltsAt.out (p := p) i
    unfold separatedList
    split <;> rename_i e <;> rw [e] at h1
    · trivial
    · exact h1.cast
    · rename_i r a
      split
      · trivial
      · have h3 := (sepLoop_haltsAt (p := p) (q := q) (r.length + 1) r).mono (Good.ok e)
        split <;> rename_i e3 <;> rw [e3] at h3
        · trivial
        · exact h3.cast

instance [Good q] [Good p] [HaltsAt q] [HaltsAt p] : HaltsAt (separatedNonemptyList q p) where
  out i := by
    have h1 := HaltsAt.out (p := p) i
    unfold separatedNonemptyList
    split <;> rename_i e <;> rw [e] at h1
    · exact h1.cast
    · rename_i r a
      split
      · trivial
      · have h3 := (sepLoop_haltsAt (p := p) (q := q) (r.length + 1) r).mono (Good.ok e)
        split <;> rename_i e3 <;> rw [e3] at h3
        · trivial
        · exact h3.cast

end

/-! ## The three places -/

theorem haltsAt_brackets {g c : Char} (hg : g = '(' ∧ c = ')' ∨ g = '[' ∧ c = ']') : HaltsAt (preceded (char g) (cut (terminated sp (char c)))) where
  out i := by
    cases e : preceded (char g) (cut (terminated sp (char c))) i with
    | ok r a => trivial
    | err e' =>
      rw [preceded, map] at e
      split at e
      · cases e
      rename_i e1 h1
      cases e
      unfold pair at h1
      split at h1
      · rename_i r a h2
        obtain ⟨rfl⟩ : i = g :: r := by
          unfold char at h2
          split at h2
          · split at h2
            · rename_i hd; cases h2; rw [hd]
            · cases h2
          · cases h2
        split at h1
        · cases h1
        · rename_i h3
          cases h1
          unfold cut terminated map pair at h3
          obtain ⟨r', w, hs⟩ := Total.out (p := sp) r
          obtain ⟨rfl, hw, hn⟩ := sp_ok_iff.mp hs
          rw [hs] at h3
          have hc : ∀ x, char c r' = .err x → x = .error r' .Char ∧ r'.head? ≠ some c := by
            intro x hx
            unfold char at hx
            split at hx
            · split at hx
              · cases hx
              · rename_i hd; cases hx; exact ⟨rfl, by simpa using hd⟩
            · cases hx; exact ⟨rfl, by simp⟩
          cases hr : char c r' with
          | ok x y => simp [hr] at h3
          | err x =>
            obtain ⟨rfl, hh⟩ := hc x hr
            simp [hr] at h3
            subst h3
            exact .bracket hg hw (a := []) rfl hn hh
      · rename_i h2
        cases h1
        rcases Soft.cases (char g) i with ⟨_, _, e⟩ | ⟨_, _, e⟩ <;> rw [h2] at e <;> cases e
        trivial

instance : HaltsAt anon := by unfold anon; exact haltsAt_brackets (.inr ⟨rfl, rfl⟩)
instance : HaltsAt nil := by unfold nil; exact haltsAt_brackets (.inl ⟨rfl, rfl⟩)

theorem mantText_end {s d} (h : MantText s d) : ∃ a c, s = a ++ [c] ∧ (AsciiDigit c ∨ c = '.') := by
  obtain ⟨sg, neg, w, f, h1, h2, h3, h4, -⟩ := h
  have hl : ∀ l : Str, l ≠ [] → (∀ c ∈ l, AsciiDigit c) → ∃ a c, l = a ++ [c] ∧ (AsciiDigit c ∨ c = '.') := by
    intro l hl hd
    obtain ⟨a, c, rfl⟩ : ∃ a c, l = a ++ [c] := ⟨_, _, (List.dropLast_concat_getLast hl).symm⟩
    exact ⟨a, c, rfl, .inl (hd c (by simp))⟩
  rcases h2 with ⟨rfl, rfl⟩ | rfl
  · obtain ⟨a, c, e, hc⟩ := hl w (by simpa using h3) (by simpa using h4)
    exact ⟨sg ++ a, c, by rw [e]; simp, hc⟩
  · by_cases hf : f = []
    · subst hf; exact ⟨sg ++ w, '.', by simp, .inr rfl⟩
    · obtain ⟨a, c, e, hc⟩ := hl f hf (fun c hc => h4 c (by simp [hc]))
      exact ⟨sg ++ (w ++ '.' :: a), c, by rw [e]; simp, hc⟩

theorem exponent_halt {a i : Str} {d : Char} (hd : AsciiDigit d ∨ d = '.') : FailIn (a ++ d :: i) (exponent i) := by
  unfold exponent preceded map pair
  rcases Soft.cases (alt [char 'e', char 'E']) i with ⟨r, c, e⟩ | ⟨pos, k, e⟩
  · obtain ⟨hc, rfl⟩ := eE_ok.mp e
    rw [e]
    simp only [mapRes, recognize]
    have hsg : ∃ sg r1 o, optSign r = .ok r1 o ∧ r = sg ++ r1 ∧ sg ∈ [[], ['+'], ['-']] := by
      obtain ⟨r1, o, h⟩ := Total.out (p := optSign) r
      obtain ⟨sg, neg, hs, e⟩ := optSign_ok h
      exact ⟨sg, r1, o, h, by grind, by cases hs <;> simp⟩
    obtain ⟨sg, r1, o, h1, rfl, h2⟩ := hsg
    rw [h1]
    simp only [cut]
    cases hdig : digit1 r1 with
    | ok r2 ds =>
      simp only
      cases parseI64 (List.take (List.length (sg ++ r1) - List.length r2) (sg ++ r1)) <;> trivial
    | err x =>
      obtain ⟨pos, k, rfl⟩ := Soft.out _ _ hdig
      simp only
      have : pos = r1 ∧ k = .Digit ∧ ∀ c ∈ r1.head?, ¬ AsciiDigit c := by
        unfold digit1 takeWhile1K at hdig
        split at hdig
        · rename_i ht
          cases hdig
          refine ⟨rfl, rfl, ?_⟩
          cases r1 with
          | nil => simp
          | cons x xs =>
            have hx : isDecDigit x = false := by
              cases hb : isDecDigit x
              · rfl
              · simp [List.takeWhile_cons, hb] at ht
            simp only [List.head?_cons, Option.mem_some_iff, forall_eq']
            intro hh
            rw [isDecDigit_iff.mpr hh] at hx
            cases hx
        · cases hdig
      obtain ⟨rfl, rfl, h⟩ := this
      exact .exponent hd hc h2 rfl h
  · rw [e]; trivial

instance : HaltsAt sparqlDouble where
  out i := by
    unfold sparqlDouble pair
    rcases Soft.cases sparqlDecimal i with ⟨r, d, e⟩ | ⟨pos, k, e⟩
    · rw [e]
      obtain ⟨s, rfl, hm, -⟩ := sparqlDecimal_ok.mp e
      obtain ⟨a, c, rfl, hc⟩ := mantText_end hm
      have := exponent_halt (a := a) (i := r) hc
      rw [List.append_assoc]
      simp only [opt, List.singleton_append]
      cases h : exponent r with
      | ok _ _ => trivial
      | err x =>
        rw [h] at this
        cases x <;> first | exact this | trivial
    · rw [e]; trivial

/-! ## Keywords -/

instance {t} : HaltsAt (tagNoCase t) where
  out i := by unfold tagNoCase; repeat' split
              all_goals trivial
instance {t} : HaltsAt (tagNoCaseStreaming t) where
  out i := by unfold tagNoCaseStreaming; repeat' split
              all_goals trivial
instance : HaltsAt pathMod where
  out i := by unfold pathMod; repeat' split
              all_goals trivial

macro "st! " n:ident : command => `(instance : HaltsAt $n := by unfold $n; infer_instance)

/-! ## Parametrised terminals -/
section
variable {p : P α} {q : P β} (t : List Char)
instance [Good p] [HaltsAt p] : HaltsAt (bracketted p) := by unfold bracketted; infer_instance
instance [Good p] [HaltsAt p] : HaltsAt (precededTag1 t p) := by unfold precededTag1; infer_instance
instance [Good p] [HaltsAt p] : HaltsAt (precededTag t p) := by unfold precededTag; infer_instance
instance [Good p] [HaltsAt p] : HaltsAt (precededBracketted t p) := by unfold precededBracketted; infer_instance
instance [Good p] [HaltsAt p] : HaltsAt (spEnc p) := by unfold spEnc; infer_instance
instance [Good p] [HaltsAt p] : HaltsAt (spEnc1 p) := by unfold spEnc1; infer_instance
instance [Good p] [HaltsAt p] [Good q] [HaltsAt q] : HaltsAt (spSep1 p q) := by unfold spSep1; infer_instance
instance [Good p] [HaltsAt p] [Good q] [HaltsAt q] : HaltsAt (spSep p q) := by unfold spSep; infer_instance
instance [Good p] [HaltsAt p] : HaltsAt (bracketted3 p) := by unfold bracketted3 comma; infer_instance
end
/-! ## src/terminals.rs -/
st! pnCharsBaseOne
st! pnCharsBase1
st! pnCharsUOne
st! pnCharsU1
st! pnCharsOne
st! pnChars1
st! stringLiteral
st! languageTag
st! pnCharsTail
st! hexPrimary
st! plx
st! pnLocalFirst
st! pnLocalChunk
st! pnLocal
st! pnPrefix
st! pnameNs
st! pnameLn
st! prefixedName
st! iriRef
st! iri
st! namedIri
st! defaultOrNamedIri
st! rdfLiteral
st! baseDecl
st! prefixDecl
st! prologue
/-! ## src/literal.rs -/
st! stringLiteralArg
st! silent
st! distinct
st! boolean
st! sign
st! optSign
st! numericLiteral
/-! ## src/var.rs, src/data.rs, terms of src/graph.rs, simple clauses -/
st! varName
st! var
st! varOrIri
st! verb
st! varOrIrisOrAll
st! blankNode
st! graphTerm
st! varOrTerm
st! graphRef
st! graphOrDefault
st! graphRefAll
st! dataSetClause
st! datablockValue
st! inlineDataFull
st! inlineDataOneVar
st! datablock
st! inlineData
st! valuesClause
st! usingClause
instance {p : P Str} [Good p] [HaltsAt p] : HaltsAt (intClause p) := by unfold intClause; infer_instance
st! limitClause
st! offsetClause
st! limitOffsetClause
/-! ## `graph_node` nest -/
section
variable {gn : P GraphNode}
instance [Good gn] [HaltsAt gn] : HaltsAt (collectionS gn) := by unfold collectionS; infer_instance
instance [Good gn] [HaltsAt gn] : HaltsAt (objectListS gn) := by unfold objectListS; infer_instance
instance [Good gn] [HaltsAt gn] : HaltsAt (propertyListNotEmptyS gn) := by unfold propertyListNotEmptyS; infer_instance
instance [Good gn] [HaltsAt gn] : HaltsAt (propertyListS gn) := by unfold propertyListS; infer_instance
instance [Good gn] [HaltsAt gn] : HaltsAt (blankNodePropertyListS gn) := by unfold blankNodePropertyListS; infer_instance
instance [Good gn] [HaltsAt gn] : HaltsAt (triplesNodeS gn) := by unfold triplesNodeS; infer_instance
instance [Good gn] [HaltsAt gn] : HaltsAt (graphNodeStep gn) := by unfold graphNodeStep; infer_instance
end
theorem haltsAt_fuel : HaltsAt (fun _ => .err .fuel : P α) := ⟨fun _ => trivial⟩

instance graphNodeF_haltsAt : ∀ n, HaltsAt (graphNodeF n)
  | 0 => haltsAt_fuel
  | n + 1 => by have := graphNodeF_haltsAt n; unfold graphNodeF; infer_instance
instance : HaltsAt graphNode := ⟨fun i => (graphNodeF_haltsAt _).out i⟩

st! collection
st! objectList
st! propertyListNotEmpty
st! propertyList
st! blankNodePropertyList
st! triplesNode
st! triplesSameSubject
st! triplesTemplate
st! quadsNotTriples
st! quadsEntry
st! quads
st! quadsPattern
st! quadData
st! insertClause
st! deleteClause
/-! ## Paths -/
st! iriOrA
st! iriOrAOrCaret
st! pathOneInPropertySet
st! pathNegatedPropertySet
section
variable {pa : P PathAlternative}
instance [Good pa] [HaltsAt pa] : HaltsAt (pathPrimaryS pa) := by unfold pathPrimaryS; infer_instance
instance [Good pa] [HaltsAt pa] : HaltsAt (pathEltS pa) := by unfold pathEltS; infer_instance
instance [Good pa] [HaltsAt pa] : HaltsAt (pathEltOrInverseS pa) := by unfold pathEltOrInverseS; infer_instance
instance [Good pa] [HaltsAt pa] : HaltsAt (pathSequenceS pa) := by unfold pathSequenceS; infer_instance
instance [Good pa] [HaltsAt pa] : HaltsAt (pathAlternativeStep pa) := by unfold pathAlternativeStep; infer_instance
end
instance pathAlternativeF_haltsAt : ∀ n, HaltsAt (pathAlternativeF n)
  | 0 => haltsAt_fuel
  | n + 1 => by have := pathAlternativeF_haltsAt n; unfold pathAlternativeF; infer_instance
instance : HaltsAt pathAlternative := ⟨fun i => (pathAlternativeF_haltsAt _).out i⟩

st! pathPrimary
st! pathElt
st! pathEltOrInverse
st! pathSequence
st! verbPathOrSimple
st! propertyListPathEntry
section
variable {gn : P GraphNodePath}
instance [Good gn] [HaltsAt gn] : HaltsAt (objectListPathS gn) := by unfold objectListPathS; infer_instance
instance [Good gn] [HaltsAt gn] : HaltsAt (propertyListPathNotEmptyS gn) := by unfold propertyListPathNotEmptyS; infer_instance
instance [Good gn] [HaltsAt gn] : HaltsAt (propertyListPathS gn) := by unfold propertyListPathS; infer_instance
instance [Good gn] [HaltsAt gn] : HaltsAt (blankNodePropertyListPathS gn) := by unfold blankNodePropertyListPathS; infer_instance
instance [Good gn] [HaltsAt gn] : HaltsAt (triplesNodePathS gn) := by unfold triplesNodePathS; infer_instance
instance [Good gn] [HaltsAt gn] : HaltsAt (graphNodePathStep gn) := by unfold graphNodePathStep; infer_instance
end
instance graphNodePathF_haltsAt : ∀ n, HaltsAt (graphNodePathF n)
  | 0 => haltsAt_fuel
  | n + 1 => by have := graphNodePathF_haltsAt n; unfold graphNodePathF; infer_instance
instance : HaltsAt graphNodePath := ⟨fun i => (graphNodePathF_haltsAt _).out i⟩

st! objectListPath
st! propertyListPathNotEmpty
st! propertyListPath
st! blankNodePropertyListPath
st! triplesNodePath
st! triplesSameSubjectPath
st! triplesBlock
/-! ## The expression / graph pattern nest -/
class RecHaltsAt (R : Rec) : Prop where
  expr : HaltsAt R.expr
  ggp : HaltsAt R.ggp

instance {R : Rec} [RecHaltsAt R] : HaltsAt R.expr := RecHaltsAt.expr
instance {R : Rec} [RecHaltsAt R] : HaltsAt R.ggp := RecHaltsAt.ggp

st! comma
st! optDistinct
st! optSilent
st! separatorEq
st! order
st! selectModifier
section
variable {R : Rec} [RecGood R] [RecHaltsAt R]
instance : HaltsAt (brackettedExpr3S R) := by unfold brackettedExpr3S; infer_instance
instance : HaltsAt (expressionAsVarOptS R) := by unfold expressionAsVarOptS; infer_instance
instance : HaltsAt (expressionAsVarS R) := by unfold expressionAsVarS; infer_instance
instance : HaltsAt (expressionListS R) := by unfold expressionListS; infer_instance
instance : HaltsAt (brackettedExpressionS R) := by unfold brackettedExpressionS; infer_instance
instance : HaltsAt (bindS R) := by unfold bindS; infer_instance
instance : HaltsAt (regexExpressionS R) := by unfold regexExpressionS; infer_instance
instance : HaltsAt (substringExpressionS R) := by unfold substringExpressionS; infer_instance
instance : HaltsAt (strReplaceExpressionS R) := by unfold strReplaceExpressionS; infer_instance
instance : HaltsAt (argListS R) := by unfold argListS; infer_instance
instance : HaltsAt (functionCallS R) := by unfold functionCallS; infer_instance
instance : HaltsAt (iriOrFunS R) := by unfold iriOrFunS; infer_instance
instance : HaltsAt (distinctExpressionS R) := by unfold distinctExpressionS; infer_instance
instance : HaltsAt (countTargetS R) := by unfold countTargetS; infer_instance
instance : HaltsAt (exprPairS R) := by unfold exprPairS; infer_instance
instance : HaltsAt (countS R) := by unfold countS; infer_instance
instance : HaltsAt (groupConcatS R) := by unfold groupConcatS; infer_instance
instance : HaltsAt (aggregateS R) := by unfold aggregateS; infer_instance
instance : HaltsAt (builtInCall1S R) := by unfold builtInCall1S; infer_instance
instance : HaltsAt (builtInCall2S R) := by unfold builtInCall2S; infer_instance
instance : HaltsAt (builtInCallS R) := by unfold builtInCallS; infer_instance
instance : HaltsAt (primaryExpressionS R) := by unfold primaryExpressionS; infer_instance
instance : HaltsAt (unaryExpressionS R) := by unfold unaryExpressionS; infer_instance
instance : HaltsAt (multExpressionS R) := by unfold multExpressionS; infer_instance
instance : HaltsAt (multiplicativeExpressionS R) := by unfold multiplicativeExpressionS; infer_instance
instance : HaltsAt (addExpressionS R) := by unfold addExpressionS; infer_instance
instance : HaltsAt (additiveExpressionS R) := by unfold additiveExpressionS; infer_instance
instance : HaltsAt (opExpressionS R) := by unfold opExpressionS; infer_instance
instance : HaltsAt (relationalExpressionS R) := by unfold relationalExpressionS; infer_instance
instance : HaltsAt (conditionalAndExpressionS R) := by unfold conditionalAndExpressionS; infer_instance
instance : HaltsAt (expressionStep R) := by unfold expressionStep; infer_instance
instance : HaltsAt (constraintS R) := by unfold constraintS; infer_instance
instance : HaltsAt (filterS R) := by unfold filterS; infer_instance
instance : HaltsAt (orderExpressionS R) := by unfold orderExpressionS; infer_instance
instance : HaltsAt (orderConditionS R) := by unfold orderConditionS; infer_instance
instance : HaltsAt (groupConditionS R) := by unfold groupConditionS; infer_instance
instance : HaltsAt (groupClauseS R) := by unfold groupClauseS; infer_instance
instance : HaltsAt (orderClauseS R) := by unfold orderClauseS; infer_instance
instance : HaltsAt (havingClauseS R) := by unfold havingClauseS; infer_instance
instance : HaltsAt (solutionModifierS R) := by unfold solutionModifierS; infer_instance
instance : HaltsAt (whereClauseS R) := by unfold whereClauseS; infer_instance
instance : HaltsAt (varOrExpressionAsVarS R) := by unfold varOrExpressionAsVarS; infer_instance
instance : HaltsAt (selectVarsS R) := by unfold selectVarsS; infer_instance
instance : HaltsAt (selectClauseS R) := by unfold selectClauseS; infer_instance
instance : HaltsAt (subSelectS R) := by unfold subSelectS; infer_instance
instance : HaltsAt (groupOrUnionGraphPatternS R) := by unfold groupOrUnionGraphPatternS; infer_instance
instance : HaltsAt (optionalGroupGraphPatternS R) := by unfold optionalGroupGraphPatternS; infer_instance
instance : HaltsAt (minusGraphPatternS R) := by unfold minusGraphPatternS; infer_instance
instance : HaltsAt (graphGraphPatternS R) := by unfold graphGraphPatternS; infer_instance
instance : HaltsAt (serviceGraphPatternS R) := by unfold serviceGraphPatternS; infer_instance
instance : HaltsAt (graphPatternNotTriplesS R) := by unfold graphPatternNotTriplesS; infer_instance
instance : HaltsAt (groupGraphPatternAndTriplesS R) := by unfold groupGraphPatternAndTriplesS; infer_instance
instance : HaltsAt (groupGraphPatternSubS R) := by unfold groupGraphPatternSubS; infer_instance
instance : HaltsAt (groupGraphPatternStep R) := by unfold groupGraphPatternStep; infer_instance
end

instance recF_haltsAt : ∀ n, RecHaltsAt (recF n)
  | 0 => ⟨haltsAt_fuel, haltsAt_fuel⟩
  | n + 1 => by
    have := recF_haltsAt n
    exact ⟨inferInstanceAs (HaltsAt (expressionStep (recF n))),
      inferInstanceAs (HaltsAt (groupGraphPatternStep (recF n)))⟩
instance : HaltsAt expression := ⟨fun i => (recF_haltsAt _).expr.out i⟩
instance : HaltsAt groupGraphPattern := ⟨fun i => (recF_haltsAt _).ggp.out i⟩
instance : RecHaltsAt R₀ := ⟨inferInstanceAs (HaltsAt expression), inferInstanceAs (HaltsAt groupGraphPattern)⟩

st! brackettedExpression
st! expressionList
st! expressionAsVar
st! expressionAsVarOpt
st! distinctExpression
st! bind
st! primaryExpression
st! constraint
st! filter
st! functionCall
st! argList
st! builtInCall
st! iriOrFun
st! aggregate
st! unaryExpression
st! multExpression
st! multiplicativeExpression
st! addExpression
st! additiveExpression
st! opExpression
st! relationalExpression
st! conditionalAndExpression
st! orderCondition
st! orderClause
st! havingClause
st! groupClause
st! groupCondition
st! solutionModifier
st! whereClause
st! selectClause
st! subSelect
st! graphPatternNotTriples
st! groupGraphPatternSub
st! dataSetClauses
st! selectQuery
st! askQuery
st! describeQuery
st! constructTemplate
st! subTriples
st! subConstruct
st! constructQuery
st! sparqlQuery
st! sparqlQueryStmt
st! silentFromTo
st! addStmt
st! moveStmt
st! copyStmt
st! createStmt
st! silentGraphRefAll
st! dropStmt
st! clearStmt
st! loadStmt
st! insertData
st! deleteData
st! deleteWhereData
st! deleteInsert
st! modifyStmt
st! updateStmt
/-! ## `update` -/
section
variable {up : P Update}
instance [Good up] [HaltsAt up] : HaltsAt (updateStep up) := by unfold updateStep; infer_instance
end

instance updateF_haltsAt : ∀ n, HaltsAt (updateF n)
  | 0 => haltsAt_fuel
  | n + 1 => by have := updateF_haltsAt n; unfold updateF; infer_instance
instance : HaltsAt update := ⟨fun i => (updateF_haltsAt _).out i⟩

end NomSparql
