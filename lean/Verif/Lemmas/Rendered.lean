import Verif.Lemmas.Sound

/-!
# Every parser of the crate returns values spelled by the text it consumed
-/

namespace NomSparql

syntax "render! " ident term:max (" [" Lean.Parser.Tactic.simpLemma,* "]")? : command
macro_rules
  | `(command| render! $f $r) =>
    `(command| instance : Sound $f $r := by unfold $f; refine Sound.mono inferInstance ?_; rsound)
  | `(command| render! $f $r [$ts,*]) =>
    `(command| instance : Sound $f $r := by unfold $f; refine Sound.mono inferInstance ?_; rsound [$ts,*])

/-! ## Terms -/

instance : Sound var rVar where
  out e := by
    obtain ⟨w, h1, rfl, h3, h4, h5⟩ := var_ok.mp e
    exact ⟨_, by simp, [sigil _], w ++ varNameOf _, rfl, rfl, w, _, rfl, h1, rfl, h3,
      fun c hc => codedVarChar_iff.mp (h4 c hc)⟩

instance : Sound iriRef rIriRef where
  out e := by
    obtain ⟨rfl, h⟩ := iriRef_ok.mp e
    exact ⟨_, by simp, rfl, fun c hc => isIriChar_legal (h c hc)⟩

theorem pnB_coded (c : Char) (h : PnB c) : CodedBase c := codedBase_iff.mp h
theorem pnC_coded (c : Char) (h : PnC c) : CodedNameChar c := by
  rcases isPnChar_iff.mp h with h | h | h | h
  · exact .inl (codedBase_iff.mp h)
  · exact .inr (.inl h)
  · exact .inr (.inr (.inl h))
  · exact .inr (.inr (.inr h))
theorem locC_coded (c : Char) (h : LocC c) : CodedLocalChar c := by
  have : isLocalChar c = true ↔ isPnChar c = true ∨ c = ':' := by simp [isLocalChar]
  exact (this.mp h).imp (pnC_coded c) id
theorem isDigitU8_low {c : Char} (h : isDigitU8 c = true) : LowByteDigit c := by
  simp only [isDigitU8, isAsciiDigitCode, asU8, Bool.and_eq_true] at h
  exact ⟨of_decide_eq_true h.1, of_decide_eq_true h.2⟩
theorem locF_coded (c : Char) (h : LocF c) : CodedLocalStart c := by
  rcases h with h | h | h
  · rcases isPnCharsU_iff.mp h with h | h
    · exact .inl (codedBase_iff.mp h)
    · exact .inr (.inl h)
  · exact .inr (.inr (.inl h))
  · exact .inr (.inr (.inr (isDigitU8_low h)))
theorem labF_coded (c : Char) (h : LabF c) : CodedLabelStart c := by
  rcases h with h | h
  · rcases isPnCharsU_iff.mp h with h | h
    · exact .inl (codedBase_iff.mp h)
    · exact .inr (.inl h)
  · exact .inr (.inr (isDigitU8_low h))

instance : Sound pnameNs rPnameNs where
  out e := by
    obtain ⟨w, h1, rfl, h3⟩ := pnameNs_ok.mp e
    refine ⟨prefixText _ ++ (w ++ [':']), by simp, _, _, rfl, ⟨rfl, h3.mono pnB_coded pnC_coded⟩,
      w, _, rfl, h1, rfl⟩

instance : Sound pnLocal (fun l s => s = l ∧ LocalName CodedLocalStart CodedLocalChar l) where
  out e := by
    obtain ⟨rfl, h2, _⟩ := pnLocal_ok.mp e
    exact ⟨_, rfl, rfl, h2.mono locF_coded locC_coded⟩

instance : Sound pnameLn (fun x => rPrefixedName (.pnameLN x.1 x.2)) := by
  unfold pnameLn; refine Sound.mono inferInstance ?_; rsound

render! prefixedName rPrefixedName
render! iri rIri

instance : Sound namedIri (fun i => kw c!"named" ⬝ Ws1 ⬝ rIri i) :=
  (inferInstance : Sound (precededTag1 c!"named" iri) _)

render! defaultOrNamedIri rDefaultOrNamedIri

instance : Sound stringLiteral StringText where
  out e := by
    obtain ⟨t, h1, h2⟩ := stringLiteral_text.mp e
    exact ⟨t, h2, h1⟩

instance : Sound languageTag rLangTag where
  out e := by
    obtain ⟨rfl, h1, _⟩ := languageTag_ok.mp e
    exact ⟨_, rfl, rfl, h1⟩

theorem rOpt_mono {R R' : α → Lang} (h : ∀ a s, R a s → R' a s) : ∀ o s, rOpt R o s → rOpt R' o s
  | none, _, x => x
  | some a, s, x => h a s x

instance : Sound rdfLiteral rRdfLiteral := by
  unfold rdfLiteral
  refine Sound.mono inferInstance ?_
  refine mono_map ?_
  rintro ⟨a, b⟩ s h
  refine Lang.seq_mono (fun _ h => h) (rOpt_mono ?_ b) s h
  rsound

instance : Sound sparqlInt (fun v s => IntText s v ∧ FitsI64 v) where
  out e := by
    have := sparqlInt_ok.mp e
    grind

instance : Sound sparqlDecimal (fun d s => MantText s d) where
  out e := by
    obtain ⟨s, h1, h2, _⟩ := sparqlDecimal_ok.mp e
    exact ⟨s, h1, h2⟩

instance : Sound exponent (fun v s => ExpText s v ∧ FitsI64 v) where
  out e := by
    have := exponent_ok.mp e
    grind

instance : Sound sparqlDouble (fun x => rNumericLiteral (.double x.1 x.2)) := by
  unfold sparqlDouble; refine Sound.mono inferInstance ?_; rsound

render! numericLiteral rNumericLiteral
render! boolean rBoolean

instance : Sound nil (fun _ => rNil) where
  out e := by
    obtain ⟨h, rfl⟩ := nil_ok.mp e
    exact ⟨_, by simp, ['('], _, rfl, rfl, _, [')'], rfl, h, rfl⟩

instance : Sound anon (fun _ => rBlankNode .anon) where
  out e := by
    obtain ⟨h, rfl⟩ := anon_ok.mp e
    exact ⟨_, by simp, ['['], _, rfl, rfl, _, [']'], rfl, h, rfl⟩

instance : Sound labelP (fun l s => s = l ∧ PrefixName CodedLabelStart CodedNameChar l) where
  out e := by
    obtain ⟨rfl, h, _⟩ := label_imp e
    obtain ⟨c, t, rfl, h1, h2, h3⟩ := h
    refine ⟨_, rfl, rfl, c, t, rfl, labF_coded c h1, fun d hd => (h2 d hd).imp (pnC_coded d) id, ?_⟩
    refine h3.imp id ?_
    rintro ⟨t', d, rfl, h4⟩; exact ⟨t', d, rfl, pnC_coded d h4⟩

render! blankNode rBlankNode
render! graphTerm rGraphTerm
render! varOrIri rVarOrIri
render! varOrTerm rVarOrTerm
render! verb rVerb
render! varOrIrisOrAll rVarOrIrisOrAll
render! graphRef rGraphRef

instance : Sound graphOrDefault rGraphOrDefault := by
  unfold graphOrDefault
  refine Sound.mono inferInstance ?_
  refine mono_alt (mono_map fun _ _ h => h) (mono_map ?_)
  rintro ⟨a, b⟩ s h
  cases a with
  | none => simp only [rOpt, Lang.eps_seq] at h; exact .inl h
  | some a => simp only [rOpt, Lang.seq_assoc] at h; exact .inr h

render! graphRefAll rGraphRefAll

/-! ## Prologue, data, simple clauses -/

render! baseDecl (fun x => rBaseOrPrefixDecl (.base x))
render! prefixDecl (fun x => rBaseOrPrefixDecl (.prefix x)) [rBaseOrPrefixDecl]

instance : Sound (alt [map baseDecl .base, map prefixDecl .prefix]) rBaseOrPrefixDecl := by
  refine Sound.mono inferInstance ?_; rsound

render! prologue rPrologue
render! dataSetClause rDataSetClause
render! usingClause rUsingClause
render! datablockValue rDataBlockValue
render! inlineDataOneVar rInlineDataOneVar
render! inlineDataFull rInlineDataFull
render! datablock rDataBlock
render! inlineData rValues
render! valuesClause (rOpt rValues)

theorem parseU64_dec {s : Str} {n : Nat} (h : parseU64 s = some n) : rU64 n s := by
  unfold parseU64 at h
  split at h
  · rename_i h1
    split at h
    · rename_i h2; cases h
      exact ⟨decVal_of h1.1 (fun c hc => isDecDigit_iff.mp (List.all_eq_true.mp h1.2 c hc)), h2⟩
    · cases h
  · cases h

theorem intClause_sound {t : Str} [KwTag t] : Sound (intClause (tagNoCase t)) (fun n => kw t ⬝ Ws ⬝ rU64 n) where
  out e := by
    unfold intClause at e
    obtain ⟨a, e1, e2⟩ := mapRes_ok.mp e
    obtain ⟨r1, b, e3, e4⟩ := preceded_ok.mp e1
    obtain ⟨c, rfl, h1⟩ := SoundL.out e3
    obtain ⟨rfl, h2⟩ := takeWhile1_ok.mp e4
    refine ⟨c ++ a, by simp, ?_⟩
    rw [← Lang.seq_assoc]
    exact ⟨c, a, rfl, h1, parseU64_dec e2⟩

instance : Sound limitClause rLimit := intClause_sound
instance : Sound offsetClause rOffset := intClause_sound
render! limitOffsetClause rLimitOffset

/-! ## Triples -/

/-- `renderS! f r`: for open-recursive parsers of the graph node nest. -/
macro "renderG! " f:ident r:ident : command =>
  `(command| instance {gn : P GraphNode} {G : GraphNode → Lang} [Sound gn G] : Sound ($f gn) ($r G) := by
      unfold $f; refine Sound.mono inferInstance ?_; rsound [$r:ident])

renderG! collectionS rCollectionS
renderG! objectListS rObjectListS

theorem many_mono {R R' : α → Lang} (h : ∀ a s, R a s → R' a s) : ∀ l s, Many R l s → Many R' l s
  | [], _, x => x
  | _ :: l, s, x => Lang.seq_mono (h _) (many_mono h l) s x

theorem sep1_mono {L L' : Lang} {R R' : α → Lang} (hl : ∀ s, L s → L' s) (h : ∀ a s, R a s → R' a s) :
    ∀ l s, Sep1 L R l s → Sep1 L' R' l s
  | [], _, x => x
  | _ :: l, s, x => Lang.seq_mono (h _)
      (many_mono (fun _ => Lang.seq_mono hl (h _)) l) s x

instance {gn : P GraphNode} {G : GraphNode → Lang} [Sound gn G] :
    Sound (map (separatedPair verb sp (objectListS gn)) (fun x => VerbList.mk x.1 x.2)) (rVerbListS G) := by
  refine Sound.mono inferInstance ?_; rsound

renderG! propertyListNotEmptyS rPropertyListS

instance {gn : P GraphNode} {G : GraphNode → Lang} [Sound gn G] :
    Sound (propertyListS gn) (rOpt (rPropertyListS G)) := by unfold propertyListS; infer_instance

instance {gn : P GraphNode} {G : GraphNode → Lang} [Sound gn G] :
    Sound (blankNodePropertyListS gn) (fun p => rTriplesNodeS G (.blankNodePropertyList p)) := by
  unfold blankNodePropertyListS; refine Sound.mono inferInstance ?_; rsound [rTriplesNodeS]

renderG! triplesNodeS rTriplesNodeS
renderG! graphNodeStep rGraphNodeS

theorem graphNodeF_sound : ∀ n, Sound (graphNodeF n) (rGraphNodeN n)
  | 0 => ⟨fun e => by cases e⟩
  | n + 1 => by
    have := graphNodeF_sound n
    unfold graphNodeF rGraphNodeN; infer_instance

instance : Sound graphNode rGraphNode where
  out e := by
    obtain ⟨c, h1, h2⟩ := (graphNodeF_sound _).out e
    exact ⟨c, h1, _, h2⟩

instance : Sound objectList rObjectList := by unfold objectList rObjectList; infer_instance
instance : Sound propertyListNotEmpty rPropertyList := by unfold propertyListNotEmpty rPropertyList; infer_instance
instance : Sound propertyList (rOpt rPropertyList) := by unfold propertyList rPropertyList; infer_instance
instance : Sound triplesNode rTriplesNode := by unfold triplesNode rTriplesNode; infer_instance
instance : Sound collection (rCollectionS rGraphNode) := by unfold collection; infer_instance
instance : Sound blankNodePropertyList (fun p => rTriplesNode (.blankNodePropertyList p)) := by
  unfold blankNodePropertyList rTriplesNode; infer_instance

render! triplesSameSubject rTriplesSameSubject

instance : SoundL (many1 (spEnc (char '.'))) dots := by unfold dots; infer_instance

render! triplesTemplate rTriplesTemplate
render! quadsNotTriples rQuadsNotTriples [rQuadsNotTriples]
render! quadsEntry rQuadsEntry
render! quads rQuads
render! quadsPattern rQuadsPattern [rQuadsPattern]
instance : Sound quadData rQuadsPattern := by unfold quadData; infer_instance
instance : Sound insertClause (fun q => kw c!"insert" ⬝ Ws1 ⬝ rQuadsPattern q) := by
  unfold insertClause; infer_instance
instance : Sound deleteClause (fun q => kw c!"offset" ⬝ Ws1 ⬝ rQuadsPattern q) := by
  unfold deleteClause; infer_instance

/-! ## Paths -/

render! iriOrA rIriOrA
render! iriOrAOrCaret rIriOrAOrCaret
render! pathOneInPropertySet rIriOrAOrCaret

instance : Sound pathMod rPathMod where
  out e := by
    unfold pathMod at e
    split at e
    · cases e
    · split at e
      · cases e
      · rename_i a r h
        split at e
        · rename_i m hm
          cases e
          have h1 := takeBytes_eq h
          refine ⟨a, h1, ?_⟩
          unfold PathMod.fromStr at hm
          split at hm
          · rename_i h2; cases hm; exact h2
          · split at hm
            · rename_i h2; cases hm; exact h2
            · split at hm
              · rename_i h2; cases hm; exact h2
              · cases hm
        · cases e

instance : Sound pathNegatedPropertySet (fun l => lit c!"(" ⬝ Ws ⬝
      Sep1 (enc (lit c!"|")) rIriOrAOrCaret l ⬝ Ws ⬝ lit c!")") := by
  unfold pathNegatedPropertySet
  have : SoundL (delimited sp (char '|') sp) (enc (lit c!"|")) := by unfold enc; infer_instance
  refine Sound.mono inferInstance ?_; rsound

instance : SoundL (delimited sp (tag ['|']) sp) (enc (lit c!"|")) := by unfold enc; infer_instance

macro "renderP! " f:ident r:ident : command =>
  `(command| instance {pa : P PathAlternative} {A : PathAlternative → Lang} [Sound pa A] :
      Sound ($f pa) ($r A) := by
        unfold $f; refine Sound.mono inferInstance ?_; rsound [$r:ident])

renderP! pathPrimaryS rPathPrimaryS
renderP! pathEltS rPathEltS
renderP! pathEltOrInverseS rPathEltOrInverseS
renderP! pathSequenceS rPathSequenceS
renderP! pathAlternativeStep rPathAlternativeS

theorem pathAlternativeF_sound : ∀ n, Sound (pathAlternativeF n) (rPathAlternativeN n)
  | 0 => ⟨fun e => by cases e⟩
  | n + 1 => by
    have := pathAlternativeF_sound n
    unfold pathAlternativeF rPathAlternativeN; infer_instance

instance : Sound pathAlternative rPathAlternative where
  out e := by
    obtain ⟨c, h1, h2⟩ := (pathAlternativeF_sound _).out e
    exact ⟨c, h1, _, h2⟩

render! verbPathOrSimple rVerbPathOrSimple
render! propertyListPathEntry rPropertyListPathEntry

macro "renderN! " f:ident r:ident : command =>
  `(command| instance {gn : P GraphNodePath} {G : GraphNodePath → Lang} [Sound gn G] : Sound ($f gn) ($r G) := by
      unfold $f; refine Sound.mono inferInstance ?_; rsound [$r:ident])

instance : SoundL (spEnc (tag [';'])) (enc (lit c!";")) := inferInstance

renderN! objectListPathS rObjectListPathS
renderN! propertyListPathNotEmptyS rPropertyListPathS

instance {gn : P GraphNodePath} {G : GraphNodePath → Lang} [Sound gn G] :
    Sound (propertyListPathS gn) (rOpt (rPropertyListPathS G)) := by unfold propertyListPathS; infer_instance

instance {gn : P GraphNodePath} {G : GraphNodePath → Lang} [Sound gn G] :
    Sound (blankNodePropertyListPathS gn) (fun p => rTriplesNodePathS G (.blankNodePropertyListPath p)) := by
  unfold blankNodePropertyListPathS; refine Sound.mono inferInstance ?_; rsound [rTriplesNodePathS]

renderN! triplesNodePathS rTriplesNodePathS
renderN! graphNodePathStep rGraphNodePathS

theorem graphNodePathF_sound : ∀ n, Sound (graphNodePathF n) (rGraphNodePathN n)
  | 0 => ⟨fun e => by cases e⟩
  | n + 1 => by
    have := graphNodePathF_sound n
    unfold graphNodePathF rGraphNodePathN; infer_instance

instance : Sound graphNodePath rGraphNodePath where
  out e := by
    obtain ⟨c, h1, h2⟩ := (graphNodePathF_sound _).out e
    exact ⟨c, h1, _, h2⟩

instance : Sound objectListPath (rObjectListPathS rGraphNodePath) := by unfold objectListPath; infer_instance
instance : Sound propertyListPathNotEmpty rPropertyListPath := by
  unfold propertyListPathNotEmpty rPropertyListPath; infer_instance
instance : Sound propertyListPath (rOpt rPropertyListPath) := by
  unfold propertyListPath rPropertyListPath; infer_instance
instance : Sound triplesNodePath rTriplesNodePath := by unfold triplesNodePath rTriplesNodePath; infer_instance

render! triplesSameSubjectPath rTriplesSameSubjectPath
render! triplesBlock rTriplesBlock

/-! ## Expressions and graph patterns -/

/-- The recursive parsers are sound for the given relations. -/
class SoundRec (R : Rec) (Q : outParam Rel) : Prop where
  expr : Sound R.expr Q.expr
  ggp : Sound R.ggp Q.ggp

instance {R Q} [h : SoundRec R Q] : Sound R.expr Q.expr := h.expr
instance {R Q} [h : SoundRec R Q] : Sound R.ggp Q.ggp := h.ggp

theorem kw_sym {t : Str} (h : ∀ c ∈ t, ¬ (0x61 ≤ c.toNat ∧ c.toNat ≤ 0x7A)) : kw t = lit t := by
  funext s; apply propext
  constructor
  · intro hs
    induction hs with
    | nil => rfl
    | @cons x y t s h1 _ ih =>
      rcases h1 with rfl | ⟨h1, h2, _⟩
      · rw [show s = t from ih (fun c hc => h c (by simp [hc]))]; rfl
      · exact absurd ⟨h1, h2⟩ (h x (by simp))
  · rintro rfl; exact CaseVariant.refl _

theorem kw_plus : kw c!"+" = lit c!"+" := kw_sym (by decide)
theorem kw_minus : kw c!"-" = lit c!"-" := kw_sym (by decide)
theorem kw_bang : kw c!"!" = lit c!"!" := kw_sym (by decide)
theorem kw_star : kw c!"*" = lit c!"*" := kw_sym (by decide)
theorem kw_slash : kw c!"/" = lit c!"/" := kw_sym (by decide)
theorem kw_eq : kw c!"=" = lit c!"=" := kw_sym (by decide)
theorem kw_ne : kw c!"!=" = lit c!"!=" := kw_sym (by decide)
theorem kw_lt : kw c!"<" = lit c!"<" := kw_sym (by decide)
theorem kw_gt : kw c!">" = lit c!">" := kw_sym (by decide)
theorem kw_le : kw c!"<=" = lit c!"<=" := kw_sym (by decide)
theorem kw_ge : kw c!">=" = lit c!">=" := kw_sym (by decide)

instance : Sound distinct (fun _ => kw c!"distinct") := by
  unfold distinct; refine Sound.mono inferInstance ?_; rsound
instance : Sound silent (fun _ => kw c!"silent") := by
  unfold silent; refine Sound.mono inferInstance ?_; rsound

theorem distinct_val {i r b} (e : distinct i = .ok r b) : b = true := by
  obtain ⟨_, _, rfl⟩ := map_ok.mp e; rfl
theorem silent_val {i r b} (e : silent i = .ok r b) : b = true := by
  obtain ⟨_, _, rfl⟩ := map_ok.mp e; rfl

instance : Sound optDistinct rDistinct where
  out e := by
    obtain ⟨o, e', rfl⟩ := map_ok.mp e
    obtain ⟨c, h1, h2⟩ := Sound.out e'
    refine ⟨c, h1, ?_⟩
    rcases opt_ok.mp e' with ⟨b, rfl, e2⟩ | ⟨rfl, _, _⟩
    · obtain ⟨_, _, e3, _⟩ := terminated_ok.mp e2
      rw [distinct_val e3]; exact h2
    · exact h2

instance : Sound optSilent rSilent where
  out e := by
    obtain ⟨o, e', rfl⟩ := map_ok.mp e
    obtain ⟨c, h1, h2⟩ := Sound.out e'
    refine ⟨c, h1, ?_⟩
    rcases opt_ok.mp e' with ⟨b, rfl, e2⟩ | ⟨rfl, _, _⟩
    · obtain ⟨_, _, e3, _⟩ := terminated_ok.mp e2
      rw [silent_val e3]; exact h2
    · exact h2

render! order rOrder
render! selectModifier rSelectModifier

syntax "renderR! " ident term:max (" [" Lean.Parser.Tactic.simpLemma,* "]")? : command
macro_rules
  | `(command| renderR! $f $r) => `(command| renderR! $f $r [id])
  | `(command| renderR! $f $r [$ts,*]) =>
    `(command| instance {R : Rec} {Q : Rel} [SoundRec R Q] : Sound ($f R) ($r Q) := by
      unfold $f; refine Sound.mono inferInstance ?_
      rsound [kw_plus, kw_minus, kw_bang, kw_star, kw_slash, kw_eq, kw_ne, kw_lt, kw_gt, kw_le, kw_ge, $ts,*])

instance {p : P α} {R : α → Lang} [Sound p R] :
    Sound (bracketted3 p) (fun x => paren (R x.1 ⬝ (commaL ⬝ R x.2.1) ⬝ rOpt (fun y => commaL ⬝ R y) x.2.2)) := by
  unfold bracketted3; infer_instance

instance {R : Rec} {Q : Rel} [SoundRec R Q] :
    Sound (map (pair R.expr (opt (preceded (spEnc1 (tagNoCase c!"as")) var)))
      (fun x => ExpressionAsVarOpt.mk x.1 x.2)) (rAsVarOptS Q) := by
  refine Sound.mono inferInstance ?_; rsound
instance {R : Rec} {Q : Rel} [SoundRec R Q] :
    Sound (map (separatedPair R.expr (spEnc (tagNoCase c!"as")) var)
      (fun x => ExpressionAsVar.mk x.1 x.2)) (rAsVarS Q) := by
  refine Sound.mono inferInstance ?_; rsound

instance : SoundL separatorEq (lit c!";" ⬝ enc (kw c!"separator") ⬝ lit c!"=" ⬝ Ws) := by
  unfold separatorEq; infer_instance

instance : Sound (preceded sp (preceded separatorEq stringLiteral)) rSeparator := by
  refine Sound.mono inferInstance ?_; rsound [rSeparator]

instance {R : Rec} {Q : Rel} [SoundRec R Q] :
    Sound (alt [map R.expr some, map nil (fun _ => none)]) (rBnodeArgS Q) := by
  refine Sound.mono inferInstance ?_; rsound

renderR! expressionAsVarOptS rExpressionAsVarOptS
renderR! expressionAsVarS rExpressionAsVarS
renderR! expressionListS rExpressionListS
renderR! distinctExpressionS rDistinctExpressionS
renderR! brackettedExpressionS rBrackettedS
renderR! bindS (fun Q e => kw c!"bind" ⬝ Ws1 ⬝ rExpressionAsVarS Q e)
renderR! brackettedExpr3S (fun Q x => rTripleArgsS Q x.1 x.2.1 x.2.2)
renderR! regexExpressionS rRegexS
renderR! substringExpressionS rSubstrS
renderR! strReplaceExpressionS rStrReplaceS
renderR! argListS rArgListS
renderR! functionCallS rFunctionCallS
renderR! iriOrFunS rIriOrFunctionS
renderR! countTargetS rCountTargetS
renderR! countS rCountS
renderR! groupConcatS rGroupConcatS
renderR! aggregateS rAggregateS
renderR! exprPairS (fun Q x => rPairS Q x.1 x.2)
set_option synthInstance.maxSize 4000 in
set_option synthInstance.maxHeartbeats 200000 in
renderR! builtInCall1S rBuiltInCallS
set_option synthInstance.maxSize 4000 in
set_option synthInstance.maxHeartbeats 200000 in
renderR! builtInCall2S rBuiltInCallS
set_option synthInstance.maxSize 4000 in
set_option synthInstance.maxHeartbeats 200000 in
renderR! builtInCallS rBuiltInCallS
renderR! primaryExpressionS rPrimaryExpressionS
renderR! unaryExpressionS rUnaryExpressionS [rUnaryExpressionS]
renderR! multExpressionS rMultExpressionS [rMultExpressionS]
renderR! multiplicativeExpressionS rMultiplicativeExpressionS
renderR! addExpressionS rAddExpressionS [rAddExpressionS]
renderR! additiveExpressionS rAdditiveExpressionS
renderR! opExpressionS rOpExpressionS [rOpExpressionS]
renderR! relationalExpressionS rRelationalExpressionS
renderR! conditionalAndExpressionS rConditionalAndExpressionS
renderR! expressionStep rExpressionS
renderR! constraintS rConstraintS
renderR! filterS (fun Q c => kw c!"filter" ⬝ Ws1 ⬝ rConstraintS Q c)
renderR! orderExpressionS rOrderExpressionS
renderR! orderConditionS rOrderConditionS
renderR! groupConditionS rGroupConditionS
renderR! groupClauseS rGroupClauseS
renderR! orderClauseS rOrderClauseS
renderR! havingClauseS rHavingClauseS
renderR! solutionModifierS rSolutionModifierS
renderR! whereClauseS rWhereClauseS
renderR! varOrExpressionAsVarS rVarOrExpressionAsVarS
renderR! selectVarsS rSelectVarsS
renderR! selectClauseS rSelectClauseS
renderR! subSelectS rSubSelectS
renderR! groupOrUnionGraphPatternS (fun Q => Sep1 (enc1 (kw c!"union")) Q.ggp)
renderR! optionalGroupGraphPatternS (fun Q g => kw c!"optional" ⬝ Ws1 ⬝ Q.ggp g)
renderR! minusGraphPatternS (fun Q g => kw c!"minus" ⬝ Ws1 ⬝ Q.ggp g)
renderR! graphGraphPatternS rGraphGraphPatternS
renderR! serviceGraphPatternS rServiceGraphPatternS
renderR! graphPatternNotTriplesS rGraphPatternNotTriplesS
renderR! groupGraphPatternAndTriplesS rGraphPatternAndTriplesS
renderR! groupGraphPatternSubS rGroupGraphPatternSubS
instance {R : Rec} {Q : Rel} [SoundRec R Q] :
    Sound (alt [map (subSelectS R) .subSelect, map (groupGraphPatternSubS R) .groupGraphPatternSub])
      (rGroupBodyS Q) := by
  refine Sound.mono inferInstance ?_; rsound
renderR! groupGraphPatternStep rGroupGraphPatternS

theorem recF_sound : ∀ n, SoundRec (recF n) (relN n)
  | 0 => ⟨⟨fun e => by cases e⟩, ⟨fun e => by cases e⟩⟩
  | n + 1 => by
    have := recF_sound n
    refine ⟨?_, ?_⟩
    · show Sound (expressionStep (recF n)) (rExpressionS (relN n)); infer_instance
    · show Sound (groupGraphPatternStep (recF n)) (rGroupGraphPatternS (relN n)); infer_instance

instance : Sound expression rExpression where
  out e := by
    obtain ⟨c, h1, h2⟩ := (recF_sound _).expr.out e
    exact ⟨c, h1, _, h2⟩

instance : Sound groupGraphPattern rGroupGraphPattern where
  out e := by
    obtain ⟨c, h1, h2⟩ := (recF_sound _).ggp.out e
    exact ⟨c, h1, _, h2⟩

instance : SoundRec R₀ rel₀ := ⟨(inferInstance : Sound expression rExpression),
  (inferInstance : Sound groupGraphPattern rGroupGraphPattern)⟩

/-! ## Queries -/

render! dataSetClauses rDataSetClauses
instance : Sound whereClause (rWhereClauseS rel₀) := by unfold whereClause; infer_instance
instance : Sound solutionModifier (rSolutionModifierS rel₀) := by unfold solutionModifier; infer_instance
instance : Sound selectClause (rSelectClauseS rel₀) := by unfold selectClause; infer_instance

render! selectQuery rSelectQuery [rSelectQuery]
render! askQuery rAskQuery [rAskQuery]
render! describeQuery rDescribeQuery [rDescribeQuery]
render! constructTemplate rConstructTemplate [rConstructTemplate]
render! subTriples rSubTriples [rSubTriples]
render! subConstruct rSubConstruct [rSubConstruct]
instance : Sound constructQuery rConstructQuery := by
  unfold constructQuery; refine Sound.mono inferInstance ?_
  rintro q s ⟨a, _, rfl, h1, b, c, rfl, h2, h⟩
  rcases h with ⟨q, rfl, h⟩ | ⟨q, rfl, h⟩ <;> exact ⟨a, _, rfl, h1, b, c, rfl, h2, h⟩
render! sparqlQuery rSparqlQuery
render! sparqlQueryStmt rStatement

/-! ## Updates -/

instance : Sound silentFromTo (fun x => rFromTo x.1 x.2.1 x.2.2) := by
  unfold silentFromTo; refine Sound.mono inferInstance ?_; rsound [rFromTo]
render! addStmt (fun s => rUpdateStatement (.add s)) [rUpdateStatement]
render! moveStmt (fun s => rUpdateStatement (.move s)) [rUpdateStatement]
render! copyStmt (fun s => rUpdateStatement (.copy s)) [rUpdateStatement]
render! createStmt (fun s => rUpdateStatement (.create s)) [rUpdateStatement]
instance : Sound silentGraphRefAll (fun x => rSilent x.1 ⬝ rGraphRefAll x.2) := by
  unfold silentGraphRefAll; infer_instance
render! dropStmt (fun s => rUpdateStatement (.drop s)) [rUpdateStatement]
render! clearStmt (fun s => rUpdateStatement (.clear s)) [rUpdateStatement]
render! loadStmt (fun s => rUpdateStatement (.load s)) [rUpdateStatement]
render! insertData (fun s => rUpdateStatement (.insertData s)) [rUpdateStatement]
render! deleteData (fun s => rUpdateStatement (.deleteData s)) [rUpdateStatement]
render! deleteWhereData (fun s => rUpdateStatement (.deleteWhere s)) [rUpdateStatement]
render! deleteInsert rDeleteInsert [rDeleteInsert]
render! modifyStmt rModify [rModify]
render! updateStmt rUpdateStatement

theorem updateF_sound : ∀ n, Sound (updateF n) rUpdate
  | 0 => ⟨fun e => by cases e⟩
  | n + 1 => by
    have := updateF_sound n
    unfold updateF updateStep
    refine Sound.mono inferInstance ?_
    refine mono_map ?_
    rintro ⟨p, o⟩ s h
    cases o with
    | none => simpa only [rOpt, Lang.seq_eps, rUpdate] using h
    | some x =>
      obtain ⟨st, u⟩ := x
      cases u with
      | none => simpa only [rOpt, Lang.seq_eps, Lang.seq_assoc, rUpdate] using h
      | some u => simpa only [rOpt, Lang.seq_assoc, rUpdate] using h

instance : Sound update rUpdate where
  out e := (updateF_sound _).out e

end NomSparql
