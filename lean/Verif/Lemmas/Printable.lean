import Verif.Lemmas.Print

/-!
# Trees with a canonical text are printable
-/

namespace NomSparql

/-! ## Leaves -/

theorem cVar_w {v : Var} {s : Str} (h : cVar v s) : wVar v := h.2
theorem cIriRef_w {x s : Str} (h : cIriRef x s) : wIriRef x := h.2

theorem cIri_w {i : Iri} {s : Str} (h : cIri i s) : wIri i := by
  match i, h with
  | .iri x, h => exact cIriRef_w h
  | .prefixedName (.pnameLN (some p) l), h => exact h.2

/-- A canonical IRI has one text only. -/
theorem cIri_text {i : Iri} {s : Str} (h : cIri i s) : s = pIri i := by
  match i, h with
  | .iri x, h => exact h.1
  | .prefixedName (.pnameLN (some p) l), h => exact h.1

theorem string_w {s t : Str} (h : StringText s t) : GoodString s := by
  obtain ⟨q, hq, _, hb, hn⟩ := h
  exact ⟨hn, q, hq, hb⟩

theorem opt_w {R : α → Lang} {W : α → Prop} (H : ∀ a s, R a s → W a) {o : Option α} {s : Str} (h : rOpt R o s) : Opt W o := by
  cases o with
  | none => simp [Opt]
  | some a => rintro b ⟨⟩; exact H a s h

theorem rdfLiteral_w {l : RdfLiteral} {s : Str} (h : cRdfLiteral l s) : wRdfLiteral l := by
  obtain ⟨a, b, rfl, ha, hb⟩ := h
  refine ⟨string_w ha, opt_w (W := wDescriptor) (fun d s h => ?_) hb⟩
  cases d with
  | langTag t => exact h.2
  | iriRef i => obtain ⟨a, b, rfl, _, h⟩ := h; exact cIri_w h

theorem number_w {n : NumericLiteral} {s : Str} (h : cNumericLiteral n s) : wNumber n := by
  match n, h with
  | .int v, h => exact h.2
  | .double d none, h => simp [wNumber]
  | .double d (some e), h => obtain ⟨a, b, rfl, _, h⟩ := h; simpa [wNumber] using h.2

theorem mant_unsigned {s : Str} {d : Decimal} (h : MantText s d) (t : Str) (hm : (s ++ t).head? ≠ some '-') : d.neg = false := by
  obtain ⟨sg, neg, w, f, hs, e, _, _, hd, _⟩ := h
  cases hs with
  | minus => rcases e with ⟨rfl, _⟩ | rfl <;> simp at hm
  | _ => exact hd

theorem unsigned_w {n : NumericLiteral} {s : Str} (h : cUnsigned n s) : wUnsigned n := by
  obtain ⟨h, _, hm⟩ := h
  match n, h with
  | .int v, h =>
    refine ⟨?_, h.2⟩
    obtain ⟨⟨sg, neg, ds, n, rfl, hs, _, rfl⟩, _⟩ := h
    cases hs with
    | minus => simp at hm
    | _ => simp
  | .double d none, h => exact ⟨mant_unsigned h.1 [] (by simpa using hm), by simp⟩
  | .double d (some e), h =>
    obtain ⟨a, b, rfl, ha, hb⟩ := h
    exact ⟨mant_unsigned ha.1 b hm, by simpa using hb.2⟩

theorem blank_w {b : BlankNode} {s : Str} (h : cBlankNode b s) : wBlank b := by
  cases b with
  | anon => trivial
  | label l => exact h.2

theorem term_w {t : GraphTerm} {s : Str} (h : cGraphTerm t s) : wTerm t := by
  cases t with
  | iri i => exact cIri_w h
  | rdfLiteral l => exact rdfLiteral_w h
  | numericLiteral n => exact number_w h
  | booleanLiteral b => trivial
  | blankNode b => exact blank_w h
  | nil => trivial

theorem varOrIri_w {v : VarOrIri} {s : Str} (h : cVarOrIri v s) : wVarOrIri v := by
  cases v with
  | var v => exact cVar_w h
  | iri i => exact cIri_w h

theorem varOrTerm_w {v : VarOrTerm} {s : Str} (h : cVarOrTerm v s) : wVarOrTerm v := by
  cases v with
  | var v => exact cVar_w h
  | term i => exact term_w h

theorem verb_w {v : Verb} {s : Str} (h : cVerb v s) : wVerb v := by
  cases v with
  | varOrIri v => exact varOrIri_w h
  | a => trivial

theorem value_w {v : DataBlockValue} {s : Str} (h : cDataBlockValue v s) : wValue v := by
  cases v with
  | iri i => exact cIri_w h
  | rdfLiteral l => exact rdfLiteral_w h
  | numericLiteral n => exact number_w h
  | booleanLiteral b => trivial
  | undef => trivial

/-! ## Lists -/

theorem all_cons {W : α → Prop} {a : α} {l : List α} (h : W a) (h' : All W l) : All W (a :: l) := by
  intro b hb
  rcases List.mem_cons.1 hb with rfl | hb
  · exact h
  · exact h' b hb

theorem many_w {R : α → Lang} {W : α → Prop} (H : ∀ a s, R a s → W a) : ∀ {l : List α} {s : Str}, Many R l s → All W l
  | [], _, _ => by simp [All]
  | a :: _, _, h => by
    obtain ⟨x, y, rfl, hx, hy⟩ := h
    exact all_cons (H a x hx) (many_w H hy)

theorem seq_w {A : Lang} {R : α → Lang} {W : α → Prop} (H : ∀ a s, R a s → W a) (a : α) (s : Str) (h : (A ⬝ R a) s) : W a := by
  obtain ⟨x, y, rfl, hx, hy⟩ := h
  exact H a y hy

theorem sep0_w {sep : Lang} {R : α → Lang} {W : α → Prop} (H : ∀ a s, R a s → W a) : ∀ {l : List α} {s : Str}, Sep0 sep R l s → All W l
  | [], _, _ => by simp [All]
  | a :: _, _, h => by
    obtain ⟨x, y, rfl, hx, hy⟩ := h
    exact all_cons (H a x hx) (many_w (seq_w H) hy)

theorem sep1_w {sep : Lang} {R : α → Lang} {W : α → Prop} (H : ∀ a s, R a s → W a) : ∀ {l : List α} {s : Str}, Sep1 sep R l s → All1 W l
  | [], _, h => h.elim
  | a :: _, _, h => by
    obtain ⟨x, y, rfl, hx, hy⟩ := h
    exact ⟨by simp, all_cons (H a x hx) (many_w (seq_w H) hy)⟩

theorem many1_w {R : α → Lang} {W : α → Prop} (H : ∀ a s, R a s → W a) : ∀ {l : List α} {s : Str}, Many1 R l s → All1 W l
  | [], _, h => h.elim
  | a :: _, _, h => by
    obtain ⟨x, y, rfl, hx, hy⟩ := h
    exact ⟨by simp, all_cons (H a x hx) (many_w H hy)⟩

theorem wsList_w {R : α → Lang} {W : α → Prop} (H : ∀ a s, R a s → W a) {l : List α} {s : Str} (h : WsList R l s) : All1 W l := by
  refine ⟨h.1, many_w (fun a s h => ?_) h.2⟩
  obtain ⟨x, y, rfl, hx, hy⟩ := h
  exact H a x hx

/-! ## Clauses -/

theorem decl_w (d : BaseOrPrefixDecl) (s : Str) (h : cDecl d s) : wDecl d := by
  cases d with
  | base x =>
    obtain ⟨_, _, rfl, _, _, _, rfl, _, h⟩ := h
    exact cIriRef_w h
  | «prefix» d =>
    obtain ⟨_, _, rfl, _, _, _, rfl, _, _, _, rfl, h, _, _, rfl, _, _, _, rfl, _, h'⟩ := h
    exact ⟨h.2, cIriRef_w h'⟩

theorem prologue_w {p : Prologue} {s : Str} (h : cPrologue p s) : wPrologue p := sep0_w decl_w h

theorem defaultOrNamed_w (d : DefaultOrNamedIri) (s : Str) (h : cDefaultOrNamedIri d s) : wDefaultOrNamed d := by
  cases d with
  | named i => obtain ⟨_, _, rfl, _, _, _, rfl, _, h⟩ := h; exact cIri_w h
  | default i => exact cIri_w h

theorem values_w {l : List DataBlockValue} {s : Str} (h : cValues l s) : All wValue l := by
  obtain ⟨_, _, rfl, _, _, _, rfl, h, _⟩ := h
  exact sep0_w (fun _ _ h => value_w h) h

theorem row_w (l : List DataBlockValue) (s : Str) (h : cRow l s) : All wValue l := by
  obtain ⟨_, _, rfl, _, _, _, rfl, h, _⟩ := h
  exact values_w h

theorem dataBlock_w {d : DataBlock} {s : Str} (h : cDataBlock d s) : wDataBlock d := by
  cases d with
  | inlineDataOneVar d =>
    obtain ⟨_, _, rfl, hv, _, _, rfl, _, _, _, rfl, _, _, _, rfl, h, _⟩ := h
    exact ⟨cVar_w hv, values_w h⟩
  | inlineDataFull d =>
    obtain ⟨_, _, rfl, ⟨_, _, rfl, _, _, _, rfl, ⟨_, _, rfl, _, _, _, rfl, hv, _⟩, _⟩, _, _, rfl, _, _, _, rfl, _, _, _, rfl, ⟨_, _, rfl, _, _, _, rfl, h, _⟩, _⟩ := h
    exact ⟨sep0_w (fun _ _ h => cVar_w h) hv, sep0_w row_w h⟩

theorem limit_w {n : Nat} {s : Str} (h : cLimit n s) : n < 2 ^ 64 := by
  obtain ⟨_, _, rfl, _, _, _, rfl, _, h⟩ := h
  exact h.2
theorem offset_w {n : Nat} {s : Str} (h : cOffset n s) : n < 2 ^ 64 := by
  obtain ⟨_, _, rfl, _, _, _, rfl, _, h⟩ := h
  exact h.2

theorem limitOffset_w (l : LimitOffsetClause) (s : Str) (h : cLimitOffset l s) : wLimitOffset l := by
  match l, h with
  | .limitOffset l none, h => obtain ⟨_, _, rfl, h, _⟩ := h; exact ⟨limit_w h, by simp⟩
  | .offsetLimit l none, h => obtain ⟨_, _, rfl, h, _⟩ := h; exact ⟨offset_w h, by simp⟩
  | .limitOffset l (some o), h =>
    obtain ⟨_, _, rfl, h1, _, _, rfl, _, _, _, rfl, h', _⟩ := h
    exact ⟨limit_w h1, by rintro _ ⟨⟩; exact offset_w h'⟩
  | .offsetLimit l (some o), h =>
    obtain ⟨_, _, rfl, h1, _, _, rfl, _, _, _, rfl, h', _⟩ := h
    exact ⟨offset_w h1, by rintro _ ⟨⟩; exact limit_w h'⟩

/-! ## Triples templates and quads -/

theorem node_w (n : GraphNode) (s : Str) (h : cNode n s) : wNode n := by
  cases n with
  | varOrTerm v => exact varOrTerm_w h
  | triplesNode n => exact h.elim

theorem verbList_w (v : VerbList) (s : Str) (h : cVerbList v s) : wVerbList v := by
  cases v with
  | mk v os =>
    obtain ⟨_, _, rfl, hv, _, _, rfl, _, h⟩ := h
    exact ⟨verb_w hv, sep1_w node_w h⟩

theorem propertyList_w (v : PropertyList) (s : Str) (h : cPropertyList v s) : wPropertyList v := by
  cases v with
  | mk l => obtain ⟨_, _, rfl, h, _⟩ := h; exact sep1_w verbList_w h

theorem triplesNode_w {n : TriplesNode} {s : Str} (h : cTriplesNode n s) : wTriplesNode n := by
  cases n with
  | collection l => obtain ⟨_, _, rfl, _, _, _, rfl, ⟨_, _, rfl, _, _, _, rfl, h, _⟩, _⟩ := h; exact sep1_w node_w h
  | blankNodePropertyList p => obtain ⟨_, _, rfl, _, _, _, rfl, _, _, _, rfl, h, _⟩ := h; exact propertyList_w p _ h

theorem triples1_w (t : TriplesSameSubject) (s : Str) (h : cTriplesSameSubject t s) : wTriples1 t := by
  match t, h with
  | .term v p, h => obtain ⟨_, _, rfl, h1, _, _, rfl, _, h'⟩ := h; exact ⟨varOrTerm_w h1, propertyList_w p _ h'⟩
  | .node n none, h => exact ⟨triplesNode_w h, by simp [Opt]⟩
  | .node n (some p), h => obtain ⟨_, _, rfl, h1, _, _, rfl, _, h'⟩ := h; exact ⟨triplesNode_w h1, by rintro _ ⟨⟩; exact propertyList_w p _ h'⟩

theorem triples_w {l : List TriplesSameSubject} {s : Str} (h : cTriples l s) : wTriples l := sep1_w triples1_w h

theorem then_w {R : α → Lang} {B : Lang} {W : α → Prop} (H : ∀ a s, R a s → W a) (a : α) (s : Str) (h : (R a ⬝ B) s) : W a := by
  obtain ⟨x, y, rfl, hx, hy⟩ := h
  exact H a x hx

theorem block_w {o : Option (List TriplesSameSubject)} {s : Str} (h : cBlock o s) : Opt wTriples o := by
  obtain ⟨_, _, rfl, _, _, _, rfl, _, _, _, rfl, h, _⟩ := h
  exact opt_w (then_w (W := wTriples) fun _ _ h => triples_w h) h

theorem graphBlock_w {q : QuadsNotTriples} {s : Str} (h : cGraphBlock q s) : wGraphBlock q := by
  obtain ⟨_, _, rfl, _, _, _, rfl, _, _, _, rfl, h, _, _, rfl, _, h'⟩ := h
  exact ⟨varOrIri_w h, block_w h'⟩

theorem entry_w {b : Bool} {e : QuadsEntry} {s : Str} (h : cEntry b e s) : wEntry e := by
  obtain ⟨_, _, rfl, h, _, _, rfl, _, h'⟩ := h
  exact ⟨graphBlock_w h, opt_w (then_w (W := wTriples) fun _ _ h => triples_w h) h'⟩

theorem entries_w : ∀ {l : List QuadsEntry} {s : Str}, cEntries l s → All wEntry l
  | [], _, _ => by simp [All]
  | [e], _, h => all_cons (entry_w h) (by simp [All])
  | e :: e' :: l, _, h => by
    obtain ⟨_, _, rfl, h, h'⟩ := h
    exact all_cons (entry_w h) (entries_w h')

theorem quads_w {q : Quads} {s : Str} (h : cQuads q s) : wQuads q := by
  obtain ⟨_, _, rfl, _, _, _, rfl, _, _, _, rfl, h, _, _, rfl, h', _⟩ := h
  exact ⟨opt_w (then_w (W := wTriples) fun _ _ h => triples_w h) h, entries_w h'⟩

/-! ## Paths and patterns -/

theorem oneInSet_w (x : IriOrAOrCaret) (s : Str) (h : cIriOrAOrCaret x s) : wOneInSet x := by
  match x, h with
  | .iriOrA (.iri i), h => exact cIri_w h
  | .iriOrA .a, h => trivial
  | .caret (.iri i), h => obtain ⟨_, _, rfl, _, h⟩ := h; exact cIri_w h
  | .caret .a, h => trivial

theorem wAlternative {l : List PathEltOrInverse} (h : wPath l) : wPathAlternative (.mk [.mk l]) := by
  simpa [wPathAlternative, wPathSequences, wPathSequence] using h

mutual
theorem primary_w : ∀ {p : PathPrimary} {s : Str}, CPrimary p s → wPrimary p
  | _, _, .iri h => by unfold wPrimary; exact cIri_w h
  | _, _, .a => by unfold wPrimary; trivial
  | _, _, .negated h => by
    unfold wPrimary
    obtain ⟨_, _, rfl, _, _, _, rfl, ⟨_, _, rfl, _, _, _, rfl, h, _⟩, _⟩ := h
    exact sep1_w oneInSet_w h
  | _, _, .group h => by unfold wPrimary; exact wAlternative (path_w h)
theorem elt_w : ∀ {e : PathElt} {s : Str}, CElt e s → wElt e
  | _, _, .plain h => by unfold wElt; exact primary_w h
  | _, _, .mod h _ _ => by unfold wElt; exact primary_w h
theorem eltOrInverse_w : ∀ {e : PathEltOrInverse} {s : Str}, CEltOrInverse e s → wEltOrInverse e
  | _, _, .elt h => by unfold wEltOrInverse; exact elt_w h
  | _, _, .inverse h => by unfold wEltOrInverse; exact elt_w h
theorem path_w : ∀ {l : List PathEltOrInverse} {s : Str}, CPath l s → wPath l
  | _, _, .one h => by unfold wPath; exact eltOrInverse_w h
  | e :: [], _, .cons h _ h' => by
    have := path_w h'
    unfold wPath at this
    exact this.elim
  | e :: e' :: l, _, .cons h _ h' => by unfold wPath; exact ⟨eltOrInverse_w h, path_w h'⟩
end

theorem noMod_append {a b : Str} (ha : a ≠ []) : NoModText (a ++ b) ↔ NoModText a := by
  cases a with
  | nil => exact absurd rfl ha
  | cons c t => simp [NoModText]

theorem digit_noMod {c : Char} (h : AsciiDigit c) : NoMod c := by
  unfold AsciiDigit at h
  refine ⟨by omega, ?_, ?_, ?_⟩ <;> rintro rfl <;> revert h <;> decide

theorem pInt_head (v : Int) : ∃ c t, pInt v = c :: t ∧ (c = '-' ∨ AsciiDigit c) := by
  obtain ⟨c, t, e, h⟩ := pNat_head v.natAbs
  unfold pInt
  rw [e]
  split
  · exact ⟨_, _, rfl, .inl rfl⟩
  · exact ⟨_, _, rfl, .inr h⟩

theorem pDecimal_head' (d : Decimal) : ∃ c t, pDecimal d = c :: t ∧ (c = '-' ∨ AsciiDigit c) := by
  obtain ⟨c, t, e, h⟩ := pNat_head (d.mantissa / 10 ^ d.scale)
  unfold pDecimal
  rw [e]
  split
  · exact ⟨_, _, rfl, .inl rfl⟩
  · exact ⟨_, _, rfl, .inr h⟩

theorem pNumber_head (n : NumericLiteral) : ∃ c t, pNumber n = c :: t ∧ (c = '-' ∨ AsciiDigit c) := by
  match n with
  | .int v => exact pInt_head v
  | .double d none => exact pDecimal_head' d
  | .double d (some e) =>
    obtain ⟨c, t, h, h'⟩ := pDecimal_head' d
    exact ⟨c, t ++ ('e' :: pInt e), by show pDecimal d ++ _ = _; rw [h]; rfl, h'⟩

/-- The printed text of a variable or term begins like its canonical texts, or with a character that begins neither a path modifier nor a variable. -/
theorem varOrTerm_head {v : VarOrTerm} {s : Str} (h : cVarOrTerm v s) :
    pVarOrTerm v = s ∨ ∃ c t, pVarOrTerm v = c :: t ∧ NoMod c := by
  match v, h with
  | .var v, h => exact .inl h.1.symm
  | .term (.iri i), h => exact .inl (cIri_text h).symm
  | .term (.rdfLiteral l), h =>
    right
    simp only [pVarOrTerm, pTerm, pRdfLiteral, pString]
    split
    · exact ⟨_, _, rfl, by decide⟩
    · exact ⟨_, _, rfl, by decide⟩
  | .term (.numericLiteral n), h =>
    right
    obtain ⟨c, t, e, hc⟩ := pNumber_head n
    refine ⟨c, t, e, ?_⟩
    rcases hc with rfl | hc
    · decide
    · exact digit_noMod hc
  | .term (.booleanLiteral true), h => exact .inr ⟨_, _, rfl, by decide⟩
  | .term (.booleanLiteral false), h => exact .inr ⟨_, _, rfl, by decide⟩
  | .term (.blankNode .anon), h => exact .inr ⟨_, _, rfl, by decide⟩
  | .term (.blankNode (.label l)), h => exact .inr ⟨_, _, rfl, by decide⟩
  | .term .nil, h => exact .inr ⟨_, _, rfl, by decide⟩

theorem varOrTerm_noMod {v : VarOrTerm} {s : Str} (h : cVarOrTerm v s) (hn : NoModText s) : NoModText (pVarOrTerm v) := by
  rcases varOrTerm_head h with e | ⟨c, t, e, hc⟩
  · rwa [e]
  · rw [e]; rintro _ _ ⟨⟩; exact hc

theorem varOrTerm_ne {v : VarOrTerm} {s : Str} (h : cVarOrTerm v s) : s ≠ [] := by
  obtain ⟨c, t, rfl, _⟩ := cVarOrTerm_toks v s h
  simp

theorem further_w (m : PathObjects) (s : Str) (h : cPathObjects m s) : wFurther m.ast := by
  obtain ⟨h1, _, _, rfl, h2, _, t, rfl, _, h3, h4⟩ := h
  obtain ⟨l, os⟩ := m
  refine ⟨wAlternative (path_w h2), h1, ?_, ?_⟩
  · have := sep1_w (W := wVarOrTerm) (fun _ _ h => varOrTerm_w h) h3
    refine ⟨by simpa [PathObjects.ast] using this.1, ?_⟩
    intro a ha
    simp only [PathObjects.ast, List.mem_map] at ha
    obtain ⟨b, hb, rfl⟩ := ha
    exact this.2 b hb
  · match os, h3 with
    | o :: os, h3 =>
      obtain ⟨x, y, rfl, hx, hy⟩ := h3
      have : NoModText (pVarOrTerm o) := varOrTerm_noMod hx ((noMod_append (varOrTerm_ne hx)).1 h4)
      exact (noMod_append (varOrTerm_ne (varOrTerm_p (varOrTerm_w hx)))).2 this

theorem pattern_w (p : Pattern) (s : Str) (h : cPattern p s) : wPattern p.ast := by
  obtain ⟨a, _, rfl, ha, _, _, rfl, _, x, y, rfl, hx, hy⟩ := h
  have h2 : All wFurther (p.more.map PathObjects.ast) := by
    have := many_w (seq_w (W := fun m => wFurther m.ast) further_w) hy
    intro b hb
    obtain ⟨c, hc, rfl⟩ := List.mem_map.1 hb
    exact this c hc
  obtain ⟨q, pr, o, m⟩ := p
  cases hx with
  | var h =>
    obtain ⟨_, _, rfl, hv, _, _, rfl, _, ho⟩ := h
    exact ⟨varOrTerm_w ha, cVar_w hv, varOrTerm_w ho, h2⟩
  | path h =>
    obtain ⟨_, _, rfl, hv, _, _, rfl, _, ho, hn⟩ := h
    exact ⟨varOrTerm_w ha, wAlternative (path_w hv), varOrTerm_w ho, varOrTerm_noMod ho hn, h2⟩

theorem patterns_w {l : List Pattern} {s : Str} (h : cPatterns l s) : wPatterns (l.map Pattern.ast) := by
  have := sep1_w (W := fun p => wPattern (Pattern.ast p)) pattern_w h
  refine ⟨by simpa using this.1, ?_⟩
  intro b hb
  obtain ⟨c, hc, rfl⟩ := List.mem_map.1 hb
  exact this.2 c hc

theorem patterns_head_p {l : List Pattern} {s : Str} (h : cPatterns l s) (hs : s.head? ≠ some '?') : (pPatterns (l.map Pattern.ast)).head? ≠ some '?' := by
  match l, h with
  | p :: l, h =>
    obtain ⟨_, y, rfl, ⟨a, b, rfl, ha, hb⟩, hy⟩ := h
    have e : ∃ z, pPatterns ((p :: l).map Pattern.ast) = pVarOrTerm p.subject ++ z := ⟨_, List.append_assoc _ _ _⟩
    obtain ⟨z, e⟩ := e
    rw [e]
    have hne := varOrTerm_ne ha
    rcases varOrTerm_head ha with e | ⟨c, t, e, hc⟩
    · rw [e]
      cases a with
      | nil => exact absurd rfl hne
      | cons c a => simpa using hs
    · rw [e]
      simpa using hc.2.1

/-! ## Expressions -/

/-- `P` from some depth on. -/
def Ev (P : Printable → Prop) : Prop := ∃ n, ∀ m, n ≤ m → P (printable m)

namespace Ev

theorem pure {P : Prop} (h : P) : Ev fun _ => P := ⟨0, fun _ _ => h⟩

theorem mono {P Q : Printable → Prop} (h : Ev P) (H : ∀ W, P W → Q W) : Ev Q := by
  obtain ⟨n, h⟩ := h
  exact ⟨n, fun m hm => H _ (h m hm)⟩

theorem and {P Q : Printable → Prop} (h : Ev P) (h' : Ev Q) : Ev fun W => P W ∧ Q W := by
  obtain ⟨n, h⟩ := h
  obtain ⟨n', h'⟩ := h'
  exact ⟨max n n', fun m hm => ⟨h m (by omega), h' m (by omega)⟩⟩

theorem all {P : Printable → α → Prop} : ∀ {l : List α}, All (fun a => Ev fun W => P W a) l → Ev fun W => All (P W) l
  | [], _ => ⟨0, fun _ _ => by simp [All]⟩
  | a :: l, h => ((h a (by simp)).and (all (l := l) fun b hb => h b (by simp [hb]))).mono fun _ h => all_cons h.1 h.2

theorem all1 {P : Printable → α → Prop} {l : List α} (h : All1 (fun a => Ev fun W => P W a) l) : Ev fun W => All1 (P W) l :=
  (all h.2).mono fun _ h' => ⟨h.1, h'⟩

theorem opt {P : Printable → α → Prop} {o : Option α} (h : Opt (fun a => Ev fun W => P W a) o) : Ev fun W => Opt (P W) o := by
  cases o with
  | none => exact ⟨0, fun _ _ => by simp [Opt]⟩
  | some a => exact (h a rfl).mono fun _ h => by rintro _ ⟨⟩; exact h

theorem expr {e : Expression} (h : Ev fun W => wExpression W e) : Ev fun W => W.expr e := by
  obtain ⟨n, h⟩ := h
  refine ⟨n + 1, fun m hm => ?_⟩
  obtain ⟨m, rfl⟩ : ∃ k, m = k + 1 := ⟨m - 1, by omega⟩
  exact h m (by omega)

theorem group {g : GroupGraphPattern} (h : Ev fun W => wGroup W g) : Ev fun W => W.group g := by
  obtain ⟨n, h⟩ := h
  refine ⟨n + 1, fun m hm => ?_⟩
  obtain ⟨m, rfl⟩ : ∃ k, m = k + 1 := ⟨m - 1, by omega⟩
  exact h m (by omega)

end Ev

section
variable {cG : GroupGraphPattern → Lang} (H : ∀ g s, cG g s → Ev fun W => W.group g)

/-! The kind of a text is the kind of its expression. -/

omit H in
theorem add_kind {b : Bool} {a : AdditiveExpression} {s : Str} (h : CAdd cG b a s) : b = kAdd a := by
  cases h with
  | one h => rfl
  | @sum m s w l t h1 h2 h3 h4 =>
    cases l with
    | nil => exact absurd rfl h3
    | cons => rfl

omit H in
theorem op_kind {b sign : Bool} {o : OpExpression} {s : Str} (h : COp cG b sign o s) : b = kOp o := by
  cases h <;> first | rfl | exact add_kind ‹_›

omit H in
theorem rel_kind {b : Bool} {r : RelationalExpression} {s : Str} (h : CRel cG b r s) : b = kRel r := by
  cases h with
  | one h => exact add_kind h
  | op h1 h2 h3 h4 => exact op_kind h4

omit H in
theorem and_kind : ∀ {l : List RelationalExpression} {b : Bool} {s : Str}, CAnd cG b l s → b = kAnd l
  | _, _, _, .one h => rel_kind h
  | r :: [], _, _, .and h _ _ h' => by cases h'
  | _ :: r' :: l, _, _, .and _ _ _ h' => (and_kind h' : _ = kAnd (r' :: l))

omit H in
theorem or_kind : ∀ {l : List ConditionalAndExpression} {b : Bool} {s : Str}, COr cG b l s → b = kOr l
  | _, _, _, .one h => and_kind h
  | _ :: [], _, _, .or h _ _ h' => by cases h'
  | .mk _ :: c :: m, _, _, .or _ _ _ h' => (or_kind h' : _ = kOr (c :: m))

omit H in
theorem expr_kind {b : Bool} {e : Expression} {s : Str} (h : CExpr cG b e s) : b = kExpr e := by
  cases h with
  | mk h => exact or_kind h

theorem last_of {e : Expression} {s : Str} (h : CExpr cG true e s) (h' : Ev fun W => W.expr e) : Ev fun W => wLast W e :=
  h'.mono fun _ hw => ⟨hw, (expr_kind h).symm⟩

theorem calls1_w {t : Str} {f : Expression → BuiltInCall} (h : (t, f) ∈ calls1) (W : Printable) (e : Expression) (he : wLast W e) : wCall W (f e) := by
  simp only [calls1, List.mem_cons, List.not_mem_nil, or_false, Prod.mk.injEq] at h
  rcases h with ⟨_, rfl⟩ | h
  · exact he
  repeat (rcases h with ⟨_, rfl⟩ | h; · exact he)
  obtain ⟨_, rfl⟩ := h
  exact he

theorem calls2_w {t : Str} {f : Expression → Expression → BuiltInCall} (h : (t, f) ∈ calls2) (W : Printable) (e e' : Expression)
    (he : W.expr e ∧ wLast W e') : wCall W (f e e') := by
  simp only [calls2, List.mem_cons, List.not_mem_nil, or_false, Prod.mk.injEq] at h
  rcases h with ⟨_, rfl⟩ | h
  · exact he
  repeat (rcases h with ⟨_, rfl⟩ | h; · exact he)
  obtain ⟨_, rfl⟩ := h
  exact he

theorem aggregates_w {t : Str} {f : DistinctExpression → Aggregate} (h : (t, f) ∈ aggregates) (W : Printable) (d : Bool) (e : Expression)
    (he : wLast W e) : wAggregate W (f (.mk d e)) := by
  simp only [aggregates, List.mem_cons, List.not_mem_nil, or_false, Prod.mk.injEq] at h
  rcases h with ⟨_, rfl⟩ | h
  · exact he
  repeat (rcases h with ⟨_, rfl⟩ | h; · exact he)
  obtain ⟨_, rfl⟩ := h
  exact he

theorem operandIri_w {i : Iri} {s : Str} (h : cOperandIri i s) : wOperandIri i := ⟨cIri_w h.1, cIri_text h.1 ▸ h.2⟩

theorem and_list {W : Printable} {r : RelationalExpression} {l : List RelationalExpression} (h : wRel W r ∧ All1 (wRel W) l) : All1 (wRel W) (r :: l) :=
  ⟨by simp, all_cons h.1 h.2.2⟩

include H
set_option linter.unusedSectionVars false in
mutual
theorem call_w : ∀ {c : BuiltInCall} {s : Str}, CCall cG c s → Ev fun W => wCall W c
  | _, _, .one hm _ _ he _ hc => (last_of he (expr_w he)).mono fun W h => by rw [hc]; exact calls1_w hm W _ h
  | _, _, .two hm _ _ he _ he' _ hc => ((expr_w he).and (last_of he' (expr_w he'))).mono fun W h => by rw [hc]; exact calls2_w hm W _ _ h
  | _, _, .bound _ _ hv => .pure (cVar_w hv)
  | _, _, .if _ _ he _ he' _ he'' _ => (expr_w he).and ((expr_w he').and (last_of he'' (expr_w he'')))
  | _, _, .regex _ _ he _ he' _ => (expr_w he).and (last_of he' (expr_w he'))
  | _, _, .regexFlags _ _ he _ he' _ he'' _ => (expr_w he).and ((expr_w he').and (last_of he'' (expr_w he'')))
  | _, _, .exists _ _ hg => H _ _ hg
  | _, _, .notExists _ _ _ _ hg => H _ _ hg
  | _, _, .aggregate hm _ _ _ he _ hc => (last_of he (expr_w he)).mono fun W h => by rw [hc]; exact aggregates_w hm W _ _ h
  | _, _, .count _ _ _ he _ => last_of he (expr_w he)
  | _, _, .countAll _ _ _ => .pure trivial
  | _, _, .concat _ _ _ he _ => last_of he (expr_w he)
  | _, _, .concatSep _ _ _ he hz => (expr_w he).and (.pure (by
      obtain ⟨_, _, rfl, _, _, _, rfl, _, _, _, rfl, _, _, _, rfl, _, _, _, rfl, _, _, _, rfl, _, _, _, rfl, _, hz⟩ := hz
      exact string_w hz))
theorem prim_w : ∀ {p : PrimaryExpression} {s : Str}, CPrim cG p s → Ev fun W => wPrim W p
  | _, _, .bracket _ he _ => expr_w he
  | _, _, .call h => call_w h
  | _, _, .iri h => .pure (operandIri_w h)
  | _, _, .function h _ _ => .pure (operandIri_w h)
  | _, _, .rdfLiteral h => .pure (rdfLiteral_w h)
  | _, _, .numericLiteral h => .pure (unsigned_w h)
  | _, _, .booleanLiteral _ => .pure trivial
  | _, _, .var h => .pure (cVar_w h)
theorem unary_w : ∀ {u : UnaryExpression} {s : Str}, CUnary cG u s → Ev fun W => wUnary W u
  | _, _, .plain h => prim_w h
  | _, _, .not _ h => prim_w h
  | _, _, .plus _ h => prim_w h
  | _, _, .minus _ h => prim_w h
theorem factors_w : ∀ {l : List MultExpression} {s : Str}, CFactors cG l s → Ev fun W => All (wFactor W) l
  | _, _, .nil => .all (by simp [All])
  | _, _, .times _ h _ h' => ((unary_w h).and (factors_w h')).mono fun _ h => all_cons h.1 h.2
  | _, _, .over _ h _ h' => ((unary_w h).and (factors_w h')).mono fun _ h => all_cons h.1 h.2
theorem product_w : ∀ {m : MultiplicativeExpression} {s : Str}, CProduct cG m s → Ev fun W => wProduct W m
  | _, _, .mk h _ hn h' => ((unary_w h).and (factors_w h')).mono fun _ h => ⟨h.1, hn, h.2⟩
theorem mult_w : ∀ {m : MultiplicativeExpression} {s : Str}, CMult cG m s → Ev fun W => wMult W m
  | _, _, .one h => (unary_w h).mono fun _ h => ⟨h, by simp [All]⟩
  | .mk _ _, _, .product h => (product_w h).mono fun _ h => ⟨h.1, h.2.2⟩
theorem summands_w : ∀ {l : List AddExpression} {s : Str}, CSummands cG l s → Ev fun W => All (wSummand W) l
  | _, _, .nil => .all (by simp [All])
  | _, _, .plus _ h h' => ((product_w h).and (summands_w h')).mono fun _ h => all_cons h.1 h.2
  | _, _, .minus _ h h' => ((product_w h).and (summands_w h')).mono fun _ h => all_cons h.1 h.2
theorem add_w : ∀ {b : Bool} {a : AdditiveExpression} {s : Str}, CAdd cG b a s → Ev fun W => wAdd W a
  | _, _, _, .one h => (mult_w h).mono fun _ h => ⟨h, by simp [All]⟩
  | _, _, _, .sum h _ _ h' => (mult_w h).and (summands_w h')
theorem op_w : ∀ {b sign : Bool} {o : OpExpression} {s : Str}, COp cG b sign o s → Ev fun W => wOp W o
  | _, _, _, _, .eq _ h => add_w h
  | _, _, _, _, .ne _ h => add_w h
  | _, _, _, _, .lt _ h => add_w h
  | _, _, _, _, .gt _ h => add_w h
  | _, _, _, _, .le _ h => add_w h
  | _, _, _, _, .ge _ h => add_w h
  | _, _, _, _, .in _ _ _ => .pure trivial
  | _, _, _, _, .notIn _ _ _ _ _ => .pure trivial
theorem rel_w : ∀ {b : Bool} {r : RelationalExpression} {s : Str}, CRel cG b r s → Ev fun W => wRel W r
  | _, _, _, .one h => (add_w h).mono fun _ h => ⟨h, by simp [Opt]⟩
  | _, _, _, .op h _ _ h' => ((add_w h).and (op_w h')).mono fun _ h => ⟨h.1, by rintro _ ⟨⟩; exact h.2⟩
theorem and_w : ∀ {b : Bool} {l : List RelationalExpression} {s : Str}, CAnd cG b l s → Ev fun W => All1 (wRel W) l
  | _, _, _, .one h => (rel_w h).mono fun _ h => ⟨by simp, all_cons h (by simp [All])⟩
  | _, _, _, .and h _ _ h' => ((rel_w h).and (and_w h')).mono fun _ h => ⟨by simp, all_cons h.1 h.2.2⟩
theorem or_w : ∀ {b : Bool} {l : List ConditionalAndExpression} {s : Str}, COr cG b l s → Ev fun W => All1 (wAnd W) l
  | _, _, _, .one h => (and_w h).mono fun _ h => ⟨by simp, all_cons h (by simp [All])⟩
  | _, _, _, .or h _ _ h' => ((and_w h).and (or_w h')).mono fun _ h => ⟨by simp, all_cons h.1 h.2.2⟩
theorem expr_w : ∀ {b : Bool} {e : Expression} {s : Str}, CExpr cG b e s → Ev fun W => W.expr e
  | _, _, _, .mk h => Ev.expr (e := .mk _) (or_w h)
end

/-! ## Groups -/

theorem bracket_w {e : Expression} {s : Str} (h : CBracket cG e s) : Ev fun W => W.expr e := by
  cases h with
  | mk _ h _ => exact expr_w H h

theorem asVar_w {x : ExpressionAsVar} {s : Str} (h : CAsVar cG x s) : Ev fun W => wAsVar W x := by
  cases h with
  | mk _ h _ _ _ hv _ => exact (expr_w H h).and (.pure (cVar_w hv))

theorem constraint_w (c : Constraint) (s : Str) (h : CConstraint cG c s) : Ev fun W => wConstraint W c := by
  cases h with
  | bracket h => exact bracket_w H h
  | call h => exact call_w H h
  | function h _ _ => exact .pure (operandIri_w h)

theorem orderCond_w (c : OrderCondition) (s : Str) (h : COrderCond cG c s) : Ev fun W => wOrderCond W c := by
  cases h with
  | order _ _ h => exact bracket_w H h
  | constraint h => exact constraint_w H _ _ h
  | var h => exact .pure (cVar_w h)

theorem groupCond_w (c : GroupCondition) (s : Str) (h : CGroupCond cG c s) : Ev fun W => wGroupCond W c := by
  cases h with
  | call h => exact call_w H h
  | function h _ _ => exact .pure (operandIri_w h)
  | bracket h => exact bracket_w H h
  | asVar _ h _ _ _ hv _ => exact (expr_w H h).and ((Ev.pure (expr_kind h).symm).and (.pure (cVar_w hv)))
  | var h => exact .pure (cVar_w h)

theorem modifier_w {m : SolutionModifier} {s : Str} (h : cModifier cG m s) : Ev fun W => wModifier W m := by
  cases m with
  | mk o g hv l =>
    obtain ⟨_, _, rfl, h1, _, _, rfl, h2, _, _, rfl, h3, h4⟩ := h
    refine (Ev.opt (opt_w ?_ h3)).and ((Ev.opt (opt_w ?_ h1)).and ((Ev.opt (opt_w ?_ h2)).and (.pure (opt_w limitOffset_w h4))))
    · rintro ⟨l⟩ _ ⟨_, _, rfl, _, _, _, rfl, _, _, _, rfl, _, _, _, rfl, _, h⟩
      exact Ev.all1 (wsList_w (orderCond_w H) h)
    · rintro ⟨l⟩ _ ⟨_, _, rfl, _, _, _, rfl, _, _, _, rfl, _, _, _, rfl, _, h⟩
      exact Ev.all1 (wsList_w (groupCond_w H) h)
    · rintro ⟨l⟩ _ ⟨_, _, rfl, _, _, _, rfl, _, h⟩
      exact Ev.all1 (wsList_w (constraint_w H) h)

theorem proj_w (x : VarOrExpressionAsVar) (s : Str) (h : CProj cG x s) : Ev fun W => wProj W x := by
  cases h with
  | var h => exact .pure (cVar_w h)
  | expr h => exact asVar_w H h

theorem selectClause_w {c : SelectClause} {s : Str} (h : cSelectClause cG c s) : Ev fun W => wSelectClause W c := by
  cases c with
  | mk m v =>
    obtain ⟨_, _, rfl, _, _, _, rfl, _, _, _, rfl, _, h⟩ := h
    cases v with
    | all => exact .pure trivial
    | varOrExpressionAsVar l => exact Ev.all1 (many1_w (proj_w H) h)

theorem where_w (g : GroupGraphPattern) (s : Str) (h : cWhere cG g s) : Ev fun W => W.group g := by
  obtain ⟨_, _, rfl, _, h⟩ := h
  exact H _ _ h

theorem subSelect_w {q : SubSelect} {s : Str} (h : cSubSelect cG q s) : Ev fun W => wSubSelect W q := by
  cases q with
  | mk c g m v =>
    obtain ⟨_, _, rfl, h1, _, _, rfl, _, _, _, rfl, h2, _, _, rfl, _, _, _, rfl, h3, h4⟩ := h
    refine (selectClause_w H h1).and ((where_w H _ _ h2).and ((modifier_w H h3).and (.pure (opt_w ?_ h4))))
    rintro d _ ⟨_, _, rfl, _, _, _, rfl, _, _, _, rfl, h, _⟩
    exact dataBlock_w h

theorem item_w {x : GraphPatternNotTriples} {s : Str} (h : CItem cG x s) : Ev fun W => wItem W x := by
  cases h with
  | union h => exact Ev.all1 (sep1_w H h)
  | optional _ _ h => exact H _ _ h
  | minus _ _ h => exact H _ _ h
  | graph _ _ h _ h' => exact (Ev.pure (varOrIri_w h)).and (H _ _ h')
  | service _ _ _ h _ h' => exact (Ev.pure (varOrIri_w h)).and (H _ _ h')
  | filter _ _ h => exact constraint_w H _ _ h
  | bind _ _ h => exact asVar_w H h
  | inlineData _ _ h => exact .pure (dataBlock_w h)

theorem groupEntry_w (x : GraphPatternAndTriples) (s : Str) (h : CEntry cG x s) : Ev fun W => wGroupEntry W x := by
  cases h with
  | plain h => exact (item_w H h).and (.pure (by simp [Opt]))
  | triples h _ hp hs => exact (item_w H h).and (.pure (by rintro _ ⟨⟩; exact ⟨patterns_w hp, patterns_head_p hp hs⟩))

theorem group_w {g : GroupGraphPattern} {s : Str} (h : CGroup cG g s) : Ev fun W => wGroup W g := by
  cases h with
  | empty _ => exact (Ev.opt (by simp [Opt])).and (.all (by simp [All]))
  | patterns _ h _ => exact (Ev.opt (by rintro _ ⟨⟩; exact .pure (patterns_w h))).and (.all (by simp [All]))
  | items _ h => exact (Ev.opt (by simp [Opt])).and (Ev.all (wsList_w (groupEntry_w H) h).2)
  | both _ h _ h' => exact (Ev.opt (by rintro _ ⟨⟩; exact .pure (patterns_w h))).and (Ev.all (wsList_w (groupEntry_w H) h').2)
  | select _ h => exact subSelect_w H h
end

/-- Canonical groups are printable, whatever is inside. -/
theorem cGroup_w (g : GroupGraphPattern) (s : Str) (h : cGroup g s) : Ev fun W => W.group g :=
  h (fun g _ => Ev fun W => W.group g) fun _ _ h => (group_w (fun _ _ h => h) h).group

/-! ## Queries and updates -/

theorem dataSets_w {l : List DataSetClause} {s : Str} (h : cDataSets l s) : All wDefaultOrNamed l := by
  refine many_w (fun d s h => ?_) h
  obtain ⟨_, _, rfl, ⟨_, _, rfl, _, _, _, rfl, _, h⟩, _⟩ := h
  exact defaultOrNamed_w d _ h

theorem query_w {q : SparqlQuery} {s : Str} (h : cQuery cGroup q s) : Ev fun W => wQuery W q := by
  match q, h with
  | .select q, h =>
    obtain ⟨_, _, rfl, h1, _, _, rfl, _, _, _, rfl, h2, _, _, rfl, h3, _, _, rfl, _, h4⟩ := h
    exact (selectClause_w cGroup_w h1).and ((Ev.pure (dataSets_w h2)).and ((where_w cGroup_w _ _ h3).and (modifier_w cGroup_w h4)))
  | .ask q, h =>
    obtain ⟨_, _, rfl, _, _, _, rfl, _, _, _, rfl, h2, _, _, rfl, h3, _, _, rfl, _, h4⟩ := h
    exact (Ev.pure (dataSets_w h2)).and ((where_w cGroup_w _ _ h3).and (modifier_w cGroup_w h4))
  | .describe q, h =>
    obtain ⟨_, _, rfl, _, _, _, rfl, _, _, _, rfl, h1, _, _, rfl, h2, _, _, rfl, h3, h4⟩ := h
    refine (Ev.pure ?_).and ((Ev.pure (dataSets_w h2)).and ((Ev.opt (opt_w (then_w (where_w cGroup_w)) h3)).and (modifier_w cGroup_w h4)))
    obtain ⟨_, t, _, _⟩ := q
    cases t with
    | varIri l => exact wsList_w (fun _ _ h => varOrIri_w h) h1
    | all => trivial
  | .construct (.subConstruct q), h =>
    obtain ⟨_, _, rfl, _, _, _, rfl, _, _, _, rfl, h1, _, _, rfl, _, _, _, rfl, h2, _, _, rfl, h3, _, _, rfl, _, h4⟩ := h
    refine (Ev.pure ?_).and ((Ev.pure (dataSets_w h2)).and ((where_w cGroup_w _ _ h3).and (modifier_w cGroup_w h4)))
    obtain ⟨_, _, rfl, _, _, _, rfl, _, _, _, rfl, h1, _⟩ := h1
    rcases h1 with ⟨h1, _⟩ | h1
    · rw [h1]; simp [All]
    · exact (triples_w h1).2
  | .construct (.subTriples q), h =>
    obtain ⟨_, _, rfl, _, _, _, rfl, _, _, _, rfl, h1, _, _, rfl, _, _, _, rfl, _, _, _, rfl, h2, _, _, rfl, _, h4⟩ := h
    exact (Ev.pure (dataSets_w h1)).and ((Ev.pure (block_w h2)).and (modifier_w cGroup_w h4))

theorem queryStmt_w {q : SparqlQueryStatement} {s : Str} (h : cQueryStmt q s) : Ev fun W => wQueryStmt W q := by
  obtain ⟨h0, _, _, rfl, h1, _, _, rfl, _, h2⟩ := h
  exact (Ev.pure (prologue_w h1)).and ((query_w h2).and (.pure h0))

theorem graphRef_w {i : Iri} {s : Str} (h : cGraphRef i s) : wIri i := by
  obtain ⟨_, _, rfl, _, _, _, rfl, _, h⟩ := h
  exact cIri_w h

theorem graphOrDefault_w {g : GraphOrDefault} {s : Str} (h : cGraphOrDefault g s) : wGraphOrDefault g := by
  cases g with
  | default => trivial
  | graph i =>
    rcases h with h | h
    · exact graphRef_w h
    · exact cIri_w h.1

theorem graphRefAll_w {g : GraphRefAll} {s : Str} (h : cGraphRefAll g s) : wGraphRefAll g := by
  cases g with
  | graphRef i => exact graphRef_w h
  | _ => trivial

theorem statement_w {u : UpdateStatement} {s : Str} (h : cStatement cGroup u s) : Ev fun W => wStatement W u := by
  match u, h with
  | .load st, h =>
    obtain ⟨_, _, rfl, _, _, _, rfl, _, _, _, rfl, _, _, _, rfl, h1, h2⟩ := h
    refine .pure ⟨cIri_w h1, opt_w ?_ h2⟩
    rintro g _ ⟨_, _, rfl, _, _, _, rfl, _, _, _, rfl, _, h⟩
    exact graphRef_w h
  | .clear st, h => obtain ⟨_, _, rfl, _, _, _, rfl, _, _, _, rfl, _, h⟩ := h; exact .pure (graphRefAll_w h)
  | .drop st, h => obtain ⟨_, _, rfl, _, _, _, rfl, _, _, _, rfl, _, h⟩ := h; exact .pure (graphRefAll_w h)
  | .create st, h => obtain ⟨_, _, rfl, _, _, _, rfl, _, _, _, rfl, _, h⟩ := h; exact .pure (graphRef_w h)
  | .copy st, h =>
    obtain ⟨_, _, rfl, _, _, _, rfl, _, _, _, rfl, _, _, _, rfl, h1, _, _, rfl, _, _, _, rfl, _, _, _, rfl, _, h2⟩ := h
    exact .pure ⟨graphOrDefault_w h1, graphOrDefault_w h2⟩
  | .insertData q, h => obtain ⟨_, _, rfl, _, _, _, rfl, _, _, _, rfl, _, _, _, rfl, _, h⟩ := h; exact .pure (quads_w h)
  | .deleteData q, h => obtain ⟨_, _, rfl, _, _, _, rfl, _, _, _, rfl, _, _, _, rfl, _, h⟩ := h; exact .pure (quads_w h)
  | .deleteWhere q, h => obtain ⟨_, _, rfl, _, _, _, rfl, _, _, _, rfl, _, _, _, rfl, _, h⟩ := h; exact .pure (quads_w h)
  | .modify ⟨none, .insert q, l, G⟩, h =>
    obtain ⟨_, _, rfl, _, _, _, rfl, _, _, _, rfl, h1, _, _, rfl, _, _, _, rfl, h2, _, _, rfl, _, _, _, rfl, _, _, _, rfl, _, h3⟩ := h
    refine (Ev.pure (quads_w h1)).and ((Ev.pure (sep1_w (fun d s h => ?_) h2)).and (cGroup_w _ _ h3))
    obtain ⟨_, _, rfl, _, _, _, rfl, _, h⟩ := h
    exact defaultOrNamed_w d _ h

theorem update_w : ∀ {u : Update} {s : Str}, cUpdate cGroup u s → Ev fun W => wUpdate W u
  | .mk _ none none, _, h => .pure (prologue_w h)
  | .mk _ (some _) none, _, h => by
    obtain ⟨_, _, rfl, h1, _, _, rfl, _, h2⟩ := h
    exact (Ev.pure (prologue_w h1)).and (statement_w h2)
  | .mk _ (some _) (some _), _, h => by
    obtain ⟨_, _, rfl, h1, _, _, rfl, _, _, _, rfl, h2, _, _, rfl, _, _, _, rfl, _, _, _, rfl, _, h3⟩ := h
    exact (Ev.pure (prologue_w h1)).and ((statement_w h2).and (update_w h3))
  | .mk _ none (some _), _, h => h.elim

end NomSparql
