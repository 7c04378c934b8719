import Verif.Spec.Print
import Verif.Lemmas.GroupsMono
import Verif.Lemmas.Lists

/-!
# Printed trees are canonical texts
-/

namespace NomSparql

theorem kw_self : ∀ t : Str, kw t t
  | [] => .nil
  | _ :: t => .cons (.inl rfl) (kw_self t)

theorem blank_ws : Ws c!" " := .cons (.char (by decide)) .nil
theorem blank_ws1 : Ws1 c!" " := ⟨blank_ws, by simp⟩

theorem sCat {A B : Lang} {a b : Str} (ha : A a) (hb : B b) : (A ⬝ B) (a ++ b) := ⟨a, b, rfl, ha, hb⟩
theorem sSkip {B : Lang} {b : Str} (hb : B b) : (Ws ⬝ B) b := ⟨[], b, rfl, .nil, hb⟩
theorem sLast {A : Lang} {a : Str} (ha : A a) : (A ⬝ Ws) a := ⟨a, [], by simp, ha, .nil⟩

/-! ## Leaves -/

theorem cVar_p {v : Var} (h : wVar v) : cVar v (pVar v) := ⟨rfl, h⟩
theorem cIriRef_p {x : Str} (h : wIriRef x) : cIriRef x (pIriRef x) := ⟨rfl, h⟩

theorem cIri_p {i : Iri} (h : wIri i) : cIri i (pIri i) := by
  cases i with
  | iri x => exact cIriRef_p h
  | prefixedName n =>
    cases n with
    | pnameNS o => exact h.elim
    | pnameLN o l =>
      cases o with
      | none => exact h.elim
      | some p => exact ⟨rfl, h⟩

theorem free_ord {q c : Char} {s : Str} (h : c ≠ '\\') : free q (c :: s) = (c != q && free q s) := by
  cases s <;> simp [free, h]

theorem free_body {q q' : Char} {s : Str} (h : StrBody q' s) : free q s = true → StrBody q s := by
  induction h with
  | nil => exact fun _ => .nil
  | @ord c s h1 h2 h3 ih =>
    intro hf
    rw [free_ord h2] at hf
    simp at hf
    exact .ord hf.1 h2 (ih hf.2)
  | @esc c s h1 h2 ih => exact fun hf => .esc h1 (ih hf)

theorem body_free {q : Char} {s : Str} (h : StrBody q s) : free q s = true := by
  induction h with
  | nil => rfl
  | @ord c s h1 h2 h3 ih =>
    rw [free_ord h2]
    simp [h1, ih]
  | @esc c s h1 h2 ih => exact ih

theorem string_p {s : Str} (h : GoodString s) : StringText s (pString s) := by
  obtain ⟨hne, q, hq, hb⟩ := h
  unfold pString
  split
  · rename_i hf
    exact ⟨'"', .inr rfl, rfl, free_body hb hf, hne⟩
  · rename_i hf
    rcases hq with rfl | rfl
    · exact ⟨'\'', .inl rfl, rfl, hb, hne⟩
    · exact absurd (body_free hb) hf

theorem opt_p {R : α → Lang} {f : α → Str} {W : α → Prop} (H : ∀ a, W a → R a (f a)) {o : Option α} (h : Opt W o) : rOpt R o (pOpt f o) := by
  cases o with
  | none => rfl
  | some a => exact H a (h a rfl)

theorem rdfLiteral_p {l : RdfLiteral} (h : wRdfLiteral l) : cRdfLiteral l (pRdfLiteral l) := by
  refine sCat (string_p h.1) (opt_p (W := wDescriptor) (fun d hd => ?_) h.2)
  cases d with
  | langTag t => exact ⟨rfl, hd⟩
  | iriRef i => exact sCat (a := c!"^^") rfl (cIri_p hd)

theorem pDigit_ascii {n : Nat} (h : n < 10) : AsciiDigit (pDigit n) ∧ (pDigit n).toNat - 0x30 = n := by
  revert n
  decide

theorem decVal_p (n : Nat) : DecVal (pNat n) n := by
  induction n using Nat.strongRecOn with
  | ind n ih =>
    unfold pNat
    split
    · rename_i h
      have := DecVal.digit (pDigit_ascii h).1
      rwa [(pDigit_ascii h).2] at this
    · rename_i h
      have := DecVal.snoc (ih (n / 10) (by omega)) (pDigit_ascii (n := n % 10) (by omega)).1
      rw [(pDigit_ascii (by omega)).2] at this
      rwa [show 10 * (n / 10) + n % 10 = n by omega] at this

theorem pNat_head (n : Nat) : ∃ c t, pNat n = c :: t ∧ AsciiDigit c := by
  obtain ⟨h1, h2, _⟩ := decVal_imp (decVal_p n)
  obtain ⟨c, t, e⟩ := List.exists_cons_of_ne_nil h1
  exact ⟨c, t, e, h2 c (by simp [e])⟩

theorem int_p (v : Int) : IntText (pInt v) v := by
  unfold pInt
  split
  · exact ⟨['-'], true, _, _, rfl, .minus, decVal_p _, by simp; omega⟩
  · exact ⟨[], false, _, _, rfl, .none, decVal_p _, by simp; omega⟩

/-- The digits after the point. -/
def pFraction (m k : Nat) : Str := (List.range k).reverse.map fun j => pDigit (m / 10 ^ j % 10)

theorem decVal_fraction (m : Nat) : ∀ k, ∀ j, DecVal (pNat (m / 10 ^ (k + j)) ++ ((List.range' j k).reverse.map fun j => pDigit (m / 10 ^ j % 10))) (m / 10 ^ j)
  | 0, j => by simpa using decVal_p _
  | k + 1, j => by
    have ih := decVal_fraction m k (j + 1)
    have hd : m / 10 ^ j % 10 < 10 := by omega
    have := DecVal.snoc ih (pDigit_ascii hd).1
    rw [(pDigit_ascii hd).2, Nat.pow_succ, ← Nat.div_div_eq_div_mul] at this
    rw [show 10 * (m / 10 ^ j / 10) + m / 10 ^ j % 10 = m / 10 ^ j by omega] at this
    rw [show k + 1 + j = k + (j + 1) by omega]
    simpa [List.range'_succ] using this

theorem mant_p (d : Decimal) : MantText (pDecimal d) d := by
  unfold pDecimal
  have h := decVal_fraction d.mantissa d.scale 0
  rw [← List.range_eq_range'] at h
  simp only [Nat.add_zero, Nat.pow_zero, Nat.div_one] at h
  have h' := decVal_imp h
  refine ⟨if d.neg then ['-'] else [], d.neg, _, _, ?_, .inr rfl, h'.1, h'.2.1, rfl, h, by simp⟩
  cases d.neg
  · exact .none
  · exact .minus

theorem digit_ne {c : Char} (h : AsciiDigit c) : c ≠ '.' ∧ c ≠ '+' ∧ c ≠ '-' := by
  refine ⟨?_, ?_, ?_⟩ <;> rintro rfl <;> revert h <;> decide

theorem pDecimal_head (d : Decimal) (s : Str) : (pDecimal d ++ s).head? ≠ some '.' ∧
    (d.neg = false → (pDecimal d ++ s).head? ≠ some '+' ∧ (pDecimal d ++ s).head? ≠ some '-') := by
  obtain ⟨c, t, e, h⟩ := pNat_head (d.mantissa / 10 ^ d.scale)
  have := digit_ne h
  unfold pDecimal
  rw [e]
  cases d.neg <;> simp [this]

theorem number_p {n : NumericLiteral} (h : wNumber n) : cNumericLiteral n (pNumber n) := by
  match n, h with
  | .int v, h => exact ⟨int_p v, h⟩
  | .double d none, h =>
    have := (pDecimal_head d []).1
    rw [List.append_nil] at this
    exact ⟨mant_p d, by simp [pDecimal, pNumber], this⟩
  | .double d (some e), h =>
    have := (pDecimal_head d []).1
    rw [List.append_nil] at this
    exact sCat ⟨mant_p d, this⟩ ⟨⟨'e', _, rfl, .inl rfl, int_p e⟩, h e rfl⟩

theorem unsigned_p {n : NumericLiteral} (h : wUnsigned n) : cUnsigned n (pNumber n) := by
  match n, h with
  | .int v, h =>
    obtain ⟨c, t, e, hc⟩ := pNat_head v.natAbs
    have := digit_ne hc
    have e' : pInt v = pNat v.natAbs := by unfold pInt; rw [if_neg (by have := h.1; omega)]; rfl
    refine ⟨number_p (n := .int v) h.2, ?_⟩
    show (pInt v).head? ≠ _ ∧ (pInt v).head? ≠ _
    rw [e', e]
    simp [this]
  | .double d none, h =>
    have := (pDecimal_head d []).2 h.1
    rw [List.append_nil] at this
    exact ⟨number_p (n := .double d none) h.2, this⟩
  | .double d (some e), h => exact ⟨number_p (n := .double d (some e)) h.2, (pDecimal_head d _).2 h.1⟩

theorem bool_p (b : Bool) : rBoolean b (pBool b) := by cases b <;> exact kw_self _

theorem blank_p {b : BlankNode} (h : wBlank b) : cBlankNode b (pBlank b) := by
  cases b with
  | anon => exact sCat (a := c!"[") rfl (sSkip rfl)
  | label l => exact ⟨rfl, h⟩

theorem nil_p : rNil c!"()" := sCat (a := c!"(") rfl (sSkip rfl)

theorem term_p {t : GraphTerm} (h : wTerm t) : cGraphTerm t (pTerm t) := by
  cases t with
  | iri i => exact cIri_p h
  | rdfLiteral l => exact rdfLiteral_p h
  | numericLiteral n => exact number_p h
  | booleanLiteral b => exact bool_p b
  | blankNode b => exact blank_p h
  | nil => exact nil_p

theorem varOrIri_p {v : VarOrIri} (h : wVarOrIri v) : cVarOrIri v (pVarOrIri v) := by
  cases v with
  | var v => exact cVar_p h
  | iri i => exact cIri_p h

theorem varOrTerm_p {v : VarOrTerm} (h : wVarOrTerm v) : cVarOrTerm v (pVarOrTerm v) := by
  cases v with
  | var v => exact cVar_p h
  | term i => exact term_p h

theorem verb_p {v : Verb} (h : wVerb v) : cVerb v (pVerb v) := by
  cases v with
  | varOrIri v => exact varOrIri_p h
  | a => rfl

theorem value_p {v : DataBlockValue} (h : wValue v) : cDataBlockValue v (pValue v) := by
  cases v with
  | iri i => exact cIri_p h
  | rdfLiteral l => exact rdfLiteral_p h
  | numericLiteral n => exact number_p h
  | booleanLiteral b => exact bool_p b
  | undef => exact kw_self _

/-! ## Lists -/

theorem many_p {R : α → Lang} {f : α → Str} {W : α → Prop} (H : ∀ a, W a → R a (f a)) : ∀ {l : List α}, All W l → Many R l (pMany f l)
  | [], _ => rfl
  | a :: l, h => sCat (H a (h a (by simp))) (many_p H fun b hb => h b (by simp [hb]))

theorem sep0_p {sep : Lang} {t : Str} (hs : sep t) {R : α → Lang} {f : α → Str} {W : α → Prop} (H : ∀ a, W a → R a (f a)) :
    ∀ {l : List α}, All W l → Sep0 sep R l (pSep t f l)
  | [], _ => rfl
  | a :: l, h => sCat (H a (h a (by simp))) (many_p (fun b hb => sCat hs (H b hb)) fun b hb => h b (by simp [hb]))

theorem sep1_p {sep : Lang} {t : Str} (hs : sep t) {R : α → Lang} {f : α → Str} {W : α → Prop} (H : ∀ a, W a → R a (f a)) :
    ∀ {l : List α}, All1 W l → Sep1 sep R l (pSep t f l)
  | [], h => absurd rfl h.1
  | a :: l, h => sCat (H a (h.2 a (by simp))) (many_p (fun b hb => sCat hs (H b hb)) fun b hb => h.2 b (by simp [hb]))

theorem many1_p {R : α → Lang} {f : α → Str} {W : α → Prop} (H : ∀ a, W a → R a (f a)) : ∀ {l : List α}, All1 W l → Many1 R l (pMany f l)
  | [], h => absurd rfl h.1
  | a :: l, h => sCat (H a (h.2 a (by simp))) (many_p H fun b hb => h.2 b (by simp [hb]))

theorem wsList_p {R : α → Lang} {f : α → Str} {W : α → Prop} (H : ∀ a, W a → R a (f a)) {l : List α} (h : All1 W l) : WsList R l (pEach f l) :=
  ⟨h.1, many_p (fun a ha => sCat (H a ha) blank_ws1) h.2⟩

/-! ## Clauses -/

theorem decl_p {d : BaseOrPrefixDecl} (h : wDecl d) : cDecl d (pDecl d) := by
  cases d with
  | base x => exact sCat (a := c!"base") (kw_self _) (sCat blank_ws1 (cIriRef_p h))
  | «prefix» d => exact sCat (a := c!"prefix") (kw_self _) (sCat blank_ws (sCat ⟨rfl, h.1⟩ (sCat (a := c!":") rfl (sCat blank_ws (cIriRef_p h.2)))))

theorem prologue_p {p : Prologue} (h : wPrologue p) : cPrologue p (pPrologue p) := sep0_p blank_ws1 (fun _ => decl_p) h

theorem defaultOrNamed_p {d : DefaultOrNamedIri} (h : wDefaultOrNamed d) : cDefaultOrNamedIri d (pDefaultOrNamed d) := by
  cases d with
  | named i => exact sCat (a := c!"named") (kw_self _) (sCat blank_ws1 (cIri_p h))
  | default i => exact cIri_p h

theorem values_p {l : List DataBlockValue} (h : All wValue l) : cValues l (pSep c!" " pValue l) := sSkip (sLast (sep0_p blank_ws1 (fun _ => value_p) h))

theorem row_p {l : List DataBlockValue} (h : All wValue l) : cRow l (pRow l) := sCat (a := c!"(") rfl (sCat (values_p h) rfl)

theorem dataBlock_p {d : DataBlock} (h : wDataBlock d) : cDataBlock d (pDataBlock d) := by
  cases d with
  | inlineDataOneVar d => exact sCat (cVar_p h.1) (sSkip (sCat (a := c!"{") rfl (sCat (values_p h.2) rfl)))
  | inlineDataFull d =>
    have h1 : paren (Ws ⬝ Sep0 Ws1 cVar d.vars ⬝ Ws) ('(' :: (pSep c!" " pVar d.vars ++ [')'])) :=
      sCat (a := c!"(") rfl (sCat (sSkip (sLast (sep0_p blank_ws1 (fun _ => cVar_p) h.1))) rfl)
    have h2 := sCat h1 (sSkip (sCat (a := c!"{") (A := lit c!"{") rfl (sCat (sSkip (sLast (sep0_p (sep := Ws) .nil (fun _ => row_p) h.2))) (b := c!"}") (B := lit c!"}") rfl)))
    simpa [pDataBlock, cDataBlock] using h2

theorem limit_p {n : Nat} (h : n < 2 ^ 64) : cLimit n (c!"limit " ++ pNat n) := sCat (a := c!"limit") (kw_self _) (sCat blank_ws1 ⟨decVal_p n, h⟩)
theorem offset_p {n : Nat} (h : n < 2 ^ 64) : cOffset n (c!"offset " ++ pNat n) := sCat (a := c!"offset") (kw_self _) (sCat blank_ws1 ⟨decVal_p n, h⟩)

theorem limitOffset_p {l : LimitOffsetClause} (h : wLimitOffset l) : cLimitOffset l (pLimitOffset l) := by
  match l, h with
  | .limitOffset l none, h => have := sLast (limit_p h.1); simpa [pLimitOffset, pOpt, cLimitOffset] using this
  | .offsetLimit o none, h => have := sLast (offset_p h.1); simpa [pLimitOffset, pOpt, cLimitOffset] using this
  | .limitOffset l (some o), h => have := sCat (limit_p h.1) (sCat blank_ws1 (sLast (offset_p (h.2 o rfl)))); simpa [pLimitOffset, pOpt, cLimitOffset] using this
  | .offsetLimit o (some l), h => have := sCat (offset_p h.1) (sCat blank_ws1 (sLast (limit_p (h.2 l rfl)))); simpa [pLimitOffset, pOpt, cLimitOffset] using this

/-! ## Triples templates and quads -/

theorem comma_p : commaL c!"," := sSkip (sLast rfl)
theorem semi_p : cSemis c!";" := sLast (⟨c!";", [], rfl, sSkip rfl, .nil⟩)
theorem dots_p : cDots c!" ." := sCat blank_ws1 (sCat (a := c!".") rfl (sCat (a := []) .nil .nil))

theorem node_p {n : GraphNode} (h : wNode n) : cNode n (pNode n) := by
  cases n with
  | varOrTerm v => exact varOrTerm_p h
  | triplesNode n => exact h.elim

theorem verbList_p {v : VerbList} (h : wVerbList v) : cVerbList v (pVerbList v) := by
  cases v with
  | mk v os => exact sCat (verb_p h.1) (sCat blank_ws1 (sep1_p comma_p (fun _ => node_p) h.2))

theorem propertyList_p {v : PropertyList} (h : wPropertyList v) : cPropertyList v (pPropertyList v) := by
  cases v with
  | mk l => exact ⟨_, [], by simp [pPropertyList], sep1_p semi_p (fun _ => verbList_p) h, .nil⟩

theorem triplesNode_p {n : TriplesNode} (h : wTriplesNode n) : cTriplesNode n (pTriplesNode n) := by
  cases n with
  | collection l => exact sCat (a := c!"(") rfl (sCat (sSkip (sLast (sep1_p blank_ws1 (fun _ => node_p) h))) rfl)
  | blankNodePropertyList p => exact sCat (a := c!"[") rfl (sSkip (sCat (propertyList_p h) (sSkip rfl)))

theorem triples1_p {t : TriplesSameSubject} (h : wTriples1 t) : cTriplesSameSubject t (pTriples1 t) := by
  match t, h with
  | .term v p, h => exact sCat (varOrTerm_p h.1) (sCat blank_ws1 (propertyList_p h.2))
  | .node n none, h => have := triplesNode_p h.1; simpa [pTriples1, pOpt, cTriplesSameSubject] using this
  | .node n (some p), h => exact sCat (triplesNode_p h.1) (sSkip (propertyList_p (h.2 p rfl)))

theorem triples_p {l : List TriplesSameSubject} (h : wTriples l) : cTriples l (pTriples l) := sep1_p dots_p (fun _ => triples1_p) h

theorem block_p {o : Option (List TriplesSameSubject)} (h : Opt wTriples o) : cBlock o (pBlock o) :=
  sCat (a := c!"{") rfl (sSkip (sCat (opt_p (W := wTriples) (fun _ hl => ⟨_, [], by simp, triples_p hl, false, rfl⟩) h) (sSkip rfl)))

theorem graphBlock_p {q : QuadsNotTriples} (h : wGraphBlock q) : cGraphBlock q (pGraphBlock q) :=
  sCat (a := c!"graph") (kw_self _) (sCat blank_ws1 (sCat (varOrIri_p h.1) (sSkip (block_p h.2))))

theorem cDot_p : cDot true c!" ." := sCat blank_ws1 rfl

theorem entries_p : ∀ {l : List QuadsEntry}, All wEntry l → cEntries l (pEntries l)
  | [], _ => rfl
  | [e], h => sCat (graphBlock_p (h e (by simp)).1) ⟨[], _, rfl, ⟨false, rfl⟩,
      opt_p (W := wTriples) (fun _ hl => ⟨_, [], by simp, triples_p hl, false, rfl, by simp⟩) (h e (by simp)).2⟩
  | e :: e' :: l, h => by
    have h1 : cEntry false e _ := sCat (graphBlock_p (h e (by simp)).1) ⟨[], _, rfl, ⟨false, rfl⟩,
      opt_p (f := fun t => pTriples t ++ c!" .") (W := wTriples) (fun _ hl => sCat (triples_p hl) ⟨true, cDot_p, fun _ => rfl⟩) (h e (by simp)).2⟩
    have h2 := sCat h1 (entries_p (l := e' :: l) fun b hb => h b (List.mem_cons_of_mem _ hb))
    simpa [pEntries, cEntries] using h2

theorem quads_p {q : Quads} (h : wQuads q) : cQuads q (pQuads q) :=
  sCat (a := c!"{") rfl (sSkip (sCat (opt_p (W := wTriples) (fun _ hl => sCat (triples_p hl) (sLast ⟨true, cDot_p, fun _ => rfl⟩)) h.1)
    (sCat (entries_p h.2) (sSkip rfl))))

/-! ## Paths and patterns -/

theorem iriOrA_p {x : IriOrAOrCaret} (h : wOneInSet x) : cIriOrAOrCaret x (pOneInSet x) := by
  match x, h with
  | .iriOrA (.iri i), h => exact cIri_p h
  | .iriOrA .a, h => rfl
  | .caret (.iri i), h => exact sCat (a := c!"^") rfl (cIri_p h)
  | .caret .a, h => rfl

theorem bar_p : cBar c!" |" := sCat blank_ws1 (sLast rfl)

theorem mod_p (m : PathMod) : cMod m (pMod m) := by cases m <;> rfl

theorem negated_p {l : List IriOrAOrCaret} (h : All1 wOneInSet l) : cNegated l ('(' :: (pSep c!" |" pOneInSet l ++ [')'])) :=
  sCat (a := c!"(") rfl (sCat (sSkip (sLast (sep1_p bar_p (fun _ => iriOrA_p) h))) rfl)

mutual
theorem primary_p : ∀ {p : PathPrimary}, wPrimary p → CPrimary p (pPrimary p)
  | .iri i, h => by unfold wPrimary at h; unfold pPrimary; exact .iri (cIri_p h)
  | .a, _ => by unfold pPrimary; exact .a
  | .pathNegatedPropertySet l, h => by unfold wPrimary at h; unfold pPrimary; exact .negated (negated_p h)
  | .path p, h => by
    unfold wPrimary at h
    obtain ⟨l, rfl, hl⟩ := alternative_p h
    have : pPrimary (.path (.mk [.mk l])) = '(' :: (pPath l ++ [')']) := by simp [pPrimary, pPathAlternative, pPathSequences, pPathSequence]
    rw [this]
    exact .group hl
theorem elt_p : ∀ {e : PathElt}, wElt e → CElt e (pElt e)
  | .mk p none, h => by unfold wElt at h; unfold pElt; exact .plain (primary_p h)
  | .mk p (some m), h => by unfold wElt at h; unfold pElt; exact .mod (w := c!" ") (primary_p h) blank_ws1 (mod_p m)
theorem eltOrInverse_p : ∀ {e : PathEltOrInverse}, wEltOrInverse e → CEltOrInverse e (pEltOrInverse e)
  | .pathElt e, h => by unfold wEltOrInverse at h; unfold pEltOrInverse; exact .elt (elt_p h)
  | .inverse e, h => by unfold wEltOrInverse at h; unfold pEltOrInverse; exact .inverse (elt_p h)
theorem path_p : ∀ {l : List PathEltOrInverse}, wPath l → CPath l (pPath l)
  | [], h => by unfold wPath at h; exact h.elim
  | [e], h => by unfold wPath at h; unfold pPath; exact .one (eltOrInverse_p h)
  | e :: e' :: l, h => by unfold wPath at h; unfold pPath; exact .cons (eltOrInverse_p h.1) bar_p (path_p h.2)
theorem sequence_p : ∀ {q : PathSequence}, wPathSequence q → ∃ l, q = .mk l ∧ CPath l (pPath l)
  | .mk l, h => by unfold wPathSequence at h; exact ⟨l, rfl, path_p h⟩
theorem sequences_p : ∀ {l : List PathSequence}, wPathSequences l → ∃ m, l = [.mk m] ∧ CPath m (pPath m)
  | [], h => by unfold wPathSequences at h; exact h.elim
  | [q], h => by
    unfold wPathSequences at h
    obtain ⟨l, rfl, hl⟩ := sequence_p h
    exact ⟨l, rfl, hl⟩
  | _ :: _ :: _, h => by unfold wPathSequences at h; exact h.elim
theorem alternative_p : ∀ {p : PathAlternative}, wPathAlternative p → ∃ l, p = .mk [.mk l] ∧ CPath l (pPath l)
  | .mk l, h => by
    unfold wPathAlternative at h
    obtain ⟨m, rfl, hm⟩ := sequences_p h
    exact ⟨m, rfl, hm⟩
end

theorem pAlternative (l : List PathEltOrInverse) : pPathAlternative (.mk [.mk l]) = pPath l := by
  simp [pPathAlternative, pPathSequences, pPathSequence]

theorem nodes_p : ∀ {l : List GraphNode}, All wNode l → ∃ m : List VarOrTerm, l = m.map .varOrTerm ∧ All wVarOrTerm m
  | [], _ => ⟨[], rfl, by simp [All]⟩
  | .varOrTerm v :: l, h => by
    obtain ⟨m, rfl, hm⟩ := nodes_p (l := l) fun b hb => h b (by simp [hb])
    refine ⟨v :: m, rfl, ?_⟩
    intro b hb
    rcases List.mem_cons.1 hb with rfl | hb
    · exact h (.varOrTerm b) (by simp)
    · exact hm b hb
  | .triplesNode n :: l, h => (h (.triplesNode n) (by simp)).elim

theorem pMany_map {f : α → Str} {g : β → α} : ∀ l : List β, pMany f (l.map g) = pMany (fun b => f (g b)) l
  | [] => rfl
  | b :: l => by show _ ++ _ = _ ++ _; rw [pMany_map l]

theorem pSep_map {t : Str} {f : α → Str} {g : β → α} : ∀ l : List β, pSep t f (l.map g) = pSep t (fun b => f (g b)) l
  | [] => rfl
  | b :: l => by show _ ++ _ = _ ++ _; rw [pMany_map l]

theorem further_p {e : PropertyListPathEntry} (h : wFurther e) : ∃ m : PathObjects, e = m.ast ∧ (cSemis ⬝ cPathObjects m) (pFurther e) := by
  obtain ⟨v, os⟩ := e
  cases v with
  | simple v => exact h.elim
  | path p =>
    obtain ⟨h1, h2, ⟨h3, h3'⟩, h4⟩ := h
    obtain ⟨l, rfl, hl⟩ := alternative_p h1
    obtain ⟨m, rfl, hm⟩ := nodes_p h3'
    refine ⟨⟨l, m⟩, rfl, ?_⟩
    refine sCat (a := c!";") semi_p ⟨h2, ?_⟩
    show (CPath l ⬝ _) (pPathAlternative (.mk [.mk l]) ++ _)
    rw [pAlternative]
    refine sCat hl (sCat blank_ws1 ⟨?_, h4⟩)
    show Sep1 commaL cVarOrTerm m (pSep c!"," pNode (m.map .varOrTerm))
    rw [pSep_map]
    exact sep1_p comma_p (W := wVarOrTerm) (fun _ => varOrTerm_p) ⟨by simpa using h3, hm⟩

theorem furthers_p : ∀ {l : List PropertyListPathEntry}, All wFurther l → ∃ m : List PathObjects, l = m.map PathObjects.ast ∧ Many (fun m => cSemis ⬝ cPathObjects m) m (pMany pFurther l)
  | [], _ => ⟨[], rfl, rfl⟩
  | e :: l, h => by
    obtain ⟨m, rfl, hm⟩ := further_p (h e (by simp))
    obtain ⟨n, rfl, hn⟩ := furthers_p (l := l) fun b hb => h b (by simp [hb])
    exact ⟨m :: n, rfl, sCat hm hn⟩

theorem pattern_p {t : TriplesSameSubjectPath} (h : wPattern t) : ∃ p : Pattern, t = p.ast ∧ cPattern p (pPattern t) := by
  match t, h with
  | .term s (.mk (.simple v) [.varOrTerm o] l), h =>
    obtain ⟨h1, h2, h3, h4⟩ := h
    obtain ⟨m, rfl, hm⟩ := furthers_p h4
    refine ⟨⟨s, .simple v, o, m⟩, rfl, ?_⟩
    have := sCat (varOrTerm_p h1) (sCat blank_ws1 (sCat (CPredObj.var (sCat (cVar_p h2) (sCat blank_ws1 (varOrTerm_p h3)))) hm))
    simpa [cPattern, pPattern, pPredicate, pMany, pNodePath] using this
  | .term s (.mk (.path p) [.varOrTerm o] l), h =>
    obtain ⟨h1, h2, h3, h3', h4⟩ := h
    obtain ⟨m, rfl, hm⟩ := furthers_p h4
    obtain ⟨q, rfl, hl⟩ := alternative_p h2
    refine ⟨⟨s, .path _, o, m⟩, rfl, ?_⟩
    have := sCat (varOrTerm_p h1) (sCat blank_ws1 (sCat (CPredObj.path (sCat hl (sCat blank_ws1 ⟨varOrTerm_p h3, h3'⟩))) hm))
    simpa [cPattern, pPattern, pPredicate, pMany, pNodePath, pAlternative] using this

theorem patternsMany_p {sep : Lang} {t : Str} (hs : sep t) : ∀ {l : List TriplesSameSubjectPath}, All wPattern l →
    ∃ m : List Pattern, l = m.map Pattern.ast ∧ Many (fun p => sep ⬝ cPattern p) m (pMany (fun p => t ++ pPattern p) l)
  | [], _ => ⟨[], rfl, rfl⟩
  | e :: l, h => by
    obtain ⟨m, rfl, hm⟩ := pattern_p (h e (by simp))
    obtain ⟨n, rfl, hn⟩ := patternsMany_p hs (l := l) fun b hb => h b (by simp [hb])
    exact ⟨m :: n, rfl, sCat (sCat hs hm) hn⟩

theorem patterns_p {l : List TriplesSameSubjectPath} (h : wPatterns l) : ∃ m : List Pattern, l = m.map Pattern.ast ∧ cPatterns m (pPatterns l) := by
  match l, h with
  | [], h => exact absurd rfl h.1
  | e :: l, h =>
    obtain ⟨m, rfl, hm⟩ := pattern_p (h.2 e (by simp))
    obtain ⟨n, rfl, hn⟩ := patternsMany_p dots_p (l := l) fun b hb => h.2 b (by simp [hb])
    exact ⟨m :: n, rfl, sCat hm hn⟩

/-! ## Expressions -/

/-- The texts of expressions and groups inside are canonical. -/
structure PrintOk (S : Printer) (W : Printable) : Prop where
  expr : ∀ e, W.expr e → CExpr cGroup (kExpr e) e (S.expr e)
  group : ∀ g, W.group g → cGroup g (S.group g)

section
variable {S : Printer} {W : Printable} (H : PrintOk S W)
include H

theorem last_p {e : Expression} (h : wLast W e) : CExpr cGroup true e (S.expr e) := by
  have := H.expr e h.1
  rwa [h.2] at this

theorem call1_p {t : Str} {f : Expression → BuiltInCall} {e : Expression} (hm : (t, f) ∈ calls1) (h : wLast W e) :
    CCall cGroup (f e) (pCall1 S t e) :=
  .one (w := []) (w' := []) hm (kw_self _) .nil (last_p H h) .nil rfl

omit H in
theorem comma_p' : cComma c!"," := sSkip (sLast rfl)

theorem call2_p {t : Str} {f : Expression → Expression → BuiltInCall} {e e' : Expression} (hm : (t, f) ∈ calls2) (h : W.expr e ∧ wLast W e') :
    CCall cGroup (f e e') (pCall2 S t e e') :=
  .two (w := []) (w' := []) (m := c!",") hm (kw_self _) .nil (H.expr e h.1) comma_p' (last_p H h.2) .nil rfl

omit H in
theorem distinct_p (d : Bool) : rDistinct d (pDistinct d) := by
  cases d
  · rfl
  · exact sCat (a := c!"distinct") (kw_self _) blank_ws1

theorem aggregate1_p {t : Str} {f : DistinctExpression → Aggregate} {d : Bool} {e : Expression} (hm : (t, f) ∈ aggregates) (h : wLast W e) :
    CCall cGroup (.aggregate (f (.mk d e))) (t ++ '(' :: (pDistinct d ++ (S.expr e ++ [')']))) :=
  .aggregate (w := []) (w' := []) hm (kw_self _) .nil (distinct_p d) (last_p H h) .nil rfl

theorem aggregate_p {a : Aggregate} (h : wAggregate W a) : CCall cGroup (.aggregate a) (pAggregate S a) := by
  match a, h with
  | .sum (.mk d e), h => exact aggregate1_p H (t := c!"sum") (by simp [aggregates]) h
  | .min (.mk d e), h => exact aggregate1_p H (t := c!"min") (by simp [aggregates]) h
  | .max (.mk d e), h => exact aggregate1_p H (t := c!"max") (by simp [aggregates]) h
  | .avg (.mk d e), h => exact aggregate1_p H (t := c!"avg") (by simp [aggregates]) h
  | .sample (.mk d e), h => exact aggregate1_p H (t := c!"sample") (by simp [aggregates]) h
  | .count (.mk d (.expr e)), h => exact .count (k := c!"count") (w := []) (w' := []) (kw_self _) .nil (distinct_p d) (last_p H h) .nil
  | .count (.mk d .all), h => exact .countAll (k := c!"count") (w := []) (kw_self _) .nil (distinct_p d)
  | .groupConcat (.mk (.mk d e) none), h =>
    exact .concat (k := c!"group_concat") (w := []) (w' := []) (kw_self _) .nil (distinct_p d) (last_p H h) .nil
  | .groupConcat (.mk (.mk d e) (some s)), h =>
    have hz : cSeparator s (c!" ; separator = " ++ pString s) :=
      sCat (a := c!" ") blank_ws (sCat (a := c!";") rfl (sCat (a := c!" ") blank_ws (sCat (a := c!"separator") (kw_self _)
        (sCat (a := c!" ") blank_ws (sCat (a := c!"=") rfl (sCat (a := c!" ") blank_ws (string_p h.2)))))))
    exact .concatSep (k := c!"group_concat") (w := []) (kw_self _) .nil (distinct_p d) (H.expr e h.1) hz

theorem call_p {b : BuiltInCall} (h : wCall W b) : CCall cGroup b (pCall S b) := by
  match b, h with
  | .aggregate a, h => exact aggregate_p H h
  | .str e, h => exact call1_p H (f := .str) (by simp [calls1]) h
  | .lang e, h => exact call1_p H (f := .lang) (by simp [calls1]) h
  | .datatype e, h => exact call1_p H (f := .datatype) (by simp [calls1]) h
  | .iri e, h => exact call1_p H (f := .iri) (by simp [calls1]) h
  | .uri e, h => exact call1_p H (f := .uri) (by simp [calls1]) h
  | .uCase e, h => exact call1_p H (f := .uCase) (by simp [calls1]) h
  | .lCase e, h => exact call1_p H (f := .lCase) (by simp [calls1]) h
  | .encodeForUri e, h => exact call1_p H (f := .encodeForUri) (by simp [calls1]) h
  | .year e, h => exact call1_p H (f := .year) (by simp [calls1]) h
  | .month e, h => exact call1_p H (f := .month) (by simp [calls1]) h
  | .day e, h => exact call1_p H (f := .day) (by simp [calls1]) h
  | .hours e, h => exact call1_p H (f := .hours) (by simp [calls1]) h
  | .minutes e, h => exact call1_p H (f := .minutes) (by simp [calls1]) h
  | .seconds e, h => exact call1_p H (f := .seconds) (by simp [calls1]) h
  | .timezone e, h => exact call1_p H (f := .timezone) (by simp [calls1]) h
  | .tz e, h => exact call1_p H (f := .tz) (by simp [calls1]) h
  | .md5 e, h => exact call1_p H (f := .md5) (by simp [calls1]) h
  | .sha1 e, h => exact call1_p H (f := .sha1) (by simp [calls1]) h
  | .sha256 e, h => exact call1_p H (f := .sha256) (by simp [calls1]) h
  | .sha384 e, h => exact call1_p H (f := .sha384) (by simp [calls1]) h
  | .sha512 e, h => exact call1_p H (f := .sha512) (by simp [calls1]) h
  | .isIri e, h => exact call1_p H (f := .isIri) (by simp [calls1]) h
  | .isUri e, h => exact call1_p H (f := .isUri) (by simp [calls1]) h
  | .isBlank e, h => exact call1_p H (f := .isBlank) (by simp [calls1]) h
  | .isLiteral e, h => exact call1_p H (f := .isLiteral) (by simp [calls1]) h
  | .isNumeric e, h => exact call1_p H (f := .isNumeric) (by simp [calls1]) h
  | .bnode (some e), h => exact call1_p H (f := fun e => .bnode (some e)) (by simp [calls1]) h
  | .langMatches e e', h => exact call2_p H (f := .langMatches) (by simp [calls2]) h
  | .strStarts e e', h => exact call2_p H (f := .strStarts) (by simp [calls2]) h
  | .strEnds e e', h => exact call2_p H (f := .strEnds) (by simp [calls2]) h
  | .strBefore e e', h => exact call2_p H (f := .strBefore) (by simp [calls2]) h
  | .strAfter e e', h => exact call2_p H (f := .strAfter) (by simp [calls2]) h
  | .strLang e e', h => exact call2_p H (f := .strLang) (by simp [calls2]) h
  | .strDt e e', h => exact call2_p H (f := .strDt) (by simp [calls2]) h
  | .sameTerm e e', h => exact call2_p H (f := .sameTerm) (by simp [calls2]) h
  | .bound v, h => exact .bound (k := c!"bound") (w := []) (kw_self _) .nil (cVar_p h)
  | .if e e' e'', h =>
    exact .if (k := c!"if") (w := []) (m := c!",") (m' := c!",") (w' := []) (kw_self _) .nil (H.expr e h.1) comma_p' (H.expr e' h.2.1) comma_p'
      (last_p H h.2.2) .nil
  | .regex (.mk e e' none), h =>
    exact .regex (k := c!"regex") (w := c!" ") (m := c!",") (w' := []) (kw_self _) blank_ws1 (H.expr e h.1) comma_p' (last_p H h.2) .nil
  | .regex (.mk e e' (some e'')), h =>
    exact .regexFlags (k := c!"regex") (w := c!" ") (m := c!",") (m' := c!",") (w' := []) (kw_self _) blank_ws1 (H.expr e h.1) comma_p'
      (H.expr e' h.2.1) comma_p' (last_p H h.2.2) .nil
  | .existsFunc g, h => exact .exists (k := c!"exists") (w := c!" ") (kw_self _) blank_ws1 (H.group g h)
  | .notExistsFunc g, h =>
    exact .notExists (k := c!"not") (w := c!" ") (k' := c!"exists") (w' := c!" ") (kw_self _) blank_ws1 (kw_self _) blank_ws1 (H.group g h)

omit H in
theorem operandIri_p {i : Iri} (h : wOperandIri i) : cOperandIri i (pIri i) := ⟨cIri_p h.1, h.2⟩

theorem prim_p {p : PrimaryExpression} (h : wPrim W p) : CPrim cGroup p (pPrim S p) := by
  match p, h with
  | .brackettedExpression e, h => exact .bracket (w := []) (w' := []) .nil (H.expr e h) .nil
  | .builtInCall b, h => exact .call (call_p H h)
  | .iriOrFunction (.mk i none), h => exact .iri (operandIri_p h)
  | .iriOrFunction (.mk i (some .nil)), h => exact .function (w := c!" ") (n := c!"()") (operandIri_p h) blank_ws1 nil_p
  | .rdfLiteral l, h => exact .rdfLiteral (rdfLiteral_p h)
  | .numericLiteral n, h => exact .numericLiteral (unsigned_p h)
  | .booleanLiteral b, h => exact .booleanLiteral (bool_p b)
  | .var v, h => exact .var (cVar_p h)

theorem unary_p {u : UnaryExpression} (h : wUnary W u) : CUnary cGroup u (pUnary S u) := by
  cases u with
  | default p => exact .plain (prim_p H h)
  | not p => exact .not (w := []) .nil (prim_p H h)
  | add p => exact .plus (w := []) .nil (prim_p H h)
  | sub p => exact .minus (w := []) .nil (prim_p H h)

theorem factors_p : ∀ {l : List MultExpression}, All (wFactor W) l → CFactors cGroup l (pMany (pFactor S) l)
  | [], _ => .nil
  | .mult u :: l, h => by
    have := CFactors.times (w := []) (w' := c!" ") .nil (unary_p H (h (.mult u) (by simp))) blank_ws1 (factors_p (l := l) fun b hb => h b (by simp [hb]))
    simpa [pMany, pFactor] using this
  | .div u :: l, h => by
    have := CFactors.over (w := []) (w' := c!" ") .nil (unary_p H (h (.div u) (by simp))) blank_ws1 (factors_p (l := l) fun b hb => h b (by simp [hb]))
    simpa [pMany, pFactor] using this

theorem product_p {m : MultiplicativeExpression} (h : wProduct W m) : CProduct cGroup m (pMult S m) := by
  cases m with
  | mk u l => exact .mk (w := []) (unary_p H h.1) .nil h.2.1 (factors_p H h.2.2)

theorem mult_p {m : MultiplicativeExpression} (h : wMult W m) : CMult cGroup m (pMult S m) := by
  match m, h with
  | .mk u [], h => have := CMult.one (unary_p H h.1); simpa [pMult, pMany] using this
  | .mk u (f :: l), h => exact .product (product_p H ⟨h.1, by simp, h.2⟩)

theorem summands_p : ∀ {l : List AddExpression}, All (wSummand W) l → CSummands cGroup l (pMany (pSummand S) l)
  | [], _ => .nil
  | .add m :: l, h => .plus (w := []) .nil (product_p H (h (.add m) (by simp))) (summands_p (l := l) fun b hb => h b (by simp [hb]))
  | .sub m :: l, h => .minus (w := []) .nil (product_p H (h (.sub m) (by simp))) (summands_p (l := l) fun b hb => h b (by simp [hb]))
  | .numeric n o :: l, h => (h (.numeric n o) (by simp)).elim

theorem add_p {a : AdditiveExpression} (h : wAdd W a) : CAdd cGroup (kAdd a) a (pAdd S a) := by
  match a, h with
  | .mk m [], h => exact .one (mult_p H h.1)
  | .mk m (x :: l), h => exact .sum (w := c!" ") (mult_p H h.1) blank_ws1 (by simp) (summands_p H h.2)

theorem op_p {o : OpExpression} (h : wOp W o) : ∃ sign, COp cGroup (kOp o) sign o (pOp S o) := by
  match o, h with
  | .eq a, h => exact ⟨_, .eq (w := []) .nil (add_p H h)⟩
  | .ne a, h => exact ⟨_, .ne (w := []) .nil (add_p H h)⟩
  | .lt a, h => exact ⟨_, .lt (w := c!" ") blank_ws (add_p H h)⟩
  | .gt a, h => exact ⟨_, .gt (w := c!" ") blank_ws (add_p H h)⟩
  | .le a, h => exact ⟨_, .le (w := []) .nil (add_p H h)⟩
  | .ge a, h => exact ⟨_, .ge (w := []) .nil (add_p H h)⟩
  | .in .nil, h => exact ⟨_, .in (k := c!"in") (w := c!" ") (n := c!"()") (kw_self _) blank_ws nil_p⟩
  | .nin .nil, h =>
    exact ⟨_, .notIn (k := c!"not") (w := c!" ") (k' := c!"in") (w' := c!" ") (n := c!"()") (kw_self _) blank_ws1 (kw_self _) blank_ws1 nil_p⟩

theorem rel_p {r : RelationalExpression} (h : wRel W r) : CRel cGroup (kRel r) r (pRel S r) := by
  match r, h with
  | .mk a none, h => exact .one (add_p H h.1)
  | .mk a (some o), h =>
    obtain ⟨sign, ho⟩ := op_p H (h.2 o rfl)
    exact .op (w := c!" ") (add_p H h.1) blank_ws (by simp) ho

theorem and_p : ∀ {l : List RelationalExpression}, All1 (wRel W) l → CAnd cGroup (kAnd l) l (pAnd S l)
  | [], h => absurd rfl h.1
  | [r], h => .one (rel_p H (h.2 r (by simp)))
  | r :: r' :: l, h =>
    .and (w := c!" ") (w' := c!" ") (rel_p H (h.2 r (by simp))) blank_ws blank_ws
      (and_p (l := r' :: l) ⟨by simp, fun b hb => h.2 b (List.mem_cons_of_mem _ hb)⟩)

theorem or_p : ∀ {l : List ConditionalAndExpression}, All1 (wAnd W) l → COr cGroup (kOr l) l (pOr S l)
  | [], h => absurd rfl h.1
  | [.mk l], h => .one (and_p H (h.2 (.mk l) (by simp)))
  | .mk l :: c :: m, h =>
    .or (w := c!" ") (w' := c!" ") (and_p H (h.2 (.mk l) (by simp))) blank_ws blank_ws
      (or_p (l := c :: m) ⟨by simp, fun b hb => h.2 b (List.mem_cons_of_mem _ hb)⟩)

theorem expression_p {e : Expression} (h : wExpression W e) : CExpr cGroup (kExpr e) e (pExpression S e) := by
  cases e with
  | mk l => exact .mk (or_p H h)

/-! ## Groups -/

theorem bracket_p {e : Expression} (h : W.expr e) : CBracket cGroup e (pBracket S e) := .mk (w := []) (w' := []) .nil (H.expr e h) .nil

theorem asVar_p {x : ExpressionAsVar} (h : wAsVar W x) : CAsVar cGroup x (pAsVar S x) := by
  cases x with
  | mk e v => exact .mk (w := []) (w1 := c!" ") (k := c!"as") (w2 := c!" ") (w' := []) .nil (H.expr e h.1) blank_ws1 (kw_self _) blank_ws (cVar_p h.2) .nil

theorem constraint_p {c : Constraint} (h : wConstraint W c) : CConstraint cGroup c (pConstraint S c) := by
  match c, h with
  | .bracketted e, h => exact .bracket (bracket_p H h)
  | .builtInCall b, h => exact .call (call_p H h)
  | .functionCall (.mk i .nil), h => exact .function (w := []) (n := c!"()") (operandIri_p h) .nil nil_p

theorem orderCond_p {c : OrderCondition} (h : wOrderCond W c) : COrderCond cGroup c (pOrderCond S c) := by
  match c, h with
  | .order (.mk o e), h => exact .order (w := c!" ") (by cases o <;> exact kw_self _) blank_ws1 (bracket_p H h)
  | .constraint c, h => exact .constraint (constraint_p H h)
  | .var v, h => exact .var (cVar_p h)

theorem groupCond_p {c : GroupCondition} (h : wGroupCond W c) : CGroupCond cGroup c (pGroupCond S c) := by
  match c, h with
  | .builtInCall b, h => exact .call (call_p H h)
  | .functionCall (.mk i .nil), h => exact .function (w := []) (n := c!"()") (operandIri_p h) .nil nil_p
  | .expressionAsVarOpt (.mk e none), h => exact .bracket (bracket_p H h)
  | .expressionAsVarOpt (.mk e (some v)), h =>
    have he := H.expr e h.1
    rw [h.2.1] at he
    exact .asVar (w := []) (w1 := c!" ") (k := c!"as") (w2 := c!" ") (w' := []) .nil he blank_ws1 (kw_self _) blank_ws1 (cVar_p h.2.2) .nil
  | .var v, h => exact .var (cVar_p h)

theorem modifier_p {m : SolutionModifier} (h : wModifier W m) : cModifier cGroup m (pModifier S m) := by
  cases m with
  | mk o g hv l =>
    refine sCat (opt_p (W := wGroupClause W) ?_ h.2.1) (sCat (opt_p (W := wHavingClause W) ?_ h.2.2.1) (sCat (opt_p (W := wOrderClause W) ?_ h.1)
      (opt_p (fun _ => limitOffset_p) h.2.2.2)))
    · rintro ⟨l⟩ hl
      exact sCat (a := c!"group") (kw_self _) (sCat (a := c!" ") blank_ws1 (sCat (a := c!"by") (kw_self _) (sCat (a := c!" ") blank_ws1
        (wsList_p (fun _ => groupCond_p H) hl))))
    · rintro ⟨l⟩ hl
      exact sCat (a := c!"having") (kw_self _) (sCat (a := c!" ") blank_ws1 (wsList_p (fun _ => constraint_p H) hl))
    · rintro ⟨l⟩ hl
      exact sCat (a := c!"order") (kw_self _) (sCat (a := c!" ") blank_ws1 (sCat (a := c!"by") (kw_self _) (sCat (a := c!" ") blank_ws1
        (wsList_p (fun _ => orderCond_p H) hl))))

theorem proj_p {x : VarOrExpressionAsVar} (h : wProj W x) : CProj cGroup x (pProj S x) := by
  cases x with
  | var v => exact .var (cVar_p h)
  | expressionAsVar x => exact .expr (asVar_p H h)

theorem selectVars_p {x : SelectVars} (h : wSelectVars W x) : cSelectVars cGroup x (pSelectVars S x) := by
  cases x with
  | all => rfl
  | varOrExpressionAsVar l => exact many1_p (fun _ => proj_p H) h

theorem selectClause_p {c : SelectClause} (h : wSelectClause W c) : cSelectClause cGroup c (pSelectClause S c) := by
  cases c with
  | mk m v =>
    refine sCat (a := c!"select") (kw_self _) (sCat (opt_p (W := fun _ => True) (fun m _ => ?_) fun _ _ => trivial) (sCat blank_ws1 (selectVars_p H h)))
    cases m <;> exact sCat (a := c!" ") blank_ws1 (kw_self _)

theorem where_p {g : GroupGraphPattern} (h : W.group g) : cWhere cGroup g (c!"where " ++ S.group g) :=
  sCat (a := c!"where ") (.inr (sCat (a := c!"where") (kw_self _) blank_ws1)) (H.group g h)

theorem subSelect_p {q : SubSelect} (h : wSubSelect W q) : cSubSelect cGroup q (pSubSelect S q) := by
  cases q with
  | mk c g m v =>
    exact sCat (selectClause_p H h.1) (sCat blank_ws1 (sCat (where_p H h.2.1) (sCat blank_ws (sCat (modifier_p H h.2.2.1)
      (opt_p (W := wDataBlock) (fun d hd => sCat (a := c!"values") (kw_self _) (sCat (a := c!" ") blank_ws1 (sLast (dataBlock_p hd)))) h.2.2.2)))))

omit H in
theorem union_p : cUnion c!" union " := sCat (a := c!" ") blank_ws1 (sCat (a := c!"union") (kw_self _) blank_ws1)

theorem item_p {x : GraphPatternNotTriples} (h : wItem W x) : CItem cGroup x (pItem S x) := by
  match x, h with
  | .groupOrUnion l, h => exact .union (sep1_p union_p H.group h)
  | .optional g, h => exact .optional (k := c!"optional") (w := c!" ") (kw_self _) blank_ws1 (H.group g h)
  | .minus g, h => exact .minus (k := c!"minus") (w := c!" ") (kw_self _) blank_ws1 (H.group g h)
  | .graph (.mk v g), h => exact .graph (k := c!"graph") (w := c!" ") (w' := []) (kw_self _) blank_ws1 (varOrIri_p h.1) .nil (H.group g h.2)
  | .service (.mk v b g), h =>
    refine .service (k := c!"service") (w := c!" ") (w' := []) (kw_self _) blank_ws1 ?_ (varOrIri_p h.1) .nil (H.group g h.2)
    cases b
    · rfl
    · exact sCat (a := c!"silent") (kw_self _) blank_ws1
  | .filter c, h => exact .filter (k := c!"filter") (w := c!" ") (kw_self _) blank_ws1 (constraint_p H h)
  | .bind x, h => exact .bind (k := c!"bind") (w := c!" ") (kw_self _) blank_ws1 (asVar_p H h)
  | .inlineData d, h => exact .inlineData (k := c!"values") (w := c!" ") (kw_self _) blank_ws1 (dataBlock_p h)

theorem groupEntry_p {x : GraphPatternAndTriples} (h : wGroupEntry W x) : CEntry cGroup x (pEntry S x) := by
  match x, h with
  | .mk g none, h => exact .plain (item_p H h.1)
  | .mk g (some ⟨l⟩), h =>
    obtain ⟨h1, h2⟩ := h.2 ⟨l⟩ rfl
    obtain ⟨m, rfl, hm⟩ := patterns_p h1
    exact .triples (w := c!" ") (item_p H h.1) blank_ws hm h2

theorem group_p {g : GroupGraphPattern} (h : wGroup W g) : cGroup g (pGroup S g) := by
  apply cGroup_intro
  match g, h with
  | .groupGraphPatternSub (.mk none []), h => exact .empty (w := []) .nil
  | .groupGraphPatternSub (.mk (some ⟨l⟩) []), h =>
    obtain ⟨m, rfl, hm⟩ := patterns_p (h.1 ⟨l⟩ rfl)
    exact .patterns (w := []) (w' := []) .nil hm .nil
  | .groupGraphPatternSub (.mk none (x :: l)), h => exact .items (w := []) .nil (wsList_p (fun _ => groupEntry_p H) ⟨by simp, h.2⟩)
  | .groupGraphPatternSub (.mk (some ⟨l⟩) (x :: n)), h =>
    obtain ⟨m, rfl, hm⟩ := patterns_p (h.1 ⟨l⟩ rfl)
    exact .both (w := []) (w' := c!" ") .nil hm blank_ws1 (wsList_p (fun _ => groupEntry_p H) ⟨by simp, h.2⟩)
  | .subSelect q, h => exact .select (w := []) .nil (subSelect_p H h)

/-! ## Queries and updates -/

omit H in
theorem dataSets_p {l : List DataSetClause} (h : All wDefaultOrNamed l) : cDataSets l (pDataSets l) := by
  refine many_p (W := wDefaultOrNamed) (fun d hd => ?_) h
  have := sCat (B := Ws1) (sCat (a := c!"from") (kw_self _) (sCat blank_ws1 (defaultOrNamed_p hd))) blank_ws1
  simpa [cDataSetClause] using this

theorem query_p {q : SparqlQuery} (h : wQuery W q) : cQuery cGroup q (pQuery S q) := by
  match q, h with
  | .select q, h =>
    have := sCat (selectClause_p H h.1) (sCat blank_ws1 (sCat (dataSets_p h.2.1) (sCat (where_p H h.2.2.1) (sSkip (modifier_p H h.2.2.2)))))
    simpa [cQuery, cSelectQuery, pQuery] using this
  | .ask q, h =>
    have := sCat (A := kw c!"ask") (a := c!"ask") (kw_self _) (sCat (a := c!" ") blank_ws1 (sCat (dataSets_p h.1) (sCat (where_p H h.2.1) (sSkip (modifier_p H h.2.2)))))
    simpa [cQuery, cAskQuery, pQuery] using this
  | .describe q, h =>
    refine sCat (a := c!"describe") (kw_self _) (sCat (a := c!" ") blank_ws1 (sCat ?_ (sCat (dataSets_p h.2.1)
      (sCat (opt_p (W := W.group) (fun g hg => sLast (where_p H hg)) h.2.2.1) (modifier_p H h.2.2.2)))))
    obtain ⟨_, t, _, _⟩ := q
    cases t with
    | varIri l => exact wsList_p (fun _ => varOrIri_p) h.1
    | all => exact sCat (a := c!"*") rfl blank_ws1
  | .construct (.subConstruct q), h =>
    obtain ⟨t, d, g, m⟩ := q
    have ht : cConstructTemplate t ('{' :: (pTriples t ++ ['}'])) := by
      refine sCat (a := c!"{") rfl (sSkip (sCat ?_ (sSkip rfl)))
      cases t with
      | nil => exact .inl ⟨rfl, rfl⟩
      | cons x t => exact .inr (triples_p ⟨by simp, h.1⟩)
    have := sCat (A := kw c!"construct") (a := c!"construct") (kw_self _) (sCat (a := c!" ") blank_ws1 (sCat ht (sCat (a := c!" ") blank_ws1
      (sCat (dataSets_p h.2.1) (sCat (where_p H h.2.2.1) (sSkip (modifier_p H h.2.2.2)))))))
    simpa [cQuery, cConstructQuery, pQuery, pTriples] using this
  | .construct (.subTriples q), h =>
    exact sCat (a := c!"construct") (kw_self _) (sCat (a := c!" ") blank_ws1 (sCat (dataSets_p h.1) (sCat (a := c!"where") (kw_self _)
      (sCat (a := c!" ") blank_ws1 (sCat (block_p h.2.1) (sSkip (modifier_p H h.2.2)))))))

theorem queryStmt_p {q : SparqlQueryStatement} (h : wQueryStmt W q) : cQueryStmt q (pQueryStmt S q) :=
  ⟨h.2.2, sCat (prologue_p h.1) (sCat blank_ws (query_p H h.2.1))⟩

omit H in
theorem silent_p (b : Bool) : cSilent b (pSilent b) := by
  cases b
  · rfl
  · exact sCat (a := c!"silent") (kw_self _) blank_ws1

omit H in
theorem graphRef_p {i : Iri} (h : wIri i) : cGraphRef i (c!"graph " ++ pIri i) := sCat (a := c!"graph") (kw_self _) (sCat blank_ws1 (cIri_p h))

omit H in
theorem graphOrDefault_p {g : GraphOrDefault} (h : wGraphOrDefault g) : cGraphOrDefault g (pGraphOrDefault g) := by
  cases g with
  | default => exact kw_self _
  | graph i => exact .inl (graphRef_p h)

omit H in
theorem graphRefAll_p {g : GraphRefAll} (h : wGraphRefAll g) : cGraphRefAll g (pGraphRefAll g) := by
  cases g with
  | graphRef i => exact graphRef_p h
  | _ => exact kw_self _

theorem statement_p {u : UpdateStatement} (h : wStatement W u) : cStatement cGroup u (pStatement S u) := by
  match u, h with
  | .load s, h =>
    exact sCat (a := c!"load") (kw_self _) (sCat (a := c!" ") blank_ws1 (sCat (silent_p _) (sCat (cIri_p h.1) (opt_p (W := wIri) (fun g hg =>
      sCat (a := c!" ") blank_ws1 (sCat (a := c!"into") (kw_self _) (sCat (a := c!" ") blank_ws1 (graphRef_p hg)))) h.2))))
  | .clear s, h => exact sCat (a := c!"clear") (kw_self _) (sCat (a := c!" ") blank_ws1 (sCat (silent_p _) (graphRefAll_p h)))
  | .drop s, h => exact sCat (a := c!"drop") (kw_self _) (sCat (a := c!" ") blank_ws1 (sCat (silent_p _) (graphRefAll_p h)))
  | .create s, h => exact sCat (a := c!"create") (kw_self _) (sCat (a := c!" ") blank_ws1 (sCat (silent_p _) (graphRef_p h)))
  | .copy s, h =>
    exact sCat (a := c!"copy") (kw_self _) (sCat (a := c!" ") blank_ws1 (sCat (silent_p _) (sCat (graphOrDefault_p h.1)
      (sCat (a := c!" ") blank_ws1 (sCat (a := c!"to") (kw_self _) (sCat (a := c!" ") blank_ws1 (graphOrDefault_p h.2)))))))
  | .insertData q, h =>
    exact sCat (a := c!"insert") (kw_self _) (sCat (a := c!" ") blank_ws1 (sCat (a := c!"data") (kw_self _) (sCat (a := c!" ") blank_ws1 (quads_p h))))
  | .deleteData q, h =>
    exact sCat (a := c!"delete") (kw_self _) (sCat (a := c!" ") blank_ws1 (sCat (a := c!"data") (kw_self _) (sCat (a := c!" ") blank_ws1 (quads_p h))))
  | .deleteWhere q, h =>
    exact sCat (a := c!"delete") (kw_self _) (sCat (a := c!" ") blank_ws1 (sCat (a := c!"where") (kw_self _) (sCat (a := c!" ") blank_ws1 (quads_p h))))
  | .modify ⟨none, .insert q, l, G⟩, h =>
    refine sCat (a := c!"insert") (kw_self _) (sCat (a := c!" ") blank_ws1 (sCat (quads_p h.1) (sSkip (sCat (sep1_p (W := wDefaultOrNamed) blank_ws1 (fun d hd => ?_) h.2.1)
      (sCat (a := c!" ") blank_ws1 (sCat (a := c!"where") (kw_self _) (sCat (a := c!" ") blank_ws1 (H.group G h.2.2))))))))
    exact sCat (a := c!"using") (kw_self _) (sCat blank_ws1 (defaultOrNamed_p hd))

theorem update_p : ∀ {u : Update}, wUpdate W u → cUpdate cGroup u (pUpdate S u)
  | .mk _ none none, h => prologue_p h
  | .mk _ (some _) none, h => sCat (prologue_p h.1) (sCat blank_ws (statement_p H h.2))
  | .mk _ (some _) (some _), h => sCat (prologue_p h.1) (sCat blank_ws (sCat (statement_p H h.2.1)
      (sCat (a := c!" ") blank_ws (sCat (a := c!";") rfl (sCat (a := c!" ") blank_ws (update_p h.2.2))))))
  | .mk _ none (some _), h => h.elim
end

theorem printer_ok : ∀ n, PrintOk (printer n) (printable n)
  | 0 => ⟨fun _ h => h.elim, fun _ h => h.elim⟩
  | n + 1 => ⟨fun _ h => expression_p (printer_ok n) h, fun _ h => group_p (printer_ok n) h⟩

end NomSparql
