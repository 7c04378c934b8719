import Verif.Lemmas.EbnfFree

/-!
# Where the tokens of a derivation stand

What a symbol generates can stand only behind certain brackets, has an even number of quotation marks, and begins and ends with
certain characters.
-/

namespace NomSparql

open Ebnf

/-! ## Reading a derivation in any dialect -/

/-- The last step of a derivation that is not white space. -/
def CoreIn (D : Dialect) : Ebnf → Lang
  | .t x => D.term x
  | .k w => kw w
  | .p w => fun s => s = w
  | .n x => fun s => Gen D (rule x) s ∨ ∃ d e, D.dev d ∧ extra d x = some e ∧ Gen D e s
  | .nothing => eps
  | .seq a b => fun s => ∃ x y, s = x ++ y ∧ Gen D a x ∧ Gen D b y
  | .alt a b => fun s => Gen D a s ∨ Gen D b s
  | .star a => fun s => s = [] ∨ ∃ x y, s = x ++ y ∧ Gen D a x ∧ Gen D (.star a) y

theorem gen_coreIn {D : Dialect} {e : Ebnf} {s : Str} (h : Gen D e s) : Pad (CoreIn D e) s := by
  have one : ∀ {e s}, CoreIn D e s → Pad (CoreIn D e) s := fun h => ⟨[], _, [], by simp, .nil, h, .nil⟩
  induction h with
  | t h => exact one h
  | k h => exact one h
  | p => exact one rfl
  | n h _ => exact one (.inl h)
  | extra h1 h2 h3 _ => exact one (.inr ⟨_, _, h1, h2, h3⟩)
  | nothing => exact one rfl
  | seq h1 h2 _ => exact one ⟨_, _, rfl, h1, h2⟩
  | left h => exact one (.inl h)
  | right h => exact one (.inr h)
  | stop => exact one (.inl rfl)
  | more h1 h2 _ => exact one (.inr ⟨_, _, rfl, h1, h2⟩)
  | before hw _ ih => exact ih.wsL hw
  | after _ hw ih => exact ih.wsR hw

/-! ## Brackets in front -/

/-- Symbols that stand behind one of the brackets `gs`, unless they are inside a non-terminal of `X` or a terminal of `T`. -/
structure Behind where
  gs : List Str
  tm : Term → Bool
  nt : Nt → Bool

/-- The symbol is one of the brackets. -/
def Behind.isBracket (B : Behind) : Ebnf → Bool
  | .p w => B.gs.contains w
  | _ => false

/-- The expression mentions, in front of all brackets, a terminal or non-terminal that must stand behind a bracket. -/
def Behind.opens (B : Behind) : Ebnf → Bool
  | .t x => B.tm x
  | .n x => B.nt x
  | .seq a b => B.opens a || (!B.isBracket a && B.opens b)
  | .alt a b => B.opens a || B.opens b
  | .star a => B.opens a
  | _ => false

/-- One of the brackets stands in the text. -/
def Behind.Seen (B : Behind) (a : Str) : Prop := ∃ g ∈ B.gs, ∃ x y, a = x ++ (g ++ y)

/-- The expression may stand after the text. -/
def Behind.At (B : Behind) (e : Ebnf) (a : Str) : Prop := B.opens e = true → B.Seen a

/-- The set of non-terminals is closed. -/
structure Behind.Closed (B : Behind) : Prop where
  rule : ∀ x, B.opens (rule x) = true → B.nt x = true
  extra : ∀ d x e, NomSparql.extra d x = some e → B.opens e = true → B.nt x = true

namespace Behind

variable {B : Behind} {a b e : Ebnf} {pre s : Str}

theorem Seen.more (h : B.Seen pre) : B.Seen (pre ++ s) := by
  obtain ⟨g, hg, x, y, rfl⟩ := h
  exact ⟨g, hg, x, y ++ s, by simp⟩

theorem At.more (h : B.At e pre) : B.At e (pre ++ s) := fun ho => (h ho).more
theorem At.seqL (h : B.At (.seq a b) pre) : B.At a pre := fun ho => h (by simp [opens, ho])
theorem At.seqR {D : Dialect} (h : B.At (.seq a b) pre) (hg : Gen D a s) : B.At b (pre ++ s) := by
  intro ho
  cases hb : B.isBracket a with
  | false => exact (h (by simp [opens, ho, hb])).more
  | true =>
    cases a <;> simp [isBracket] at hb
    obtain ⟨w, _, w', rfl, _, rfl, _⟩ := gen_coreIn hg
    exact ⟨_, hb, pre ++ w, w', by simp⟩
theorem At.altL (h : B.At (.alt a b) pre) : B.At a pre := fun ho => h (by simp [opens, ho])
theorem At.altR (h : B.At (.alt a b) pre) : B.At b pre := fun ho => h (by simp [opens, ho])
theorem At.star (h : B.At (.star a) pre) : B.At a pre := fun ho => h (by simp [opens, ho])
theorem At.rule (hB : B.Closed) {x : Nt} (h : B.At (.n x) pre) : B.At (NomSparql.rule x) pre := fun ho => h (by simpa [opens] using hB.rule x ho)
theorem At.extra (hB : B.Closed) {d : Dev} {x : Nt} (he : NomSparql.extra d x = some e) (h : B.At (.n x) pre) : B.At e pre :=
  fun ho => h (by simpa [opens] using hB.extra d x e he ho)

end Behind

/-- Verbs and paths stand behind a brace. -/
def verbBehind : Behind := ⟨[c!"{"], fun _ => false, fun x => decide (x ∈ [.quads, .triplesTemplate, .groupGraphPatternSub, .triplesBlock,
  .constructTriples, .triplesSameSubject, .propertyList, .propertyListNotEmpty, .verb, .objectList, .object, .triplesSameSubjectPath,
  .propertyListPath, .propertyListPathNotEmpty, .verbPath, .objectListPath, .objectPath, .path, .pathAlternative, .pathSequence, .pathElt,
  .pathEltOrInverse, .pathPrimary, .pathNegatedPropertySet, .pathOneInPropertySet, .triplesNode, .blankNodePropertyList, .triplesNodePath,
  .blankNodePropertyListPath, .collection, .collectionPath, .graphNode, .graphNodePath])⟩

/-- Sums stand behind a parenthesis. -/
def sumBehind : Behind := ⟨[c!"("], fun _ => false, fun x => decide (x ∈ [.expression, .conditionalOrExpression, .conditionalAndExpression,
  .valueLogical, .relationalExpression, .numericExpression, .additiveExpression])⟩

/-- Numbers stand behind a brace or parenthesis. -/
def numberBehind : Behind := ⟨[c!"{", c!"("], fun x => decide (x ∈ [.number, .signedNumber]), fun x => decide (x ∈ [.quads, .triplesTemplate,
  .groupGraphPatternSub, .triplesBlock, .dataBlockValue, .constructTriples, .triplesSameSubject, .propertyList, .propertyListNotEmpty,
  .objectList, .object, .triplesSameSubjectPath, .propertyListPath, .propertyListPathNotEmpty, .objectListPath, .objectPath, .triplesNode,
  .blankNodePropertyList, .triplesNodePath, .blankNodePropertyListPath, .graphNode, .graphNodePath, .varOrTerm, .graphTerm, .expression,
  .conditionalOrExpression, .conditionalAndExpression, .valueLogical, .relationalExpression, .numericExpression, .additiveExpression,
  .multiplicativeExpression, .unaryExpression, .primaryExpression, .numericLiteral])⟩

theorem verbBehind_closed : verbBehind.Closed :=
  ⟨fun x => by cases x <;> decide, fun d x e he => by cases d <;> cases x <;> first | (cases he; done) | (cases he; decide)⟩
theorem sumBehind_closed : sumBehind.Closed :=
  ⟨fun x => by cases x <;> decide, fun d x e he => by cases d <;> cases x <;> first | (cases he; done) | (cases he; decide)⟩
theorem numberBehind_closed : numberBehind.Closed :=
  ⟨fun x => by cases x <;> decide, fun d x e he => by cases d <;> cases x <;> first | (cases he; done) | (cases he; decide)⟩

/-! ## Brackets that follow -/

/-- Every text of the expression contains a closing parenthesis. -/
def closes : Ebnf → Bool
  | .p w => w == c!")"
  | .seq a b => closes a || closes b
  | .alt a b => closes a && closes b
  | _ => false

/-- The expression mentions, after all closing parentheses, a sum. -/
def trails : Ebnf → Bool
  | .n x => sumBehind.nt x
  | .seq a b => (trails a && !closes b) || trails b
  | .alt a b => trails a || trails b
  | .star a => trails a
  | _ => false

theorem gen_closes {D : Dialect} {e : Ebnf} {s : Str} (h : Gen D e s) (he : closes e = true) : ')' ∈ s := by
  induction h with
  | p => simp [closes] at he; subst he; simp
  | seq _ _ _ iha ihb =>
    simp [closes] at he
    rcases he with he | he
    · simp [iha he]
    · simp [ihb he]
  | left _ ih => simp [closes] at he; exact ih he.1
  | right _ ih => simp [closes] at he; exact ih he.2
  | before _ _ ih => simp [ih he]
  | after _ _ ih => simp [ih he]
  | _ => simp [closes] at he

theorem trails_rule (x : Nt) (h : trails (rule x) = true) : sumBehind.nt x = true := by revert h; cases x <;> decide
theorem trails_extra {d : Dev} {x : Nt} {e : Ebnf} (he : extra d x = some e) (h : trails e = true) : sumBehind.nt x = true := by
  revert h; cases d <;> cases x <;> first | (cases he; done) | (cases he; decide)

/-! ## Quotation marks -/

/-- No fixed word of the expression has a quotation mark. -/
def quiet : Ebnf → Bool
  | .k w => !w.contains '"'
  | .p w => !w.contains '"'
  | .seq a b => quiet a && quiet b
  | .alt a b => quiet a && quiet b
  | .star a => quiet a
  | _ => true

theorem quiet_rule (x : Nt) : quiet (rule x) = true := by cases x <;> decide
theorem quiet_extra {d : Dev} {x : Nt} {e : Ebnf} (he : extra d x = some e) : quiet e = true := by
  cases d <;> cases x <;> first | (cases he; done) | (cases he; decide)

theorem caseVariant_quote {w v : Str} (h : CaseVariant w v) (hw : '"' ∉ w) : '"' ∉ v := by
  induction h with
  | nil => simp
  | cons h _ ih =>
    simp only [List.mem_cons, not_or] at hw ⊢
    refine ⟨?_, ih hw.2⟩
    rcases h with rfl | ⟨h1, h2, h3⟩
    · exact hw.1
    · rintro rfl
      have : ('"' : Char).toNat = 34 := rfl
      omega

theorem ws_quote {w : Str} (h : Ws w) (hh : '#' ∉ w) : '"' ∉ w := fun hq => absurd (ws_noComment h hh _ hq) (by simp [w3cTerm.IsWs])

theorem quote_notName : ¬ CodedNameChar '"' ∧ ¬ CodedLocalStart '"' ∧ ¬ CodedLabelStart '"' := by
  have h1 : ¬ CodedBase '"' := by decide
  have h2 : ¬ LowByteDigit '"' := by decide
  have h3 : ¬ AsciiDigit '"' := by decide
  refine ⟨?_, ?_, ?_⟩
  · rintro (h | h | h | h)
    · exact h1 h
    · cases h
    · cases h
    · exact h3 h
  · rintro (h | h | h | h)
    · exact h1 h
    · cases h
    · cases h
    · exact h2 h
  · rintro (h | h | h)
    · exact h1 h
    · cases h
    · exact h2 h

theorem quote_notTail {t : Str} (h : NameTail CodedNameChar t) : '"' ∉ t := fun hq => by
  rcases h.1 _ hq with h | h
  · exact quote_notName.1 h
  · cases h

theorem nameUnits_quote {f : Char → Prop} (hf : ¬ f '"') {u : Str} (h : NameUnits f u) : '"' ∉ u := by
  induction h with
  | nil => simp
  | cons hu _ ih =>
    simp only [List.mem_append, not_or]
    refine ⟨?_, ih⟩
    cases hu with
    | ch h => simp; rintro rfl; exact hf h
    | pct a b => simp; exact ⟨by rintro rfl; revert a; simp [HexDigit, AsciiDigit], by rintro rfl; revert b; simp [HexDigit, AsciiDigit]⟩
    | esc h => simp; rintro rfl; revert h; simp [LocalEscChar]

theorem number_quote {s : Str} (h : W3CNumber s) : '"' ∉ s := by
  have dg : ∀ {s : Str}, (∀ c ∈ s, AsciiDigit c) → '"' ∉ s := fun h hq => absurd (h _ hq) (by decide)
  have ex : ∀ {e : Str}, W3CExponent e → '"' ∉ e := by
    rintro _ ⟨c, sg, d, rfl, hc, hs, _, hd⟩
    simp at hs
    have := dg hd
    rcases hc with rfl | rfl <;> rcases hs with rfl | rfl | rfl <;> simp [this]
  rcases h with h | ⟨a, b, rfl, ha, hb⟩ | ⟨a, b, e, rfl, ha, hb, he⟩ | ⟨b, e, rfl, hb, he⟩ | ⟨a, e, rfl, ha, he⟩
  · exact dg h.2
  · simp [dg ha, dg hb.2]
  · simp [dg ha.2, dg hb, ex he]
  · simp [dg hb.2, ex he]
  · simp [dg ha.2, ex he]

theorem numeric_quote {v : NumericLiteral} {s : Str} (h : rNumericLiteral v s) : '"' ∉ s := by
  obtain ⟨sg, x, rfl, hs, _, hx⟩ := number_w3c h
  have : '"' ∉ x := by
    rcases hx with hx | ⟨a, c, rfl, hc⟩
    · exact number_quote hx
    · simp only [List.mem_append, List.mem_cons, List.not_mem_nil, or_false, not_or]
      refine ⟨fun hq => absurd (hc.2 _ hq) (by decide), ?_, by decide⟩
      rintro rfl; exact absurd hc.1 (by decide)
  simp at hs
  rcases hs with rfl | rfl | rfl <;> simp [this]

theorem pnameNs_quote {o : Option Str} {s : Str} (h : rPnameNs o s) (hh : '#' ∉ s) : '"' ∉ s := by
  obtain ⟨_, _, rfl, ⟨rfl, ho⟩, w, _, rfl, hw, rfl⟩ := h
  have hw' := ws_quote hw (fun h => hh (by simp [h]))
  have : '"' ∉ prefixText o := by
    cases o with
    | none => simp [prefixText]
    | some x =>
      obtain ⟨c, t, rfl, hc, ht⟩ := ho
      simp only [prefixText, List.mem_cons, not_or]
      exact ⟨by rintro rfl; revert hc; decide, quote_notTail ht⟩
  simp [this, hw']

/-- A token has no quotation mark, or is a string with two (if there are no escapes). -/
theorem term_quote {x : Term} {s : Str} (h : crateTerm x s) (hh : '\'' ∉ s ∧ '#' ∉ s ∧ '\\' ∉ s) : s.count '"' % 2 = 0 := by
  suffices hs : x ≠ .string → '"' ∉ s by
    by_cases hx : x = .string
    · subst hx
      obtain ⟨y, q, hq, rfl, hb, _⟩ := h
      have hq : q = '"' := hq.resolve_left fun e => hh.1 (by simp [e])
      subst hq
      have := strBody_noQuote hb fun hb => hh.2.2 (by simp [hb])
      simp [List.count_append, List.count_eq_zero.mpr this]
    · simp [List.count_eq_zero.mpr (hs hx)]
  intro hx
  cases x with
  | string => exact absurd rfl hx
  | iriRef =>
    obtain ⟨y, rfl, hy⟩ := h
    simp
    exact fun hq => hy _ hq (by decide)
  | langTag =>
    obtain ⟨y, rfl, a, t, rfl, _, ha, ht⟩ := h
    have tl : '"' ∉ t := by
      clear hh ha
      induction ht with
      | nil => simp
      | cons _ h _ ih =>
        simp
        exact ⟨fun hq => by rcases h _ hq with h | h <;> revert h <;> decide, ih⟩
    simp [tl]
    exact fun hq => absurd (ha _ hq) (by decide)
  | integer => exact fun hq => absurd (h.2 _ hq) (by decide)
  | number => obtain ⟨⟨v, hv⟩, _⟩ := h; exact numeric_quote hv
  | signedNumber => obtain ⟨⟨v, hv⟩, _⟩ := h; exact numeric_quote hv
  | nil =>
    obtain ⟨_, _, rfl, rfl, w, _, rfl, hw, rfl⟩ := h
    have := ws_quote hw fun h => hh.2.1 (by simp [h])
    simp [this]
  | anon =>
    obtain ⟨_, _, rfl, rfl, w, _, rfl, hw, rfl⟩ := h
    have := ws_quote hw fun h => hh.2.1 (by simp [h])
    simp [this]
  | var =>
    obtain ⟨v, g, _, rfl, rfl, w, y, rfl, hw, rfl, hne, hv⟩ := h
    have := ws_quote hw fun h => hh.2.1 (by simp [h])
    have h2 : '"' ∉ varNameOf v := fun hq => absurd (hv _ hq) (by decide)
    cases v <;> simp [sigil, this, h2]
  | blankNodeLabel =>
    obtain ⟨_, _, _, rfl, rfl, w, _, rfl, hw, rfl, c, t, rfl, hc, ht⟩ := h
    have := ws_quote hw fun h => hh.2.1 (by simp [h])
    simp [this, quote_notTail ht]
    rintro rfl; exact quote_notName.2.2 hc
  | pnameNs => obtain ⟨o, h⟩ := h; exact pnameNs_quote h hh.2.1
  | pnameLn =>
    obtain ⟨o, l, s, _, rfl, h, w, _, rfl, hw, rfl, u, t, rfl, hu, ht, _⟩ := h
    have h1 := pnameNs_quote h fun h => hh.2.1 (by simp [h])
    have h2 := ws_quote hw fun h => hh.2.1 (by simp [h])
    have h3 := nameUnits_quote quote_notName.2.1 (.cons hu .nil)
    have h4 := nameUnits_quote (by rintro ((h | h) | h) <;> first | exact quote_notName.1 h | cases h) ht
    simp at h3
    simp [h1, h2, h3, h4]

/-- What is generated without apostrophes, comments and escapes has an even number of quotation marks. -/
theorem gen_quotes {dev : Dev → Prop} {e : Ebnf} {s : Str} (h : Gen (lax dev) e s) (he : quiet e = true) (hh : '\'' ∉ s ∧ '#' ∉ s ∧ '\\' ∉ s) :
    s.count '"' % 2 = 0 := by
  have l : ∀ {s t : Str}, '\'' ∉ s ++ t ∧ '#' ∉ s ++ t ∧ '\\' ∉ s ++ t → '\'' ∉ s ∧ '#' ∉ s ∧ '\\' ∉ s := by
    intro s t h; simp at h; exact ⟨h.1.1, h.2.1.1, h.2.2.1⟩
  have r : ∀ {s t : Str}, '\'' ∉ s ++ t ∧ '#' ∉ s ++ t ∧ '\\' ∉ s ++ t → '\'' ∉ t ∧ '#' ∉ t ∧ '\\' ∉ t := by
    intro s t h; simp at h; exact ⟨h.1.2, h.2.1.2, h.2.2.2⟩
  have add : ∀ {s t : Str}, s.count '"' % 2 = 0 → t.count '"' % 2 = 0 → (s ++ t).count '"' % 2 = 0 := by
    intro s t h1 h2; rw [List.count_append]; omega
  have none : ∀ {s : Str}, '"' ∉ s → s.count '"' % 2 = 0 := fun h => by rw [List.count_eq_zero.mpr h]
  induction h with
  | t h => exact term_quote h hh
  | k h => exact none (caseVariant_quote h (by simpa [quiet] using he))
  | p => exact none (by simpa [quiet] using he)
  | n _ ih => exact ih (quiet_rule _) hh
  | extra _ h _ ih => exact ih (quiet_extra h) hh
  | nothing => rfl
  | seq _ _ _ iha ihb => simp [quiet] at he; exact add (iha he.1 (l hh)) (ihb he.2 (r hh))
  | left _ ih => simp [quiet] at he; exact ih he.1 hh
  | right _ ih => simp [quiet] at he; exact ih he.2 hh
  | stop => rfl
  | more _ _ _ iha ihb => exact add (iha (by simpa [quiet] using he) (l hh)) (ihb he (r hh))
  | before hw _ ih => exact add (none (ws_quote hw (l hh).2.1)) (ih he (r hh))
  | after _ hw ih => exact add (ih he (l hh)) (none (ws_quote hw (r hh).2.1))

/-! ## First and last characters -/

/-- After white space, what the expression generates begins as `q` says. -/
def Heads (D : Dialect) (e : Ebnf) (q : Str → Prop) : Prop := ∀ s u, Gen D e s → ∃ w t, s ++ u = w ++ t ∧ Ws w ∧ q t

section
variable {D : Dialect} {a b e : Ebnf} {q : Str → Prop}

theorem Heads.of (h : ∀ s u, CoreIn D e s → ∃ w t, s ++ u = w ++ t ∧ Ws w ∧ q t) : Heads D e q := by
  rintro s u hg
  obtain ⟨w, t, w', rfl, h1, h2, _⟩ := gen_coreIn hg
  obtain ⟨v, x, he, hv, hx⟩ := h t (w' ++ u) h2
  exact ⟨w ++ v, x, by simp [he], h1.append hv, hx⟩

theorem Heads.seq (h : Heads D a q) : Heads D (a ⬩ b) q := .of fun _ u ⟨x, y, he, hx, _⟩ => by
  subst he; rw [List.append_assoc]; exact h x (y ++ u) hx
theorem Heads.alt (ha : Heads D a q) (hb : Heads D b q) : Heads D (a ⫾ b) q := .of fun s u h => h.elim (ha s u) (hb s u)
theorem Heads.n {x : Nt} (h : Heads D (rule x) q) (he : ∀ d, extra d x = none) : Heads D (.n x) q := .of fun s u hg => by
  rcases hg with hg | ⟨d, _, _, hd, _⟩
  · exact h s u hg
  · rw [he] at hd; cases hd
theorem Heads.p {w : Str} (h : ∀ t, q (w ++ t)) : Heads D (.p w) q := .of fun s u he => by cases he; exact ⟨[], _, rfl, .nil, h u⟩
theorem Heads.k {w : Str} (h : ∀ v t, CaseVariant w v → q (v ++ t)) : Heads D (.k w) q := .of fun s u he => ⟨[], _, rfl, .nil, h s u he⟩
theorem Heads.t {x : Term} (h : ∀ s u, D.term x s → ∃ w t, s ++ u = w ++ t ∧ Ws w ∧ q t) : Heads D (.t x) q := .of h
theorem Heads.imp {q' : Str → Prop} (h : Heads D e q) (hq : ∀ t, q t → q' t) : Heads D e q' := fun s u hg =>
  let ⟨w, t, h1, h2, h3⟩ := h s u hg
  ⟨w, t, h1, h2, hq t h3⟩
end

/-- What the expression generates ends with a closing bracket and white space. -/
def EndsClosed (D : Dialect) (e : Ebnf) : Prop := ∀ s, Gen D e s → ∃ x c w, s = x ++ c :: w ∧ (c = '}' ∨ c = ')') ∧ Ws w

section
variable {D : Dialect} {a b e : Ebnf}

theorem EndsClosed.of (h : ∀ s, CoreIn D e s → ∃ x c w, s = x ++ c :: w ∧ (c = '}' ∨ c = ')') ∧ Ws w) : EndsClosed D e := by
  rintro s hg
  obtain ⟨w, t, w', rfl, _, h2, h3⟩ := gen_coreIn hg
  obtain ⟨x, c, v, rfl, hc, hv⟩ := h t h2
  exact ⟨w ++ x, c, v ++ w', by simp, hc, hv.append h3⟩

theorem EndsClosed.seq (h : EndsClosed D b) : EndsClosed D (a ⬩ b) := .of fun _ ⟨x, y, he, _, hy⟩ => by
  obtain ⟨z, c, w, rfl, hc, hw⟩ := h y hy
  exact ⟨x ++ z, c, w, by simp [he], hc, hw⟩
theorem EndsClosed.alt (ha : EndsClosed D a) (hb : EndsClosed D b) : EndsClosed D (a ⫾ b) := .of fun s h => h.elim (ha s) (hb s)
theorem EndsClosed.n {x : Nt} (h : EndsClosed D (rule x)) (he : ∀ d e, extra d x = some e → EndsClosed D e) : EndsClosed D (.n x) := .of fun s hg => by
  rcases hg with hg | ⟨d, e, _, hd, hg⟩
  · exact h s hg
  · exact he d e hd s hg
theorem EndsClosed.p {c : Char} (hc : c = '}' ∨ c = ')') : EndsClosed D (.p [c]) := .of fun _ he => ⟨[], c, [], he, hc, .nil⟩
theorem EndsClosed.parens : EndsClosed D (parens a) := .seq (.seq (.p (.inr rfl)))
theorem EndsClosed.braces : EndsClosed D (braces a) := .seq (.seq (.p (.inl rfl)))
/-- Repetitions after something closed. -/
theorem EndsClosed.star (ha : EndsClosed D a) (hb : EndsClosed D b) : EndsClosed D (a ⬩ .star b) := by
  have : ∀ s, Gen D (.star b) s → Ws s ∨ ∃ x c w, s = x ++ c :: w ∧ (c = '}' ∨ c = ')') ∧ Ws w := by
    intro s hg
    generalize he : Ebnf.star b = e at hg
    induction hg with
    | stop => exact .inl .nil
    | more h1 h2 _ _ ih =>
      cases he
      refine .inr ?_
      rcases ih rfl with h | ⟨x, c, w, rfl, hc, hw⟩
      · obtain ⟨x, c, w, rfl, hc, hw⟩ := hb _ h1
        exact ⟨x, c, w ++ _, by simp, hc, hw.append h⟩
      · exact ⟨_ ++ x, c, w, by simp; rfl, hc, hw⟩
    | before hw _ ih =>
      rcases ih he with h | ⟨x, c, v, rfl, hc, hv⟩
      · exact .inl (hw.append h)
      · exact .inr ⟨_ ++ x, c, v, by simp; rfl, hc, hv⟩
    | after _ hw ih =>
      rcases ih he with h | ⟨x, c, v, rfl, hc, hv⟩
      · exact .inl (h.append hw)
      · exact .inr ⟨x, c, v ++ _, by simp, hc, hv.append hw⟩
    | _ => cases he
  refine .of fun s ⟨x, y, he, hx, hy⟩ => ?_
  subst he
  rcases this y hy with h | ⟨z, c, w, rfl, hc, hw⟩
  · obtain ⟨z, c, w, rfl, hc, hw⟩ := ha x hx
    exact ⟨z, c, w ++ y, by simp, hc, hw.append h⟩
  · exact ⟨x ++ z, c, w, by simp, hc, hw⟩
theorem EndsClosed.choice {l : List Ebnf} (hne : l ≠ []) (h : ∀ e ∈ l, EndsClosed D e) : EndsClosed D (choice l) := by
  induction l with
  | nil => exact absurd rfl hne
  | cons a l ih =>
    cases l with
    | nil => exact h a (by simp)
    | cons b l => exact .alt (h a (by simp)) (ih (by simp) fun e he => h e (by simp [he]))
end

end NomSparql
