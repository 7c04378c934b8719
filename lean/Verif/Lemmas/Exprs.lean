import Verif.Lemmas.Calls

/-!
# Canonical expressions are accepted: steps

One lemma per construct; `Verif/Lemmas/ExprAccept.lean` puts them together by induction.
-/

namespace NomSparql

/-! ## What follows -/

/-- `x` begins with one of the characters. -/
def Stop (cs : List Char) (x : Str) : Prop := ∃ c t, x = c :: t ∧ c ∈ cs

/-- After an expression: end of parentheses or argument, or `AS`. -/
def orStops : List Char := [')', ',', ';', 'a', 'A']
def andStops : List Char := '|' :: orStops
def relStops : List Char := '&' :: andStops
def addStops : List Char := '=' :: '!' :: '<' :: '>' :: 'i' :: 'I' :: 'n' :: 'N' :: relStops
def multStops : List Char := '+' :: '-' :: addStops
def unaryStops : List Char := '*' :: '/' :: multStops

theorem Stop.mono {cs ds : List Char} {x : Str} (h : Stop cs x) (hs : ∀ c ∈ cs, c ∈ ds) : Stop ds x := by
  obtain ⟨c, t, e, hc⟩ := h
  exact ⟨c, t, e, hs c hc⟩

theorem Stop.and {x : Str} (h : Stop orStops x) : Stop andStops x := h.mono fun _ h => List.mem_cons_of_mem _ h
theorem Stop.rel {x : Str} (h : Stop andStops x) : Stop relStops x := h.mono fun _ h => List.mem_cons_of_mem _ h
theorem Stop.add {x : Str} (h : Stop relStops x) : Stop addStops x := h.mono (by decide)
theorem Stop.mult {x : Str} (h : Stop addStops x) : Stop multStops x := h.mono (by decide)
theorem Stop.unary {x : Str} (h : Stop multStops x) : Stop unaryStops x := h.mono (by decide)

theorem Stop.cons {cs : List Char} {c : Char} {t : Str} (h : c ∈ cs) : Stop cs (c :: t) := ⟨c, t, rfl, h⟩

/-- A property of the first character. -/
theorem Stop.all {cs : List Char} {x : Str} (h : Stop cs x) {f : Char → Prop} (hf : ∀ c ∈ cs, f c) : ∃ c t, x = c :: t ∧ f c := by
  obtain ⟨c, t, e, hc⟩ := h
  exact ⟨c, t, e, hf c hc⟩

theorem Stop.fails {cs : List Char} {x : Str} (h : Stop cs x) {p : P α} {F} [First p F] (hf : ∀ c ∈ cs, F c = false) : Fails p x := by
  obtain ⟨c, t, rfl, hc⟩ := h
  exact First.cons (hf c hc)

theorem unaryStops_plain : ∀ c ∈ unaryStops, wsStart c = false ∧ c ≠ ':' ∧ c ≠ '(' := by decide

theorem Stop.not_ws {x : Str} (h : Stop unaryStops x) : ¬ StartsWs x := by
  obtain ⟨c, t, rfl, h'⟩ := h.all unaryStops_plain
  exact not_startsWs_cons h'.1

/-- White space and a stop may follow a token. -/
theorem Stop.follow {w x : Str} (hw : Ws1 w) (h : Stop unaryStops x) : Follow (w ++ x) := by
  obtain ⟨c, t, rfl, h'⟩ := h.all unaryStops_plain
  exact Follow.ws hw.1 (.inl hw.2) h.not_ws (notStart_cons h'.2.1)

theorem mult_stops : ∀ {x : Str}, Stop multStops x → Fails multExpression x := fun h => h.fails (by decide)
theorem add_stops : ∀ {x : Str}, Stop addStops x → Fails addExpression x := fun h => h.fails (by decide)

theorem op_stops {x : Str} (h : Stop relStops x) : Fails opExpression x := by
  obtain ⟨c, t, rfl, hc⟩ := h
  simp only [relStops, andStops, orStops, List.mem_cons, List.not_mem_nil, or_false] at hc
  rcases hc with rfl | rfl | rfl | rfl | rfl | rfl | rfl <;>
  exact Fails.alt_cons (First.cons rfl) (Fails.alt_cons (First.cons rfl) (Fails.alt_cons (First.cons rfl) (Fails.alt_cons (First.cons rfl)
    (Fails.alt_cons (First.cons rfl) (Fails.alt_cons (First.cons rfl) (Fails.alt_cons (First.cons rfl)
      (Fails.alt_cons (Fails.map (Fails.preceded (Fails.terminated ⟨_, _, rfl⟩))) Fails.alt_nil)))))))

theorem andSep_stops {w x : Str} (hw : Ws w) (h : Stop andStops x) : Fails (spEnc (tag c!"&&")) (w ++ x) :=
  Fails.delimited2 (sp_eval hw h.rel.add.mult.unary.not_ws) (h.fails (by decide))

theorem orSep_stops {w x : Str} (hw : Ws w) (h : Stop orStops x) : Fails (spEnc (tag c!"||")) (w ++ x) :=
  Fails.delimited2 (sp_eval hw h.and.rel.add.mult.unary.not_ws) (h.fails (by decide))

/-! ## What is to be shown about a text -/

/-- The text begins like an operand. -/
def OperandHead (s : Str) : Prop := ∃ c t, s = c :: t ∧ wsStart c = false ∧ c ≠ ':' ∧ c ≠ '*'

theorem OperandHead.not_ws {s : Str} (h : OperandHead s) (r : Str) : ¬ StartsWs (s ++ r) := by
  obtain ⟨c, t, rfl, h, _⟩ := h
  exact not_startsWs_cons h

theorem OperandHead.not_star {s : Str} (h : OperandHead s) (r : Str) : Fails (char '*') (s ++ r) := by
  obtain ⟨c, t, rfl, _, _, h⟩ := h
  exact First.cons (by simpa using h)

theorem OperandHead.append {s : Str} (h : OperandHead s) (r : Str) : OperandHead (s ++ r) := by
  obtain ⟨c, t, rfl, h⟩ := h
  exact ⟨c, _, rfl, h⟩

theorem OperandHead.ne_nil {s : Str} (h : OperandHead s) : s ≠ [] := by
  obtain ⟨c, t, rfl, h⟩ := h
  simp

/-- Not the keyword `DISTINCT`. -/
def NoDistinct (s : Str) : Prop := ¬ Begins c!"distinct" s

/-- The parser reads the text up to the white space after it. -/
def Reads (p : P α) (a : α) (s : Str) : Prop := OperandHead s ∧ ∀ w x, Ws w → Follow (w ++ x) → Stop unaryStops x →
  NoDistinct (s ++ (w ++ x)) ∧ p (s ++ (w ++ x)) = .ok (w ++ x) a

/-- What is left of the white space after a text: nothing if the text is of kind `true`, something if it is of kind `false`. -/
def Left (b : Bool) (w w' : Str) : Prop := (b = true → w' = []) ∧ (b = false → w ≠ [] → w' ≠ [])

/-- The parser reads the text and some white space after it; all if the text is of kind `true`. -/
def ReadsTo (p : P α) (cs : List Char) (b : Bool) (a : α) (s : Str) : Prop := OperandHead s ∧ ∀ w x, Ws w → Follow (w ++ x) → Stop cs x →
  NoDistinct (s ++ (w ++ x)) ∧ ∃ w', Ws w' ∧ Left b w w' ∧ p (s ++ (w ++ x)) = .ok (w' ++ x) a

theorem noDistinct_head {c : Char} {r : Str} (h : c ≠ 'd' ∧ c ≠ 'D') : NoDistinct (c :: r) := by
  rintro (⟨k, d, x, e, hk, _⟩ | ⟨b, b', x, e, hk, e'⟩)
  · cases hk with
    | cons h1 h2 =>
      rcases sameLetter_cases h1 with rfl | rfl
      · exact h.1 (List.cons.inj e).1
      · exact h.2 (List.cons.inj e).1
  · have := congrArg List.getLast? e
    rw [List.getLast?_append] at this
    revert this
    simp

theorem noDistinct_kw {u k r : Str} (hk : CaseVariant u k) (hu : ∀ c ∈ u, KwLetter c) (hr : NotStart WordC r) (hn : u ≠ c!"distinct") :
    NoDistinct (k ++ r) := fun h => hn (begins_word hk hu (by decide) hr h).symm

theorem noDistinct_fails {i : Str} (h : NoDistinct i) : Fails (terminated distinct sp1) i := by
  rcases tagNoCase_cases (t := c!"distinct") (i := i) (fun hk => h (.inr hk)) with ⟨r, a, e⟩ | e
  · refine Fails.terminated2 (map_eval e) ?_
    rcases Soft.cases sp1 r with ⟨r', w, e'⟩ | e'
    · exfalso; apply h; left
      obtain ⟨rfl, h2⟩ := tagNoCase_ok_iff.mp e
      obtain ⟨rfl, ⟨hw, hne⟩, _⟩ := sp1_ok_iff.mp e'
      cases w with
      | nil => contradiction
      | cons c w => exact ⟨a, c, _, rfl, h2, .inl (ws_first hw _ _ rfl)⟩
    · exact e'
  · exact Fails.terminated e.map

/-! ## Operands -/

/-- A primary expression; it begins with no sign. -/
def PrimReads (a : PrimaryExpression) (s : Str) : Prop :=
  (∀ c t, s = c :: t → c ≠ '!' ∧ c ≠ '+' ∧ c ≠ '-') ∧ Reads primaryExpression a s

theorem prim_var {v : Var} {s : Str} (h : cVar v s) : PrimReads (.var v) s := by
  have hv := fun r hr => var_accepts v s r h hr
  obtain ⟨t, rfl | rfl⟩ := cVar_head h
  all_goals
    refine ⟨by rintro c t e; cases e; decide, ⟨_, _, rfl, by decide⟩, fun w x hw hf hx => ⟨noDistinct_head (by decide), ?_⟩⟩
    unfold primaryExpression primaryExpressionS
    skip1; skip1; skip1; skip1; skip1; skip1
    exact map_eval (f := PrimaryExpression.var) (hv _ hf)

theorem prim_rdfLiteral {l : RdfLiteral} {s : Str} (h : cRdfLiteral l s) : PrimReads (.rdfLiteral l) s := by
  have hv := fun r hr => rdfLiteral_accepts l s r h hr
  obtain ⟨t, rfl | rfl⟩ := cRdfLiteral_head h
  all_goals
    refine ⟨by rintro c t e; cases e; decide, ⟨_, _, rfl, by decide⟩, fun w x hw hf hx => ⟨noDistinct_head (by decide), ?_⟩⟩
    unfold primaryExpression primaryExpressionS
    skip1; skip1; skip1
    exact alt_eval1 (map_eval (f := PrimaryExpression.rdfLiteral) (hv _ hf))

theorem prim_numericLiteral {n : NumericLiteral} {s : Str} (h : cUnsigned n s) : PrimReads (.numericLiteral n) s := by
  obtain ⟨h, h1, h2⟩ := h
  have hv := fun r hr => numericLiteral_accepts n s r h hr
  obtain ⟨c, t, rfl, hc⟩ := cNumericLiteral_head h
  have hp : c ≠ '+' := by rintro rfl; exact h1 rfl
  have hm : c ≠ '-' := by rintro rfl; exact h2 rfl
  have hc : c ∈ ['0', '1', '2', '3', '4', '5', '6', '7', '8', '9'] := by
    simpa [numHeads, hp, hm] using hc
  have hF : ∀ {F : Char → Bool}, (['0', '1', '2', '3', '4', '5', '6', '7', '8', '9'].all fun c => !F c) = true → F c = false := by
    intro F hF
    simpa using List.all_eq_true.mp hF c hc
  have hd : ∀ {f : Char → Prop}, (∀ c ∈ ['0', '1', '2', '3', '4', '5', '6', '7', '8', '9'], f c) → f c := fun h => h c hc
  have hh := hd (f := fun c => (wsStart c = false ∧ c ≠ ':' ∧ c ≠ '*') ∧ (c ≠ '!' ∧ c ≠ '+' ∧ c ≠ '-') ∧ c ≠ 'd' ∧ c ≠ 'D') (by decide)
  refine ⟨by rintro c t e; cases e; exact hh.2.1, ⟨_, _, rfl, hh.1⟩, fun w x hw hf hx => ⟨noDistinct_head hh.2.2, ?_⟩⟩
  unfold primaryExpression primaryExpressionS
  refine alt_eval2 (Fails.map (First.cons (hF rfl))) ?_
  refine alt_eval2 (Fails.map (First.cons (hF rfl))) ?_
  refine alt_eval2 (Fails.map (First.cons (hF rfl))) ?_
  refine alt_eval2 (Fails.map (First.cons (hF rfl))) ?_
  exact alt_eval1 (map_eval (f := PrimaryExpression.numericLiteral) (hv _ hf))

theorem word_plain {c : Char} (h : WordC c) : wsStart c = false ∧ c ≠ ':' ∧ c ≠ '*' ∧ c ≠ '!' ∧ c ≠ '+' ∧ c ≠ '-' ∧ c ≠ '(' := by
  refine ⟨?_, ?_, ?_, ?_, ?_, ?_, ?_⟩
  · cases e : wsStart c with
    | false => rfl
    | true => rcases wsStart_iff.mp e with rfl | rfl | rfl | rfl | rfl <;> revert h <;> decide
  all_goals rintro rfl; revert h; decide

/-- A text that begins with a keyword. -/
theorem word_head {u k : Str} (hk : CaseVariant u k) (hu : ∀ c ∈ u, KwLetter c) (hn : u ≠ []) : ∃ c t, k = c :: t ∧ WordC c := by
  cases hk with
  | nil => contradiction
  | @cons a c u k h1 h2 => exact ⟨c, k, rfl, (kwLetter_wordC (hu a (by simp)) h1).1⟩

theorem prim_booleanLiteral {b : Bool} {s : Str} (h : rBoolean b s) : PrimReads (.booleanLiteral b) s := by
  have hv := fun r => boolean_accepts b s r h
  have key : ∀ {x : Char} {t : Str}, CaseVariant (x :: t) s → (∀ c ∈ x :: t, KwLetter c) → (∀ c ∈ x :: t, AsciiLetter c) → x :: t ∉ callTags →
      x :: t ≠ c!"distinct" → (x = 't' ∨ x = 'f') → PrimReads (.booleanLiteral b) s := by
    intro x t hk hu hl hn hd hx
    obtain ⟨c, t', rfl, hc⟩ := word_head hk hu (by simp)
    have hc' := word_plain hc
    refine ⟨by rintro c t e; cases e; exact ⟨hc'.2.2.2.1, hc'.2.2.2.2.1, hc'.2.2.2.2.2.1⟩, ⟨_, _, rfl, hc'.1, hc'.2.1, hc'.2.2.1⟩,
      fun w x' hw hf hx' => ⟨noDistinct_kw hk hu hf.notWord hd, ?_⟩⟩
    unfold primaryExpression primaryExpressionS
    refine alt_eval2 (Fails.map (kw_first hk ?_)) ?_
    · rcases hx with rfl | rfl <;> rfl
    refine alt_eval2 (Fails.map (builtIn_fails_kw hk hu hf.notWord hn)) ?_
    refine alt_eval2 (Fails.map (Fails.map (Fails.pair (iri_fails_kw hk (by simp) hl hf)))) ?_
    refine alt_eval2 (Fails.map (kw_first hk ?_)) ?_
    · rcases hx with rfl | rfl <;> rfl
    refine alt_eval2 (Fails.map (kw_first hk ?_)) ?_
    · rcases hx with rfl | rfl <;> rfl
    exact alt_eval1 (map_eval (f := PrimaryExpression.booleanLiteral) (hv _))
  rcases rBoolean_kw h with hk | hk
  · exact key hk (by decide) (by decide) (by decide) (by decide) (.inl rfl)
  · exact key hk (by decide) (by decide) (by decide) (by decide) (.inr rfl)

/-- White space that is not followed by an argument list. -/
theorem noArgs {w x : Str} (hw : Ws w) (hx : Stop unaryStops x) : opt (preceded sp1 argList) (w ++ x) = .ok (w ++ x) none := by
  apply Fails.opt
  cases w with
  | nil => exact Fails.preceded (sp1_fails hx.not_ws)
  | cons d w =>
    refine Fails.preceded2 (sp1_eval ⟨hw, by simp⟩ hx.not_ws) ?_
    exact hx.fails (by decide)

theorem operandIri_head {i : Iri} {s : Str} (h : cOperandIri i s) :
    (∀ c t, s = c :: t → c ≠ '!' ∧ c ≠ '+' ∧ c ≠ '-' ∧ c ≠ '(') ∧ OperandHead s := by
  obtain ⟨c, t, rfl, hc⟩ := cIri_head h.1
  have hh : ∀ {f : Char → Prop}, f '<' → (∀ c, isPnCharsBase c = true → f c) → f c := by
    intro f h1 h2
    rcases hc with rfl | hc
    · exact h1
    · exact h2 _ hc
  have hT : TokHead c := by
    refine hh (by decide) (fun c hc => base_tokHead hc)
  refine ⟨?_, ⟨_, _, rfl, hT.ws, hT.ne (by simp), hT.ne (by simp)⟩⟩
  rintro c' t' e
  cases e
  refine hh (f := fun c => c ≠ '!' ∧ c ≠ '+' ∧ c ≠ '-' ∧ c ≠ '(') (by decide) fun c hc => ?_
  refine ⟨?_, ?_, ?_, ?_⟩ <;> rintro rfl <;> exact absurd hc (by decide)

theorem prim_iri {i : Iri} {s : Str} (h : cOperandIri i s) : PrimReads (.iriOrFunction (.mk i none)) s := by
  obtain ⟨h1, h2⟩ := operandIri_head h
  refine ⟨fun c t e => ⟨(h1 c t e).1, (h1 c t e).2.1, (h1 c t e).2.2.1⟩, h2, fun w x hw hf hx => ⟨begins_iri (by decide) (by simp) h.1 h.2 _, ?_⟩⟩
  unfold primaryExpression primaryExpressionS
  obtain ⟨c, t, rfl, hc⟩ := h2
  refine alt_eval2 (Fails.map (First.cons (by simpa using (h1 c t rfl).2.2.2))) ?_
  refine alt_eval2 (Fails.map (builtIn_fails_iri h.1 h.2 _)) ?_
  refine alt_eval1 (map_eval (f := PrimaryExpression.iriOrFunction) (map_eval (a := (i, none)) (f := fun x => IriOrFunction.mk x.1 x.2) ?_))
  exact pair_eval (iri_accepts i _ _ h.1 hf) (noArgs hw hx)

theorem prim_function {i : Iri} {s w n : Str} (h : cOperandIri i s) (hw : Ws1 w) (hn : rNil n) :
    PrimReads (.iriOrFunction (.mk i (some .nil))) (s ++ (w ++ n)) := by
  obtain ⟨h1, h2⟩ := operandIri_head h
  obtain ⟨c, t, rfl, hc⟩ := h2
  refine ⟨fun c t e => ?_, ⟨_, _, rfl, hc⟩, fun w' x hw' hf hx => ⟨?_, ?_⟩⟩
  · cases e; exact ⟨(h1 _ _ rfl).1, (h1 _ _ rfl).2.1, (h1 _ _ rfl).2.2.1⟩
  · rw [List.append_assoc]
    exact begins_iri (by decide) (by simp) h.1 h.2 _
  rw [List.append_assoc, List.append_assoc]
  unfold primaryExpression primaryExpressionS
  refine alt_eval2 (Fails.map (First.cons (by simpa using (h1 c t rfl).2.2.2))) ?_
  refine alt_eval2 (Fails.map (builtIn_fails_iri h.1 h.2 _)) ?_
  refine alt_eval1 (map_eval (f := PrimaryExpression.iriOrFunction) (map_eval (a := (i, some ArgList.nil)) (f := fun x => IriOrFunction.mk x.1 x.2) ?_))
  obtain ⟨y, hy⟩ := rNil_accepts (r := w' ++ x) hn
  obtain ⟨t', rfl⟩ := rNil_head hn
  refine pair_eval (iri_accepts i _ _ h.1 (Follow.ws_close hw.1 (by simp))) (opt_eval (preceded_eval (sp1_eval hw (not_startsWs_cons rfl)) ?_))
  exact alt_eval1 (map_eval (f := fun _ => ArgList.nil) hy)

/-- What is known about a built-in call. -/
def CallReads (b : BuiltInCall) (s : Str) : Prop := (∃ u k y, s = k ++ y ∧ CaseVariant u k ∧ u ∈ callTags ∧ ∀ r, NotStart WordC (y ++ r)) ∧
  ∀ r, builtInCall (s ++ r) = .ok r b

theorem prim_call {b : BuiltInCall} {s : Str} (h : CallReads b s) : PrimReads (.builtInCall b) s := by
  obtain ⟨⟨u, k, y, rfl, hk, hu, hy⟩, h⟩ := h
  have hp := callTags_plain u hu
  obtain ⟨c, t, rfl, hc⟩ := word_head hk hp.2 hp.1
  have hc' := word_plain hc
  refine ⟨by rintro c t e; cases e; exact ⟨hc'.2.2.2.1, hc'.2.2.2.2.1, hc'.2.2.2.2.2.1⟩, ⟨_, _, rfl, hc'.1, hc'.2.1, hc'.2.2.1⟩,
    fun w x hw hf hx => ⟨?_, ?_⟩⟩
  · rw [List.append_assoc]
    refine noDistinct_kw hk hp.2 (hy _) ?_
    rintro rfl
    revert hu; decide
  · unfold primaryExpression primaryExpressionS
    refine alt_eval2 (Fails.map (First.cons (by simpa using hc'.2.2.2.2.2.2))) ?_
    exact alt_eval1 (map_eval (f := PrimaryExpression.builtInCall) (h _))

theorem close_stop {cs : List Char} (h : ')' ∈ cs) (r : Str) : Stop cs (')' :: r) := Stop.cons h

theorem bracket_reads {b : Bool} {e : Expression} {w s w' : Str} (hw : Ws w) (h : ReadsTo expression orStops b e s) (hw' : Ws w') (r : Str) :
    brackettedExpression ('(' :: (w ++ (s ++ (w' ++ [')']))) ++ r) = .ok r e := by
  show bracketted (spEnc expression) ('(' :: ((w ++ (s ++ (w' ++ [')']))) ++ r)) = _
  simp only [List.append_assoc]
  obtain ⟨hh, h⟩ := h
  obtain ⟨_, w2, hw2, _, he⟩ := h w' (')' :: r) hw' (Follow.ws_close hw' (by simp)) (close_stop (by decide) r)
  exact delimited_eval char_eval (delimited_eval (sp_eval hw (hh.not_ws _)) he (sp_eval hw2 (not_startsWs_cons rfl))) char_eval

theorem prim_bracket {b : Bool} {e : Expression} {w s w' : Str} (hw : Ws w) (h : ReadsTo expression orStops b e s) (hw' : Ws w') :
    PrimReads (.brackettedExpression e) ('(' :: (w ++ (s ++ (w' ++ [')'])))) := by
  refine ⟨by rintro c t e; cases e; decide, ⟨_, _, rfl, by decide⟩, fun w2 x _ hf hx => ⟨noDistinct_head (by decide), ?_⟩⟩
  exact alt_eval1 (map_eval (f := PrimaryExpression.brackettedExpression) (bracket_reads hw h hw' _))

/-! ## Unary operators -/

theorem sign_fails {y c : Char} [KwChar y] (hy : upperOf y = y) (h : c ≠ y) {q : P α} {r : Str} : Fails (precededTag [y] q) (c :: r) := by
  refine First.cons ?_
  cases e : (lower c == lower y) with
  | false => rfl
  | true =>
    exfalso; apply h
    rcases sameLetter_cases (lower_eq_kw (eq_of_beq e)) with rfl | rfl
    · rfl
    · exact hy

theorem unary_plain {p : PrimaryExpression} {s : Str} (h : PrimReads p s) : Reads unaryExpression (.default p) s := by
  obtain ⟨h1, h2, h3⟩ := h
  refine ⟨h2, fun w x hw hf hx => ⟨(h3 w x hw hf hx).1, ?_⟩⟩
  have h3 := (h3 w x hw hf hx).2
  obtain ⟨c, t, rfl, _⟩ := h2
  obtain ⟨ha, hb, hc⟩ := h1 c t rfl
  unfold unaryExpression unaryExpressionS
  refine alt_eval2 (Fails.map (sign_fails rfl ha)) ?_
  refine alt_eval2 (Fails.map (sign_fails rfl hb)) ?_
  refine alt_eval2 (Fails.map (sign_fails rfl hc)) ?_
  exact map_eval (f := UnaryExpression.default) h3

/-- A sign before a text. -/
theorem sign_eval {y : Char} [KwTag [y]] {q : P α} {a : α} {w r x : Str} (hw : Ws w) (hr : ¬ StartsWs r) (h : q r = .ok x a) :
    precededTag [y] q (y :: (w ++ r)) = .ok x a :=
  preceded_eval (terminated_eval (kw_eval (t := [y]) (k := [y]) (.cons (.inl rfl) .nil)) (sp_eval hw hr)) h

theorem unary_not {p : PrimaryExpression} {w s : Str} (hw : Ws w) (h : PrimReads p s) : Reads unaryExpression (.not p) ('!' :: (w ++ s)) := by
  refine ⟨⟨_, _, rfl, by decide⟩, fun w' x hw' hf hx => ⟨noDistinct_head (by decide), ?_⟩⟩
  show unaryExpression ('!' :: ((w ++ s) ++ (w' ++ x))) = _
  rw [List.append_assoc]
  exact alt_eval1 (map_eval (f := UnaryExpression.not) (sign_eval hw (h.2.1.not_ws _) (h.2.2 w' x hw' hf hx).2))

theorem unary_plus {p : PrimaryExpression} {w s : Str} (hw : Ws w) (h : PrimReads p s) : Reads unaryExpression (.add p) ('+' :: (w ++ s)) := by
  refine ⟨⟨_, _, rfl, by decide⟩, fun w' x hw' hf hx => ⟨noDistinct_head (by decide), ?_⟩⟩
  show unaryExpression ('+' :: ((w ++ s) ++ (w' ++ x))) = _
  rw [List.append_assoc]
  unfold unaryExpression unaryExpressionS
  skip1
  exact alt_eval1 (map_eval (f := UnaryExpression.add) (sign_eval hw (h.2.1.not_ws _) (h.2.2 w' x hw' hf hx).2))

theorem unary_minus {p : PrimaryExpression} {w s : Str} (hw : Ws w) (h : PrimReads p s) : Reads unaryExpression (.sub p) ('-' :: (w ++ s)) := by
  refine ⟨⟨_, _, rfl, by decide⟩, fun w' x hw' hf hx => ⟨noDistinct_head (by decide), ?_⟩⟩
  show unaryExpression ('-' :: ((w ++ s) ++ (w' ++ x))) = _
  rw [List.append_assoc]
  unfold unaryExpression unaryExpressionS
  skip1; skip1
  exact alt_eval1 (map_eval (f := UnaryExpression.sub) (sign_eval hw (h.2.1.not_ws _) (h.2.2 w' x hw' hf hx).2))

/-! ## Products -/

/-- Factors: the first is read, and the others follow. -/
def FactorsRead (l : List MultExpression) (t : Str) : Prop :=
  (l = [] → t = []) ∧ (l ≠ [] → (∃ c y, t = c :: y ∧ (c = '*' ∨ c = '/')) ∧ ∀ w x, Ws w → Stop multStops x →
    ∃ a l' j w', l = a :: l' ∧ multExpression (t ++ (w ++ x)) = .ok j a ∧ j ≠ t ++ (w ++ x) ∧ Ws1 w' ∧ SepRun sp multExpression j (w' ++ x) l')

theorem factors_nil : FactorsRead [] [] := ⟨fun _ => rfl, fun h => absurd rfl h⟩

theorem ws1_append {w w' : Str} (h : Ws1 w) (h' : Ws w') : Ws1 (w ++ w') := ⟨h.1.append h', by
  intro e; exact h.2 (List.append_eq_nil_iff.mp e).1⟩

theorem factors_cons {f : UnaryExpression → MultExpression} {y : Char} (hy : y = '*' ∨ y = '/')
    (hf : ∀ {w r x : Str} {u : UnaryExpression}, Ws w → ¬ StartsWs r → unaryExpression r = .ok x u → multExpression (y :: (w ++ r)) = .ok x (f u))
    {w s w' t : Str} {u : UnaryExpression} {l : List MultExpression} (hw : Ws w) (hu : Reads unaryExpression u s) (hw' : Ws1 w')
    (hl : FactorsRead l t) : FactorsRead (f u :: l) (y :: (w ++ (s ++ (w' ++ t)))) := by
  refine ⟨fun h => (by cases h), fun _ => ⟨⟨_, _, rfl, hy⟩, fun v x hv hx => ?_⟩⟩
  show ∃ a l' j w1, f u :: l = a :: l' ∧ multExpression (y :: ((w ++ (s ++ (w' ++ t))) ++ (v ++ x))) = .ok j a ∧
    j ≠ y :: ((w ++ (s ++ (w' ++ t))) ++ (v ++ x)) ∧ Ws1 w1 ∧ SepRun sp multExpression j (w1 ++ x) l'
  simp only [List.append_assoc]
  have hne : ∀ (j : Str) (b : MultExpression), multExpression (y :: (w ++ (s ++ (w' ++ (t ++ (v ++ x)))))) = .ok j b → j ≠ y :: (w ++ (s ++ (w' ++ (t ++ (v ++ x))))) := by
    rintro j b h rfl
    have := Consumes.out _ _ _ h
    omega
  cases l with
  | nil =>
    obtain rfl := hl.1 rfl
    have h1 := ws1_append hw' hv
    have h2 := (hu.2 (w' ++ v) x h1.1 (Stop.follow h1 hx.unary) hx.unary).2
    have h3 := hf hw (hu.1.not_ws _) h2
    rw [List.append_assoc] at h3
    refine ⟨f u, [], _, w' ++ v, rfl, h3, hne _ _ h3, h1, ?_⟩
    obtain ⟨_, _, hm⟩ := mult_stops hx
    rw [List.append_assoc]
    have h4 : sp (w' ++ (v ++ x)) = .ok x (w' ++ v) := by
      rw [← List.append_assoc]
      exact sp_eval h1.1 hx.unary.not_ws
    refine .stopElem h4 ?_ hm
    rw [← List.append_assoc]
    exact append_ne_self h1.2
  | cons b l =>
    obtain ⟨⟨c, t, rfl, hc⟩, h4⟩ := hl.2 (by simp)
    obtain ⟨b', l', j, w1, e1, e2, e3, e4, e5⟩ := h4 v x hv hx
    have hS : Stop unaryStops (c :: t ++ (v ++ x)) := Stop.cons (by rcases hc with rfl | rfl <;> decide)
    have h2 := (hu.2 w' _ hw'.1 (Stop.follow hw' hS) hS).2
    have h3 := hf hw (hu.1.not_ws _) h2
    refine ⟨f u, b :: l, _, w1, rfl, h3, hne _ _ h3, e4, ?_⟩
    cases e1
    refine .step (sp_eval hw'.1 hS.not_ws) (append_ne_self hw'.2) e2 ?_ e5
    rintro rfl
    have := Consumes.out _ _ _ e2
    simp at this
    omega

theorem factors_times {w s w' t : Str} {u : UnaryExpression} {l : List MultExpression} (hw : Ws w) (hu : Reads unaryExpression u s)
    (hw' : Ws1 w') (hl : FactorsRead l t) : FactorsRead (.mult u :: l) ('*' :: (w ++ (s ++ (w' ++ t)))) :=
  factors_cons (.inl rfl) (fun hw hr h => alt_eval1 (map_eval (f := MultExpression.mult) (sign_eval hw hr h))) hw hu hw' hl

theorem factors_over {w s w' t : Str} {u : UnaryExpression} {l : List MultExpression} (hw : Ws w) (hu : Reads unaryExpression u s)
    (hw' : Ws1 w') (hl : FactorsRead l t) : FactorsRead (.div u :: l) ('/' :: (w ++ (s ++ (w' ++ t)))) :=
  factors_cons (.inr rfl) (fun hw hr h => by
    unfold multExpression multExpressionS
    skip1
    exact map_eval (f := MultExpression.div) (sign_eval hw hr h)) hw hu hw' hl

/-- A product leaves the white space at its end. -/
def ProductReads (m : MultiplicativeExpression) (s : Str) : Prop := OperandHead s ∧ ∀ w x, Ws w → Stop multStops x →
  NoDistinct (s ++ (w ++ x)) ∧ ∃ w', Ws1 w' ∧ multiplicativeExpression (s ++ (w ++ x)) = .ok (w' ++ x) m

theorem product_mk {u : UnaryExpression} {l : List MultExpression} {s w t : Str} (hu : Reads unaryExpression u s) (hw : Ws w) (hl : l ≠ [])
    (h : FactorsRead l t) : ProductReads (.mk u l) (s ++ (w ++ t)) := by
  obtain ⟨⟨c, t, rfl, hc⟩, h4⟩ := h.2 hl
  refine ⟨hu.1.append _, fun v x hv hx => ?_⟩
  obtain ⟨b', l', j, w1, rfl, e2, e3, e4, e5⟩ := h4 v x hv hx
  simp only [List.append_assoc]
  have hS : Stop unaryStops (c :: t ++ (v ++ x)) := Stop.cons (by rcases hc with rfl | rfl <;> decide)
  have hF : Follow (w ++ (c :: t ++ (v ++ x))) := by rcases hc with rfl | rfl <;> exact Follow.ws_close hw (by simp)
  obtain ⟨h1, h2⟩ := hu.2 w _ hw hF hS
  refine ⟨h1, w1, e4, map_eval (a := (u, b' :: l')) (f := fun x => MultiplicativeExpression.mk x.1 x.2)
    (pair_eval h2 (preceded_eval (sp_eval hw hS.not_ws) (separatedList_ok.mpr (.inr ⟨b', l', j, rfl, e2, e3, e5⟩))))⟩

/-- A single operand or a product. -/
theorem mult_one {u : UnaryExpression} {s : Str} (hu : Reads unaryExpression u s) : ReadsTo multiplicativeExpression multStops true (.mk u []) s := by
  refine ⟨hu.1, fun w x hw hf hx => ?_⟩
  obtain ⟨h1, h2⟩ := hu.2 w x hw hf hx.unary
  exact ⟨h1, [], .nil, ⟨fun _ => rfl, fun h => (by cases h)⟩, map_eval (a := (u, [])) (f := fun x => MultiplicativeExpression.mk x.1 x.2)
    (pair_eval h2 (preceded_eval (sp_eval hw hx.unary.not_ws) (Fails.sep0 (mult_stops hx))))⟩

theorem mult_product {m : MultiplicativeExpression} {s : Str} (h : ProductReads m s) : ReadsTo multiplicativeExpression multStops false m s := by
  refine ⟨h.1, fun w x hw hf hx => ?_⟩
  obtain ⟨h1, w', h2, h3⟩ := h.2 w x hw hx
  exact ⟨h1, w', h2.1, ⟨fun h => (by cases h), fun _ _ => h2.2⟩, h3⟩

/-! ## Sums -/

def SummandsRead (l : List AddExpression) (t : Str) : Prop :=
  (l = [] → t = []) ∧ (l ≠ [] → (∃ c y, t = c :: y ∧ (c = '+' ∨ c = '-')) ∧ ∀ w x, Ws w → Stop addStops x →
    ∃ a l' j w', l = a :: l' ∧ addExpression (t ++ (w ++ x)) = .ok j a ∧ j ≠ t ++ (w ++ x) ∧ Ws1 w' ∧ SepRun sp addExpression j (w' ++ x) l')

theorem summands_nil : SummandsRead [] [] := ⟨fun _ => rfl, fun h => absurd rfl h⟩

theorem summands_cons {f : MultiplicativeExpression → AddExpression} {y : Char} (hy : y = '+' ∨ y = '-')
    (hf : ∀ {w r x : Str} {u : MultiplicativeExpression}, Ws w → ¬ StartsWs r → multiplicativeExpression r = .ok x u →
      addExpression (y :: (w ++ r)) = .ok x (f u))
    {w s t : Str} {m : MultiplicativeExpression} {l : List AddExpression} (hw : Ws w) (hm : ProductReads m s)
    (hl : SummandsRead l t) : SummandsRead (f m :: l) (y :: (w ++ (s ++ t))) := by
  refine ⟨fun h => (by cases h), fun _ => ⟨⟨_, _, rfl, hy⟩, fun v x hv hx => ?_⟩⟩
  show ∃ a l' j w1, f m :: l = a :: l' ∧ addExpression (y :: ((w ++ (s ++ t)) ++ (v ++ x))) = .ok j a ∧
    j ≠ y :: ((w ++ (s ++ t)) ++ (v ++ x)) ∧ Ws1 w1 ∧ SepRun sp addExpression j (w1 ++ x) l'
  simp only [List.append_assoc]
  have hne : ∀ (j : Str) (b : AddExpression), addExpression (y :: (w ++ (s ++ (t ++ (v ++ x))))) = .ok j b → j ≠ y :: (w ++ (s ++ (t ++ (v ++ x)))) := by
    rintro j b h rfl
    have := Consumes.out _ _ _ h
    omega
  cases l with
  | nil =>
    obtain rfl := hl.1 rfl
    obtain ⟨_, w2, h1, h2⟩ := hm.2 v x hv hx.mult
    have h3 := hf hw (hm.1.not_ws _) h2
    refine ⟨f m, [], _, w2, rfl, h3, hne _ _ h3, h1, ?_⟩
    obtain ⟨_, _, hm⟩ := add_stops hx
    exact .stopElem (sp_eval h1.1 hx.mult.unary.not_ws) (append_ne_self h1.2) hm
  | cons b l =>
    obtain ⟨⟨c, t, rfl, hc⟩, h4⟩ := hl.2 (by simp)
    obtain ⟨b', l', j, w1, e1, e2, e3, e4, e5⟩ := h4 v x hv hx
    have hS : Stop multStops (c :: t ++ (v ++ x)) := Stop.cons (by rcases hc with rfl | rfl <;> decide)
    obtain ⟨_, w2, h1, h2⟩ := hm.2 [] _ .nil hS
    have h3 := hf hw (hm.1.not_ws _) h2
    refine ⟨f m, b :: l, _, w1, rfl, h3, hne _ _ h3, e4, ?_⟩
    cases e1
    refine .step (sp_eval h1.1 hS.unary.not_ws) (append_ne_self h1.2) e2 ?_ e5
    rintro rfl
    have := Consumes.out _ _ _ e2
    simp at this
    omega

theorem summands_plus {w s t : Str} {m : MultiplicativeExpression} {l : List AddExpression} (hw : Ws w) (hm : ProductReads m s)
    (hl : SummandsRead l t) : SummandsRead (.add m :: l) ('+' :: (w ++ (s ++ t))) :=
  summands_cons (.inl rfl) (fun hw hr h => alt_eval1 (map_eval (f := AddExpression.add) (sign_eval hw hr h))) hw hm hl

theorem summands_minus {w s t : Str} {m : MultiplicativeExpression} {l : List AddExpression} (hw : Ws w) (hm : ProductReads m s)
    (hl : SummandsRead l t) : SummandsRead (.sub m :: l) ('-' :: (w ++ (s ++ t))) :=
  summands_cons (.inr rfl) (fun hw hr h => by
    unfold addExpression addExpressionS
    skip1
    exact alt_eval1 (map_eval (f := AddExpression.sub) (sign_eval hw hr h))) hw hm hl

theorem add_one {b : Bool} {m : MultiplicativeExpression} {s : Str} (hm : ReadsTo multiplicativeExpression multStops b m s) :
    ReadsTo additiveExpression addStops true (.mk m []) s := by
  refine ⟨hm.1, fun w x hw hf hx => ?_⟩
  obtain ⟨h1, w', h2, _, h3⟩ := hm.2 w x hw hf hx.mult
  exact ⟨h1, [], .nil, ⟨fun _ => rfl, fun h => (by cases h)⟩, map_eval (a := (m, [])) (f := fun x => AdditiveExpression.mk x.1 x.2)
    (pair_eval h3 (preceded_eval (sp_eval h2 hx.mult.unary.not_ws) (Fails.sep0 (add_stops hx))))⟩

theorem add_sum {b : Bool} {m : MultiplicativeExpression} {l : List AddExpression} {s w t : Str} (hm : ReadsTo multiplicativeExpression multStops b m s)
    (hw : Ws1 w) (hl : l ≠ []) (h : SummandsRead l t) : ReadsTo additiveExpression addStops false (.mk m l) (s ++ (w ++ t)) := by
  obtain ⟨⟨c, t, rfl, hc⟩, h4⟩ := h.2 hl
  refine ⟨hm.1.append _, fun v x hv hf hx => ?_⟩
  obtain ⟨b', l', j, w1, rfl, e2, e3, e4, e5⟩ := h4 v x hv hx
  simp only [List.append_assoc]
  have hS : Stop multStops (c :: t ++ (v ++ x)) := Stop.cons (by rcases hc with rfl | rfl <;> decide)
  obtain ⟨h1, w2, h2, _, h3⟩ := hm.2 w _ hw.1 (Stop.follow hw hS.unary) hS
  refine ⟨h1, w1, e4.1, ⟨fun h => (by cases h), fun _ _ => e4.2⟩, map_eval (a := (m, b' :: l')) (f := fun x => AdditiveExpression.mk x.1 x.2)
    (pair_eval h3 (preceded_eval (sp_eval h2 hS.unary.not_ws) (separatedList_ok.mpr (.inr ⟨b', l', j, rfl, e2, e3, e5⟩))))⟩

/-! ## Relations -/

def OpReads (b sign : Bool) (o : OpExpression) (t : Str) : Prop :=
  (∃ c y, t = c :: y ∧ c ∈ (if sign then ['=', '!', '<', '>'] else ['i', 'I', 'n', 'N'])) ∧ ∀ w x, Ws w → Follow (w ++ x) → Stop relStops x →
    ∃ w', Ws w' ∧ Left b w w' ∧ opExpression (t ++ (w ++ x)) = .ok (w' ++ x) o

theorem sign2_eval {y z : Char} [KwTag [y, z]] {q : P α} {a : α} {w r x : Str} (hw : Ws w) (hr : ¬ StartsWs r) (h : q r = .ok x a) :
    precededTag [y, z] q (y :: z :: (w ++ r)) = .ok x a :=
  preceded_eval (terminated_eval (kw_eval (t := [y, z]) (k := [y, z]) (.cons (.inl rfl) (.cons (.inl rfl) .nil))) (sp_eval hw hr)) h

theorem op_sign {f : AdditiveExpression → OpExpression} {t0 : Str} (ht : ∃ c y, t0 = c :: y ∧ c ∈ ['=', '!', '<', '>'])
    (hf : ∀ {w r x : Str} {u : AdditiveExpression}, Ws w → ¬ StartsWs r → additiveExpression r = .ok x u →
      opExpression (t0 ++ (w ++ r)) = .ok x (f u))
    {b : Bool} {w s : Str} {a : AdditiveExpression} (hw : Ws w) (h : ReadsTo additiveExpression addStops b a s) :
    OpReads b true (f a) (t0 ++ (w ++ s)) := by
  obtain ⟨c, y, rfl, hc⟩ := ht
  refine ⟨⟨c, _, rfl, hc⟩, fun v x hv hF hx => ?_⟩
  obtain ⟨_, w', h2, h3, h4⟩ := h.2 v x hv hF hx.add
  refine ⟨w', h2, h3, ?_⟩
  simp only [List.append_assoc]
  exact hf hw (h.1.not_ws _) h4

theorem op_eq {b : Bool} {w s : Str} {a : AdditiveExpression} (hw : Ws w) (h : ReadsTo additiveExpression addStops b a s) :
    OpReads b true (.eq a) ('=' :: (w ++ s)) :=
  op_sign (t0 := ['=']) ⟨_, _, rfl, by simp⟩ (fun {w r x u} hw hr h => by
    unfold opExpression opExpressionS
    exact alt_eval1 (map_eval (f := OpExpression.eq) (sign_eval (w := w) (r := r) hw hr h))) hw h

theorem op_ne {b : Bool} {w s : Str} {a : AdditiveExpression} (hw : Ws w) (h : ReadsTo additiveExpression addStops b a s) :
    OpReads b true (.ne a) ('!' :: '=' :: (w ++ s)) :=
  op_sign (t0 := ['!', '=']) ⟨_, _, rfl, by simp⟩ (fun {w r x u} hw hr h => by
    unfold opExpression opExpressionS
    refine alt_eval2 (Fails.map (First.cons (c := '!') rfl)) ?_
    exact alt_eval1 (map_eval (f := OpExpression.ne) (sign2_eval (w := w) (r := r) hw hr h))) hw h

theorem op_lt {b : Bool} {w s : Str} {a : AdditiveExpression} (hw : Ws w) (h : ReadsTo additiveExpression addStops b a s) :
    OpReads b true (.lt a) ('<' :: (w ++ s)) :=
  op_sign (t0 := ['<']) ⟨_, _, rfl, by simp⟩ (fun {w r x u} hw hr h => by
    unfold opExpression opExpressionS
    refine alt_eval2 (Fails.map (First.cons (c := '<') rfl)) ?_
    refine alt_eval2 (Fails.map (First.cons (c := '<') rfl)) ?_
    exact alt_eval1 (map_eval (f := OpExpression.lt) (sign_eval (w := w) (r := r) hw hr h))) hw h

theorem op_gt {b : Bool} {w s : Str} {a : AdditiveExpression} (hw : Ws w) (h : ReadsTo additiveExpression addStops b a s) :
    OpReads b true (.gt a) ('>' :: (w ++ s)) :=
  op_sign (t0 := ['>']) ⟨_, _, rfl, by simp⟩ (fun {w r x u} hw hr h => by
    unfold opExpression opExpressionS
    refine alt_eval2 (Fails.map (First.cons (c := '>') rfl)) ?_
    refine alt_eval2 (Fails.map (First.cons (c := '>') rfl)) ?_
    refine alt_eval2 (Fails.map (First.cons (c := '>') rfl)) ?_
    exact alt_eval1 (map_eval (f := OpExpression.gt) (sign_eval (w := w) (r := r) hw hr h))) hw h

/-- `<` and `>` do not match before `=`. -/
theorem sign_eq_fails {y : Char} [KwTag [y]] {r : Str} : Fails (precededTag [y] additiveExpression) (y :: '=' :: r) :=
  Fails.preceded2 (terminated_eval (kw_eval (t := [y]) (k := [y]) (.cons (.inl rfl) .nil)) (sp_zero (not_startsWs_cons rfl)))
    (First.cons (c := '=') rfl)

theorem op_le {b : Bool} {w s : Str} {a : AdditiveExpression} (hw : Ws w) (h : ReadsTo additiveExpression addStops b a s) :
    OpReads b true (.le a) ('<' :: '=' :: (w ++ s)) :=
  op_sign (t0 := ['<', '=']) ⟨_, _, rfl, by simp⟩ (fun {w r x u} hw hr h => by
    unfold opExpression opExpressionS
    refine alt_eval2 (Fails.map (First.cons (c := '<') rfl)) ?_
    refine alt_eval2 (Fails.map (First.cons (c := '<') rfl)) ?_
    refine alt_eval2 (Fails.map sign_eq_fails) ?_
    refine alt_eval2 (Fails.map (First.cons (c := '<') rfl)) ?_
    exact alt_eval1 (map_eval (f := OpExpression.le) (sign2_eval (w := w) (r := r) hw hr h))) hw h

theorem op_ge {b : Bool} {w s : Str} {a : AdditiveExpression} (hw : Ws w) (h : ReadsTo additiveExpression addStops b a s) :
    OpReads b true (.ge a) ('>' :: '=' :: (w ++ s)) :=
  op_sign (t0 := ['>', '=']) ⟨_, _, rfl, by simp⟩ (fun {w r x u} hw hr h => by
    unfold opExpression opExpressionS
    refine alt_eval2 (Fails.map (First.cons (c := '>') rfl)) ?_
    refine alt_eval2 (Fails.map (First.cons (c := '>') rfl)) ?_
    refine alt_eval2 (Fails.map (First.cons (c := '>') rfl)) ?_
    refine alt_eval2 (Fails.map sign_eq_fails) ?_
    refine alt_eval2 (Fails.map (First.cons (c := '>') rfl)) ?_
    exact alt_eval1 (map_eval (f := OpExpression.ge) (sign2_eval (w := w) (r := r) hw hr h))) hw h

theorem exprList_nil {n r : Str} (hn : rNil n) : expressionList (n ++ r) = .ok r .nil := by
  obtain ⟨y, hy⟩ := rNil_accepts (r := r) hn
  exact alt_eval1 (map_eval (f := fun _ => ExpressionList.nil) hy)

theorem kw_head {x : Char} {t k : Str} (h : CaseVariant (x :: t) k) : ∃ c y, k = c :: y ∧ (c = x ∨ c = upperOf x) := by
  obtain ⟨y, k', rfl, hs, _⟩ := CaseVariant.cons_iff.mp h
  exact ⟨y, k', rfl, sameLetter_cases hs⟩

theorem op_in {k w n : Str} (hk : kw c!"in" k) (hw : Ws w) (hn : rNil n) : OpReads false false (.in .nil) (k ++ (w ++ n)) := by
  refine ⟨?_, fun v x hv hF hx => ⟨v, hv, ⟨fun h => (by cases h), fun _ h => h⟩, ?_⟩⟩
  · obtain ⟨c, y, rfl, h⟩ := kw_head hk
    exact ⟨c, _, rfl, by rcases h with rfl | rfl <;> decide⟩
  simp only [List.append_assoc]
  unfold opExpression opExpressionS
  refine alt_eval2 (Fails.map (kw_first hk rfl)) ?_
  refine alt_eval2 (Fails.map (kw_first hk rfl)) ?_
  refine alt_eval2 (Fails.map (kw_first hk rfl)) ?_
  refine alt_eval2 (Fails.map (kw_first hk rfl)) ?_
  refine alt_eval2 (Fails.map (kw_first hk rfl)) ?_
  refine alt_eval2 (Fails.map (kw_first hk rfl)) ?_
  have h1 := exprList_nil (r := v ++ x) hn
  obtain ⟨t', rfl⟩ := rNil_head hn
  exact alt_eval1 (map_eval (f := OpExpression.in) (preceded_eval (terminated_eval (kw_eval hk) (sp_eval hw (not_startsWs_cons rfl))) h1))

theorem kws_eval {t k r : Input} [KwTag t] (h : CaseVariant t k) : tagNoCaseStreaming t (k ++ r) = .ok r k :=
  tagNoCaseStreaming_ok_iff.mpr ⟨rfl, h⟩

theorem op_notIn {k w k' w' n : Str} (hk : kw c!"not" k) (hw : Ws1 w) (hk' : kw c!"in" k') (hw' : Ws1 w') (hn : rNil n) :
    OpReads false false (.nin .nil) (k ++ (w ++ (k' ++ (w' ++ n)))) := by
  refine ⟨?_, fun v x hv hF hx => ⟨v, hv, ⟨fun h => (by cases h), fun _ h => h⟩, ?_⟩⟩
  · obtain ⟨c, y, rfl, h⟩ := kw_head hk
    exact ⟨c, _, rfl, by rcases h with rfl | rfl <;> decide⟩
  simp only [List.append_assoc]
  unfold opExpression opExpressionS
  refine alt_eval2 (Fails.map (kw_first hk rfl)) ?_
  refine alt_eval2 (Fails.map (kw_first hk rfl)) ?_
  refine alt_eval2 (Fails.map (kw_first hk rfl)) ?_
  refine alt_eval2 (Fails.map (kw_first hk rfl)) ?_
  refine alt_eval2 (Fails.map (kw_first hk rfl)) ?_
  refine alt_eval2 (Fails.map (kw_first hk rfl)) ?_
  refine alt_eval2 (Fails.map (kw_first hk rfl)) ?_
  have h1 := exprList_nil (r := v ++ x) hn
  obtain ⟨t', rfl⟩ := rNil_head hn
  refine map_eval (f := OpExpression.nin) (preceded_eval (terminated_eval (kws_eval hk) (delimited_eval (sp1_eval hw ?_) (kws_eval hk')
    (sp1_eval hw' (not_startsWs_cons rfl)))) h1)
  obtain ⟨c, y, rfl, h⟩ := kw_head hk'
  exact not_startsWs_cons (by rcases h with rfl | rfl <;> rfl)

theorem rel_one {b : Bool} {a : AdditiveExpression} {s : Str} (h : ReadsTo additiveExpression addStops b a s) :
    ReadsTo relationalExpression relStops b (.mk a none) s := by
  refine ⟨h.1, fun w x hw hF hx => ?_⟩
  obtain ⟨h1, w', h2, h3, h4⟩ := h.2 w x hw hF hx.add
  exact ⟨h1, w', h2, h3, map_eval (a := (a, none)) (f := fun x => RelationalExpression.mk x.1 x.2)
    (pair_eval h4 (Fails.opt (Fails.preceded2 (sp_eval h2 hx.add.mult.unary.not_ws) (op_stops hx))))⟩

theorem rel_op {b b' sign : Bool} {a : AdditiveExpression} {o : OpExpression} {s w t : Str} (h : ReadsTo additiveExpression addStops b a s)
    (hw : Ws w) (hs : sign = false → w ≠ []) (ho : OpReads b' sign o t) :
    ReadsTo relationalExpression relStops b' (.mk a (some o)) (s ++ (w ++ t)) := by
  obtain ⟨⟨c, t, rfl, hc⟩, ho⟩ := ho
  refine ⟨h.1.append _, fun v x hv hF hx => ?_⟩
  simp only [List.append_assoc]
  have hS : Stop addStops (c :: t ++ (v ++ x)) := Stop.cons (by
    cases sign <;> simp only [if_true, Bool.false_eq_true, if_false, List.mem_cons, List.not_mem_nil, or_false] at hc <;>
    rcases hc with rfl | rfl | rfl | rfl <;> decide)
  have hF' : Follow (w ++ (c :: t ++ (v ++ x))) := by
    cases sign with
    | false => exact Stop.follow ⟨hw, hs rfl⟩ hS.mult.unary
    | true =>
      simp only [if_true, List.mem_cons, List.not_mem_nil, or_false] at hc
      rcases hc with rfl | rfl | rfl | rfl <;> exact Follow.ws_close hw (by simp)
  obtain ⟨h1, w1, h2, h3, h4⟩ := h.2 w _ hw hF' hS
  obtain ⟨w2, e1, e2, e3⟩ := ho v x hv hF hx
  exact ⟨h1, w2, e1, e2, map_eval (a := (a, some o)) (f := fun x => RelationalExpression.mk x.1 x.2)
    (pair_eval h4 (opt_eval (preceded_eval (sp_eval h2 hS.mult.unary.not_ws) e3)))⟩

/-! ## Conjunctions and disjunctions -/

/-- A chain: the first member is read, and the others follow. -/
def ChainReads (sep : P σ) (p : P α) (cs : List Char) (b : Bool) (l : List α) (s : Str) : Prop := OperandHead s ∧
  ∀ w x, Ws w → Follow (w ++ x) → Stop cs x → NoDistinct (s ++ (w ++ x)) ∧
    ∃ a l' j w', l = a :: l' ∧ p (s ++ (w ++ x)) = .ok j a ∧ j ≠ s ++ (w ++ x) ∧ Ws w' ∧ Left b w w' ∧ SepRun sep p j (w' ++ x) l'

theorem ne_of_consumes {p : P α} [Consumes p] {i j : Str} {a : α} (h : p i = .ok j a) : j ≠ i := by
  rintro rfl
  have := Consumes.out _ _ _ h
  omega

theorem chain_one {sep : P σ} {p : P α} [Consumes p] {cs cs' : List Char} (hc : ∀ {x}, Stop cs' x → Stop cs x)
    (hs : ∀ {w x}, Ws w → Stop cs' x → Fails sep (w ++ x)) {b : Bool} {a : α} {s : Str} (h : ReadsTo p cs b a s) :
    ChainReads sep p cs' b [a] s := by
  refine ⟨h.1, fun w x hw hF hx => ?_⟩
  obtain ⟨h1, w', h2, h3, h4⟩ := h.2 w x hw hF (hc hx)
  obtain ⟨_, _, e⟩ := hs h2 hx
  exact ⟨h1, a, [], _, w', rfl, h4, ne_of_consumes h4, h2, h3, .stopSep e⟩

theorem chain_cons {c : Char} {p : P α} [Good p] [Consumes p] {cs cs' : List Char} (hc : c ∈ cs) (hd : c ∈ ['&', '|'])
    (hu : ∀ {x}, Stop cs x → Stop unaryStops x) {b b' : Bool} {a : α} {l : List α} {s w w' t : Str} (h : ReadsTo p cs b a s) (hw : Ws w)
    (hw' : Ws w') (ht : ChainReads (spEnc (tag [c, c])) p cs' b' l t) :
    ChainReads (spEnc (tag [c, c])) p cs' b' (a :: l) (s ++ (w ++ c :: c :: (w' ++ t))) := by
  refine ⟨h.1.append _, fun v x hv hF hx => ?_⟩
  obtain ⟨_, a', l', j, w2, rfl, e1, e2, e3, e4, e5⟩ := ht.2 v x hv hF hx
  have e : (s ++ (w ++ c :: c :: (w' ++ t))) ++ (v ++ x) = s ++ (w ++ c :: c :: (w' ++ (t ++ (v ++ x)))) := by simp
  rw [e]
  have hS : Stop cs (c :: c :: (w' ++ (t ++ (v ++ x)))) := Stop.cons hc
  have hF' : Follow (w ++ c :: c :: (w' ++ (t ++ (v ++ x)))) := by
    simp only [List.mem_cons, List.not_mem_nil, or_false] at hd
    rcases hd with rfl | rfl <;> exact Follow.ws_close hw (by simp)
  obtain ⟨h1, w1, h2, _, h4⟩ := h.2 w _ hw hF' hS
  refine ⟨h1, a, a' :: l', _, w2, rfl, h4, ne_of_consumes h4, e3, e4, ?_⟩
  have hsep : spEnc (tag [c, c]) (w1 ++ c :: c :: (w' ++ (t ++ (v ++ x)))) = .ok (t ++ (v ++ x)) [c, c] :=
    delimited_eval (sp_eval h2 (hu hS).not_ws) (tag_eval (t := [c, c])) (sp_eval hw' (ht.1.not_ws _))
  refine .step hsep ?_ e1 ?_ e5
  · intro e
    have := congrArg List.length e
    simp at this
    omega
  · rintro rfl
    have := Consumes.out _ _ _ e1
    simp at this
    omega

theorem chain_accept {sep : P σ} {p : P α} [Good sep] [Good p] {cs : List Char} {b : Bool} {l : List α} {s : Str} (h : ChainReads sep p cs b l s)
    {f : List α → β} : ReadsTo (map (separatedNonemptyList sep p) f) cs b (f l) s := by
  refine ⟨h.1, fun w x hw hF hx => ?_⟩
  obtain ⟨h1, a', l', j, w2, rfl, e1, e2, e3, e4, e5⟩ := h.2 w x hw hF hx
  exact ⟨h1, w2, e3, e4, map_eval (separatedNonemptyList_ok.mpr ⟨a', l', j, rfl, e1, e2, e5⟩)⟩

end NomSparql
