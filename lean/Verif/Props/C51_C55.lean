import Verif.Spec.Leaf
import Verif.Props.C30_C32
import Verif.Props.C42_C45
import Verif.Props.C46_C50

/-!
# C51 to C55: whole trees, whole queries, errors
-/

namespace NomSparql

set_option maxRecDepth 8000

/-! ## C51: characters excluded from short string literals -/

/-- STRING_LITERAL1 of SPARQL 1.1 excludes the quote `'`, the backslash and line ends. -/
theorem C51_single_quoted (c : Char) : isIllegalCharLit1 c = true ↔ c ∈ ['\'', '\\', '\n', '\r'] := by
  have e : ∀ d : Char, c.toNat = d.toNat ↔ c = d := fun d => Char.toNat_inj
  unfold isIllegalCharLit1
  simp only [Bool.or_eq_true, decide_eq_true_eq, List.mem_cons, List.not_mem_nil, or_false]
  rw [← e '\'', ← e '\\', ← e '\n', ← e '\r', or_assoc, or_assoc]
  exact Iff.rfl

/-- STRING_LITERAL2 excludes the quote `"`, the backslash and line ends; the code agrees on all characters but `'`. -/
theorem C51_double_quoted_partial (c : Char) (hc : c ≠ '\'') : isIllegalCharLit2 c = true ↔ c ∈ ['"', '\\', '\n', '\r'] := by
  have e : ∀ d : Char, c.toNat = d.toNat ↔ c = d := fun d => Char.toNat_inj
  unfold isIllegalCharLit2
  have h1 := C51_single_quoted c
  cases h : isIllegalCharLit1 c
  · rw [h] at h1
    have : c ∉ ['\'', '\\', '\n', '\r'] := fun hm => by simpa using h1.mpr hm
    simp only [List.mem_cons, List.not_mem_nil, or_false, not_or] at this
    simp only [Bool.not_false, if_true, decide_eq_true_eq, List.mem_cons, List.not_mem_nil, or_false]
    rw [show c.toNat = 0x22 ↔ c = '"' from e '"']
    simp [this]
  · rw [h] at h1
    have := h1.mp rfl
    simp only [List.mem_cons, List.not_mem_nil, or_false] at this ⊢
    simp only [Bool.not_true, Bool.false_eq_true, if_false, true_iff]
    exact .inr (this.resolve_left hc)

/-- Violated: `'` is legal between double quotes, but excluded there too. -/
theorem C51_apostrophe_violated : isIllegalCharLit2 '\'' = true ∧ '\'' ∉ ['"', '\\', '\n', '\r'] := by decide

example : isIllegalCharLit1 'a' = false ∧ isIllegalCharLit1 '"' = false ∧ isIllegalCharLit2 '"' = true := by decide

/-! ## C52: names, literals and numbers in returned trees are well-formed -/

theorem iri_good {i r : Str} {a : Iri} (h : iri i = .ok r a) : GoodIri a := by
  cases a with
  | iri s => exact (C13_accepted_legal _ _ _ ((C13_iri _ _ _).mp h)).2
  | prefixedName n =>
    have h := iri_prefixed.mp h
    cases n with
    | pnameLN o l => obtain ⟨_, _, _, _, _, h1, h2⟩ := C14_accepted _ _ _ _ h; exact ⟨h1, h2⟩
    | pnameNS o => obtain ⟨_, _, _, h1⟩ := C14_accepted_ns _ _ _ h; exact h1

theorem string_good {i r s : Str} (h : stringLiteral i = .ok r s) : GoodString s := by
  obtain ⟨q, hq, _, hb, hn⟩ := (C15_exact _ _ _).mp h
  exact ⟨hn, q, hq, hb⟩

theorem literal_good {i r : Str} {a : RdfLiteral} (h : rdfLiteral i = .ok r a) : GoodLiteral a := by
  obtain ⟨r1, h1, h2⟩ := rdfLiteral_ok.mp h
  refine ⟨string_good h1, ?_⟩
  rcases opt_ok.mp h2 with ⟨d, e, h3⟩ | ⟨e, _⟩
  · rw [e]
    cases d with
    | langTag t => exact (languageTag_ok.mp (litDescr_lang.mp h3)).2.1
    | iriRef d => obtain ⟨j, _, h4⟩ := litDescr_iri.mp h3; exact iri_good h4
  · rw [e]; trivial

theorem number_good {i r : Str} {a : NumericLiteral} (h : numericLiteral i = .ok r a) : GoodNumber a := by
  cases a with
  | int v => obtain ⟨_, _, _, h1, _⟩ := (C17_exact _ _ _).mp h; exact h1
  | double d o =>
    obtain ⟨m, x, _, h1, _, h2⟩ := C18_accepted _ _ _ _ h
    refine ⟨⟨m, h1⟩, ?_⟩
    rintro v hv
    cases hv
    exact h2.2

theorem blank_good {i r : Str} {a : BlankNode} (h : blankNode i = .ok r a) : GoodBlank a := by
  cases a with
  | anon => trivial
  | label s => obtain ⟨_, _, _, h1⟩ := C20_label_accepted _ _ _ h; exact h1

theorem intClause_good {t : Str} {n : Nat} {s : Str} (h : IntClauseText t n s) : n < 2 ^ 64 := by
  obtain ⟨_, _, _, _, _, _, _, _, _, h⟩ := h
  exact h

theorem limit_good {i r : Str} {a : LimitOffsetClause} (h : limitOffsetClause i = .ok r a) : GoodLimit a := by
  cases a with
  | limitOffset l o =>
    obtain ⟨r1, r2, w, h1, _, h3⟩ := limitOffset_ok.mp h
    obtain ⟨_, _, h4, _⟩ := (C26_limit _ _ _).mp h1
    refine ⟨intClause_good h4, ?_⟩
    rintro n hn
    cases hn
    rcases opt_ok.mp h3 with ⟨_, e, h5⟩ | ⟨e, _⟩
    · cases e
      obtain ⟨_, _, h6, _⟩ := (C26_offset _ _ _).mp h5
      exact intClause_good h6
    · cases e
  | offsetLimit o l =>
    obtain ⟨r1, r2, w, h1, _, h3⟩ := offsetLimit_ok.mp h
    obtain ⟨_, _, h4, _⟩ := (C26_offset _ _ _).mp h1
    refine ⟨intClause_good h4, ?_⟩
    rintro n hn
    cases hn
    rcases opt_ok.mp h3 with ⟨_, e, h5⟩ | ⟨e, _⟩
    · cases e
      obtain ⟨_, _, h6, _⟩ := (C26_limit _ _ _).mp h5
      exact intClause_good h6
    · cases e

theorem NameTail.weaken {f g : Char → Prop} (hf : ∀ c, f c → g c) {t : Str} (h : NameTail f t) : NameTail g t := by
  obtain ⟨h1, h2⟩ := h
  exact ⟨fun c hc => (h1 c hc).imp (hf c) id, h2.imp id fun ⟨t', c, e, hc⟩ => ⟨t', c, e, hf c hc⟩⟩

theorem codedBase_name {c : Char} (h : CodedBase c) : NameChar c := pnB_outer c (codedBase_iff.mpr h)

theorem prefix_good {o : Option Str} (h : OptPrefix CodedBase CodedNameChar o) : GoodPrefix o := by
  cases o with
  | none => trivial
  | some p =>
    obtain ⟨c, t, rfl, hc, ht⟩ := h
    refine ⟨c, t, rfl, codedBase_name hc, ht.weaken ?_⟩
    rintro d (h | h | h | h)
    · exact .inl (codedBase_name h)
    · exact .inl (.inr (.inr (.inl h)))
    · exact .inr h
    · exact .inl (.inr (.inl h))

theorem many_good {l : List BaseOrPrefixDecl} {R : BaseOrPrefixDecl → Lang} (hR : ∀ d s, R d s → GoodDecl d) {s : Str} (h : Many R l s) :
    ∀ d ∈ l, GoodDecl d := by
  induction l generalizing s with
  | nil => intro d hd; cases hd
  | cons a l ih =>
    obtain ⟨x, y, _, h1, h2⟩ := h
    intro d hd
    rcases List.mem_cons.mp hd with rfl | hd
    · exact hR _ _ h1
    · exact ih h2 d hd

theorem prologue_good {i r : Str} {p : Prologue} (h : prologue i = .ok r p) : ∀ d ∈ p.decls, GoodDecl d := by
  obtain ⟨s, _, h⟩ := C24_accepted i r p h
  have key : ∀ d s, rBaseOrPrefixDecl d s → GoodDecl d := by
    intro d s h
    cases d with
    | base x => obtain ⟨_, _, _, _, _, _, _, _, _, h⟩ := h; exact h
    | «prefix» d =>
      obtain ⟨_, _, _, _, _, _, _, ⟨_, _, _, _, _, _, _, ⟨_, _, _, ⟨_, h1⟩, _⟩, _⟩, _, h2⟩ := h
      exact ⟨prefix_good h1, h2⟩
  obtain ⟨l⟩ := p
  cases l with
  | nil => intro d hd; cases hd
  | cons a l =>
    obtain ⟨x, y, _, h1, h2⟩ := h
    intro d hd
    rcases List.mem_cons.mp hd with rfl | hd
    · exact key _ _ h1
    · exact many_good (fun d s ⟨_, _, _, _, h⟩ => key d _ h) h2 d hd

instance : LeafOk goodLeaves := ⟨fun _ h => C12_accepted _ _ _ h, fun _ => iri_good, fun _ => literal_good, fun _ => number_good, fun _ => blank_good, fun _ => limit_good, fun _ => string_good, fun _ => prologue_good⟩

/-- In every accepted query, at every depth. -/
theorem C52_query (i r : Str) (q : SparqlQueryStatement) (h : sparqlQueryStmt i = .ok r q) : FSparqlQueryStatement goodLeaves q :=
  Yields.out (T := goodLeaves) h

/-- In every accepted update, at every depth. -/
theorem C52_update (i r : Str) (u : Update) (h : update i = .ok r u) : FUpdate goodLeaves u := Yields.out (T := goodLeaves) h

theorem C52_expression (i r : Str) (e : Expression) (h : expression i = .ok r e) : FExpression goodLeaves e := Yields.out (T := goodLeaves) h
theorem C52_group (i r : Str) (g : GroupGraphPattern) (h : groupGraphPattern i = .ok r g) : FGroupGraphPattern goodLeaves g :=
  Yields.out (T := goodLeaves) h

/-- The declarations of an accepted prologue. -/
theorem C52_prologue (i r : Str) (p : Prologue) (h : prologue i = .ok r p) : ∀ d ∈ p.decls, GoodDecl d := prologue_good h

/-! Cases: trees that are not well-formed, and a well-formed one that is returned. -/
example : ¬ GoodVar (.qmark c!"a b") := fun h => absurd (h.2 ' ' (List.mem_cons_of_mem _ (List.mem_cons_self ..))) (by decide)
example : ¬ GoodIri (.iri c!"a>b") := fun h => h '>' (List.mem_cons_of_mem _ (List.mem_cons_self ..)) (by decide)
example : ¬ GoodNumber (.int (2 ^ 63)) := fun h => absurd h.2 (by decide)
example : ¬ GoodLimit (.limitOffset (2 ^ 64) none) := fun h => absurd h.1 (by decide)
example : FSparqlQueryStatement goodLeaves ⟨⟨[]⟩, .ask ⟨[], .groupGraphPatternSub (.mk none []), .mk none none none (some (.limitOffset 7 none))⟩, none⟩ :=
  C52_query c!"ASK { } LIMIT 7" [] _ rfl
example : ∃ q, sparqlQueryStmt c!"ASK { ?s ?p 5 } LIMIT 7" = .ok [] q ∧ FSparqlQueryStatement goodLeaves q := by
  have h : ∃ q, sparqlQueryStmt c!"ASK { ?s ?p 5 } LIMIT 7" = .ok [] q := ⟨_, rfl⟩
  obtain ⟨q, h⟩ := h
  exact ⟨q, h, C52_query _ _ _ h⟩

/-! ## C53: every kind of node can be returned -/

/-- No condition but that the marked constructors do not occur. -/
def noDead : Leaves := ⟨fun _ => True, fun _ => True, fun _ => True, fun _ => True, fun _ => True, fun _ => True, fun _ => True, fun _ => True, False⟩

instance : LeafOk noDead := by constructor <;> intros <;> trivial

/-- Violated, for all inputs and at every depth: collections and property lists as nodes, subjects that are such nodes in WHERE, argument lists
and IN lists with elements, ABS, CEIL, FLOOR, ROUND and the ADD and MOVE statements are never returned. -/
theorem C53_query_violated (i r : Str) (q : SparqlQueryStatement) (h : sparqlQueryStmt i = .ok r q) : FSparqlQueryStatement noDead q :=
  Yields.out (T := noDead) h

theorem C53_update_violated (i r : Str) (u : Update) (h : update i = .ok r u) : FUpdate noDead u := Yields.out (T := noDead) h

/-- The same spelled out for the parsers of these nodes. -/
theorem C53_nodes_violated (i r : Str) (t : TriplesNode) (t' : TriplesNodePath) (p : Option PropertyListPath) :
    graphNode i ≠ .ok r (.triplesNode t) ∧ graphNodePath i ≠ .ok r (.triplesNodePath t') ∧ triplesSameSubjectPath i ≠ .ok r (.node t' p) := by
  refine ⟨fun h => ?_, fun h => ?_, fun h => ?_⟩
  · have := Yields.out (T := goodLeaves) h; cases this; assumption
  · have := Yields.out (T := goodLeaves) h; cases this; assumption
  · have := Yields.out (T := goodLeaves) h; cases this; assumption

theorem C53_lists_violated (i r : Str) (l : List Expression) (d : Bool) :
    expressionList i ≠ .ok r (.list l) ∧ argList i ≠ .ok r (.expression d l) := by
  refine ⟨fun h => ?_, fun h => ?_⟩
  · have := Yields.out (T := goodLeaves) h; cases this; assumption
  · have := Yields.out (T := goodLeaves) h; cases this; assumption

theorem C53_calls_violated (i r : Str) (e : Expression) :
    builtInCall i ≠ .ok r (.abs e) ∧ builtInCall i ≠ .ok r (.ceil e) ∧ builtInCall i ≠ .ok r (.floor e) ∧ builtInCall i ≠ .ok r (.round e) := by
  refine ⟨fun h => ?_, fun h => ?_, fun h => ?_, fun h => ?_⟩ <;>
  · have := Yields.out (T := goodLeaves) h; cases this; assumption

theorem C53_statements_violated (i r : Str) (a : AddStatement) (m : MoveStatement) :
    updateStmt i ≠ .ok r (.add a) ∧ updateStmt i ≠ .ok r (.move m) := by
  refine ⟨fun h => ?_, fun h => ?_⟩ <;>
  · have := Yields.out (T := goodLeaves) h; cases this; assumption

/-- Some text makes `p` return `a`. -/
def Returned (p : P α) (a : α) : Prop := ∃ i r, p i = .ok r a

/-- The other built-in calls are returned, each constructor for some text.  Missing for the full property: the constructors above. -/
theorem C53_calls_partial : let v : Expression := .mk [.mk [.mk (.mk (.mk (.default (.var (.qmark c!"v"))) []) []) none]]
    ∀ c ∈ ([
      .str v, .lang v, .datatype v, .iri v, .uri v, .uCase v, .lCase v, .encodeForUri v,
      .year v, .month v, .day v, .hours v, .minutes v, .seconds v, .timezone v, .tz v,
      .md5 v, .sha1 v, .sha256 v, .sha384 v, .sha512 v, .isIri v, .isUri v, .isBlank v,
      .isLiteral v, .isNumeric v, .langMatches v v, .strStarts v v, .strEnds v v, .strBefore v v, .strAfter v v, .strLang v v,
      .strDt v v, .sameTerm v v, .contains v v, .bound (.qmark c!"v"), .bnode (some v), .bnode none, .rand, .now,
      .uuid, .strUuid, .if v v v, .regex (.mk v v (some v)), .coalesce .nil, .concat .nil (.mk v v none), .strLen v (.mk v v v none), .existsFunc (.groupGraphPatternSub (.mk none [])),
      .notExistsFunc (.groupGraphPatternSub (.mk none [])), .aggregate (.count (.mk false .all))] : List BuiltInCall), Returned builtInCall c := by
  intro v c hc
  simp only [List.mem_cons, List.not_mem_nil, or_false] at hc
  rcases hc with rfl | rfl | rfl | rfl | rfl | rfl | rfl | rfl | rfl | rfl | rfl | rfl | rfl | rfl | rfl | rfl | rfl | rfl | rfl | rfl | rfl | rfl | rfl | rfl | rfl | rfl | rfl | rfl | rfl | rfl | rfl | rfl | rfl | rfl | rfl | rfl | rfl | rfl | rfl | rfl | rfl | rfl | rfl | rfl | rfl | rfl | rfl | rfl | rfl | rfl
  · exact ⟨c!"str(?v )", [], rfl⟩
  · exact ⟨c!"lang(?v )", [], rfl⟩
  · exact ⟨c!"datatype(?v )", [], rfl⟩
  · exact ⟨c!"iri(?v )", [], rfl⟩
  · exact ⟨c!"uri(?v )", [], rfl⟩
  · exact ⟨c!"ucase(?v )", [], rfl⟩
  · exact ⟨c!"lcase(?v )", [], rfl⟩
  · exact ⟨c!"encode_for_uri(?v )", [], rfl⟩
  · exact ⟨c!"year(?v )", [], rfl⟩
  · exact ⟨c!"month(?v )", [], rfl⟩
  · exact ⟨c!"day(?v )", [], rfl⟩
  · exact ⟨c!"hours(?v )", [], rfl⟩
  · exact ⟨c!"minutes(?v )", [], rfl⟩
  · exact ⟨c!"seconds(?v )", [], rfl⟩
  · exact ⟨c!"timezone(?v )", [], rfl⟩
  · exact ⟨c!"tz(?v )", [], rfl⟩
  · exact ⟨c!"md5(?v )", [], rfl⟩
  · exact ⟨c!"sha1(?v )", [], rfl⟩
  · exact ⟨c!"sha256(?v )", [], rfl⟩
  · exact ⟨c!"sha384(?v )", [], rfl⟩
  · exact ⟨c!"sha512(?v )", [], rfl⟩
  · exact ⟨c!"isiri(?v )", [], rfl⟩
  · exact ⟨c!"isuri(?v )", [], rfl⟩
  · exact ⟨c!"isblank(?v )", [], rfl⟩
  · exact ⟨c!"isliteral(?v )", [], rfl⟩
  · exact ⟨c!"isnumeric(?v )", [], rfl⟩
  · exact ⟨c!"langmatches(?v , ?v )", [], rfl⟩
  · exact ⟨c!"strstarts(?v , ?v )", [], rfl⟩
  · exact ⟨c!"strends(?v , ?v )", [], rfl⟩
  · exact ⟨c!"strbefore(?v , ?v )", [], rfl⟩
  · exact ⟨c!"strafter(?v , ?v )", [], rfl⟩
  · exact ⟨c!"strlang(?v , ?v )", [], rfl⟩
  · exact ⟨c!"strdt(?v , ?v )", [], rfl⟩
  · exact ⟨c!"sameterm(?v , ?v )", [], rfl⟩
  · exact ⟨c!"strlen(?v , ?v )", [], rfl⟩
  · exact ⟨c!"bound(?v)", [], rfl⟩
  · exact ⟨c!"bnode(?v )", [], rfl⟩
  · exact ⟨c!"bnode(())", [], rfl⟩
  · exact ⟨c!"rand(())", [], rfl⟩
  · exact ⟨c!"now(())", [], rfl⟩
  · exact ⟨c!"uuid(())", [], rfl⟩
  · exact ⟨c!"struuid(())", [], rfl⟩
  · exact ⟨c!"if(?v , ?v , ?v )", [], rfl⟩
  · exact ⟨c!"regex (?v , ?v , ?v )", [], rfl⟩
  · exact ⟨c!"coalesce ()", [], rfl⟩
  · exact ⟨c!"concat () substr (?v , ?v )", [], rfl⟩
  · exact ⟨c!"strlen (?v ) (?v , ?v , ?v )", [], rfl⟩
  · exact ⟨c!"exists {}", [], rfl⟩
  · exact ⟨c!"not exists {}", [], rfl⟩
  · exact ⟨c!"count(*)", [], rfl⟩

/-- The other statements are returned. -/
theorem C53_statements_partial :
    (∃ x, Returned updateStmt (.load x)) ∧ (∃ x, Returned updateStmt (.clear x)) ∧ (∃ x, Returned updateStmt (.drop x)) ∧
    (∃ x, Returned updateStmt (.create x)) ∧ (∃ x, Returned updateStmt (.copy x)) ∧ (∃ x, Returned updateStmt (.insertData x)) ∧
    (∃ x, Returned updateStmt (.deleteData x)) ∧ (∃ x, Returned updateStmt (.deleteWhere x)) ∧ (∃ x, Returned updateStmt (.modify x)) :=
  ⟨⟨_, c!"LOAD <a>", [], rfl⟩, ⟨_, c!"CLEAR ALL", [], rfl⟩, ⟨_, c!"DROP ALL", [], rfl⟩, ⟨_, c!"CREATE GRAPH <a>", [], rfl⟩,
    ⟨_, c!"COPY <a> TO <b>", [], rfl⟩, ⟨_, c!"INSERT DATA {}", [], rfl⟩, ⟨_, c!"DELETE DATA {}", [], rfl⟩, ⟨_, c!"DELETE WHERE {}", [], rfl⟩,
    ⟨_, c!"INSERT {} USING <g> WHERE {}", [], rfl⟩⟩

/-! ## C54: whole queries are returned as written -/

/-- Every canonical query of any form, with any prologue, is read to its end and returned as the query written.  Missing for the full property: the
layouts that are rejected (C31 to C33, C38, C40 to C44) and the trailing VALUES (C29). -/
theorem C54_query_partial (q : SparqlQueryStatement) (s : Str) (h : cQueryStmt q s) : ∃ w, Ws w ∧ sparqlQueryStmt s = .ok w q := queryStmt_eval h

/-- A text has at most one such reading. -/
theorem C54_unambiguous (q q' : SparqlQueryStatement) (s : Str) (h : cQueryStmt q s) (h' : cQueryStmt q' s) : q = q' := by
  obtain ⟨_, _, e⟩ := queryStmt_eval h
  obtain ⟨_, _, e'⟩ := queryStmt_eval h'
  rw [e] at e'
  cases e'
  rfl

/-- With a data block at the end: the query is returned as written, and the data block is either attached or left unread as a whole (C29 tells which). -/
theorem C54_values_partial (p : Prologue) (q : SparqlQuery) (d : DataBlock) (ps w0 t k w' ds r : Str) (hp : cPrologue p ps) (hw0 : Ws w0)
    (h : cQuery cGroup q t) (hk : CaseVariant c!"values" k) (hw' : Ws1 w') (hd : cDataBlock d ds) :
    sparqlQueryStmt (ps ++ (w0 ++ (t ++ (k ++ (w' ++ (ds ++ r)))))) = .ok r ⟨p, q, some d⟩ ∨
    sparqlQueryStmt (ps ++ (w0 ++ (t ++ (k ++ (w' ++ (ds ++ r)))))) = .ok (k ++ (w' ++ (ds ++ r))) ⟨p, q, none⟩ := by
  obtain ⟨⟨w, hw, h1⟩, u, ku, tu, rfl, hku, hu⟩ := query_eval (fun _ _ h => cGroup_reads h) h
    (x := k ++ (w' ++ (ds ++ r))) (.inr (.inr ⟨_, k, _, rfl, hk, by simp, (dataBlock_start hd r).follow hw'⟩))
  have hf := stmt_front (q := ku ++ tu ++ (k ++ (w' ++ (ds ++ r)))) hp hw0 ⟨u, ku, _, List.append_assoc .., hku, hu⟩
  have hkn : ¬ StartsWs (k ++ (w' ++ (ds ++ r))) := kw_not_ws hk (by decide)
  by_cases hn : w = []
  · subst hn
    exact .inr (map_eval (a := (p, q, none)) (f := fun x => SparqlQueryStatement.mk x.1 x.2.1 x.2.2)
      (tuple3_eval hf h1 (Fails.opt (Fails.preceded (sp1_fails hkn)))))
  · exact .inl (C29_attached_partial _ _ w k w' ds r p q d hf h1 ⟨hw, hn⟩ hk hw' hd)

/-! ### The same for the parts named by C10 and C25 -/

/-- Every form is reached: for each form a query with this keyword, any canonical text, is returned as that form. -/
theorem C10_reached_partial (q : SparqlQuery) (s : Str) (h : cQuery cGroup q s) :
    (∃ k t, s = k ++ t ∧ CaseVariant (formKeyword (formOf q)) k) ∧ ∃ w q', Ws w ∧ sparqlQuery s = .ok w q' ∧ formOf q' = formOf q := by
  obtain ⟨⟨w, hw, h1⟩, _⟩ := query_eval (fun _ _ h => cGroup_reads h) h (x := []) (.inl rfl)
  simp only [List.append_nil] at h1
  exact ⟨C10_form _ _ _ h1, w, q, hw, h1, rfl⟩

/-- The dataset clauses of a query. -/
def queryDatasets : SparqlQuery → List DataSetClause
  | .select q => q.datasetClauses
  | .construct (.subConstruct q) => q.datasetClauses
  | .construct (.subTriples q) => q.datasetClauses
  | .describe q => q.datasetClauses
  | .ask q => q.datasetClauses

/-- In every form the dataset clauses written are returned, in order. -/
theorem C25_query_partial (q : SparqlQuery) (s : Str) (h : cQuery cGroup q s) :
    ∃ w q', Ws w ∧ sparqlQuery s = .ok w q' ∧ queryDatasets q' = queryDatasets q := by
  obtain ⟨⟨w, hw, h1⟩, _⟩ := query_eval (fun _ _ h => cGroup_reads h) h (x := []) (.inl rfl)
  simp only [List.append_nil] at h1
  exact ⟨w, q, hw, h1, rfl⟩

/-- `ASK` with any dataset clauses and the empty group, spelled out. -/
theorem C25_ask_partial (l : List DataSetClause) (k w s : Str) (hk : CaseVariant c!"ask" k) (hw : Ws1 w) (h : cDataSets l s) :
    ∃ w', Ws w' ∧ sparqlQuery (k ++ (w ++ (s ++ c!"{}"))) = .ok w' (.ask ⟨l, .groupGraphPatternSub (.mk none []), .mk none none none none⟩) := by
  have hg : cGroup (.groupGraphPatternSub (.mk none [])) c!"{}" := fun P hP => hP _ _ (.empty (w := []) .nil)
  have hq : cQuery cGroup (.ask ⟨l, .groupGraphPatternSub (.mk none []), .mk none none none none⟩) (k ++ (w ++ (s ++ c!"{}"))) :=
    ⟨k, _, rfl, hk, w, _, rfl, hw, s, _, rfl, h, c!"{}", [], rfl, ⟨[], _, rfl, .inl rfl, hg⟩, [], [], rfl, .nil, [], [], rfl, rfl, [], [], rfl, rfl,
      [], [], rfl, rfl, rfl⟩
  obtain ⟨⟨w', hw', h1⟩, _⟩ := query_eval (fun _ _ h => cGroup_reads h) hq (x := []) (.inl rfl)
  simp only [List.append_nil] at h1
  exact ⟨w', hw', h1⟩

/-- As a statement of an update. -/
theorem C48_statement_partial (q : Quads) (s r : Str) (hr : StmtEnd r) :
    (cStatement (fun _ _ => False) (.insertData q) s → updateStmt (s ++ r) = .ok r (.insertData q)) ∧
    (cStatement (fun _ _ => False) (.deleteData q) s → updateStmt (s ++ r) = .ok r (.deleteData q)) ∧
    (cStatement (fun _ _ => False) (.deleteWhere q) s → updateStmt (s ++ r) = .ok r (.deleteWhere q)) :=
  ⟨fun h => statement_accepts _ (fun _ _ h => h.elim) _ s r h hr, fun h => statement_accepts _ (fun _ _ h => h.elim) _ s r h hr,
    fun h => statement_accepts _ (fun _ _ h => h.elim) _ s r h hr⟩

/-! ## C55: a malformed update is an error -/

theorem sep0_not_fails {sep : P σ} {p : P α} (hs : ∀ {i r a}, sep i = .ok r a → r ≠ i) (hp : ∀ {i r a}, p i = .ok r a → r ≠ i)
    (hsp : ∀ {i j r a b}, sep i = .ok j a → p j = .ok r b → r ≠ i) (i : Str) : ¬ Fails (separatedList sep p) i := by
  have loop : ∀ n i, ¬ Fails (sepLoop sep p n) i := by
    intro n
    induction n with
    | zero => rintro i ⟨pos, k, h⟩; cases h
    | succ n ih =>
      rintro i ⟨pos, k, h⟩
      unfold sepLoop at h
      split at h
      · cases h
      · rename_i e hne he; cases h; exact hne _ _ rfl
      · rename_i r a e
        rw [if_neg (hs e)] at h
        split at h
        · cases h
        · rename_i e' hne he; cases h; exact hne _ _ rfl
        · rename_i r2 b e2
          rw [if_neg (hsp e e2)] at h
          split at h
          · cases h
          · rename_i e3 he3
            cases h
            exact ih _ ⟨_, _, he3⟩
  rintro ⟨pos, k, h⟩
  unfold separatedList at h
  split at h
  · cases h
  · rename_i e hne he; cases h; exact hne _ _ rfl
  · rename_i r a e
    rw [if_neg (hp e)] at h
    split at h
    · cases h
    · rename_i e3 he3
      cases h
      exact loop _ _ ⟨_, _, he3⟩

theorem lt_ne {i r : Str} (h : r.length < i.length) : r ≠ i := by rintro rfl; omega

theorem prologue_not_fails (i : Str) : ¬ Fails prologue i := by
  intro h
  refine sep0_not_fails (sep := sp1) (p := alt [map baseDecl BaseOrPrefixDecl.base, map prefixDecl BaseOrPrefixDecl.prefix]) (fun h => lt_ne (Consumes.out _ _ _ h))
    (fun h => lt_ne (Consumes.out _ _ _ h)) (fun h h' => ?_) i h.of_map
  have h1 := Consumes.out _ _ _ h
  have h2 := Consumes.out _ _ _ h'
  exact lt_ne (by omega)

/-- Violated: on no input at all does `update` return a (recoverable) error. -/
theorem C55_never_error_violated (i : Str) : ¬ ∃ pos k, update i = .err (.error pos k) := by
  rintro ⟨pos, k, h⟩
  rw [update_eq] at h
  unfold updateStep map at h
  split at h
  · cases h
  · rename_i e he
    cases h
    unfold pair at he
    split at he
    · rename_i r p hp
      unfold opt at he
      grind
    · rename_i e hp
      cases he
      exact prologue_not_fails i ⟨_, _, hp⟩

/-- Violated: a text that, after white space, starts with no keyword of a statement or declaration is accepted as the empty update and left
unread. (`where` and `offset` start a modification in this code.) -/
theorem C55_garbage_violated (i : Str) (h : NoKeyword [c!"base", c!"prefix", c!"load", c!"clear", c!"drop", c!"create", c!"copy", c!"insert",
    c!"delete", c!"where", c!"offset"] i) : update i = .ok i (.mk ⟨[]⟩ none none) := by
  have hp := C24_prologue ⟨[]⟩ [] i rfl (fun w k r t ht => h w k r t (by
    simp only [List.mem_cons, List.not_mem_nil, or_false] at ht ⊢; rcases ht with h | h <;> simp [h]))
  obtain ⟨w, x, rfl, hw, hx⟩ : ∃ w x, i = w ++ x ∧ Ws w ∧ ¬ StartsWs x := by
    obtain ⟨r, w, e⟩ := Total.out (p := sp) i
    obtain ⟨e, hw, hr⟩ := sp_ok_iff.mp e
    exact ⟨w, r, e, hw, hr⟩
  have hs := sp_eval hw hx
  rw [update_eq]
  unfold updateStep
  refine map_ok.mpr ⟨(⟨[]⟩, none), pair_eval hp (Fails.opt (Fails.pair (Fails.preceded2 hs ?_))), rfl⟩
  have F : ∀ {t : Str} [KwPlain t], t ∈ [c!"base", c!"prefix", c!"load", c!"clear", c!"drop", c!"create", c!"copy", c!"insert",
    c!"delete", c!"where", c!"offset"] → Fails (tagNoCase t) x := fun ht => h.fails ht rfl hw
  exact Fails.alt_cons (Fails.map (Fails.map (Fails.tuple4 (Fails.pair (F (by simp))))))
    (Fails.alt_cons (Fails.map (Fails.map (Fails.pair (Fails.pair (F (by simp))))))
    (Fails.alt_cons (Fails.map (Fails.map (Fails.pair (Fails.pair (F (by simp))))))
    (Fails.alt_cons (Fails.map (Fails.map (Fails.tuple3 (Fails.pair (F (by simp))))))
    (Fails.alt_cons (Fails.map (Fails.map (Fails.pair (Fails.pair (F (by simp))))))
    (Fails.alt_cons (Fails.map (Fails.preceded (Fails.terminated (F (by simp)))))
    (Fails.alt_cons (Fails.map (Fails.preceded (Fails.terminated (F (by simp)))))
    (Fails.alt_cons (Fails.map (Fails.preceded (Fails.terminated (F (by simp)))))
    (Fails.map (Fails.map (Fails.pair2 (Fails.opt (Fails.delimited (F (by simp)))) (Fails.pair (Fails.terminated
      (Fails.alt_cons (Fails.map (Fails.pair (Fails.preceded (Fails.terminated (F (by simp))))))
        (Fails.map (Fails.preceded (Fails.terminated (F (by simp))))))))))))))))))

/-- For example any text that starts with a letter that starts no keyword. -/
example : update c!"SELECT * WHERE {}" = .ok c!"SELECT * WHERE {}" (.mk ⟨[]⟩ none none) := rfl

/-- What is left over is all a caller can look at: a result without declaration and statement has read nothing. -/
theorem C55_empty_partial (i r : Str) (u : Option Update) (h : update i = .ok r (.mk ⟨[]⟩ none u)) : r = i ∧ u = none := by
  rw [update_eq] at h
  unfold updateStep at h
  obtain ⟨⟨p, o⟩, h0, e⟩ := map_ok.mp h
  obtain ⟨r1, h1, h2⟩ := pair_ok_iff.mp h0
  cases o with
  | some o => obtain ⟨_, _⟩ := o; cases e
  | none =>
    cases e
    rcases opt_ok.mp h2 with ⟨_, e, _⟩ | ⟨_, rfl, _⟩
    · cases e
    · unfold prologue at h1
      obtain ⟨l, h3, e⟩ := map_ok.mp h1
      cases e
      rcases separatedList_ok.mp h3 with ⟨_, e, _⟩ | ⟨_, _, _, e, _⟩
      · exact ⟨e, rfl⟩
      · cases e

end NomSparql
