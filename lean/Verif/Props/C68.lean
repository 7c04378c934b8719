import Verif.Lemmas.LayoutAll
import Verif.Props.C51_C55

/-!
# C68: layout does not change what a request means
-/

namespace NomSparql

set_option maxRecDepth 8000

/-- Partial: queries that are the same up to layout (`Relaid`) get the same tree and leave remainders that are the same up to layout, or fail
with the same error at the same place.  Missing: texts with a `#` that is neither in a string nor after white space, see `C68_violated`. -/
theorem C68_query_partial (i i' : Str) (h : Relaid i i') : SameAnswer (sparqlQueryStmt i) (sparqlQueryStmt i') := Lay.same inferInstance h

/-- Partial: the same for updates. -/
theorem C68_update_partial (i i' : Str) (h : Relaid i i') : SameAnswer (update i) (update i') := Lay.same inferInstance h

/-- Partial: and for the parsers of the parts that users can call. -/
theorem C68_parts_partial (i i' : Str) (h : Relaid i i') :
    SameAnswer (sparqlQuery i) (sparqlQuery i') ∧ SameAnswer (prologue i) (prologue i') ∧
    SameAnswer (groupGraphPattern i) (groupGraphPattern i') ∧ SameAnswer (expression i) (expression i') ∧
    SameAnswer (updateStmt i) (updateStmt i') :=
  ⟨Lay.same inferInstance h, Lay.same inferInstance h, Lay.same inferInstance h, Lay.same inferInstance h, Lay.same inferInstance h⟩

theorem Relaid.nil_left {r : Str} (h : Relaid [] r) : r = [] := by
  generalize e : ([] : Str) = x at h
  cases h with
  | nil => rfl
  | char _ _ _ => cases e
  | gap _ _ _ _ _ => cases e
  | str _ _ _ _ => cases e

/-- Partial: a query read as a whole in one layout is read as a whole in every layout, with the same tree. -/
theorem C68_whole_partial (i i' : Str) (q : SparqlQueryStatement) (h : Relaid i i') (hq : sparqlQueryStmt i = .ok [] q) :
    sparqlQueryStmt i' = .ok [] q := by
  have := C68_query_partial i i' h
  rw [hq] at this
  revert this
  cases sparqlQueryStmt i' with
  | ok r v => rintro ⟨rfl, h⟩; rw [h.nil_left]
  | err e => intro h; cases h

/-- White space squeezed to single blanks. -/
theorem relaid_squeeze : ∀ s : Str, (∀ c ∈ s, c ∉ ['#', '"', '\'']) →
    Relaid s (squeeze false s) ∧ ∃ w t, s = w ++ t ∧ Ws w ∧ Relaid t (squeeze true s)
  | [], _ => ⟨.nil, [], [], rfl, .nil, .nil⟩
  | c :: s, h => by
    obtain ⟨h1, w, t, e, hw, h2⟩ := relaid_squeeze s (fun d hd => h d (List.mem_cons_of_mem _ hd))
    have hc := h c (List.mem_cons_self ..)
    by_cases hb : IsBlank c
    · simp only [squeeze, if_pos hb, if_true, Bool.false_eq_true, if_false]
      refine ⟨?_, c :: w, t, by rw [e]; rfl, Ws.cons (a := [c]) (.char hb) hw, h2⟩
      have := Relaid.gap (w' := []) hb (show IsBlank ' ' by decide) hw .nil h2
      rw [← e] at this
      exact this
    · simp only [squeeze, if_neg hb]
      have hp : PlainChar c := by
        simp only [IsBlank, PlainChar, List.mem_cons, List.not_mem_nil, or_false, not_or] at hb hc ⊢
        exact ⟨hb.1, hb.2.1, hb.2.2.1, hb.2.2.2, hc.1, hc.2.1, hc.2.2⟩
      have hr : Relaid (c :: s) (c :: squeeze false s) := by
        refine .char hp (fun _ => ?_) h1
        cases s with
        | nil => intro e; cases e
        | cons d s =>
          intro e
          cases e
          exact h '\'' (List.mem_cons_of_mem _ (List.mem_cons_self ..)) (by decide)
      exact ⟨hr, [], _, rfl, .nil, hr⟩

/-- Partial: in texts without comments, strings and `#`, only where white space is matters, not how much of it or which. -/
theorem C68_squeeze_partial (i : Str) (h : ∀ c ∈ i, c ∉ ['#', '"', '\'']) :
    SameAnswer (sparqlQueryStmt i) (sparqlQueryStmt (squeeze false i)) ∧ SameAnswer (update i) (update (squeeze false i)) :=
  ⟨C68_query_partial _ _ (relaid_squeeze i h).1, C68_update_partial _ _ (relaid_squeeze i h).1⟩

/-- Texts that agree up to layout begin with the same keyword. -/
theorem Relaid.plain_prefix : ∀ {k s i' : Str}, (∀ c ∈ k, PlainChar c) → Relaid (k ++ s) i' → ∃ s', i' = k ++ s'
  | [], _, i', _, _ => ⟨i', rfl⟩
  | c :: k, s, i', hk, h => by
    have hc := hk c (List.mem_cons_self ..)
    simp only [PlainChar, List.mem_cons, List.not_mem_nil, or_false, not_or] at hc
    generalize e : c :: k ++ s = x at h
    cases h with
    | nil => cases e
    | char _ _ h =>
      cases e
      obtain ⟨s', rfl⟩ := Relaid.plain_prefix (fun d hd => hk d (List.mem_cons_of_mem _ hd)) h
      exact ⟨s', rfl⟩
    | gap hb _ _ _ _ =>
      injection e with e1 _
      subst e1
      simp only [IsBlank, List.mem_cons, List.not_mem_nil, or_false] at hb
      grind
    | str hq _ _ _ =>
      injection e with e1 _
      subst e1
      grind

theorem kw_plain {u k : Str} (hk : CaseVariant u k) (hu : u ∈ [c!"ask", c!"select", c!"construct", c!"describe"]) : ∀ c ∈ k, PlainChar c := by
  have h : Word k := by
    simp only [List.mem_cons, List.not_mem_nil, or_false] at hu
    rcases hu with rfl | rfl | rfl | rfl <;> exact caseVariant_word hk (by decide) (by decide)
  intro c hc
  have := h.2 c hc
  simp only [PlainChar, List.mem_cons, List.not_mem_nil, or_false, not_or]
  refine ⟨?_, ?_, ?_, ?_, ?_, ?_, ?_⟩ <;> (rintro rfl; revert this; decide)

/-- Partial: with canonical prologues (whose IRIs may contain `#`) that declare the same, in any layout. -/
theorem C68_prologue_partial (p : Prologue) (ps ps' w w' q q' : Str) (hp : cPrologue p ps) (hp' : cPrologue p ps') (hw : Ws w) (hw' : Ws w')
    (hq : ∃ u k t, q = k ++ t ∧ CaseVariant u k ∧ u ∈ [c!"ask", c!"select", c!"construct", c!"describe"]) (h : Relaid q q') :
    SameAnswer (sparqlQueryStmt (ps ++ (w ++ q))) (sparqlQueryStmt (ps' ++ (w' ++ q'))) := by
  have hq' : ∃ u k t, q' = k ++ t ∧ CaseVariant u k ∧ u ∈ [c!"ask", c!"select", c!"construct", c!"describe"] := by
    obtain ⟨u, k, t, rfl, hk, hu⟩ := hq
    obtain ⟨t', rfl⟩ := h.plain_prefix (kw_plain hk hu)
    exact ⟨u, k, t', rfl, hk, hu⟩
  have hl : SameAnswer (pair sparqlQuery (opt (preceded sp1 (precededTag1 c!"values" datablock))) q)
      (pair sparqlQuery (opt (preceded sp1 (precededTag1 c!"values" datablock))) q') := Lay.same inferInstance h
  unfold sparqlQueryStmt tuple3
  unfold map
  rw [show ∀ (z : P (SparqlQuery × Option DataBlock)), pair (terminated prologue sp) z (ps ++ (w ++ q)) = (match z q with | .ok r b => .ok r (p, b) | .err e => .err e) from
    fun z => by unfold pair; simp only [stmt_front hp hw hq]; cases z q <;> rfl,
    show ∀ (z : P (SparqlQuery × Option DataBlock)), pair (terminated prologue sp) z (ps' ++ (w' ++ q')) = (match z q' with | .ok r b => .ok r (p, b) | .err e => .err e) from
    fun z => by unfold pair; simp only [stmt_front hp' hw' hq']; cases z q' <;> rfl]
  revert hl
  generalize pair sparqlQuery _ q = x
  generalize pair sparqlQuery _ q' = y
  cases x with
  | ok r a => cases y with
    | ok r' a' => rintro ⟨rfl, h⟩; exact ⟨rfl, h⟩
    | err e => intro h; cases h
  | err e => cases y with
    | ok r' a' => intro h; cases e <;> cases h
    | err e' => intro h; cases e <;> cases e' <;> exact h

/-- Partial: all canonical texts of a query get its tree, wherever `#` is in them. -/
theorem C68_canonical_partial (q : SparqlQueryStatement) (s s' : Str) (h : cQueryStmt q s) (h' : cQueryStmt q s') :
    ∃ w w', Ws w ∧ Ws w' ∧ sparqlQueryStmt s = .ok w q ∧ sparqlQueryStmt s' = .ok w' q := by
  obtain ⟨w, hw, e⟩ := C54_query_partial q s h
  obtain ⟨w', hw', e'⟩ := C54_query_partial q s' h'
  exact ⟨w, w', hw, hw', e, e'⟩

/-! ## Examples: a query with a string, and the same with tabs, line ends and a comment -/

def exNarrow : Str := c!"SELECT * WHERE { ?s a:bc \"x # y\" FILTER (?s < 3 ) } LIMIT 5"
def exWide : Str := c!"SELECT \t* WHERE\n{ # all of it\n  ?s a:bc \"x # y\"\r\n FILTER (?s\n<\n3\n)\t} LIMIT #five\n5"

theorem Relaid.one {c c' : Char} {w w' s s' : Str} (hc : IsBlank c) (hc' : IsBlank c') (hw : sp w = .ok [] w) (hw' : sp w' = .ok [] w')
    (h : Relaid s s') : Relaid (c :: (w ++ s)) (c' :: (w' ++ s')) := .gap hc hc' (ws_rfl hw) (ws_rfl hw') h
theorem Relaid.plain {k s s' : Str} (hk : ∀ c ∈ k, PlainChar c ∧ c ≠ '\\') (h : Relaid s s') : Relaid (k ++ s) (k ++ s') := by
  induction k with
  | nil => exact h
  | cons c k ih =>
    exact .char (hk c (by simp)).1 (fun e => absurd e (hk c (by simp)).2) (ih fun d hd => hk d (by simp [hd]))

theorem exRelaid : Relaid exNarrow exWide := by
  refine .plain (k := c!"SELECT") (by decide) <| .one (w := []) (w' := c!"\t") (by decide) (by decide) rfl rfl <|
    .plain (k := c!"*") (by decide) <| .one (w := []) (w' := []) (by decide) (by decide) rfl rfl <|
    .plain (k := c!"WHERE") (by decide) <| .one (w := []) (w' := []) (by decide) (by decide) rfl rfl <|
    .plain (k := c!"{") (by decide) <| .one (w := []) (w' := c!"# all of it\n  ") (by decide) (by decide) rfl rfl <|
    .plain (k := c!"?s") (by decide) <| .one (w := []) (w' := []) (by decide) (by decide) rfl rfl <|
    .plain (k := c!"a:bc") (by decide) <| .one (w := []) (w' := []) (by decide) (by decide) rfl rfl <|
    .str (b := c!"x # y") (.inl rfl) ?_ (by decide) <| .one (w := []) (w' := c!"\n ") (by decide) (by decide) rfl rfl <|
    .plain (k := c!"FILTER") (by decide) <| .one (w := []) (w' := []) (by decide) (by decide) rfl rfl <|
    .plain (k := c!"(?s") (by decide) <| .one (w := []) (w' := []) (by decide) (by decide) rfl rfl <|
    .plain (k := c!"<") (by decide) <| .one (w := []) (w' := []) (by decide) (by decide) rfl rfl <|
    .plain (k := c!"3") (by decide) <| .one (w := []) (w' := []) (by decide) (by decide) rfl rfl <|
    .plain (k := c!")") (by decide) <| .one (w := []) (w' := []) (by decide) (by decide) rfl rfl <|
    .plain (k := c!"}") (by decide) <| .one (w := []) (w' := []) (by decide) (by decide) rfl rfl <|
    .plain (k := c!"LIMIT") (by decide) <| .one (w := []) (w' := c!"#five\n") (by decide) (by decide) rfl rfl <|
    .plain (k := c!"5") (by decide) .nil
  repeat' first | exact .nil | refine .ord (by decide) (by decide) ?_

example : ∃ q, sparqlQueryStmt exNarrow = .ok [] q ∧ sparqlQueryStmt exWide = .ok [] q := by
  have h : ∃ q, sparqlQueryStmt exNarrow = .ok [] q := ⟨_, rfl⟩
  obtain ⟨q, h⟩ := h
  exact ⟨q, h, C68_whole_partial _ _ _ exRelaid h⟩

/-- Errors: the places differ only in the layout of what follows. -/
example : ∃ p p' k, groupGraphPattern c!"{  ?x" = .err (.error p k) ∧ groupGraphPattern c!"{\n?x" = .err (.error p' k) := ⟨_, _, _, rfl, rfl⟩

example : squeeze false c!"ASK \t\n{ ?s\n\n?p ?o }\n" = c!"ASK { ?s ?p ?o } " := rfl

/-! ## Violated: `#` in an IRI that is taken for an operator and a name -/

/-- `ASK { FILTER (e) }` -/
def askFilter (e : Expression) : SparqlQueryStatement :=
  ⟨⟨[]⟩, .ask ⟨[], .groupGraphPatternSub (.mk none [.mk (.filter (.bracketted e)) none]), .mk none none none none⟩, none⟩

/-- `?a < b:cd` with further factors. -/
def ltName (l : List MultExpression) : Expression :=
  .mk [.mk [.mk (.mk (.mk (.default (.var (.qmark ['a']))) []) [])
    (some (.lt (.mk (.mk (.default (.iriOrFunction (.mk (.prefixedName (.pnameLN (some ['b']) ['c', 'd'])) none))) l) [])))]]

theorem askFilter_text {b : Bool} {e : Expression} {s w' : Str} (h : cExpr b e s) (hw' : Ws w') :
    cQueryStmt (askFilter e) (c!"ask {filter (" ++ (s ++ (w' ++ c!") }"))) := by
  have hc : CBracket cGroup e ('(' :: ([] ++ (s ++ (w' ++ [')'])))) := .mk .nil h hw'
  have hi := CItem.filter (k := c!"filter") (w := [' ']) (kw_rfl rfl) (ws1_rfl rfl) (.bracket hc)
  have hl : WsList (CEntry cGroup) [.mk (.filter (.bracketted e)) none] ((c!"filter" ++ ([' '] ++ '(' :: ([] ++ (s ++ (w' ++ [')']))))) ++ [' ']) :=
    ⟨by simp, _, [], (List.append_nil _).symm, ⟨_, _, rfl, .plain hi, ws1_rfl rfl⟩, rfl⟩
  have hg := cGroup_intro (.items (w := []) .nil hl)
  refine ⟨rfl, [], _, rfl, rfl, [], _, rfl, .nil, c!"ask", _, ?_, kw_rfl rfl, [' '], _, rfl, ws1_rfl rfl, [], _, rfl, rfl, _, [], (List.append_nil _).symm,
    ⟨[], _, rfl, .inl rfl, hg⟩, [], [], rfl, .nil, [], [], rfl, rfl, [], [], rfl, rfl, [], [], rfl, rfl, rfl⟩
  simp

theorem comment_ws {u : Str} (hu : ∀ c ∈ u, c ≠ '\n' ∧ c ≠ '\r') : Ws ('#' :: (u ++ ['\n'])) := by
  have := Ws.cons (WsItem.comment hu (c := '\n') (by simp)) Ws.nil
  rwa [List.append_nil] at this

/-- Violated: `?a <b:cd#...>` is read as `?a < b:cd` and a comment.  So for every `u` without line end, the query
`ASK {FILTER (?a <b:cd#u> *2\n) }` gets another tree if the blank before the `*` is made a line end, although both are white space
after a complete IRI. -/
theorem C68_violated (u : Str) (hu : ∀ c ∈ u, c ≠ '\n' ∧ c ≠ '\r') :
    ∃ w w' q q', Ws w ∧ Ws w' ∧ q ≠ q' ∧
      sparqlQueryStmt (c!"ask {filter (?a <b:cd#" ++ (u ++ c!"> *2\n) }")) = .ok w q ∧
      sparqlQueryStmt (c!"ask {filter (?a <b:cd#" ++ (u ++ c!">\n*2\n) }")) = .ok w' q' := by
  have hv : cVar (.qmark ['a']) c!"?a" := ⟨rfl, by simp [varNameOf], by decide⟩
  have hi : cOperandIri (.prefixedName (.pnameLN (some ['b']) ['c', 'd'])) c!"b:cd" := by
    refine ⟨⟨rfl, ⟨'b', [], rfl, by decide, by simp [NameTail]⟩, ['c'], ['d'], rfl, .ch (by decide), ?_, 'd', by simp, by decide⟩, by simp [NoKelvin]⟩
    exact .cons (u := ['d']) (.ch (by decide)) .nil
  have ha : CAdd cGroup true (.mk (.mk (.default (.var (.qmark ['a']))) []) []) c!"?a" := .one (.one (.plain (.var hv)))
  have h1 : cExpr true (ltName []) (c!"?a" ++ ([' '] ++ '<' :: ([] ++ c!"b:cd"))) :=
    .mk (.one (.one (.op ha (ws_rfl rfl) (fun h => by cases h) (.lt .nil (.one (.one (.plain (.iri hi))))))))
  have hn : cUnsigned (.int 2) ['2'] :=
    ⟨⟨⟨[], false, ['2'], 2, rfl, .none, .digit (c := '2') (by decide), rfl⟩, by decide, by decide⟩, by decide, by decide⟩
  have h2 : cExpr true (ltName [.mult (.default (.numericLiteral (.int 2)))])
      (c!"?a" ++ ([' '] ++ '<' :: ([] ++ (c!"b:cd" ++ ('#' :: (u ++ ['>'] ++ ['\n']) ++ '*' :: ([] ++ (['2'] ++ (['\n'] ++ [])))))))) :=
    .mk (.one (.one (.op ha (ws_rfl rfl) (fun h => by cases h) (.lt .nil (.one (.product (.mk (.plain (.iri hi)) (comment_ws (by grind)) (by simp)
      (.times .nil (.plain (.numericLiteral hn)) (ws1_rfl rfl) .nil))))))))
  have hx : ∀ c ∈ u ++ c!"> *2", c ≠ '\n' ∧ c ≠ '\r' := by
    intro c h
    rcases List.mem_append.mp h with h | h
    · exact hu c h
    · rename_i h'; clear h' hu; revert c; decide
  obtain ⟨w, hw, e1⟩ := C54_query_partial _ _ (askFilter_text h1 (comment_ws (u := u ++ c!"> *2") hx))
  obtain ⟨w', hw', e2⟩ := C54_query_partial _ _ (askFilter_text h2 (w' := []) .nil)
  simp only [List.append_assoc, List.cons_append, List.nil_append] at e1 e2
  exact ⟨w, w', _, _, hw, hw', by simp [askFilter, ltName], e1, e2⟩

end NomSparql
