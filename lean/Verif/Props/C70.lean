import Verif.Lemmas.BracketsAll

/-!
# C70: the brackets of an accepted request are balanced
-/

namespace NomSparql

/-! ## What is read is balanced -/

theorem C70_query {i r : Input} {q : SparqlQueryStatement} (h : sparqlQueryStmt i = .ok r q) : ∃ s, i = s ++ r ∧ Nested s := Bal.out h

theorem C70_update {i r : Input} {u : Update} (h : update i = .ok r u) : ∃ s, i = s ++ r ∧ Nested s := Bal.out h

theorem C70_expression {i r : Input} {e : Expression} (h : expression i = .ok r e) : ∃ s, i = s ++ r ∧ Nested s := Bal.out h

theorem C70_group {i r : Input} {g : GroupGraphPattern} (h : groupGraphPattern i = .ok r g) : ∃ s, i = s ++ r ∧ Nested s := Bal.out h

theorem C70_triples {i r : Input} {t : TriplesTemplate} (h : triplesTemplate i = .ok r t) : ∃ s, i = s ++ r ∧ Nested s := Bal.out h

theorem C70_path {i r : Input} {p : PathAlternative} (h : pathAlternative i = .ok r p) : ∃ s, i = s ++ r ∧ Nested s := Bal.out h

/-! ## A reader with a stack agrees -/

/-- A query read to the end, without `<`: the reader ends outside strings and comments, with no bracket open. -/
theorem C70_query_scan {i : Input} {q : SparqlQueryStatement} (h : sparqlQueryStmt i = .ok [] q) (hi : '<' ∉ i) : scan .code [] i = some (.code, []) :=
  nested_scan_all (C70_query h) hi []

theorem C70_update_scan {i : Input} {u : Update} (h : update i = .ok [] u) (hi : '<' ∉ i) : scan .code [] i = some (.code, []) :=
  nested_scan_all (C70_update h) hi []

theorem C70_expression_scan {i : Input} {e : Expression} (h : expression i = .ok [] e) (hi : '<' ∉ i) : scan .code [] i = some (.code, []) :=
  nested_scan_all (C70_expression h) hi []

/-- A request with a missing, surplus or mismatched bracket, or an open string, is not read to the end. -/
theorem C70_unbalanced {i : Input} (hi : '<' ∉ i) (h : scan .code [] i ≠ some (.code, [])) :
    (∀ q, sparqlQueryStmt i ≠ .ok [] q) ∧ ∀ u, update i ≠ .ok [] u :=
  ⟨fun _ e => h (C70_query_scan e hi), fun _ e => h (C70_update_scan e hi)⟩

/-! ## Counting -/

/-- As many closing as opening brackets of each kind in a query read to the end, without strings, comments, escapes and IRIs. -/
theorem C70_query_count {i : Input} {q : SparqlQueryStatement} (h : sparqlQueryStmt i = .ok [] q) (hb : ∀ c ∈ i, c ∉ ['"', '\'', '#', '\\', '<'])
    {o c : Char} (hoc : (o, c) ∈ brackets) : i.count o = i.count c := by
  obtain ⟨s, rfl, hn⟩ := C70_query h
  rw [List.append_nil] at hb ⊢
  exact hn.count_eq hb hoc

theorem C70_update_count {i : Input} {u : Update} (h : update i = .ok [] u) (hb : ∀ c ∈ i, c ∉ ['"', '\'', '#', '\\', '<'])
    {o c : Char} (hoc : (o, c) ∈ brackets) : i.count o = i.count c := by
  obtain ⟨s, rfl, hn⟩ := C70_update h
  rw [List.append_nil] at hb ⊢
  exact hn.count_eq hb hoc

/-! ## Cases -/

/-- Accepted to the end; the bracket in the string and the one in the comment do not count. -/
def c70Text : Str := c!"select * where { bind (\"x)\" as ?x) # (\n }"

example : (∃ q, sparqlQueryStmt c70Text = .ok [] q) ∧ '<' ∉ c70Text ∧ scan .code [] c70Text = some (.code, []) := ⟨⟨_, rfl⟩, by decide, by decide⟩

/-- Accepted to the end, without strings, comments, escapes and IRIs. -/
example : (∃ u, update c!"insert data { graph ?g {?a ?b ?c}}" = .ok [] u) ∧ (∀ c ∈ c!"insert data { graph ?g {?a ?b ?c}}", c ∉ ['"', '\'', '#', '\\', '<']) :=
  ⟨⟨_, rfl⟩, by decide⟩

/-- Its closing brace is missing, or doubled, or mismatched; its string is open. -/
example : scan .code [] c!"select * where {?a ?b ?c" = some (.code, ['{']) ∧ scan .code [] c!"ask {}}" = none ∧ scan .code [] c!"ask {(}" = none ∧
    scan .code [] c!"ask {?a ?b \"}" = some (.string '"', ['{']) := by decide

/-- A text that is not balanced. -/
example : ¬ Nested c!"(]" := fun h => by
  have := h.scan (by decide) [] []
  revert this
  decide

end NomSparql
