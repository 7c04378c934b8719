import Verif.Lemmas.Blind

/-!
# C07: keywords are case-insensitive

`CaseInsensitive p` (`Verif/Spec/Case.lean`): re-spelling any leading run of keyword characters in another
letter case leaves the answer of `p` the same - same remainder, same AST, same error kind at the corresponding position.
-/

namespace NomSparql

set_option maxRecDepth 8000

theorem caseInsensitive {p : P α} (h : Blind true true p) : CaseInsensitive p :=
  fun _ _ _ s ht h1 h2 => h.out _ _ (twin_of ht h1 h2 s)

/-- The keywords that start an update operation in the code. -/
def updateKeywords : List Str :=
  [c!"load", c!"clear", c!"drop", c!"create", c!"copy", c!"insert", c!"delete", c!"offset", c!"where"]

/-- Queries. -/
theorem C07_query : CaseInsensitive sparqlQuery := caseInsensitive inferInstance

/-- Update operations, for each of their keywords. -/
theorem C07_update (t : Str) (ht : t ∈ updateKeywords) : CaseInsensitiveAt t updateStmt := by
  intro k k' s h1 h2
  refine updateStmt_alike ?_ ?_ h1 h2 <;>
    (simp only [updateKeywords, List.mem_cons, List.not_mem_nil, or_false] at ht
     rcases ht with rfl | rfl | rfl | rfl | rfl | rfl | rfl | rfl | rfl <;> decide)

/-- Declarations of the prologue. -/
theorem C07_base : CaseInsensitive baseDecl := caseInsensitive inferInstance
theorem C07_prefix : CaseInsensitiveAt c!"prefix" prefixDecl := fun _ _ _ h1 h2 => prefixDecl_alike h1 h2

/-- Clauses. -/
theorem C07_from : CaseInsensitive dataSetClause := caseInsensitive inferInstance
theorem C07_using : CaseInsensitive usingClause := caseInsensitive inferInstance
theorem C07_where : CaseInsensitive whereClause := caseInsensitive inferInstance
theorem C07_group : CaseInsensitive groupClause := caseInsensitive (inferInstanceAs (Blind true true (groupClauseS R₀)))
theorem C07_having : CaseInsensitive havingClause :=
  caseInsensitive (inferInstanceAs (Blind true true (havingClauseS R₀)))
theorem C07_order : CaseInsensitive orderClause := caseInsensitive (inferInstanceAs (Blind true true (orderClauseS R₀)))
theorem C07_limit : CaseInsensitiveAt c!"limit" limitClause := fun _ _ _ h1 h2 => limit_alike (by decide) h1 h2
theorem C07_offset : CaseInsensitiveAt c!"offset" offsetClause := fun _ _ _ h1 h2 => limit_alike (by decide) h1 h2
theorem C07_values : CaseInsensitive inlineData := caseInsensitive inferInstance
theorem C07_select : CaseInsensitive selectClause := caseInsensitive (inferInstanceAs (Blind true true (selectClauseS R₀)))
theorem C07_insert : CaseInsensitive insertClause := caseInsensitive inferInstance
theorem C07_delete : CaseInsensitive deleteClause := caseInsensitive inferInstance
theorem C07_add : CaseInsensitive addStmt := caseInsensitive inferInstance
theorem C07_move : CaseInsensitive moveStmt := caseInsensitive inferInstance

/-- Graph patterns (OPTIONAL, MINUS, GRAPH, SERVICE, FILTER, BIND, VALUES) and sub-queries. -/
theorem C07_pattern : CaseInsensitive graphPatternNotTriples := caseInsensitive inferInstance
theorem C07_subSelect : CaseInsensitive subSelect := caseInsensitive inferInstance

/-- Built-in calls and aggregates. -/
theorem C07_builtInCall : CaseInsensitive builtInCall :=
  caseInsensitive (inferInstanceAs (Blind true true (builtInCallS R₀)))
theorem C07_aggregate : CaseInsensitive aggregate := caseInsensitive (inferInstanceAs (Blind true true (aggregateS R₀)))

/-- `IN` and `NOT IN`. -/
theorem C07_op : CaseInsensitive opExpression := caseInsensitive (inferInstanceAs (Blind true true (opExpressionS R₀)))

/-- Keywords that stand alone: the result is the same; what is left over differs at most in letter case. -/
theorem C07_words (t k k' s : Str) (ht : ∀ c ∈ t, KwLetter c) (h1 : CaseVariant t k) (h2 : CaseVariant t k') :
    Alike false true (boolean (k ++ s)) (boolean (k' ++ s)) ∧ Alike false true (silent (k ++ s)) (silent (k' ++ s)) ∧
    Alike false true (distinct (k ++ s)) (distinct (k' ++ s)) ∧
    Alike false true (graphRefAll (k ++ s)) (graphRefAll (k' ++ s)) ∧
    Alike false true (valuesClause (k ++ s)) (valuesClause (k' ++ s)) ∧
    Alike false true (solutionModifier (k ++ s)) (solutionModifier (k' ++ s)) := by
  have tw := twin_of ht h1 h2 s
  exact ⟨Blind.out _ _ tw, Blind.out _ _ tw, Blind.out _ _ tw, Blind.out _ _ tw, Blind.out _ _ tw,
    (inferInstance : Blind false true (solutionModifierS R₀)).out _ _ tw⟩

/-- Spelled out for accepted queries. -/
theorem C07_accepted (t k k' s r : Str) (q : SparqlQuery) (ht : ∀ c ∈ t, KwLetter c)
    (h1 : CaseVariant t k) (h2 : CaseVariant t k') (h : sparqlQuery (k ++ s) = .ok r q) :
    sparqlQuery (k' ++ s) = .ok r q := by
  have := C07_query t k k' s ht h1 h2
  rw [h] at this
  rcases this.elim with ⟨r1, a, r', a', e, e', _, h3, h4⟩ | ⟨_, _, _, e, _⟩ | ⟨_, _, e, _⟩
  · cases e; rw [e', ← h3 rfl, ← h4 rfl]
  · cases e
  · cases e

/-- Non-vacuity. -/
example : CaseVariant c!"select" c!"sELecT" :=
  .cons (.inl rfl) (.cons (.inr (by decide)) (.cons (.inr (by decide)) (.cons (.inl rfl) (.cons (.inl rfl)
    (.cons (.inr (by decide)) .nil)))))
example : ∃ q, sparqlQuery (c!"sELecT" ++ c!" * { ?s ?p $o }") = .ok [] q ∧
    sparqlQuery (c!"SELECT" ++ c!" * { ?s ?p $o }") = .ok [] q := ⟨_, rfl, rfl⟩
example : ∀ c ∈ c!"encode_for_uri", KwLetter c := by decide
example : ∀ c ∈ c!"sha256", KwLetter c := by decide

/-- The keyword `a` of paths is the exception, as in SPARQL: `A` is not rdf:type. -/
theorem C07_a_is_sensitive (s : Str) : pathPrimary ('A' :: ' ' :: s) ≠ .ok (' ' :: s) .a := by
  intro h
  have hs : Sound pathPrimary (rPathPrimaryS rPathAlternative) := inferInstanceAs (Sound (pathPrimaryS pathAlternative) _)
  obtain ⟨c, e, hc⟩ := hs.out h
  have : c = ['A'] := by
    have := congrArg List.length e
    simp only [List.length_cons, List.length_append] at this
    match c, e, this with
    | [], _, h => simp at h
    | [d], e, _ => simp only [List.cons_append, List.nil_append, List.cons.injEq] at e; rw [e.1]
    | d :: d' :: c, _, h => simp at h; omega
  subst this
  cases hc

end NomSparql
