import Verif.Lemmas.Occurs

/-!
# C66: nothing is invented
-/

namespace NomSparql

/-- Every leaf of an accepted query, at every depth, is written in the input. -/
theorem C66_query (i r : Str) (q : SparqlQueryStatement) (h : sparqlQueryStmt i = .ok r q) : FSparqlQueryStatement (textLeaves i) q :=
  YieldsIn.out (S := (· <:+ i)) (T := textLeaves i) (List.suffix_refl i) h

/-- Of an accepted update. -/
theorem C66_update (i r : Str) (u : Update) (h : update i = .ok r u) : FUpdate (textLeaves i) u :=
  YieldsIn.out (S := (· <:+ i)) (T := textLeaves i) (List.suffix_refl i) h

/-- Of expressions and groups parsed alone. -/
theorem C66_expression (i r : Str) (e : Expression) (h : expression i = .ok r e) : FExpression (textLeaves i) e :=
  YieldsIn.out (S := (· <:+ i)) (T := textLeaves i) (List.suffix_refl i) h
theorem C66_group (i r : Str) (g : GroupGraphPattern) (h : groupGraphPattern i = .ok r g) : FGroupGraphPattern (textLeaves i) g :=
  YieldsIn.out (S := (· <:+ i)) (T := textLeaves i) (List.suffix_refl i) h

/-! What this means for the characters of the input: a leaf whose mark is not in the input is not in the tree. -/

/-- A query without `<`, `>` and `:` names no IRI, one without quotes has no strings, one without digits no numbers, and so on. -/
theorem C66_marks_query (i r : Str) (q : SparqlQueryStatement) (h : sparqlQueryStmt i = .ok r q) : FSparqlQueryStatement (markLeaves i) q :=
  YieldsIn.out (S := (· <:+ i)) (T := markLeaves i) (List.suffix_refl i) h

theorem C66_marks_update (i r : Str) (u : Update) (h : update i = .ok r u) : FUpdate (markLeaves i) u :=
  YieldsIn.out (S := (· <:+ i)) (T := markLeaves i) (List.suffix_refl i) h

/-! Cases: a returned query with a variable, an IRI, a number and a limit; a variable that does not occur; a text without `<` and `:`. -/
example : ∃ q, sparqlQueryStmt c!"ASK { ?s <p> 5 } LIMIT 7" = .ok [] q ∧ FSparqlQueryStatement (textLeaves c!"ASK { ?s <p> 5 } LIMIT 7") q := by
  have h : ∃ q, sparqlQueryStmt c!"ASK { ?s <p> 5 } LIMIT 7" = .ok [] q := ⟨_, rfl⟩
  obtain ⟨q, h⟩ := h
  exact ⟨q, h, C66_query _ _ _ h⟩
example : ¬ Occurs rVar c!"ASK { ?s <p> 5 } LIMIT 7" (.dollar c!"s") := fun h =>
  absurd (h.mem (c := '$') fun t h => by obtain ⟨_, _, rfl, rfl, _⟩ := h; simp [sigil]) (by decide)
example (x : Str) : ¬ (markLeaves c!"ASK { ?s ?p 5 }").iri (.iri x) := fun h => absurd h.1 (by decide)
example : (markLeaves c!"ASK { ?s ?p 5 }").number (.int 5) := ⟨'5', by decide, by decide⟩

end NomSparql
