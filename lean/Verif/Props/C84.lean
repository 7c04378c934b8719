import Verif.Lemmas.EqualText

/-!
# C84: comparing trees with `==`

All types of the trees derive `PartialEq` and `Eq` (src/literal.rs:71 adds `impl Eq for NumericLiteral {}` by hand, although an `f64` is inside).
-/

namespace NomSparql

/-! ## What `==` means: the same tree, once every decimal is replaced by its `f64` -/

theorem C84_query (q q' : SparqlQueryStatement) :
    rsEqSparqlQueryStatement q q' = true ↔ renumSparqlQueryStatement seen q = renumSparqlQueryStatement seen q' := rsEqSparqlQueryStatement_iff seen_iff q q'
theorem C84_update (u u' : Update) : rsEqUpdate u u' = true ↔ renumUpdate seen u = renumUpdate seen u' := rsEqUpdate_iff seen_iff u u'
theorem C84_expression (e e' : Expression) : rsEqExpression e e' = true ↔ renumExpression seen e = renumExpression seen e' := rsEqExpression_iff seen_iff e e'
theorem C84_group (g g' : GroupGraphPattern) : rsEqGroupGraphPattern g g' = true ↔ renumGroupGraphPattern seen g = renumGroupGraphPattern seen g' :=
  rsEqGroupGraphPattern_iff seen_iff g g'

/-! ## `Eq` is an equivalence, as the trait demands -/

theorem C84_lawful_query : Equivalence fun q q' => rsEqSparqlQueryStatement q q' = true where
  refl q := (C84_query q q).mpr rfl
  symm h := (C84_query _ _).mpr ((C84_query _ _).mp h).symm
  trans h h' := (C84_query _ _).mpr (((C84_query _ _).mp h).trans ((C84_query _ _).mp h'))
theorem C84_lawful_update : Equivalence fun u u' => rsEqUpdate u u' = true where
  refl u := (C84_update u u).mpr rfl
  symm h := (C84_update _ _).mpr ((C84_update _ _).mp h).symm
  trans h h' := (C84_update _ _).mpr (((C84_update _ _).mp h).trans ((C84_update _ _).mp h'))
theorem C84_lawful_expression : Equivalence fun e e' => rsEqExpression e e' = true where
  refl e := (C84_expression e e).mpr rfl
  symm h := (C84_expression _ _).mpr ((C84_expression _ _).mp h).symm
  trans h h' := (C84_expression _ _).mpr (((C84_expression _ _).mp h).trans ((C84_expression _ _).mp h'))
theorem C84_lawful_group : Equivalence fun g g' => rsEqGroupGraphPattern g g' = true where
  refl g := (C84_group g g).mpr rfl
  symm h := (C84_group _ _).mpr ((C84_group _ _).mp h).symm
  trans h h' := (C84_group _ _).mpr (((C84_group _ _).mp h).trans ((C84_group _ _).mp h'))

/-! ## Trees of texts with integers only are equal exactly if they are the same -/

theorem C84_exact_query (i i' r r' : Str) (q q' : SparqlQueryStatement) (hi : OnlyIntegers i) (hi' : OnlyIntegers i')
    (h : sparqlQueryStmt i = .ok r q) (h' : sparqlQueryStmt i' = .ok r' q') : rsEqSparqlQueryStatement q q' = true ↔ q = q' := by
  have e : ∀ {i r : Str} {q : SparqlQueryStatement}, OnlyIntegers i → sparqlQueryStmt i = .ok r q → renumSparqlQueryStatement seen q = q := by
    intro i r q hi h
    haveI := wholeLeaves_ok hi
    exact fixSparqlQueryStatement seen_whole (fixFExpression seen_whole) (fixFGroup seen_whole)
      (YieldsIn.out (S := (· <:+ i)) (T := wholeLeaves) (List.suffix_refl i) h)
  rw [C84_query, e hi h, e hi' h']

theorem C84_exact_update (i i' r r' : Str) (u u' : Update) (hi : OnlyIntegers i) (hi' : OnlyIntegers i')
    (h : update i = .ok r u) (h' : update i' = .ok r' u') : rsEqUpdate u u' = true ↔ u = u' := by
  have e : ∀ {i r : Str} {u : Update}, OnlyIntegers i → update i = .ok r u → renumUpdate seen u = u := by
    intro i r u hi h
    haveI := wholeLeaves_ok hi
    exact fixUpdate seen_whole u (YieldsIn.out (S := (· <:+ i)) (T := wholeLeaves) (List.suffix_refl i) h)
  rw [C84_update, e hi h, e hi' h']

theorem C84_exact_expression (i i' r r' : Str) (e e' : Expression) (hi : OnlyIntegers i) (hi' : OnlyIntegers i')
    (h : expression i = .ok r e) (h' : expression i' = .ok r' e') : rsEqExpression e e' = true ↔ e = e' := by
  have k : ∀ {i r : Str} {e : Expression}, OnlyIntegers i → expression i = .ok r e → renumExpression seen e = e := by
    intro i r e hi h
    haveI := wholeLeaves_ok hi
    exact fixFExpression seen_whole e (YieldsIn.out (S := (· <:+ i)) (T := wholeLeaves) (List.suffix_refl i) h)
  rw [C84_expression, k hi h, k hi' h']

theorem C84_exact_group (i i' r r' : Str) (g g' : GroupGraphPattern) (hi : OnlyIntegers i) (hi' : OnlyIntegers i')
    (h : groupGraphPattern i = .ok r g) (h' : groupGraphPattern i' = .ok r' g') : rsEqGroupGraphPattern g g' = true ↔ g = g' := by
  have k : ∀ {i r : Str} {g : GroupGraphPattern}, OnlyIntegers i → groupGraphPattern i = .ok r g → renumGroupGraphPattern seen g = g := by
    intro i r g hi h
    haveI := wholeLeaves_ok hi
    exact fixFGroup seen_whole g (YieldsIn.out (S := (· <:+ i)) (T := wholeLeaves) (List.suffix_refl i) h)
  rw [C84_group, k hi h, k hi' h']

/-! Cases.  Two ways to write a number, the two zeros, two decimals that no `f64` tells apart: equal.  An integer and a decimal, two exponents, another
variable: different.  A text with integers only. -/

/-- The two texts are read to the end and the trees are compared. -/
def compared (i i' : Str) : Option Bool :=
  match sparqlQueryStmt i, sparqlQueryStmt i' with
  | .ok [] q, .ok [] q' => some (rsEqSparqlQueryStatement q q')
  | _, _ => none

example : compared c!"ASK { ?s ?p 1.50 }" c!"ask { ?s ?p +01.5 }" = some true := by decide +kernel
example : compared c!"ASK { ?s ?p -0.0 }" c!"ASK { ?s ?p 0.0 }" = some true := by decide +kernel
example : compared c!"ASK { ?s ?p 0.1 }" c!"ASK { ?s ?p 0.10000000000000000001 }" = some true := by decide +kernel
example : compared c!"ASK { ?s ?p 1 }" c!"ASK { ?s ?p 1.0 }" = some false := by decide +kernel
example : compared c!"ASK { ?s ?p 1.0e2 }" c!"ASK { ?s ?p 1.0e3 }" = some false := by decide +kernel
example : compared c!"ASK { ?s ?p 10.0e2 }" c!"ASK { ?s ?p 1.0e3 }" = some false := by decide +kernel
example : compared c!"ASK { ?s ?p ?o }" c!"ASK { ?s ?p $o }" = some false := by decide +kernel
example : compared c!"ASK { ?s ?p 12 }" c!"ASK { ?s ?p 012 }" = some true := by decide +kernel

theorem onlyIntegers_of {i : Str} (h : ∀ c ∈ i, c ∉ ['.', 'e', 'E']) (hl : i.length ≤ 18) : OnlyIntegers i :=
  ⟨fun _ c _ hc m => h c (m.subset (by simp)) hc, fun _ _ m => h '.' (m.subset (by simp)) (by simp), fun _ m _ => Nat.le_trans m.length_le hl⟩

example : OnlyIntegers c!"ASK { ?s ?p 12 }" := onlyIntegers_of (by decide) (by decide)
example : ¬ OnlyIntegers c!"ASK { ?s ?p 1.5 }" := fun h => h.1 '1' '.' (by decide) (by simp) ⟨c!"ASK { ?s ?p ", c!"5 }", rfl⟩
example : ∃ q q', sparqlQueryStmt c!"ASK { ?s ?p 12 }" = .ok [] q ∧ sparqlQueryStmt c!"ask { ?s ?p 12 }" = .ok [] q' ∧ q = q' := by
  have h : ∃ q q', sparqlQueryStmt c!"ASK { ?s ?p 12 }" = .ok [] q ∧ sparqlQueryStmt c!"ask { ?s ?p 12 }" = .ok [] q' := ⟨_, _, rfl, rfl⟩
  obtain ⟨q, q', h, h'⟩ := h
  have hc : compared c!"ASK { ?s ?p 12 }" c!"ask { ?s ?p 12 }" = some true := by decide +kernel
  rw [compared, h, h'] at hc
  exact ⟨q, q', h, h', (C84_exact_query _ _ _ _ q q' (onlyIntegers_of (by decide) (by decide)) (onlyIntegers_of (by decide) (by decide)) h h').mp (by simpa using hc)⟩

end NomSparql
