import Verif.Model.Display
import Verif.Lemmas.Printable
import Verif.Props.C46_C50
import Verif.Props.C51_C55

/-!
# C67: printing a query and parsing the text gives the query back
-/

namespace NomSparql

/-- What `Display` promises: a text, and the parser reads it as the same query. -/
def DisplayRoundTrips (q : SparqlQuery) : Prop :=
  ∃ s, displayQuery q = .ok [] s ∧ ∃ w, Ws w ∧ sparqlQueryStmt s = .ok w ⟨⟨[]⟩, q, none⟩

/-- `to_string()` panics on every query, so the promise holds for none. -/
theorem C67_violated (q : SparqlQuery) : displayQuery q = .err .panic ∧ ¬ DisplayRoundTrips q := ⟨rfl, by rintro ⟨s, h, _⟩; cases h⟩

/-- The printer of Spec/Print does what `Display` promises, on the queries it is meant for, nested to any depth `n`. -/
theorem C67_query_partial (n : Nat) (q : SparqlQueryStatement) (h : wQueryStmt (printable n) q) :
    ∃ w, Ws w ∧ sparqlQueryStmt (pQueryStmt (printer n) q) = .ok w q :=
  C54_query_partial q _ (queryStmt_p (printer_ok n) h)

/-- Updates. -/
theorem C67_update_partial (n : Nat) (u : Update) (h : wUpdate (printable n) u) :
    ∃ w, Ws w ∧ update (pUpdate (printer n) u) = .ok w u := by
  have := C50_chain_partial cGroup (fun _ _ h => cGroup_reads h) u _ [] (update_p (printer_ok n) h) .nil
  rwa [List.append_nil] at this

/-- Groups, whatever follows. -/
theorem C67_group_partial (n : Nat) (g : GroupGraphPattern) (r : Str) (h : (printable n).group g) :
    groupGraphPattern ((printer n).group g ++ r) = .ok r g := cGroup_reads ((printer_ok n).group g h) r

/-- Expressions in parentheses, whatever follows. -/
theorem C67_expression_partial (n : Nat) (e : Expression) (r : Str) (h : (printable n).expr e) :
    brackettedExpression ('(' :: ((printer n).expr e ++ ')' :: r)) = .ok r e :=
  C39_expression _ e [] _ [] r ((printer_ok n).expr e h) .nil .nil

/-- Different queries are printed differently, even at different depths. -/
theorem C67_injective (n m : Nat) (q q' : SparqlQueryStatement) (h : wQueryStmt (printable n) q) (h' : wQueryStmt (printable m) q')
    (e : pQueryStmt (printer n) q = pQueryStmt (printer m) q') : q = q' := by
  obtain ⟨_, _, h1⟩ := C67_query_partial n q h
  obtain ⟨_, _, h2⟩ := C67_query_partial m q' h'
  rw [e, h2] at h1
  cases h1; rfl

theorem C67_update_injective (n m : Nat) (u u' : Update) (h : wUpdate (printable n) u) (h' : wUpdate (printable m) u')
    (e : pUpdate (printer n) u = pUpdate (printer m) u') : u = u' := by
  obtain ⟨_, _, h1⟩ := C67_update_partial n u h
  obtain ⟨_, _, h2⟩ := C67_update_partial m u' h'
  rw [e, h2] at h1
  cases h1; rfl

/-- The printer leaves nothing out: the queries it is meant for are exactly the ones that have a canonical text, i.e. one of those the acceptance theorems
(C54) are about. -/
theorem C67_class_query (q : SparqlQueryStatement) : (∃ n, wQueryStmt (printable n) q) ↔ ∃ s, cQueryStmt q s := by
  refine ⟨fun ⟨n, h⟩ => ⟨_, queryStmt_p (printer_ok n) h⟩, fun ⟨s, h⟩ => ?_⟩
  obtain ⟨n, h⟩ := queryStmt_w h
  exact ⟨n, h n (Nat.le_refl n)⟩

theorem C67_class_update (u : Update) : (∃ n, wUpdate (printable n) u) ↔ ∃ s, cUpdate cGroup u s := by
  refine ⟨fun ⟨n, h⟩ => ⟨_, update_p (printer_ok n) h⟩, fun ⟨s, h⟩ => ?_⟩
  obtain ⟨n, h⟩ := update_w h
  exact ⟨n, h n (Nat.le_refl n)⟩

theorem C67_class_group (g : GroupGraphPattern) : (∃ n, (printable n).group g) ↔ ∃ s, cGroup g s := by
  refine ⟨fun ⟨n, h⟩ => ⟨_, (printer_ok n).group g h⟩, fun ⟨s, h⟩ => ?_⟩
  obtain ⟨n, h⟩ := cGroup_w g s h
  exact ⟨n, h n (Nat.le_refl n)⟩

theorem C67_class_expression (e : Expression) : (∃ n, (printable n).expr e) ↔ ∃ b s, cExpr b e s := by
  refine ⟨fun ⟨n, h⟩ => ⟨_, _, (printer_ok n).expr e h⟩, fun ⟨b, s, h⟩ => ?_⟩
  obtain ⟨n, h⟩ := expr_w cGroup_w h
  exact ⟨n, h n (Nat.le_refl n)⟩

/-- Parsing any canonical text, printing the result and parsing again gives the same result, with any large enough bound on the depth. -/
theorem C67_reprint_partial (q : SparqlQueryStatement) (s : Str) (h : cQueryStmt q s) :
    ∃ w, Ws w ∧ sparqlQueryStmt s = .ok w q ∧
      ∃ n, ∀ m, n ≤ m → ∃ w', Ws w' ∧ sparqlQueryStmt (pQueryStmt (printer m) q) = .ok w' q := by
  obtain ⟨w, hw, e⟩ := C54_query_partial q s h
  obtain ⟨n, hn⟩ := queryStmt_w h
  exact ⟨w, hw, e, n, fun m hm => C67_query_partial m q (hn m hm)⟩

theorem C67_reprint_update_partial (u : Update) (s : Str) (h : cUpdate cGroup u s) :
    ∃ w, Ws w ∧ update s = .ok w u ∧ ∃ n, ∀ m, n ≤ m → ∃ w', Ws w' ∧ update (pUpdate (printer m) u) = .ok w' u := by
  obtain ⟨w, hw, e⟩ := C50_chain_partial cGroup (fun _ _ h => cGroup_reads h) u s [] h .nil
  rw [List.append_nil] at e
  obtain ⟨n, hn⟩ := update_w h
  exact ⟨w, hw, e, n, fun m hm => C67_update_partial m u (hn m hm)⟩

/-! ## An example: the printed text, and that the query is among those meant -/

/-- `?v` -/
def exVar : Var := .qmark ['v']
/-- The expression consisting of one operand. -/
def exOf (p : PrimaryExpression) : Expression := .mk [.mk [.mk (.mk (.mk (.default p) []) []) none]]
/-- `bound(?v) && !(-2.50e7 < ?v * 3)` -/
def exExpr : Expression := .mk [.mk [
  .mk (.mk (.mk (.default (.builtInCall (.bound exVar))) []) []) none,
  .mk (.mk (.mk (.not (.brackettedExpression (.mk [.mk [
    .mk (.mk (.mk (.sub (.numericLiteral (.double ⟨false, 250, 2⟩ (some 7)))) []) []) (some (.lt (.mk (.mk (.default (.var exVar))
      [.mult (.default (.numericLiteral (.int 3)))]) [])))]]))) []) []) none]]
/-- `{?v <p> 'say "hi"' filter (...) {?v a <c>} union {} }` -/
def exGroup : GroupGraphPattern := .groupGraphPatternSub (.mk
  (some ⟨[.term (.var exVar) (.mk (.path (.mk [.mk [.pathElt (.mk (.iri (.iri ['p'])) none)]])) [.varOrTerm (.term (.rdfLiteral ⟨c!"say \"hi\"", none⟩))] [])]⟩)
  [.mk (.filter (.bracketted exExpr)) none,
   .mk (.groupOrUnion [.groupGraphPatternSub (.mk (some ⟨[.term (.var exVar) (.mk (.path (.mk [.mk [.pathElt (.mk .a none)]])) [.varOrTerm (.term (.iri (.iri ['c'])))] [])]⟩) []),
     .groupGraphPatternSub (.mk none [])]) none])
/-- `prefix x: <http://x> select distinct ?v where {...} order by desc (?v) limit 10` -/
def exQuery : SparqlQueryStatement := ⟨⟨[.prefix ⟨some ['x'], c!"http://x"⟩]⟩,
  .select ⟨.mk (some .distinct) (.varOrExpressionAsVar [.var exVar]), [], exGroup,
    .mk (some (.mk [.order (.mk .desc (exOf (.var exVar)))])) none none (some (.limitOffset 10 none))⟩, none⟩

example : pQueryStmt (printer 3) exQuery =
    c!"prefix x: <http://x> select distinct ?v where {?v <p> 'say \"hi\"' filter (bound(?v) && !(-2.50e7 < ?v*3 )) {?v a <c>} union {} }order by desc (?v) limit 10" := by
  decide +kernel

theorem exVar_ok : wVar exVar := ⟨by decide, by decide⟩

theorem exExpr_ok : wExpression (printable 1) exExpr := by
  simp [exExpr, wExpression, wAnd, wRel, wAdd, wMult, wUnary, wPrim, wCall, All, All1, Opt, wOp, wFactor, exVar_ok, printable, wUnsigned, FitsI64]

theorem exGroup_ok : wGroup (printable 2) exGroup := by
  have h2 : wIri (.iri ['p']) ∧ wIri (.iri ['c']) := ⟨by simp [wIri, wIriRef]; decide, by simp [wIri, wIriRef]; decide⟩
  have h3 : wRdfLiteral ⟨c!"say \"hi\"", none⟩ := by
    refine ⟨⟨by simp, '\'', .inl rfl, ?_⟩, by simp⟩
    repeat refine .ord (by decide) (by decide) ?_
    exact .nil
  simp [exGroup, wGroup, wGroupEntry, wItem, wConstraint, wPatterns, wPattern, All, All1, Opt, wVarOrTerm, wTerm, exVar_ok, printable, wPathAlternative,
    wPathSequences, wPathSequence, wPath, wEltOrInverse, wElt, wPrimary, h2, h3]
  refine ⟨?_, exExpr_ok, ?_⟩ <;> (intro c t h; cases h; decide)

theorem exQuery_ok : wQueryStmt (printable 3) exQuery := by
  refine ⟨?_, ⟨by simp [wSelectClause, wSelectVars, All1, wProj, exVar_ok], by simp [All], exGroup_ok, ?_⟩, rfl⟩
  · simp only [exQuery, wPrologue, All, wDecl, List.mem_singleton, forall_eq]
    exact ⟨⟨'x', [], rfl, by decide, by simp [NameTail]⟩, by unfold wIriRef; decide⟩
  · simp [wModifier, Opt, wLimitOffset, wOrderClause, All1, wOrderCond, printable, exOf, wExpression, wAnd, wRel, wAdd, wMult, wUnary, wPrim, All, exVar_ok]

example : ∃ w, Ws w ∧ sparqlQueryStmt (pQueryStmt (printer 3) exQuery) = .ok w exQuery := C67_query_partial 3 exQuery exQuery_ok

/-- `insert data {?v <p> 7} ; clear silent all` -/
def exUpdate : Update := .mk ⟨[]⟩ (some (.insertData ⟨some [.term (.var exVar) (.mk [.mk (.varOrIri (.iri (.iri ['p']))) [.varOrTerm (.term (.numericLiteral (.int 7)))]])], []⟩))
  (some (.mk ⟨[]⟩ (some (.clear ⟨true, .all⟩)) none))

example : pUpdate (printer 0) exUpdate = c!" insert data {?v <p> 7 .} ;  clear silent all" := by decide +kernel
theorem exUpdate_ok : wUpdate (printable 0) exUpdate := by
  have h : wIri (.iri ['p']) := by simp [wIri, wIriRef]; decide
  simp [exUpdate, wUpdate, wPrologue, All, wStatement, wQuads, Opt, wTriples, All1, wTriples1, wVarOrTerm, exVar_ok, wPropertyList, wVerbList, wVerb, wVarOrIri, wNode, wTerm,
    wNumber, FitsI64, wGraphRefAll, h]

end NomSparql
