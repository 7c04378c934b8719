import Verif.Lemmas.Depth
import Verif.Props.C30_C32
import Verif.Props.C46_C50

/-!
# C64: the recursion depth

A parser with budget `n` (`recF n`, `pathAlternativeF n`, `graphNodeF n`, `graphNodePathF n`, `updateF n`) answers `fuel` when more than `n`
calls would be open at the same time, and otherwise what the parser without budget answers; no combinator recovers from `fuel`.
-/

namespace NomSparql

/-- The number of opening brackets of a text. -/
def openings (i : Str) : Nat := i.countP isOpen

/-- The parsers with the recursive functions as a parameter are those of the model. -/
theorem C64_parameter : sparqlQueryStmtS R₀ = sparqlQueryStmt ∧ updateStmtS R₀ = updateStmt ∧ R₀.expr = expression ∧ R₀.ggp = groupGraphPattern :=
  ⟨rfl, rfl, rfl, rfl⟩

/-! ## What holds: the depth is at most the number of opening brackets plus two -/

theorem C64_expression_partial (n : Nat) (i : Str) (h : openings i + 1 < n) : (recF n).expr i = expression i := by
  obtain ⟨n, rfl⟩ : ∃ m, n = m + 1 := ⟨n - 1, by omega⟩
  exact (recF_near n).expr.out i (by unfold openings at h; omega)

theorem C64_group_partial (n : Nat) (i : Str) (h : openings i < n) : (recF n).ggp i = groupGraphPattern i := by
  obtain ⟨n, rfl⟩ : ∃ m, n = m + 1 := ⟨n - 1, by omega⟩
  exact (recF_near n).ggp.out i h

theorem C64_query_partial (n : Nat) (i : Str) (h : openings i < n) : sparqlQueryStmtS (recF n) i = sparqlQueryStmt i := by
  obtain ⟨n, rfl⟩ : ∃ m, n = m + 1 := ⟨n - 1, by omega⟩
  have := recF_near n
  exact (near_sparqlQueryStmtS (b := n) (R := recF (n + 1)) (R' := R₀)).out i h

theorem C64_update_statement_partial (n : Nat) (i : Str) (h : openings i < n) : updateStmtS (recF n) i = updateStmt i := by
  obtain ⟨n, rfl⟩ : ∃ m, n = m + 1 := ⟨n - 1, by omega⟩
  have := recF_near n
  exact (near_updateStmtS (b := n) (R := recF (n + 1)) (R' := R₀)).out i h

/-- `update` calls itself once per semicolon. -/
theorem C64_update_partial (n : Nat) (i : Str) (h : i.countP isSemi < n) : updateF n i = update i := (updateF_near n).out i h

theorem C64_path_partial (n : Nat) (i : Str) (h : openings i < n) : pathAlternativeF n i = pathAlternative i := (pathAlternativeF_near n).out i h

/-- `graph_node` and `graph_node_path` never call themselves. -/
theorem C64_node (n : Nat) (i : Str) : graphNodeF (n + 1) i = graphNode i := by rw [graphNode_eq]; exact graphNodeStep_const _ _ i
theorem C64_node_path (n : Nat) (i : Str) : graphNodePathF (n + 1) i = graphNodePath i := by
  rw [graphNodePath_eq]; exact graphNodePathStep_const _ _ i

/-! ## Violated: no depth is enough for all inputs -/

theorem fatal_fuel : Fatal .fuel := fun _ _ h => by cases h

theorem many_cons (n : Nat) (c : Char) (x : Str) : List.replicate (n + 1) c ++ x = c :: (List.replicate n c ++ x) := rfl

theorem expr_fuel : ∀ n x, Dies .fuel (recF n).expr (List.replicate n '(' ++ x)
  | 0, x => ⟨fatal_fuel, rfl⟩
  | n + 1, x => by
    rw [recF_expr, many_cons]
    have h : Dies .fuel (spEnc (recF n).expr) (List.replicate n '(' ++ x) := by
      cases n with
      | zero =>
        obtain ⟨r, a, e⟩ : ∃ r a, sp x = .ok r a := Total.out x
        exact Dies.delimited2 e ⟨fatal_fuel, rfl⟩
      | succ n => exact Dies.delimited2 (sp_zero (not_startsWs_cons rfl)) (expr_fuel (n + 1) x)
    have hp : Dies .fuel (primaryExpressionS (recF n)) ('(' :: (List.replicate n '(' ++ x)) :=
      Dies.alt (Dies.map (Dies.delimited2 char_eval h))
    have hu : Dies .fuel (unaryExpressionS (recF n)) ('(' :: (List.replicate n '(' ++ x)) :=
      Dies.alt_cons (Fails.map (First.cons (c := '(') rfl)) (Dies.alt_cons (Fails.map (First.cons (c := '(') rfl))
        (Dies.alt_cons (Fails.map (First.cons (c := '(') rfl)) hp.map))
    exact Dies.map (Dies.sep1 (Dies.map (Dies.sep1 (Dies.map (Dies.pair (Dies.map (Dies.pair (Dies.map (Dies.pair hu)))))))))

/-- Violated: `n` nested parentheses need more than `n` open calls of `expression`, whatever is inside. -/
theorem C64_expression_violated (n : Nat) (x : Str) : (recF n).expr (List.replicate n '(' ++ x) = .err .fuel := (expr_fuel n x).2

theorem group_fuel : ∀ n x, Dies .fuel (recF n).ggp (List.replicate (n + 1) '{' ++ x)
  | 0, x => ⟨fatal_fuel, rfl⟩
  | n + 1, x => by
    rw [recF_ggp, many_cons]
    have ih := group_fuel n x
    rw [many_cons] at ih ⊢
    have hs : Dies .fuel (groupGraphPatternSubS (recF n)) ('{' :: (List.replicate n '{' ++ x)) :=
      Dies.map (Dies.pair2 (Fails.opt (Fails.terminated (First.cons (c := '{') rfl)))
        (Dies.sep0 (Dies.map (Dies.separatedPair (Dies.alt (Dies.map (Dies.sep1 ih)))))))
    exact Dies.delimited2 char_eval (Dies.delimited2 (sp_zero (not_startsWs_cons rfl))
      (Dies.alt_cons (Fails.map (Fails.map (Fails.tuple4 (Fails.map (Fails.tuple3 (First.cons (c := '{') rfl)))))) hs.map))

/-- Violated: `n + 1` nested braces need more than `n` open calls of `group_graph_pattern`, whatever is inside. -/
theorem C64_group_violated (n : Nat) (x : Str) : (recF n).ggp (List.replicate (n + 1) '{' ++ x) = .err .fuel := (group_fuel n x).2

/-- The same for a query: `ASK {{{...`. -/
theorem C64_query_violated (n : Nat) (k w x : Str) (hk : CaseVariant c!"ask" k) (hw : Ws1 w) :
    sparqlQueryStmtS (recF n) (k ++ (w ++ (List.replicate (n + 1) '{' ++ x))) = .err .fuel := by
  have hg := group_fuel n x
  rw [many_cons] at hg ⊢
  have n3 : ¬ StartsWs ('{' :: (List.replicate n '{' ++ x)) := not_startsWs_cons rfl
  have hq : Dies .fuel (sparqlQueryS (recF n)) (k ++ (w ++ '{' :: (List.replicate n '{' ++ x))) := by
    refine Dies.alt_cons (Fails.map (Fails.map (Fails.tuple4 (Fails.terminated (Fails.map (Fails.tuple3 (kw_fails hk (by decide)))))))) ?_
    refine Dies.alt_cons (Fails.map (Fails.preceded (Fails.terminated (kw_fails hk (by decide))))) ?_
    refine Dies.alt_cons (Fails.map (Fails.map (Fails.tuple5 (kw_fails hk (by decide))))) ?_
    refine Dies.alt (Dies.map (Dies.map (Dies.pair2 (terminated_eval (kw_eval hk) (sp1_eval hw n3))
      (Dies.pair2 (terminated_eval (Fails.sep0 (First.cons (c := '{') rfl)) (sp_zero n3)) (Dies.pair (Dies.terminated ?_))))))
    exact Dies.preceded2 (Fails.opt (Fails.terminated (First.cons (c := '{') rfl))) hg
  have hp := stmt_front (p := ⟨[]⟩) (ps := []) (w0 := []) rfl .nil ⟨_, k, w ++ '{' :: (List.replicate n '{' ++ x), rfl, hk, by simp⟩
  exact (Dies.map (Dies.pair2 hp (Dies.pair hq))).2

theorem path_fuel : ∀ n x, Dies .fuel (pathAlternativeF n) (List.replicate n '(' ++ x)
  | 0, x => ⟨fatal_fuel, rfl⟩
  | n + 1, x => by
    rw [many_cons]
    have hp : Dies .fuel (pathPrimaryS (pathAlternativeF n)) ('(' :: (List.replicate n '(' ++ x)) :=
      Dies.alt_cons (Fails.map (First.cons (c := '(') rfl)) (Dies.alt_cons (Fails.map (First.cons (c := '(') rfl))
        (Dies.alt_cons (Fails.map (Fails.preceded (First.cons (c := '(') rfl)))
          (Dies.map (Dies.delimited2 (r := List.replicate n '(' ++ x) (a := ['(']) rfl (path_fuel n x)))))
    exact Dies.map (Dies.sep1 (Dies.map (Dies.sep1 (Dies.alt (Dies.map (Dies.map hp.pair))))))

/-- Violated for property paths: `((((...`. -/
theorem C64_path_violated (n : Nat) (x : Str) : pathAlternativeF n (List.replicate n '(' ++ x) = .err .fuel := (path_fuel n x).2

theorem update_fuel : ∀ (l : List (UpdateStatement × Str)) (x : Str), (∀ p ∈ l, cStatement cGroup p.1 p.2) →
    Dies .fuel (updateF l.length) (l.flatMap (fun p => p.2 ++ c!";") ++ x)
  | [], x, _ => ⟨fatal_fuel, rfl⟩
  | (st, y) :: l, x, h => by
    have hy : cStatement cGroup st y := h _ (List.mem_cons_self ..)
    have ih := update_fuel l x fun p hp => h p (List.mem_cons_of_mem _ hp)
    have e : ((st, y) :: l).flatMap (fun p => p.2 ++ c!";") ++ x = y ++ ';' :: (l.flatMap (fun p => p.2 ++ c!";") ++ x) := by simp
    rw [e]
    generalize hz : l.flatMap (fun p => p.2 ++ c!";") ++ x = z at ih ⊢
    have hst := statement_accepts cGroup (fun _ _ h => cGroup_reads h) st y (';' :: z) hy ⟨[], _, rfl, .nil, .inr ⟨_, rfl⟩⟩
    have n := statement_not_ws hy (';' :: z)
    obtain ⟨v, k, t, hv, hk, rfl⟩ := statement_kw hy
    rw [List.append_assoc] at hst n ⊢
    obtain ⟨r, a, h1, h2⟩ : ∃ r a, sp z = .ok r a ∧ Dies .fuel (updateF l.length) r := by
      cases l with
      | nil => obtain ⟨r, a, e⟩ : ∃ r a, sp z = .ok r a := Total.out z; exact ⟨r, a, e, fatal_fuel, rfl⟩
      | cons p l =>
        have hn : ¬ StartsWs z := by
          subst hz
          have := statement_not_ws (h p (by simp)) (c!";" ++ (l.flatMap (fun p => p.2 ++ c!";") ++ x))
          simpa using this
        exact ⟨z, [], sp_zero hn, ih⟩
    exact Dies.map (Dies.pair2 (C24_prologue ⟨[]⟩ [] _ rfl (noDecl_update (w := []) .nil hk hv)) (Dies.opt (Dies.pair2
      (preceded_eval (sp_zero n) hst) (Dies.opt (Dies.preceded2 (delimited_eval (sp_zero (not_startsWs_cons rfl)) char_eval h1) h2)))))

/-- Violated for requests: `n` statements, each with its semicolon, need more than `n` open calls of `update`; the calls are not tail calls. -/
theorem C64_update_violated (l : List (UpdateStatement × Str)) (x : Str) (h : ∀ p ∈ l, cStatement cGroup p.1 p.2) :
    updateF l.length (l.flatMap (fun p => p.2 ++ c!";") ++ x) = .err .fuel := (update_fuel l x h).2

/-! ## Such inputs are accepted by the parser without budget -/

/-- `}` and then ` }`, `n` times. -/
def closers : Nat → Str
  | 0 => c!"}"
  | n + 1 => closers n ++ c!" }"

/-- The value of `n + 1` nested groups, the innermost empty. -/
def nested : Nat → GroupGraphPattern
  | 0 => .groupGraphPatternSub (.mk none [])
  | n + 1 => .groupGraphPatternSub (.mk none [.mk (.groupOrUnion [nested n]) none])

theorem nested_canonical : ∀ n, cGroup (nested n) (List.replicate (n + 1) '{' ++ closers n)
  | 0 => fun _ h => h _ _ (CGroup.empty (w := []) .nil)
  | n + 1 => fun P h => by
    have ih := nested_canonical n P h
    have := h _ _ (CGroup.items (cG := P) (w := []) (l := [.mk (.groupOrUnion [nested n]) none])
      (s := (List.replicate (n + 1) '{' ++ closers n) ++ c!" ") .nil
      ⟨by simp, (List.replicate (n + 1) '{' ++ closers n) ++ c!" ", [], (List.append_nil _).symm,
        ⟨_, c!" ", rfl, .plain (.union ⟨List.replicate (n + 1) '{' ++ closers n, [], (List.append_nil _).symm, ih, rfl⟩), ws1_rfl rfl⟩, rfl⟩)
    simpa [nested, closers, List.replicate_succ] using this

/-- Groups nested to any depth are read completely ... -/
theorem C64_nested_group (n : Nat) (r : Str) : groupGraphPattern (List.replicate (n + 1) '{' ++ closers n ++ r) = .ok r (nested n) :=
  cGroup_reads (nested_canonical n) r

/-- ... also in a query, so that every depth is needed by an accepted query. -/
theorem C64_nested_query (n : Nat) (k w : Str) (hk : CaseVariant c!"ask" k) (hw : Ws1 w) :
    let i := k ++ (w ++ (List.replicate (n + 1) '{' ++ closers n))
    sparqlQueryStmtS (recF n) i = .err .fuel ∧ sparqlQueryStmt i = .ok []
      ⟨⟨[]⟩, .ask { datasetClauses := [], whereClause := nested n, solutionModifier := .mk none none none none }, none⟩ := by
  refine ⟨C64_query_violated n k w _ hk hw, ?_⟩
  have := ask_unread (s := []) hk hw (nested_canonical n) (w' := []) .nil rfl ⟨not_startsWs_nil, notStart_nil⟩
  simpa using this

/-- The value of an expression in `n` pairs of parentheses. -/
def wrapped (e : Expression) : Nat → Expression
  | 0 => e
  | n + 1 => .mk [.mk [.mk (.mk (.mk (.default (.brackettedExpression (wrapped e n))) []) []) none]]

theorem wrapped_canonical {e : Expression} {s : Str} (h : cExpr true e s) :
    ∀ n, cExpr true (wrapped e n) (List.replicate n '(' ++ (s ++ List.replicate n ')'))
  | 0 => by simpa [wrapped] using h
  | n + 1 => by
    have := CExpr.mk (COr.one (CAnd.one (CRel.one (CAdd.one (CMult.one (CUnary.plain
      (CPrim.bracket (w := []) (w' := []) .nil (wrapped_canonical h n) .nil)))))))
    have e : List.replicate n ')' ++ [')'] = ')' :: List.replicate n ')' := by
      rw [← List.replicate_succ', List.replicate_succ]
    simpa [wrapped, cExpr, List.replicate_succ, e] using this

/-- An expression in any number of parentheses is read completely, up to the bracket or comma after it. -/
theorem C64_nested_expression (n : Nat) (c : Char) (e : Expression) (s r : Str) (h : cExpr true e s) (hc : c = ')' ∨ c = ',') :
    expression (List.replicate n '(' ++ (s ++ List.replicate n ')') ++ c :: r) = .ok (c :: r) (wrapped e n) := by
  obtain ⟨_, h⟩ := cExpr_reads (wrapped_canonical h n)
  obtain ⟨_, w', _, ⟨l, _⟩, e⟩ := h [] (c :: r) .nil (Follow.ws_close (w := []) .nil (by rcases hc with rfl | rfl <;> simp)) ⟨c, r, rfl, by rcases hc with rfl | rfl <;> simp [orStops]⟩
  rw [l rfl] at e
  exact e

/-! ## Cases -/

/-- Depth 3 is enough for two pairs of braces, depth 1 is not. -/
example : (recF 3).ggp c!"{{} }" = groupGraphPattern c!"{{} }" := C64_group_partial 3 _ (by decide)
example : (recF 1).ggp c!"{{} }" = .err .fuel := C64_group_violated 1 c!"} }"
example : sparqlQueryStmt c!"ASK {{{} } }" = .ok [] ⟨⟨[]⟩, .ask ⟨[], nested 2, .mk none none none none⟩, none⟩ :=
  (C64_nested_query 2 c!"ASK" c!" " (kw_rfl rfl) (ws1_rfl rfl)).2
example : (recF 2).expr c!"((?x))" = .err .fuel := C64_expression_violated 2 c!"?x))"
example : (recF 4).expr c!"((?x))" = expression c!"((?x))" := C64_expression_partial 4 _ (by decide)
theorem wrapped_x : cExpr true (.mk [.mk [.mk (.mk (.mk (.default (.var (.qmark c!"x"))) []) []) none]]) c!"?x" :=
  CExpr.mk (COr.one (CAnd.one (CRel.one (CAdd.one (CMult.one (CUnary.plain (CPrim.var ⟨rfl, by decide, by decide⟩)))))))
example : ∃ e, expression c!"(((?x))), 1" = .ok c!", 1" e := ⟨_, C64_nested_expression 3 ',' _ c!"?x" c!" 1" wrapped_x (.inr rfl)⟩
/-- The bound counts brackets of every kind, also in strings. -/
example : openings c!"ASK { ?s <p> '(' . FILTER (?x) }" = 3 := by decide
example : pathAlternativeF 2 c!"((<p>))" = .err .fuel := C64_path_violated 2 c!"<p>))"
example : pathAlternativeF 3 c!"((<p>))" = pathAlternative c!"((<p>))" := C64_path_partial 3 _ (by decide)
example : updateF 2 c!"drop all;clear all;" = .err .fuel := C64_update_violated
  [(.drop ⟨false, .all⟩, c!"drop all"), (.clear ⟨false, .all⟩, c!"clear all")] [] (by
    intro p hp
    simp only [List.mem_cons, List.not_mem_nil, or_false] at hp
    rcases hp with rfl | rfl
    · exact ⟨c!"drop", _, rfl, kw_rfl rfl, c!" ", c!"all", rfl, ws1_rfl rfl, [], c!"all", rfl, rfl, kw_rfl rfl⟩
    · exact ⟨c!"clear", _, rfl, kw_rfl rfl, c!" ", c!"all", rfl, ws1_rfl rfl, [], c!"all", rfl, rfl, kw_rfl rfl⟩)
example : updateF 3 c!"drop all;clear all;" = update c!"drop all;clear all;" := C64_update_partial 3 _ (by decide)

end NomSparql
