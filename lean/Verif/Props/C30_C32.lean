import Verif.Lemmas.Yields
import Verif.Lemmas.Queries

/-!
# C30 to C32: lists in clauses
-/

namespace NomSparql

set_option maxRecDepth 8000

/-! ## C30: clause lists are never empty -/

/-- No condition on the leaves. -/
def anyLeaf : Leaves := ⟨fun _ => True, fun _ => True, fun _ => True, fun _ => True, fun _ => True, fun _ => True, fun _ => True, fun _ => True, True⟩

instance : LeafOk anyLeaf := by constructor <;> intros <;> trivial

/-- In every accepted query, at every depth, the lists named in Spec/Filled have an element. -/
theorem C30_query (i r : Str) (q : SparqlQueryStatement) (h : sparqlQueryStmt i = .ok r q) : FSparqlQueryStatement anyLeaf q :=
  Yields.out (T := anyLeaf) h

/-- The same in updates. -/
theorem C30_update (i r : Str) (u : Update) (h : update i = .ok r u) : FUpdate anyLeaf u := Yields.out (T := anyLeaf) h

/-- The same for expressions and groups parsed alone. -/
theorem C30_expression (i r : Str) (e : Expression) (h : expression i = .ok r e) : FExpression anyLeaf e := Yields.out (T := anyLeaf) h
theorem C30_group (i r : Str) (g : GroupGraphPattern) (h : groupGraphPattern i = .ok r g) : FGroupGraphPattern anyLeaf g :=
  Yields.out (T := anyLeaf) h

/-- What this says about the modifiers of the query itself. -/
theorem C30_modifier (i r : Str) (m : SolutionModifier) (h : solutionModifier i = .ok r m) :
    match m with
    | .mk o g hv _ => o ≠ some (.mk []) ∧ g ≠ some (.mk []) ∧ hv ≠ some (.mk []) := by
  have := Yields.out (T := anyLeaf) h
  obtain ⟨ho, hg, hh, _⟩ := this
  refine ⟨?_, ?_, ?_⟩ <;> rintro rfl
  · cases ho _ rfl; contradiction
  · cases hg _ rfl; contradiction
  · cases hh _ rfl; contradiction

/-- About SELECT: never an empty projection. -/
theorem C30_projection (i r : Str) (m : Option SelectModifier) (l : List VarOrExpressionAsVar)
    (h : selectClause i = .ok r (.mk m (.varOrExpressionAsVar l))) : l ≠ [] := by
  have := Yields.out (T := anyLeaf) h
  obtain ⟨_, h⟩ := this
  assumption

/-- About expressions: a disjunction has a conjunction and a conjunction a comparison. -/
theorem C30_conditions (i r : Str) (l : List ConditionalAndExpression) (h : expression i = .ok r (.mk l)) :
    l ≠ [] ∧ ∀ m, .mk m ∈ l → m ≠ [] := by
  have := (C30_expression i r _ h).inv
  obtain ⟨h1, h2⟩ := this
  refine ⟨h1, fun m hm => ?_⟩
  cases h2 _ hm
  assumption

/-! Cases: the predicate is false of trees with an empty list, and the crate does return trees with lists of several elements. -/
example (T : Leaves) (Q : Fam) : ¬ FOrderClauseS T Q (.mk []) := fun h => by cases h; contradiction
example (T : Leaves) (Q : Fam) : ¬ FSelectVarsS T Q (.varOrExpressionAsVar []) := fun h => by cases h; contradiction
example (T : Leaves) : ¬ FExpression T (.mk []) := fun h => by cases h.inv; contradiction
example (T : Leaves) : ¬ FExpression T (.mk [.mk []]) := fun h => by
  obtain ⟨_, h⟩ := h.inv
  cases h (.mk []) (by simp); contradiction
example (T : Leaves) (d : List DataSetClause) (g : GroupGraphPattern) (h : Option HavingClause) : ¬ FSparqlQueryStatement T
    ⟨⟨[]⟩, .ask { datasetClauses := d, whereClause := g, solutionModifier := .mk none (some (.mk [])) h none }, none⟩ := by
  rintro ⟨_, ⟨⟨_, _, ⟨_, h, _, _⟩⟩⟩, _⟩
  cases h _ rfl; contradiction
example : ∃ q, sparqlQueryStmt c!"SELECT ?a?b { { } UNION { } FILTER (?a && ?b || 1) } GROUP BY ?a ?b HAVING (?a) ORDER BY ?a LIMIT 1" =
    .ok [] ⟨⟨[]⟩, q, none⟩ := ⟨_, rfl⟩

/-! ## C31: the end of a clause -/

/-- In an accepted clause white space follows the list: nothing is accepted where the input or the group ends there. -/
theorem C31_order_needs_ws_violated (i r : Str) (o : OrderClause) (h : orderClause i = .ok r o) : StartsWs r := by
  obtain ⟨l, h0, rfl⟩ := map_ok.mp h
  obtain ⟨_, _, _, h1⟩ := preceded_ok.mp h0
  exact (wsList1_ok (p := orderCondition) h1).1

theorem C31_group_needs_ws_violated (i r : Str) (g : GroupClause) (h : groupClause i = .ok r g) : StartsWs r := by
  obtain ⟨l, h0, rfl⟩ := map_ok.mp h
  obtain ⟨_, _, _, h1⟩ := preceded_ok.mp h0
  exact (wsList1_ok (p := groupCondition) h1).1

theorem C31_having_needs_ws_violated (i r : Str) (c : HavingClause) (h : havingClause i = .ok r c) : StartsWs r := by
  obtain ⟨l, h0, rfl⟩ := map_ok.mp h
  obtain ⟨_, _, _, h1⟩ := preceded_ok.mp h0
  exact (wsList1_ok (p := constraint) h1).1

theorem modifier_ws {i r : Str} {o : Option OrderClause} {g : Option GroupClause} {c : Option HavingClause}
    (h : solutionModifier i = .ok r (.mk o g c none)) (hn : ¬ StartsWs r) : o = none ∧ g = none ∧ c = none := by
  obtain ⟨⟨g', c', o', l'⟩, h0, e⟩ := map_ok.mp h
  obtain ⟨rfl, rfl, rfl, rfl⟩ := SolutionModifier.mk.inj e
  obtain ⟨r1, r2, r3, h1, h2, h3, h4⟩ := tuple4_ok.mp h0
  rcases opt_ok.mp h4 with ⟨_, e, _⟩ | ⟨_, rfl, _⟩
  · cases e
  rcases opt_ok.mp h3 with ⟨x, e, h3⟩ | ⟨e3, rfl, _⟩
  · obtain ⟨_, _, _, h3⟩ := preceded_ok.mp h3
    exact absurd (C31_order_needs_ws_violated _ _ _ h3) hn
  rcases opt_ok.mp h2 with ⟨x, e, h2⟩ | ⟨e2, rfl, _⟩
  · obtain ⟨_, _, _, h2⟩ := preceded_ok.mp h2
    exact absurd (C31_having_needs_ws_violated _ _ _ h2) hn
  rcases opt_ok.mp h1 with ⟨x, e, h1⟩ | ⟨e1, rfl, _⟩
  · exact absurd (C31_group_needs_ws_violated _ _ _ h1) hn
  exact ⟨e3, e1, e2⟩

theorem queryModifier_ok {i r : Str} {q : SparqlQuery} (h : sparqlQuery i = .ok r q) : ∃ j, solutionModifier j = .ok r (queryModifier q) := by
  unfold sparqlQuery at h
  simp only [alt_two_ok, alt_one_ok, map_ok] at h
  rcases h with ⟨q, h, rfl⟩ | ⟨_, ⟨q, h, rfl⟩ | ⟨_, ⟨q, h, rfl⟩ | ⟨_, q, h, rfl⟩⟩⟩
  · obtain ⟨x, h0, rfl⟩ := map_ok.mp h
    obtain ⟨r1, r2, r3, h1, h2, h3, h4⟩ := tuple4_ok.mp h0
    exact ⟨_, h4⟩
  · obtain ⟨_, _, _, hc⟩ := preceded_ok.mp h
    simp only [alt_two_ok, alt_one_ok] at hc
    rcases hc with hc | ⟨_, hc⟩ <;> obtain ⟨q, hq, rfl⟩ := map_ok.mp hc <;> obtain ⟨x, h0, rfl⟩ := map_ok.mp hq <;>
      obtain ⟨r1, r2, r3, h1, h2, h3, h4⟩ := tuple4_ok.mp h0
    · exact ⟨_, h4⟩
    · obtain ⟨_, _, h5, h6⟩ := preceded_ok.mp h4
      exact ⟨_, h6⟩
  · obtain ⟨x, h0, rfl⟩ := map_ok.mp h
    obtain ⟨r1, r2, r3, r4, h1, h2, h3, h4, h5⟩ := tuple5_ok.mp h0
    exact ⟨_, h5⟩
  · obtain ⟨x, h0, rfl⟩ := map_ok.mp h
    obtain ⟨r1, r2, r3, h1, h2, h3, h4⟩ := tuple4_ok.mp h0
    exact ⟨_, h4⟩

/-- Whole queries: when the input is used up and there is neither LIMIT nor OFFSET nor VALUES, then there is no ORDER BY, GROUP BY or HAVING
either.  No query ending with one of these lists is read to its end. -/
theorem C31_query_violated (i : Str) (p : Prologue) (q : SparqlQuery) (o : Option OrderClause) (g : Option GroupClause) (c : Option HavingClause)
    (h : sparqlQueryStmt i = .ok [] ⟨p, q, none⟩) (hm : queryModifier q = .mk o g c none) : o = none ∧ g = none ∧ c = none := by
  obtain ⟨⟨p', q', v⟩, h0, e⟩ := map_ok.mp h
  simp only [SparqlQueryStatement.mk.injEq] at e
  obtain ⟨rfl, rfl, rfl⟩ := e
  obtain ⟨r1, r2, h1, h2, h3⟩ := tuple3_ok.mp h0
  rcases opt_ok.mp h3 with ⟨_, e, _⟩ | ⟨_, rfl, _⟩
  · cases e
  obtain ⟨j, hj⟩ := queryModifier_ok h2
  rw [hm] at hj
  exact modifier_ws hj not_startsWs_nil

/-- The complete texts of the three clauses, without the white space after them. -/
inductive ListClause : Str → Prop
  | group {k w k' w' l s} : kw c!"group" k → Ws1 w → kw c!"by" k' → Ws1 w' → Sep1 Ws1 (CGroupCond cGroup) l s →
      ListClause (k ++ (w ++ (k' ++ (w' ++ s))))
  | having {k w l s} : kw c!"having" k → Ws1 w → Sep1 Ws1 (CConstraint cGroup) l s → ListClause (k ++ (w ++ s))
  | order {k w k' w' l s} : kw c!"order" k → Ws1 w → kw c!"by" k' → Ws1 w' → Sep1 Ws1 (COrderCond cGroup) l s →
      ListClause (k ++ (w ++ (k' ++ (w' ++ s))))

theorem listClause_start {s : Str} (h : ListClause s) (r : Str) : Start (s ++ r) := by
  cases h <;> rename_i hk _ <;> simp only [List.append_assoc] <;> first | exact Start.kw ‹kw c!"group" _› (by decide) | exact Start.kw ‹kw c!"order" _› (by decide) | exact Start.kw ‹kw c!"having" _› (by decide)

theorem limit_fails {s : Str} (h1 : Fails (tagNoCase c!"limit") s) (h2 : Fails (tagNoCase c!"offset") s) : Fails limitOffsetClause s :=
  Fails.alt_cons (Fails.map (Fails.separatedPair (Fails.mapRes (Fails.preceded (Fails.terminated h1)))))
    (Fails.alt_cons (Fails.map (Fails.separatedPair (Fails.mapRes (Fails.preceded (Fails.terminated h2))))) Fails.alt_nil)

theorem modifier_unread {s : Str} (hs : ¬ StartsWs s) (f1 : Fails (groupClauseS R₀) s) (f2 : Fails (havingClauseS R₀) s)
    (f3 : Fails (orderClauseS R₀) s) (f4 : Fails limitOffsetClause s) : solutionModifier s = .ok s (.mk none none none none) :=
  map_eval (a := (none, none, none, none)) (f := fun x => SolutionModifier.mk x.2.2.1 x.1 x.2.1 x.2.2.2)
    (tuple4_eval f1.opt (Fails.preceded2 (sp_zero hs) f2).opt (Fails.preceded2 (sp_zero hs) f3).opt (Fails.preceded2 (sp_zero hs) f4).opt)

/-- Every such clause is ignored where no white space follows it: the modifiers read are empty and the clause is left unread. -/
theorem C31_violated (s r : Str) (h : ListClause s) (hr : Follow r) (hn : ¬ StartsWs r) :
    solutionModifier (s ++ r) = .ok (s ++ r) (.mk none none none none) := by
  have hG : ∀ g s, cGroup g s → ReadsAs groupGraphPattern s g := fun _ _ h => cGroup_reads h
  have hsp := (listClause_start h r).1
  cases h with
  | @group k w k' w' l s hk hw hk' hw' hs =>
    obtain ⟨f, hs⟩ := ws_stuck (p := groupCondition) (fun _ _ _ h hr => groupCond_follow hG h hr) (fun _ _ x h => groupCond_start hG h x) hr hn hs
    obtain ⟨_, e⟩ := by_eval hk hw hk' hw' hs
    simp only [List.append_assoc] at *
    exact modifier_unread hsp (f1 := Fails.map (Fails.preceded2 e f)) (f2 := Fails.map (Fails.preceded (Fails.terminated (kw_fails hk (by decide)))))
      (f3 := Fails.map (Fails.preceded (Fails.terminated (Fails.delimited (kw_fails hk (by decide))))))
      (f4 := limit_fails (kw_fails hk (by decide)) (kw_fails hk (by decide)))
  | @having k w l s hk hw hs =>
    obtain ⟨f, hs⟩ := ws_stuck (p := constraint) (fun _ _ _ h hr => constraint_eval hG h _) (fun _ _ x h => constraint_start hG h x) hr hn hs
    simp only [List.append_assoc] at *
    exact modifier_unread hsp (f1 := Fails.map (Fails.preceded (Fails.terminated (Fails.delimited (kw_fails hk (by decide))))))
      (f2 := Fails.map (Fails.preceded2 (terminated_eval (kw_eval hk) (sp1_eval hw hs.1)) f))
      (f3 := Fails.map (Fails.preceded (Fails.terminated (Fails.delimited (kw_fails hk (by decide))))))
      (f4 := limit_fails (kw_fails hk (by decide)) (kw_fails hk (by decide)))
  | @order k w k' w' l s hk hw hk' hw' hs =>
    obtain ⟨f, hs⟩ := ws_stuck (p := orderCondition) (fun _ _ _ h hr => orderCond_follow hG h hr) (fun _ _ x h => orderCond_start hG h x) hr hn hs
    obtain ⟨_, e⟩ := by_eval hk hw hk' hw' hs
    simp only [List.append_assoc] at *
    exact modifier_unread hsp (f1 := Fails.map (Fails.preceded (Fails.terminated (Fails.delimited (kw_fails hk (by decide))))))
      (f2 := Fails.map (Fails.preceded (Fails.terminated (kw_fails hk (by decide)))))
      (f3 := Fails.map (Fails.preceded2 e f)) (f4 := limit_fails (kw_fails hk (by decide)) (kw_fails hk (by decide)))

/-- Modifiers that are not read are left over by ASK. -/
theorem ask_unread {k w g w' s : Str} {G : GroupGraphPattern} (hk : CaseVariant c!"ask" k) (hw : Ws1 w) (hg : cGroup G g) (hw' : Ws w')
    (hm : solutionModifier s = .ok s (.mk none none none none)) (hs : Start s) : sparqlQueryStmt (k ++ (w ++ (g ++ (w' ++ s)))) = .ok s
      ⟨⟨[]⟩, .ask { datasetClauses := [], whereClause := G, solutionModifier := .mk none none none none }, none⟩ := by
  have hg := cGroup_reads hg
  obtain ⟨t, ht⟩ := hg.brace
  have n1 := brace_start hg (w' ++ s)
  have hd : dataSetClauses (g ++ (w' ++ s)) = .ok (g ++ (w' ++ s)) [] := by rw [ht]; exact Fails.sep0 (First.cons rfl)
  have hp := stmt_front (p := ⟨[]⟩) (ps := []) (w0 := []) rfl .nil ⟨_, k, w ++ (g ++ (w' ++ s)), rfl, hk, by simp⟩
  refine map_eval (a := (⟨[]⟩, .ask _, none)) (f := fun x => SparqlQueryStatement.mk x.1 x.2.1 x.2.2) (tuple3_eval hp ?_ (Fails.opt (Fails.preceded (sp1_fails hs.1))))
  refine alt_eval2 (Fails.map (Fails.map (Fails.tuple4 (Fails.terminated (Fails.map (Fails.tuple3 (kw_fails hk (by decide)))))))) ?_
  refine alt_eval2 (Fails.map (Fails.preceded (Fails.terminated (kw_fails hk (by decide))))) ?_
  refine alt_eval2 (Fails.map (Fails.map (Fails.tuple5 (kw_fails hk (by decide))))) ?_
  exact map_eval (f := SparqlQuery.ask) (map_eval (a := (k, [], G, SolutionModifier.mk none none none none)) (f := fun x => AskQuery.mk x.2.1 x.2.2.1 x.2.2.2)
    (tuple4_eval (terminated_eval (kw_eval hk) (sp1_eval hw n1.1)) (terminated_eval hd (sp_zero n1.1))
      (terminated_eval (whereClause_brace hg) (sp_eval hw' hs.1)) hm))

/-- In a query: `ASK { ... } ORDER BY ...` at the end of the input succeeds without the clause, which is left unread. -/
theorem C31_ask_violated (k w g w' s : Str) (G : GroupGraphPattern) (hk : CaseVariant c!"ask" k) (hw : Ws1 w) (hg : cGroup G g) (hw' : Ws w')
    (h : ListClause s) : sparqlQueryStmt (k ++ (w ++ (g ++ (w' ++ s)))) = .ok s
      ⟨⟨[]⟩, .ask { datasetClauses := [], whereClause := G, solutionModifier := .mk none none none none }, none⟩ := by
  have hm := C31_violated s [] h ⟨by simp, by simp⟩ not_startsWs_nil
  have hs := listClause_start h []
  rw [List.append_nil] at hm hs
  exact ask_unread hk hw hg hw' hm hs

/-- With white space after each list, and after nothing else, every solution modifier is read to the end of the input.  Missing for the full
property: the white space after the last list. -/
theorem C31_partial (m : SolutionModifier) (s : Str) (h : cModifier cGroup m s) : ∃ w, Ws w ∧ solutionModifier s = .ok w m := by
  obtain ⟨_, w, hw, h⟩ := modifier_eval (fun _ _ h => cGroup_reads h) h (x := []) (.inl rfl)
  simp only [List.append_nil] at h
  exact ⟨w, hw, h⟩

/-- LIMIT and OFFSET need nothing after them. -/
theorem C31_limit_partial (l : LimitOffsetClause) (s : Str) (h : cLimitOffset l s) : ∃ w, Ws w ∧ solutionModifier s = .ok w (.mk none none none (some l)) :=
  C31_partial (.mk none none none (some l)) s ⟨[], s, rfl, rfl, [], s, rfl, rfl, [], s, rfl, rfl, h⟩

/-! Cases of C31. -/
example : ListClause c!"ORDER BY ?x DESC(?y)" ∨ ListClause c!"ORDER BY ?x ?y" := .inr (.order (k := c!"ORDER") (w := c!" ") (k' := c!"BY") (w' := c!" ")
  (kw_rfl rfl) (ws1_rfl rfl) (kw_rfl rfl) (ws1_rfl rfl) (l := [.var (.qmark c!"x"), .var (.qmark c!"y")])
  ⟨c!"?x", c!" ?y", rfl, .var ⟨rfl, by decide, by decide⟩, c!" ?y", [], rfl, ⟨c!" ", c!"?y", rfl, ws1_rfl rfl, .var ⟨rfl, by decide, by decide⟩⟩, rfl⟩)
example : solutionModifier c!"ORDER BY ?x" = .ok c!"ORDER BY ?x" (.mk none none none none) := rfl
example : solutionModifier c!"ORDER BY ?x " = .ok c!" " (.mk (some (.mk [.var (.qmark c!"x")])) none none none) := rfl
example : solutionModifier c!"ORDER BY ?x LIMIT 1" =
    .ok [] (.mk (some (.mk [.var (.qmark c!"x")])) none none (some (.limitOffset 1 none))) := rfl

/-! ## C32: SELECT lists -/

/-- After a prologue a SELECT whose list continues after white space is rejected, whatever comes after. -/
theorem C32_violated (p : Prologue) (ps w0 sel w x : Str) (c : SelectClause) (d : Char) (hp : cPrologue p ps) (hw0 : Ws w0)
    (hc : cSelectClause cGroup c sel) (hw : Ws1 w) (hd : d ∈ ['?', '$', '(']) :
    ∃ pos e, sparqlQueryStmt (ps ++ (w0 ++ (sel ++ (w ++ d :: x)))) = .err (.error pos e) := by
  have hG : ∀ g s, cGroup g s → ReadsAs groupGraphPattern s g := fun _ _ h => cGroup_reads h
  have hs := selectClause_eval hG hc hw (d :: x)
  obtain ⟨k, t, rfl, hk⟩ : ∃ k t, sel = k ++ t ∧ CaseVariant c!"select" k := by
    obtain ⟨a, b⟩ := c
    obtain ⟨k, t, rfl, hk, _⟩ := hc
    exact ⟨k, t, rfl, hk⟩
  have hp := stmt_front hp hw0 (q := k ++ t ++ (w ++ d :: x)) ⟨_, k, t ++ (w ++ d :: x), List.append_assoc .., hk, by simp⟩
  refine Fails.map (Fails.pair2 hp (Fails.pair ?_))
  have n1 : ¬ StartsWs (d :: x) ∧ Fails dataSetClause (d :: x) ∧ Fails whereClause (d :: x) := by
    simp only [List.mem_cons, List.not_mem_nil, or_false] at hd
    rcases hd with rfl | rfl | rfl <;> exact ⟨not_startsWs_cons rfl, First.cons rfl,
      Fails.preceded2 (Fails.opt (Fails.terminated (First.cons rfl))) (First.cons (p := groupGraphPattern) rfl)⟩
  refine Fails.alt_cons (Fails.map (Fails.map (Fails.pair2 (terminated_eval hs (sp1_eval hw n1.1)) (Fails.pair2 (Fails.sep0 n1.2.1)
    (Fails.pair (Fails.delimited2 (sp_zero n1.1) n1.2.2)))))) ?_
  rw [List.append_assoc]
  exact Fails.alt_cons (Fails.map (Fails.preceded (Fails.terminated (kw_fails hk (by decide)))))
    (Fails.alt_cons (Fails.map (Fails.map (Fails.tuple5 (kw_fails hk (by decide)))))
      (Fails.map (Fails.map (Fails.tuple4 (Fails.terminated (kw_fails hk (by decide)))))))

/-- In particular two variables with white space between them. -/
theorem C32_two_violated (v : Var) (u : Var) (k w s w' t x : Str) (hk : CaseVariant c!"select" k) (hw : Ws1 w) (hv : cVar v s) (hw' : Ws1 w')
    (hu : cVar u t) : ∃ pos e, sparqlQueryStmt (k ++ (w ++ (s ++ (w' ++ (t ++ x))))) = .err (.error pos e) := by
  have key : ∀ d ∈ ['?', '$', '('], ∀ z, ∃ pos e, sparqlQueryStmt (k ++ (w ++ (s ++ (w' ++ d :: z)))) = .err (.error pos e) := by
    intro d hd z
    have := C32_violated ⟨[]⟩ [] [] (k ++ (w ++ s)) w' z (.mk none (.varOrExpressionAsVar [.var v])) d rfl .nil
      ⟨k, w ++ s, rfl, hk, [], w ++ s, rfl, rfl, w, s, rfl, hw, s, [], by simp, .var hv, rfl⟩ hw' hd
    simpa using this
  obtain ⟨y, rfl | rfl⟩ := cVar_head hu
  · exact key '?' (by simp) (y ++ x)
  · exact key '$' (by simp) (y ++ x)

theorem many_vars {l : List Var} {s : Str} (h : Many cVar l s) : Many (CProj cGroup) (l.map .var) s := by
  induction l generalizing s with
  | nil => exact h
  | cons v l ih => obtain ⟨x, y, rfl, hx, hy⟩ := h; exact ⟨x, y, rfl, .var hx, ih hy⟩

/-- Variables written one after the other without white space are all returned, in order.  Missing for the full property: the white space. -/
theorem C32_unseparated_partial (v : Var) (l : List Var) (m : Option SelectModifier) (G : GroupGraphPattern) (k sm w s w' kw' w2 g : Str)
    (hk : CaseVariant c!"select" k) (hm : rOpt (fun m => Ws1 ⬝ rSelectModifier m) m sm) (hw : Ws1 w) (hl : Many cVar (v :: l) s) (hw' : Ws1 w')
    (hk' : CaseVariant c!"where" kw') (hw2 : Ws1 w2) (hg : cGroup G g) :
    ∃ w3, Ws w3 ∧ sparqlQueryStmt (k ++ (sm ++ (w ++ (s ++ (w' ++ (kw' ++ (w2 ++ g))))))) = .ok w3
      ⟨⟨[]⟩, .select { selectClause := .mk m (.varOrExpressionAsVar ((v :: l).map .var)), datasetClauses := [], whereClause := G,
                       solutionModifier := .mk none none none none }, none⟩ := by
  refine queryStmt_eval ⟨rfl, [], _, rfl, rfl, [], _, rfl, .nil, k ++ (sm ++ (w ++ s)), w' ++ (kw' ++ (w2 ++ g)), by simp, ?_, w', _, rfl, hw', [], _, rfl, rfl,
    kw' ++ (w2 ++ g), [], by simp, ?_, [], [], rfl, .nil, [], [], rfl, rfl, [], [], rfl, rfl, [], [], rfl, rfl, rfl⟩
  · refine ⟨k, _, rfl, hk, sm, _, rfl, hm, w, s, rfl, hw, ?_⟩
    exact many_vars hl
  · exact ⟨kw' ++ w2, g, by simp, .inr ⟨kw', w2, rfl, hk', hw2⟩, hg⟩

/-! Cases of C32. -/
example : ∃ e, sparqlQueryStmt c!"SELECT ?a ?b WHERE { }" = .err e := ⟨_, rfl⟩
example : ∃ g, sparqlQueryStmt c!"SELECT DISTINCT ?a$b?c WHERE { }" = .ok [] ⟨⟨[]⟩, .select {
    selectClause := .mk (some .distinct) (.varOrExpressionAsVar [.var (.qmark c!"a"), .var (.dollar c!"b"), .var (.qmark c!"c")])
    datasetClauses := [], whereClause := g, solutionModifier := .mk none none none none }, none⟩ := ⟨_, rfl⟩
example : cSelectClause cGroup (.mk none (.varOrExpressionAsVar [.var (.qmark c!"a")])) c!"SELECT ?a" :=
  ⟨c!"SELECT", _, rfl, kw_rfl rfl, [], _, rfl, rfl, c!" ", c!"?a", rfl, ws1_rfl rfl, c!"?a", [], rfl, .var ⟨rfl, by decide, by decide⟩, rfl⟩

end NomSparql
