import Verif.Lemmas.EffortUpdateLower
import Verif.Lemmas.Queries

/-! # Accepted texts that take many calls -/

namespace NomSparql

/-- The expression that is a built-in call. -/
def callExpr (b : BuiltInCall) : Expression := .mk [.mk [.mk (.mk (.mk (.default (.builtInCall b)) []) []) none]]

/-- `STRLEN ( … , e)` around a canonical expression, `n` times; with white space before the opening parentheses. -/
inductive Pairs : Nat → Expression → Str → Prop
  | zero {e s} : cExpr true e s → Pairs 0 e s
  | more {n e s e' s' k w m w'} : CaseVariant c!"strlen" k → Ws1 w → Pairs n e s → cComma m → cExpr true e' s' → Ws w' →
      Pairs (n + 1) (callExpr (.contains e e')) (k ++ (w ++ '(' :: (s ++ (m ++ (s' ++ (w' ++ [')']))))))

theorem bracket_comma {e : Expression} {s m x : Str} (h : ReadsTo expression orStops true e s) (hm : cComma m) :
    Fails brackettedExpression ('(' :: (s ++ (m ++ x))) := by
  obtain ⟨w, _, rfl, hw, _, w', rfl, rfl, hw'⟩ := hm
  simp only [List.append_assoc]
  obtain ⟨_, w2, h1, h2, h3⟩ := h.2 w (',' :: (w' ++ x)) hw (Follow.ws_close hw (by simp)) (Stop.cons (by decide))
  have h4 : spEnc expression (s ++ (w ++ ',' :: (w' ++ x))) = .ok (',' :: (w' ++ x)) e :=
    delimited_eval (sp_zero (h.1.not_ws _)) h3 (sp_eval h1 (not_startsWs_cons rfl))
  exact Fails.preceded2 char_eval (Fails.map (Fails.pair2 h4 (char_fails (c := ')') (by decide))))

theorem call_strlen {e e' : Expression} {k w s m s' w' : Str} (hk : CaseVariant c!"strlen" k) (hw : Ws1 w) (h : ReadsTo expression orStops true e s)
    (hm : cComma m) (h' : ReadsTo expression orStops true e' s') (hw' : Ws w') :
    CallReads (.contains e e') (k ++ (w ++ '(' :: (s ++ (m ++ (s' ++ (w' ++ [')'])))))) := by
  refine ⟨⟨c!"strlen", k, _, rfl, hk, by decide, fun r => ?_⟩, fun r => ?_⟩
  · rw [List.append_assoc]
    exact paren_notWord hw.1 _
  have e1 : (k ++ (w ++ '(' :: (s ++ (m ++ (s' ++ (w' ++ [')'])))))) ++ r = k ++ (w ++ '(' :: ((s ++ (m ++ (s' ++ w'))) ++ ')' :: r)) := by simp
  rw [e1]
  have h1 := args2 (r := r) h hm h' hw'
  have hr := paren_notWord hw.1 ((s ++ (m ++ (s' ++ w'))) ++ ')' :: r)
  have h2 := bcall (r := r) hk hw.1 h1
  have h3 : Fails (precededTag1 c!"strlen" (separatedPair (brackettedExpressionS R₀) sp (strReplaceExpressionS R₀)))
      (k ++ (w ++ '(' :: ((s ++ (m ++ (s' ++ w'))) ++ ')' :: r))) := by
    refine Fails.preceded2 (terminated_eval (kw_eval hk) (sp1_eval hw (not_startsWs_cons rfl))) (Fails.pair ?_)
    simp only [List.append_assoc]
    exact bracket_comma h hm
  unfold builtInCall builtInCallS
  refine alt_eval1 ?_
  unfold builtInCall1S
  repeat (first
    | other hk hr
    | exact alt_eval1 (map_ok.mpr ⟨_, h2, rfl⟩)
    | refine alt_eval2 (Fails.map h3) ?_)

theorem callExpr_reads {b : BuiltInCall} {s : Str} (h : CallReads b s) : ReadsTo expression orStops true (callExpr b) s := by
  rw [expression_eq]
  exact chain_accept (chain_one Stop.and orSep_stops (chain_accept (chain_one Stop.rel andSep_stops (rel_one (add_one (mult_one (unary_plain (prim_call h))))))
    (f := ConditionalAndExpression.mk))) (f := Expression.mk)

theorem Pairs.reads {n : Nat} {e : Expression} {s : Str} (h : Pairs n e s) : ReadsTo expression orStops true e s := by
  induction h with
  | zero h => exact cExpr_reads h
  | more hk hw _ hm h' hw' ih => exact callExpr_reads (call_strlen hk hw ih hm (cExpr_reads h') hw')

theorem Pairs.cost {n : Nat} {e : Expression} {s : Str} (h : Pairs n e s) : ∀ r, 2 ^ n ≤ (Cost.expression (s ++ r)).2 := by
  induction h with
  | zero h => exact fun r => Cost.cost_pos _
  | more hk hw hp hm h' hw' ih =>
    intro r
    simp only [List.append_assoc, List.cons_append]
    rw [Nat.pow_succ, Nat.mul_comm, Nat.two_mul]
    exact Cost.strlen_cost hk hw (hp.reads.1.not_ws _) (Fails.pair (bracket_comma hp.reads hm)) (ih _)

/-- A group with one filter. -/
def filterGroup (e : Expression) : GroupGraphPattern := .groupGraphPatternSub (.mk none [.mk (.filter (.bracketted e)) none])

/-- `{ FILTER ( text ) }` -/
inductive Filter (T : Expression → Lang) : GroupGraphPattern → Lang
  | mk {e v k w v' s w' w''} : Ws v → CaseVariant c!"filter" k → Ws1 w → Ws v' → T e s → Ws w' → Ws1 w'' →
      Filter T (filterGroup e) ('{' :: (v ++ (k ++ (w ++ '(' :: (v' ++ (s ++ (w' ++ ')' :: (w'' ++ c!"}"))))))))

theorem Filter.reads {T : Expression → Lang} (hT : ∀ e s, T e s → ReadsTo expression orStops true e s) {g : GroupGraphPattern} {s : Str} (h : Filter T g s) :
    ReadsAs groupGraphPattern s g := by
  intro r
  obtain ⟨hv, hk, hw, hv', hs, hw', hw''⟩ := h
  rename_i e v k w v' s w' w''
  have hi : ItemHead (k ++ (w ++ '(' :: (v' ++ (s ++ (w' ++ [')']))))) :=
    .inr ⟨_, _, _, rfl, hk, by simp [itemKws], fun x => by rw [List.append_assoc]; exact (Start.cons (by decide)).follow hw⟩
  have hitem : ∀ x, graphPatternNotTriplesS R₀ (k ++ (w ++ '(' :: (v' ++ (s ++ (w' ++ [')']))) ++ x)) = .ok x (.filter (.bracketted e)) := by
    intro x
    unfold graphPatternNotTriplesS
    simp only [List.append_assoc]
    refine alt_eval2 (kw_first hk rfl) (alt_eval2 (kw_first hk rfl) (alt_eval2 (kw_first hk rfl) (alt_eval2 (kw_first hk rfl)
      (alt_eval2 (kw_first hk rfl) (alt_eval1 ?_)))))
    refine map_eval (f := GraphPatternNotTriples.filter) (preceded_eval (terminated_eval (kw_eval hk) (sp1_eval hw (not_startsWs_cons rfl))) ?_)
    exact alt_eval1 (map_eval (f := Constraint.bracketted) (bracket_reads hv' (hT _ _ hs) hw' x))
  have hl : WsList (fun (a : GraphPatternAndTriples) t => a = .mk (.filter (.bracketted e)) none ∧ t = k ++ (w ++ '(' :: (v' ++ (s ++ (w' ++ [')'])))))
      [.mk (.filter (.bracketted e)) none] (k ++ (w ++ '(' :: (v' ++ (s ++ (w' ++ [')'])))) ++ w'') :=
    ⟨by simp, _, [], (List.append_nil _).symm, ⟨_, _, rfl, ⟨rfl, rfl⟩, hw''⟩, rfl⟩
  obtain ⟨⟨w3, hw3, h1⟩, h2⟩ := ws_list (p := groupGraphPatternAndTriplesS R₀) (E := EntryStart) (x := '}' :: r)
    (fun a t w1 x h hw1 hx => by
      obtain ⟨rfl, rfl⟩ := h
      unfold groupGraphPatternAndTriplesS
      refine map_eval (a := (GraphPatternNotTriples.filter (.bracketted e), none)) (f := fun x => GraphPatternAndTriples.mk x.1 x.2) (separatedPair_eval ?_
        (Fails.opt (Fails.preceded2 (sp_eval hw1.1 hx.start.1) hx.qmark)) (Fails.opt (Fails.preceded2 (sp_eval hw1.1 hx.start.1) hx.block)))
      have := hitem (w1 ++ x)
      simpa using this)
    (fun _ _ x h => by obtain ⟨_, rfl⟩ := h; exact EntryStart.item hi x) (fun _ h => h.start.1) (EntryStart.brace r) (noEntry r) hl
  have hf : Fails subSelect ((k ++ (w ++ '(' :: (v' ++ (s ++ (w' ++ [')'])))) ++ w'') ++ '}' :: r) := by
    simp only [List.append_assoc]
    exact Fails.map (Fails.tuple4 (Fails.map (Fails.tuple3 (kw_fails hk (by decide)))))
  have := sub_eval hv h2.start.1 hw3.1 hf (Fails.opt (Fails.terminated h2.block)) (separatedList_ok.mpr (.inr (separatedNonemptyList_ok.mp h1)))
  simpa [filterGroup] using this

theorem Filter.cost {T : Expression → Lang} {n : Nat} (hT : ∀ e s, T e s → ReadsTo expression orStops true e s)
    (hc : ∀ e s, T e s → ∀ r, n ≤ (Cost.expression (s ++ r)).2) {g : GroupGraphPattern} {s : Str} (h : Filter T g s) :
    ∃ t, s = '{' :: t ∧ n ≤ (Cost.groupGraphPattern s).2 := by
  obtain ⟨hv, hk, hw, hv', hs, hw', hw''⟩ := h
  exact ⟨_, rfl, filter_cost hv hk hw hv' ((hT _ _ hs).1.not_ws _) (hc _ _ hs _)⟩

/-- The group of an ASK query. -/
theorem ask_cost {n : Nat} {k w g : Str} (hk : CaseVariant c!"ask" k) (hw : Ws1 w) (h : n ≤ (Cost.groupGraphPattern ('{' :: g)).2) :
    n ≤ (Cost.sparqlQueryStmt (k ++ (w ++ '{' :: g))).2 := by
  have n1 : ¬ StartsWs (k ++ (w ++ '{' :: g)) := kw_not_ws hk (by decide)
  have n2 : ¬ StartsWs ('{' :: g) := not_startsWs_cons rfl
  have hp := C24_prologue ⟨[]⟩ [] (k ++ (w ++ '{' :: g)) rfl (noDecl (w := []) .nil hk (by simp))
  have hq : n ≤ (Cost.sparqlQuery (k ++ (w ++ '{' :: g))).2 := by
    unfold Cost.sparqlQuery
    rw [Cost.alt_cost]
    refine Cost.cost_alt_tail ?_ (Cost.cost_alt_tail ?_ (Cost.cost_alt_tail ?_ ?_))
    · rw [Cost.erase_map, Cost.erase_selectQuery]
      exact Fails.map (Fails.map (Fails.tuple4 (Fails.terminated (Fails.map (Fails.tuple3 (kw_fails hk (by decide)))))))
    · rw [Cost.erase_map, Cost.erase_constructQuery]
      exact Fails.map (Fails.preceded (Fails.terminated (kw_fails hk (by decide))))
    · rw [Cost.erase_map, Cost.erase_describeQuery]
      exact Fails.map (Fails.map (Fails.tuple5 (kw_fails hk (by decide))))
    · show n ≤ (Cost.map Cost.askQuery _ _).2
      unfold Cost.askQuery Cost.tuple4
      rw [Cost.map_cost, Cost.map_cost]
      refine Cost.cost_pair_snd (p := Cost.terminated (Cost.tagNoCase c!"ask") Cost.sp1) (terminated_eval (kw_eval hk) (sp1_eval hw n2)) ?_
      refine Cost.cost_pair_snd (r := '{' :: g) (a := []) ?_ (Cost.cost_pair_fst (Cost.cost_terminated ?_))
      · exact terminated_eval (p := dataSetClauses) (Fails.sep0 (show Fails dataSetClause ('{' :: g) from First.cons rfl)) (sp_zero n2)
      · have hf : Fails (terminated (tagNoCase c!"where") sp1) ('{' :: g) := Fails.terminated (First.cons rfl)
        have ho := Fails.opt hf
        exact Cost.cost_preceded (p := Cost.opt (Cost.terminated (Cost.tagNoCase c!"where") Cost.sp1)) (a := none) (r := '{' :: g) (by rw [← ho]; rfl) h
  unfold Cost.sparqlQueryStmt Cost.tuple3
  rw [Cost.map_cost]
  exact Cost.cost_pair_snd (p := Cost.terminated Cost.prologue Cost.sp) (terminated_eval hp (sp_zero n1)) (Cost.cost_pair_fst hq)

/-- Whole queries around any groups that are read. -/
theorem queryStmt_evalG {cG : GroupGraphPattern → Lang} (hG : ∀ g s, cG g s → ReadsAs groupGraphPattern s g) {p : Prologue} {q : SparqlQuery} {ps w0 t : Str}
    (hp : cPrologue p ps) (hw0 : Ws w0) (ht : cQuery cG q t) : ∃ w, Ws w ∧ sparqlQueryStmt (ps ++ (w0 ++ t)) = .ok w ⟨p, q, none⟩ := by
  obtain ⟨⟨w, hw, h1⟩, h2⟩ := query_eval hG ht (x := []) (.inl rfl)
  simp only [List.append_nil] at h1
  refine ⟨w, hw, map_eval (a := (p, q, none)) (f := fun x => SparqlQueryStatement.mk x.1 x.2.1 x.2.2) (tuple3_eval (stmt_front hp hw0 h2) h1 ?_)⟩
  refine Fails.opt ?_
  by_cases hn : w = []
  · subst hn; exact Fails.preceded (sp1_fails not_startsWs_nil)
  · have := sp1_eval (w := w) (r := []) ⟨hw, hn⟩ not_startsWs_nil
    rw [List.append_nil] at this
    exact Fails.preceded2 this (Fails.preceded (Fails.terminated First.nil))

end NomSparql
