import Verif.Lemmas.CostInstances
import Verif.Props.C42_C45

/-!
# Lower bounds on the number of calls
-/

namespace NomSparql.Cost

section
variable {p : K α} {q : K β} {s : K γ} {i r : Input} {a : α} {n m : Nat}

theorem cost_pair_fst (h : n ≤ (p i).2) : n ≤ (pair p q i).2 := by
  unfold pair
  simp only
  split <;> omega

theorem cost_pair_snd (e : erase p i = .ok r a) (h : n ≤ (q r).2) : n ≤ (pair p q i).2 := by
  unfold pair
  have e : (p i).1 = .ok r a := e
  simp only [e]
  omega

theorem map_cost {f : α → β} : (map p f i).2 = (p i).2 := rfl

theorem cost_terminated (h : n ≤ (p i).2) : n ≤ (terminated p q i).2 := cost_pair_fst h
theorem cost_preceded (e : erase p i = .ok r a) (h : n ≤ (q r).2) : n ≤ (preceded p q i).2 := cost_pair_snd e h
theorem cost_delimited (e : erase p i = .ok r a) (h : n ≤ (q r).2) : n ≤ (delimited p q s i).2 := cost_preceded e (cost_terminated h)

theorem alt_cost {l : List (K α)} : (alt l i).2 = altCost l i := rfl

theorem cost_alt_head {ps : List (K α)} (h : n ≤ (p i).2) : n ≤ altCost (p :: ps) i := by
  cases ps with
  | nil => exact h
  | cons p₂ ps => rw [altCost]; split <;> omega

theorem cost_alt_both {p₂ : K α} {ps : List (K α)} (hp : n ≤ (p i).2) (hf : Fails (erase p) i) (h : m ≤ altCost (p₂ :: ps) i) : n + m ≤ altCost (p :: p₂ :: ps) i := by
  obtain ⟨pos, k, e⟩ := hf
  have e : (p i).1 = .err (.error pos k) := e
  rw [altCost]
  simp only [e]
  omega

theorem cost_alt_tail {p₂ : K α} {ps : List (K α)} (hf : Fails (erase p) i) (h : m ≤ altCost (p₂ :: ps) i) : m ≤ altCost (p :: p₂ :: ps) i := by
  have := cost_alt_both (n := 0) (Nat.zero_le _) hf h
  omega

theorem cost_list (h : n ≤ (p i).2) : n ≤ listCost q p i := by unfold listCost; omega

theorem cost_many1 (h : n ≤ (p i).2) : n ≤ (many1 p i).2 := by
  unfold many1
  simp only
  omega
end

theorem kchar_eval {c : Char} {r : Str} : erase (char c) (c :: r) = .ok r c := char_eval

/-! ## STRLEN -/

section
variable {u k r x w : Str} {t : Str} {p : K α} {f : α → β}

theorem other_bracket [KwTag t] (hk : CaseVariant u k) (hr : NotStart WordC r)
    (hu : (∀ c ∈ u, KwLetter c) ∧ (∀ t' ∈ [t], ∀ c ∈ t', KwLetter c) ∧ u ∉ [t]) : Fails (erase (map (precededBracketted t p) f)) (k ++ r) :=
  Key.other (p := NomSparql.map (NomSparql.precededBracketted t (erase p)) f) hk hr hu

theorem other_tag1 [KwTag t] (hk : CaseVariant u k) (hr : NotStart WordC r)
    (hu : (∀ c ∈ u, KwLetter c) ∧ (∀ t' ∈ [t], ∀ c ∈ t', KwLetter c) ∧ u ∉ [t]) : Fails (erase (map (precededTag1 t p) f)) (k ++ r) :=
  Key.other (p := NomSparql.map (NomSparql.precededTag1 t (erase p)) f) hk hr hu
end

theorem strlen_call_fails {k w x : Str} (hk : kw c!"strlen" k) (hw : Ws1 w)
    (h1 : Fails (NomSparql.separatedPair NomSparql.brackettedExpression NomSparql.sp (NomSparql.strReplaceExpressionS NomSparql.R₀)) ('(' :: x))
    (h2 : Fails (NomSparql.exprPairS NomSparql.R₀) x) : Fails NomSparql.builtInCall (k ++ (w ++ '(' :: x)) := by
  have hr := paren_notWord hw.1 x
  have h3 : Fails (NomSparql.precededTag1 c!"strlen" (NomSparql.separatedPair NomSparql.brackettedExpression NomSparql.sp (NomSparql.strReplaceExpressionS NomSparql.R₀)))
      (k ++ (w ++ '(' :: x)) := Fails.preceded2 (terminated_eval (kw_eval hk) (sp1_eval hw (not_startsWs_cons rfl))) h1
  have h4 := bracketted_fails hk hw.1 h2
  unfold NomSparql.builtInCall NomSparql.builtInCallS
  refine Fails.alt_cons ?_ (Fails.alt_cons (Key.other hk hr (by decide)) ?_)
  · unfold NomSparql.builtInCall1S
    repeat (first
      | refine Fails.alt_cons (Key.other hk hr (by decide)) ?_
      | refine Fails.alt_cons (Fails.map h3) ?_
      | refine Fails.alt_cons (Fails.map h4) ?_)
    exact Fails.alt_nil
  · repeat (refine Fails.alt_cons (Key.other hk hr (by decide)) ?_)
    exact Fails.alt_nil

/-- Two calls of `expression` on the same text. -/
theorem strlen_call_cost {k w x : Str} {n : Nat} (hk : kw c!"strlen" k) (hw : Ws1 w) (hx : ¬ StartsWs x)
    (h1 : Fails (NomSparql.separatedPair NomSparql.brackettedExpression NomSparql.sp (NomSparql.strReplaceExpressionS NomSparql.R₀)) ('(' :: x))
    (h : n ≤ (expression x).2) : n + n ≤ (builtInCallS R₀ (k ++ (w ++ '(' :: x))).2 := by
  have hr := paren_notWord hw.1 x
  have h3 : Fails (NomSparql.precededTag1 c!"strlen" (NomSparql.separatedPair NomSparql.brackettedExpression NomSparql.sp (NomSparql.strReplaceExpressionS NomSparql.R₀)))
      (k ++ (w ++ '(' :: x)) := Fails.preceded2 (terminated_eval (kw_eval hk) (sp1_eval hw (not_startsWs_cons rfl))) h1
  have ht : ∀ {β} {f : _ → β}, Fails (erase (map (precededTag1 c!"strlen" (separatedPair (brackettedExpressionS R₀) sp (strReplaceExpressionS R₀))) f)) (k ++ (w ++ '(' :: x)) := by
    intro β f
    rw [erase_map, erase_precededTag1, erase_separatedPair, erase_brackettedExpressionS, erase_strReplaceExpressionS, eraseR_R₀]
    exact Fails.map h3
  unfold builtInCallS
  rw [alt_cost]
  refine cost_alt_head (p := builtInCall1S R₀) ?_
  unfold builtInCall1S
  rw [alt_cost]
  refine cost_alt_tail (p := map (aggregateS R₀) BuiltInCall.aggregate) ?_ ?_
  · rw [erase_map, erase_aggregateS, eraseR_R₀]
    exact Key.other hk hr (by decide)
  iterate 13 refine cost_alt_tail (other_bracket hk hr (by decide)) ?_
  refine cost_alt_tail (other_tag1 hk hr (by decide)) ?_
  refine cost_alt_both ?_ ht ?_
  · exact cost_preceded (terminated_eval (kw_eval hk) (sp1_eval hw (not_startsWs_cons rfl)))
      (cost_pair_fst (cost_delimited kchar_eval (cost_delimited (sp_zero hx) h)))
  iterate 3 refine cost_alt_tail (other_bracket hk hr (by decide)) ?_
  exact cost_alt_head (cost_preceded (terminated_eval (kw_eval hk) (sp_eval hw.1 (not_startsWs_cons rfl))) (cost_delimited kchar_eval (cost_pair_fst h)))

/-- A built-in call at the start of an expression. -/
theorem expression_call_cost {c : Char} {t : Str} {n : Nat} (h1 : c ≠ '!') (h2 : c ≠ '+') (h3 : c ≠ '-') (hb : Fails NomSparql.brackettedExpression (c :: t))
    (h : n ≤ (builtInCallS R₀ (c :: t)).2) : n ≤ (expression (c :: t)).2 := by
  rw [expression_cost]
  refine Nat.le_succ_of_le ?_
  refine cost_list (p := conditionalAndExpressionS R₀) (cost_list (p := relationalExpressionS R₀) (cost_pair_fst (p := additiveExpressionS R₀)
    (cost_pair_fst (p := multiplicativeExpressionS R₀) (cost_pair_fst (p := unaryExpressionS R₀) ?_))))
  refine cost_alt_tail (p := map (precededTag c!"!" (primaryExpressionS R₀)) UnaryExpression.not) (Fails.map (sign_fails rfl h1)) ?_
  refine cost_alt_tail (p := map (precededTag c!"+" (primaryExpressionS R₀)) UnaryExpression.add) (Fails.map (sign_fails rfl h2)) ?_
  refine cost_alt_tail (p := map (precededTag c!"-" (primaryExpressionS R₀)) UnaryExpression.sub) (Fails.map (sign_fails rfl h3)) ?_
  refine cost_alt_head (p := map (primaryExpressionS R₀) UnaryExpression.default) ?_
  refine cost_alt_tail (p := map (brackettedExpressionS R₀) PrimaryExpression.brackettedExpression) ?_ (cost_alt_head h)
  rw [erase_map, erase_brackettedExpressionS, eraseR_R₀]
  exact Fails.map hb

theorem strlen_cost {k w x : Str} {n : Nat} (hk : kw c!"strlen" k) (hw : Ws1 w) (hx : ¬ StartsWs x)
    (h1 : Fails (NomSparql.separatedPair NomSparql.brackettedExpression NomSparql.sp (NomSparql.strReplaceExpressionS NomSparql.R₀)) ('(' :: x))
    (h : n ≤ (expression x).2) : n + n ≤ (expression (k ++ (w ++ '(' :: x))).2 := by
  have h2 := strlen_call_cost hk hw hx h1 h
  have h3 : Fails NomSparql.brackettedExpression (k ++ (w ++ '(' :: x)) := kw_first hk rfl
  obtain ⟨c, t, rfl, hc⟩ := word_head hk (by decide) (by simp)
  have hc' := word_plain hc
  exact expression_call_cost hc'.2.2.2.1 hc'.2.2.2.2.1 hc'.2.2.2.2.2.1 h3 h2

theorem cost_pos (i : Input) : 1 ≤ (expression i).2 := by rw [expression_cost]; omega

end NomSparql.Cost

namespace NomSparql

/-- No parenthesis opens here, after white space. -/
def NoParen (r : Str) : Prop := ∀ w t, Ws w → r ≠ w ++ '(' :: t

/-- `STRLEN ( … )` around a canonical expression, `n` times; with white space before the opening parentheses. -/
inductive Lens : Nat → Str → Prop
  | one {e s k w w'} : CaseVariant c!"strlen" k → Ws1 w → cExpr true e s → Ws w' → Lens 1 (k ++ (w ++ '(' :: (s ++ (w' ++ c!")"))))
  | more {n s k w w'} : CaseVariant c!"strlen" k → Ws1 w → Lens n s → Ws w' → Lens (n + 1) (k ++ (w ++ '(' :: (s ++ (w' ++ c!")"))))

theorem strReplace_fails {r : Str} (h : NoParen r) : Fails (preceded sp (strReplaceExpressionS R₀)) r := by
  obtain ⟨r', w, e⟩ := Total.out (p := sp) r
  obtain ⟨rfl, hw, hr⟩ := sp_ok_iff.mp e
  refine Fails.preceded2 e (Fails.map (Fails.delimited ?_))
  rcases Soft.cases (char '(') r' with ⟨r2, c, e2⟩ | e2
  · obtain ⟨rfl, rfl⟩ := char_ok.mp e2
    exact (h w r2 hw rfl).elim
  · exact e2

theorem noParen_close {w : Str} (hw : Ws w) (r : Str) : NoParen (w ++ ')' :: r) := by
  intro w' t hw' e
  have h1 := sp_eval hw (not_startsWs_cons (c := ')') (r := r) rfl)
  have h2 := sp_eval hw' (not_startsWs_cons (c := '(') (r := t) rfl)
  rw [e, h2] at h1
  injection h1 with h1
  injection h1 with h1
  revert h1; decide

theorem Lens.start {n : Nat} {s : Str} (h : Lens n s) (r : Str) : ¬ StartsWs (s ++ r) := by
  cases h with
  | one hk => rw [List.append_assoc]; exact kw_not_ws hk (by decide)
  | more hk => rw [List.append_assoc]; exact kw_not_ws hk (by decide)

theorem Lens.cost {n : Nat} {s : Str} (h : Lens n s) : ∀ r, NoParen r → Fails expression (s ++ r) ∧ 2 ^ n ≤ (Cost.expression (s ++ r)).2 := by
  induction h with
  | @one e s k w w' hk hw he hw' =>
    intro r hr
    simp only [List.append_assoc, List.cons_append, List.nil_append]
    have h1 := arg_last (expr_reads (fun _ _ h => cGroup_reads h) he) hw' r
    have hn : ¬ StartsWs (s ++ (w' ++ ')' :: r)) := (expr_reads (fun _ _ h => cGroup_reads h) he).1.not_ws _
    have h2 : brackettedExpression ('(' :: (s ++ (w' ++ ')' :: r))) = .ok r e :=
      delimited_eval char_eval (delimited_eval (sp_zero hn) h1 (sp_zero (not_startsWs_cons rfl))) char_eval
    have h3 : Fails (separatedPair brackettedExpression sp (strReplaceExpressionS R₀)) ('(' :: (s ++ (w' ++ ')' :: r))) := Fails.pair2 h2 (strReplace_fails hr)
    refine ⟨word_no_expression hk hw.1 (by simp) (by decide) (by decide) (Cost.strlen_call_fails hk hw h3 (Fails.pair2 h1 (Fails.preceded (First.cons rfl)))),
      Cost.strlen_cost hk hw hn h3 (Cost.cost_pos _)⟩
  | @more n s k w w' hk hw hs hw' ih =>
    intro r hr
    simp only [List.append_assoc, List.cons_append, List.nil_append]
    obtain ⟨h1, h2⟩ := ih (w' ++ ')' :: r) (noParen_close hw' r)
    have hn := hs.start (w' ++ ')' :: r)
    have h3 : Fails (separatedPair brackettedExpression sp (strReplaceExpressionS R₀)) ('(' :: (s ++ (w' ++ ')' :: r))) :=
      Fails.pair (Fails.delimited2 char_eval (Fails.delimited2 (sp_zero hn) h1))
    refine ⟨word_no_expression hk hw.1 (by simp) (by decide) (by decide) (Cost.strlen_call_fails hk hw h3 (Fails.pair h1)), ?_⟩
    rw [Nat.pow_succ, Nat.mul_comm, Nat.two_mul]
    exact Cost.strlen_cost hk hw hn h3 h2

theorem asVar_cost {n : Nat} {v s : Str} (hv : Ws v) (hs : ¬ StartsWs s) (h : n ≤ (Cost.expression s).2) :
    n ≤ (Cost.selectVarsS Cost.R₀ ('(' :: (v ++ s))).2 := by
  unfold Cost.selectVarsS
  rw [Cost.alt_cost]
  refine Cost.cost_alt_tail (Fails.map (char_fails (by decide))) (Cost.cost_alt_head ?_)
  rw [Cost.map_cost]
  refine Cost.cost_many1 ?_
  unfold Cost.varOrExpressionAsVarS
  rw [Cost.alt_cost]
  refine Cost.cost_alt_tail (Fails.map (show Fails var _ from First.cons rfl)) (Cost.cost_alt_head ?_)
  rw [Cost.map_cost]
  unfold Cost.expressionAsVarS Cost.spEnc
  refine Cost.cost_delimited Cost.kchar_eval (Cost.cost_delimited (sp_eval hv hs) ?_)
  rw [Cost.map_cost]
  exact Cost.cost_pair_fst h

theorem selectClause_cost {n : Nat} {k w x : Str} (hk : CaseVariant c!"select" k) (hw : Ws1 w) (h : n ≤ (Cost.selectVarsS Cost.R₀ ('(' :: x)).2) :
    n ≤ (Cost.selectClause (k ++ (w ++ '(' :: x))).2 := by
  have n2 : ¬ StartsWs ('(' :: x) := not_startsWs_cons rfl
  unfold Cost.selectClause Cost.selectClauseS Cost.tuple3
  rw [Cost.map_cost]
  refine Cost.cost_pair_snd (kw_eval hk) (Cost.cost_pair_snd (a := none) ?_ (Cost.cost_preceded (sp1_eval hw n2) h))
  exact Fails.opt (Fails.preceded2 (sp1_eval hw n2) (show Fails selectModifier _ from First.cons rfl))

/-- The projection of a SELECT query. -/
theorem select_cost {n : Nat} {k w v s : Str} (hk : CaseVariant c!"select" k) (hw : Ws1 w) (hv : Ws v) (hs : ¬ StartsWs s)
    (h : n ≤ (Cost.expression s).2) : n ≤ (Cost.sparqlQueryStmt (k ++ (w ++ '(' :: (v ++ s)))).2 := by
  have n1 : ¬ StartsWs (k ++ (w ++ '(' :: (v ++ s))) := kw_not_ws hk (by decide)
  have hp := C24_prologue ⟨[]⟩ [] (k ++ (w ++ '(' :: (v ++ s))) rfl (noDecl (w := []) .nil hk (by simp))
  have hc := selectClause_cost hk hw (asVar_cost hv hs h)
  have hq : n ≤ (Cost.sparqlQuery (k ++ (w ++ '(' :: (v ++ s)))).2 := by
    unfold Cost.sparqlQuery
    rw [Cost.alt_cost]
    refine Cost.cost_alt_head ?_
    unfold Cost.selectQuery Cost.tuple4
    rw [Cost.map_cost, Cost.map_cost]
    exact Cost.cost_pair_fst (Cost.cost_terminated hc)
  unfold Cost.sparqlQueryStmt Cost.tuple3
  rw [Cost.map_cost]
  exact Cost.cost_pair_snd (p := Cost.terminated Cost.prologue Cost.sp) (terminated_eval hp (sp_zero n1)) (Cost.cost_pair_fst hq)

end NomSparql
