import Verif.Lemmas.Exprs

/-!
# Canonical built-in calls are accepted
-/

namespace NomSparql

theorem bcall {t k w s r : Str} [KwTag t] (hk : CaseVariant t k) (hw : Ws w) {p : P α} {a : α} (h : p (s ++ ')' :: r) = .ok (')' :: r) a) :
    precededBracketted t p (k ++ (w ++ '(' :: (s ++ ')' :: r))) = .ok r a :=
  preceded_eval (terminated_eval (kw_eval hk) (sp_eval hw (not_startsWs_cons rfl))) (delimited_eval char_eval h char_eval)

theorem paren_notWord {w : Str} (hw : Ws w) (r : Str) : NotStart WordC (w ++ '(' :: r) := (Follow.ws_close hw (by simp)).notWord

/-- An argument before the closing parenthesis. -/
theorem arg_last {e : Expression} {s w : Str} (h : ReadsTo expression orStops true e s) (hw : Ws w) (r : Str) :
    expression (s ++ (w ++ ')' :: r)) = .ok (')' :: r) e := by
  obtain ⟨_, w', _, h2, h3⟩ := h.2 w (')' :: r) hw (Follow.ws_close hw (by simp)) (close_stop (by decide) r)
  obtain rfl := h2.1 rfl
  exact h3

/-- An argument before a comma. -/
theorem arg_comma {b : Bool} {e : Expression} {s m x : Str} (h : ReadsTo expression orStops b e s) (hm : cComma m) (hx : ¬ StartsWs x) :
    ∃ j y, expression (s ++ (m ++ x)) = .ok j e ∧ comma j = .ok x y := by
  obtain ⟨w, _, rfl, hw, _, w', rfl, rfl, hw'⟩ := hm
  simp only [List.append_assoc]
  obtain ⟨_, w2, h1, h2, h3⟩ := h.2 w (',' :: (w' ++ x)) hw (Follow.ws_close hw (by simp)) (Stop.cons (by decide))
  exact ⟨_, _, h3, delimited_eval (sp_eval h1 (not_startsWs_cons rfl)) char_eval (sp_eval hw' hx)⟩

theorem args2 {b : Bool} {e e' : Expression} {s m s' w r : Str} (h : ReadsTo expression orStops b e s) (hm : cComma m)
    (h' : ReadsTo expression orStops true e' s') (hw : Ws w) :
    exprPairS R₀ ((s ++ (m ++ (s' ++ w))) ++ ')' :: r) = .ok (')' :: r) (e, e') := by
  simp only [List.append_assoc]
  obtain ⟨j, y, h1, h2⟩ := arg_comma h hm (h'.1.not_ws (w ++ ')' :: r))
  exact separatedPair_eval h1 h2 (arg_last h' hw r)

/-- Skip the alternatives with other keywords. -/
macro "other" hk:ident hr:ident : tactic => `(tactic| refine alt_eval2 (Key.other $hk $hr (by decide)) ?_)

macro "pick" hk:ident hr:ident h:term : tactic => `(tactic| repeat (first
  | other $hk $hr
  | exact alt_eval1 (map_ok.mpr ⟨_, $h, rfl⟩)))

/-- Evaluate a built-in call. -/
macro "call_eval" hk:ident hr:ident h:term : tactic => `(tactic| (
  unfold builtInCall builtInCallS
  first
  | (other $hk $hr; other $hk $hr; pick $hk $hr $h; done)
  | (other $hk $hr; refine alt_eval1 ?_; unfold builtInCall2S; pick $hk $hr $h; done)
  | (refine alt_eval1 ?_; unfold builtInCall1S; pick $hk $hr $h)))

theorem call_one {t k w s w' : Str} {f : Expression → BuiltInCall} {e : Expression} (hf : (t, f) ∈ calls1) (hk : kw t k) (hw : Ws w)
    (h : ReadsTo expression orStops true e s) (hw' : Ws w') : CallReads (f e) (k ++ (w ++ '(' :: (s ++ (w' ++ [')'])))) := by
  have ht : t ∈ callTags := by
    have : ∀ x ∈ calls1.map Prod.fst, x ∈ callTags := by decide
    exact this _ (List.mem_map_of_mem hf)
  refine ⟨⟨t, k, _, rfl, hk, ht, fun r => ?_⟩, fun r => ?_⟩
  · rw [List.append_assoc]
    exact paren_notWord hw _
  have e1 : (k ++ (w ++ '(' :: (s ++ (w' ++ [')'])))) ++ r = k ++ (w ++ '(' :: ((s ++ w') ++ ')' :: r)) := by simp
  rw [e1]
  have h1 : expression ((s ++ w') ++ ')' :: r) = .ok (')' :: r) e := by
    rw [List.append_assoc]
    exact arg_last h hw' r
  have hr := paren_notWord hw ((s ++ w') ++ ')' :: r)
  simp only [calls1, List.mem_cons, Prod.mk.injEq, List.not_mem_nil, or_false] at hf
  rcases hf with ⟨rfl, rfl⟩ | ⟨rfl, rfl⟩ | ⟨rfl, rfl⟩ | ⟨rfl, rfl⟩ | ⟨rfl, rfl⟩ | ⟨rfl, rfl⟩ | ⟨rfl, rfl⟩ | ⟨rfl, rfl⟩ | ⟨rfl, rfl⟩ | hf
  case inr.inr.inr.inr.inr.inl => call_eval hk hr (bcall hk hw (alt_eval1 (map_eval (f := some) h1)))
  case inr.inr.inr.inr.inr.inr.inr.inr.inr =>
    rcases hf with ⟨rfl, rfl⟩ | ⟨rfl, rfl⟩ | ⟨rfl, rfl⟩ | ⟨rfl, rfl⟩ | ⟨rfl, rfl⟩ | ⟨rfl, rfl⟩ | ⟨rfl, rfl⟩ | ⟨rfl, rfl⟩ | hf
    case inr.inr.inr.inr.inr.inr.inr.inr =>
      rcases hf with ⟨rfl, rfl⟩ | ⟨rfl, rfl⟩ | ⟨rfl, rfl⟩ | ⟨rfl, rfl⟩ | ⟨rfl, rfl⟩ | ⟨rfl, rfl⟩ | ⟨rfl, rfl⟩ | ⟨rfl, rfl⟩ | ⟨rfl, rfl⟩ | ⟨rfl, rfl⟩ <;>
      call_eval hk hr (bcall hk hw h1)
    all_goals call_eval hk hr (bcall hk hw h1)
  all_goals call_eval hk hr (bcall hk hw h1)

theorem call_two {t k w s m s' w' : Str} {f : Expression → Expression → BuiltInCall} {b : Bool} {e e' : Expression} (hf : (t, f) ∈ calls2)
    (hk : kw t k) (hw : Ws w) (h : ReadsTo expression orStops b e s) (hm : cComma m) (h' : ReadsTo expression orStops true e' s') (hw' : Ws w') :
    CallReads (f e e') (k ++ (w ++ '(' :: (s ++ (m ++ (s' ++ (w' ++ [')'])))))) := by
  have ht : t ∈ callTags := by
    have : ∀ x ∈ calls2.map Prod.fst, x ∈ callTags := by decide
    exact this _ (List.mem_map_of_mem hf)
  refine ⟨⟨t, k, _, rfl, hk, ht, fun r => ?_⟩, fun r => ?_⟩
  · rw [List.append_assoc]
    exact paren_notWord hw _
  have e1 : (k ++ (w ++ '(' :: (s ++ (m ++ (s' ++ (w' ++ [')'])))))) ++ r = k ++ (w ++ '(' :: ((s ++ (m ++ (s' ++ w'))) ++ ')' :: r)) := by simp
  rw [e1]
  have h1 := args2 (r := r) h hm h' hw'
  have hr := paren_notWord hw ((s ++ (m ++ (s' ++ w'))) ++ ')' :: r)
  simp only [calls2, List.mem_cons, Prod.mk.injEq, List.not_mem_nil, or_false] at hf
  rcases hf with ⟨rfl, rfl⟩ | ⟨rfl, rfl⟩ | ⟨rfl, rfl⟩ | ⟨rfl, rfl⟩ | ⟨rfl, rfl⟩ | ⟨rfl, rfl⟩ | ⟨rfl, rfl⟩ | ⟨rfl, rfl⟩ <;>
  call_eval hk hr (bcall hk hw h1)

theorem call_bound {k w s : Str} {v : Var} (hk : kw c!"bound" k) (hw : Ws w) (h : cVar v s) : CallReads (.bound v) (k ++ (w ++ '(' :: (s ++ [')']))) := by
  refine ⟨⟨_, k, _, rfl, hk, by decide, fun r => ?_⟩, fun r => ?_⟩
  · rw [List.append_assoc]
    exact paren_notWord hw _
  have e1 : (k ++ (w ++ '(' :: (s ++ [')']))) ++ r = k ++ (w ++ '(' :: (s ++ ')' :: r)) := by simp
  rw [e1]
  have h1 := var_accepts v s (')' :: r) h (Follow.ws_close .nil (by simp))
  have hr := paren_notWord hw (s ++ ')' :: r)
  call_eval hk hr (bcall hk hw h1)

theorem call_if {k w s m s' m' s'' w' : Str} {b b' : Bool} {e e' e'' : Expression} (hk : kw c!"if" k) (hw : Ws w)
    (h : ReadsTo expression orStops b e s) (hm : cComma m) (h' : ReadsTo expression orStops b' e' s') (hm' : cComma m')
    (h'' : ReadsTo expression orStops true e'' s'') (hw' : Ws w') :
    CallReads (.if e e' e'') (k ++ (w ++ '(' :: (s ++ (m ++ (s' ++ (m' ++ (s'' ++ (w' ++ [')'])))))))) := by
  refine ⟨⟨_, k, _, rfl, hk, by decide, fun r => ?_⟩, fun r => ?_⟩
  · rw [List.append_assoc]
    exact paren_notWord hw _
  have e1 : (k ++ (w ++ '(' :: (s ++ (m ++ (s' ++ (m' ++ (s'' ++ (w' ++ [')'])))))))) ++ r =
    k ++ (w ++ '(' :: ((s ++ (m ++ (s' ++ (m' ++ (s'' ++ w'))))) ++ ')' :: r)) := by simp
  rw [e1]
  have h1 : tuple3 expression (preceded comma expression) (preceded comma expression) ((s ++ (m ++ (s' ++ (m' ++ (s'' ++ w'))))) ++ ')' :: r) =
      .ok (')' :: r) (e, e', e'') := by
    simp only [List.append_assoc]
    obtain ⟨j, y, h1, h2⟩ := arg_comma h hm (h'.1.not_ws (m' ++ (s'' ++ (w' ++ ')' :: r))))
    obtain ⟨j', y', h1', h2'⟩ := arg_comma h' hm' (h''.1.not_ws (w' ++ ')' :: r))
    exact tuple3_eval h1 (preceded_eval h2 h1') (preceded_eval h2' (arg_last h'' hw' r))
  have hr := paren_notWord hw ((s ++ (m ++ (s' ++ (m' ++ (s'' ++ w'))))) ++ ')' :: r)
  call_eval hk hr (bcall hk hw h1)

theorem ws1_notWord {w : Str} (hw : Ws1 w) (r : Str) : NotStart WordC (w ++ r) := by
  obtain ⟨h1, h2⟩ := hw
  cases w with
  | nil => contradiction
  | cons c w =>
    refine notStart_cons ?_
    rcases wsStart_iff.mp (ws_first h1 _ _ rfl) with rfl | rfl | rfl | rfl | rfl <;> decide

theorem call_regex {k w s m s' w' : Str} {b : Bool} {e e' : Expression} (hk : kw c!"regex" k) (hw : Ws1 w)
    (h : ReadsTo expression orStops b e s) (hm : cComma m) (h' : ReadsTo expression orStops true e' s') (hw' : Ws w') :
    CallReads (.regex (.mk e e' none)) (k ++ (w ++ '(' :: (s ++ (m ++ (s' ++ (w' ++ [')'])))))) := by
  refine ⟨⟨_, k, _, rfl, hk, by decide, fun r => ?_⟩, fun r => ?_⟩
  · rw [List.append_assoc]
    exact ws1_notWord hw _
  have e1 : (k ++ (w ++ '(' :: (s ++ (m ++ (s' ++ (w' ++ [')'])))))) ++ r = k ++ (w ++ '(' :: (s ++ (m ++ (s' ++ (w' ++ ')' :: r))))) := by simp
  rw [e1]
  have h1 : regexExpressionS R₀ (k ++ (w ++ '(' :: (s ++ (m ++ (s' ++ (w' ++ ')' :: r)))))) = .ok r (.mk e e' none) := by
    obtain ⟨j, y, h1, h2⟩ := arg_comma h hm (h'.1.not_ws (w' ++ ')' :: r))
    refine map_eval (a := (e, e', none)) (f := fun x => RegexExpression.mk x.1 x.2.1 x.2.2) (preceded_eval (terminated_eval (kw_eval hk)
      (sp1_eval hw (not_startsWs_cons rfl))) (delimited_eval char_eval (tuple3_eval h1 (preceded_eval h2 (arg_last h' hw' r))
        (Fails.opt (Fails.preceded (First.cons rfl)))) char_eval))
  have hr := ws1_notWord hw ('(' :: (s ++ (m ++ (s' ++ (w' ++ ')' :: r)))))
  call_eval hk hr h1

theorem call_regexFlags {k w s m s' m' s'' w' : Str} {b b' : Bool} {e e' e'' : Expression} (hk : kw c!"regex" k) (hw : Ws1 w)
    (h : ReadsTo expression orStops b e s) (hm : cComma m) (h' : ReadsTo expression orStops b' e' s') (hm' : cComma m')
    (h'' : ReadsTo expression orStops true e'' s'') (hw' : Ws w') :
    CallReads (.regex (.mk e e' (some e''))) (k ++ (w ++ '(' :: (s ++ (m ++ (s' ++ (m' ++ (s'' ++ (w' ++ [')'])))))))) := by
  refine ⟨⟨_, k, _, rfl, hk, by decide, fun r => ?_⟩, fun r => ?_⟩
  · rw [List.append_assoc]
    exact ws1_notWord hw _
  have e1 : (k ++ (w ++ '(' :: (s ++ (m ++ (s' ++ (m' ++ (s'' ++ (w' ++ [')'])))))))) ++ r =
    k ++ (w ++ '(' :: (s ++ (m ++ (s' ++ (m' ++ (s'' ++ (w' ++ ')' :: r))))))) := by simp
  rw [e1]
  have h1 : regexExpressionS R₀ (k ++ (w ++ '(' :: (s ++ (m ++ (s' ++ (m' ++ (s'' ++ (w' ++ ')' :: r)))))))) = .ok r (.mk e e' (some e'')) := by
    obtain ⟨j, y, h1, h2⟩ := arg_comma h hm (h'.1.not_ws (m' ++ (s'' ++ (w' ++ ')' :: r))))
    obtain ⟨j', y', h1', h2'⟩ := arg_comma h' hm' (h''.1.not_ws (w' ++ ')' :: r))
    refine map_eval (a := (e, e', some e'')) (f := fun x => RegexExpression.mk x.1 x.2.1 x.2.2) (preceded_eval (terminated_eval (kw_eval hk)
      (sp1_eval hw (not_startsWs_cons rfl))) (delimited_eval char_eval (tuple3_eval h1 (preceded_eval h2 h1')
        (opt_eval (preceded_eval h2' (arg_last h'' hw' r)))) char_eval))
  have hr := ws1_notWord hw ('(' :: (s ++ (m ++ (s' ++ (m' ++ (s'' ++ (w' ++ ')' :: r)))))))
  call_eval hk hr h1

/-- A group begins with a brace. -/
theorem group_brace {g : GroupGraphPattern} {s : Str} (h : ReadsAs groupGraphPattern s g) : ∃ t, s = '{' :: t := by
  have h1 := h []
  rw [List.append_nil, groupGraphPattern_eq] at h1
  cases s with
  | nil => exact absurd h1 (First.nil (p := groupGraphPatternStep R₀)).not_ok
  | cons c t =>
    by_cases hc : c = '{'
    · exact ⟨t, by rw [hc]⟩
    · exact absurd h1 (First.cons (p := groupGraphPatternStep R₀) (by simpa using hc)).not_ok

theorem call_exists {k w s : Str} {g : GroupGraphPattern} (hk : kw c!"exists" k) (hw : Ws1 w) (h : ReadsAs groupGraphPattern s g) :
    CallReads (.existsFunc g) (k ++ (w ++ s)) := by
  refine ⟨⟨_, k, _, rfl, hk, by decide, fun r => ?_⟩, fun r => ?_⟩
  · rw [List.append_assoc]
    exact ws1_notWord hw _
  simp only [List.append_assoc]
  have h1 : precededTag1 c!"exists" groupGraphPattern (k ++ (w ++ (s ++ r))) = .ok r g := by
    have h0 := h r
    obtain ⟨t, rfl⟩ := group_brace h
    exact preceded_eval (terminated_eval (kw_eval hk) (sp1_eval hw (not_startsWs_cons rfl))) h0
  have hr := ws1_notWord hw (s ++ r)
  call_eval hk hr h1

theorem call_notExists {k w k' w' s : Str} {g : GroupGraphPattern} (hk : kw c!"not" k) (hw : Ws1 w) (hk' : kw c!"exists" k') (hw' : Ws1 w')
    (h : ReadsAs groupGraphPattern s g) : CallReads (.notExistsFunc g) (k ++ (w ++ (k' ++ (w' ++ s)))) := by
  refine ⟨⟨_, k, _, rfl, hk, by decide, fun r => ?_⟩, fun r => ?_⟩
  · rw [List.append_assoc]
    exact ws1_notWord hw _
  simp only [List.append_assoc]
  have h1 : tuple3 (tagNoCase c!"not") (spEnc1 (tagNoCase c!"exists")) groupGraphPattern (k ++ (w ++ (k' ++ (w' ++ (s ++ r))))) = .ok r (k, k', g) := by
    have h0 := h r
    obtain ⟨t, rfl⟩ := group_brace h
    refine tuple3_eval (kw_eval hk) (delimited_eval (sp1_eval hw ?_) (kw_eval hk') (sp1_eval hw' (not_startsWs_cons rfl))) h0
    obtain ⟨c, y, rfl, h⟩ := kw_head hk'
    exact not_startsWs_cons (by rcases h with rfl | rfl <;> rfl)
  have hr := ws1_notWord hw (k' ++ (w' ++ (s ++ r)))
  call_eval hk hr h1

/-! ## Aggregates -/

theorem distinct_eval {d : Bool} {y x : Str} (h : rDistinct d y) (hx : ¬ StartsWs x) (hn : NoDistinct x) : optDistinct (y ++ x) = .ok x d := by
  unfold optDistinct
  cases d with
  | false =>
    obtain rfl := h
    exact map_ok.mpr ⟨none, Fails.opt (noDistinct_fails hn), rfl⟩
  | true =>
    obtain ⟨k, w, rfl, hk, hw⟩ := h
    rw [List.append_assoc]
    exact map_ok.mpr ⟨some true, opt_eval (terminated_eval (map_eval (f := fun _ => true) (kw_eval hk)) (sp1_eval hw hx)), rfl⟩

theorem distinctExpr_eval {d : Bool} {e : Expression} {y s w r : Str} (hd : rDistinct d y) (h : ReadsTo expression orStops true e s) (hw : Ws w) :
    distinctExpression (y ++ (s ++ (w ++ ')' :: r))) = .ok (')' :: r) (.mk d e) :=
  map_eval (a := (d, e)) (f := fun x => DistinctExpression.mk x.1 x.2) (pair_eval
    (distinct_eval hd (h.1.not_ws _) (h.2 w (')' :: r) hw (Follow.ws_close hw (by simp)) (close_stop (by decide) r)).1) (arg_last h hw r))

/-- Evaluate an aggregate. -/
macro "agg_eval" hk:ident hr:ident h:term : tactic => `(tactic| (
  unfold builtInCall builtInCallS
  refine alt_eval1 ?_
  unfold builtInCall1S
  refine alt_eval1 (map_eval (f := BuiltInCall.aggregate) ?_)
  unfold aggregateS
  pick $hk $hr $h))

theorem call_aggregate {t k w y s w' : Str} {f : DistinctExpression → Aggregate} {d : Bool} {e : Expression} (hf : (t, f) ∈ aggregates)
    (hk : kw t k) (hw : Ws w) (hd : rDistinct d y) (h : ReadsTo expression orStops true e s) (hw' : Ws w') :
    CallReads (.aggregate (f (.mk d e))) (k ++ (w ++ '(' :: (y ++ (s ++ (w' ++ [')']))))) := by
  have ht : t ∈ callTags := by
    have : ∀ x ∈ aggregates.map Prod.fst, x ∈ callTags := by decide
    exact this _ (List.mem_map_of_mem hf)
  refine ⟨⟨t, k, _, rfl, hk, ht, fun r => ?_⟩, fun r => ?_⟩
  · rw [List.append_assoc]
    exact paren_notWord hw _
  have e1 : (k ++ (w ++ '(' :: (y ++ (s ++ (w' ++ [')']))))) ++ r = k ++ (w ++ '(' :: ((y ++ (s ++ w')) ++ ')' :: r)) := by simp
  rw [e1]
  have h1 : distinctExpression ((y ++ (s ++ w')) ++ ')' :: r) = .ok (')' :: r) (.mk d e) := by
    simp only [List.append_assoc]
    exact distinctExpr_eval hd h hw'
  have hr := paren_notWord hw ((y ++ (s ++ w')) ++ ')' :: r)
  simp only [aggregates, List.mem_cons, Prod.mk.injEq, List.not_mem_nil, or_false] at hf
  rcases hf with ⟨rfl, rfl⟩ | ⟨rfl, rfl⟩ | ⟨rfl, rfl⟩ | ⟨rfl, rfl⟩ | ⟨rfl, rfl⟩ <;>
  agg_eval hk hr (bcall hk hw h1)

theorem call_count {k w y s w' : Str} {d : Bool} {e : Expression} (hk : kw c!"count" k) (hw : Ws w) (hd : rDistinct d y)
    (h : ReadsTo expression orStops true e s) (hw' : Ws w') :
    CallReads (.aggregate (.count (.mk d (.expr e)))) (k ++ (w ++ '(' :: (y ++ (s ++ (w' ++ [')']))))) := by
  refine ⟨⟨_, k, _, rfl, hk, by decide, fun r => ?_⟩, fun r => ?_⟩
  · rw [List.append_assoc]
    exact paren_notWord hw _
  have e1 : (k ++ (w ++ '(' :: (y ++ (s ++ (w' ++ [')']))))) ++ r = k ++ (w ++ '(' :: ((y ++ (s ++ w')) ++ ')' :: r)) := by simp
  rw [e1]
  have hr := paren_notWord hw ((y ++ (s ++ w')) ++ ')' :: r)
  have h1 : countS R₀ (k ++ (w ++ '(' :: ((y ++ (s ++ w')) ++ ')' :: r))) = .ok r (.mk d (.expr e)) := by
    refine map_eval (a := (d, CountTarget.expr e)) (f := fun x => Count.mk x.1 x.2) (bcall hk hw ?_)
    simp only [List.append_assoc]
    refine pair_eval (distinct_eval hd (h.1.not_ws _) (h.2 w' (')' :: r) hw' (Follow.ws_close hw' (by simp)) (close_stop (by decide) r)).1) ?_
    exact alt_eval2 (Fails.map (h.1.not_star _)) (map_eval (f := CountTarget.expr) (arg_last h hw' r))
  agg_eval hk hr h1

theorem call_countAll {k w y : Str} {d : Bool} (hk : kw c!"count" k) (hw : Ws w) (hd : rDistinct d y) :
    CallReads (.aggregate (.count (.mk d .all))) (k ++ (w ++ '(' :: (y ++ c!"*)"))) := by
  refine ⟨⟨_, k, _, rfl, hk, by decide, fun r => ?_⟩, fun r => ?_⟩
  · rw [List.append_assoc]
    exact paren_notWord hw _
  have e1 : (k ++ (w ++ '(' :: (y ++ c!"*)"))) ++ r = k ++ (w ++ '(' :: ((y ++ ['*']) ++ ')' :: r)) := by simp
  rw [e1]
  have hr := paren_notWord hw ((y ++ ['*']) ++ ')' :: r)
  have h1 : countS R₀ (k ++ (w ++ '(' :: ((y ++ ['*']) ++ ')' :: r))) = .ok r (.mk d .all) := by
    refine map_eval (a := (d, CountTarget.all)) (f := fun x => Count.mk x.1 x.2) (bcall hk hw ?_)
    simp only [List.append_assoc]
    exact pair_eval (distinct_eval hd (not_startsWs_cons (c := '*') rfl) (noDistinct_head (by decide))) (alt_eval1 (map_eval (f := fun _ => CountTarget.all) char_eval))
  agg_eval hk hr h1

theorem call_concat {k w y s w' : Str} {d : Bool} {e : Expression} (hk : kw c!"group_concat" k) (hw : Ws w) (hd : rDistinct d y)
    (h : ReadsTo expression orStops true e s) (hw' : Ws w') :
    CallReads (.aggregate (.groupConcat (.mk (.mk d e) none))) (k ++ (w ++ '(' :: (y ++ (s ++ (w' ++ [')']))))) := by
  refine ⟨⟨_, k, _, rfl, hk, by decide, fun r => ?_⟩, fun r => ?_⟩
  · rw [List.append_assoc]
    exact paren_notWord hw _
  have e1 : (k ++ (w ++ '(' :: (y ++ (s ++ (w' ++ [')']))))) ++ r = k ++ (w ++ '(' :: ((y ++ (s ++ w')) ++ ')' :: r)) := by simp
  rw [e1]
  have hr := paren_notWord hw ((y ++ (s ++ w')) ++ ')' :: r)
  have h1 : groupConcatS R₀ (k ++ (w ++ '(' :: ((y ++ (s ++ w')) ++ ')' :: r))) = .ok r (.mk (.mk d e) none) := by
    refine map_eval (a := (DistinctExpression.mk d e, none)) (f := fun x => GroupConcat.mk x.1 x.2) (bcall hk hw ?_)
    simp only [List.append_assoc]
    exact pair_eval (distinctExpr_eval hd h hw') (Fails.opt (Fails.preceded2 (sp_zero (not_startsWs_cons rfl)) (Fails.preceded (First.cons rfl))))
  agg_eval hk hr h1

theorem call_concatSep {k w y s z sep : Str} {d b : Bool} {e : Expression} (hk : kw c!"group_concat" k) (hw : Ws w) (hd : rDistinct d y)
    (h : ReadsTo expression orStops b e s) (hz : cSeparator sep z) :
    CallReads (.aggregate (.groupConcat (.mk (.mk d e) (some sep)))) (k ++ (w ++ '(' :: (y ++ (s ++ (z ++ [')']))))) := by
  refine ⟨⟨_, k, _, rfl, hk, by decide, fun r => ?_⟩, fun r => ?_⟩
  · rw [List.append_assoc]
    exact paren_notWord hw _
  have e1 : (k ++ (w ++ '(' :: (y ++ (s ++ (z ++ [')']))))) ++ r = k ++ (w ++ '(' :: ((y ++ (s ++ z)) ++ ')' :: r)) := by simp
  rw [e1]
  have hr := paren_notWord hw ((y ++ (s ++ z)) ++ ')' :: r)
  have h1 : groupConcatS R₀ (k ++ (w ++ '(' :: ((y ++ (s ++ z)) ++ ')' :: r))) = .ok r (.mk (.mk d e) (some sep)) := by
    refine map_eval (a := (DistinctExpression.mk d e, some sep)) (f := fun x => GroupConcat.mk x.1 x.2) (bcall hk hw ?_)
    obtain ⟨w1, _, rfl, hw1, _, _, rfl, rfl, w2, _, rfl, hw2, k2, _, rfl, hk2, w3, _, rfl, hw3, _, _, rfl, rfl, w4, q, rfl, hw4, hq⟩ := hz
    simp only [List.append_assoc]
    have h2 := stringLiteral_text.mpr ⟨q, hq, (rfl : q ++ ')' :: r = _)⟩
    have hq0 : ¬ StartsWs (q ++ ')' :: r) := by
      obtain ⟨c, hc, rfl, _⟩ := hq
      rcases hc with rfl | rfl <;> exact not_startsWs_cons rfl
    have hk0 : ∀ x, ¬ StartsWs (k2 ++ x) := by
      intro x
      obtain ⟨c, y, rfl, h⟩ := kw_head hk2
      exact not_startsWs_cons (by rcases h with rfl | rfl <;> rfl)
    obtain ⟨hn, w5, hw5, _, h5⟩ := h.2 w1 _ hw1 (Follow.ws_close (c := ';') (r := w2 ++ (k2 ++ (w3 ++ (['='] ++ (w4 ++ (q ++ ')' :: r)))))) hw1 (by simp)) (Stop.cons (by decide))
    refine pair_eval (map_eval (a := (d, e)) (f := fun x => DistinctExpression.mk x.1 x.2) (pair_eval (distinct_eval hd (h.1.not_ws _) hn) h5)) ?_
    have h6 : separatorEq (';' :: (w2 ++ (k2 ++ (w3 ++ '=' :: (w4 ++ (q ++ ')' :: r)))))) = .ok (q ++ ')' :: r) (';', k2, '=') :=
      tuple3_eval char_eval (delimited_eval (sp_eval hw2 (hk0 _)) (kw_eval hk2) (sp_eval hw3 (not_startsWs_cons rfl)))
        (terminated_eval char_eval (sp_eval hw4 hq0))
    exact opt_eval (preceded_eval (sp_eval hw5 (not_startsWs_cons rfl)) (preceded_eval h6 h2))
  agg_eval hk hr h1

end NomSparql
