import Verif.Lemmas.ExprAccept
import Verif.Spec.CanonGroup
import Verif.Props.C33_C37

/-!
# Canonical constraints, conditions, solution modifiers and select clauses are accepted
-/

namespace NomSparql

variable {cG : GroupGraphPattern → Lang}

/-- A text that may come after white space. -/
def Start (x : Str) : Prop := ¬ StartsWs x ∧ NotStart (· = ':') x

theorem Start.cons {c : Char} {t : Str} (h : wsStart c = false ∧ c ≠ ':') : Start (c :: t) :=
  ⟨not_startsWs_cons h.1, notStart_cons h.2⟩

theorem Start.follow {w x : Str} (h : Start x) (hw : Ws1 w) : Follow (w ++ x) := Follow.ws hw.1 (.inl hw.2) h.1 h.2

theorem Start.kw {u k r : Str} (hk : CaseVariant u k) (hu : (∀ c ∈ u, KwLetter c) ∧ u ≠ []) : Start (k ++ r) := by
  obtain ⟨c, t, rfl, hc⟩ := word_head hk hu.1 hu.2
  exact Start.cons ⟨(word_plain hc).1, (word_plain hc).2.1⟩

theorem start_nil : Start [] := ⟨not_startsWs_nil, by intro c t e; cases e⟩

/-! ## Lists with white space after every element -/

theorem ws_list_run {p : P α} [Consumes p] {R : α → Lang} {E : Str → Prop}
    (hacc : ∀ a s w x, R a s → Ws1 w → E x → p (s ++ (w ++ x)) = .ok (w ++ x) a) (hE : ∀ a s x, R a s → E (s ++ x))
    (hws : ∀ x, E x → ¬ StartsWs x) {x : Str} (hx : E x) (hf : Fails p x) :
    ∀ {l s w}, Many (fun a => R a ⬝ Ws1) l s → Ws1 w → ∃ w', Ws1 w' ∧ SepRun sp p (w ++ (s ++ x)) (w' ++ x) l := by
  intro l
  induction l with
  | nil =>
    rintro s w rfl hw
    obtain ⟨_, _, hf⟩ := hf
    exact ⟨w, hw, .stopElem (sp_eval hw.1 (hws _ hx)) (append_ne_self hw.2) hf⟩
  | cons a l ih =>
    rintro s w ⟨y, z, rfl, ⟨u, v, rfl, hu, hv⟩, hz⟩ hw
    obtain ⟨w', hw', ih⟩ := ih hz hv
    simp only [List.append_assoc]
    have hn : E (z ++ x) := by
      cases l with
      | nil => obtain rfl := hz; exact hx
      | cons b l =>
        obtain ⟨_, _, rfl, ⟨_, _, rfl, hb, _⟩, _⟩ := hz
        simp only [List.append_assoc]
        exact hE _ _ _ hb
    have hp := hacc a u v (z ++ x) hu hv hn
    refine ⟨w', hw', .step (sp_eval hw.1 (hws _ (hE _ _ _ hu))) (append_ne_self hw.2) hp ?_ ih⟩
    intro e
    have := Consumes.out _ _ _ hp
    have := congrArg List.length e
    simp at *
    omega

theorem ws_list {p : P α} [Good p] [Consumes p] {R : α → Lang} {E : Str → Prop}
    (hacc : ∀ a s w x, R a s → Ws1 w → E x → p (s ++ (w ++ x)) = .ok (w ++ x) a) (hE : ∀ a s x, R a s → E (s ++ x))
    (hws : ∀ x, E x → ¬ StartsWs x) {x : Str} (hx : E x) (hf : Fails p x) {l : List α} {s : Str} (h : WsList R l s) :
    (∃ w', Ws1 w' ∧ separatedNonemptyList sp p (s ++ x) = .ok (w' ++ x) l) ∧ E (s ++ x) := by
  obtain ⟨hl, h⟩ := h
  cases l with
  | nil => contradiction
  | cons a l =>
    obtain ⟨y, z, rfl, ⟨u, v, rfl, hu, hv⟩, hz⟩ := h
    obtain ⟨w', hw', h1⟩ := ws_list_run hacc hE hws hx hf hz hv
    simp only [List.append_assoc]
    have hn : E (z ++ x) := by
      cases l with
      | nil => obtain rfl := hz; exact hx
      | cons b l =>
        obtain ⟨_, _, rfl, ⟨_, _, rfl, hb, _⟩, _⟩ := hz
        simp only [List.append_assoc]
        exact hE _ _ _ hb
    have hp := hacc a u v (z ++ x) hu hv hn
    exact ⟨⟨w', hw', separatedNonemptyList_ok.mpr ⟨a, l, _, rfl, hp, ne_of_consumes hp, h1⟩⟩, hE _ _ _ hu⟩

/-! ## Constraints -/

theorem bracket_eval (hG : ∀ g s, cG g s → ReadsAs groupGraphPattern s g) {e : Expression} {s : Str} (h : CBracket cG e s) :
    ReadsAs brackettedExpression s e := by
  obtain ⟨hw, h, hw'⟩ := h
  exact fun r => bracket_reads hw (expr_reads hG h) hw' r

theorem bracket_head {e : Expression} {s : Str} (h : CBracket cG e s) : ∃ t, s = '(' :: t := by
  obtain ⟨_, _, _⟩ := h
  exact ⟨_, rfl⟩

theorem function_eval {i : Iri} {s w n : Str} (h : cOperandIri i s) (hw : Ws w) (hn : rNil n) :
    ReadsAs functionCall (s ++ (w ++ n)) (.mk i .nil) := by
  intro r
  simp only [List.append_assoc]
  obtain ⟨y, hy⟩ := rNil_accepts (r := r) hn
  obtain ⟨t', rfl⟩ := rNil_head hn
  exact map_eval (a := (i, ArgList.nil)) (f := fun x => FunctionCall.mk x.1 x.2) (separatedPair_eval
    (iri_accepts i _ _ h.1 (Follow.ws_close hw (by simp))) (sp_eval hw (not_startsWs_cons rfl)) (alt_eval1 (map_eval (f := fun _ => ArgList.nil) hy)))

theorem call_start {b : BuiltInCall} {s : Str} (h : CallReads b s) (r : Str) : Start (s ++ r) ∧ Fails (char '(') (s ++ r) := by
  obtain ⟨⟨u, k, y, rfl, hk, hu, hy⟩, h⟩ := h
  have hp := callTags_plain u hu
  obtain ⟨c, t, rfl, hc⟩ := word_head hk hp.2 hp.1
  have hc' := word_plain hc
  exact ⟨Start.cons ⟨hc'.1, hc'.2.1⟩, char_fails hc'.2.2.2.2.2.2⟩

theorem operandIri_start {i : Iri} {s : Str} (h : cOperandIri i s) (r : Str) : Start (s ++ r) ∧ Fails (char '(') (s ++ r) := by
  obtain ⟨h1, c, t, rfl, hc⟩ := operandIri_head h
  exact ⟨Start.cons ⟨hc.1, hc.2.1⟩, char_fails (h1 c t rfl).2.2.2⟩

theorem constraint_eval (hG : ∀ g s, cG g s → ReadsAs groupGraphPattern s g) {c : Constraint} {s : Str} (h : CConstraint cG c s) :
    ReadsAs constraint s c := by
  intro r
  unfold constraint constraintS
  cases h with
  | bracket h => exact alt_eval1 (map_eval (f := Constraint.bracketted) (bracket_eval hG h r))
  | call h =>
    have h' := call_reads hG h
    exact alt_eval2 (Fails.map (Fails.delimited (call_start h' r).2)) (alt_eval1 (map_eval (f := Constraint.builtInCall) (h'.2 r)))
  | function h hw hn =>
    have h' := function_eval h hw hn r
    simp only [List.append_assoc] at h' ⊢
    exact alt_eval2 (Fails.map (Fails.delimited (operandIri_start h _).2))
      (alt_eval2 (Fails.map (builtIn_fails_iri h.1 h.2 _)) (map_eval (f := Constraint.functionCall) h'))

theorem constraint_start (hG : ∀ g s, cG g s → ReadsAs groupGraphPattern s g) {c : Constraint} {s : Str} (h : CConstraint cG c s) (r : Str) :
    Start (s ++ r) := by
  cases h with
  | bracket h => obtain ⟨t, rfl⟩ := bracket_head h; exact Start.cons (by decide)
  | call h => exact (call_start (call_reads hG h) r).1
  | function h hw hn =>
    rw [List.append_assoc]
    exact (operandIri_start h _).1

/-! ## What may come after a condition -/

/-- The end, a closing brace or one of the keywords. -/
def KwEnd (us : List Str) (x : Str) : Prop := x = [] ∨ (∃ t, x = '}' :: t) ∨
  ∃ u k r, x = k ++ r ∧ CaseVariant u k ∧ u ∈ us ∧ Follow r

/-- The keywords that follow the conditions of a solution modifier. -/
def modKws : List Str := [c!"having", c!"order", c!"limit", c!"offset", c!"values"]

theorem KwEnd.mono {us vs : List Str} {x : Str} (h : KwEnd us x) (hs : ∀ u ∈ us, u ∈ vs) : KwEnd vs x := by
  rcases h with h | h | ⟨u, k, r, e, hk, hu, hr⟩
  · exact .inl h
  · exact .inr (.inl h)
  · exact .inr (.inr ⟨u, k, r, e, hk, hs u hu, hr⟩)

theorem KwEnd.start {us : List Str} {x : Str} (h : KwEnd us x) (hu : ∀ u ∈ us, (∀ c ∈ u, KwLetter c) ∧ u ≠ []) : Start x := by
  rcases h with rfl | ⟨t, rfl⟩ | ⟨u, k, r, rfl, hk, hu', hr⟩
  · exact start_nil
  · exact Start.cons (by decide)
  · exact Start.kw hk (hu u hu')

/-- A keyword that is none of these fails. -/
theorem KwEnd.tag {us : List Str} {x : Str} (h : KwEnd us x) {a : Char} {t : Str} [KwChar a] [KwPlain (a :: t)]
    (ht : ∀ u ∈ us, (a :: t).all (fun c => decide (KwLetter c)) = true ∧ u.all (fun c => decide (KwLetter c)) = true ∧ clash (a :: t) u = true)
    (hb : Fails (tagNoCase (a :: t)) []) (hb' : ∀ r, Fails (tagNoCase (a :: t)) ('}' :: r)) :
    Fails (tagNoCase (a :: t)) x := by
  rcases h with rfl | ⟨t, rfl⟩ | ⟨u, k, r, rfl, hk, hu', hr⟩
  · exact hb
  · exact hb' _
  · exact kw_fails hk (ht u hu')

theorem end_fails {x : Str} (h : KwEnd modKws x) : Fails builtInCall x ∧ Fails iri x ∧ Fails (char '(') x ∧ Fails var x ∧ Fails order x := by
  rcases h with rfl | ⟨t, rfl⟩ | ⟨u, k, r, rfl, hk, hu, hr⟩
  · exact ⟨First.nil, First.nil, First.nil, First.nil, First.nil⟩
  · exact ⟨First.cons rfl, First.cons rfl, First.cons rfl, First.cons rfl, First.cons rfl⟩
  · simp only [modKws, List.mem_cons, List.not_mem_nil, or_false] at hu
    rcases hu with rfl | rfl | rfl | rfl | rfl <;>
    exact ⟨builtIn_fails_kw hk (by decide) hr.notWord (by decide), iri_fails_kw hk (by decide) (by decide) hr, kw_first hk rfl, kw_first hk rfl, kw_first hk rfl⟩

theorem end_constraint {x : Str} (h : KwEnd modKws x) : Fails constraint x := by
  obtain ⟨h1, h2, h3, _, _⟩ := end_fails h
  exact Fails.alt_cons (Fails.map (Fails.delimited h3)) (Fails.alt_cons (Fails.map h1) (Fails.map (Fails.map (Fails.separatedPair h2))))

theorem end_order {x : Str} (h : KwEnd modKws x) : Fails orderCondition x := by
  obtain ⟨_, _, _, h4, h5⟩ := end_fails h
  exact Fails.alt_cons (Fails.map (Fails.map (Fails.separatedPair h5))) (Fails.alt_cons (Fails.map (end_constraint h)) (Fails.map h4))

theorem end_group {x : Str} (h : KwEnd modKws x) : Fails groupCondition x := by
  obtain ⟨h1, h2, h3, h4, _⟩ := end_fails h
  exact Fails.alt_cons (Fails.map h1) (Fails.alt_cons (Fails.map (Fails.map (Fails.separatedPair h2)))
    (Fails.alt_cons (Fails.map (Fails.delimited h3)) (Fails.map h4)))

/-! ## Conditions -/

theorem asVarOpt_eval (hG : ∀ g s, cG g s → ReadsAs groupGraphPattern s g) {e : Expression} {s : Str} (h : CBracket cG e s) :
    ReadsAs expressionAsVarOpt s (.mk e none) := by
  intro r
  obtain ⟨hw, h, hw'⟩ := h
  rename_i w b s w'
  have h := expr_reads hG h
  obtain ⟨w2, hw2, _, h2⟩ := (h.2 w' (')' :: r) hw' (Follow.ws_close hw' (by simp)) (Stop.cons (by decide))).2
  have hc : ¬ StartsWs (')' :: r) := not_startsWs_cons rfl
  have hn : Fails (preceded (spEnc1 (tagNoCase c!"as")) var) (w2 ++ ')' :: r) := by
    apply Fails.preceded
    cases w2 with
    | nil => exact Fails.delimited (sp1_fails hc)
    | cons d w2 => exact Fails.delimited2 (sp1_eval ⟨hw2, by simp⟩ hc) (First.cons rfl)
  show delimited (char '(') (spEnc _) (char ')') ('(' :: ((w ++ (s ++ (w' ++ [')']))) ++ r)) = _
  simp only [List.append_assoc]
  exact delimited_eval char_eval (delimited_eval (sp_eval hw (h.1.not_ws _))
    (map_eval (a := (e, none)) (f := fun x => ExpressionAsVarOpt.mk x.1 x.2) (pair_eval h2 (Fails.opt hn))) (sp_eval hw2 hc)) char_eval

theorem asVarSome_eval (hG : ∀ g s, cG g s → ReadsAs groupGraphPattern s g) {e : Expression} {v : Var} {w s w1 k w2 t w' : Str} (hw : Ws w)
    (h : CExpr cG false e s) (hw1 : Ws1 w1) (hk : kw c!"as" k) (hw2 : Ws1 w2) (hv : cVar v t) (hw' : Ws w') (r : Str) :
    expressionAsVarOpt ('(' :: (w ++ (s ++ (w1 ++ (k ++ (w2 ++ (t ++ (w' ++ ')' :: r)))))))) = .ok r (.mk e (some v)) := by
  have h := expr_reads hG h
  have hc : ¬ StartsWs (')' :: r) := not_startsWs_cons rfl
  have hs : Stop orStops (k ++ (w2 ++ (t ++ (w' ++ ')' :: r)))) := by
    obtain ⟨c, y, rfl, rfl | rfl⟩ := kw_head hk <;> exact Stop.cons (by decide)
  obtain ⟨w3, hw3, hl, h3⟩ := (h.2 w1 _ hw1.1 ((Start.kw hk (by decide)).follow hw1) hs).2
  have hw3 : Ws1 w3 := ⟨hw3, hl.2 rfl hw1.2⟩
  exact delimited_eval char_eval (delimited_eval (sp_eval hw (h.1.not_ws _))
    (map_eval (a := (e, some v)) (f := fun x => ExpressionAsVarOpt.mk x.1 x.2) (pair_eval h3 (opt_eval (preceded_eval
      (delimited_eval (sp1_eval hw3 (Start.kw hk (by decide)).1) (kw_eval hk) (sp1_eval hw2 ((cVar_toks v).not_startsWs hv _)))
      (var_accepts v t _ hv (Follow.ws_close hw' (by simp))))))) (sp_eval hw' hc)) char_eval

theorem asVar_eval (hG : ∀ g s, cG g s → ReadsAs groupGraphPattern s g) {x : ExpressionAsVar} {s : Str} (h : CAsVar cG x s) :
    ReadsAs expressionAsVar s x := by
  intro r
  obtain ⟨hw, h, hw1, hk, hw2, hv, hw'⟩ := h
  rename_i w b e s w1 k w2 v t w'
  have h := expr_reads hG h
  have hc : ¬ StartsWs (')' :: r) := not_startsWs_cons rfl
  have hs : Stop orStops (k ++ (w2 ++ (t ++ (w' ++ ')' :: r)))) := by
    obtain ⟨c, y, rfl, rfl | rfl⟩ := kw_head hk <;> exact Stop.cons (by decide)
  obtain ⟨w3, hw3, _, h3⟩ := (h.2 w1 _ hw1.1 ((Start.kw hk (by decide)).follow hw1) hs).2
  show delimited (char '(') (spEnc _) (char ')') ('(' :: ((w ++ (s ++ (w1 ++ (k ++ (w2 ++ (t ++ (w' ++ [')']))))))) ++ r)) = _
  simp only [List.append_assoc]
  exact delimited_eval char_eval (delimited_eval (sp_eval hw (h.1.not_ws _))
    (map_eval (a := (e, v)) (f := fun x => ExpressionAsVar.mk x.1 x.2) (separatedPair_eval h3
      (delimited_eval (sp_eval hw3 (Start.kw hk (by decide)).1) (kw_eval hk) (sp_eval hw2 ((cVar_toks v).not_startsWs hv _)))
      (var_accepts v t _ hv (Follow.ws_close hw' (by simp))))) (sp_eval hw' hc)) char_eval

instance {q : P α} : Key (separatedPair order sp1 q) [c!"asc", c!"desc"] where
  out i h := by
    have key : ∀ {t} [KwTag t] {o : Order}, ¬ Begins t i → (∃ r, map (tagNoCase t) (fun _ => o) i = .ok r o ∧ Fails sp1 r) ∨ Fails (map (tagNoCase t) (fun _ => o)) i := by
      intro t _ o h
      rcases tagNoCase_cases (t := t) (i := i) (fun hk => h (.inr hk)) with ⟨r, a, e⟩ | e
      · refine .inl ⟨r, map_eval (f := fun _ => o) e, ?_⟩
        rcases Soft.cases sp1 r with ⟨r', w, e'⟩ | e'
        · exfalso; apply h; left
          obtain ⟨rfl, h2⟩ := tagNoCase_ok_iff.mp e
          obtain ⟨rfl, ⟨hw, hne⟩, _⟩ := sp1_ok_iff.mp e'
          cases w with
          | nil => contradiction
          | cons c w => exact ⟨a, c, _, rfl, h2, .inl (ws_first hw _ _ rfl)⟩
        · exact e'
      · exact .inr e.map
    rcases key (o := .asc) (h c!"asc" (by simp)) with ⟨r, e, e'⟩ | e
    · exact Fails.pair2 (alt_eval1 e) (Fails.preceded e')
    · rcases key (o := .desc) (h c!"desc" (by simp)) with ⟨r, e1, e'⟩ | e1
      · exact Fails.pair2 (alt_eval2 e e1) (Fails.preceded e')
      · exact Fails.separatedPair (Fails.alt_cons e e1)

instance : Key (orderExpressionS R₀) [c!"asc", c!"desc"] := inferInstanceAs (Key (map (separatedPair order sp1 _) _) _)

theorem orderTags : ∀ t ∈ [c!"asc", c!"desc"], t ≠ [] ∧ ∀ c ∈ t, KwLetter c := by decide
theorem orderTags_call : ∀ t ∈ [c!"asc", c!"desc"], t ∉ callTags := by decide

theorem orderCond_follow (hG : ∀ g s, cG g s → ReadsAs groupGraphPattern s g) {c : OrderCondition} {s r : Str} (h : COrderCond cG c s)
    (hr : Follow r) : orderCondition (s ++ r) = .ok r c := by
  unfold orderCondition orderConditionS
  cases h with
  | @order o k w0 e s hk hw0 h =>
    obtain ⟨t, rfl⟩ := bracket_head h
    have hb := bracket_eval hG h r
    simp only [List.append_assoc]
    refine alt_eval1 (map_eval (f := OrderCondition.order) (map_eval (a := (o, e)) (f := fun x => OrderExpression.mk x.1 x.2)
      (separatedPair_eval ?_ (sp1_eval hw0 (not_startsWs_cons rfl)) hb)))
    cases o with
    | asc => exact alt_eval1 (map_eval (f := fun _ => Order.asc) (kw_eval hk))
    | desc => exact alt_eval2 (Fails.map (kw_fails hk (by decide))) (map_eval (f := fun _ => Order.desc) (kw_eval hk))
  | constraint h =>
    refine alt_eval2 (Fails.map ?_) (alt_eval1 (map_eval (f := OrderCondition.constraint) (constraint_eval hG h _)))
    show Fails (orderExpressionS R₀) _
    cases h with
    | bracket h => obtain ⟨t, rfl⟩ := bracket_head h; exact First.cons (c := '(') rfl
    | call h =>
      obtain ⟨⟨u, k, y, rfl, hk, hu, hy⟩, h⟩ := call_reads hG h
      rw [List.append_assoc]
      refine Key.out _ fun t ht hb => ?_
      have := begins_word hk (callTags_plain u hu).2 (orderTags t ht).2 (hy _) hb
      subst this
      exact orderTags_call _ ht hu
    | function h hw' hn =>
      rw [List.append_assoc]
      exact Key.out _ fun t ht => begins_iri (orderTags t ht).2 (orderTags t ht).1 h.1 h.2 _
  | @var v s h =>
    have hv := var_accepts v s _ h hr
    obtain ⟨t, rfl | rfl⟩ := cVar_head h <;>
    exact alt_eval2 (First.cons rfl) (alt_eval2 (First.cons rfl) (map_eval (f := OrderCondition.var) hv))

theorem orderCond_eval (hG : ∀ g s, cG g s → ReadsAs groupGraphPattern s g) {c : OrderCondition} {s w x : Str} (h : COrderCond cG c s)
    (hw : Ws1 w) (hx : Start x) : orderCondition (s ++ (w ++ x)) = .ok (w ++ x) c := orderCond_follow hG h (hx.follow hw)

theorem orderCond_start (hG : ∀ g s, cG g s → ReadsAs groupGraphPattern s g) {c : OrderCondition} {s : Str} (h : COrderCond cG c s) (x : Str) :
    Start (s ++ x) := by
  cases h with
  | @order o k w0 e s hk hw0 h =>
    rw [List.append_assoc]
    cases o <;> exact Start.kw hk (by decide)
  | constraint h => exact constraint_start hG h x
  | var h => obtain ⟨t, rfl | rfl⟩ := cVar_head h <;> exact Start.cons (by decide)

theorem groupCond_follow (hG : ∀ g s, cG g s → ReadsAs groupGraphPattern s g) {c : GroupCondition} {s r : Str} (h : CGroupCond cG c s)
    (hr : Follow r) : groupCondition (s ++ r) = .ok r c := by
  unfold groupCondition groupConditionS
  cases h with
  | call h => exact alt_eval1 (map_eval (f := GroupCondition.builtInCall) ((call_reads hG h).2 _))
  | function h hw' hn =>
    have h' := function_eval h hw' hn r
    simp only [List.append_assoc] at h' ⊢
    exact alt_eval2 (Fails.map (builtIn_fails_iri h.1 h.2 _)) (alt_eval1 (map_eval (f := GroupCondition.functionCall) h'))
  | bracket h =>
    have hb := asVarOpt_eval hG h r
    obtain ⟨t, rfl⟩ := bracket_head h
    exact alt_eval2 (First.cons rfl) (alt_eval2 (First.cons rfl) (alt_eval1 (map_eval (f := GroupCondition.expressionAsVarOpt) hb)))
  | asVar hw h hw1 hk hw2 hv hw' =>
    have hb := asVarSome_eval hG hw h hw1 hk hw2 hv hw' r
    simp only [List.cons_append, List.append_assoc, List.nil_append] at hb ⊢
    exact alt_eval2 (First.cons rfl) (alt_eval2 (First.cons rfl) (alt_eval1 (map_eval (f := GroupCondition.expressionAsVarOpt) hb)))
  | @var v s h =>
    have hv := var_accepts v s _ h hr
    obtain ⟨t, rfl | rfl⟩ := cVar_head h <;>
    exact alt_eval2 (First.cons rfl) (alt_eval2 (First.cons rfl) (alt_eval2 (First.cons rfl) (map_eval (f := GroupCondition.var) hv)))

theorem groupCond_eval (hG : ∀ g s, cG g s → ReadsAs groupGraphPattern s g) {c : GroupCondition} {s w x : Str} (h : CGroupCond cG c s)
    (hw : Ws1 w) (hx : Start x) : groupCondition (s ++ (w ++ x)) = .ok (w ++ x) c := groupCond_follow hG h (hx.follow hw)

theorem groupCond_start (hG : ∀ g s, cG g s → ReadsAs groupGraphPattern s g) {c : GroupCondition} {s : Str} (h : CGroupCond cG c s) (x : Str) :
    Start (s ++ x) := by
  cases h with
  | call h => exact (call_start (call_reads hG h) x).1
  | function h hw hn => rw [List.append_assoc]; exact (operandIri_start h _).1
  | bracket h => obtain ⟨t, rfl⟩ := bracket_head h; exact Start.cons (by decide)
  | asVar => exact Start.cons (by decide)
  | var h => obtain ⟨t, rfl | rfl⟩ := cVar_head h <;> exact Start.cons (by decide)

/-! ## Clauses -/

theorem modKws_plain : ∀ u ∈ modKws, (∀ c ∈ u, KwLetter c) ∧ u ≠ [] := by decide

theorem KwEnd.start' {us : List Str} {x : Str} (h : KwEnd us x) (hs : ∀ u ∈ us, u ∈ modKws) : Start x := (h.mono hs).start modKws_plain

theorem by_eval {u k w k' w' x : Str} [KwTag u] (hk : CaseVariant u k) (hw : Ws1 w) (hk' : kw c!"by" k') (hw' : Ws1 w') (hx : Start x) :
    ∃ y, terminated (delimited (tagNoCase u) sp1 (tagNoCase c!"by")) sp1 (k ++ (w ++ (k' ++ (w' ++ x)))) = .ok x y :=
  ⟨_, terminated_eval (delimited_eval (kw_eval hk) (sp1_eval hw (Start.kw hk' (by decide)).1) (kw_eval hk')) (sp1_eval hw' hx.1)⟩

/-- Conditions up to a keyword. -/
theorem conds_eval {p : P α} [Good p] [Consumes p] {R : α → Lang} (hacc : ∀ a s w x, R a s → Ws1 w → Start x → p (s ++ (w ++ x)) = .ok (w ++ x) a)
    (hE : ∀ a s x, R a s → Start (s ++ x)) {x : Str} (hx : KwEnd modKws x) (hf : Fails p x) {l : List α} {s : Str} (h : WsList R l s) :
    (∃ w', Ws1 w' ∧ separatedNonemptyList sp p (s ++ x) = .ok (w' ++ x) l) ∧ Start (s ++ x) :=
  ws_list hacc hE (fun _ h => h.1) (hx.start modKws_plain) hf h

theorem groupClause_eval (hG : ∀ g s, cG g s → ReadsAs groupGraphPattern s g) {g : GroupClause} {s x : Str} (h : cGroupClause cG g s)
    (hx : KwEnd modKws x) : ∃ w, Ws1 w ∧ groupClause (s ++ x) = .ok (w ++ x) g := by
  obtain ⟨l⟩ := g
  obtain ⟨k, _, rfl, hk, w1, _, rfl, hw1, k', _, rfl, hk', w2, y, rfl, hw2, h⟩ := h
  simp only [List.append_assoc]
  obtain ⟨⟨w, hw, h1⟩, h2⟩ := conds_eval (p := groupCondition) (fun _ _ _ _ => groupCond_eval hG) (fun _ _ x h => groupCond_start hG h x) hx (end_group hx) h
  obtain ⟨_, h3⟩ := by_eval hk hw1 hk' hw2 h2
  exact ⟨w, hw, map_eval (f := GroupClause.mk) (preceded_eval h3 h1)⟩

theorem orderClause_eval (hG : ∀ g s, cG g s → ReadsAs groupGraphPattern s g) {o : OrderClause} {s x : Str} (h : cOrderClause cG o s)
    (hx : KwEnd modKws x) : ∃ w, Ws1 w ∧ orderClause (s ++ x) = .ok (w ++ x) o := by
  obtain ⟨l⟩ := o
  obtain ⟨k, _, rfl, hk, w1, _, rfl, hw1, k', _, rfl, hk', w2, y, rfl, hw2, h⟩ := h
  simp only [List.append_assoc]
  obtain ⟨⟨w, hw, h1⟩, h2⟩ := conds_eval (p := orderCondition) (fun _ _ _ _ => orderCond_eval hG) (fun _ _ x h => orderCond_start hG h x) hx (end_order hx) h
  obtain ⟨_, h3⟩ := by_eval hk hw1 hk' hw2 h2
  exact ⟨w, hw, map_eval (f := OrderClause.mk) (preceded_eval h3 h1)⟩

theorem havingClause_eval (hG : ∀ g s, cG g s → ReadsAs groupGraphPattern s g) {c : HavingClause} {s x : Str} (h : cHavingClause cG c s)
    (hx : KwEnd modKws x) : ∃ w, Ws1 w ∧ havingClause (s ++ x) = .ok (w ++ x) c := by
  obtain ⟨l⟩ := c
  obtain ⟨k, _, rfl, hk, w1, y, rfl, hw1, h⟩ := h
  simp only [List.append_assoc]
  obtain ⟨⟨w, hw, h1⟩, h2⟩ := conds_eval (p := constraint) (fun _ _ _ _ h _ _ => constraint_eval hG h _) (fun _ _ x h => constraint_start hG h x) hx (end_constraint hx) h
  exact ⟨w, hw, map_eval (f := HavingClause.mk) (preceded_eval (terminated_eval (kw_eval hk) (sp1_eval hw1 h2.1)) h1)⟩

theorem u64_start {n : Nat} {d : Str} (h : rU64 n d) (x : Str) : Start (d ++ x) := by
  obtain ⟨a1, a2, _⟩ := decVal_iff.mp h.1
  cases d with
  | nil => contradiction
  | cons c d =>
    have := a2 c (by simp)
    refine Start.cons ⟨?_, by rintro rfl; exact absurd this (by decide)⟩
    cases hs : wsStart c with
    | false => rfl
    | true => rcases wsStart_iff.mp hs with rfl | rfl | rfl | rfl | rfl <;> exact absurd this (by decide)

theorem limit_text {n : Nat} {s : Str} (h : cLimit n s) : IntClauseText c!"limit" n s := by
  obtain ⟨k, _, rfl, hk, w, d, rfl, hw, hd⟩ := h
  exact ⟨k, _, rfl, hk, w, d, rfl, hw.1, hd⟩
theorem offset_text {n : Nat} {s : Str} (h : cOffset n s) : IntClauseText c!"offset" n s := by
  obtain ⟨k, _, rfl, hk, w, d, rfl, hw, hd⟩ := h
  exact ⟨k, _, rfl, hk, w, d, rfl, hw.1, hd⟩

theorem KwEnd.low {us : List Str} {x : Str} (h : KwEnd us x) (hs : ∀ u ∈ us, u ∈ modKws) : NotStart LowByteDigit x := by
  rcases h with rfl | ⟨t, rfl⟩ | ⟨u, k, r, rfl, hk, hu, hr⟩
  · intro c t e; cases e
  · exact notStart_cons (by decide)
  · have := hs u hu
    simp only [modKws, List.mem_cons, List.not_mem_nil, or_false] at this
    rcases this with rfl | rfl | rfl | rfl | rfl <;> exact kw_low hk (by decide)

theorem limitOffset_eval {l : LimitOffsetClause} {s x : Str} (h : cLimitOffset l s) (hx : KwEnd [c!"values"] x) :
    limitOffsetClause (s ++ x) = .ok x l ∨ ∃ w, Ws w ∧ limitOffsetClause (s ++ x) = .ok (w ++ x) l := by
  have hl := hx.low (by decide)
  have hn := (hx.start' (by decide)).1
  have hne : ∀ t, t = c!"limit" ∨ t = c!"offset" → ∀ b r' n, x = b ++ r' → IntClauseText t n b → False := by
    rintro t ht b r' n rfl ⟨k, _, rfl, hk, _⟩
    rcases hx with e | ⟨y, e⟩ | ⟨u, k', r, e, hk', hu, hr⟩
    · rcases ht with rfl | rfl <;> obtain ⟨c, y, rfl, _⟩ := kw_head hk <;> cases e
    · rcases ht with rfl | rfl <;> obtain ⟨c, y, rfl, h⟩ := kw_head hk <;> cases e <;> revert h <;> decide
    · simp only [List.mem_cons, List.not_mem_nil, or_false] at hu
      subst hu
      obtain ⟨c', y', rfl, h'⟩ := kw_head hk'
      rcases ht with rfl | rfl <;> obtain ⟨c, y, rfl, h⟩ := kw_head hk <;> injection e with e _ <;> subst e <;> revert h h' <;>
        (rintro (rfl | rfl) (h | h) <;> revert h <;> decide)
  rcases l with ⟨l, _ | o⟩ | ⟨o, _ | l⟩
  · obtain ⟨a, w, rfl, ha, hw⟩ := h
    left
    rw [List.append_assoc]
    exact (C26_limit_only _ _ _).mpr ⟨a, w, rfl, limit_text ha, hw, low_ws hw hl, hn, fun b r' n e hb => (hne _ (.inr rfl) b r' n e hb).elim⟩
  · obtain ⟨a, _, rfl, ha, w, _, rfl, hw, b, w', rfl, hb, hw'⟩ := h
    right
    simp only [List.append_assoc]
    exact ⟨w', hw', (C26_limit_offset _ _ _ _).mpr ⟨a, w, b, rfl, limit_text ha, hw.1, offset_text hb, low_ws hw' hl⟩⟩
  · obtain ⟨a, w, rfl, ha, hw⟩ := h
    left
    rw [List.append_assoc]
    exact (C26_offset_only _ _ _).mpr ⟨a, w, rfl, offset_text ha, hw, low_ws hw hl, hn, fun b r' n e hb => (hne _ (.inl rfl) b r' n e hb).elim⟩
  · obtain ⟨a, _, rfl, ha, w, _, rfl, hw, b, w', rfl, hb, hw'⟩ := h
    right
    simp only [List.append_assoc]
    exact ⟨w', hw', (C26_offset_limit _ _ _ _).mpr ⟨a, w, b, rfl, offset_text ha, hw.1, limit_text hb, low_ws hw' hl⟩⟩

/-! ## Solution modifiers -/

/-- An optional part that begins with a keyword: what follows begins with that keyword or is what comes later. -/
theorem optPart {R : α → Lang} {o : Option α} {us : List Str} {u s x : Str} (hR : ∀ a s, R a s → ∃ k r, s = k ++ r ∧ CaseVariant u k ∧ ∀ x, Follow (r ++ x))
    (h : rOpt R o s) (hx : KwEnd us x) : KwEnd (u :: us) (s ++ x) := by
  cases o with
  | none => obtain rfl := h; exact hx.mono fun v hv => List.mem_cons_of_mem _ hv
  | some a =>
    obtain ⟨k, r, rfl, hk, hr⟩ := hR a s h
    exact .inr (.inr ⟨u, k, r ++ x, by simp, hk, by simp, hr x⟩)

theorem sp_part {p : P α} {w x : Str} (hw : Ws w) (hx : Start x) (hf : Fails p x) : opt (preceded sp p) (w ++ x) = .ok (w ++ x) none :=
  Fails.opt (Fails.preceded2 (sp_eval hw hx.1) hf)

theorem sp_part_some {p : P α} {w x r : Str} {a : α} (hw : Ws w) (hx : Start x) (hp : p x = .ok r a) : opt (preceded sp p) (w ++ x) = .ok r (some a) :=
  opt_eval (preceded_eval (sp_eval hw hx.1) hp)

theorem ws1_follow_kw {u w k x : Str} (hw : Ws1 w) (hk : CaseVariant u k) (hu : (∀ c ∈ u, KwLetter c) ∧ u ≠ []) : Follow (w ++ (k ++ x)) :=
  (Start.kw hk hu).follow hw

theorem limitOffset_kw {l : LimitOffsetClause} {s : Str} (h : cLimitOffset l s) : ∃ u k r, s = k ++ r ∧ CaseVariant u k ∧ u ∈ [c!"limit", c!"offset"] ∧ ∀ x, Follow (r ++ x) := by
  have h1 : ∀ {n : Nat} {a : Str}, cLimit n a → ∀ y, ∃ u k r, a ++ y = k ++ r ∧ CaseVariant u k ∧ u ∈ [c!"limit", c!"offset"] ∧ ∀ x, Follow (r ++ x) := by
    rintro n _ ⟨k, _, rfl, hk, w, d, rfl, hw, hd⟩ y
    exact ⟨c!"limit", k, w ++ (d ++ y), by simp, hk, by simp, fun x => by simp only [List.append_assoc]; exact (u64_start hd _).follow hw⟩
  have h2 : ∀ {n : Nat} {a : Str}, cOffset n a → ∀ y, ∃ u k r, a ++ y = k ++ r ∧ CaseVariant u k ∧ u ∈ [c!"limit", c!"offset"] ∧ ∀ x, Follow (r ++ x) := by
    rintro n _ ⟨k, _, rfl, hk, w, d, rfl, hw, hd⟩ y
    exact ⟨c!"offset", k, w ++ (d ++ y), by simp, hk, by simp, fun x => by simp only [List.append_assoc]; exact (u64_start hd _).follow hw⟩
  rcases l with ⟨l, _ | o⟩ | ⟨o, _ | l⟩ <;> obtain ⟨a, y, rfl, ha, _⟩ := h
  · exact h1 ha y
  · exact h1 ha y
  · exact h2 ha y
  · exact h2 ha y

theorem limitPart {o : Option LimitOffsetClause} {s x : Str} (h : rOpt cLimitOffset o s) (hx : KwEnd [c!"values"] x) :
    KwEnd [c!"limit", c!"offset", c!"values"] (s ++ x) := by
  cases o with
  | none => obtain rfl := h; exact hx.mono (by decide)
  | some a =>
    obtain ⟨u, k, r, rfl, hk, hu, hr⟩ := limitOffset_kw h
    exact .inr (.inr ⟨u, k, r ++ x, by simp, hk, (by simp at hu ⊢; grind), hr x⟩)

theorem orderPart {o : Option OrderClause} {s x : Str} {us : List Str} (h : rOpt (cOrderClause cG) o s) (hx : KwEnd us x) : KwEnd (c!"order" :: us) (s ++ x) :=
  optPart (by
    rintro ⟨l⟩ _ ⟨k, _, rfl, hk, w1, _, rfl, hw1, k', y, rfl, hk', _⟩
    exact ⟨k, _, rfl, hk, fun x => by simp only [List.append_assoc]; exact ws1_follow_kw hw1 hk' (by decide)⟩) h hx

theorem havingPart (hG : ∀ g s, cG g s → ReadsAs groupGraphPattern s g) {o : Option HavingClause} {s x : Str} {us : List Str}
    (h : rOpt (cHavingClause cG) o s) (hx : KwEnd us x) : KwEnd (c!"having" :: us) (s ++ x) :=
  optPart (by
    rintro ⟨l⟩ _ ⟨k, _, rfl, hk, w1, y, rfl, hw1, hl, hy⟩
    refine ⟨k, _, rfl, hk, fun x => ?_⟩
    cases l with
    | nil => contradiction
    | cons a l =>
      obtain ⟨_, z, rfl, ⟨u, v, rfl, hu, hv⟩, hz⟩ := hy
      simp only [List.append_assoc]
      exact (constraint_start hG hu _).follow hw1) h hx

theorem groupPart {o : Option GroupClause} {s x : Str} {us : List Str} (h : rOpt (cGroupClause cG) o s) (hx : KwEnd us x) : KwEnd (c!"group" :: us) (s ++ x) :=
  optPart (by
    rintro ⟨l⟩ _ ⟨k, _, rfl, hk, w1, _, rfl, hw1, k', y, rfl, hk', _⟩
    exact ⟨k, _, rfl, hk, fun x => by simp only [List.append_assoc]; exact ws1_follow_kw hw1 hk' (by decide)⟩) h hx

theorem noGroup {x : Str} (h : KwEnd modKws x) : Fails groupClause x :=
  Fails.map (Fails.preceded (Fails.terminated (Fails.delimited (h.tag (by decide) First.nil (fun _ => First.cons rfl)))))
theorem noHaving {x : Str} (h : KwEnd [c!"order", c!"limit", c!"offset", c!"values"] x) : Fails havingClause x :=
  Fails.map (Fails.preceded (Fails.terminated (h.tag (by decide) First.nil (fun _ => First.cons rfl))))
theorem noOrder {x : Str} (h : KwEnd [c!"limit", c!"offset", c!"values"] x) : Fails orderClause x :=
  Fails.map (Fails.preceded (Fails.terminated (Fails.delimited (h.tag (by decide) First.nil (fun _ => First.cons rfl)))))
theorem noLimit {x : Str} (h : KwEnd [c!"values"] x) : Fails limitOffsetClause x := by
  rcases h with rfl | ⟨t, rfl⟩ | ⟨u, k, r, rfl, hk, hu, hr⟩
  · exact First.nil
  · exact First.cons rfl
  · simp only [List.mem_cons, List.not_mem_nil, or_false] at hu
    subst hu
    exact kw_first hk rfl

theorem modifier_eval (hG : ∀ g s, cG g s → ReadsAs groupGraphPattern s g) {m : SolutionModifier} {s x : Str} (h : cModifier cG m s)
    (hx : KwEnd [c!"values"] x) : Start (s ++ x) ∧ ∃ w, Ws w ∧ solutionModifier (s ++ x) = .ok (w ++ x) m := by
  obtain ⟨o, g, hv, l⟩ := m
  obtain ⟨sg, _, rfl, h1, sh, _, rfl, h2, so, sl, rfl, h3, h4⟩ := h
  simp only [List.append_assoc]
  have e1 := limitPart h4 hx
  have e2 := orderPart h3 e1
  have e3 := havingPart hG h2 e2
  have e4 := groupPart h1 e3
  have n1 := e1.start' (by decide)
  have n2 := e2.start' (by decide)
  have n3 := e3.start' (by decide)
  refine ⟨e4.start (by decide), ?_⟩
  obtain ⟨w1, hw1, a1⟩ : ∃ w, Ws w ∧ opt groupClause (sg ++ (sh ++ (so ++ (sl ++ x)))) = .ok (w ++ (sh ++ (so ++ (sl ++ x)))) g := by
    cases g with
    | none => obtain rfl := h1; exact ⟨[], .nil, Fails.opt (noGroup e3)⟩
    | some g => obtain ⟨w, hw, h⟩ := groupClause_eval hG h1 e3; exact ⟨w, hw.1, opt_eval h⟩
  obtain ⟨w2, hw2, a2⟩ : ∃ w, Ws w ∧ opt (preceded sp havingClause) (w1 ++ (sh ++ (so ++ (sl ++ x)))) = .ok (w ++ (so ++ (sl ++ x))) hv := by
    cases hv with
    | none => obtain rfl := h2; exact ⟨w1, hw1, sp_part hw1 n2 (noHaving e2)⟩
    | some c => obtain ⟨w, hw, h⟩ := havingClause_eval hG h2 (e2.mono (by decide)); exact ⟨w, hw.1, sp_part_some hw1 n3 h⟩
  obtain ⟨w3, hw3, a3⟩ : ∃ w, Ws w ∧ opt (preceded sp orderClause) (w2 ++ (so ++ (sl ++ x))) = .ok (w ++ (sl ++ x)) o := by
    cases o with
    | none => obtain rfl := h3; exact ⟨w2, hw2, sp_part hw2 n1 (noOrder e1)⟩
    | some c => obtain ⟨w, hw, h⟩ := orderClause_eval hG h3 (e1.mono (by decide)); exact ⟨w, hw.1, sp_part_some hw2 n2 h⟩
  obtain ⟨w4, hw4, a4⟩ : ∃ w, Ws w ∧ opt (preceded sp limitOffsetClause) (w3 ++ (sl ++ x)) = .ok (w ++ x) l := by
    cases l with
    | none => obtain rfl := h4; exact ⟨w3, hw3, sp_part hw3 (hx.start' (by decide)) (noLimit hx)⟩
    | some c =>
      rcases limitOffset_eval h4 hx with h | ⟨w, hw, h⟩
      · exact ⟨[], .nil, sp_part_some hw3 n1 h⟩
      · exact ⟨w, hw, sp_part_some hw3 n1 h⟩
  exact ⟨w4, hw4, map_eval (a := (g, hv, o, l)) (f := fun x => SolutionModifier.mk x.2.2.1 x.1 x.2.1 x.2.2.2) (tuple4_eval a1 a2 a3 a4)⟩

end NomSparql
