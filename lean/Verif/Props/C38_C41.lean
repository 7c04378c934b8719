import Verif.Lemmas.WsLists
import Verif.Props.C08_C10

/-!
# C38 to C41: groups, boolean and relational operators, sums and products
-/

namespace NomSparql

set_option maxRecDepth 8000

/-! ## C38: groups -/

/-- Partial: every canonical group (Spec/CanonGroup: triples, unions, OPTIONAL, MINUS, GRAPH, SERVICE, FILTER, BIND, VALUES, sub-selects, nested
to any depth) is read as the group written, whatever follows.  Missing: the texts of the `_violated` theorems. -/
theorem C38_group_partial (g : GroupGraphPattern) (s r : Str) (h : cGroup g s) : groupGraphPattern (s ++ r) = .ok r g := cGroup_reads h r

/-- A canonical group is the text of one group only. -/
theorem C38_unambiguous (g g' : GroupGraphPattern) (s : Str) (h : cGroup g s) (h' : cGroup g' s) : g = g' := by
  have h1 := cGroup_reads h []
  rw [cGroup_reads h' []] at h1
  cases h1; rfl

/-- `{}` -/
def emptyGroup : GroupGraphPattern := .groupGraphPatternSub (.mk none [])

theorem emptyGroup_text : cGroup emptyGroup c!"{}" := cGroup_intro (.empty (w := []) .nil)

theorem wsItem {R : α → Lang} {a : α} {s : Str} (h : R a s) : (R a ⬝ Ws1) (s ++ [' ']) := ⟨_, _, rfl, h, .blank⟩

/-- A group with a union and an optional part: `{A union {} optional A }`. -/
theorem unionOptional_text {g : GroupGraphPattern} {s : Str} (h : cGroup g s) :
    cGroup (.groupGraphPatternSub (.mk none [.mk (.groupOrUnion [g, emptyGroup]) none, .mk (.optional g) none]))
      ('{' :: ([] ++ (((s ++ (c!" union " ++ c!"{}") ++ c!" ") ++ ((c!"optional" ++ (c!" " ++ s)) ++ c!" ")) ++ c!"}"))) := by
  refine cGroup_intro (.items .nil ⟨by simp, ?_⟩)
  refine ⟨_, _, rfl, wsItem (.plain (.union ?_)), ⟨_, _, (List.append_nil _).symm, wsItem (.plain (.optional (.refl _) .blank h)), rfl⟩⟩
  refine ⟨_, _, rfl, h, ⟨_, _, (List.append_nil _).symm, ⟨c!" union ", c!"{}", rfl, ?_, emptyGroup_text⟩, rfl⟩⟩
  exact ⟨c!" ", _, rfl, .blank, c!"union", c!" ", rfl, .refl _, .blank⟩

/-- Nested `n` times. -/
def deep : Nat → GroupGraphPattern
  | 0 => emptyGroup
  | n + 1 => .groupGraphPatternSub (.mk none [.mk (.groupOrUnion [deep n, emptyGroup]) none, .mk (.optional (deep n)) none])

def deepText : Nat → Str
  | 0 => c!"{}"
  | n + 1 => c!"{" ++ deepText n ++ c!" union {} optional " ++ deepText n ++ c!" }"

/-- Non-vacuity: groups of every depth. -/
theorem deep_text : ∀ n, cGroup (deep n) (deepText n)
  | 0 => emptyGroup_text
  | n + 1 => by
    have h := unionOptional_text (deep_text n)
    simpa [deep, deepText] using h

example (n : Nat) (r : Str) : groupGraphPattern (deepText n ++ r) = .ok r (deep n) := C38_group_partial _ _ r (deep_text n)

/-- For all inputs: a group body whose last part is not a triple has to be followed by white space. -/
theorem C38_space (i r : Str) (t : Option TriplesBlock) (l : List GraphPatternAndTriples) (h : groupGraphPatternSub i = .ok r (.mk t l))
    (hl : l ≠ []) : StartsWs r := by
  obtain ⟨⟨o, l'⟩, h1, e⟩ := map_ok.mp h
  cases e
  obtain ⟨_, _, h2⟩ := pair_ok_iff.mp h1
  rcases wsList0_ok h2 with ⟨rfl, _⟩ | h3
  · contradiction
  · exact h3.1

/-- Violated: `{ A }` without white space before the closing brace is rejected, for every canonical UNION, OPTIONAL, MINUS, GRAPH, SERVICE, FILTER,
BIND or VALUES part `A`. -/
theorem C38_space_violated (g : GraphPatternNotTriples) (w s r : Str) (hw : Ws w) (h : CItem cGroup g s) :
    Fails groupGraphPattern ('{' :: (w ++ (s ++ '}' :: r))) := by
  have hG : ∀ g s, cGroup g s → ReadsAs groupGraphPattern s g := fun _ _ h => cGroup_reads h
  obtain ⟨h1, h2⟩ := entry_start hG (.plain h) ('}' :: r)
  have hb := EntryStart.brace r
  rw [groupGraphPattern_eq]
  refine Fails.delimited2 char_eval (Fails.delimited2 (sp_eval hw h1.start.1) ?_)
  refine Fails.alt_cons (Fails.map h2) (Fails.map (Fails.map ?_))
  refine Fails.pair2 (Fails.opt (Fails.terminated h1.block)) (wsList0_fails (a := .mk g none) (j := '}' :: r) ?_ (not_startsWs_cons rfl))
  refine map_eval (a := (g, none)) (f := fun x => GraphPatternAndTriples.mk x.1 x.2) ?_
  refine separatedPair_eval (item_eval hG h (hb.noUnion (w := []) .nil)) (Fails.opt (Fails.preceded2 (sp_zero hb.start.1) hb.qmark)) ?_
  exact Fails.opt (Fails.preceded2 (sp_zero hb.start.1) hb.block)

example : Fails groupGraphPattern c!"{ optional {}}" :=
  C38_space_violated _ c!" " (c!"optional" ++ (c!" " ++ c!"{}")) [] Ws1.blank.1 (.optional (.refl _) .blank emptyGroup_text)

/-- Between a part and the triples after it a `?` is dropped. -/
theorem entry_qmark {g : GraphPatternNotTriples} {s w t v x : Str} {l : List Pattern} (h : CItem cGroup g s) (hw : Ws w) (ht : cPatterns l t)
    (hv : Ws1 v) (hx : EntryStart x) :
    groupGraphPatternAndTriplesS R₀ (s ++ (w ++ '?' :: (t ++ (v ++ x)))) = .ok (v ++ x) (.mk g (some (.mk (l.map Pattern.ast)))) := by
  have hG : ∀ g s, cGroup g s → ReadsAs groupGraphPattern s g := fun _ _ h => cGroup_reads h
  have hn := (pattern_start ht (v ++ x)).1
  have hq : ¬ StartsWs ('?' :: (t ++ (v ++ x))) := not_startsWs_cons rfl
  have hu : NoUnion (w ++ '?' :: (t ++ (v ++ x))) := by
    cases w with
    | nil => exact Fails.preceded (sp1_fails hq)
    | cons c w => exact Fails.preceded2 (sp1_eval ⟨hw, by simp⟩ hq) (Fails.terminated (First.cons rfl))
  exact map_eval (a := (g, some (TriplesBlock.mk (l.map Pattern.ast)))) (f := fun x => GraphPatternAndTriples.mk x.1 x.2)
    (separatedPair_eval (item_eval hG h hu) (opt_eval (preceded_eval (sp_eval hw hq) char_eval))
      (opt_eval (preceded_eval (sp_zero hn) (patterns_accept l t _ ht (by simp) (hx.patternEnd hv) (hx.noDot hv.1)))))

/-- Violated: between a part `A` and the triples after it a `?` is dropped; `{ A ?T }` is read as `{ A T }`.  So the variable `?1` at that place is
returned as the number `1` (the example below). -/
theorem C38_variable_violated (g : GraphPatternNotTriples) (l : List Pattern) (w s w' t v r : Str) (hw : Ws w) (h : CItem cGroup g s) (hw' : Ws w')
    (ht : cPatterns l t) (hv : Ws1 v) :
    groupGraphPattern ('{' :: (w ++ (s ++ (w' ++ '?' :: (t ++ (v ++ '}' :: r)))))) =
      .ok r (.groupGraphPatternSub (.mk none [.mk g (some (.mk (l.map Pattern.ast)))])) := by
  obtain ⟨h1, h2⟩ := entry_start (fun _ _ h => cGroup_reads h) (.plain h) (w' ++ '?' :: (t ++ (v ++ '}' :: r)))
  have hb := EntryStart.brace r
  refine sub_eval (w' := v) hw h1.start.1 hv.1 h2 (Fails.opt (Fails.terminated h1.block)) ?_
  refine separatedList_ok.mpr (.inr ⟨_, [], _, rfl, entry_qmark h hw' ht hv hb, ?_, ?_⟩)
  · intro e
    have := congrArg List.length e
    simp only [List.length_append, List.length_cons] at this
    omega
  · exact .stopElem (sp_eval hv.1 hb.start.1) (append_ne_self hv.2) (noEntry r).choose_spec.choose_spec

/-- Non-vacuity: the subject is the variable `?1` in the text and the number 1 in the result. -/
example : ∃ ts, groupGraphPattern c!"{ {} ?1 ?p ?o }" =
    .ok [] (.groupGraphPatternSub (.mk none [.mk (.groupOrUnion [emptyGroup]) (some (.mk [.term (.term (.numericLiteral (.int 1))) ts]))])) :=
  ⟨_, rfl⟩

/-- ASCII letters but `t` and `f`. -/
def plainLetters : List Char := c!"abcdeghijklmnopqrsuvwxyzABCDEGHIJKLMNOPQRSUVWXYZ"

theorem word_triples {k r : Str} (h : Word k) (h1 : Stop plainLetters k) (hr : Follow r) : Fails triplesSameSubjectPath (k ++ r) := by
  have hi := iri_fails_word h hr
  have h1 : Stop plainLetters (k ++ r) := by obtain ⟨c, t, rfl, hc⟩ := h1; exact ⟨c, t ++ r, rfl, hc⟩
  have hg : Fails graphTerm (k ++ r) := Fails.alt_cons (Fails.map hi)
    (Fails.alt_cons (Fails.map (h1.fails (by decide))) (Fails.alt_cons (Fails.map (h1.fails (by decide))) (Fails.alt_cons (Fails.map (h1.fails (by decide)))
        (Fails.alt_cons (Fails.map (h1.fails (by decide))) (Fails.map (h1.fails (by decide)))))))
  exact Fails.alt_cons (Fails.map (Fails.pair (Fails.alt_cons (Fails.map (h1.fails (by decide))) (Fails.map hg))))
    (Fails.map (Fails.separatedPair (h1.fails (by decide))))

/-- Violated: `{ A ?x ... }` is rejected for every canonical part `A` and every variable `?x` whose name is a word (not beginning with t or f; the
crate might take these for a boolean). -/
theorem C38_variable_rejected_violated (g : GraphPatternNotTriples) (w s w' n r : Str) (hw : Ws w) (h : CItem cGroup g s) (hw' : Ws w')
    (hn : Word n) (hn' : Stop plainLetters n) (hr : Follow r) : Fails groupGraphPattern ('{' :: (w ++ (s ++ (w' ++ '?' :: (n ++ r))))) := by
  have hG : ∀ g s, cGroup g s → ReadsAs groupGraphPattern s g := fun _ _ h => cGroup_reads h
  obtain ⟨h1, h2⟩ := entry_start hG (.plain h) (w' ++ '?' :: (n ++ r))
  have hq : ¬ StartsWs ('?' :: (n ++ r)) := not_startsWs_cons rfl
  have hu : NoUnion (w' ++ '?' :: (n ++ r)) := by
    cases w' with
    | nil => exact Fails.preceded (sp1_fails hq)
    | cons c w => exact Fails.preceded2 (sp1_eval ⟨hw', by simp⟩ hq) (Fails.terminated (First.cons rfl))
  have hs : ¬ StartsWs (n ++ r) := by
    obtain ⟨c, t, rfl, hc⟩ := hn'
    have : ∀ c ∈ plainLetters, wsStart c = false := by decide
    exact not_startsWs_cons (this c hc)
  rw [groupGraphPattern_eq]
  refine Fails.delimited2 char_eval (Fails.delimited2 (sp_eval hw h1.start.1) ?_)
  refine Fails.alt_cons (Fails.map h2) (Fails.map (Fails.map ?_))
  refine Fails.pair2 (Fails.opt (Fails.terminated h1.block)) (wsList0_fails (a := .mk g none) (j := n ++ r) ?_ hs)
  refine map_eval (a := (g, none)) (f := fun x => GraphPatternAndTriples.mk x.1 x.2) ?_
  exact separatedPair_eval (item_eval hG h hu) (opt_eval (preceded_eval (sp_eval hw' hq) char_eval))
    (Fails.opt (Fails.preceded2 (sp_zero hs) (Fails.map (Fails.sep1 (word_triples hn hn' hr)))))

example : Fails groupGraphPattern c!"{ {} ?x ?p ?o }" :=
  C38_variable_rejected_violated (.groupOrUnion [emptyGroup]) c!" " c!"{}" c!" " c!"x" c!" ?p ?o }" Ws1.blank.1 (.union ⟨_, _, (List.append_nil _).symm, emptyGroup_text, rfl⟩)
    Ws1.blank.1 ⟨by simp, by decide⟩ ⟨'x', [], rfl, by decide⟩
    (Follow.ws Ws1.blank.1 (.inl (by simp)) (not_startsWs_cons rfl) (by intro c r e; cases e; decide))

/-! ## C39: boolean and relational operators -/

/-- Every canonical expression (Spec/CanonExpr: `||` over `&&` over relational operators over sums, products, unary operators and operands) in
parentheses is read as the expression written, whatever follows. -/
theorem C39_expression (b : Bool) (e : Expression) (w s w' r : Str) (h : cExpr b e s) (hw : Ws w) (hw' : Ws w') :
    brackettedExpression ('(' :: (w ++ (s ++ (w' ++ ')' :: r)))) = .ok r e := by
  have := bracket_reads hw (cExpr_reads h) hw' r
  simpa using this

/-- A canonical text is the text of one expression only. -/
theorem C39_unambiguous (b b' : Bool) (e e' : Expression) (s : Str) (h : cExpr b e s) (h' : cExpr b' e' s) : e = e' := by
  have h1 := C39_expression b e [] s [] [] h .nil .nil
  rw [C39_expression b' e' [] s [] [] h' .nil .nil] at h1
  cases h1; rfl

/-- For all inputs: an accepted expression was written as its disjuncts between `||`, each as its conjuncts between `&&`, each a relation (its left
side and, if there is an operator, that operator and its right side). -/
theorem C39_written (i r : Str) (e : Expression) (h : expression i = .ok r e) :
    ∃ (l : List (List RelationalExpression)) (s : Str), e = .mk (l.map .mk) ∧ i = s ++ r ∧
      Sep1 (enc (lit c!"||")) (Sep1 (enc (lit c!"&&")) (rRelationalExpressionS rel₀)) l s := by
  obtain ⟨s, hs, h1⟩ := C08_expression_unfold_partial _ _ _ h
  obtain ⟨l⟩ := e
  have e1 : ∀ l : List ConditionalAndExpression, l = (l.map fun | .mk m => m).map .mk := by
    intro l
    rw [List.map_map]
    induction l with
    | nil => rfl
    | cons a l ih => obtain ⟨m⟩ := a; rw [List.map_cons, ← ih]; rfl
  refine ⟨l.map fun | .mk m => m, s, by rw [← e1 l], hs, ?_⟩
  have key : ∀ (l : List ConditionalAndExpression) (s : Str), Many (fun b => enc (lit c!"||") ⬝ rConditionalAndExpressionS rel₀ b) l s →
      Many (fun b => enc (lit c!"||") ⬝ Sep1 (enc (lit c!"&&")) (rRelationalExpressionS rel₀) b) (l.map fun | .mk m => m) s := by
    intro l
    induction l with
    | nil => exact fun s h => h
    | cons a l ih =>
      obtain ⟨m⟩ := a
      rintro s ⟨x, y, rfl, hx, hy⟩
      exact ⟨x, y, rfl, hx, ih y hy⟩
  cases l with
  | nil => exact h1.elim
  | cons a l =>
    obtain ⟨m⟩ := a
    obtain ⟨x, y, rfl, hx, hy⟩ := h1
    exact ⟨x, y, rfl, hx, key l y hy⟩

section
variable {b₁ b₂ b₃ b₄ : Bool} {r₁ r₂ r₃ : RelationalExpression} {s₁ s₂ s₃ s₄ w₁ w₂ w₃ w₄ w w' r : Str}

/-- `a || b && c` is `a || (b && c)`. -/
theorem C39_or_and (h₁ : CRel cGroup b₁ r₁ s₁) (h₂ : CRel cGroup b₂ r₂ s₂) (h₃ : CRel cGroup b₃ r₃ s₃) (hw₁ : Ws w₁) (hw₂ : Ws w₂) (hw₃ : Ws w₃)
    (hw₄ : Ws w₄) (hw : Ws w) (hw' : Ws w') :
    brackettedExpression ('(' :: (w ++ ((s₁ ++ (w₁ ++ '|' :: '|' :: (w₂ ++ (s₂ ++ (w₃ ++ '&' :: '&' :: (w₄ ++ s₃)))))) ++ (w' ++ ')' :: r)))) =
      .ok r (.mk [.mk [r₁], .mk [r₂, r₃]]) :=
  C39_expression b₃ _ _ _ _ _ (.mk (.or (.one h₁) hw₁ hw₂ (.one (.and h₂ hw₃ hw₄ (.one h₃))))) hw hw'

/-- `a && b || c` is `(a && b) || c`. -/
theorem C39_and_or (h₁ : CRel cGroup b₁ r₁ s₁) (h₂ : CRel cGroup b₂ r₂ s₂) (h₃ : CRel cGroup b₃ r₃ s₃) (hw₁ : Ws w₁) (hw₂ : Ws w₂) (hw₃ : Ws w₃)
    (hw₄ : Ws w₄) (hw : Ws w) (hw' : Ws w') :
    brackettedExpression ('(' :: (w ++ (((s₁ ++ (w₁ ++ '&' :: '&' :: (w₂ ++ s₂))) ++ (w₃ ++ '|' :: '|' :: (w₄ ++ s₃))) ++ (w' ++ ')' :: r)))) =
      .ok r (.mk [.mk [r₁, r₂], .mk [r₃]]) :=
  C39_expression b₃ _ _ _ _ _ (.mk (.or (.and h₁ hw₁ hw₂ (.one h₂)) hw₃ hw₄ (.one (.one h₃)))) hw hw'

/-- `a op b && c op' d` is `(a op b) && (c op' d)`. -/
theorem C39_rel_and {a c : AdditiveExpression} {o o' : OpExpression} {t₁ t₂ t₃ t₄ : Str} (h₁ : CAdd cGroup b₁ a t₁) (h₂ : COp cGroup b₂ true o t₂)
    (h₃ : CAdd cGroup b₃ c t₃) (h₄ : COp cGroup b₄ true o' t₄) (hw₁ : Ws w₁) (hw₂ : Ws w₂) (hw₃ : Ws w₃) (hw₄ : Ws w₄) (hw : Ws w) (hw' : Ws w') :
    brackettedExpression ('(' :: (w ++ (((t₁ ++ (w₁ ++ t₂)) ++ (w₂ ++ '&' :: '&' :: (w₃ ++ (t₃ ++ (w₄ ++ t₄))))) ++ (w' ++ ')' :: r)))) =
      .ok r (.mk [.mk [.mk a (some o), .mk c (some o')]]) :=
  C39_expression b₄ _ _ _ _ _ (.mk (.one (.and (.op h₁ hw₁ (fun h => by cases h) h₂) hw₂ hw₃ (.one (.op h₃ hw₄ (fun h => by cases h) h₄))))) hw hw'
end

/-- Non-vacuity: all operators at once. -/
example : brackettedExpression c!"( ?a = 1 || ?b != 2 && !?c<?d||?e >= 3 && ?f <=4&&?g>5 )" = .ok [] (
    let n (k : Int) : AdditiveExpression := .mk (.mk (.default (.numericLiteral (.int k))) []) []
    let v (c : Char) : AdditiveExpression := .mk (.mk (.default (.var (.qmark [c]))) []) []
    .mk [.mk [.mk (v 'a') (some (.eq (n 1)))],
      .mk [.mk (v 'b') (some (.ne (n 2))), .mk (.mk (.mk (.not (.var (.qmark ['c']))) []) []) (some (.lt (v 'd')))],
      .mk [.mk (v 'e') (some (.ge (n 3))), .mk (v 'f') (some (.le (n 4))), .mk (v 'g') (some (.gt (n 5)))]]) := rfl

/-- Non-vacuity of `cExpr`: `!$x` for every variable, and `!$x || !$x && !$x`. -/
theorem notVar_text {v : Var} {s : Str} (h : cVar v s) : CRel cGroup true (.mk (.mk (.mk (.not (.var v)) []) []) none) ('!' :: s) :=
  .one (.one (.one (.not (w := []) .nil (.var h))))

example : ∃ e, cExpr true e c!"!$x||!$x&&!$x" ∧ ∃ l, e = .mk [.mk [l], .mk [l, l]] := by
  have hv : cVar (.dollar c!"x") c!"$x" := ⟨rfl, by simp [varNameOf], by decide⟩
  have h := notVar_text hv
  exact ⟨_, .mk (.or (w := []) (w' := []) (.one h) .nil .nil (.one (.and (w := []) (w' := []) h .nil .nil (.one h)))), _, rfl⟩

/-! ## C40: sums -/

/-- The factors after the first of a summand. -/
def summandFactors : AddExpression → List MultExpression
  | .add (.mk _ l) | .sub (.mk _ l) | .numeric _ l => l

/-- Partial: a sum whose summands after the first are products is read as the summands written, with their signs, in order. -/
theorem C40_sums_partial (m : MultiplicativeExpression) (l : List AddExpression) (w s v t w' r : Str) (hm : CMult cGroup m s) (hv : Ws1 v) (hl : l ≠ [])
    (h : CSummands cGroup l t) (hw : Ws w) (hw' : Ws w') :
    brackettedExpression ('(' :: (w ++ ((s ++ (v ++ t)) ++ (w' ++ ')' :: r)))) = .ok r (.mk [.mk [.mk (.mk m l) none]]) :=
  C39_expression false _ _ _ _ _ (.mk (.one (.one (.one (.sum hm hv hl h))))) hw hw'

example : brackettedExpression c!"(?a + 2 * ?b - ?c / 4 )" = .ok [] (.mk [.mk [.mk (.mk (.mk (.default (.var (.qmark ['a']))) [])
    [.add (.mk (.default (.numericLiteral (.int 2))) [.mult (.default (.var (.qmark ['b'])))]),
     .sub (.mk (.default (.var (.qmark ['c']))) [.div (.default (.numericLiteral (.int 4)))])]) none]]) := rfl

theorem mult_plain {i r : Str} {u : UnaryExpression} (h : multiplicativeExpression i = .ok r (.mk u [])) : ¬ StartsWs r := by
  obtain ⟨⟨u', l⟩, h1, e⟩ := map_ok.mp h
  cases e
  obtain ⟨j, h2, h3⟩ := pair_ok_iff.mp h1
  obtain ⟨k, w, h4, h5⟩ := preceded_ok.mp h3
  rcases separatedList_ok.mp h5 with ⟨_, rfl, _⟩ | ⟨_, _, _, e, _⟩
  · exact sp_stops h4
  · cases e

theorem numeric_plain {i r : Str} {n : NumericLiteral}
    (h : pair numericLiteral (preceded sp (separatedList sp multExpression)) i = .ok r (n, [])) : ¬ StartsWs r := by
  obtain ⟨j, h2, h3⟩ := pair_ok_iff.mp h
  obtain ⟨k, w, h4, h5⟩ := preceded_ok.mp h3
  rcases separatedList_ok.mp h5 with ⟨_, rfl, _⟩ | ⟨_, _, _, e, _⟩
  · exact sp_stops h4
  · cases e

theorem add_plain {i r : Str} {a : AddExpression} (h : addExpression i = .ok r a) (ha : summandFactors a = []) : ¬ StartsWs r := by
  obtain ⟨p, hp, h⟩ := alt_ok h
  simp only [List.mem_cons, List.not_mem_nil, or_false] at hp
  rcases hp with rfl | rfl | rfl
  · obtain ⟨⟨u, l⟩, h1, rfl⟩ := map_ok.mp h
    cases ha
    obtain ⟨k, w, h4, h5⟩ := preceded_ok.mp h1
    exact mult_plain h5
  · obtain ⟨⟨u, l⟩, h1, rfl⟩ := map_ok.mp h
    cases ha
    obtain ⟨k, w, h4, h5⟩ := preceded_ok.mp h1
    exact mult_plain h5
  · obtain ⟨⟨n, l⟩, h1, rfl⟩ := map_ok.mp h
    cases ha
    exact numeric_plain h1

/-- Violated, for all inputs: a sum with a plain summand after the first is never returned. -/
theorem C40_plain_violated (i r : Str) (m : MultiplicativeExpression) (l : List AddExpression) (h : additiveExpression i = .ok r (.mk m l)) :
    ∀ a ∈ l, summandFactors a ≠ [] := by
  obtain ⟨⟨m', l'⟩, h1, e⟩ := map_ok.mp h
  cases e
  obtain ⟨j, h2, h3⟩ := pair_ok_iff.mp h1
  obtain ⟨k, w, h4, h5⟩ := preceded_ok.mp h3
  rcases wsList0_ok h5 with ⟨rfl, _⟩ | ⟨_, h6⟩
  · simp
  · intro a ha hn
    obtain ⟨j, x, h7, h8⟩ := h6 a ha
    exact add_plain h7 hn h8

theorem expr_fails {i : Str} (h : Fails additiveExpression i) : Fails expression i := by
  rw [expression_eq]
  exact Fails.map (Fails.sep1 (Fails.map (Fails.sep1 (Fails.map (Fails.pair h)))))

/-- Violated: `(a + b)` and `(a - b)` are rejected for all canonical operands. -/
theorem C40_violated (m : MultiplicativeExpression) (u : UnaryExpression) (c : Char) (w s v v' t w' r : Str) (hm : CMult cGroup m s) (hu : CUnary cGroup u t)
    (hc : c = '+' ∨ c = '-') (hw : Ws w) (hv : Ws1 v) (hv' : Ws v') (hw' : Ws w') :
    Fails brackettedExpression ('(' :: (w ++ (s ++ (v ++ c :: (v' ++ (t ++ (w' ++ ')' :: r))))))) := by
  have hG : ∀ g s, cGroup g s → ReadsAs groupGraphPattern s g := fun _ _ h => cGroup_reads h
  obtain ⟨_, hm⟩ := mult_reads hG hm
  have hu := mult_one (unary_reads hG hu)
  refine Fails.delimited2 char_eval (Fails.delimited2 (sp_eval hw (hm.1.not_ws _)) (expr_fails ?_))
  have hS : Stop multStops (c :: (v' ++ (t ++ (w' ++ ')' :: r)))) := Stop.cons (by rcases hc with rfl | rfl <;> decide)
  obtain ⟨_, w2, hw2, _, h1⟩ := hm.2 v _ hv.1 (Stop.follow hv hS.unary) hS
  obtain ⟨_, w3, hw3, _, h2⟩ := hu.2 w' (')' :: r) hw' (Follow.ws_close hw' (by simp)) (close_stop (by decide) r)
  have h3 : w3 = [] := by
    have := mult_plain h2
    cases hw3 with
    | nil => rfl
    | cons h4 h5 => exact absurd ⟨_, _, h4, List.append_assoc _ _ _⟩ this
  subst h3
  refine Fails.map (Fails.pair2 h1 (Fails.preceded2 (sp_eval hw2 hS.unary.not_ws) ?_))
  have hnw : ¬ StartsWs (t ++ (w' ++ ')' :: r)) := hu.1.not_ws _
  rcases hc with rfl | rfl
  · refine wsList0_fails (a := .add (.mk u [])) (j := ')' :: r) ?_ (not_startsWs_cons rfl)
    exact alt_eval1 (map_eval (f := AddExpression.add) (sign_eval hv' hnw h2))
  · refine wsList0_fails (a := .sub (.mk u [])) (j := ')' :: r) ?_ (not_startsWs_cons rfl)
    exact alt_eval2 (Fails.map (sign_fails rfl (by decide))) (alt_eval1 (map_eval (f := AddExpression.sub) (sign_eval hv' hnw h2)))

example : Fails brackettedExpression c!"($x + $x)" := by
  have hv : cVar (.dollar c!"x") c!"$x" := ⟨rfl, by simp [varNameOf], by decide⟩
  exact C40_violated _ _ '+' [] c!"$x" c!" " c!" " c!"$x" [] [] (.one (.plain (.var hv))) (.plain (.var hv)) (.inl rfl) .nil .blank Ws1.blank.1 .nil

/-! ## C41: products -/

/-- Partial: a product with white space after every factor but the first is read as the factors written, with their operators, in order. -/
theorem C41_products_partial (u : UnaryExpression) (l : List MultExpression) (w s v t r : Str) (hu : CUnary cGroup u s) (hv : Ws v) (hl : l ≠ [])
    (h : CFactors cGroup l t) (hw : Ws w) :
    brackettedExpression ('(' :: (w ++ ((s ++ (v ++ t)) ++ ')' :: r))) = .ok r (.mk [.mk [.mk (.mk (.mk u l) []) none]]) :=
  C39_expression true _ _ _ [] _ (.mk (.one (.one (.one (.one (.product (.mk hu hv hl h))))))) hw .nil

/-- Non-vacuity: chains of every length. -/
def factorChain : Nat → List MultExpression
  | 0 => []
  | n + 1 => .mult (.default (.var (.dollar c!"x"))) :: .div (.sub (.var (.dollar c!"x"))) :: factorChain n

def factorText : Nat → Str
  | 0 => []
  | n + 1 => c!"*$x / -$x " ++ factorText n

theorem factorChain_text : ∀ n, CFactors cGroup (factorChain n) (factorText n)
  | 0 => .nil
  | n + 1 => by
    have hv : cVar (.dollar c!"x") c!"$x" := ⟨rfl, by simp [varNameOf], by decide⟩
    exact .times (w := []) (s := c!"$x") (w' := c!" ") .nil (.plain (.var hv)) .blank
      (.over (w := c!" ") (s := c!"-$x") (w' := c!" ") Ws1.blank.1 (.minus (w := []) .nil (.var hv)) .blank (factorChain_text n))

example : brackettedExpression c!"(2 * ?b / -?c )" = .ok [] (.mk [.mk [.mk (.mk (.mk (.default (.numericLiteral (.int 2)))
    [.mult (.default (.var (.qmark ['b']))), .div (.sub (.var (.qmark ['c'])))]) []) none]]) := rfl

/-- For all inputs: after a product of several factors there is white space. -/
theorem C41_space (i r : Str) (u : UnaryExpression) (l : List MultExpression) (h : multiplicativeExpression i = .ok r (.mk u l)) (hl : l ≠ []) :
    StartsWs r := by
  obtain ⟨⟨m', l'⟩, h1, e⟩ := map_ok.mp h
  cases e
  obtain ⟨j, h2, h3⟩ := pair_ok_iff.mp h1
  obtain ⟨k, w, h4, h5⟩ := preceded_ok.mp h3
  rcases wsList0_ok h5 with ⟨rfl, _⟩ | ⟨h6, _⟩
  · contradiction
  · exact h6

/-- Violated: `(a*b)` and `(a/b)` without white space after the second factor are rejected for all canonical factors. -/
theorem C41_violated (u u' : UnaryExpression) (c : Char) (w s v v' t r : Str) (hu : CUnary cGroup u s) (hu' : CUnary cGroup u' t)
    (hc : c = '*' ∨ c = '/') (hw : Ws w) (hv : Ws1 v) (hv' : Ws v') :
    Fails brackettedExpression ('(' :: (w ++ (s ++ (v ++ c :: (v' ++ (t ++ ')' :: r)))))) := by
  have hG : ∀ g s, cGroup g s → ReadsAs groupGraphPattern s g := fun _ _ h => cGroup_reads h
  have hu := unary_reads hG hu
  have hu' := unary_reads hG hu'
  refine Fails.delimited2 char_eval (Fails.delimited2 (sp_eval hw (hu.1.not_ws _)) (expr_fails (Fails.map (Fails.pair ?_))))
  have hS : Stop unaryStops (c :: (v' ++ (t ++ ')' :: r))) := Stop.cons (by rcases hc with rfl | rfl <;> decide)
  obtain ⟨_, h1⟩ := hu.2 v _ hv.1 (Stop.follow hv hS) hS
  obtain ⟨_, h2⟩ := hu'.2 [] (')' :: r) .nil (Follow.ws_close .nil (by simp)) (close_stop (by decide) r)
  refine Fails.map (Fails.pair2 h1 (Fails.preceded2 (sp_eval hv.1 hS.not_ws) ?_))
  have hnw : ¬ StartsWs (t ++ ')' :: r) := hu'.1.not_ws _
  rcases hc with rfl | rfl
  · refine wsList0_fails (a := .mult u') (j := ')' :: r) ?_ (not_startsWs_cons rfl)
    exact alt_eval1 (map_eval (f := MultExpression.mult) (sign_eval hv' hnw h2))
  · refine wsList0_fails (a := .div u') (j := ')' :: r) ?_ (not_startsWs_cons rfl)
    exact alt_eval2 (Fails.map (sign_fails rfl (by decide))) (map_eval (f := MultExpression.div) (sign_eval hv' hnw h2))

example : Fails brackettedExpression c!"($x * $x)" := by
  have hv : cVar (.dollar c!"x") c!"$x" := ⟨rfl, by simp [varNameOf], by decide⟩
  exact C41_violated _ _ '*' [] c!"$x" c!" " c!" " c!"$x" [] (.plain (.var hv)) (.plain (.var hv)) (.inl rfl) .nil .blank Ws1.blank.1

end NomSparql
