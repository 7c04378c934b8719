import Verif.Lemmas.Height
import Verif.Props.C64

/-!
# C83: the returned tree is as deep as the brackets of the text are nested

The height (Spec/Height) is the number of values on the longest way from the root of a tree to a leaf.  Dropping, cloning, comparing or printing the tree
takes stack in proportion to it.  For expressions, groups and queries it is at least the nesting of the brackets in the text, and at most fourteen times as
much plus a constant.  For update requests it is not: every statement hangs on the one before it, so a long request without a single bracket is a deep tree.
-/

namespace NomSparql

/-- Expressions. -/
theorem C83_expression {i r e} (h : expression i = .ok r e) : ∃ s d, i = s ++ r ∧ NestsAt d s ∧ d ≤ height e ∧ height e ≤ 14 * d + 14 :=
  (inferInstance : Climbs expression (Ht 14 0)).out (post := fun e d => d ≤ height e ∧ height e ≤ 14 * d + 14) (fun _ _ h1 h2 => ⟨h2, h1⟩) h

/-- Groups. -/
theorem C83_group {i r g} (h : groupGraphPattern i = .ok r g) : ∃ s d, i = s ++ r ∧ NestsAt d s ∧ d ≤ height g ∧ height g ≤ 14 * d + 1 :=
  (inferInstance : Climbs groupGraphPattern (Ht 1 0)).out (post := fun e d => d ≤ height e ∧ height e ≤ 14 * d + 1) (fun _ _ h1 h2 => ⟨h2, h1⟩) h

/-- Queries. -/
theorem C83_query {i r q} (h : sparqlQueryStmt i = .ok r q) : ∃ s d, i = s ++ r ∧ NestsAt d s ∧ d ≤ height q ∧ height q ≤ 14 * d + 12 :=
  (inferInstance : Climbs sparqlQueryStmt (Ht 12 0)).out (post := fun e d => d ≤ height e ∧ height e ≤ 14 * d + 12) (fun _ _ h1 h2 => ⟨h2, h1⟩) h

/-- Single statements of update requests. -/
theorem C83_statement {i r u} (h : updateStmt i = .ok r u) : ∃ s d, i = s ++ r ∧ NestsAt d s ∧ d ≤ height u ∧ height u ≤ 14 * d + 5 :=
  (inferInstance : Climbs updateStmt (Ht 5 0)).out (post := fun e d => d ≤ height e ∧ height e ≤ 14 * d + 5) (fun _ _ h1 h2 => ⟨h2, h1⟩) h

/-- Update requests: the number of statements has to be added.  (Missing: a bound by the nesting alone; see `C83_update_violated`.) -/
theorem C83_update_partial {i r u} (h : update i = .ok r u) : ∃ s d, i = s ++ r ∧ NestsAt d s ∧ d ≤ height u ∧ height u ≤ 14 * d + 5 + links u :=
  (inferInstance : Climbs update HtUpdate).out (post := fun e d => d ≤ height e ∧ height e ≤ 14 * d + 5 + links e) (fun _ _ h1 h2 => ⟨h2, h1⟩) h

/-! ## Without `<`, a reader that counts brackets finds the nesting -/

theorem deepest_string {q : Char} (hq : q = '"' ∨ q = '\'') {s t : Str} (h : StrBody q s) (k : Nat) :
    deepest (.string q) k (s ++ q :: t) = deepest .code k t := by
  induction h with
  | nil => simp [deepest]
  | ord h1 h2 _ ih => rw [List.cons_append, deepest, if_neg h1, if_neg h2]; exact ih
  | esc _ _ ih =>
    have : '\\' ≠ q := by rcases hq with rfl | rfl <;> decide
    rw [List.cons_append, List.cons_append, deepest, if_neg this, if_pos rfl, deepest]
    exact ih

theorem deepest_comment {e : Char} (he : e ∈ ['\n', '\r']) {t : Str} (k : Nat) : ∀ {s : Str}, (∀ c ∈ s, c ≠ '\n' ∧ c ≠ '\r') →
    deepest .comment k (s ++ e :: t) = deepest .code k t
  | [], _ => by
    rw [List.nil_append, deepest, if_pos (by simpa using he)]
  | c :: s, h => by
    rw [List.cons_append, deepest, if_neg (by have := h c (by simp); grind)]
    exact deepest_comment he k fun d hd => h d (by simp [hd])

theorem deepest_ge : ∀ (s : Str) (m : Mode) (k : Nat), k ≤ deepest m k s
  | [], m, k => by cases m <;> simp [deepest]
  | c :: s, m, k => by
    have ih := fun m => deepest_ge s m k
    cases m <;> simp only [deepest]
    · have := deepest_ge s .code (k + 1)
      (repeat' split) <;> first | exact ih _ | omega
    all_goals exact ih _

theorem NestsAt.deepest {d : Nat} {s : Str} (h : NestsAt d s) : '<' ∉ s → ∀ (t : Str) (k : Nat),
    NomSparql.deepest .code k (s ++ t) = max (k + d) (NomSparql.deepest .code k t) := by
  induction h with
  | nil => intro _ t k; have := deepest_ge t .code k; simp; omega
  | @char d c s h1 _ ih =>
    intro hs t k
    simp only [special, List.mem_cons, List.not_mem_nil, or_false, not_or] at h1
    simp only [List.cons_append, NomSparql.deepest, List.mem_cons, List.not_mem_nil, or_false, h1, if_false]
    exact ih (fun h => hs (by simp [h])) t k
  | @group d e o c s t' h1 _ _ ih1 ih2 =>
    intro hs t k
    have e1 : o ∈ ['(', '[', '{'] ∧ c ∉ ['(', '[', '{'] ∧ c ∈ [')', ']', '}'] := by
      simp only [brackets, List.mem_cons, Prod.mk.injEq, List.not_mem_nil, or_false] at h1
      rcases h1 with ⟨rfl, rfl⟩ | ⟨rfl, rfl⟩ | ⟨rfl, rfl⟩ <;> decide
    rw [List.cons_append, List.append_assoc, NomSparql.deepest, if_pos e1.1, ih1 (fun h => hs (by simp [h])), List.cons_append, NomSparql.deepest,
      if_neg e1.2.1, if_pos e1.2.2, Nat.add_sub_cancel, ih2 (fun h => hs (by simp [h]))]
    omega
  | @string d q s t' hq hb _ ih =>
    intro hs t k
    rw [List.cons_append, List.append_assoc, NomSparql.deepest, List.cons_append]
    have e1 : q ∉ ['(', '[', '{'] ∧ q ∉ [')', ']', '}'] := by rcases hq with rfl | rfl <;> decide
    rw [if_neg e1.1, if_neg e1.2, if_pos hq, deepest_string hq hb]
    exact ih (fun h => hs (by simp [h])) t k
  | iri _ _ _ => intro hs; exact absurd (by simp) hs
  | @comment d s e t' hb he _ ih =>
    intro hs t k
    rw [List.cons_append, List.append_assoc, NomSparql.deepest, List.cons_append, if_neg (by decide), if_neg (by decide), if_neg (by decide),
      if_pos rfl, deepest_comment he k hb]
    exact ih (fun h => hs (by simp [h])) t k
  | @escape d c s hc _ ih =>
    intro hs t k
    rw [List.cons_append, List.cons_append, NomSparql.deepest, if_neg (by decide), if_neg (by decide), if_neg (by decide), if_neg (by decide),
      if_pos rfl, NomSparql.deepest]
    exact ih (fun h => hs (by simp [h])) t k

theorem NestsAt.eq_deepest {d : Nat} {s : Str} (h : NestsAt d s) (hs : '<' ∉ s) : d = NomSparql.deepest .code 0 s := by
  have := h.deepest hs [] 0
  simpa [NomSparql.deepest] using this.symm

theorem C83_expression_plain {s r e} (h : expression (s ++ r) = .ok r e) (hs : '<' ∉ s) :
    deepest .code 0 s ≤ height e ∧ height e ≤ 14 * deepest .code 0 s + 14 := by
  obtain ⟨s', d, h1, h2, h3⟩ := C83_expression h
  rw [← List.append_cancel_right h1] at h2
  rwa [← h2.eq_deepest hs]

theorem C83_query_plain {s r q} (h : sparqlQueryStmt (s ++ r) = .ok r q) (hs : '<' ∉ s) :
    deepest .code 0 s ≤ height q ∧ height q ≤ 14 * deepest .code 0 s + 12 := by
  obtain ⟨s', d, h1, h2, h3⟩ := C83_query h
  rw [← List.append_cancel_right h1] at h2
  rwa [← h2.eq_deepest hs]

theorem C83_update_plain_partial {s r u} (h : update (s ++ r) = .ok r u) (hs : '<' ∉ s) :
    deepest .code 0 s ≤ height u ∧ height u ≤ 14 * deepest .code 0 s + 5 + links u := by
  obtain ⟨s', d, h1, h2, h3⟩ := C83_update_partial h
  rw [← List.append_cancel_right h1] at h2
  rwa [← h2.eq_deepest hs]

/-! ## Violated for update requests -/

theorem update_chain : ∀ (l : List (UpdateStatement × Str)), (∀ p ∈ l, cStatement cGroup p.1 p.2) →
    ∃ u, update (l.flatMap (fun p => p.2 ++ c!";")) = .ok [] u ∧ links u = l.length + 1 ∧ l.length < height u
  | [], _ => ⟨.mk ⟨[]⟩ none none, rfl, rfl, by simp only [height, htUpdate, List.length_nil]; omega⟩
  | (st, y) :: l, h => by
    have hy : cStatement cGroup st y := h _ (List.mem_cons_self ..)
    obtain ⟨u, h0, hu, hv⟩ := update_chain l fun p hp => h p (List.mem_cons_of_mem _ hp)
    have e : ((st, y) :: l).flatMap (fun p => p.2 ++ c!";") = y ++ ';' :: (l.flatMap (fun p => p.2 ++ c!";")) := by simp
    rw [e]
    generalize hz : l.flatMap (fun p => p.2 ++ c!";") = z at h0 ⊢
    have hst := statement_accepts cGroup (fun _ _ h => cGroup_reads h) st y (';' :: z) hy ⟨[], _, rfl, .nil, .inr ⟨_, rfl⟩⟩
    have n := statement_not_ws hy (';' :: z)
    have hn : ¬ StartsWs z := by
      subst hz
      cases l with
      | nil => exact not_startsWs_nil
      | cons p l =>
        have := statement_not_ws (h p (by simp)) (c!";" ++ l.flatMap (fun p => p.2 ++ c!";"))
        simpa using this
    obtain ⟨v, k, t, hv', hk, rfl⟩ := statement_kw hy
    rw [List.append_assoc] at hst n ⊢
    refine ⟨.mk ⟨[]⟩ (some st) (some u), ?_, by simp [links, hu]; omega, by simp only [height, htUpdate, List.length_cons] at *; omega⟩
    rw [update_eq]
    exact map_eval (pair_eval (C24_prologue ⟨[]⟩ [] _ rfl (noDecl_update (w := []) .nil hk hv')) (opt_eval (pair_eval
      (preceded_eval (sp_zero n) hst) (opt_eval (preceded_eval (delimited_eval (sp_zero (not_startsWs_cons rfl)) char_eval (sp_zero hn)) h0)))))

/-- `DROP ALL;`, `n` times: not one bracket, and a tree with more than `n` values below one another. -/
theorem C83_update_violated (n : Nat) : ∃ i u, update i = .ok [] u ∧ (∀ c ∈ i, c ∉ special ∧ c ≠ '<') ∧ n < height u := by
  have h1 : ∀ p ∈ List.replicate n (UpdateStatement.drop ⟨false, .all⟩, c!"drop all"), cStatement cGroup p.1 p.2 := by
    intro p hp
    rw [(List.mem_replicate.mp hp).2]
    exact ⟨c!"drop", _, rfl, kw_rfl rfl, c!" ", c!"all", rfl, ws1_rfl rfl, [], c!"all", rfl, rfl, kw_rfl rfl⟩
  obtain ⟨u, h, _, h2⟩ := update_chain _ h1
  refine ⟨_, u, h, ?_, by simpa using h2⟩
  intro c hc
  obtain ⟨p, hp, hc⟩ := List.mem_flatMap.mp hc
  rw [(List.mem_replicate.mp hp).2] at hc
  have : ∀ c ∈ c!"drop all" ++ c!";", c ∉ special ∧ c ≠ '<' := by decide
  exact this c hc

/-- So no bound by the nesting alone holds for update requests. -/
theorem C83_update_no_bound (f : Nat → Nat) : ¬ ∀ i r u, update i = .ok r u → ∃ s d, i = s ++ r ∧ NestsAt d s ∧ height u ≤ f d := by
  intro h
  obtain ⟨i, u, h1, h2, h3⟩ := C83_update_violated (f 0)
  obtain ⟨s, d, e, h4, h5⟩ := h _ _ _ h1
  rw [List.append_nil] at e
  subst e
  have hi : '<' ∉ i := fun h => (h2 _ h).2 rfl
  rw [h4.eq_deepest hi, ← (NestsAt.chars fun c hc => (h2 c hc).1).eq_deepest hi] at h5
  omega

/-! ## Fourteen is the least factor -/

/-- `?x=?x +?x*GROUP_CONCAT(...;SEPARATOR='-') `, one in another. -/
def tower : Nat → Expression
  | 0 => .mk [.mk [.mk (.mk (.mk (.default (.var (.qmark c!"x"))) []) []) none]]
  | n + 1 => .mk [.mk [.mk (.mk (.mk (.default (.var (.qmark c!"x"))) []) []) (some (.eq (.mk (.mk (.default (.var (.qmark c!"x"))) [])
      [.add (.mk (.default (.var (.qmark c!"x"))) [.mult (.default (.builtInCall (.aggregate (.groupConcat (.mk (.mk false (tower n)) (some c!"-"))))))])])))]]

def towerText : Nat → Str
  | 0 => c!"?x"
  | n + 1 => c!"?x=?x +?x*group_concat(" ++ (towerText n ++ c!";separator='-') ")

theorem tower_height : ∀ n, height (tower n) = 14 * n + 8
  | 0 => rfl
  | n + 1 => by
    have := tower_height n
    simp only [height, tower, htExpression, htConditionalAndExpression, htListConditionalAndExpression_eq, htListRelationalExpression_eq, htList,
      htRelationalExpression, htOptionOpExpression_eq, htOption, htOpExpression, htAdditiveExpression, htListAddExpression_eq, htAddExpression,
      htMultiplicativeExpression, htListMultExpression_eq, htMultExpression, htUnaryExpression, htPrimaryExpression, htBuiltInCall, htAggregate,
      htGroupConcat, htDistinctExpression, htVar] at *
    omega

theorem cPrim_x : CPrim cGroup (.var (.qmark c!"x")) c!"?x" := .var ⟨rfl, by decide, by decide⟩

theorem tower_canonical : ∀ n, ∃ b, cExpr b (tower n) (towerText n)
  | 0 => ⟨true, CExpr.mk (COr.one (CAnd.one (CRel.one (CAdd.one (CMult.one (CUnary.plain cPrim_x))))))⟩
  | n + 1 => by
    obtain ⟨b, h⟩ := tower_canonical n
    have hs : cSeparator c!"-" c!";separator='-'" := by
      refine ⟨[], _, rfl, .nil, c!";", _, rfl, rfl, [], _, rfl, .nil, c!"separator", _, rfl, kw_rfl rfl, [], _, rfl, .nil, c!"=", _, rfl, rfl, [], _, rfl, .nil, ?_⟩
      exact ⟨'\'', .inl rfl, rfl, .ord (by decide) (by decide) .nil, by decide⟩
    have hc : CCall cGroup _ _ := CCall.concatSep (kw_rfl (t := c!"group_concat") (s := c!"group_concat") rfl) (w := []) .nil (d := false) (y := []) rfl h hs
    have hp := CExpr.mk (COr.one (CAnd.one (CRel.op (CAdd.one (CMult.one (CUnary.plain cPrim_x))) (w := []) .nil (by simp)
      (COp.eq (w := []) .nil (CAdd.sum (CMult.one (CUnary.plain cPrim_x)) (w := c!" ") (ws1_rfl rfl) (by simp)
        (CSummands.plus (w := []) .nil (CProduct.mk (CUnary.plain cPrim_x) (w := []) .nil (by simp)
          (CFactors.times (w := []) .nil (CUnary.plain (CPrim.call hc)) (w' := c!" ") (ws1_rfl rfl) CFactors.nil)) CSummands.nil))))))
    exact ⟨false, by simpa [towerText, tower, cExpr] using hp⟩

theorem tower_nests : ∀ n, NestsAt n (towerText n) ∧ '<' ∉ towerText n
  | 0 => ⟨.chars (by decide), by decide⟩
  | n + 1 => by
    obtain ⟨h1, h2⟩ := tower_nests n
    refine ⟨?_, ?_⟩
    · have a : NestsAt 0 c!"?x=?x +?x*group_concat" := .chars (by decide)
      have b : NestsAt 0 c!";separator='-'" := (NestsAt.chars (s := c!";separator=") (by decide)).append (.string (s := c!"-") (.inr rfl) (.ord (by decide) (by decide) .nil) .nil)
      have c : NestsAt 0 c!" " := .chars (by decide)
      have := a.append (.group (o := '(') (c := ')') (by decide) (h1.append b) c)
      simpa [towerText] using this
    · simp [towerText, h2]

/-- A bound of the form `k d + c` for all expressions needs `14 ≤ k`. -/
theorem C83_expression_least {k c : Nat} (h : ∀ i r e, expression i = .ok r e → ∃ s d, i = s ++ r ∧ NestsAt d s ∧ height e ≤ k * d + c) : 14 ≤ k := by
  apply Classical.byContradiction
  intro hk
  have hk : k ≤ 13 := by omega
  obtain ⟨b, hc⟩ := tower_canonical (c + 1)
  obtain ⟨_, hc⟩ := cExpr_reads hc
  obtain ⟨_, w', hw, _, e⟩ := hc [] c!")" .nil (Follow.ws_close (w := []) .nil (by simp)) ⟨')', [], rfl, by simp [orStops]⟩
  obtain ⟨s, d, h1, h2, h3⟩ := h _ _ _ e
  obtain ⟨h4, h5⟩ := tower_nests (c + 1)
  have e1 : towerText (c + 1) = s ++ w' := by
    have : towerText (c + 1) ++ c!")" = (s ++ w') ++ c!")" := by simpa using h1
    exact List.append_cancel_right this
  have h6 := h2.append hw.nests0
  rw [← e1] at h6
  have : max d 0 = c + 1 := by rw [h6.eq_deepest h5, ← h4.eq_deepest h5]
  have hd : d = c + 1 := by omega
  rw [tower_height, hd] at h3
  have := Nat.mul_le_mul_right (c + 1) hk
  omega

/-- The height of an answer and the rest of the text. -/
def heightOf [Height α] (p : P α) (i : Str) : Option (Nat × Str) :=
  match p i with
  | .ok r a => some (height a, r)
  | _ => none

theorem heightOf_eq [Height α] {p : P α} {i r : Str} {k : Nat} (h : heightOf p i = some (k, r)) : ∃ a, p i = .ok r a ∧ height a = k := by
  unfold heightOf at h
  split at h
  · rename_i r' a e
    simp at h
    obtain ⟨rfl, rfl⟩ := h
    exact ⟨a, e, rfl⟩
  · cases h

/-- ... and `14 ≤ c`. -/
theorem C83_expression_least_constant {k c : Nat} (h : ∀ i r e, expression i = .ok r e → ∃ s d, i = s ++ r ∧ NestsAt d s ∧ height e ≤ k * d + c) : 14 ≤ c := by
  obtain ⟨e, h1, h2⟩ := heightOf_eq (p := expression) (i := c!"?x=?x +?x*'-'^^:" ++ c!" )") (r := c!" )") (k := 14) (by decide +kernel)
  obtain ⟨s, d, h3, h4, h5⟩ := h _ _ _ h1
  rw [← List.append_cancel_right h3] at h4
  have hd : d = 0 := h4.eq_deepest (by decide)
  subst hd
  omega

/-! ## Cases -/

example : heightOf expression c!"((?x)))" = some (22, c!")") ∧ deepest .code 0 c!"((?x))" = 2 := by decide +kernel
example : heightOf expression c!"?x=?x +?x*'-'^^: )" = some (14, c!" )") := by decide +kernel
example : heightOf sparqlQueryStmt c!"ASK {{{?s ?p ?o} } }" = some (19, []) ∧ deepest .code 0 c!"ASK {{{?s ?p ?o} } }" = 3 := by decide +kernel
/-- Brackets in strings and comments do not count. -/
example : deepest .code 0 c!"ASK { ?s ?p '(((' } # ((\n" = 1 := by decide
example : heightOf update c!"drop all;drop all;drop all;" = some (6, []) ∧ deepest .code 0 c!"drop all;drop all;drop all;" = 0 := by decide +kernel

end NomSparql
