import Verif.Lemmas.Groups
import Verif.Lemmas.Reports

/-!
# C81: errors tell where the mistake is

Two kinds of errors carry a position.  A failure ends the parse at once; its position is the place of the mistake.  A recoverable error
has gone through alternatives and lists, which keep the position of the last alternative only.
-/

namespace NomSparql

/-! ## Failures -/

/-- The position of a failure is a place where a bracket is not closed or an exponent has no digits. -/
theorem C81_query_failure_partial (i pos : Str) (k : Kind) (h : sparqlQueryStmt i = .err (.failure pos k)) : Stuck i pos k := by
  have := HaltsAt.out (p := sparqlQueryStmt) i; rwa [h] at this
theorem C81_update_failure_partial (i pos : Str) (k : Kind) (h : update i = .err (.failure pos k)) : Stuck i pos k := by
  have := HaltsAt.out (p := update) i; rwa [h] at this
theorem C81_group_failure_partial (i pos : Str) (k : Kind) (h : groupGraphPattern i = .err (.failure pos k)) : Stuck i pos k := by
  have := HaltsAt.out (p := groupGraphPattern) i; rwa [h] at this
theorem C81_expression_failure_partial (i pos : Str) (k : Kind) (h : expression i = .err (.failure pos k)) : Stuck i pos k := by
  have := HaltsAt.out (p := expression) i; rwa [h] at this

/-- Where something is stuck there is an opening bracket, or a letter e behind a digit or a dot. -/
theorem Stuck.marks {i pos : Str} {k : Kind} (h : Stuck i pos k) :
    '(' ∈ i ∨ '[' ∈ i ∨ ∃ a d e b, i = a ++ d :: e :: b ∧ (AsciiDigit d ∨ d = '.') ∧ (e = 'e' ∨ e = 'E') := by
  rcases h with ⟨⟨rfl, _⟩ | ⟨rfl, _⟩, _, rfl, _⟩ | ⟨hd, he, _, rfl, _⟩
  · exact .inl (by simp)
  · exact .inr (.inl (by simp))
  · exact .inr (.inr ⟨_, _, _, _, rfl, hd, he⟩)

/-- So a query with neither of them never fails for good. -/
theorem C81_query_no_failure_partial (i pos : Str) (k : Kind) (h1 : '(' ∉ i) (h2 : '[' ∉ i)
    (h3 : ∀ a d e b, i = a ++ d :: e :: b → AsciiDigit d ∨ d = '.' → ¬ (e = 'e' ∨ e = 'E')) :
    sparqlQueryStmt i ≠ .err (.failure pos k) := fun h => by
  rcases (C81_query_failure_partial i pos k h).marks with h | h | ⟨a, d, e, b, h, hd, he⟩
  · exact h1 h
  · exact h2 h
  · exact h3 a d e b h hd he
theorem C81_update_no_failure_partial (i pos : Str) (k : Kind) (h1 : '(' ∉ i) (h2 : '[' ∉ i)
    (h3 : ∀ a d e b, i = a ++ d :: e :: b → AsciiDigit d ∨ d = '.' → ¬ (e = 'e' ∨ e = 'E')) :
    update i ≠ .err (.failure pos k) := fun h => by
  rcases (C81_update_failure_partial i pos k h).marks with h | h | ⟨a, d, e, b, h, hd, he⟩
  · exact h1 h
  · exact h2 h
  · exact h3 a d e b h hd he

/-! Cases: an exponent without digits, an argument list read as `()`; both positions are right behind the mistake.  In the last case it is the
crate that is mistaken, since `[ <p> 1 ]` is SPARQL: it reads `[` as the beginning of `[]` first. -/
example : sparqlQueryStmt c!"ASK { ?s ?p 1.5e+ }" = .err (.failure c!" }" .Digit) := rfl
example : Stuck c!"ASK { ?s ?p 1.5e+ }" c!" }" .Digit := C81_query_failure_partial _ _ _ rfl
example : update c!"INSERT DATA { <a> <b> 1e }" = .err (.failure c!" }" .Digit) := rfl
example : sparqlQueryStmt c!"ASK { ?s ?p [ <p> 1 ] }" = .err (.failure c!"<p> 1 ] }" .Char) := rfl
example : Stuck c!"ASK { ?s ?p [ <p> 1 ] }" c!"<p> 1 ] }" .Char := C81_query_failure_partial _ _ _ rfl
example : ∃ q, sparqlQueryStmt c!"ASK { ?s ?p 15 }" = .ok [] q := ⟨_, rfl⟩

/-! ## Recoverable errors of queries -/

/-- A query is rejected at its form, with kind `Tag`, unless it is an ASK query; then the position lies behind `ASK`,
in no group but the outermost. -/
theorem C81_query_error_partial (i pos : Str) (k : Kind) (h : sparqlQueryStmt i = .err (.error pos k)) :
    ∃ d p w j, i = p ++ (w ++ j) ∧ rPrologue d p ∧ Ws w ∧ ¬ StartsWs j ∧
      ((pos = j ∧ k = .Tag ∧ ∀ a, CaseVariant c!"ask" a → ¬ a <+: j) ∨ ∃ a s, CaseVariant c!"ask" a ∧ j = a ++ (s ++ pos) ∧ Shallow s) := by
  unfold sparqlQueryStmt tuple3 at h
  rcases pair_error (map_error h) with h1 | ⟨j, d, h1, h2⟩
  · exfalso
    unfold terminated at h1
    rcases pair_error (map_error h1) with h2 | ⟨r, a, _, h2⟩
    · exact prologue_never_error h2
    · obtain ⟨_, _, e⟩ := Total.out (p := sp) r; rw [e] at h2; cases h2
  unfold terminated at h1
  obtain ⟨⟨d, w⟩, h3, _⟩ := map_ok.mp h1
  obtain ⟨r, h4, h5⟩ := pair_ok h3
  obtain ⟨p, rfl, hp⟩ := (inferInstance : Sound prologue rPrologue).out h4
  obtain ⟨rfl, hw, hn⟩ := sp_ok_iff.mp h5
  refine ⟨d, p, w, j, rfl, hp, hw, hn, ?_⟩
  rcases pair_error h2 with h6 | ⟨_, _, _, h6⟩
  · have h7 := map_error (alt_error_last (ps := [_, _, _]) h6)
    unfold askQuery tuple4 at h7
    rcases pair_error (map_error h7) with h8 | ⟨r, a, h8, h9⟩
    · unfold terminated at h8
      rcases pair_error (map_error h8) with h9 | ⟨r, a, h9, h10⟩
      · rcases tagNoCase_err h9 with h10 | h10 <;> cases h10
        refine .inl ⟨rfl, rfl, fun a ha ⟨b, hb⟩ => ?_⟩
        rw [← hb, tagNoCase_append ha] at h9
        cases h9
      · obtain ⟨rfl, ha⟩ := tagNoCase_ok_iff.mp h9
        obtain ⟨s, rfl, hs⟩ := sp1_error h10
        exact .inr ⟨a, s, ha, rfl, hs⟩
    · unfold terminated at h8
      obtain ⟨⟨a, w⟩, h10, _⟩ := map_ok.mp h8
      obtain ⟨r1, h11, h12⟩ := pair_ok h10
      obtain ⟨rfl, ha⟩ := tagNoCase_ok_iff.mp h11
      obtain ⟨t, rfl, ht⟩ := Bal.out h12
      obtain ⟨s, h13, hs⟩ := ((askTail_error h9).prepend ht).shallow
      exact .inr ⟨a, s, ha, by rw [h13], hs⟩
  · exact absurd h6 opt_never_error

/-- Of a text that begins with the first letter of SELECT, CONSTRUCT or DESCRIBE, every recoverable error has the whole text as its position:
it tells nothing about the place of the mistake. -/
theorem C81_position_violated (c : Char) (i pos : Str) (k : Kind) (hc : c ∈ ['s', 'S', 'c', 'C', 'd', 'D'])
    (h : sparqlQueryStmt (c :: i) = .err (.error pos k)) : pos = c :: i ∧ k = .Tag := by
  obtain ⟨⟨ds⟩, p, w, j, hi, hp, hw, -, hj⟩ := C81_query_error_partial _ _ _ h
  have hne : ∀ {t s r : Str} {x : Char}, x ∈ ['a', 'b', 'p'] → CaseVariant (x :: t) s → c :: i ≠ s ++ r := by
    rintro t s r x hx (_ | ⟨hl, _⟩) e
    cases e
    simp only [List.mem_cons, List.not_mem_nil, or_false] at hx hc
    rcases hl with rfl | ⟨_, _, hl⟩
    · rcases hx with rfl | rfl | rfl <;> rcases hc with h | h | h | h | h | h <;> cases h
    · rcases hx with rfl | rfl | rfl <;> rcases hc with rfl | rfl | rfl | rfl | rfl | rfl <;> exact absurd hl (by decide)
  cases ds with
  | cons x ds =>
    exfalso
    obtain ⟨a, b, rfl, hx, _⟩ := hp
    cases x with
    | base x =>
      obtain ⟨a, b', rfl, ha, _⟩ := hx
      exact hne (by simp) ha (by rw [hi]; simp; rfl)
    | «prefix» x =>
      obtain ⟨a, b', rfl, ha, _⟩ := hx
      exact hne (by simp) ha (by rw [hi]; simp; rfl)
  | nil =>
    obtain rfl : p = [] := hp
    have hs : ¬ StartsWs (c :: i) := not_startsWs_cons (by
      simp only [List.mem_cons, List.not_mem_nil, or_false] at hc
      rcases hc with rfl | rfl | rfl | rfl | rfl | rfl <;> decide)
    cases hw with
    | cons ha hb => exact absurd ⟨_, _, ha, by rw [hi]; simp; rfl⟩ hs
    | nil =>
      simp only [List.nil_append] at hi
      subst hi
      rcases hj with ⟨rfl, rfl, _⟩ | ⟨a, s, ha, he, _⟩
      · exact ⟨rfl, rfl⟩
      · exact absurd he (hne (by simp) ha)

/-! Cases: a missing object, a missing brace, a missing variable. -/
example : sparqlQueryStmt c!"SELECT ?x WHERE { ?x <p> }" = .err (.error c!"SELECT ?x WHERE { ?x <p> }" .Tag) := rfl
example : sparqlQueryStmt c!"DESCRIBE x" = .err (.error c!"DESCRIBE x" .Tag) := rfl
example : sparqlQueryStmt c!"CONSTRUCT { ?x <p> 1 } WHERE ?x" = .err (.error c!"CONSTRUCT { ?x <p> 1 } WHERE ?x" .Tag) := rfl
example : sparqlQueryStmt c!"ASK { ?x <p> }" = .err (.error c!"?x <p> }" .Char) := rfl

/-! ## Recoverable errors of groups -/

/-- A group is rejected at its beginning, or at a clause of its own: the text between its brace and the position has balanced brackets.
So a mistake in a nested group is reported at the clause that holds the nested group. -/
theorem C81_group_error_partial (i pos : Str) (k : Kind) (h : groupGraphPattern i = .err (.error pos k)) :
    (pos = i ∧ k = .Char ∧ i.head? ≠ some '{') ∨
    ∃ s, i = '{' :: (s ++ pos) ∧ Nested s ∧ ¬ StartsWs pos ∧ (k = .Char ∧ pos.head? ≠ some '}' ∨ k = .SeparatedList) := by
  have := recF_bal i.length
  exact group_error (R := recF i.length) h

/-! Cases: a mistake at the end of a group, one in a nested group, reported at `OPTIONAL`; one at the beginning; a missing blank. -/
example : groupGraphPattern c!"{ ?x <p> 1 . ?y }" = .err (.error c!". ?y }" .Char) := rfl
example : groupGraphPattern c!"{ { ?x <p> 1 } OPTIONAL { ?x <p> 1 . ?y } }" = .err (.error c!"OPTIONAL { ?x <p> 1 . ?y } }" .Char) := rfl
example : groupGraphPattern c!"?x <p> 1 }" = .err (.error c!"?x <p> 1 }" .Char) := rfl
example : groupGraphPattern c!"{ {} {}}" = .err (.error c!"}" .SeparatedList) := rfl

/-- A group whose first clause is an OPTIONAL or MINUS with a rejected group is rejected at that clause, whatever and wherever the mistake in it. -/
theorem C81_nested_violated (u o w0 w g pos : Str) (k : Kind) (hu : u ∈ [c!"optional", c!"minus"]) (ho : CaseVariant u o) (hw0 : Ws w0) (hw : Ws1 w)
    (h : groupGraphPattern ('{' :: g) = .err (.error pos k)) :
    groupGraphPattern ('{' :: (w0 ++ (o ++ (w ++ '{' :: g)))) = .err (.error (o ++ (w ++ '{' :: g)) .Char) := by
  have hg : Fails groupGraphPattern ('{' :: g) := ⟨_, _, h⟩
  have hi : ItemHead (o ++ (w ++ '{' :: g)) :=
    .inr ⟨u, o, _, rfl, ho, by simp only [List.mem_cons, List.not_mem_nil, or_false] at hu; rcases hu with rfl | rfl <;> decide,
      fun x => by rw [List.append_assoc]; exact Follow.ws_close hw.1 (by decide)⟩
  have hstart := EntryStart.item hi []
  rw [List.append_nil] at hstart
  obtain ⟨hsub, hent, hc⟩ : Fails subSelect (o ++ (w ++ '{' :: g)) ∧ Fails (groupGraphPatternAndTriplesS R₀) (o ++ (w ++ '{' :: g)) ∧
      Fails (char '}') (o ++ (w ++ '{' :: g)) := by
    simp only [List.mem_cons, List.not_mem_nil, or_false] at hu
    have hn : Fails R₀.ggp ('{' :: g) := hg
    rcases hu with rfl | rfl
    · have hn' : Fails (optionalGroupGraphPatternS R₀) (o ++ (w ++ '{' :: g)) :=
        Fails.preceded2 (terminated_eval (kw_eval ho) (sp1_eval hw (not_startsWs_cons rfl))) hn
      refine ⟨Fails.map (Fails.tuple4 (Fails.map (Fails.tuple3 (kw_fails ho (by decide))))), Fails.map (Fails.separatedPair ?_), kw_first ho rfl⟩
      exact Fails.alt_cons (Fails.map (Fails.sep1 (kw_first ho rfl))) (Fails.alt_cons (Fails.map hn') (Fails.alt_cons (kw_first ho rfl)
        (Fails.alt_cons (kw_first ho rfl) (Fails.alt_cons (kw_first ho rfl) (Fails.alt_cons (kw_first ho rfl)
        (Fails.alt_cons (kw_first ho rfl) (Fails.alt_cons (kw_first ho rfl) Fails.alt_nil)))))))
    · have hn' : Fails (minusGraphPatternS R₀) (o ++ (w ++ '{' :: g)) :=
        Fails.preceded2 (terminated_eval (kw_eval ho) (sp1_eval hw (not_startsWs_cons rfl))) hn
      refine ⟨Fails.map (Fails.tuple4 (Fails.map (Fails.tuple3 (kw_fails ho (by decide))))), Fails.map (Fails.separatedPair ?_), kw_first ho rfl⟩
      exact Fails.alt_cons (Fails.map (Fails.sep1 (kw_first ho rfl))) (Fails.alt_cons (kw_first ho rfl) (Fails.alt_cons (Fails.map hn')
        (Fails.alt_cons (kw_first ho rfl) (Fails.alt_cons (kw_first ho rfl) (Fails.alt_cons (kw_first ho rfl)
        (Fails.alt_cons (kw_first ho rfl) (Fails.alt_cons (kw_first ho rfl) Fails.alt_nil)))))))
  obtain ⟨pos', k', hc⟩ := hc
  obtain ⟨rfl, rfl, _⟩ := char_error hc
  have h1 : spEnc (alt [map (subSelectS R₀) GroupGraphPattern.subSelect, map (groupGraphPatternSubS R₀) GroupGraphPattern.groupGraphPatternSub]) (w0 ++ (o ++ (w ++ '{' :: g))) =
      .ok (o ++ (w ++ '{' :: g)) (GroupGraphPattern.groupGraphPatternSub (.mk none [])) :=
    delimited_eval (sp_eval hw0 hstart.start.1) (alt_eval2 (Fails.map hsub) (map_eval (f := GroupGraphPattern.groupGraphPatternSub)
      (map_eval (a := (none, [])) (f := fun x => GroupGraphPatternSub.mk x.1 x.2)
        (pair_eval (Fails.opt (Fails.terminated hstart.block)) (Fails.sep0 hent))))) (sp_none hstart.start.1)
  rw [groupGraphPattern_eq]
  exact delimited_third char_eval h1 hc

/-- `n` clauses OPTIONAL around a text. -/
def inOptionals : Nat → Str → Str
  | 0, g => g
  | n + 1, g => c!"{ OPTIONAL " ++ inOptionals n g

/-- However deep a mistake is, it is reported behind the first brace: the distance to the mistake has no bound. -/
theorem C81_depth_violated (n : Nat) (g pos : Str) (k : Kind) (h : groupGraphPattern ('{' :: g) = .err (.error pos k)) :
    groupGraphPattern (inOptionals (n + 1) ('{' :: g)) = .err (.error (c!"OPTIONAL " ++ inOptionals n ('{' :: g)) .Char) := by
  induction n with
  | zero => exact C81_nested_violated c!"optional" c!"OPTIONAL" [' '] [' '] g pos k (by simp) (kw_rfl rfl) (.cons (.char (by decide)) .nil) ⟨.cons (.char (by decide)) .nil, by decide⟩ h
  | succ n ih => exact C81_nested_violated c!"optional" c!"OPTIONAL" [' '] [' '] _ _ _ (by simp) (kw_rfl rfl) (.cons (.char (by decide)) .nil) ⟨.cons (.char (by decide)) .nil, by decide⟩ ih

/-! Case: the mistake is the full stop in the innermost group. -/
example : groupGraphPattern c!"{ ?x . }" = .err (.error c!"?x . }" .Char) := rfl
example (n : Nat) : groupGraphPattern (inOptionals (n + 1) c!"{ ?x . }") = .err (.error (c!"OPTIONAL " ++ inOptionals n c!"{ ?x . }") .Char) :=
  C81_depth_violated n _ _ _ rfl

end NomSparql
