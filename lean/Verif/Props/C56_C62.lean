import Verif.Lemmas.Hex
import Verif.Props.C30_C32
import Verif.Props.C46_C50

/-!
# C56 to C62: hexadecimal pairs, GROUP BY, property lists in WHERE, white space around keywords
-/

namespace NomSparql

set_option maxRecDepth 8000

/-! ## C56: hexadecimal pairs -/

/-- `from_hex` accepts exactly the texts of hexadecimal digits, possibly after one plus sign, with a value that fits a byte, and returns
that value. -/
theorem C56_value (s : Str) (n : Nat) : fromHex s = some n ↔ n < 256 ∧ ∃ t, (s = t ∨ s = '+' :: t) ∧ HexVal t n := fromHex_iff s n

theorem hexDigit_val {c : Char} (h : isHexDigit c = true) : ∃ d, d < 16 ∧ HexDigitVal c d := by
  have : ∃ d, d < 16 ∧ hexDigitVal c = some d := by
    unfold hexDigitVal
    rw [isHexDigit_iff] at h
    simp only [AsciiDigit, isDecDigit_iff] at *
    split
    · exact ⟨_, by omega, rfl⟩
    · split
      · exact ⟨_, by omega, rfl⟩
      · split
        · exact ⟨_, by omega, rfl⟩
        · omega
  obtain ⟨d, h1, h2⟩ := this
  exact ⟨d, h1, hexDigitVal_iff.mp h2⟩

/-- On the two digits that a name has after a percent sign the conversion never fails: it returns the byte they encode. -/
theorem C56_pair (i r s : Str) (h : hexPrimary i = .ok r s) : ∃ a b m n, s = [a, b] ∧ HexDigitVal a m ∧ HexDigitVal b n ∧
    fromHex s = some (16 * m + n) := by
  obtain ⟨rfl, h1, h2⟩ := takeWhileN_ok.mp h
  match s, h1 with
  | [a, b], _ =>
    obtain ⟨m, hm, hm'⟩ := hexDigit_val (h2 a (by simp))
    obtain ⟨n, hn, hn'⟩ := hexDigit_val (h2 b (by simp))
    exact ⟨a, b, m, n, rfl, hm', hn', (fromHex_iff _ _).mpr ⟨by omega, [a, b], .inl rfl, .snoc (s := [a]) (.one hm') hn'⟩⟩

theorem hexDigitVal_lower {a b : Char} {m n : Nat} (ha : HexDigitVal a m) (hb : HexDigitVal b n) : a.toLower = b.toLower ↔ m = n := by
  have key : ∀ x ∈ [c!"0123456789abcdef", c!"0123456789ABCDEF"], ∀ y ∈ [c!"0123456789abcdef", c!"0123456789ABCDEF"], ∀ m < 16, ∀ n < 16,
      ∀ a ∈ x, ∀ b ∈ y, x[m]? = some a → y[n]? = some b → (a.toLower = b.toLower ↔ m = n) := by
    intro x hx y hy m hm n hn a ha b hb h1 h2
    have h3 : ∀ x ∈ [c!"0123456789abcdef", c!"0123456789ABCDEF"], ∀ m < 16, ∀ a ∈ x, x[m]? = some a → c!"0123456789abcdef"[m]? = some a.toLower := by decide
    have h4 : ∀ m < 16, ∀ n < 16, c!"0123456789abcdef"[m]? = c!"0123456789abcdef"[n]? → m = n := by decide
    have h1 := h3 x hx m hm a ha h1
    have h2 := h3 y hy n hn b hb h2
    constructor
    · intro e; rw [e, ← h2] at h1; exact h4 m hm n hn h1
    · rintro rfl; rw [h1] at h2; exact Option.some.inj h2
  have len : ∀ {c d}, HexDigitVal c d → ∃ x ∈ [c!"0123456789abcdef", c!"0123456789ABCDEF"], d < 16 ∧ c ∈ x ∧ x[d]? = some c := by
    rintro c d (h | h) <;> obtain ⟨h1, h2⟩ := List.getElem?_eq_some_iff.mp h
    · exact ⟨_, by simp, h1, h2 ▸ List.getElem_mem h1, h⟩
    · exact ⟨c!"0123456789ABCDEF", by simp, h1, h2 ▸ List.getElem_mem h1, h⟩
  obtain ⟨x, hx, h1, h2, h3⟩ := len ha
  obtain ⟨y, hy, g1, g2, g3⟩ := len hb
  exact key x hx y hy m h1 n g1 a h2 b g2 h3 g3

theorem hexDigitVal_lt {c : Char} {d : Nat} (h : HexDigitVal c d) : d < 16 := by
  rcases h with h | h <;> exact (List.getElem?_eq_some_iff.mp h).1

/-- Two pairs decode to the same byte exactly when they differ in letter case only. -/
theorem C56_case (i r s j q t : Str) (h : hexPrimary i = .ok r s) (h' : hexPrimary j = .ok q t) :
    fromHex s = fromHex t ↔ s.map Char.toLower = t.map Char.toLower := by
  obtain ⟨a, b, m, n, rfl, ha, hb, e⟩ := C56_pair i r s h
  obtain ⟨a', b', m', n', rfl, ha', hb', e'⟩ := C56_pair j q t h'
  have h1 := hexDigitVal_lt hb
  have h2 := hexDigitVal_lt hb'
  simp only [e, e', Option.some.injEq, List.map_cons, List.map_nil, List.cons.injEq, and_true, hexDigitVal_lower ha ha', hexDigitVal_lower hb hb']
  omega

/-- Every byte is encoded by two upper-case digits, which `hex_primary` accepts whatever follows. -/
theorem C56_encode (n : Nat) (h : n < 256) : ∃ a b, a ∈ c!"0123456789ABCDEF" ∧ b ∈ c!"0123456789ABCDEF" ∧ fromHex [a, b] = some n ∧
    ∀ r, hexPrimary (a :: b :: r) = .ok r [a, b] := by
  have key : ∀ n < 16, ∃ a ∈ c!"0123456789ABCDEF", c!"0123456789ABCDEF"[n]? = some a ∧ isHexDigit a = true := by decide
  obtain ⟨a, ha, ha', ha2⟩ := key (n / 16) (by omega)
  obtain ⟨b, hb, hb', hb2⟩ := key (n % 16) (by omega)
  refine ⟨a, b, ha, hb, (fromHex_iff _ _).mpr ⟨h, [a, b], .inl rfl, ?_⟩, fun r => takeWhileN_ok.mpr ⟨rfl, rfl, by simp [ha2, hb2]⟩⟩
  have := HexVal.snoc (s := [a]) (.one (.inr ha')) (.inr hb')
  rw [show 16 * (n / 16) + n % 16 = n by omega] at this
  exact this

/-! Cases of C56. -/
example : fromHex c!"fF" = some 255 := rfl
example : fromHex c!"+0A" = some 10 := rfl
example : fromHex c!"100" = none ∧ fromHex c!"-1" = none ∧ fromHex c!"" = none ∧ fromHex c!"+" = none ∧ fromHex c!"00" = some 0 := ⟨rfl, rfl, rfl, rfl, rfl⟩
example : hexPrimary c!"2Fx" = .ok c!"x" c!"2F" := rfl
example : fromHex c!"2f" = fromHex c!"2F" := rfl

/-! ## C57: GROUP BY with a name for the expression -/

/-- `(expression AS ...` is no group condition when the expression uses up the white space after it, whatever follows AS. -/
theorem C57_condition_violated (e : Expression) (w s w1 k x : Str) (hw : Ws w) (h : CExpr cGroup true e s) (hw1 : Ws1 w1)
    (hk : CaseVariant c!"as" k) : ∃ pos c, groupCondition ('(' :: (w ++ (s ++ (w1 ++ (k ++ x))))) = .err (.error pos c) := by
  have h := expr_reads (fun _ _ h => cGroup_reads h) h
  have hs : Stop orStops (k ++ x) := by obtain ⟨c, y, rfl, rfl | rfl⟩ := kw_head hk <;> exact Stop.cons (by decide)
  have hk' : Start (k ++ x) := Start.kw hk (by decide)
  obtain ⟨w2, _, hl, e2⟩ := (h.2 w1 _ hw1.1 (hk'.follow hw1) hs).2
  obtain rfl := hl.1 rfl
  rw [List.nil_append] at e2
  refine Fails.alt_cons (Fails.map (First.cons rfl)) (Fails.alt_cons (Fails.map (First.cons rfl)) (Fails.alt_cons (Fails.map ?_) (Fails.map (First.cons rfl))))
  refine Fails.delimited3 char_eval (delimited_eval (sp_eval hw (h.1.not_ws _)) (map_eval (a := (e, none)) (f := fun x => ExpressionAsVarOpt.mk x.1 x.2) (pair_eval e2
    (Fails.opt (Fails.preceded (Fails.delimited (sp1_fails hk'.1)))))) (sp_zero hk'.1)) ?_
  obtain ⟨c, y, rfl, rfl | rfl⟩ := kw_head hk <;> exact char_fails (by decide)

/-- So the modifiers of a query read nothing of such a GROUP BY ... -/
theorem C57_clause_violated (e : Expression) (g w0 b w' w s w1 k x : Str) (hg : CaseVariant c!"group" g) (hw0 : Ws1 w0) (hb : CaseVariant c!"by" b)
    (hw' : Ws1 w') (hw : Ws w) (h : CExpr cGroup true e s) (hw1 : Ws1 w1) (hk : CaseVariant c!"as" k) :
    solutionModifier (g ++ (w0 ++ (b ++ (w' ++ '(' :: (w ++ (s ++ (w1 ++ (k ++ x)))))))) =
      .ok (g ++ (w0 ++ (b ++ (w' ++ '(' :: (w ++ (s ++ (w1 ++ (k ++ x)))))))) (.mk none none none none) := by
  have f := C57_condition_violated e w s w1 k x hw h hw1 hk
  obtain ⟨_, e⟩ := by_eval (x := '(' :: (w ++ (s ++ (w1 ++ (k ++ x))))) hg hw0 hb hw' (Start.cons (by decide))
  exact modifier_unread (kw_not_ws hg (by decide)) (Fails.map (Fails.preceded2 e (Fails.sep1 f)))
    (Fails.map (Fails.preceded (Fails.terminated (kw_fails hg (by decide)))))
    (Fails.map (Fails.preceded (Fails.terminated (Fails.delimited (kw_fails hg (by decide))))))
    (limit_fails (kw_fails hg (by decide)) (kw_fails hg (by decide)))

/-- ... and a query is accepted without it, the clause left unread. -/
theorem C57_ask_violated (e : Expression) (G : GroupGraphPattern) (a wa gs wg g w0 b w' w s w1 k x : Str) (ha : CaseVariant c!"ask" a) (hwa : Ws1 wa)
    (hG : cGroup G gs) (hwg : Ws wg) (hg : CaseVariant c!"group" g) (hw0 : Ws1 w0) (hb : CaseVariant c!"by" b)
    (hw' : Ws1 w') (hw : Ws w) (h : CExpr cGroup true e s) (hw1 : Ws1 w1) (hk : CaseVariant c!"as" k) :
    sparqlQueryStmt (a ++ (wa ++ (gs ++ (wg ++ (g ++ (w0 ++ (b ++ (w' ++ '(' :: (w ++ (s ++ (w1 ++ (k ++ x)))))))))))) =
      .ok (g ++ (w0 ++ (b ++ (w' ++ '(' :: (w ++ (s ++ (w1 ++ (k ++ x))))))))
        ⟨⟨[]⟩, .ask { datasetClauses := [], whereClause := G, solutionModifier := .mk none none none none }, none⟩ :=
  ask_unread ha hwa hG hwg (C57_clause_violated e g w0 b w' w s w1 k x hg hw0 hb hw' hw h hw1 hk) (Start.kw hg (by decide))

/-- When the expression leaves its white space (a sum without product at the end, or `IN ()`), `(expression AS ?v)` is returned with the
expression and the variable.  Missing for the full property: all other expressions. -/
theorem C57_partial (e : Expression) (v : Var) (w s w1 k w2 t w' r : Str) (hw : Ws w) (h : CExpr cGroup false e s) (hw1 : Ws1 w1)
    (hk : CaseVariant c!"as" k) (hw2 : Ws1 w2) (hv : cVar v t) (hw' : Ws w') :
    groupCondition ('(' :: (w ++ (s ++ (w1 ++ (k ++ (w2 ++ (t ++ (w' ++ ')' :: r)))))))) = .ok r (.expressionAsVarOpt (.mk e (some v))) := by
  unfold groupCondition groupConditionS
  exact alt_eval2 (First.cons rfl) (alt_eval2 (First.cons rfl) (alt_eval1 (map_eval (f := GroupCondition.expressionAsVarOpt)
    (asVarSome_eval (fun _ _ h => cGroup_reads h) hw h hw1 hk hw2 hv hw' r))))

/-- Without AS every expression is taken. -/
theorem C57_unnamed_partial (e : Expression) (s r : Str) (h : CBracket cGroup e s) :
    groupCondition (s ++ r) = .ok r (.expressionAsVarOpt (.mk e none)) := by
  have := asVarOpt_eval (fun _ _ h => cGroup_reads h) h r
  obtain ⟨t, rfl⟩ := bracket_head h
  unfold groupCondition groupConditionS
  exact alt_eval2 (First.cons rfl) (alt_eval2 (First.cons rfl) (alt_eval1 (map_eval (f := GroupCondition.expressionAsVarOpt) this)))

/-! Cases of C57. -/
example : ∃ e, groupCondition c!"(?x AS ?y) " = .err e := ⟨_, rfl⟩
example : ∃ m, solutionModifier c!"GROUP BY (?x AS ?y) " = .ok c!"GROUP BY (?x AS ?y) " m := ⟨_, rfl⟩
example : ∃ e, groupCondition c!"(?x IN () AS ?y) " = .ok c!" " (.expressionAsVarOpt (.mk e (some (.qmark c!"y")))) := ⟨_, rfl⟩

/-! ## C58: object lists and property lists in WHERE -/

/-- A comma after an object: the group is rejected, after any patterns with one object each and whatever follows. -/
theorem C58_comma_violated (l : List Pattern) (w s w' x : Str) (hw : Ws w) (h : cPatterns l s) (hl : ∀ p ∈ l, p.more = []) (hw' : Ws w') :
    ∃ pos k, groupGraphPattern ('{' :: (w ++ (s ++ (w' ++ ',' :: x)))) = .err (.error pos k) := by
  rw [groupGraphPattern_eq]
  refine Fails.delimited3 char_eval (groupSub_patterns hw h hw' rfl ?_ (First.cons rfl)) (char_fails (by decide))
  exact patterns_accept (b := false) l s _ h (fun _ => hl) (.of (Follow.ws_close hw' (by simp)) hw' (not_startsWs_cons rfl) (notStart_cons (by simp)))
    (.inl (Fails.many1 (Fails.delimited2 (sp_eval hw' (not_startsWs_cons rfl)) (First.cons rfl))))

/-- In particular in a query. -/
theorem C58_ask_comma_violated (l : List Pattern) (k wk w s w' x : Str) (hk : CaseVariant c!"ask" k) (hwk : Ws1 wk) (hw : Ws w) (h : cPatterns l s)
    (hl : ∀ p ∈ l, p.more = []) (hw' : Ws w') :
    ∃ pos e, sparqlQueryStmt (k ++ (wk ++ '{' :: (w ++ (s ++ (w' ++ ',' :: x))))) = .err (.error pos e) :=
  stmt_fails hk (by simp) (sparqlQuery_ask_fails hk hwk (C58_comma_violated l w s w' x hw h hl hw'))

/-- One triple with objects that have semicolons between them, and the text after it. -/
theorem semi_triple {o o' : VarOrTerm} {v : VerbPathOrSimple} {l : List VarOrTerm} {a w y t w' x : Str} {c : Char}
    (ha : cVarOrTerm o a) (hw : Ws1 w) (hy : CPredObj v o' y) (ht : Many (fun o => Ws ⬝ lit c!";" ⬝ Ws ⬝ cVarOrTerm o) l t) (hw' : Ws w')
    (hF : Follow (w' ++ c :: x)) (hc : wsStart c = false ∧ c ≠ ';' ∧ c ≠ '.') (hn : Fails (groupGraphPatternAndTriplesS R₀) (c :: x)) (w0 : Str) (hw0 : Ws w0) :
    spEnc (alt [map (subSelectS R₀) GroupGraphPattern.subSelect, map (groupGraphPatternSubS R₀) .groupGraphPatternSub])
      (w0 ++ (a ++ (w ++ (y ++ (t ++ (w' ++ c :: x)))))) =
      .ok (c :: x) (.groupGraphPatternSub (.mk (some (.mk [.term o (.mk v ((o' :: l).map .varOrTerm) [])])) [])) := by
  have hE : PatternEnd false (w' ++ c :: x) := .of hF hw' (not_startsWs_cons hc.1) (notStart_cons (by simp [hc.2.1]))
  obtain ⟨_, _, e⟩ := hE.entry
  have h1 := pattern_core ha hw hy ht (.stop e) hF hE.stop
  obtain ⟨_, _, hd⟩ : Fails (many1 (spEnc (char '.'))) (w' ++ c :: x) :=
    Fails.many1 (Fails.delimited2 (sp_eval hw' (not_startsWs_cons hc.1)) (char_fails hc.2.2))
  have hb : triplesBlock (a ++ (w ++ (y ++ (t ++ (w' ++ c :: x))))) = .ok (w' ++ c :: x) (.mk [.term o (.mk v ((o' :: l).map .varOrTerm) [])]) := by
    refine map_eval (f := TriplesBlock.mk) (separatedNonemptyList_ok.mpr ⟨_, [], _, rfl, h1, ?_, .stopSep hd⟩)
    intro e'
    have h2 := (cVarOrTerm_toks o).ne_nil ha
    have h3 := congrArg List.length e'
    have h4 := List.length_pos_iff.mpr h2
    simp only [List.length_append] at h3
    omega
  have h2 : groupGraphPatternSubS R₀ (a ++ (w ++ (y ++ (t ++ (w' ++ c :: x))))) =
      .ok (c :: x) (.mk (some (.mk [.term o (.mk v ((o' :: l).map .varOrTerm) [])])) []) := by
    unfold groupGraphPatternSubS
    exact map_eval (a := (some (TriplesBlock.mk [.term o (.mk v ((o' :: l).map .varOrTerm) [])]), [])) (f := fun x => GroupGraphPatternSub.mk x.1 x.2)
      (pair_eval (opt_eval (terminated_eval hb (sp_eval hw' (not_startsWs_cons hc.1)))) (Fails.sep0 hn))
  exact delimited_eval (sp_eval hw0 ((cVarOrTerm_toks o).not_startsWs ha _)) (alt_eval2 (Fails.map (subSelect_fails ha _))
    (map_eval (f := GroupGraphPattern.groupGraphPatternSub) h2)) (sp_zero (not_startsWs_cons hc.1))

/-- Semicolons, which separate predicates in SPARQL, separate objects here: `{ s p o ; q }`, which is no SPARQL, is accepted with the objects
`o` and `q`; for any number of them. -/
theorem C58_misread_violated (o o' : VarOrTerm) (v : VerbPathOrSimple) (l : List VarOrTerm) (w0 a w y t w' r : Str) (hw0 : Ws w0)
    (ha : cVarOrTerm o a) (hw : Ws1 w) (hy : CPredObj v o' y) (ht : Many (fun o => Ws ⬝ lit c!";" ⬝ Ws ⬝ cVarOrTerm o) l t) (hw' : Ws w') :
    groupGraphPattern ('{' :: (w0 ++ (a ++ (w ++ (y ++ (t ++ (w' ++ '}' :: r))))))) =
      .ok r (.groupGraphPatternSub (.mk (some (.mk [.term o (.mk v ((o' :: l).map .varOrTerm) [])])) [])) := by
  rw [groupGraphPattern_eq]
  exact delimited_eval char_eval (semi_triple ha hw hy ht hw' (Follow.ws_close hw' (by simp)) (by decide) (First.cons rfl) w0 hw0) char_eval

/-- So a property list whose second predicate is a variable or IRI is rejected: `{ s p o ; q x` with an object `x` that does not begin with
a letter, whatever follows. -/
theorem C58_semicolon_violated (o o' q : VarOrTerm) (v : VerbPathOrSimple) (w0 a w y w1 w2 b w3 x : Str) (c : Char) (hw0 : Ws w0)
    (ha : cVarOrTerm o a) (hw : Ws1 w) (hy : CPredObj v o' y) (hw1 : Ws w1) (hw2 : Ws w2) (hb : cVarOrTerm q b) (hw3 : Ws1 w3)
    (hc : c ∈ c!"?$<\"'0123456789+-_[(") :
    ∃ pos k, groupGraphPattern ('{' :: (w0 ++ (a ++ (w ++ (y ++ (w1 ++ ';' :: (w2 ++ (b ++ (w3 ++ c :: x))))))))) = .err (.error pos k) := by
  have hc' : wsStart c = false ∧ c ≠ ';' ∧ c ≠ '.' ∧ c ≠ ':' ∧ c ≠ '}' := by
    have : ∀ c ∈ c!"?$<\"'0123456789+-_[(", wsStart c = false ∧ c ≠ ';' ∧ c ≠ '.' ∧ c ≠ ':' ∧ c ≠ '}' := by decide
    exact this c hc
  have hn : Fails (groupGraphPatternAndTriplesS R₀) (c :: x) := by
    simp only [List.mem_cons, List.not_mem_nil, or_false] at hc
    rcases hc with rfl | rfl | rfl | rfl | rfl | rfl | rfl | rfl | rfl | rfl | rfl | rfl | rfl | rfl | rfl | rfl | rfl | rfl | rfl | rfl <;>
      exact First.cons rfl
  rw [groupGraphPattern_eq]
  have := semi_triple (l := [q]) (t := w1 ++ ';' :: (w2 ++ b)) (x := x) ha hw hy
    ⟨w1 ++ ';' :: (w2 ++ b), [], by simp, ⟨w1, _, rfl, hw1, [';'], _, rfl, rfl, w2, b, rfl, hw2, hb⟩, rfl⟩ hw3.1
    (Follow.ws hw3.1 (.inl hw3.2) (not_startsWs_cons hc'.1) (notStart_cons hc'.2.2.2.1)) ⟨hc'.1, hc'.2.1, hc'.2.2.1⟩ hn w0 hw0
  simp only [List.append_assoc, List.cons_append] at this
  exact Fails.delimited3 char_eval this (char_fails hc'.2.2.2.2)

/-- In particular in a query. -/
theorem C58_ask_semicolon_violated (o o' q : VarOrTerm) (v : VerbPathOrSimple) (k wk w0 a w y w1 w2 b w3 x : Str) (c : Char)
    (hk : CaseVariant c!"ask" k) (hwk : Ws1 wk) (hw0 : Ws w0)
    (ha : cVarOrTerm o a) (hw : Ws1 w) (hy : CPredObj v o' y) (hw1 : Ws w1) (hw2 : Ws w2) (hb : cVarOrTerm q b) (hw3 : Ws1 w3)
    (hc : c ∈ c!"?$<\"'0123456789+-_[(") :
    ∃ pos e, sparqlQueryStmt (k ++ (wk ++ '{' :: (w0 ++ (a ++ (w ++ (y ++ (w1 ++ ';' :: (w2 ++ (b ++ (w3 ++ c :: x)))))))))) = .err (.error pos e) :=
  stmt_fails hk (by simp) (sparqlQuery_ask_fails hk hwk (C58_semicolon_violated o o' q v w0 a w y w1 w2 b w3 x c hw0 ha hw hy hw1 hw2 hb hw3 hc))

/-- Semicolons before the closing brace, which SPARQL allows, make the group fail. -/
theorem C58_trailing_violated (l : List Pattern) (w s d r : Str) (hw : Ws w) (h : cPatterns l s) (hd : cSemis d) :
    ∃ pos k, groupGraphPattern ('{' :: (w ++ (s ++ (d ++ '}' :: r)))) = .err (.error pos k) := by
  obtain ⟨⟨_, h1⟩, ⟨z, a, h2, h3, h4⟩, h5, h6, h7⟩ := semis_split (x := '}' :: r) hd (not_startsWs_cons rfl) (notStart_cons (by decide))
  have hE : PatternEnd true (d ++ '}' :: r) := by
    refine ⟨h5, .inr ⟨z, a, h2, h3, ?_⟩, Fails.preceded2 h1 (First.cons rfl), fun _ => h6⟩
    rcases h4 with rfl | ⟨t, rfl⟩
    · exact First.cons rfl
    · exact First.cons rfl
  obtain ⟨w', t, rfl, hw'⟩ : ∃ w' t, d = w' ++ ';' :: t ∧ Ws w' := by
    obtain ⟨_, _, rfl, ⟨_, _, rfl, ⟨w', _, rfl, hw', rfl⟩, _⟩, _⟩ := hd
    exact ⟨w', _, by simp; rfl, hw'⟩
  simp only [List.append_assoc, List.cons_append] at *
  rw [groupGraphPattern_eq]
  refine Fails.delimited3 char_eval (groupSub_patterns hw h hw' rfl ?_ (First.cons rfl)) (char_fails (by decide))
  exact patterns_accept (b := true) l s _ h (by simp) hE (.inl (Fails.many1 (Fails.delimited2 (sp_eval hw' (not_startsWs_cons rfl)) (First.cons rfl))))

/-- A property list is returned as written when every predicate after the first begins with `a`, `!` or `^`; their object lists may have
commas.  Missing for the full property: commas in the first object list, and other predicates after the first. -/
theorem C58_lists_partial (p : Pattern) (w s w' r : Str) (hw : Ws w) (h : cPattern p s) (hw' : Ws w') :
    groupGraphPattern ('{' :: (w ++ (s ++ (w' ++ '}' :: r)))) = .ok r (.groupGraphPatternSub (.mk (some (.mk [p.ast])) [])) :=
  C33_patterns_partial [p] w s w' r hw (sep1_one h) hw'

/-! Cases of C58. -/
example : ∃ e, groupGraphPattern c!"{ ?s ?p <o> , <q> }" = .err e := ⟨_, rfl⟩
example : ∃ e, groupGraphPattern c!"{ ?s ?p <o> ; <q> <r> }" = .err e := ⟨_, rfl⟩
example : ∃ e, groupGraphPattern c!"{ ?s ?p <o> ; }" = .err e := ⟨_, rfl⟩
example : groupGraphPattern c!"{ ?s ?p <o> ; <q> ; 7 }" = .ok [] (.groupGraphPatternSub (.mk (some (.mk [
    .term (.var (.qmark c!"s")) (.mk (.simple (.qmark c!"p")) [.varOrTerm (.term (.iri (.iri c!"o"))), .varOrTerm (.term (.iri (.iri c!"q"))),
      .varOrTerm (.term (.numericLiteral (.int 7)))] [])])) [])) := rfl
example : ∃ e e', groupGraphPattern c!"{ ?s ?p <o> ; a <T> , <U> ; ^<r> <x> }" = .ok [] (.groupGraphPatternSub (.mk (some (.mk [
    .term (.var (.qmark c!"s")) (.mk (.simple (.qmark c!"p")) [.varOrTerm (.term (.iri (.iri c!"o")))] [e, e'])])) [])) := ⟨_, _, rfl⟩
example : cPattern ⟨.var (.qmark c!"s"), .simple (.qmark c!"p"), .term (.iri (.iri c!"o")), [⟨[.pathElt (.mk .a none)], [.term (.iri (.iri c!"T"))]⟩]⟩
    c!"?s ?p <o> ; a <T>" :=
  ⟨c!"?s", _, rfl, ⟨rfl, by decide, by decide⟩, c!" ", _, rfl, ws1_rfl rfl, c!"?p <o>", c!" ; a <T>", rfl,
    .var ⟨c!"?p", _, rfl, ⟨rfl, by decide, by decide⟩, c!" ", c!"<o>", rfl, ws1_rfl rfl, rfl, by simp [CIriChar]; decide⟩,
    c!" ; a <T>", [], rfl, ⟨c!" ; ", c!"a <T>", rfl, ⟨c!" ;", c!" ", rfl, ⟨c!" ;", [], rfl, ⟨c!" ", c!";", rfl, ws_rfl rfl, rfl⟩, .nil⟩, ws_rfl rfl⟩,
      trivial, c!"a", _, rfl, .one (.elt (.plain .a)), c!" ", c!"<T>", rfl, ws1_rfl rfl, sep1_one ⟨rfl, by simp [CIriChar]; decide⟩,
      by rintro c u ⟨⟩; decide⟩, rfl⟩

/-! ## C59: white space before the prologue -/

theorem prologue_ws {w x : Str} (hw : Ws1 w) : prologue (w ++ x) = .ok (w ++ x) ⟨[]⟩ := by
  refine map_eval (a := []) (f := Prologue.mk) (Fails.sep0 ?_)
  obtain ⟨hw, hn⟩ := hw
  cases w with
  | nil => contradiction
  | cons c w =>
    rcases wsStart_iff.mp (ws_first hw c w rfl) with rfl | rfl | rfl | rfl | rfl <;>
      exact Fails.alt_cons (Fails.map (First.cons rfl)) (Fails.map (First.cons rfl))

/-- With white space (or a comment) before its first declaration a query is rejected, whatever follows. -/
theorem C59_query_violated (u w k x : Str) (hw : Ws1 w) (hu : u = c!"base" ∨ u = c!"prefix") (hk : CaseVariant u k) :
    ∃ pos e, sparqlQueryStmt (w ++ (k ++ x)) = .err (.error pos e) := by
  have hn : ¬ StartsWs (k ++ x) := by rcases hu with rfl | rfl <;> exact kw_not_ws hk (by decide)
  refine Fails.map (Fails.pair2 (terminated_eval (prologue_ws hw) (sp_eval hw.1 hn)) (Fails.pair ?_))
  rcases hu with rfl | rfl <;>
  exact Fails.alt_cons (Fails.map (Fails.map (Fails.tuple4 (Fails.terminated (Fails.map (Fails.tuple3 (kw_fails hk (by decide))))))))
    (Fails.alt_cons (Fails.map (Fails.preceded (Fails.terminated (kw_fails hk (by decide)))))
    (Fails.alt_cons (Fails.map (Fails.map (Fails.tuple5 (kw_fails hk (by decide)))))
    (Fails.map (Fails.map (Fails.tuple4 (Fails.terminated (kw_fails hk (by decide))))))))

/-- And an update is accepted as the empty one and left unread. -/
theorem C59_update_violated (u w k x : Str) (hw : Ws1 w) (hu : u = c!"base" ∨ u = c!"prefix") (hk : CaseVariant u k) :
    update (w ++ (k ++ x)) = .ok (w ++ (k ++ x)) (.mk ⟨[]⟩ none none) := by
  have hn : ¬ StartsWs (k ++ x) := by rcases hu with rfl | rfl <;> exact kw_not_ws hk (by decide)
  rw [update_eq]
  refine map_ok.mpr ⟨(⟨[]⟩, none), pair_eval (prologue_ws hw) (Fails.opt (Fails.pair (Fails.preceded2 (sp_eval hw.1 hn) ?_))), rfl⟩
  rcases hu with rfl | rfl <;>
  · refine Fails.alt_cons (by other_kw hk) (Fails.alt_cons (by other_kw hk) (Fails.alt_cons (by other_kw hk) (Fails.alt_cons (by other_kw hk)
      (Fails.alt_cons (by other_kw hk) (Fails.alt_cons (by other_kw hk) (Fails.alt_cons (by other_kw hk) (Fails.alt_cons (by other_kw hk) ?_)))))))
    refine Fails.map (Fails.map (Fails.pair2 (Fails.opt (Fails.delimited (kw_fails hk (by decide)))) (Fails.pair (Fails.terminated ?_))))
    exact Fails.alt_cons (Fails.map (Fails.pair (Fails.preceded (Fails.terminated (kw_fails hk (by decide))))))
      (Fails.map (Fails.preceded (Fails.terminated (kw_fails hk (by decide)))))

theorem noKeyword_prologue {w i : Str} (hi : NoKeyword [c!"base", c!"prefix"] (w ++ i)) (hw : Ws w) :
    prologue (w ++ i) = .ok (w ++ i) ⟨[]⟩ ∧ prologue i = .ok i ⟨[]⟩ :=
  ⟨C24_prologue ⟨[]⟩ [] _ rfl hi, C24_prologue ⟨[]⟩ [] i rfl fun w' k r t ht e hw' =>
    hi (w ++ w') k r t ht (by rw [e, List.append_assoc]) (hw.append hw')⟩

/-- White space before a query without declarations changes nothing: not the tree, not the rest, not the error; for every text. -/
theorem C59_query_partial (w i : Str) (hw : Ws w) (hi : NoKeyword [c!"base", c!"prefix"] (w ++ i)) : sparqlQueryStmt (w ++ i) = sparqlQueryStmt i := by
  obtain ⟨h1, h2⟩ := noKeyword_prologue hi hw
  obtain ⟨w', x, rfl, hw', hx⟩ : ∃ w' x, i = w' ++ x ∧ Ws w' ∧ ¬ StartsWs x := by
    obtain ⟨r, w, e⟩ := Total.out (p := sp) i
    obtain ⟨e, hw, hr⟩ := sp_ok_iff.mp e
    exact ⟨w, r, e, hw, hr⟩
  have e1 : terminated prologue sp (w ++ (w' ++ x)) = .ok x ⟨[]⟩ := by
    rw [← List.append_assoc] at h1 ⊢
    exact terminated_eval h1 (sp_eval (hw.append hw') hx)
  have e2 : terminated prologue sp (w' ++ x) = .ok x ⟨[]⟩ := terminated_eval h2 (sp_eval hw' hx)
  unfold sparqlQueryStmt tuple3
  simp only [map, pair, e1, e2]

/-- The same for an update that has a statement. -/
theorem C59_update_partial (w i r : Str) (p : Prologue) (s : UpdateStatement) (n : Option Update) (hw : Ws w)
    (hi : NoKeyword [c!"base", c!"prefix"] (w ++ i)) (h : update i = .ok r (.mk p (some s) n)) : update (w ++ i) = .ok r (.mk p (some s) n) := by
  obtain ⟨h1, h2⟩ := noKeyword_prologue hi hw
  obtain ⟨w', x, rfl, hw', hx⟩ : ∃ w' x, i = w' ++ x ∧ Ws w' ∧ ¬ StartsWs x := by
    obtain ⟨r, w, e⟩ := Total.out (p := sp) i
    obtain ⟨e, hw, hr⟩ := sp_ok_iff.mp e
    exact ⟨w, r, e, hw, hr⟩
  rw [update_eq] at h ⊢
  obtain ⟨⟨p', o⟩, h3, h4⟩ := map_ok.mp h
  obtain ⟨_, h5, h6⟩ := pair_ok h3
  rw [h2] at h5
  cases h5
  rcases opt_ok.mp h6 with ⟨⟨s', n'⟩, e, h7⟩ | ⟨e, _, _⟩
  · simp only at e
    subst e
    obtain ⟨y, h8, h9⟩ := pair_ok h7
    obtain ⟨_, _, h10, h11⟩ := preceded_ok.mp h8
    rw [sp_eval hw' hx] at h10
    cases h10
    refine map_ok.mpr ⟨(⟨[]⟩, some (s', n')), pair_eval h1 (opt_eval (pair_eval ?_ h9)), h4⟩
    rw [← List.append_assoc]
    exact preceded_eval (sp_eval (hw.append hw') hx) h11
  · simp only at e
    subst e
    simp at h4

/-! Cases of C59. -/
example : ∃ e, sparqlQueryStmt c!"\nPREFIX p: <x> ASK { }" = .err e := ⟨_, rfl⟩
example : ∃ q, sparqlQueryStmt c!"PREFIX p: <x> ASK { }" = .ok [] q := ⟨_, rfl⟩
example : sparqlQueryStmt c!"# hello\n ASK { }" = sparqlQueryStmt c!"ASK { }" :=
  C59_query_partial c!"# hello\n " c!"ASK { }" (ws_rfl rfl) (noDecl (u := c!"ask") (w := c!"# hello\n ") (k := c!"ASK") (x := c!" { }") (ws_rfl rfl) (kw_rfl rfl) (by simp))
example : update c!" BASE <b> CLEAR ALL" = .ok c!" BASE <b> CLEAR ALL" (.mk ⟨[]⟩ none none) := rfl

/-! ## C60: keywords and brackets -/

/-- A keyword with the bracket right after it is not taken. -/
theorem tag1_bracket {t k x : Str} {c : Char} {p : P α} [KwTag t] (hk : CaseVariant t k) (hc : wsStart c = false) : Fails (precededTag1 t p) (k ++ c :: x) :=
  Fails.preceded (Fails.terminated2 (kw_eval hk) (sp1_fails (not_startsWs_cons hc)))

theorem where_bracket {k x : Str} (hk : CaseVariant c!"where" k) : Fails whereClause (k ++ '{' :: x) :=
  Fails.preceded2 (Fails.opt (Fails.terminated2 (kw_eval hk) (sp1_fails (not_startsWs_cons rfl)))) (kw_first hk rfl)

/-- `WHERE{` is rejected in ASK and SELECT queries, whatever follows ... -/
theorem C60_where_violated (a w k x : Str) (ha : CaseVariant c!"ask" a) (hw : Ws1 w) (hk : CaseVariant c!"where" k) :
    ∃ pos e, sparqlQueryStmt (a ++ (w ++ (k ++ '{' :: x))) = .err (.error pos e) := by
  have hn : ¬ StartsWs (k ++ '{' :: x) := kw_not_ws hk (by decide)
  refine stmt_fails ha (by simp) ?_
  refine Fails.alt_cons (Fails.map (Fails.map (Fails.tuple4 (Fails.terminated (Fails.map (Fails.tuple3 (kw_fails ha (by decide)))))))) ?_
  refine Fails.alt_cons (Fails.map (Fails.preceded (Fails.terminated (kw_fails ha (by decide))))) ?_
  refine Fails.alt_cons (Fails.map (Fails.map (Fails.tuple5 (kw_fails ha (by decide))))) ?_
  exact Fails.map (Fails.map (Fails.pair2 (terminated_eval (kw_eval ha) (sp1_eval hw hn))
    (Fails.pair2 (terminated_eval (Fails.sep0 (kw_first hk rfl)) (sp_zero hn)) (Fails.pair (Fails.terminated (where_bracket hk))))))

theorem C60_select_where_violated (a w w' k x : Str) (ha : CaseVariant c!"select" a) (hw : Ws1 w) (hw' : Ws1 w') (hk : CaseVariant c!"where" k) :
    ∃ pos e, sparqlQueryStmt (a ++ (w ++ '*' :: (w' ++ (k ++ '{' :: x)))) = .err (.error pos e) := by
  have hn : ¬ StartsWs (k ++ '{' :: x) := kw_not_ws hk (by decide)
  have n1 : ¬ StartsWs ('*' :: (w' ++ (k ++ '{' :: x))) := not_startsWs_cons rfl
  refine stmt_fails ha (by simp) (Fails.alt_cons ?_ ?_)
  · exact Fails.map (Fails.map (Fails.pair2 (terminated_eval (map_eval (tuple3_eval (kw_eval ha)
      (Fails.opt (Fails.preceded2 (sp1_eval hw n1) (First.cons (c := '*') rfl))) (preceded_eval (sp1_eval hw n1)
        (alt_eval1 (map_eval (f := fun _ => SelectVars.all) char_eval))))) (sp1_eval hw' hn))
      (Fails.pair2 (Fails.sep0 (kw_first hk rfl)) (Fails.pair (Fails.delimited2 (sp_zero hn) (where_bracket hk))))))
  refine Fails.alt_cons (Fails.map (Fails.preceded (Fails.terminated (kw_fails ha (by decide))))) ?_
  refine Fails.alt_cons (Fails.map (Fails.map (Fails.tuple5 (kw_fails ha (by decide))))) ?_
  exact Fails.map (Fails.map (Fails.tuple4 (Fails.terminated (kw_fails ha (by decide)))))

/-- ... and so are `ASK{` and `CONSTRUCT{`. -/
theorem C60_form_violated (u k x : Str) (hu : u = c!"ask" ∨ u = c!"construct") (hk : CaseVariant u k) :
    ∃ pos e, sparqlQueryStmt (k ++ '{' :: x) = .err (.error pos e) := by
  refine stmt_fails hk (by rcases hu with rfl | rfl <;> simp) ?_
  rcases hu with rfl | rfl
  · refine Fails.alt_cons (Fails.map (Fails.map (Fails.tuple4 (Fails.terminated (Fails.map (Fails.tuple3 (kw_fails hk (by decide)))))))) ?_
    refine Fails.alt_cons (Fails.map (Fails.preceded (Fails.terminated (kw_fails hk (by decide))))) ?_
    refine Fails.alt_cons (Fails.map (Fails.map (Fails.tuple5 (kw_fails hk (by decide))))) ?_
    exact Fails.map (Fails.map (Fails.tuple4 (Fails.terminated2 (kw_eval hk) (sp1_fails (not_startsWs_cons rfl)))))
  · refine Fails.alt_cons (Fails.map (Fails.map (Fails.tuple4 (Fails.terminated (Fails.map (Fails.tuple3 (kw_fails hk (by decide)))))))) ?_
    refine Fails.alt_cons (Fails.map (tag1_bracket hk rfl)) ?_
    refine Fails.alt_cons (Fails.map (Fails.map (Fails.tuple5 (kw_fails hk (by decide))))) ?_
    exact Fails.map (Fails.map (Fails.tuple4 (Fails.terminated (kw_fails hk (by decide)))))

/-- In a group `OPTIONAL{`, `MINUS{`, `FILTER(`, `BIND(`: the group is rejected, whatever follows. -/
theorem C60_group_violated (u w k x : Str) (c : Char) (hw : Ws w) (hu : u ∈ [c!"optional", c!"minus", c!"filter", c!"bind"]) (hk : CaseVariant u k)
    (hc : c = '{' ∨ c = '(') : ∃ pos e, groupGraphPattern ('{' :: (w ++ (k ++ c :: x))) = .err (.error pos e) := by
  have hF : Follow (c :: x) := by rcases hc with rfl | rfl <;> exact Follow.ws_close (w := []) .nil (by simp)
  have hcw : wsStart c = false := by rcases hc with rfl | rfl <;> rfl
  have ht : Fails triplesSameSubjectPath (k ++ c :: x) := by
    cases u with
    | nil => exact absurd hu (by decide)
    | cons a u => refine kw_triples hk hF ?_; revert hu; simp only [itemKws, List.mem_cons, List.not_mem_nil, or_false]; rintro (h | h | h | h) <;> simp [h]
  have hn : ¬ StartsWs (k ++ c :: x) ∧ Fails (char '}') (k ++ c :: x) ∧ Fails (subSelectS R₀) (k ++ c :: x) := by
    simp only [List.mem_cons, List.not_mem_nil, or_false] at hu
    rcases hu with rfl | rfl | rfl | rfl <;>
      exact ⟨kw_not_ws hk (by decide), kw_first hk rfl, Fails.map (Fails.tuple4 (Fails.map (Fails.tuple3 (kw_fails hk (by decide)))))⟩
  have he : Fails (groupGraphPatternAndTriplesS R₀) (k ++ c :: x) := by
    refine Fails.map (Fails.separatedPair ?_)
    simp only [List.mem_cons, List.not_mem_nil, or_false] at hu
    rcases hu with rfl | rfl | rfl | rfl
    · exact Fails.alt_cons (Fails.map (kw_first hk rfl)) (Fails.alt_cons (Fails.map (tag1_bracket hk hcw)) (Fails.alt_cons (Fails.map (kw_first hk rfl))
        (Fails.alt_cons (Fails.map (kw_first hk rfl)) (Fails.alt_cons (Fails.map (kw_first hk rfl)) (Fails.alt_cons (Fails.map (kw_first hk rfl))
          (Fails.alt_cons (Fails.map (kw_first hk rfl)) (Fails.map (kw_first hk rfl))))))))
    · exact Fails.alt_cons (Fails.map (kw_first hk rfl)) (Fails.alt_cons (Fails.map (kw_first hk rfl)) (Fails.alt_cons (Fails.map (tag1_bracket hk hcw))
        (Fails.alt_cons (Fails.map (kw_first hk rfl)) (Fails.alt_cons (Fails.map (kw_first hk rfl)) (Fails.alt_cons (Fails.map (kw_first hk rfl))
          (Fails.alt_cons (Fails.map (kw_first hk rfl)) (Fails.map (kw_first hk rfl))))))))
    · exact Fails.alt_cons (Fails.map (kw_first hk rfl)) (Fails.alt_cons (Fails.map (kw_first hk rfl)) (Fails.alt_cons (Fails.map (kw_first hk rfl))
        (Fails.alt_cons (Fails.map (kw_first hk rfl)) (Fails.alt_cons (Fails.map (kw_first hk rfl)) (Fails.alt_cons (Fails.map (tag1_bracket hk hcw))
          (Fails.alt_cons (Fails.map (kw_first hk rfl)) (Fails.map (kw_first hk rfl))))))))
    · exact Fails.alt_cons (Fails.map (kw_first hk rfl)) (Fails.alt_cons (Fails.map (kw_first hk rfl)) (Fails.alt_cons (Fails.map (kw_first hk rfl))
        (Fails.alt_cons (Fails.map (kw_first hk rfl)) (Fails.alt_cons (Fails.map (kw_first hk rfl)) (Fails.alt_cons (Fails.map (kw_first hk rfl))
          (Fails.alt_cons (Fails.map (tag1_bracket hk hcw)) (Fails.map (kw_first hk rfl))))))))
  rw [groupGraphPattern_eq]
  refine Fails.delimited3 char_eval (delimited_eval (sp_eval hw hn.1) (alt_eval2 (Fails.map hn.2.2) (map_eval (a := GroupGraphPatternSub.mk none [])
    (f := GroupGraphPattern.groupGraphPatternSub) ?_)) (sp_zero hn.1)) hn.2.1
  exact map_eval (a := (none, [])) (f := fun x => GroupGraphPatternSub.mk x.1 x.2)
    (pair_eval (Fails.opt (Fails.terminated (Fails.map (Fails.sep1 ht)))) (Fails.sep0 he))

/-- `INSERT DATA{` and `DELETE DATA{`: nothing is read. -/
theorem C60_data_violated (u k w d x : Str) (hu : u = c!"insert" ∨ u = c!"delete") (hk : CaseVariant u k) (hw : Ws1 w) (hd : CaseVariant c!"data" d) :
    update (k ++ (w ++ (d ++ '{' :: x))) = .ok (k ++ (w ++ (d ++ '{' :: x))) (.mk ⟨[]⟩ none none) := by
  have hn : ¬ StartsWs (d ++ '{' :: x) := kw_not_ws hd (by decide)
  refine update_unread hk (by rcases hu with rfl | rfl <;> simp) ?_
  rcases hu with rfl | rfl
  · refine Fails.alt_cons (by other_kw hk) (Fails.alt_cons (by other_kw hk) (Fails.alt_cons (by other_kw hk) (Fails.alt_cons (by other_kw hk)
      (Fails.alt_cons (by other_kw hk) (Fails.alt_cons (Fails.map (Fails.preceded2 (terminated_eval (kw_eval hk) (sp1_eval hw hn)) (tag1_bracket hd rfl)))
        (Fails.alt_cons (by other_kw hk) (Fails.alt_cons (by other_kw hk) ?_)))))))
    refine Fails.map (Fails.map (Fails.pair2 (Fails.opt (Fails.delimited (kw_fails hk (by decide)))) (Fails.pair (Fails.terminated ?_))))
    exact Fails.alt_cons (Fails.map (Fails.pair (Fails.preceded (Fails.terminated (kw_fails hk (by decide))))))
      (Fails.map (Fails.preceded2 (terminated_eval (kw_eval hk) (sp1_eval hw hn)) (kw_first hd rfl)))
  · refine Fails.alt_cons (by other_kw hk) (Fails.alt_cons (by other_kw hk) (Fails.alt_cons (by other_kw hk) (Fails.alt_cons (by other_kw hk)
      (Fails.alt_cons (by other_kw hk) (Fails.alt_cons (by other_kw hk) (Fails.alt_cons (Fails.map (Fails.preceded2 (terminated_eval (kw_eval hk) (sp1_eval hw hn)) (tag1_bracket hd rfl)))
        (Fails.alt_cons (Fails.map (Fails.preceded2 (terminated_eval (kw_eval hk) (sp1_eval hw hn)) (Fails.preceded (Fails.terminated (kw_fails hd (by decide))))) ) ?_)))))))
    refine Fails.map (Fails.map (Fails.pair2 (Fails.opt (Fails.delimited (kw_fails hk (by decide)))) (Fails.pair (Fails.terminated ?_))))
    exact Fails.alt_cons (Fails.map (Fails.pair (Fails.preceded (Fails.terminated (kw_fails hk (by decide))))))
      (Fails.map (Fails.preceded (Fails.terminated (kw_fails hk (by decide)))))

/-- With white space before the brace every group is taken after WHERE, and without WHERE no white space is needed.  Missing for the full
property: `WHERE{`; for the other keywords see C38, C48 and C54, whose texts have white space there. -/
theorem C60_where_partial (g : GroupGraphPattern) (s r : Str) (h : cWhere cGroup g s) : whereClause (s ++ r) = .ok r g :=
  (where_eval (fun _ _ h => cGroup_reads h) h r).1

/-! Cases of C60. -/
example : ∃ e, sparqlQueryStmt c!"SELECT * WHERE{ }" = .err e := ⟨_, rfl⟩
example : ∃ e, sparqlQueryStmt c!"ASK{ }" = .err e := ⟨_, rfl⟩
example : ∃ e, groupGraphPattern c!"{ FILTER(1) }" = .err e := ⟨_, rfl⟩
example : ∃ g, groupGraphPattern c!"{ FILTER (1) }" = .ok [] g := ⟨_, rfl⟩
example : ∃ g, groupGraphPattern c!"{ { }OPTIONAL { } }" = .err g := ⟨_, rfl⟩
example : update c!"INSERT DATA{ }" = .ok c!"INSERT DATA{ }" (.mk ⟨[]⟩ none none) := rfl

/-! ## C61: DESCRIBE without a pattern -/

/-- What DESCRIBE describes, with no white space after it. -/
inductive Targets : Str → Prop
  | all : Targets c!"*"
  | list {l s} : Sep1 Ws1 cVarOrIri l s → Targets s

/-- A DESCRIBE query that ends with its targets is rejected, after any prologue. -/
theorem C61_end_violated (p : Prologue) (ps w0 k w s : Str) (hp : cPrologue p ps) (hw0 : Ws w0) (hk : CaseVariant c!"describe" k) (hw : Ws1 w) (h : Targets s) :
    ∃ pos e, sparqlQueryStmt (ps ++ (w0 ++ (k ++ (w ++ s)))) = .err (.error pos e) := by
  have hq := stmt_front hp hw0 (q := k ++ (w ++ s)) ⟨_, k, w ++ s, rfl, hk, by simp⟩
  refine Fails.map (Fails.pair2 hq (Fails.pair ?_))
  refine Fails.alt_cons (Fails.map (Fails.map (Fails.tuple4 (Fails.terminated (Fails.map (Fails.tuple3 (kw_fails hk (by decide)))))))) ?_
  refine Fails.alt_cons (Fails.map (Fails.preceded (Fails.terminated (kw_fails hk (by decide))))) ?_
  refine Fails.alt_cons (Fails.map (Fails.map (Fails.pair2 (kw_eval hk) (Fails.pair ?_)))) (Fails.map (Fails.map (Fails.tuple4 (Fails.terminated (kw_fails hk (by decide))))))
  cases h with
  | all =>
    exact Fails.delimited3 (sp1_eval hw (not_startsWs_cons rfl)) (alt_eval2 (Fails.map (Fails.sep1 (First.cons rfl)))
      (map_eval (f := fun _ => VarOrIrisOrAll.all) char_eval)) (sp1_fails not_startsWs_nil)
  | @list l s h =>
    have hst := ws_stuck (p := varOrIri) (fun a s r h hr => varOrIri_accepts a s r h hr)
      (fun a s x h => by obtain ⟨c, t, rfl, hc⟩ := cVarOrIri_toks a s h; exact ⟨hc.not_startsWs _, notStart_cons (hc.ne (by simp))⟩) (r := []) ⟨by simp, by simp⟩ not_startsWs_nil h
    rw [List.append_nil] at hst
    refine Fails.delimited2 (sp1_eval hw hst.2.1) (Fails.alt_cons (Fails.map hst.1) (Fails.map ?_))
    cases l with
    | nil => exact h.elim
    | cons a l =>
      obtain ⟨x, y, rfl, hx, _⟩ := h
      obtain ⟨c, t, rfl, hc⟩ := cVarOrIri_toks a x hx
      exact char_fails (hc.ne (by simp))

/-- With white space after the targets the query is read to the end of the input.  Missing for the full property: the end of input right
after the targets. -/
theorem C61_partial (p : Prologue) (v : VarOrIrisOrAll) (ps w0 k w s : Str) (hp : cPrologue p ps) (hw0 : Ws w0) (hk : CaseVariant c!"describe" k)
    (hw : Ws1 w) (h : cTargets v s) : ∃ w', Ws w' ∧ sparqlQueryStmt (ps ++ (w0 ++ (k ++ (w ++ s)))) = .ok w'
      ⟨p, .describe { varOrIrisOrAll := v, datasetClauses := [], whereClause := none, solutionModifier := .mk none none none none }, none⟩ :=
  queryStmt_eval ⟨rfl, ps, _, rfl, hp, w0, _, rfl, hw0, k, _, rfl, hk, w, _, rfl, hw, s, [], by simp, h, [], [], rfl, rfl, [], [], rfl, rfl,
    [], [], rfl, rfl, [], [], rfl, rfl, [], [], rfl, rfl, rfl⟩

/-! Cases of C61. -/
example : ∃ e, sparqlQueryStmt c!"DESCRIBE <x>" = .err e := ⟨_, rfl⟩
example : ∃ q, sparqlQueryStmt c!"DESCRIBE <x> " = .ok [] q := ⟨_, rfl⟩
example : Targets c!"?a <x>" := .list (l := [.var (.qmark c!"a"), .iri (.iri c!"x")])
  ⟨c!"?a", c!" <x>", rfl, ⟨rfl, by decide, by decide⟩, c!" <x>", [], rfl, ⟨c!" ", c!"<x>", rfl, ws1_rfl rfl, rfl, by simp [CIriChar]; decide⟩, rfl⟩

/-! ## C62: the text that was read, read again -/

/-- Violated by every accepted query with ORDER BY, GROUP BY or HAVING and neither LIMIT, OFFSET nor VALUES: cut at the place where reading
stopped, the text does not give the same tree again. -/
theorem C62_query_violated (s r : Str) (p : Prologue) (q : SparqlQuery) (o : Option OrderClause) (g : Option GroupClause) (c : Option HavingClause)
    (_ : sparqlQueryStmt (s ++ r) = .ok r ⟨p, q, none⟩) (hm : queryModifier q = .mk o g c none) (hn : ¬ (o = none ∧ g = none ∧ c = none)) :
    sparqlQueryStmt s ≠ .ok [] ⟨p, q, none⟩ :=
  fun h => hn (C31_query_violated s p q o g c h hm)

/-- White space, IRIs, variables and strings: cut where reading stopped they give the same again, for every text. -/
theorem C62_ws_partial (s r w : Str) (h : sp (s ++ r) = .ok r w) : sp s = .ok [] w := by
  obtain ⟨e, hw, _⟩ := (C11_exact _ _ _).mp h
  exact (C11_exact _ _ _).mpr ⟨by simpa using e, hw, not_startsWs_nil⟩

theorem C62_iri_partial (s r v : Str) (h : iriRef (s ++ r) = .ok r v) : iriRef s = .ok [] v := by
  obtain ⟨e, hv⟩ := (C13_exact _ _ _).mp h
  refine (C13_exact _ _ _).mpr ⟨List.append_cancel_right (bs := r) (by simpa using e), hv⟩

theorem C62_var_partial (s r : Str) (v : Var) (h : var (s ++ r) = .ok r v) : var s = .ok [] v := by
  obtain ⟨w, hw, e, h1, h2, _⟩ := (C12_exact _ _ _).mp h
  exact (C12_exact _ _ _).mpr ⟨w, hw, List.append_cancel_right (bs := r) (by simpa using e), h1, h2, notStart_nil⟩

theorem C62_string_partial (s r v : Str) (h : stringLiteral (s ++ r) = .ok r v) : stringLiteral s = .ok [] v := by
  obtain ⟨q, hq, e, h1, h2⟩ := (C15_exact _ _ _).mp h
  exact (C15_exact _ _ _).mpr ⟨q, hq, List.append_cancel_right (bs := r) (by simpa using e), h1, h2⟩

/-- And canonical groups, in front of any text at all. -/
theorem C62_group_partial (g : GroupGraphPattern) (s r : Str) (h : cGroup g s) :
    groupGraphPattern (s ++ r) = .ok r g ∧ groupGraphPattern s = .ok [] g := by
  refine ⟨cGroup_reads h r, ?_⟩
  have := cGroup_reads h []
  rwa [List.append_nil] at this

/-! Cases of C62. -/
example : ∃ q, sparqlQueryStmt c!"ASK { } ORDER BY ?x }" = .ok c!" }" ⟨⟨[]⟩, q, none⟩ ∧ sparqlQueryStmt c!"ASK { } ORDER BY ?x" ≠ .ok [] ⟨⟨[]⟩, q, none⟩ :=
  ⟨_, rfl, C62_query_violated c!"ASK { } ORDER BY ?x" c!" }" ⟨[]⟩ _ _ _ _ rfl rfl (by simp)⟩
example : iriRef c!"<x>>>" = .ok c!">>" c!"x" := rfl

end NomSparql
