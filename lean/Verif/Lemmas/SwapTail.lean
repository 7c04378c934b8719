import Verif.Lemmas.SwapLeaf

/-!
# What follows a closing bracket

After a graph pattern the code takes a `?` for punctuation (src/graph.rs:207-219).  Texts read by `graph_pattern_not_triples` end with a
closing bracket, and after it no term follows the `?` in texts without leaks.
-/

namespace NomSparql

set_option synthInstance.maxSize 4000
set_option synthInstance.maxHeartbeats 400000

variable {T : Swap}

/-- The text read ends with a closing bracket. -/
class Ends (p : P α) : Prop where
  out : ∀ i r a, p i = .ok r a → ∃ u b, i = u ++ b :: r ∧ (b = ')' ∨ b = '}')

section
variable {p : P α} {q : P β}

instance : Ends (char ')') := ⟨fun _ _ _ e => ⟨[], ')', (char_ok.mp e).2, .inl rfl⟩⟩
instance : Ends (char '}') := ⟨fun _ _ _ e => ⟨[], '}', (char_ok.mp e).2, .inr rfl⟩⟩
instance {f : α → β} [h : Ends p] : Ends (map p f) where
  out i r a e := by
    obtain ⟨x, e, _⟩ := map_ok.mp e
    exact h.out i r x e

theorem Ends.after [h : Ends q] {i j r : Str} {a} (hj : j <:+ i) (e : q j = .ok r a) : ∃ u b, i = u ++ b :: r ∧ (b = ')' ∨ b = '}') := by
  obtain ⟨v, rfl⟩ := hj
  obtain ⟨u, b, rfl, hb⟩ := h.out _ _ _ e
  exact ⟨v ++ u, b, by simp, hb⟩

instance [Good p] [Ends q] : Ends (pair p q) where
  out i r a e := by
    obtain ⟨j, h1, h2⟩ := pair_ok_iff.mp e
    exact Ends.after (Good.ok h1) h2
instance [h : Ends (pair p q)] : Ends (preceded p q) := by unfold preceded; infer_instance
instance [h : Ends (pair p q)] : Ends (terminated p q) := by unfold terminated; infer_instance
instance {s : P γ} [h : Ends (preceded p (terminated q s))] : Ends (delimited p q s) := h
instance {s : P γ} [h : Ends (pair p (preceded s q))] : Ends (separatedPair p s q) := h
instance {s : P γ} [h : Ends (pair p (pair q s))] : Ends (tuple3 p q s) := h
instance {s : P γ} {t : P δ} [h : Ends (pair p (tuple3 q s t))] : Ends (tuple4 p q s t) := h
instance [h : Ends (delimited (char '(') p (char ')'))] : Ends (bracketted p) := h
instance {t} [h : Ends (preceded (terminated (tagNoCase t) sp1) p)] : Ends (precededTag1 t p) := h
instance {t} [h : Ends (preceded (terminated (tagNoCase t) sp) p)] : Ends (precededTag t p) := h
instance {t} [h : Ends (precededTag t (bracketted p))] : Ends (precededBracketted t p) := h
instance [h : Ends (separatedPair p sp q)] : Ends (spSep p q) := h
instance [h : Ends (separatedPair p sp1 q)] : Ends (spSep1 p q) := h
instance [h : Ends p] : Ends (alt [p]) := ⟨fun i r a e => h.out i r a e⟩
instance {p' : P α} {ps} [h : Ends p] [h' : Ends (alt (p' :: ps))] : Ends (alt (p :: p' :: ps)) where
  out i r a e := by
    rcases alt_two_ok.mp e with e | ⟨_, e⟩
    · exact h.out _ _ _ e
    · exact h'.out _ _ _ e
instance [h : Ends p] : Ends (cut p) where
  out i r a e := h.out i r a (cut_ok.mp e)
theorem sepRun_ends {s : P γ} [Good s] [h : Ends p] {i r : Str} {as} (hr : SepRun s p i r as) : as = [] ∧ r = i ∨ ∃ u b, i = u ++ b :: r ∧ (b = ')' ∨ b = '}') := by
  induction hr with
  | stopSep _ => exact .inl ⟨rfl, rfl⟩
  | stopElem _ _ _ => exact .inl ⟨rfl, rfl⟩
  | @step i j l r s a as e1 _ e2 _ _ ih =>
    obtain ⟨v, rfl⟩ := Good.ok e1
    obtain ⟨w, c, rfl, hc⟩ := h.out _ _ _ e2
    refine .inr ?_
    rcases ih with ⟨_, rfl⟩ | ⟨u, b, rfl, hb⟩
    · exact ⟨v ++ w, c, by simp, hc⟩
    · exact ⟨v ++ w ++ c :: u, b, by simp, hb⟩
instance {s : P γ} [Good s] [Good p] [h : Ends p] : Ends (separatedNonemptyList s p) where
  out i r a e := by
    obtain ⟨x, as, j, _, e1, _, h2⟩ := separatedNonemptyList_ok.mp e
    obtain ⟨w, c, rfl, hc⟩ := h.out _ _ _ e1
    rcases sepRun_ends h2 with ⟨_, rfl⟩ | ⟨u, b, rfl, hb⟩
    · exact ⟨w, c, rfl, hc⟩
    · exact ⟨w ++ c :: u, b, by simp, hb⟩
end

instance : Ends nil := by unfold nil; infer_instance
instance : Ends inlineDataFull := by unfold inlineDataFull; infer_instance
instance : Ends inlineDataOneVar := by unfold inlineDataOneVar; infer_instance
instance : Ends datablock := by unfold datablock; infer_instance
instance : Ends inlineData := by unfold inlineData; infer_instance

section
variable {R : Rec} [RecGood R] [Ends R.ggp]
instance : Ends (brackettedExpr3S R) := by unfold brackettedExpr3S bracketted3; infer_instance
instance : Ends (expressionAsVarS R) := by unfold expressionAsVarS; infer_instance
instance : Ends (expressionListS R) := by unfold expressionListS; infer_instance
instance : Ends (brackettedExpressionS R) := by unfold brackettedExpressionS; infer_instance
instance : Ends (bindS R) := by unfold bindS; infer_instance
instance : Ends (regexExpressionS R) := by unfold regexExpressionS; infer_instance
instance : Ends (substringExpressionS R) := by unfold substringExpressionS; infer_instance
instance : Ends (strReplaceExpressionS R) := by unfold strReplaceExpressionS; infer_instance
instance : Ends (argListS R) := by unfold argListS; infer_instance
instance : Ends (functionCallS R) := by unfold functionCallS; infer_instance
instance : Ends (countS R) := by unfold countS; infer_instance
instance : Ends (groupConcatS R) := by unfold groupConcatS; infer_instance
instance : Ends (aggregateS R) := by unfold aggregateS; infer_instance
instance : Ends (builtInCall1S R) := by unfold builtInCall1S; infer_instance
instance : Ends (builtInCall2S R) := by unfold builtInCall2S; infer_instance
instance : Ends (builtInCallS R) := by unfold builtInCallS; infer_instance
instance : Ends (constraintS R) := by unfold constraintS; infer_instance
instance : Ends (filterS R) := by unfold filterS; infer_instance
instance : Ends (groupOrUnionGraphPatternS R) := by unfold groupOrUnionGraphPatternS; infer_instance
instance : Ends (optionalGroupGraphPatternS R) := by unfold optionalGroupGraphPatternS; infer_instance
instance : Ends (minusGraphPatternS R) := by unfold minusGraphPatternS; infer_instance
instance : Ends (graphGraphPatternS R) := by unfold graphGraphPatternS; infer_instance
instance : Ends (serviceGraphPatternS R) := by unfold serviceGraphPatternS; infer_instance
instance : Ends (graphPatternNotTriplesS R) := by unfold graphPatternNotTriplesS; infer_instance
end
instance {R : Rec} [RecGood R] : Ends (groupGraphPatternStep R) := by unfold groupGraphPatternStep; infer_instance

/-! ## No term -/

theorem noTerm_iri {t : Str} (h : NoTerm t) (hc : ∀ c, t.head? = some c → c ≠ '<') : Fails iri t := by
  have h1 : Fails pnameNs t := by
    rcases Soft.cases pnameNs t with ⟨r, o, e⟩ | h1
    · obtain ⟨w, hw, rfl, ho⟩ := pnameNs_ok.mp e
      refine absurd ⟨_, w, r, rfl, hw, ?_⟩ h.2.2
      cases o with
      | none => simp [prefixText]
      | some p =>
        obtain ⟨c, t, rfl, hc, ht, _⟩ := ho
        intro d hd
        rcases List.mem_cons.mp hd with rfl | hd
        · exact .inl (.inl (pnB_coded _ hc))
        · exact (ht d hd).imp_left (pnC_coded d)
    · exact h1
  have h2 : Fails iriRef t := First.out t (by
    intro c r e
    have := hc c (by rw [e]; rfl)
    simpa using this)
  have h3 : Fails prefixedName t := by
    unfold prefixedName pnameLn
    exact Fails.alt_cons (Fails.map (Fails.pair h1)) (show Fails (alt [_]) t from Fails.map h1)
  unfold iri
  exact Fails.alt_cons (Fails.map h2) (show Fails (alt [_]) t from Fails.map h3)

theorem noTerm_graphTerm {n s : Str} (hn : VarText n) (h : NoTerm (n ++ s)) : Fails varOrTerm (n ++ s) := by
  have h0 := h
  obtain ⟨c, t, rfl, hc⟩ := varText_first hn
  obtain ⟨h1, h2, h3⟩ := h
  have hd : isDecDigit c = false := by
    have := h1 c rfl
    cases e : isDecDigit c with
    | false => rfl
    | true => exact absurd (isDecDigit_iff.mp e) this
  have odd : ∀ d, isVarChar d = false → c ≠ d := fun d hd e => by rw [e, hd] at hc; cases hc
  have e1 := odd '?' (by decide)
  have e2 := odd '$' (by decide)
  have e3 := odd '\'' (by decide)
  have e4 := odd '"' (by decide)
  have e5 := odd '+' (by decide)
  have e6 := odd '-' (by decide)
  have e7 := odd '.' (by decide)
  have e8 := odd '(' (by decide)
  have e9 := odd '[' (by decide)
  have e10 := odd '<' (by decide)
  have f1 : Fails var (c :: (t ++ s)) := First.cons (by simp [e1, e2])
  have f2 : Fails iri (c :: (t ++ s)) := noTerm_iri h0 (by simp [e10])
  have f3 : Fails rdfLiteral (c :: (t ++ s)) := First.cons (by simp [e3, e4])
  have f4 : Fails numericLiteral (c :: (t ++ s)) := First.cons (by simp [e5, e6, e7, hd])
  have f5 : Fails boolean (c :: (t ++ s)) := by
    have a1 : Fails (tagNoCase c!"false") (c :: (t ++ s)) := ⟨_, _, tagNoCase_error (fun a r e => (h2 a r e).2)⟩
    have a2 : Fails (tagNoCase c!"true") (c :: (t ++ s)) := ⟨_, _, tagNoCase_error (fun a r e => (h2 a r e).1)⟩
    exact .alt_cons a1.map (show Fails (alt [_]) _ from a2.map)
  have f6 : Fails anon (c :: (t ++ s)) := First.cons (by simp [e9])
  have f7 : Fails blankNode (c :: (t ++ s)) := by
    have : Fails (tag c!"_:") (c :: (t ++ s)) := by
      rcases Soft.cases (tag c!"_:") (c :: (t ++ s)) with ⟨r, a, e⟩ | h
      · obtain ⟨_, e⟩ := tag_ok.mp e
        exact absurd ⟨['_'], [], r, e, .nil, by simp [CodedNameChar]⟩ h3
      · exact h
    exact .alt_cons (Fails.map (Fails.separatedPair this)) (show Fails (alt [_]) _ from f6.map)
  have f8 : Fails nil (c :: (t ++ s)) := First.cons (by simp [e8])
  refine .alt_cons f1.map (show Fails (alt [_]) _ from Fails.map ?_)
  exact .alt_cons f2.map (.alt_cons f3.map (.alt_cons f4.map (.alt_cons f5.map (.alt_cons f7.map (show Fails (alt [_]) _ from f8.map)))))

theorem noTerm_block {n s : Str} (hn : VarText n) (h : NoTerm (n ++ s)) : Fails triplesBlock (n ++ s) := by
  have f1 := noTerm_graphTerm hn h
  obtain ⟨c, t, rfl, hc⟩ := varText_first hn
  have odd : ∀ d, isVarChar d = false → c ≠ d := fun d hd e => by rw [e, hd] at hc; cases hc
  have e8 := odd '(' (by decide)
  have e9 := odd '[' (by decide)
  have f2 : Fails triplesNodePath (c :: (t ++ s)) := First.cons (by simp [e8, e9])
  refine Fails.map (Fails.sep1 ?_)
  exact .alt_cons (Fails.map f1.separatedPair) (show Fails (alt [_]) _ from Fails.map f2.separatedPair)

/-! ## Lists with white space between the elements -/

section
variable {p : P α} {V : α → α → Prop}

theorem Sub.sepSp (h : Sub T false false true p V) : ∀ n n' i i',
    Tame T i i' → In T true i i' → i.length < n → i'.length < n' → SubRes T false false (All2 V) i i' (NomSparql.sepLoop sp p n i) (NomSparql.sepLoop sp p n' i')
  | 0, _, _, _, _, _, hn, _ => by omega
  | _ + 1, 0, _, _, _, _, _, hn => by omega
  | n + 1, n' + 1, i, i', tm, t, hn, hn' => by
    unfold NomSparql.sepLoop
    rcases t with t | ⟨_, t⟩
    · have h0 : Sub T false false false sp (fun _ _ => True) := inferInstance
      rcases (h0.out i i' tm t.inn).elim with ⟨r, a, r', a', m, m', e, e', h1, rfl, rfl, h2, h3, _⟩ | ⟨x, x', k, e, e', h1⟩ |
        ⟨x, x', e, e', g1, g2, h1⟩
      · rw [e, e']
        simp only [app_self]
        by_cases hm : m = []
        · rw [if_pos hm, if_pos (h2.mp hm)]; exact .error h1
        · have hm' : m' ≠ [] := fun e => hm (h2.mpr e)
          rw [if_neg hm, if_neg hm']
          have l1 := List.length_pos_iff.mpr hm
          have l2 := List.length_pos_iff.mpr hm'
          simp only [List.length_append] at hn hn'
          rcases (h.out r r' tm.drop h1).elim with ⟨r2, b, r2', b', k, k', f, f', g1, rfl, rfl, g2, g3, g4⟩ | ⟨x, x', k, f, f', g1⟩ |
            ⟨x, x', f, f', y1, y2, g1⟩
          · rw [f, f']
            simp only [List.length_append] at hn hn'
            have n1 : r2 ≠ m ++ (k ++ r2) := by
              intro h
              have := congrArg List.length h
              simp only [List.length_append] at this
              omega
            have n2 : r2' ≠ m' ++ (k' ++ r2') := by
              intro h
              have := congrArg List.length h
              simp only [List.length_append] at this
              omega
            simp only
            rw [if_neg n1, if_neg n2]
            rcases (Sub.sepSp h n n' r2 r2' tm.drop.drop g1 (by omega) (by omega)).elim with
              ⟨r3, c, r3', c', j, j', u, u', w1, rfl, rfl, w2, w3, w4⟩ | ⟨x, x', k, u, u', w1⟩ | ⟨x, x', u, u', _, _, w1⟩
            · rw [u, u']
              exact .ok (m := m ++ k ++ j) (m' := m' ++ k' ++ j') w1 (by simp) (by simp) (by simp [hm, hm']) (by simp) (.cons g4 w4)
            · rw [u, u']; exact ⟨w1, rfl⟩
            · rw [u, u']; exact w1 _ _ _ _ _
          · rw [f, f']; exact .read (m := []) t.inn .nil
          · rw [f, f']
            cases x with
            | error p k => exact absurd rfl (y1 p k)
            | _ =>
              cases x' with
              | error p k => exact absurd rfl (y2 p k)
              | _ => exact g1 _ _ _ _ _
      · rw [e, e']; exact .read (m := []) t.inn .nil
      · rw [e, e']
        cases x with
        | error p k => exact absurd rfl (g1 p k)
        | _ =>
          cases x' with
          | error p k => exact absurd rfl (g2 p k)
          | _ => exact h1 _ _ _ _ _
    · have t0 := t
      obtain ⟨c, j, c', j', rfl, rfl, h1, h2⟩ := t.first
      rw [sp_here (var_not_ws h1), sp_here (var_not_ws h2)]
      simp only [if_true]
      exact .error (a := true) (.inr ⟨rfl, t0⟩)

theorem Sub.separatedListSp (h : Sub T false false true p V) : Sub T false false false (NomSparql.separatedList sp p) (All2 V) where
  out i i' tm t := by
    unfold NomSparql.separatedList
    rcases (h.out i i' tm t).elim with ⟨r, a, r', a', m, m', e, e', h1, rfl, rfl, h2, h3, h4⟩ | ⟨x, x', k, e, e', h1⟩ |
      ⟨x, x', e, e', y1, y2, h1⟩
    · rw [e, e']
      simp only [app_self]
      by_cases hm : m = []
      · rw [if_pos hm, if_pos (h2.mp hm)]; exact .error h1
      · have hm' : m' ≠ [] := fun e => hm (h2.mpr e)
        rw [if_neg hm, if_neg hm']
        rcases (Sub.sepSp h (r.length + 1) (r'.length + 1) r r' tm.drop h1 (by omega) (by omega)).elim with
          ⟨r2, b, r2', b', k, k', f, f', g1, rfl, rfl, g2, g3, g4⟩ | ⟨x, x', k, f, f', g1⟩ | ⟨x, x', f, f', _, _, g1⟩
        · rw [f, f']
          exact .ok (m := m ++ k) (m' := m' ++ k') g1 (by simp) (by simp) (by simp [hm, hm']) (fun hs => by rw [h3 hs, g3 hs])
            (.cons h4 g4)
        · rw [f, f']; exact ⟨g1, rfl⟩
        · rw [f, f']; exact g1 _ _ _ _ _
    · rw [e, e']; exact .read (m := []) t.out.inn .nil
    · rw [e, e']
      cases x with
      | error p k => exact absurd rfl (y1 p k)
      | _ =>
        cases x' with
        | error p k => exact absurd rfl (y2 p k)
        | _ => exact h1 _ _ _ _ _
end

/-! ## A `?` after a graph pattern -/

/-- After `?`: the name of a variable may come. -/
instance : Sub T s false true (char '?') Eq where
  out i i' tm ht := by
    have bad : ∀ {c c' : Char} {j j' : Str}, c ≠ '?' → c' ≠ '?' → In T false (c :: j) (c' :: j') →
        SubRes T s true Eq (c :: j) (c' :: j') (char '?' (c :: j)) (char '?' (c' :: j')) := by
      intro c c' j j' h1 h2 h
      rw [char_err h1, char_err h2]; exact .error h
    have blank : ∀ {c}, IsBlank c → c ≠ '?' := by rintro c h rfl; revert h; decide
    rcases ht.out.head with ⟨rfl, rfl⟩ | ⟨d, j, j', rfl, rfl, h1, h2, h3, _⟩ | ⟨c, w, j, c', w', j', rfl, rfl, h3, h4, h5⟩ |
      ⟨q, b, b', j, j', rfl, rfl, h3, _⟩ | ⟨d, n, n', s, s', rfl, rfl, h3, h4, h5, h6, h7, h8, h9⟩
    · exact .error ht
    · by_cases e : d = '?'
      · subst e
        rw [char_eval, char_eval]
        exact .read (m := ['?']) h2.inn rfl
      · exact bad e e ht
    · exact bad (blank h3) (blank h4) ht
    · have : q ≠ '?' := by rcases h3 with rfl | rfl <;> decide
      exact bad this this ht
    · rcases h3 with rfl | rfl
      · rw [char_eval, char_eval]
        exact .ok (m := ['?']) (m' := ['?']) (.inr ⟨rfl, n, n', s, s', rfl, rfl, h5, h6, h4, h9⟩) rfl rfl Iff.rfl (fun _ => rfl) rfl
      · exact bad (by decide) (by decide) ht

theorem Swapped.name {j j' : Str} (h : Swapped T j j') : ∀ {n : Str}, (∀ c ∈ n, isVarChar c = true) → Swapped T (n ++ j) (n ++ j')
  | [], _ => h
  | c :: n, hn => by
    have hc := hn c (List.mem_cons_self ..)
    have odd : ∀ d, isVarChar d = false → c ≠ d := fun d hd e => by rw [e, hd] at hc; cases hc
    refine .char ?_ (fun e => absurd e (odd _ (by decide))) (fun e => absurd e (odd _ (by decide)))
      (fun e => by rcases e with e | e <;> exact absurd e (odd _ (by decide))) (h.name (fun d hd => hn d (List.mem_cons_of_mem _ hd)))
    simp only [PlainChar, List.mem_cons, List.not_mem_nil, or_false, not_or]
    refine ⟨?_, ?_, ?_, ?_, ?_, ?_, ?_⟩ <;> exact odd _ (by decide)

/-- What follows a graph pattern, if it ended with a bracket in texts without leaks. -/
theorem afterPattern_sub (hb : Sub T false false false triplesBlock (SwTriplesBlock T)) {u u' r r' : Str} {b b' : Char} (hr : Swapped T r r')
    (h1 : b = ')' ∨ b = '}') (h2 : b' = ')' ∨ b' = '}') (tm : Tame T (u ++ b :: r) (u' ++ b' :: r')) :
    SubRes T false true (Opt2 (SwTriplesBlock T)) r r' (preceded (opt (preceded sp (char '?'))) (opt (preceded sp triplesBlock)) r)
      (preceded (opt (preceded sp (char '?'))) (opt (preceded sp triplesBlock)) r') := by
  have tm0 : Tame T r r' := tm.drop.tail
  have hq : Sub T false false true (preceded sp (char '?')) Eq := by
    have h : Sub T false false false sp (fun _ _ => True) := inferInstance
    exact h.preceded inferInstance
  have hs : Sub T false false false (opt (preceded sp triplesBlock)) (Opt2 (SwTriplesBlock T)) := .opt (.preceded inferInstance hb)
  have cont : ∀ {m m' j j' : Str}, In T false j j' → Tame T j j' → r = m ++ j → r' = m' ++ j' → (m = [] ↔ m' = []) →
      SubRes T false true (Opt2 (SwTriplesBlock T)) r r' (opt (preceded sp triplesBlock) j) (opt (preceded sp triplesBlock) j') := by
    intro m m' j j' g1 g2 g3 g4 g5
    rcases (hs.out j j' g2 g1).elim with ⟨r2, c, r2', c', n, n', f, f', k1, rfl, rfl, k2, k3, k4⟩ | ⟨x, x', k, f, f', k1⟩ |
      ⟨x, x', f, f', _, _, k1⟩
    · rw [f, f']
      refine .ok (m := m ++ n) (m' := m' ++ n') k1.out.inn (by rw [g3]; simp) (by rw [g4]; simp) ?_ (by simp) k4
      simp only [List.append_eq_nil_iff]
      exact and_congr g5 k2
    · rw [f, f']; exact ⟨k1, rfl⟩
    · rw [f, f']; exact k1 _ _ _ _ _
  rcases (hq.out r r' tm0 hr.inn).elim with ⟨j, a, j', a', m, m', e, e', g1, rfl, rfl, g2, _, _⟩ | ⟨x, x', k, e, e', g1⟩ |
    ⟨x, x', e, e', y1, y2, g1⟩
  · rw [preceded_cont (opt_eval e), preceded_cont (opt_eval e')]
    rcases g1 with g1 | ⟨_, n, n', s, s', rfl, rfl, k1, k2, k3, k4⟩
    · exact cont g1.inn tm0.drop rfl rfl g2
    · rcases tm with tm | ⟨tm, tm'⟩
      · cases tm n n' k3
        exact cont (k4.name (fun c hc => varText_char (k1.2 c hc))).inn tm0.drop rfl rfl g2
      · have key : ∀ {v : Str} {d : Char} {l z t : Str} {y : Char}, NoLeak (v ++ d :: (z ++ (l ++ t))) → (d = ')' ∨ d = '}') → VarText l →
            preceded sp (char '?') (z ++ (l ++ t)) = .ok (l ++ t) y → opt (preceded sp triplesBlock) (l ++ t) = .ok (l ++ t) none := by
          intro v d l z t y q1 q2 q3 q4
          obtain ⟨_, w, p1, p2⟩ := preceded_ok.mp q4
          obtain ⟨p3, p4, _⟩ := sp_ok_iff.mp p1
          obtain ⟨_, p5⟩ := char_ok.mp p2
          rw [p3, p5] at q1
          have nt := q1 v d w (l ++ t) rfl q2 p4
          obtain ⟨c, l', rfl, hc⟩ := varText_first q3
          exact Fails.opt (Fails.preceded2 (sp_here (var_not_ws hc)) (noTerm_block q3 nt))
        rw [key tm h1 k1 e, key tm' h2 k2 e']
        exact .ok (.inr ⟨rfl, n, n', s, s', rfl, rfl, k1, k2, k3, k4⟩) rfl rfl g2 (by simp) .none
  · rw [preceded_cont (opt_soft e), preceded_cont (opt_soft e')]
    exact cont (m := []) (m' := []) hr.inn tm0 rfl rfl Iff.rfl
  · rw [preceded_stop (opt_hard e y1), preceded_stop (opt_hard e' y2)]; exact g1 _ _ _ _ _

/-- Graph patterns with triples after them. -/
theorem andTriples_sub {R : Rec} [RecGood R] [Ends R.ggp] (hb : Sub T false false false triplesBlock (SwTriplesBlock T))
    (h : Sub T false false false (graphPatternNotTriplesS R) (SwGraphPatternNotTriples T)) :
    Sub T false false true (groupGraphPatternAndTriplesS R) (SwGraphPatternAndTriples T) := by
  unfold groupGraphPatternAndTriplesS separatedPair
  refine Sub.map (V := PrRel (SwGraphPatternNotTriples T) (Opt2 (SwTriplesBlock T))) ⟨fun i i' tm t => ?_⟩ ?_
  · rcases (h.out i i' tm t).elim with ⟨r, a, r', a', m, m', e, e', h1, h2, h2', h3, _, h4⟩ | ⟨x, x', k, e, e', h1⟩ |
      ⟨x, x', e, e', _, _, h1⟩
    · obtain ⟨u, b, hu, hb1⟩ := Ends.out _ _ _ e
      obtain ⟨u', b', hu', hb2⟩ := Ends.out _ _ _ e'
      rw [hu, hu'] at tm
      rcases (afterPattern_sub hb h1.out hb1 hb2 tm).elim with ⟨r2, c, r2', c', n, n', f, f', g1, rfl, rfl, g2, g3, g4⟩ | ⟨x, x', k, f, f', g1⟩ |
        ⟨x, x', f, f', _, _, g1⟩
      · rw [pair_eval e f, pair_eval e' f']
        refine .ok (m := m ++ n) (m' := m' ++ n') g1 (by rw [h2]; simp) (by rw [h2']; simp) ?_ (by simp) ⟨h4, g4⟩
        simp only [List.append_eq_nil_iff]
        exact and_congr h3 g2
      · rw [pair_stop2 e f, pair_stop2 e' f']; exact ⟨g1, rfl⟩
      · rw [pair_stop2 e f, pair_stop2 e' f']; exact g1 _ _ _ _ _
    · rw [pair_stop e, pair_stop e']; exact ⟨h1, rfl⟩
    · rw [pair_stop e, pair_stop e']; exact h1 _ _ _ _ _
  · rintro ⟨a, b⟩ ⟨a', b'⟩ ⟨h1, h2⟩
    exact .mk h1 h2.some h2.both

end NomSparql
