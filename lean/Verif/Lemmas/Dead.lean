import Verif.Lemmas.Dies

/-!
# Alternatives that are never reached

`nil` and `anon` give up for good once they have seen their first character (`cut`), so that what is tried after them on the same character is
never reached.
-/

namespace NomSparql

theorem cut_not_fails {p : P α} {i : Str} : ¬ Fails (cut p) i := by
  rintro ⟨pos, k, h⟩
  unfold cut at h
  split at h <;> first | (cases h; done) | simp_all

theorem nil_hard (x : Str) : ¬ Fails nil ('(' :: x) := by
  rintro ⟨pos, k, h⟩
  unfold nil at h
  rw [preceded_cont char_eval] at h
  exact cut_not_fails ⟨pos, k, h⟩

theorem anon_hard (x : Str) : ¬ Fails anon ('[' :: x) := by
  rintro ⟨pos, k, h⟩
  unfold anon at h
  rw [preceded_cont char_eval] at h
  exact cut_not_fails ⟨pos, k, h⟩

theorem Fails.of_map {p : P α} {f : α → β} {i : Str} (h : Fails (NomSparql.map p f) i) : Fails p i := by
  obtain ⟨pos, k, h⟩ := h
  unfold NomSparql.map at h
  split at h
  · cases h
  · rename_i e; cases h; exact ⟨_, _, e⟩

theorem Fails.of_alt {p q : P α} {ps : List (P α)} {i : Str} (h : Fails (NomSparql.alt (p :: q :: ps)) i) : Fails p i ∧ Fails (NomSparql.alt (q :: ps)) i := by
  obtain ⟨pos, k, h⟩ := h
  rw [NomSparql.alt] at h
  split at h
  · rename_i e
    exact ⟨⟨_, _, e⟩, _, _, h⟩
  · rename_i hne; exact absurd h (hne _ _)

/-- `varOrTerm` is never undecided on an opening bracket. -/
theorem varOrTerm_hard {c : Char} (hc : c = '(' ∨ c = '[') (x : Str) : ¬ Fails varOrTerm (c :: x) := by
  intro h
  have h1 := (Fails.of_alt h).2.of_map
  have h2 := (Fails.of_alt (Fails.of_alt (Fails.of_alt (Fails.of_alt h1).2).2).2).2
  rcases hc with rfl | rfl
  · exact nil_hard x (Fails.of_alt h2).2.of_map
  · exact anon_hard x (Fails.of_alt (Fails.of_alt h2).1.of_map).2.of_map

theorem open_ok {i r : Str} {a : Char} {c : Char} (h : char c i = .ok r a) : ∃ x, i = c :: x := by
  obtain ⟨_, rfl⟩ := char_ok.mp h
  exact ⟨r, rfl⟩

theorem cut_dies {p : P α} {i : Str} (h : Fails p i) : ∃ pos k, Dies (.failure pos k) (cut p) i := by
  obtain ⟨pos, k, h⟩ := h
  exact ⟨pos, k, fatal_failure, by unfold cut; rw [h]⟩

theorem char_notStart {c : Char} {x : Str} (h : NotStart (· = c) x) : Fails (char c) x := by
  cases x with
  | nil => exact ⟨_, _, rfl⟩
  | cons d t => exact char_fails (h d t rfl)

theorem varOrTerm_dies_paren {w x : Str} (hw : Ws w) (hx : ¬ StartsWs x) (hc : NotStart (· = ')') x) :
    ∃ pos k, Dies (.failure pos k) varOrTerm ('(' :: (w ++ x)) := by
  obtain ⟨pos, k, hd⟩ := cut_dies (Fails.terminated2 (sp_eval hw hx) (char_notStart hc))
  refine ⟨pos, k, Dies.alt_cons (Fails.map (First.cons rfl)) (Dies.map ?_)⟩
  exact Dies.alt_cons (Fails.map (First.cons rfl)) (Dies.alt_cons (Fails.map (First.cons rfl)) (Dies.alt_cons (Fails.map (First.cons rfl))
    (Dies.alt_cons (Fails.map (First.cons rfl)) (Dies.alt_cons (Fails.map (First.cons rfl)) (Dies.map (Dies.preceded2 char_eval hd))))))

theorem varOrTerm_dies_bracket {w x : Str} (hw : Ws w) (hx : ¬ StartsWs x) (hc : NotStart (· = ']') x) :
    ∃ pos k, Dies (.failure pos k) varOrTerm ('[' :: (w ++ x)) := by
  obtain ⟨pos, k, hd⟩ := cut_dies (Fails.terminated2 (sp_eval hw hx) (char_notStart hc))
  refine ⟨pos, k, Dies.alt_cons (Fails.map (First.cons rfl)) (Dies.map ?_)⟩
  refine Dies.alt_cons (Fails.map (First.cons rfl)) (Dies.alt_cons (Fails.map (First.cons rfl)) (Dies.alt_cons (Fails.map (First.cons rfl))
    (Dies.alt_cons (Fails.map (First.cons rfl)) (Dies.alt (Dies.map ?_)))))
  exact Dies.alt_cons (Fails.map (Fails.separatedPair (First.cons (c := '[') rfl))) (Dies.map (Dies.preceded2 char_eval hd))

theorem triplesNode_open {gn : P GraphNode} {i r : Str} {t : TriplesNode} (h : triplesNodeS gn i = .ok r t) :
    ∃ c x, i = c :: x ∧ (c = '(' ∨ c = '[') := by
  rcases alt_two_ok.mp h with h | ⟨_, h⟩
  · obtain ⟨_, h, _⟩ := map_ok.mp h
    obtain ⟨_, _, _, _, h, _⟩ := delimited_ok.mp h
    obtain ⟨x, rfl⟩ := open_ok h
    exact ⟨_, x, rfl, .inl rfl⟩
  · obtain ⟨_, h, _⟩ := map_ok.mp h
    obtain ⟨_, _, _, _, h, _⟩ := delimited_ok.mp h
    obtain ⟨_, _, h, _⟩ := terminated_ok.mp h
    obtain ⟨x, rfl⟩ := open_ok h
    exact ⟨_, x, rfl, .inr rfl⟩

theorem triplesNodePath_open {gn : P GraphNodePath} {i r : Str} {t : TriplesNodePath} (h : triplesNodePathS gn i = .ok r t) :
    ∃ c x, i = c :: x ∧ (c = '(' ∨ c = '[') := by
  rcases alt_two_ok.mp h with h | ⟨_, h⟩
  · obtain ⟨_, h, _⟩ := map_ok.mp h
    obtain ⟨_, _, _, _, h, _⟩ := delimited_ok.mp h
    obtain ⟨_, _, h, _⟩ := terminated_ok.mp h
    obtain ⟨_, rfl⟩ := tag_ok.mp h
    exact ⟨_, _, rfl, .inr rfl⟩
  · obtain ⟨_, h, _⟩ := map_ok.mp h
    obtain ⟨_, _, _, _, h, _⟩ := delimited_ok.mp h
    obtain ⟨_, rfl⟩ := tag_ok.mp h
    exact ⟨_, _, rfl, .inl rfl⟩

theorem graphNodeStep_ok {gn : P GraphNode} {i r : Str} {n : GraphNode} (h : graphNodeStep gn i = .ok r n) :
    ∃ v, n = .varOrTerm v ∧ varOrTerm i = .ok r v := by
  rcases alt_two_ok.mp h with h | ⟨h1, h⟩
  · obtain ⟨v, h2, rfl⟩ := map_ok.mp h
    exact ⟨v, rfl, h2⟩
  · obtain ⟨_, h, _⟩ := map_ok.mp h
    obtain ⟨c, x, rfl, hc⟩ := triplesNode_open h
    exact absurd (Fails.of_map h1) (varOrTerm_hard hc x)

theorem graphNodePathStep_ok {gn : P GraphNodePath} {i r : Str} {n : GraphNodePath} (h : graphNodePathStep gn i = .ok r n) :
    ∃ v, n = .varOrTerm v ∧ varOrTerm i = .ok r v := by
  rcases alt_two_ok.mp h with h | ⟨h1, h⟩
  · obtain ⟨v, h2, rfl⟩ := map_ok.mp h
    exact ⟨v, rfl, h2⟩
  · obtain ⟨_, h, _⟩ := map_ok.mp h
    obtain ⟨c, x, rfl, hc⟩ := triplesNodePath_open h
    exact absurd (Fails.of_map h1) (varOrTerm_hard hc x)

theorem close_varOrTerm {w y : Str} (hw : Ws w) : Fails varOrTerm (w ++ ')' :: y) := by
  cases w with
  | nil => exact First.cons rfl
  | cons c t =>
    have hi := iri_fails_ws hw (by simp) (not_startsWs_cons (c := ')') (r := y) rfl) (notStart_cons (by decide))
    refine Fails.alt_cons (Fails.map ?_) (Fails.map (Fails.alt_cons (Fails.map hi) ?_)) <;>
    rcases wsStart_iff.mp (ws_first hw _ _ rfl) with rfl | rfl | rfl | rfl | rfl <;> exact First.cons rfl

theorem close_node {w y : Str} (hw : Ws w) : Fails graphNodePath (w ++ ')' :: y) := by
  unfold Fails
  rw [graphNodePath_eq]
  refine Fails.alt_cons (Fails.map (close_varOrTerm hw)) (Fails.map ?_)
  cases w with
  | nil => exact First.cons rfl
  | cons c t => rcases wsStart_iff.mp (ws_first hw _ _ rfl) with rfl | rfl | rfl | rfl | rfl <;> exact First.cons rfl

/-- A subject in WHERE is never a collection or a property list. -/
theorem triplesSameSubjectPath_ok {i r : Str} {t : TriplesSameSubjectPath} (h : triplesSameSubjectPath i = .ok r t) :
    ∃ v p, t = .term v p ∧ spSep1 varOrTerm propertyListPathNotEmpty i = .ok r (v, p) := by
  rcases alt_two_ok.mp h with h | ⟨h1, h⟩
  · obtain ⟨⟨v, p⟩, h2, rfl⟩ := map_ok.mp h
    exact ⟨v, p, rfl, h2⟩
  · exfalso
    obtain ⟨_, h, _⟩ := map_ok.mp h
    obtain ⟨_, h, _⟩ := pair_ok_iff.mp h
    have h2 := Fails.of_map h1
    obtain ⟨c, x, rfl, hc⟩ := triplesNodePath_open h
    obtain ⟨j, w, e⟩ := Total.out (p := sp) x
    obtain ⟨rfl, hw, hn⟩ := sp_ok_iff.mp e
    have dead : ∀ pos k, ¬ Dies (.failure pos k) varOrTerm (c :: (w ++ j)) := by
      intro pos k hd
      obtain ⟨_, _, h3⟩ := h2
      have h4 : spSep1 varOrTerm propertyListPathNotEmpty (c :: (w ++ j)) = .err (.failure pos k) := hd.pair.2
      rw [h3] at h4; cases h4
    rcases hc with rfl | rfl
    · by_cases hj : NotStart (· = ')') j
      · obtain ⟨pos, k, hd⟩ := varOrTerm_dies_paren hw hn hj
        exact dead _ _ hd
      · obtain ⟨y, rfl⟩ : ∃ y, j = ')' :: y := by
          cases j with
          | nil => exact absurd notStart_nil hj
          | cons d t =>
            by_cases hd : d = ')'
            · exact ⟨t, by rw [hd]⟩
            · exact hj.elim (notStart_cons hd)
        refine Fails.not_ok (p := triplesNodePath) ?_ h
        refine Fails.alt_cons (Fails.map (Fails.delimited (Fails.terminated (First.cons rfl)))) (Fails.map ?_)
        exact Fails.delimited2 (tag_eval (t := ['('])) (Fails.many1 (close_node hw))
    · by_cases hj : NotStart (· = ']') j
      · obtain ⟨pos, k, hd⟩ := varOrTerm_dies_bracket hw hn hj
        exact dead _ _ hd
      · obtain ⟨y, rfl⟩ : ∃ y, j = ']' :: y := by
          cases j with
          | nil => exact absurd notStart_nil hj
          | cons d t =>
            by_cases hd : d = ']'
            · exact ⟨t, by rw [hd]⟩
            · exact hj.elim (notStart_cons hd)
        refine Fails.not_ok (p := triplesNodePath) ?_ h
        refine Fails.alt_cons (Fails.map (Fails.delimited2 (terminated_eval (tag_eval (t := ['['])) e) ?_)) (Fails.map (First.cons rfl))
        exact Fails.map (Fails.tuple3 (Fails.terminated (First.cons rfl)))

theorem expressionListS_ok {R : Rec} {i r : Str} {l : ExpressionList} (h : expressionListS R i = .ok r l) : l = .nil := by
  rcases alt_two_ok.mp h with h | ⟨h1, h⟩
  · obtain ⟨_, _, e⟩ := map_ok.mp h; exact e.symm
  · obtain ⟨_, h, _⟩ := map_ok.mp h
    obtain ⟨_, _, _, _, h, _⟩ := delimited_ok.mp h
    obtain ⟨x, rfl⟩ := open_ok h
    exact absurd (Fails.of_map h1) (nil_hard x)

theorem argListS_ok {R : Rec} {i r : Str} {l : ArgList} (h : argListS R i = .ok r l) : l = .nil := by
  rcases alt_two_ok.mp h with h | ⟨h1, h⟩
  · obtain ⟨_, _, e⟩ := map_ok.mp h; exact e.symm
  · obtain ⟨_, h, _⟩ := map_ok.mp h
    obtain ⟨_, _, _, _, h, _⟩ := delimited_ok.mp h
    obtain ⟨_, _, h, _⟩ := terminated_ok.mp h
    obtain ⟨x, rfl⟩ := open_ok h
    exact absurd (Fails.of_map h1) (nil_hard x)

end NomSparql
