import Verif.Lemmas.BracketsAll
import Verif.Lemmas.Stops
import Verif.Lemmas.Sound
import Verif.Lemmas.Accept

/-!
# The places of recoverable errors

A list gives up only between two elements, where its separator reads nothing; of alternatives, the last one reports.
-/

namespace NomSparql

section
variable {p : P α} {q : P β}

theorem opt_never_error {i pos k} : opt p i ≠ .err (.error pos k) := by
  unfold opt
  split <;> simp_all

theorem pair_error {i pos k} (h : pair p q i = .err (.error pos k)) :
    p i = .err (.error pos k) ∨ ∃ r a, p i = .ok r a ∧ q r = .err (.error pos k) := by
  unfold pair at h
  split at h
  · rename_i r a e
    refine .inr ⟨r, a, e, ?_⟩
    split at h
    · cases h
    · rename_i e2; cases h; exact e2
  · rename_i e; cases h; exact .inl e

theorem map_error {f : α → β} {i pos k} (h : map p f i = .err (.error pos k)) : p i = .err (.error pos k) := by
  unfold map at h
  split at h
  · cases h
  · rename_i e; cases h; exact e

theorem sepLoop_error [Good q] [Bal q] [Good p] [Bal p] [Consumes p] {pos k} : ∀ {n i}, sepLoop q p n i = .err (.error pos k) →
    ∃ s b, i = s ++ pos ∧ Nested s ∧ k = .SeparatedList ∧ q pos = .ok pos b
  | 0, i, h => by cases h
  | n + 1, i, h => by
    unfold sepLoop at h
    split at h
    · cases h
    · rename_i hne e
      cases h
      exact absurd rfl (hne _ _)
    · rename_i r b e
      split at h
      · rename_i hr; cases h; subst hr
        exact ⟨[], b, rfl, .nil, rfl, e⟩
      · split at h
        · cases h
        · rename_i hne e2
          cases h
          exact absurd rfl (hne _ _)
        · rename_i r2 a e2
          have hlt := Consumes.out _ _ _ e2
          split at h
          · rename_i hr
            have := (Good.ok (p := q) e).length_le
            subst hr; omega
          · split at h
            · cases h
            · rename_i e3
              cases h
              obtain ⟨s, b', rfl, hs, hk, hq⟩ := sepLoop_error e3
              obtain ⟨t, h1, ht⟩ := Bal.out e
              obtain ⟨u, h2, hu⟩ := Bal.out e2
              exact ⟨t ++ (u ++ s), b', by rw [h1, h2]; simp, ht.append (hu.append hs), hk, hq⟩

theorem separatedList_error [Good q] [Bal q] [Good p] [Bal p] [Consumes p] {pos k i} (h : separatedList q p i = .err (.error pos k)) :
    ∃ s b, i = s ++ pos ∧ Nested s ∧ k = .SeparatedList ∧ q pos = .ok pos b := by
  unfold separatedList at h
  split at h
  · cases h
  · rename_i hne e
    cases h
    exact absurd rfl (hne _ _)
  · rename_i r a e
    have hlt := Consumes.out _ _ _ e
    split at h
    · rename_i hr; subst hr; omega
    · split at h
      · cases h
      · rename_i e3
        cases h
        obtain ⟨s, b', rfl, hs, hk, hq⟩ := sepLoop_error e3
        obtain ⟨t, h1, ht⟩ := Bal.out e
        exact ⟨t ++ s, b', by rw [h1]; simp, ht.append hs, hk, hq⟩

theorem alt_error_last {ps : List (P α)} {i pos k} (h : alt (ps ++ [p]) i = .err (.error pos k)) : p i = .err (.error pos k) := by
  induction ps with
  | nil => exact h
  | cons q ps ih =>
    apply ih
    obtain ⟨x, xs, e⟩ : ∃ x xs, ps ++ [p] = x :: xs := by cases ps <;> simp
    rw [List.cons_append, e] at h
    unfold alt at h
    rw [e]
    split at h
    · exact h
    · rename_i hne; exact absurd h (hne _ _)

theorem delimited_third {s : P γ} {i r r' a b e} (h1 : p i = .ok r a) (h2 : q r = .ok r' b) (h3 : s r' = .err e) :
    delimited p q s i = .err e := by
  unfold delimited preceded terminated map pair
  rw [h1]; simp only; rw [h2]; simp only; rw [h3]

theorem char_error {c : Char} {i pos k} (h : char c i = .err (.error pos k)) : pos = i ∧ k = .Char ∧ i.head? ≠ some c := by
  unfold char at h
  split at h
  · split at h
    · cases h
    · rename_i hd; cases h; exact ⟨rfl, rfl, by simpa using hd⟩
  · cases h; exact ⟨rfl, rfl, by simp⟩

end

theorem prologue_never_error {i pos k} : prologue i ≠ .err (.error pos k) := by
  intro h
  unfold prologue at h
  obtain ⟨_, _, _, _, _, h2⟩ := separatedList_error (map_error h)
  have := Consumes.out _ _ _ h2
  omega

theorem groupSub_error {R : Rec} [RecGood R] [RecBal R] {i pos k} (h : groupGraphPatternSubS R i = .err (.error pos k)) :
    ∃ s, i = s ++ pos ∧ Nested s ∧ k = .SeparatedList ∧ ¬ StartsWs pos := by
  unfold groupGraphPatternSubS at h
  rcases pair_error (map_error h) with h | ⟨r, a, h1, h⟩
  · exact absurd h opt_never_error
  · obtain ⟨s, b, rfl, hs, hk, hq⟩ := separatedList_error h
    obtain ⟨t, rfl, ht⟩ := Bal.out h1
    exact ⟨t ++ s, by simp, ht.append hs, hk, (sp_ok_iff.mp hq).2.2⟩

theorem group_error {R : Rec} [RecGood R] [RecBal R] {i pos k} (h : groupGraphPatternStep R i = .err (.error pos k)) :
    (pos = i ∧ k = .Char ∧ i.head? ≠ some '{') ∨
    ∃ s, i = '{' :: (s ++ pos) ∧ Nested s ∧ ¬ StartsWs pos ∧ (k = .Char ∧ pos.head? ≠ some '}' ∨ k = .SeparatedList) := by
  unfold groupGraphPatternStep delimited at h
  rcases pair_error (map_error h) with h1 | ⟨r, a, h1, h2⟩
  · exact .inl (char_error h1)
  obtain ⟨rfl⟩ : i = '{' :: r := (char_ok.mp h1).2
  right
  rcases pair_error (map_error h2) with h3 | ⟨r', a', h3, h4⟩
  · unfold spEnc delimited at h3
    rcases pair_error (map_error h3) with h4 | ⟨r1, w, h4, h5⟩
    · obtain ⟨_, _, e⟩ := Total.out (p := sp) r; rw [e] at h4; cases h4
    obtain ⟨w, rfl, hn⟩ := Bal.out h4
    rcases pair_error (map_error h5) with h6 | ⟨r2, a, _, h6⟩
    · obtain ⟨s, rfl, hs, hk, hp⟩ := groupSub_error (map_error (alt_error_last (ps := [_]) h6))
      exact ⟨w ++ s, by simp, hn.append hs, hp, .inr hk⟩
    · obtain ⟨_, _, e⟩ := Total.out (p := sp) r2; rw [e] at h6; cases h6
  · obtain ⟨rfl, rfl, hc⟩ := char_error h4
    obtain ⟨s, rfl, hs⟩ := Bal.out h3
    refine ⟨s, rfl, hs, ?_, .inl ⟨rfl, hc⟩⟩
    unfold spEnc delimited at h3
    obtain ⟨r1, _, _, h5⟩ := preceded_ok.mp h3
    unfold terminated at h5
    obtain ⟨x, h6, _⟩ := map_ok.mp h5
    obtain ⟨r2, _, h7⟩ := pair_ok h6
    exact (sp_ok_iff.mp h7).2.2

theorem spItem_error {i pos k} (h : spItem i = .err (.error pos k)) : ∃ s, i = s ++ pos ∧ Shallow s := by
  have h1 : newLine i = .err (.error pos k) := alt_error_last (ps := [_]) h
  unfold newLine recognize at h1
  split at h1
  · cases h1
  rename_i h2
  cases h1
  have hone : ∀ {j pos k}, oneOf ['\r', '\n'] j = .err (.error pos k) → pos = j := by
    intro j pos k h
    unfold oneOf at h
    repeat' split at h
    all_goals first | (cases h; rfl) | cases h
  rcases pair_error h2 with h3 | ⟨r, a, h3, h4⟩
  · exact absurd h3 opt_never_error
  obtain rfl := hone h4
  by_cases hh : ∃ j, i = '#' :: j
  · obtain ⟨j, rfl⟩ := hh
    obtain ⟨r, s, h5, rfl, h6, _⟩ := many0_noneOf ['\n', '\r'] j
    have h7 : opt (preceded (char '#') (many0 (noneOf ['\n', '\r']))) ('#' :: (s ++ r)) = .ok r (some s) := opt_eval (preceded_eval char_eval h5)
    rw [h7] at h3
    cases h3
    exact ⟨'#' :: s, rfl, .comment fun c hc => by have := h6 c hc; simpa using this⟩
  · have h7 : opt (preceded (char '#') (many0 (noneOf ['\n', '\r']))) i = .ok i none := Fails.opt (Fails.preceded (by
      rcases Soft.cases (char '#') i with ⟨r, c, e⟩ | e
      · exact absurd ⟨_, (char_ok.mp e).2⟩ hh
      · exact e))
    rw [h7] at h3
    cases h3
    exact ⟨[], rfl, .flat .nil⟩

theorem sp1_error {i pos k} (h : sp1 i = .err (.error pos k)) : ∃ s, i = s ++ pos ∧ Shallow s := by
  have hn := sp1_err_iff.mp ⟨_, _, h⟩
  unfold sp1 recognize at h
  split at h
  · cases h
  rename_i h2
  cases h
  unfold many1 at h2
  split at h2
  · rename_i e; cases h2; exact spItem_error e
  · rename_i e
    exact absurd ⟨_, _, (spItem_ok_iff.mp e).2, (spItem_ok_iff.mp e).1⟩ hn

/-- The text before, and the text of a position. -/
def Between (i pos : Str) : Prop := ∃ s, i = s ++ pos ∧ (Nested s ∨ ∃ a b, s = a ++ '{' :: b ∧ Nested a ∧ Nested b)

theorem Between.prepend {s i pos : Str} (hs : Nested s) : Between i pos → Between (s ++ i) pos := by
  rintro ⟨t, rfl, h | ⟨a, b, rfl, ha, hb⟩⟩
  · exact ⟨s ++ t, by simp, .inl (hs.append h)⟩
  · exact ⟨s ++ (a ++ '{' :: b), by simp, .inr ⟨s ++ a, b, by simp, hs.append ha, hb⟩⟩

theorem Between.shallow {i pos : Str} : Between i pos → ∃ s, i = s ++ pos ∧ Shallow s := by
  rintro ⟨t, rfl, h | ⟨a, b, rfl, ha, hb⟩⟩
  · exact ⟨_, rfl, .flat h⟩
  · exact ⟨_, rfl, .group ha hb⟩

theorem solutionModifier_never_error {i pos k} : solutionModifier i ≠ .err (.error pos k) := by
  intro h
  unfold solutionModifier solutionModifierS tuple4 at h
  rcases pair_error (map_error h) with h1 | ⟨_, _, _, h1⟩
  · exact opt_never_error h1
  rcases pair_error h1 with h2 | ⟨_, _, _, h2⟩
  · exact opt_never_error h2
  rcases pair_error h2 with h3 | ⟨_, _, _, h3⟩
  · exact opt_never_error h3
  · exact opt_never_error h3

theorem whereClause_error {i pos k} (h : whereClause i = .err (.error pos k)) : Between i pos := by
  unfold whereClause whereClauseS preceded at h
  rcases pair_error (map_error h) with h1 | ⟨r, a, h1, h2⟩
  · exact absurd h1 opt_never_error
  obtain ⟨s, rfl, hs⟩ := Bal.out h1
  have h3 : groupGraphPattern r = .err (.error pos k) := h2
  rw [groupGraphPattern_eq] at h3
  rcases group_error h3 with ⟨rfl, _⟩ | ⟨t, rfl, ht, _⟩
  · exact ⟨s, rfl, .inl hs⟩
  · exact ⟨s ++ '{' :: t, by simp, .inr ⟨s, t, rfl, hs, ht⟩⟩

theorem askTail_error {i pos k}
    (h : tuple3 (terminated dataSetClauses sp) (terminated whereClause sp) solutionModifier i = .err (.error pos k)) :
    Between i pos := by
  have hsp : ∀ {i pos k}, sp i ≠ .err (.error pos k) := fun {i} _ _ h => by
    obtain ⟨_, _, e⟩ := Total.out (p := sp) i; rw [e] at h; cases h
  unfold tuple3 at h
  rcases pair_error h with h1 | ⟨r, a, h1, h2⟩
  · unfold terminated at h1
    rcases pair_error (map_error h1) with h2 | ⟨_, _, _, h2⟩
    · unfold dataSetClauses at h2
      obtain ⟨s, _, rfl, hs, _⟩ := separatedList_error h2
      exact ⟨s, rfl, .inl hs⟩
    · exact absurd h2 hsp
  obtain ⟨t, rfl, ht⟩ := Bal.out h1
  rcases pair_error h2 with h3 | ⟨_, _, _, h3⟩
  · unfold terminated at h3
    rcases pair_error (map_error h3) with h4 | ⟨_, _, _, h4⟩
    · exact (whereClause_error h4).prepend ht
    · exact absurd h4 hsp
  · exact absurd h3 solutionModifier_never_error

end NomSparql
