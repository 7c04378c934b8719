import Verif.Lemmas.Where

/-!
# Unrecoverable answers

`Dies e p i`: `p` answers `e`, which is not a recoverable `Error`, on `i`; no alternative is tried after that.
-/

namespace NomSparql

def Fatal (e : Err) : Prop := ∀ pos k, e ≠ .error pos k

theorem fatal_failure {pos k} : Fatal (.failure pos k) := fun _ _ h => by cases h
theorem fatal_panic : Fatal .panic := fun _ _ h => by cases h
theorem fatal_incomplete {n} : Fatal (.incomplete n) := fun _ _ h => by cases h

def Dies (e : Err) (p : P α) (i : Input) : Prop := Fatal e ∧ p i = .err e

section
variable {e : Err} {p : P α} {q : P β} {s : P γ} {t : P δ} {i r r1 r2 : Input} {a : α} {b : β} {c : γ}

theorem Dies.map {f : α → β} (h : Dies e p i) : Dies e (map p f) i := ⟨h.1, map_stop h.2⟩
theorem Dies.pair (h : Dies e p i) : Dies e (pair p q) i := ⟨h.1, pair_stop h.2⟩
theorem Dies.pair2 (h : p i = .ok r a) (h' : Dies e q r) : Dies e (NomSparql.pair p q) i := ⟨h'.1, pair_stop2 h h'.2⟩
theorem Dies.preceded (h : Dies e p i) : Dies e (preceded p q) i := h.pair.map
theorem Dies.preceded2 (h : p i = .ok r a) (h' : Dies e q r) : Dies e (NomSparql.preceded p q) i := (Dies.pair2 h h').map
theorem Dies.terminated (h : Dies e p i) : Dies e (terminated p q) i := h.pair.map
theorem Dies.terminated2 (h : p i = .ok r a) (h' : Dies e q r) : Dies e (NomSparql.terminated p q) i := (Dies.pair2 h h').map
theorem Dies.delimited (h : Dies e p i) : Dies e (delimited p q s) i := h.preceded
theorem Dies.delimited2 (h : p i = .ok r a) (h' : Dies e q r) : Dies e (NomSparql.delimited p q s) i :=
  Dies.preceded2 h h'.terminated
theorem Dies.delimited3 (h : p i = .ok r a) (h' : q r = .ok r1 b) (h2 : Dies e s r1) : Dies e (NomSparql.delimited p q s) i :=
  Dies.preceded2 h (Dies.terminated2 h' h2)
theorem Dies.separatedPair (h : Dies e p i) : Dies e (separatedPair p s q) i := h.pair
theorem Dies.separatedPair3 (h : p i = .ok r a) (h' : s r = .ok r1 c) (h2 : Dies e q r1) : Dies e (NomSparql.separatedPair p s q) i :=
  Dies.pair2 h (Dies.preceded2 h' h2)
theorem Dies.tuple3 (h : Dies e p i) : Dies e (tuple3 p q s) i := h.pair
theorem Dies.tuple4 (h : Dies e p i) : Dies e (tuple4 p q s t) i := h.pair
theorem Dies.tuple3_2 (h : p i = .ok r a) (h' : Dies e q r) : Dies e (NomSparql.tuple3 p q s) i := Dies.pair2 h h'.pair
theorem Dies.opt (h : Dies e p i) : Dies e (opt p) i := ⟨h.1, opt_hard h.2 h.1⟩
theorem Dies.many1 (h : Dies e p i) : Dies e (many1 p) i := ⟨h.1, by unfold NomSparql.many1; rw [h.2]⟩
theorem Dies.many0 (h : Dies e p i) : Dies e (many0 p) i := ⟨h.1, by
  unfold NomSparql.many0 manyLoop
  rw [h.2]
  obtain ⟨h, _⟩ := h
  cases e <;> first | rfl | exact absurd rfl (h _ _)⟩
theorem Dies.sep1 {s : P σ} (h : Dies e p i) : Dies e (separatedNonemptyList s p) i :=
  ⟨h.1, by unfold separatedNonemptyList; rw [h.2]⟩
theorem Dies.sep0 {s : P σ} (h : Dies e p i) : Dies e (separatedList s p) i := ⟨h.1, by
  unfold separatedList
  rw [h.2]
  obtain ⟨h, _⟩ := h
  cases e <;> first | rfl | exact absurd rfl (h _ _)⟩
theorem Dies.alt {ps : List (P α)} (h : Dies e p i) : Dies e (alt (p :: ps)) i := ⟨h.1, alt_hard h.2 h.1⟩
theorem Dies.alt_cons {p' : P α} {ps : List (P α)} (h : Fails p i) (h' : Dies e (NomSparql.alt (p' :: ps)) i) :
    Dies e (NomSparql.alt (p :: p' :: ps)) i := ⟨h'.1, by rw [h.alt]; exact h'.2⟩
theorem Dies.not_ok (h : Dies e p i) : p i ≠ .ok r a := by rw [h.2]; simp
theorem Dies.not_fails (h : Dies e p i) : ¬ Fails p i := by
  rintro ⟨pos, k, e'⟩
  rw [h.2] at e'
  cases e'
  exact h.1 _ _ rfl

end

/-- Where a separated list that was accepted ends. -/
theorem SepRun.stop {sep : P σ} {p : P α} {i r : Input} {l : List α} (h : SepRun sep p i r l) : SepStop sep p r := by
  induction h with
  | stopSep h => exact .inl ⟨_, _, h⟩
  | stopElem h1 h2 h3 => exact .inr ⟨_, _, h1, h2, _, _, h3⟩
  | step _ _ _ _ _ ih => exact ih

/-- A list that cannot go on at `r` has no elements read from there. -/
theorem SepStop.run {sep : P σ} {p : P α} {i r : Input} {l : List α} (h : SepStop sep p i) (h' : SepRun sep p i r l) : l = [] ∧ r = i := by
  cases h' with
  | stopSep _ => exact ⟨rfl, rfl⟩
  | stopElem _ _ _ => exact ⟨rfl, rfl⟩
  | step h1 h2 h3 _ _ =>
    exfalso
    rcases h with ⟨_, _, h⟩ | ⟨_, _, h4, _, _, _, h5⟩
    · rw [h] at h1; cases h1
    · rw [h4] at h1; cases h1; rw [h5] at h3; cases h3

end NomSparql
