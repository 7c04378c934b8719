import Verif.Lemmas.PathLower
import Verif.Props.C63

/-!
# C75: the effort of reading property paths

The effort is the number of calls of `path_alternative` (src/path.rs:215-220), the function through which paths nest.
`path_sequence` has the separator `|` of `path_alternative` (src/path.rs:222-227) instead of `/`.  So when the path after a bar cannot be read,
the sequence ends before the bar, the alternative finds the bar again, and the same path is read a second time.
-/

namespace NomSparql

/-- The number of calls of `path_alternative` while a path is read. -/
def pathCalls (i : Str) : Nat := (Cost.pathAlternative i).2

/-- The number of calls of `path_alternative` made by the first triples block of the outermost group while an ASK query is read. -/
def askPathCalls (i : Str) : Nat := (Cost.firstStmt i).2

/-- The counting parsers return what the parsers return. -/
theorem C75_counted (i : Str) : (Cost.pathAlternative i).1 = pathAlternative i := congrFun Cost.erase_pathAlternative i
theorem C75_counted_query (i : Str) : (Cost.firstStmt i).1 = sparqlQueryStmt i := congrFun Cost.erase_firstStmt i

/-- One for the call, and then the calls in its body. -/
theorem C75_count (i : Str) : pathCalls i = (Cost.pathAlternativeStep Cost.pathAlternative i).2 + 1 := Cost.pathAlternative_cost i

/-- `path_alternative` cannot read a text, or leaves a rest that does not begin with a closing parenthesis. -/
def NotClosed (x : Str) : Prop :=
  (∃ pos k, pathAlternative x = .err (.error pos k)) ∨ ∃ r a, pathAlternative x = .ok r a ∧ ∀ t, r ≠ ')' :: t

/-- Violated: a parenthesis after a bar that is not closed doubles the number of calls.  Only `a` is read then, so the condition holds again. -/
theorem C75_double_violated (x : Str) (h : NotClosed x) :
    pathCalls (c!"a|(" ++ x) = 1 + 2 * pathCalls x ∧ (∃ a, pathAlternative (c!"a|(" ++ x) = .ok (c!"|(" ++ x) a) ∧ NotClosed (c!"a|(" ++ x) := by
  have h' : Unclosed x := by
    rcases h with h | ⟨r, a, h, hr⟩
    · exact .inl h
    · exact .inr ⟨r, a, h, fun c t e hc => hr t (by rw [e, hc])⟩
  obtain ⟨⟨v, e⟩, hc⟩ := Cost.double h'
  exact ⟨hc, ⟨v, e⟩, .inr ⟨_, v, e, fun t e => by cases e⟩⟩

/-- `a|(a|( … a|(`, `n` times. -/
def openPath : Nat → Str
  | 0 => []
  | n + 1 => c!"a|(" ++ openPath n

/-- `ask {?s a|(a|( … a|(` -/
def openQuery (n : Nat) : Str := c!"ask {?s " ++ openPath n

theorem openPath_length (n : Nat) : (openPath n).length = 3 * n := by
  induction n with
  | zero => rfl
  | succ n ih => simp [openPath, ih]; omega

theorem openPath_calls (n : Nat) : pathCalls (openPath n) + 1 = 2 ^ (n + 1) ∧ NotClosed (openPath n) := by
  induction n with
  | zero => exact ⟨by decide +kernel, .inl ⟨[], _, rfl⟩⟩
  | succ n ih =>
    obtain ⟨h1, _, h3⟩ := C75_double_violated _ ih.2
    refine ⟨?_, h3⟩
    show pathCalls (c!"a|(" ++ openPath n) + 1 = _
    rw [h1, Nat.pow_succ, ← ih.1]
    omega

/-- Violated: `n` unclosed parentheses take `2 ^ (n + 1) - 1` calls. -/
theorem C75_path_violated (n : Nat) : pathCalls (openPath n) = 2 ^ (n + 1) - 1 := by
  have := (openPath_calls n).1
  omega

/-- Violated: and so for queries with such a path. -/
theorem C75_query_violated (n : Nat) : 2 ^ n ≤ askPathCalls (openQuery n) := by
  have h : 2 ^ n ≤ pathCalls (openPath n) := by
    have h1 := (openPath_calls n).1
    have h2 : 2 ^ (n + 1) = 2 * 2 ^ n := by rw [Nat.pow_succ, Nat.mul_comm]
    have h3 : 0 < 2 ^ n := Nat.pow_pos (by omega)
    omega
  refine Cost.ask_cost ?_ ?_ h
  · cases n with
    | zero => exact not_startsWs_nil
    | succ n => exact not_startsWs_cons rfl
  · cases n with
    | zero => intro c r e; cases e
    | succ n => intro c r e; cases e; decide

/-- Violated: no polynomial in the length of the query bounds the number of calls. -/
theorem C75_polynomial_violated (c d : Nat) : ∃ n, c * (openQuery n).length ^ d + c < askPathCalls (openQuery n) := by
  obtain ⟨n, h⟩ := poly_exceeds (fun n => (openQuery n).length) (fun j => by
    simp only [openQuery, List.length_append, openPath_length]
    rw [Nat.pow_add]
    have := Nat.pow_pos (n := j) (show 0 < 2 by omega)
    simp only [List.length_cons, List.length_nil]
    omega) c d
  exact ⟨n, Nat.lt_of_lt_of_le h (C75_query_violated n)⟩

/-- For every text the number of calls is at most the number of its opening parentheses, doubled for each bar that is followed, after white
space, by a parenthesis, a caret or a comment, and one for the call itself.  Missing for the full property: a bound without the doubling, which
`C75_polynomial_violated` rules out. -/
theorem C75_bound_partial (i : Str) : pathCalls i ≤ 1 + 2 ^ bars i * parens i := (Cost.pa_bound i).cost

/-- So the calls are linear where no bar stands before a parenthesis. -/
theorem C75_linear_partial (i : Str) (h : bars i = 0) : pathCalls i ≤ 1 + parens i := by
  have := C75_bound_partial i
  rw [h] at this
  omega

/-- A path that is read up to a rest that does not go on with a bar takes one call and one more for each parenthesis in it.  Missing for the full
property: paths that end before a bar. -/
theorem C75_accepted_partial (i r : Str) (a : PathAlternative) (h : pathAlternative i = .ok r a) (hr : ∀ w t, Ws w → r ≠ w ++ '|' :: t) :
    pathCalls i + parens r ≤ 1 + parens i := by
  refine (Cost.pa_bound i).ok ((C75_counted i).trans h) ?_
  rcases Soft.cases (delimited sp (tag ['|']) sp) r with ⟨q, b, e⟩ | e
  · obtain ⟨w, w', hw, _, e⟩ := Cost.barSep_ok e
    exact (hr w _ hw e).elim
  · exact e

/-! Cases that meet the hypotheses. -/

example : NotClosed [] := .inl ⟨[], _, rfl⟩
example : NotClosed c!"a|(a|(" := (openPath_calls 2).2
example : pathCalls c!"a|(a|(a|(a|(a|(" = 63 := C75_path_violated 5
example : bars c!"a|(a|^(a))|a" = 2 ∧ parens c!"a|(a|^(a))|a" = 2 := by decide
example : pathCalls c!"a|(a|(a))|a" = 3 := by decide +kernel
example : ∃ a, pathAlternative c!"a|(a|(a)) $o" = .ok c!" $o" a := ⟨_, by rfl⟩
example : ∀ w t, Ws w → c!" $o" ≠ w ++ '|' :: t := by
  intro w t hw e
  have h2 := sp_eval hw (not_startsWs_cons (c := '|') (r := t) rfl)
  rw [← e] at h2
  have h3 : sp c!" $o" = .ok c!"$o" c!" " := rfl
  rw [h3] at h2
  injection h2 with h2
  injection h2 with h2
  revert h2; decide

end NomSparql
