import Verif.Lemmas.Escaped
import Verif.Props.C17_C23

/-!
# C74: escapes, string contents and runs of name characters
-/

namespace NomSparql

/-! ## String contents -/

/-- The contents up to the next quote of either kind. -/
theorem C74_content (i r s : Str) : stringContent i = .ok r s ↔ i = s ++ r ∧ EscBody ['\'', '"', '\\'] c!"\"tbnrf\\'" s ∧
    (r = [] ∨ (∃ c r', r = c :: r' ∧ (c = '"' ∨ c = '\'')) ∧ s ≠ []) := by
  unfold stringContent escapeSet
  rw [escaped_ok (by decide)]
  refine and_congr_right fun _ => and_congr_right fun _ => or_congr_right (and_congr_left fun _ => ?_)
  refine exists_congr fun c => exists_congr fun r' => and_congr_right fun _ => ?_
  simp only [List.mem_cons, List.not_mem_nil, or_false]
  constructor
  · rintro ⟨h | h | h, h'⟩
    · exact .inr h
    · exact .inl h
    · exact absurd h h'
  · rintro (rfl | rfl) <;> decide

/-! ## Escapes -/

/-- What `echar` accepts: it reads to the end of the input. -/
theorem C74_echar_accepted (i r s : Str) : echar i = .ok r s ↔ r = [] ∧ s = i ∧ EscBody ['\\'] c!"\"tbnrf'" i := by
  unfold echar
  rw [escaped_ok (by decide)]
  constructor
  · rintro ⟨rfl, h, rfl | ⟨⟨c, r', rfl, hc, hc'⟩, _⟩⟩
    · exact ⟨rfl, by simp, by simpa using h⟩
    · exact absurd (by simpa using hc) hc'
  · rintro ⟨rfl, rfl, h⟩
    exact ⟨by simp, h, .inl rfl⟩

/-- Violated: SPARQL's ECHAR is one backslash and one character; here any text without a backslash is one, as a whole. -/
theorem C74_echar_text_violated (i : Str) (h : '\\' ∉ i) : echar i = .ok [] i := by
  refine (C74_echar_accepted _ _ _).mpr ⟨rfl, rfl, ?_⟩
  induction i with
  | nil => exact .nil
  | cons c i ih => exact .ord (by simp only [List.mem_cons, List.not_mem_nil, or_false]; rintro rfl; simp at h) (ih (by simp_all))

/-- Violated: an escape is not accepted if anything that is not an escape itself follows wrongly; an escaped backslash never is. -/
theorem C74_echar_backslash_violated (i r s : Str) : echar ('\\' :: '\\' :: i) ≠ .ok r s := fun h => by
  obtain ⟨_, _, h⟩ := (C74_echar_accepted _ _ _).mp h
  cases h with
  | ord h _ => exact h (by simp)
  | esc h _ => revert h; decide

/-- The other escapes are accepted, if nothing follows. -/
theorem C74_echar_partial (c : Char) (h : c ∈ c!"\"tbnrf'") : echar ['\\', c] = .ok [] ['\\', c] :=
  (C74_echar_accepted _ _ _).mpr ⟨rfl, rfl, .esc h .nil⟩

/-! ## Runs of name characters: the longest, not empty -/

/-- `s` is the longest run of characters of the class `f` at the beginning of `s ++ r`, and not empty. -/
def Run (f : Char → Prop) (s r : Str) : Prop := s ≠ [] ∧ (∀ c ∈ s, f c) ∧ NotStart f r

theorem run1_ok {f : Char → Bool} {i r s : Str} : takeWhile1 f i = .ok r s ↔ i = s ++ r ∧ Run (fun c => f c = true) s r := by
  rw [takeWhile1_ok]
  unfold Run NotStart
  grind

theorem C74_base (i r s : Str) : pnCharsBase1 i = .ok r s ↔ i = s ++ r ∧ Run CodedBase s r := by
  unfold pnCharsBase1
  rw [run1_ok]
  simp only [C21_exact]
theorem C74_underscore (i r s : Str) : pnCharsU1 i = .ok r s ↔ i = s ++ r ∧ Run (fun c => CodedBase c ∨ c = '_') s r := by
  unfold pnCharsU1
  rw [run1_ok]
  simp [isPnCharsU, C21_exact]
theorem C74_chars (i r s : Str) : pnChars1 i = .ok r s ↔
    i = s ++ r ∧ Run (fun c => CodedBase c ∨ c = '_' ∨ c = '-' ∨ AsciiDigit c) s r := by
  unfold pnChars1
  rw [run1_ok]
  simp [isPnChar, isPnCharsU, isDecDigit_iff, or_assoc, C21_exact]

theorem take_one_ok {f : Char → Bool} {i r s : Str} : takeWhileN 1 f i = .ok r s ↔ ∃ c, f c = true ∧ s = [c] ∧ i = c :: r := by
  rw [takeWhileN_ok]
  constructor
  · rintro ⟨rfl, h1, h2⟩
    obtain ⟨c, rfl⟩ := List.length_eq_one_iff.mp h1
    exact ⟨c, h2 c (by simp), rfl, rfl⟩
  · rintro ⟨c, h, rfl, rfl⟩
    exact ⟨rfl, rfl, by simpa using h⟩

theorem C74_one (i r s : Str) : pnCharsOne i = .ok r s ↔
    ∃ c, (CodedBase c ∨ c = '_' ∨ c = '-' ∨ AsciiDigit c) ∧ s = [c] ∧ i = c :: r := by
  unfold pnCharsOne
  rw [take_one_ok]
  simp [isPnChar, isPnCharsU, isDecDigit_iff, or_assoc, C21_exact]

theorem C74_one_underscore (i r s : Str) : pnCharsUOne i = .ok r s ↔ ∃ c, (CodedBase c ∨ c = '_') ∧ s = [c] ∧ i = c :: r := by
  unfold pnCharsUOne pnCharsBaseOne
  rw [alt_two_ok, alt_one_ok, take_one_ok, tag_ok]
  simp only [C21_exact]
  constructor
  · rintro (⟨c, h1, h2, h3⟩ | ⟨_, h2, h3⟩)
    · exact ⟨c, .inl h1, h2, h3⟩
    · exact ⟨'_', .inr rfl, h2, h3⟩
  · rintro ⟨c, h | rfl, h2, h3⟩
    · exact .inl ⟨c, h, h2, h3⟩
    · refine .inr ⟨?_, h2, h3⟩
      subst h3
      exact ⟨_, _, rfl⟩

/-- The blank characters are the white space units of one character. -/
theorem C74_blank (c : Char) : isSp c = true ↔ WsItem [c] := by
  unfold isSp
  constructor
  · intro h
    exact .char (by simp only [List.mem_cons, List.not_mem_nil, or_false, decide_eq_true_eq] at h ⊢; grind)
  · intro h
    generalize hs : [c] = s at h
    cases h with
    | char h => cases hs; simp only [List.mem_cons, List.not_mem_nil, or_false, decide_eq_true_eq] at h ⊢; grind
    | comment _ _ => simp at hs

example : stringContent c!"a\\\"b' c" = .ok c!"' c" c!"a\\\"b" := rfl
example : echar c!"abc" = .ok [] c!"abc" := rfl
example : pnCharsU1 c!"ab_c-d" = .ok c!"-d" c!"ab_c" := rfl

end NomSparql
