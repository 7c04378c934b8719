import Verif.Lemmas.Lex

/-!
# Character classes
-/

namespace NomSparql

theorem isAlpha_iff {c : Char} : isAlpha c = true ↔ AsciiLetter c := by
  simp [isAlpha, isAsciiAlphaCode, AsciiLetter]

theorem isDecDigit_iff {c : Char} : isDecDigit c = true ↔ AsciiDigit c := by
  simp [isDecDigit, isAsciiDigitCode, AsciiDigit]

theorem isAlphanum_iff {c : Char} : isAlphanum c = true ↔ AsciiLetter c ∨ AsciiDigit c := by
  simp [isAlphanum, isAlpha_iff, isDecDigit_iff]

/-- The code's class, exactly. -/
theorem isPnCharsBase_iff {c : Char} : isPnCharsBase c = true ↔
    (W3CPnCharsBase c ∧ c.toNat < 0x10000) ∨
      (0x41 ≤ c.toNat % 256 ∧ c.toNat % 256 ≤ 0x5A) ∨ (0x61 ≤ c.toNat % 256 ∧ c.toNat % 256 ≤ 0x7A) := by
  simp only [isPnCharsBase, isUnicode, isAsciiAlphaCode, W3CPnCharsBase, Bool.or_eq_true,
    Bool.and_eq_true, decide_eq_true_eq]
  simp only [asU8]
  omega

theorem isPnCharsBase_latin1 {c : Char} (h : c.toNat < 256) :
    isPnCharsBase c = true ↔ W3CPnCharsBase c := by
  rw [isPnCharsBase_iff]
  simp only [W3CPnCharsBase]
  omega

theorem isPnCharsBase_of_w3c {c : Char} (h : W3CPnCharsBase c) (h' : c.toNat < 0x10000) :
    isPnCharsBase c = true := isPnCharsBase_iff.mpr (.inl ⟨h, h'⟩)

theorem isUnicode_w3c {c : Char} (h : isUnicode c = true) : W3CPnCharsBase c := by
  simp only [isUnicode, Bool.or_eq_true, Bool.and_eq_true, decide_eq_true_eq] at h
  simp only [W3CPnCharsBase]
  omega

theorem isPnCharsBase_ascii {c : Char} (h : c.toNat < 128) :
    isPnCharsBase c = true ↔ AsciiLetter c := by
  rw [isPnCharsBase_iff]
  simp only [W3CPnCharsBase, AsciiLetter]
  omega

theorem isPnCharsBase_name {c : Char} (h : isPnCharsBase c = true) : AsciiLetter c ∨ 0x80 ≤ c.toNat := by
  rcases Nat.lt_or_ge c.toNat 128 with h' | h'
  · exact .inl ((isPnCharsBase_ascii h').mp h)
  · exact .inr h'

theorem isPnCharsU_iff {c : Char} : isPnCharsU c = true ↔ isPnCharsBase c = true ∨ c = '_' := by
  simp [isPnCharsU]

theorem isVarChar_iff {c : Char} :
    isVarChar c = true ↔ isPnCharsBase c = true ∨ c = '_' ∨ AsciiDigit c := by
  simp [isVarChar, isPnCharsU_iff, isDecDigit_iff, or_assoc]

theorem isPnChar_iff {c : Char} :
    isPnChar c = true ↔ isPnCharsBase c = true ∨ c = '_' ∨ c = '-' ∨ AsciiDigit c := by
  simp [isPnChar, isPnCharsU_iff, isDecDigit_iff, or_assoc]

theorem isVarChar_name {c : Char} (h : isVarChar c = true) : NameChar c := by
  rcases isVarChar_iff.mp h with h | h | h
  · rcases isPnCharsBase_name h with h | h
    · exact .inl h
    · exact .inr (.inr (.inr h))
  · exact .inr (.inr (.inl h))
  · exact .inr (.inl h)

theorem isIriChar_iff {c : Char} : isIriChar c = true ↔
    c ∉ ['<', '>', '"', '{', '}', '|', '^', '\\', '`'] ∧ 0x20 < c.toNat % 256 := by
  unfold isIriChar iriExcluded asU8
  split
  · rename_i h; simp only [Bool.false_eq_true, false_iff]; exact fun h' => h'.1 h
  · rename_i h; simp only [decide_eq_true_eq]; exact ⟨fun h' => ⟨h, h'⟩, fun h' => h'.2⟩

theorem isIriChar_legal {c : Char} (h : isIriChar c = true) : ¬ W3CIriForbidden c := by
  obtain ⟨h1, h2⟩ := isIriChar_iff.mp h
  rintro (h3 | h3)
  · exact h1 h3
  · omega

theorem isIriChar_latin1 {c : Char} (h : c.toNat < 256) : isIriChar c = true ↔ ¬ W3CIriForbidden c := by
  refine ⟨isIriChar_legal, fun h' => isIriChar_iff.mpr ⟨fun h2 => h' (.inl h2), ?_⟩⟩
  rcases Nat.lt_or_ge 0x20 (c.toNat % 256) with h2 | h2
  · exact h2
  · exact absurd (.inr (by omega)) h'

theorem isDigitU8_ascii {c : Char} (h : c.toNat < 256) : isDigitU8 c = true ↔ AsciiDigit c := by
  simp only [isDigitU8, isAsciiDigitCode, AsciiDigit, Bool.and_eq_true, decide_eq_true_eq]
  simp only [asU8]
  omega

theorem isDigitU8_name {c : Char} (h : isDigitU8 c = true) : AsciiDigit c ∨ 0x80 ≤ c.toNat := by
  simp only [isDigitU8, isAsciiDigitCode, AsciiDigit, Bool.and_eq_true, decide_eq_true_eq] at *
  try simp only [asU8] at *
  omega

theorem isDigitU8_of_digit {c : Char} (h : AsciiDigit c) : isDigitU8 c = true := by
  simp only [isDigitU8, isAsciiDigitCode, AsciiDigit, Bool.and_eq_true, decide_eq_true_eq] at *
  try simp only [asU8] at *
  omega

theorem isHexDigit_iff {c : Char} : isHexDigit c = true ↔ AsciiDigit c ∨
    (0x41 ≤ c.toNat ∧ c.toNat ≤ 0x46) ∨ (0x61 ≤ c.toNat ∧ c.toNat ≤ 0x66) := by
  simp [isHexDigit, isDecDigit_iff, or_assoc]

end NomSparql
