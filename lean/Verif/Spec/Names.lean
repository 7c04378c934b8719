import Verif.Spec.Tokens

/-!
# Names: prefixes, local names, blank node labels

The shapes are parametrised by the class of plain characters, so that they can be used both with the
W3C classes and with the outer bound `NameChar`.
-/

namespace NomSparql

/-- Hexadecimal digit. -/
def HexDigit (c : Char) : Prop :=
  AsciiDigit c ∨ (0x41 ≤ c.toNat ∧ c.toNat ≤ 0x46) ∨ (0x61 ≤ c.toNat ∧ c.toNat ≤ 0x66)

/-- PN_LOCAL_ESC without its backslash. -/
def LocalEscChar (c : Char) : Prop :=
  c ∈ ['_', '~', '.', '-', '!', '$', '&', '\'', '(', ')', '*', '+', ',', ';', '=', '/', '?', '#', '@', '%']

/-- One unit of a local name: a plain character of class `f`, `%hh`, or a backslash escape. -/
inductive NameUnit (f : Char → Prop) : Str → Prop
  | ch {c} : f c → NameUnit f [c]
  | pct {a b} : HexDigit a → HexDigit b → NameUnit f ['%', a, b]
  | esc {c} : LocalEscChar c → NameUnit f ['\\', c]

/-- A sequence of units. -/
inductive NameUnits (f : Char → Prop) : Str → Prop
  | nil : NameUnits f []
  | cons {u s} : NameUnit f u → NameUnits f s → NameUnits f (u ++ s)

/-- `r` begins with a unit. -/
def StartsUnit (f : Char → Prop) (r : Str) : Prop := ∃ u r', NameUnit f u ∧ r = u ++ r'

/-- The text of an optional prefix. -/
def prefixText : Option Str → Str
  | none => []
  | some p => p

/-- The tail of a prefix or blank node label over the class `f`: characters of `f` and dots, not
ending in a dot - or only dots (which SPARQL does not allow, but the code accepts). -/
def NameTail (f : Char → Prop) (t : Str) : Prop :=
  (∀ c ∈ t, f c ∨ c = '.') ∧ ((∀ c ∈ t, c = '.') ∨ ∃ t' c, t = t' ++ [c] ∧ f c)

/-- A prefix: first character of class `b`, tail over `f`. -/
def PrefixName (b f : Char → Prop) (p : Str) : Prop := ∃ c t, p = c :: t ∧ b c ∧ NameTail f t

/-- An optional prefix. -/
def OptPrefix (b f : Char → Prop) : Option Str → Prop
  | none => True
  | some p => PrefixName b f p

/-- A local name as accepted: one unit, then units and dots with at least one non-dot. -/
def LocalName (b f : Char → Prop) (l : Str) : Prop :=
  ∃ u t, l = u ++ t ∧ NameUnit b u ∧ NameUnits (fun c => f c ∨ c = '.') t ∧ ∃ c ∈ t, c ≠ '.'

end NomSparql

namespace NomSparql

/-! ## Classes of SPARQL 1.1 and the deviation of the code -/

/-- The deviation: characters whose code point, cut to 8 bits, is an ASCII letter. -/
def LowByteLetter (c : Char) : Prop :=
  (0x41 ≤ c.toNat % 256 ∧ c.toNat % 256 ≤ 0x5A) ∨ (0x61 ≤ c.toNat % 256 ∧ c.toNat % 256 ≤ 0x7A)

instance : DecidablePred LowByteLetter := fun c => by unfold LowByteLetter; infer_instance

/-- The characters the code treats as PN_CHARS_BASE: those of SPARQL 1.1 below U+10000, and the
characters whose low byte is an ASCII letter. -/
def CodedBase (c : Char) : Prop := (W3CPnCharsBase c ∧ c.toNat < 0x10000) ∨ LowByteLetter c

instance : DecidablePred CodedBase := fun c => by unfold CodedBase; infer_instance

/-- The characters the code accepts in variable names. -/
def CodedVarChar (c : Char) : Prop := CodedBase c ∨ c = '_' ∨ AsciiDigit c

instance : DecidablePred CodedVarChar := fun c => by unfold CodedVarChar; infer_instance

/-- Name characters on which the code and SPARQL 1.1 agree: PN_CHARS below U+10000 without the combining
and connector characters the code leaves out. -/
def CommonNameChar (c : Char) : Prop :=
  (W3CPnCharsBase c ∧ c.toNat < 0x10000) ∨ c = '_' ∨ c = '-' ∨ AsciiDigit c

/-- PN_CHARS_BASE below U+10000. -/
def CommonBase (c : Char) : Prop := W3CPnCharsBase c ∧ c.toNat < 0x10000

/-- First characters of local names and blank node labels on which code and SPARQL 1.1 agree. -/
def CommonLocalStart (c : Char) : Prop := CommonBase c ∨ c = '_' ∨ c = ':' ∨ AsciiDigit c

/-- Plain local name characters on which code and SPARQL 1.1 agree. -/
def CommonLocalChar (c : Char) : Prop := CommonNameChar c ∨ c = ':'

/-- Outer bound for the characters of prefixes and labels. -/
def OuterNameChar (c : Char) : Prop := NameChar c ∨ c = '-'

/-- Outer bound for the characters of local names. -/
def OuterLocalChar (c : Char) : Prop := NameChar c ∨ c = '-' ∨ c = ':'

/-- `r` can follow a name: it starts neither with a character that the code counts as part of a name
nor with `.`, `:`, `%`, a backslash. -/
def NameStop (r : Str) : Prop :=
  NotStart (fun c => OuterLocalChar c ∨ c = '.' ∨ c = '%' ∨ c = '\\') r

/-- Characters whose code point, cut to 8 bits, is an ASCII digit. -/
def LowByteDigit (c : Char) : Prop := 0x30 ≤ c.toNat % 256 ∧ c.toNat % 256 ≤ 0x39

/-- The characters the code accepts in prefixes and blank node labels. -/
def CodedNameChar (c : Char) : Prop := CodedBase c ∨ c = '_' ∨ c = '-' ∨ AsciiDigit c

/-- The plain characters the code accepts in local names. -/
def CodedLocalChar (c : Char) : Prop := CodedNameChar c ∨ c = ':'

/-- The characters the code accepts at the start of a local name. -/
def CodedLocalStart (c : Char) : Prop := CodedBase c ∨ c = '_' ∨ c = ':' ∨ LowByteDigit c

/-- The characters the code accepts at the start of a blank node label. -/
def CodedLabelStart (c : Char) : Prop := CodedBase c ∨ c = '_' ∨ LowByteDigit c

/-- First characters of labels, common to code and SPARQL 1.1. -/
def CommonLabelStart (c : Char) : Prop := CommonBase c ∨ c = '_' ∨ AsciiDigit c

/-- A blank node label of SPARQL 1.1 over the common character classes. -/
def LegalLabel (s : Str) : Prop := ∃ c t, s = c :: t ∧ CommonLabelStart c ∧
  (t = [] ∨ (∀ c ∈ t, CommonNameChar c ∨ c = '.') ∧ ∃ t' c, t = t' ++ [c] ∧ CommonNameChar c)

end NomSparql
