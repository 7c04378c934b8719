import Verif.Spec.Lex

/-!
# Token specifications
-/

namespace NomSparql

/-- The character a variable starts with. -/
def sigil : Var → Char
  | .qmark _ => '?'
  | .dollar _ => '$'

/-- The name of a variable. -/
def varNameOf : Var → Str
  | .qmark n => n
  | .dollar n => n

/-- VARNAME characters of SPARQL 1.1 that may start a name: PN_CHARS_U and digits. -/
def W3CVarStart (c : Char) : Prop := W3CPnCharsBase c ∨ c = '_' ∨ AsciiDigit c

instance : DecidablePred W3CVarStart := fun c => by unfold W3CVarStart; infer_instance

/-- `s` is empty or its first character does not satisfy `f`. -/
def NotStart (f : Char → Prop) (s : Str) : Prop := ∀ c s', s = c :: s' → ¬ f c

/-- The tail of a language tag: `(- alnum+)*`. -/
inductive LangTail : Str → Prop
  | nil : LangTail []
  | cons {t s} : t ≠ [] → (∀ c ∈ t, AsciiLetter c ∨ AsciiDigit c) → LangTail s →
      LangTail ('-' :: (t ++ s))

/-- LANGTAG without the `@`: `[a-zA-Z]+ ('-' [a-zA-Z0-9]+)*`. -/
def LangTag (s : Str) : Prop :=
  ∃ a t, s = a ++ t ∧ a ≠ [] ∧ (∀ c ∈ a, AsciiLetter c) ∧ LangTail t

/-- The characters ECHAR allows after a backslash. -/
def EscChar (c : Char) : Prop := c ∈ ['t', 'b', 'n', 'r', 'f', '\\', '"', '\'']

/-- Body of a string literal in quotes `q`: ordinary characters and escapes. -/
inductive StrBody (q : Char) : Str → Prop
  | nil : StrBody q []
  | ord {c s} : c ≠ q → c ≠ '\\' → StrBody q s → StrBody q (c :: s)
  | esc {c s} : EscChar c → StrBody q s → StrBody q ('\\' :: c :: s)

/-- A sign text and whether it is negative. -/
inductive SignText : Str → Bool → Prop
  | none : SignText [] false
  | plus : SignText ['+'] false
  | minus : SignText ['-'] true

/-- A possibly empty digit string and its value. -/
def Digits (s : Str) (n : Nat) : Prop := (s = [] ∧ n = 0) ∨ DecVal s n

/-- An integer text `s` and its value: optional sign and digits. -/
def IntText (s : Str) (v : Int) : Prop :=
  ∃ sg neg ds n, s = sg ++ ds ∧ SignText sg neg ∧ DecVal ds n ∧ v = if neg then -(n : Int) else n

/-- `MantText s d`: the text of a mantissa, `digits`, `digits.`, `digits.digits` or `.digits`
with optional sign, and its exact value `±n / 10^k` with `k` the number of digits after the point. -/
def MantText (s : Str) (d : Decimal) : Prop :=
  ∃ sg neg w f, SignText sg neg ∧
    ((s = sg ++ w ∧ f = []) ∨ s = sg ++ (w ++ '.' :: f)) ∧
    (w ++ f) ≠ [] ∧ (∀ c ∈ w ++ f, AsciiDigit c) ∧
    d.neg = neg ∧ DecVal (w ++ f) d.mantissa ∧ d.scale = f.length

/-- The exponent text: `e` or `E` and an integer. -/
def ExpText (s : Str) (v : Int) : Prop := ∃ c t, s = c :: t ∧ (c = 'e' ∨ c = 'E') ∧ IntText t v

/-- The i64 range. -/
def FitsI64 (v : Int) : Prop := -(2 ^ 63) ≤ v ∧ v < 2 ^ 63

instance {v} : Decidable (FitsI64 v) := by unfold FitsI64; infer_instance

/-- The text of a string literal: quote, body, quote. -/
def StringText (s : Str) : Lang := fun t => ∃ q, (q = '\'' ∨ q = '"') ∧ t = q :: (s ++ [q]) ∧ StrBody q s ∧ s ≠ []

end NomSparql
