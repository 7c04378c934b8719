import Verif.Spec.Tokens

/-!
# Texts with balanced brackets

Brackets count only outside strings, IRIs, comments and escapes; there they are contents.
-/

namespace NomSparql

/-- The pairs of brackets. -/
def brackets : List (Char × Char) := [('(', ')'), ('[', ']'), ('{', '}')]

/-- The characters that open or close something: brackets, quotes, comments, escapes.  (`<` opens an IRI or is an operator.) -/
def special : List Char := ['(', ')', '[', ']', '{', '}', '"', '\'', '#', '\\']

/-- The characters that a SPARQL 1.1 IRI cannot contain, apart from control characters. -/
def iriStops : List Char := ['<', '>', '"', '{', '}', '|', '^', '\\', '`', ' ', '\t', '\r', '\n']

/-- The characters that a backslash can escape in a local name. -/
def localEscapes : List Char := c!"_~.-!$&'()*+,;=/?#@%"

/-- Texts in which every bracket is closed by its partner, in the right order, and every string, IRI and comment is complete. -/
inductive Nested : Str → Prop
  | nil : Nested []
  | char {c s} : c ∉ special → Nested s → Nested (c :: s)
  | group {o c s t} : (o, c) ∈ brackets → Nested s → Nested t → Nested (o :: (s ++ c :: t))
  | string {q s t} : q = '"' ∨ q = '\'' → StrBody q s → Nested t → Nested (q :: (s ++ q :: t))
  | iri {s t} : (∀ c ∈ s, c ∉ iriStops) → Nested t → Nested ('<' :: (s ++ '>' :: t))
  | comment {s e t} : (∀ c ∈ s, c ≠ '\n' ∧ c ≠ '\r') → e ∈ ['\n', '\r'] → Nested t → Nested ('#' :: (s ++ e :: t))
  | escape {c s} : c ∈ localEscapes → Nested s → Nested ('\\' :: c :: s)

/-- Where a reader stands that goes through a text character by character. -/
inductive Mode
  | code
  | escape
  | comment
  | string (q : Char)
  | stringEscape (q : Char)
  deriving DecidableEq, Repr

/-- Close the innermost open bracket. -/
def close (c : Char) : List Char → Option (List Char)
  | [] => none
  | o :: st => if (o, c) ∈ brackets then some st else none

/-- A reader with a stack of open brackets, innermost first; `none` if a closing bracket has no partner.  It knows strings, comments and
escapes, but no IRIs. -/
def scan : Mode → List Char → Str → Option (Mode × List Char)
  | m, st, [] => some (m, st)
  | .escape, st, _ :: s => scan .code st s
  | .comment, st, c :: s => scan (if c = '\n' ∨ c = '\r' then .code else .comment) st s
  | .string q, st, c :: s => scan (if c = q then .code else if c = '\\' then .stringEscape q else .string q) st s
  | .stringEscape q, st, _ :: s => scan (.string q) st s
  | .code, st, c :: s =>
    if c ∈ ['(', '[', '{'] then scan .code (c :: st) s
    else if c ∈ [')', ']', '}'] then (close c st).bind fun st => scan .code st s
    else if c = '"' ∨ c = '\'' then scan (.string c) st s
    else if c = '#' then scan .comment st s
    else if c = '\\' then scan .escape st s
    else scan .code st s

end NomSparql
