import Verif.Spec.Brackets
import Verif.Spec.Lex
import Verif.Spec.Tokens

/-!
# Where a request cannot be read on

`Stuck i pos k`: in the text `i`, just before `pos`, something begins that cannot be completed: a bracket that is not closed, or an
exponent without digits.  `k` is the kind of the error.
-/

namespace NomSparql

/-- The text `pos` of `i` stands where a closing bracket, or a digit of an exponent, is missing. -/
inductive Stuck (i pos : Str) : Kind → Prop
  /-- an opening bracket and white space, not followed by the closing bracket -/
  | bracket {a w : Str} {g c : Char} : (g = '(' ∧ c = ')' ∨ g = '[' ∧ c = ']') → Ws w → i = a ++ g :: (w ++ pos) → ¬ StartsWs pos →
      pos.head? ≠ some c → Stuck i pos .Char
  /-- a number, the letter e and perhaps a sign, not followed by a digit -/
  | exponent {a sg : Str} {d e : Char} : (AsciiDigit d ∨ d = '.') → (e = 'e' ∨ e = 'E') → sg ∈ [[], ['+'], ['-']] → i = a ++ d :: e :: (sg ++ pos) →
      (∀ c ∈ pos.head?, ¬ AsciiDigit c) → Stuck i pos .Digit

/-- At most one bracket of `s` is open at its end, and it is a brace; or `s` is a comment that never ends. -/
inductive Shallow : Str → Prop
  | flat {s} : Nested s → Shallow s
  | group {a b} : Nested a → Nested b → Shallow (a ++ '{' :: b)
  | comment {s} : (∀ c ∈ s, c ≠ '\n' ∧ c ≠ '\r') → Shallow ('#' :: s)

end NomSparql
