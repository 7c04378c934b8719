import Verif.Spec.Lex

/-!
# Specification of hexadecimal numbers

Independent of the conversion in the crate: digits are positions in the two alphabets, numbers are read from the right.
-/

namespace NomSparql

/-- `c` is the hexadecimal digit of value `d`. -/
def HexDigitVal (c : Char) (d : Nat) : Prop :=
  c!"0123456789abcdef"[d]? = some c ∨ c!"0123456789ABCDEF"[d]? = some c

/-- A non-empty text of hexadecimal digits and its value. -/
inductive HexVal : Str → Nat → Prop
  | one {c d} : HexDigitVal c d → HexVal [c] d
  | snoc {s n c d} : HexVal s n → HexDigitVal c d → HexVal (s ++ [c]) (16 * n + d)

end NomSparql
