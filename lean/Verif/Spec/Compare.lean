import Verif.Model.Float
import Verif.Spec.Lex

/-!
# What `==` sees of a number, and texts without decimals
-/

namespace NomSparql

/-- The value of an `f64` in units of 2^-1074; infinity counts as the power of two after the greatest `f64`. -/
def F64.units : F64 → Int
  | .fin neg k => if neg then -(k : Int) else k
  | .inf neg => if neg then -((2 ^ topBits : Nat) : Int) else (2 ^ topBits : Nat)
  | .nan => 0

/-- An integer is kept; of a decimal only the `f64` remains (written as a number of units), and its exponent. -/
def seen : NumericLiteral → NumericLiteral
  | .int v => .int v
  | .double d e => .double ⟨decide (d.toF64.units < 0), d.toF64.units.natAbs, 0⟩ e

/-- No digit next to a point, none before `e` or `E`, and no more than 18 digits in a row. -/
def OnlyIntegers (i : Str) : Prop :=
  (∀ d c, AsciiDigit d → c ∈ ['.', 'e', 'E'] → ¬ [d, c] <:+: i) ∧ (∀ d, AsciiDigit d → ¬ ['.', d] <:+: i) ∧
    ∀ w, w <:+: i → (∀ c ∈ w, AsciiDigit c) → w.length ≤ 18

end NomSparql
