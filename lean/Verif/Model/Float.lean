import Verif.Model.Literal

/-!
# The `f64` of decimal and double literals

The trees of Model/Ast keep the exact decimal that was written where the crate keeps an `f64`.  `Decimal.toF64` is the conversion that
`s.parse_to()` does (src/literal.rs:143, nom's `ParseTo` is `f64::from_str`), which rounds correctly for every number of digits.
-/

namespace NomSparql

/-- `f64`: a finite number is a sign and a multiple of 2^-1074. -/
inductive F64 where
  | fin (neg : Bool) (k : Nat)
  | inf (neg : Bool)
  | nan
  deriving DecidableEq, Repr

/-- `PartialEq` of `f64`: NaN differs from itself, the two zeros are equal. -/
def F64.eq : F64 → F64 → Bool
  | .fin s k, .fin t l => k == l && (s == t || k == 0)
  | .inf s, .inf t => s == t
  | _, _ => false

/-- The number 1 is 2^1074 units. -/
@[irreducible] def oneBits : Nat := 1074

/-- The first power of two beyond the range, 2^1024, is 2^2098 units. -/
@[irreducible] def topBits : Nat := 2098

/-- `N / D` to the nearest integer, ties to even. -/
def halfEven (N D : Nat) : Nat :=
  let q := N / D
  let r := N % D
  if 2 * r < D then q else if D < 2 * r then q + 1 else if q % 2 = 0 then q else q + 1

/-- `N / D` to 53 bits, not below the unit. -/
def roundUnits (N D : Nat) : Nat :=
  let e := Nat.log2 (N / D) - 52
  halfEven N (D * 2 ^ e) * 2 ^ e

/-- `f64::from_str` on the texts of `recognize_spaqrql_float` (src/literal.rs:140-148, `s.parse_to()`): the nearest `f64`, infinity beyond
the greatest one. -/
def Decimal.toF64 (d : Decimal) : F64 :=
  let k := roundUnits (d.mantissa * 2 ^ oneBits) (10 ^ d.scale)
  if k < 2 ^ topBits then .fin d.neg k else .inf d.neg

/-- `PartialEq` of `NumericLiteral` (derived, src/literal.rs:64-69). -/
def NumericLiteral.rustEq : NumericLiteral → NumericLiteral → Bool
  | .int v, .int w => v == w
  | .double d e, .double d' e' => d.toF64.eq d'.toF64 && e == e'
  | _, _ => false

example : ({ neg := false, mantissa := 1, scale := 1 } : Decimal).toF64 = .fin false (7205759403792794 * 2 ^ 1018) := by decide +kernel
example : ({ neg := true, mantissa := 25, scale := 1 } : Decimal).toF64 = .fin true (5 * 2 ^ 1073) := by decide +kernel
example : ({ neg := false, mantissa := 9007199254740993, scale := 0 } : Decimal).toF64 = .fin false (9007199254740992 * 2 ^ 1074) := by decide +kernel

end NomSparql
