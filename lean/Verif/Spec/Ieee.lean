/-!
# Rounding to binary floating point numbers

Non-negative numbers are quotients `N / D` of natural numbers; finite non-negative binary64 numbers are multiples `k` of the least
positive one, 2^-1074.  `IsFloat` leaves the exponent unbounded above, as IEEE 754 does before it tests for overflow.
-/

namespace NomSparql

/-- `k` has a significand of at most 53 bits. -/
def IsFloat (k : Nat) : Prop := ∃ m e, k = m * 2 ^ e ∧ m < 2 ^ 53

/-- The distance of `k` from `N / D`, times `D`. -/
def dist (N D k : Nat) : Nat := (k * D - N) + (N - k * D)

/-- The last of the 53 bits of the significand is 0: in the representation with the least exponent. -/
def EvenFloat (k : Nat) : Prop := ∃ m e, k = m * 2 ^ e ∧ m < 2 ^ 53 ∧ (e = 0 ∨ 2 ^ 52 ≤ m) ∧ m % 2 = 0

/-- IEEE 754 round to nearest, ties to even: `k` is a floating point number, none is nearer to `N / D`, and if another one is as near then
`k` is the even one. -/
def Rounds (N D k : Nat) : Prop :=
  IsFloat k ∧ ∀ j, IsFloat j → dist N D k ≤ dist N D j ∧ (dist N D j = dist N D k → j ≠ k → EvenFloat k)

end NomSparql
