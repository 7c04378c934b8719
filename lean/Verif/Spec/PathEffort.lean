import Verif.Spec.Lex

/-!
# The places in a path that cost effort

A bar followed by a bracketed path is the construct whose operand is read twice at each level of nesting when it cannot be read to its end
(src/path.rs:215-227: `path_sequence` and `path_alternative` have the same separator).
-/

namespace NomSparql

/-- After white space an opening parenthesis or a caret follows (or a comment, whatever follows it). -/
def opensPath : Str → Bool
  | [] => false
  | c :: s => if c ∈ ['(', '^', '#'] then true else if c ∈ [' ', '\t', '\r', '\n'] then opensPath s else false

/-- The number of bars followed by such a text. -/
def bars : Str → Nat
  | [] => 0
  | c :: s => (if c = '|' ∧ opensPath s = true then 1 else 0) + bars s

/-- The number of opening parentheses. -/
def parens (s : Str) : Nat := s.count '('

end NomSparql
