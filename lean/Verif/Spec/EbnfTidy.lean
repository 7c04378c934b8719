import Verif.Spec.EbnfPlain

/-!
# Tidy texts

Conditions on a text under which the canonical texts are texts of SPARQL 1.1.  They exclude what the crate reads in another way than SPARQL 1.1
(several dots in a row, names and numbers that end with a dot, comments inside `()` and `[]`, line ends inside strings) and the two places
where the canonical texts let words touch.
-/

namespace NomSparql

structure Tidy (s : Str) : Prop where
  /-- no two dots with nothing but white space between them -/
  dots : ∀ a w b, Ws w → s ≠ a ++ '.' :: (w ++ '.' :: b)
  /-- a dot stands after a blank or a closing brace, or before a character of a name or number -/
  ends : ∀ a c b, s = a ++ c :: '.' :: b → IsBlank c ∨ c = '}' ∨ ∃ d r, b = d :: r ∧ W3CPnChars d
  /-- no comments inside `()` -/
  round : ∀ a w b, Ws w → '#' ∈ w → s ≠ a ++ '(' :: (w ++ ')' :: b)
  /-- no comments inside `[]` -/
  square : ∀ a w b, Ws w → '#' ∈ w → s ≠ a ++ '[' :: (w ++ ']' :: b)
  /-- no quotes or no line ends -/
  strings : (∀ c ∈ s, c ≠ '"' ∧ c ≠ '\'') ∨ (∀ c ∈ s, c ≠ '\n' ∧ c ≠ '\r')
  /-- a gap after the word PREFIX -/
  afterPrefix : ∀ a v c b, s = a ++ (v ++ c :: b) → CaseVariant c!"prefix" v → ¬ WordChar c
  /-- a gap before the word VALUES -/
  beforeValues : ∀ a c v b, s = a ++ c :: (v ++ b) → CaseVariant c!"values" v → ¬ WordChar c

end NomSparql
