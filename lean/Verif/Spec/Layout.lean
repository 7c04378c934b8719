import Verif.Spec.Tokens
import Verif.Model.Nom

/-!
# Laying out a text differently

Two texts are the same up to layout if one is obtained from the other by replacing gaps (blanks, tabs, line ends, and comments
after a first blank) by other gaps.  String literals and everything else stay as they are.
-/

namespace NomSparql

/-- Blank, tab, line end. -/
def IsBlank (c : Char) : Prop := c ∈ [' ', '\t', '\r', '\n']

instance : DecidablePred IsBlank := fun c => by unfold IsBlank; infer_instance

/-- Characters that are neither white space nor begin a comment or a string. -/
def PlainChar (c : Char) : Prop := c ∉ [' ', '\t', '\r', '\n', '#', '"', '\'']

instance : DecidablePred PlainChar := fun c => by unfold PlainChar; infer_instance

/-- The same text up to layout.  A gap begins with a blank and goes on with white space and comments.
(A single-quoted string has no `>` in it and does not follow a backslash: the apostrophe may also be written in IRIs and, escaped,
in local names, where it does not begin a string.) -/
inductive Relaid : Str → Str → Prop
  | nil : Relaid [] []
  | char {c s s'} : PlainChar c → (c = '\\' → s.head? ≠ some '\'') → Relaid s s' → Relaid (c :: s) (c :: s')
  | gap {c c' w w' s s'} : IsBlank c → IsBlank c' → Ws w → Ws w' → Relaid s s' →
      Relaid (c :: (w ++ s)) (c' :: (w' ++ s'))
  | str {q b s s'} : (q = '"' ∨ q = '\'') → StrBody q b → (q = '\'' → '>' ∉ b) → Relaid s s' →
      Relaid (q :: (b ++ q :: s)) (q :: (b ++ q :: s'))

/-- The same place in texts that are the same up to layout; it may be inside a string. -/
def SamePlace (p p' : Str) : Prop := ∃ b s s', p = b ++ s ∧ p' = b ++ s' ∧ Relaid s s'

/-- The same answer up to layout: the same value with remainders that are the same up to layout, or the same error at the same
place. -/
def SameAnswer : Res α → Res α → Prop
  | .ok r v, .ok r' v' => v = v' ∧ Relaid r r'
  | .err (.error p k), .err (.error p' k') => k = k' ∧ SamePlace p p'
  | .err (.failure p k), .err (.failure p' k') => k = k' ∧ SamePlace p p'
  | .err e, .err e' => e = e'
  | _, _ => False

/-- Every run of blanks, tabs and line ends made one blank; the flag says that the run has been begun before. -/
def squeeze : Bool → Str → Str
  | _, [] => []
  | g, c :: s => if IsBlank c then (if g then squeeze true s else ' ' :: squeeze true s) else c :: squeeze false s

end NomSparql
