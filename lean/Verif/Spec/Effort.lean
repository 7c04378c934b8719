import Verif.Spec.Lex

/-!
# The places that cost effort

`STRLEN` followed by white space is the construct whose argument is read twice at each level of nesting (src/call.rs:139-146, 155-158: two
alternatives begin with the same keyword, the first with white space before the parenthesis).
-/

namespace NomSparql

/-- The text begins with `strlen`, in any letter case, and then white space or a comment. -/
def strlenAt (i : Str) : Bool :=
  (i.take 6).map Char.toLower == c!"strlen" && match i.drop 6 with
    | c :: _ => c ∈ [' ', '\t', '\r', '\n', '#']
    | [] => false

/-- The number of such places in a text. -/
def strlens : Str → Nat
  | [] => 0
  | c :: s => (if strlenAt (c :: s) then 1 else 0) + strlens s

end NomSparql
