import Verif.Spec.Ebnf
import Verif.Spec.CanonUpdate

/-!
# A part of SPARQL 1.1

White space between all words, and only such texts of IRIs and names as the crate is known to read (C13, C14, C46).
-/

namespace NomSparql

open Ebnf

/-- White space stands between the texts, unless one of them is empty. -/
def Spaced (s t : Str) : Prop := ∀ a c d b, s = a ++ [c] → t = d :: b → IsBlank c ∨ IsBlank d ∨ d = '#'

/-- The part of SPARQL 1.1. -/
def plain : Dialect where
  term
    | .iriRef => fun s => w3cTerm .iriRef s ∧ ∃ x, cIriRef x s
    | .pnameNs => fun s => w3cTerm .pnameNs s ∧ ∃ o, s = prefixText o ++ c!":" ∧ OptPrefix CommonBase CommonNameChar o
    | .pnameLn => fun s => w3cTerm .pnameLn s ∧ (∃ x, cIri (.prefixedName x) s) ∧ NoDefault s
    | _ => fun _ => False
  dev _ := False
  touch := Spaced

/-- Operations the crate does not read, or not always: ADD and MOVE (see C80), and those with a name
that is only a prefix, such as `ex:`, where a graph is named. -/
def unread : Ebnf := choice [n .add, n .move,
  k c!"graph" ⬩ t .pnameNs,
  k c!"load" ⬩ maybe (k c!"silent") ⬩ t .pnameNs ⬩ maybe (k c!"into" ⬩ n .graphRef),
  k c!"copy" ⬩ maybe (k c!"silent") ⬩ (maybe (k c!"graph") ⬩ t .pnameNs) ⬩ k c!"to" ⬩ n .graphOrDefault,
  k c!"copy" ⬩ maybe (k c!"silent") ⬩ n .graphOrDefault ⬩ k c!"to" ⬩ (maybe (k c!"graph") ⬩ t .pnameNs)]

/-- The text has such a part, as words of their own. -/
def HasUnread (s : Str) : Prop := ∃ a m b, s = a ++ (m ++ b) ∧ Spaced a m ∧ Spaced m b ∧ Gen plain unread m

end NomSparql
