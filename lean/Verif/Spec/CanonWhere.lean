import Verif.Spec.CanonTriples

/-!
# Canonical texts of triples in group graph patterns

The crate reads triple patterns only in a restricted form (see C33, C35 to C37, C51); these are the texts it accepts.
-/

namespace NomSparql

/-- `<p>` or `a`, with or without `^`, in a negated property set. -/
def cIriOrAOrCaret : IriOrAOrCaret → Lang
  | .iriOrA (.iri i) => cIri i
  | .iriOrA .a => lit c!"a"
  | .caret (.iri i) => lit c!"^" ⬝ cIri i
  | .caret .a => lit c!"^a"

/-- A bar, with white space before it. -/
def cBar : Lang := Ws1 ⬝ lit c!"|" ⬝ Ws

def cNegated (l : List IriOrAOrCaret) : Lang := paren (Ws ⬝ Sep1 cBar cIriOrAOrCaret l ⬝ Ws)

def cMod : PathMod → Lang
  | .questionMark => lit c!"?"
  | .asterisk => lit c!"*"
  | .plus => lit c!"+"

mutual
/-- An IRI, `a`, a negated property set or a path in parentheses. -/
inductive CPrimary : PathPrimary → Lang
  | iri {i s} : cIri i s → CPrimary (.iri i) s
  | a : CPrimary .a c!"a"
  | negated {l s} : cNegated l s → CPrimary (.pathNegatedPropertySet l) ('!' :: s)
  | group {l s} : CPath l s → CPrimary (.path (.mk [.mk l])) ('(' :: (s ++ [')']))
/-- A primary with or without a modifier after white space. -/
inductive CElt : PathElt → Lang
  | plain {p s} : CPrimary p s → CElt (.mk p none) s
  | mod {p s w m t} : CPrimary p s → Ws1 w → cMod m t → CElt (.mk p (some m)) (s ++ (w ++ t))
/-- An element or its inverse. -/
inductive CEltOrInverse : PathEltOrInverse → Lang
  | elt {e s} : CElt e s → CEltOrInverse (.pathElt e) s
  | inverse {e s} : CElt e s → CEltOrInverse (.inverse e) ('^' :: s)
/-- Elements separated by bars. -/
inductive CPath : List PathEltOrInverse → Lang
  | one {e s} : CEltOrInverse e s → CPath [e] s
  | cons {e s b l t} : CEltOrInverse e s → cBar b → CPath l t → CPath (e :: l) (s ++ (b ++ t))
end

/-- An ASCII character that does not begin a path modifier. -/
def NoMod (c : Char) : Prop := c.toNat < 128 ∧ c ≠ '?' ∧ c ≠ '*' ∧ c ≠ '+'

instance : DecidablePred NoMod := fun c => by unfold NoMod; infer_instance

/-- An object that cannot be mistaken for a path modifier. -/
def cPlainObject (o : VarOrTerm) : Lang := fun s => cVarOrTerm o s ∧ ∀ c t, s = c :: t → NoMod c

/-- `?p object` or `path object`. -/
inductive CPredObj : VerbPathOrSimple → VarOrTerm → Lang
  | var {v o s} : (cVar v ⬝ Ws1 ⬝ cVarOrTerm o) s → CPredObj (.simple v) o s
  | path {l o s} : (CPath l ⬝ Ws1 ⬝ cPlainObject o) s → CPredObj (.path (.mk [.mk l])) o s

/-- A path that cannot be mistaken for an object: it begins with `a`, `!` or `^` (see C58). -/
def NoObject : List PathEltOrInverse → Prop
  | .pathElt (.mk .a _) :: _ => True
  | .pathElt (.mk (.pathNegatedPropertySet _) _) :: _ => True
  | .inverse _ :: _ => True
  | _ => False

/-- A further path with its objects. -/
structure PathObjects where
  path : List PathEltOrInverse
  objects : List VarOrTerm

/-- Its AST. -/
def PathObjects.ast (m : PathObjects) : PropertyListPathEntry := ⟨.path (.mk [.mk m.path]), m.objects.map .varOrTerm⟩

/-- `path object , object ...` -/
def cPathObjects (m : PathObjects) : Lang := fun s => NoObject m.path ∧
  (CPath m.path ⬝ Ws1 ⬝ fun t => Sep1 commaL cVarOrTerm m.objects t ∧ ∀ c u, t = c :: u → NoMod c) s

/-- A triple pattern: subject, predicate, object; further paths with their objects. -/
structure Pattern where
  subject : VarOrTerm
  predicate : VerbPathOrSimple
  object : VarOrTerm
  more : List PathObjects := []

/-- Its AST. -/
def Pattern.ast (p : Pattern) : TriplesSameSubjectPath :=
  .term p.subject (.mk p.predicate [.varOrTerm p.object] (p.more.map PathObjects.ast))

/-- `subject predicate object ; path objects ; path objects ...` -/
def cPattern (p : Pattern) : Lang := cVarOrTerm p.subject ⬝ Ws1 ⬝ CPredObj p.predicate p.object ⬝ Many (fun m => cSemis ⬝ cPathObjects m) p.more

/-- Patterns separated by dots. -/
def cPatterns (l : List Pattern) : Lang := Sep1 cDots cPattern l

end NomSparql
