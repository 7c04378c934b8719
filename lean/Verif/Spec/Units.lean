import Verif.Spec.Tokens
import Verif.Spec.Layout
import Verif.Spec.Brackets

/-!
# Texts cut into units, with the number of open braces

`Units a n s`: `s` is a sequence of single characters, gaps, strings, escapes and braces in which `n` more braces are closed than opened, and never
too many.  A gap is white space and comments.  `a` says whether angle brackets may occur inside braces, where `<` may begin an IRI or be
an operator; then nothing that looks like the inside of an IRI may contain `#` or an apostrophe, except after `//`.
Outside braces every IRI may occur.
-/

namespace NomSparql

/-- Not white space, a comment, a quote, a backslash or a brace. -/
def OrdinaryChar (c : Char) : Prop := c ∉ [' ', '\t', '\r', '\n', '#', '"', '\'', '\\', '{', '}']

instance : DecidablePred OrdinaryChar := fun c => by unfold OrdinaryChar; infer_instance

/-- A character that both SPARQL 1.1 and the crate accept in IRIs. -/
def UnitIriChar (c : Char) : Prop := c ∉ iriStops ∧ 0x20 < c.toNat % 256

instance : DecidablePred UnitIriChar := fun c => by unfold UnitIriChar; infer_instance

inductive Units (a : Prop) : Nat → Str → Prop
  | nil : Units a 0 []
  | char {n c s} : OrdinaryChar c → (c = '<' → a ∧ 0 < n) → Units a n s → Units a n (c :: s)
  | gap {n c w s} : IsBlank c → Ws w → Units a n s → Units a n (c :: (w ++ s))
  | comment {n b e s} : (∀ c ∈ b, c ≠ '\n' ∧ c ≠ '\r') → e ∈ ['\n', '\r'] → (a → '>' ∉ b) → Units a n s → Units a n ('#' :: (b ++ e :: s))
  | str {n q b s} : (q = '"' ∨ q = '\'') → StrBody q b → (a → q = '\'' → '>' ∉ b) → Units a n s → Units a n (q :: (b ++ q :: s))
  | escape {n c s} : c ∈ localEscapes → Units a n s → Units a n ('\\' :: c :: s)
  | url {n b s} : (∀ c ∈ b, UnitIriChar c) → Units a n s → Units a n ('/' :: '/' :: (b ++ '>' :: s))
  | iri {b s} : (∀ c ∈ b, UnitIriChar c) → Units a 0 s → Units a 0 ('<' :: (b ++ '>' :: s))
  | open {n s} : Units a (n + 1) s → Units a n ('{' :: s)
  | close {n s} : Units a n s → Units a (n + 1) ('}' :: s)

/-! ## A reader for such texts -/

/-- The body of a string in quotes `q` and what follows the closing quote. -/
def readString (q : Char) : Str → Option (Str × Str)
  | [] => none
  | '\\' :: c :: s => if c ∈ ['t', 'b', 'n', 'r', 'f', '\\', '"', '\''] then (readString q s).map fun r => ('\\' :: c :: r.1, r.2) else none
  | c :: s => if c = q then some ([], s) else if c = '\\' then none else (readString q s).map fun r => (c :: r.1, r.2)

/-- The inside of an IRI and what follows the closing bracket. -/
def readIri : Str → Option (Str × Str)
  | [] => none
  | c :: s => if c = '>' then some ([], s) else if UnitIriChar c then (readIri s).map fun r => (c :: r.1, r.2) else none

/-- Whether a text is cut into units; `k` bounds the number of steps, `n` counts the open braces. -/
def readUnits (a : Bool) : Nat → Nat → Str → Bool
  | _, n, [] => n == 0
  | 0, _, _ :: _ => false
  | k + 1, n, c :: s =>
    if c = '{' then readUnits a k (n + 1) s
    else if c = '}' then match n with
      | 0 => false
      | m + 1 => readUnits a k m s
    else if IsBlank c then readUnits a k n s
    else if c = '#' then
      let b := s.takeWhile fun d => d ∉ ['\n', '\r']
      match s.dropWhile fun d => d ∉ ['\n', '\r'] with
      | [] => false
      | _ :: r => (!a || decide ('>' ∉ b)) && readUnits a k n r
    else if c = '"' ∨ c = '\'' then match readString c s with
      | none => false
      | some (b, r) => (!a || decide (c = '"' ∨ '>' ∉ b)) && readUnits a k n r
    else if c = '\\' then match s with
      | [] => false
      | e :: r => decide (e ∈ localEscapes) && readUnits a k n r
    else if c = '<' ∧ n = 0 then match readIri s with
      | none => false
      | some (_, r) => readUnits a k n r
    else if c = '<' then a && readUnits a k n s
    else match (if c = '/' ∧ s.head? = some '/' then readIri s.tail else none) with
      | some (_, r) => readUnits a k n r
      | none => readUnits a k n s

/-- The condition on a text, with angle brackets inside braces or without them. -/
def wellCut (a : Bool) (s : Str) : Bool := readUnits a (s.length + 1) 0 s

end NomSparql
