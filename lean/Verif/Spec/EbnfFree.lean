import Verif.Spec.EbnfTidy

/-!
# The liberties of the crate, one by one

Below the level of productions the crate takes five liberties: `Lib` lists them, `Liberty` says what a token that takes one looks like.
`near` is SPARQL 1.1 (where words may touch) with chosen liberties and chosen additional productions.  `LibFree` and `DevFree` are
conditions on a text under which it cannot take a liberty.
-/

namespace NomSparql

open Ebnf

/-- A character that is no letter of SPARQL 1.1 but whose code point, cut to 8 bits, is an ASCII letter or digit. -/
def Foreign (c : Char) : Prop := 256 ≤ c.toNat ∧ ¬ W3CPnCharsBase c ∧ (LowByteLetter c ∨ LowByteDigit c)

instance decLowByteDigit : DecidablePred LowByteDigit := fun c => by unfold LowByteDigit; infer_instance
instance decForeign : DecidablePred Foreign := fun c => by unfold Foreign; infer_instance

/-- The liberties of tokens. -/
inductive Lib where
  /-- foreign characters in names -/
  | foreign
  /-- white space inside a name or variable -/
  | gap
  /-- a dot at the end of a name, prefix, label or number -/
  | dotEnd
  /-- a line end in a string -/
  | lineEnd
  /-- a comment inside `()` or `[]` -/
  | comment

/-- Names of all kinds. -/
def Term.isName (x : Term) : Prop := x = .pnameNs ∨ x = .pnameLn ∨ x = .blankNodeLabel ∨ x = .var

/-- What a token that takes a liberty looks like. -/
def Liberty : Lib → Term → Lang
  | .foreign, x => fun s => x.isName ∧ ∃ c ∈ s, Foreign c
  | .gap, x => fun s => x.isName ∧ ∃ a w b, s = a ++ (w ++ b) ∧ Ws1 w ∧ a ≠ [] ∧ b ≠ []
  | .dotEnd, x => fun s => (x = .pnameNs ∨ x = .pnameLn) ∧ (∃ a w b, s = a ++ '.' :: (w ++ ':' :: b) ∧ Ws w) ∨
      (x = .pnameLn ∨ x = .blankNodeLabel ∨ x = .number ∨ x = .signedNumber) ∧ ∃ a, s = a ++ ['.']
  | .lineEnd, x => fun s => x = .string ∧ ('\n' ∈ s ∨ '\r' ∈ s)
  | .comment, x => fun s => (x = .nil ∨ x = .anon) ∧ '#' ∈ s

/-- SPARQL 1.1 where words may touch, with chosen liberties. -/
def near (lib : Lib → Prop) (dev : Dev → Prop) : Dialect :=
  { term := fun x s => w3cTerm x s ∨ crateTerm x s ∧ ∃ l, lib l ∧ Liberty l x s, dev, touch := fun _ _ => True }

/-! ## Conditions on a text -/

/-- A name begins here: characters of names, then a colon. -/
def NameHead (b : Str) : Prop := ∃ n w t, b = n ++ (w ++ ':' :: t) ∧ (∀ c ∈ n, CodedNameChar c ∨ W3CPnChars c ∨ c = '.') ∧ Ws w

/-- An IRI begins here. -/
def IriHead (b : Str) : Prop := (∃ t, b = '<' :: t) ∨ NameHead b

/-- The object of a triple begins here. -/
def ObjectHead (b : Str) : Prop :=
  (∃ c t, b = c :: t ∧ (c ∈ ['?', '$', '"', '\'', '+', '-', '.', '(', '['] ∨ AsciiDigit c)) ∨ IriHead b ∨
    ∃ v t, b = v ++ t ∧ (CaseVariant c!"true" v ∨ CaseVariant c!"false" v)

/-- No text has a line end between a quotation mark and the next that closes it. -/
def Unbroken (s : Str) : Prop := ('\'' ∉ s ∧ '#' ∉ s ∧ '\\' ∉ s) ∧
  ∀ a y b, s = a ++ '"' :: (y ++ '"' :: b) → a.count '"' % 2 = 0 → '"' ∉ y → ∀ c ∈ y, c ≠ '\n' ∧ c ≠ '\r'

/-- No token of the text takes the liberty. -/
def LibFree : Lib → Str → Prop
  | .foreign, s => ∀ c ∈ s, ¬ Foreign c
  | .gap, s =>
    (∀ a g w c b, g ∈ ['?', '$', ':'] → Ws1 w → s = a ++ g :: (w ++ c :: b) → ¬ (CodedLocalStart c ∨ c = '%' ∨ c = '\\')) ∧
    (∀ a c w b, Ws1 w → s = a ++ c :: (w ++ ':' :: b) → ¬ CodedNameChar c)
  | .dotEnd, s =>
    (∀ a w l b, Ws w → l ≠ [] → NameUnits (fun c => CodedLocalStart c ∨ CodedNameChar c ∨ c = '.') l → s ≠ a ++ ':' :: (w ++ (l ++ '.' :: b))) ∧
    (∀ a c w b, CodedNameChar c ∨ c = '.' → Ws w → s ≠ a ++ c :: '.' :: (w ++ ':' :: b)) ∧
    (∀ a g b c d, g = '{' ∨ g = '(' → AsciiDigit c → s ≠ a ++ g :: (b ++ c :: '.' :: d))
  | .lineEnd, s => (∀ c ∈ s, c ≠ '"' ∧ c ≠ '\'') ∨ (∀ c ∈ s, c ≠ '\n' ∧ c ≠ '\r') ∨ Unbroken s
  | .comment, s => (∀ a w b, Ws w → '#' ∈ w → s ≠ a ++ '(' :: (w ++ ')' :: b)) ∧ ∀ a w b, Ws w → '#' ∈ w → s ≠ a ++ '[' :: (w ++ ']' :: b)

/-- The word, in any letter case, is nowhere followed by a text of the kind. -/
def NotBefore (f s : Str) (q : Str → Prop) : Prop := ∀ a v w b, CaseVariant f v → Ws w → s = a ++ (v ++ (w ++ b)) → ¬ q b

/-- No part of the text needs the additional production. -/
def DevFree : Dev → Str → Prop
  | .upperA, s => ∀ a b, s = a ++ '{' :: b → 'A' ∉ b
  | .dots, s => ∀ a w b, Ws w → s ≠ a ++ '.' :: (w ++ '.' :: b)
  | .semicolons, s => ∀ a w b, Ws w → s = a ++ ';' :: (w ++ b) → ¬ ObjectHead b
  | .questionMark, s => ∀ a c w b, c = '}' ∨ c = ')' → Ws w → s ≠ a ++ c :: (w ++ '?' :: b)
  | .number, s => ∀ a b c d e, AsciiDigit c → s ≠ a ++ '(' :: (b ++ c :: (d ++ ')' :: e))
  | .calls, s => (∀ f ∈ [c!"strlen", c!"concat"], NotBefore f s fun b => ∃ t, b = '(' :: t) ∧
      ∀ f ∈ c!"bnode" :: noArgFns, NotBefore f s fun b => ∃ w t, Ws w ∧ b = '(' :: (w ++ '(' :: t)
  | .modify, s => (NotBefore c!"offset" s fun b => ∃ t, b = '{' :: t) ∧ NotBefore c!"where" s IriHead

/-- The text takes no liberty. -/
structure Careful (s : Str) : Prop where
  lib : ∀ l, LibFree l s
  dev : ∀ d, DevFree d s

end NomSparql
