import Verif.Model.Ast

/-!
# Lexical specification vocabulary

Independent of the parsers: it only uses the AST types and `Str = List Char`.
-/

namespace NomSparql

/-- A language: a set of texts. -/
abbrev Lang := Str → Prop

/-- Concatenation of languages. -/
def Lang.seq (A B : Lang) : Lang := fun s => ∃ a b, s = a ++ b ∧ A a ∧ B b

infixr:67 " ⬝ " => Lang.seq

/-- The empty text. -/
def eps : Lang := fun s => s = []

/-- Exactly the text `t`. -/
def lit (t : Str) : Lang := fun s => s = t

/-- `y` is the ASCII letter (or other character) `x`, possibly in upper case. -/
def SameLetter (x y : Char) : Prop :=
  y = x ∨ (0x61 ≤ x.toNat ∧ x.toNat ≤ 0x7A ∧ y.toNat + 0x20 = x.toNat)

/-- `s` is the lower-case keyword `t` in some mixture of upper and lower case. -/
inductive CaseVariant : Str → Str → Prop
  | nil : CaseVariant [] []
  | cons {x y t s} : SameLetter x y → CaseVariant t s → CaseVariant (x :: t) (y :: s)

/-- The keyword `t`, in any letter case. -/
def kw (t : Str) : Lang := fun s => CaseVariant t s

/-- One unit of white space: blank, tab, line end, or a comment up to and including its line end. -/
inductive WsItem : Str → Prop
  | char {c} : c ∈ [' ', '\t', '\r', '\n'] → WsItem [c]
  | comment {body c} : (∀ d ∈ body, d ≠ '\n' ∧ d ≠ '\r') → c ∈ ['\r', '\n'] →
      WsItem ('#' :: (body ++ [c]))

/-- White space: any number of units. -/
inductive Ws : Str → Prop
  | nil : Ws []
  | cons {a s} : WsItem a → Ws s → Ws (a ++ s)

/-- Non-empty white space. -/
def Ws1 : Lang := fun s => Ws s ∧ s ≠ []

/-- `s` begins with a unit of white space. -/
def StartsWs (s : Str) : Prop := ∃ a b, WsItem a ∧ s = a ++ b

/-! ## Character classes of SPARQL 1.1 (https://www.w3.org/TR/sparql11-query/#rPN_CHARS_BASE) -/

/-- PN_CHARS_BASE. -/
def W3CPnCharsBase (c : Char) : Prop :=
  let n := c.toNat
  (0x41 ≤ n ∧ n ≤ 0x5A) ∨ (0x61 ≤ n ∧ n ≤ 0x7A) ∨ (0xC0 ≤ n ∧ n ≤ 0xD6) ∨ (0xD8 ≤ n ∧ n ≤ 0xF6) ∨
  (0xF8 ≤ n ∧ n ≤ 0x2FF) ∨ (0x370 ≤ n ∧ n ≤ 0x37D) ∨ (0x37F ≤ n ∧ n ≤ 0x1FFF) ∨
  (0x200C ≤ n ∧ n ≤ 0x200D) ∨ (0x2070 ≤ n ∧ n ≤ 0x218F) ∨ (0x2C00 ≤ n ∧ n ≤ 0x2FEF) ∨
  (0x3001 ≤ n ∧ n ≤ 0xD7FF) ∨ (0xF900 ≤ n ∧ n ≤ 0xFDCF) ∨ (0xFDF0 ≤ n ∧ n ≤ 0xFFFD) ∨
  (0x10000 ≤ n ∧ n ≤ 0xEFFFF)

instance : DecidablePred W3CPnCharsBase := fun c => by unfold W3CPnCharsBase; infer_instance

/-- The characters IRIREF forbids: `<>"{}|^` backslash, backquote and U+0000-U+0020. -/
def W3CIriForbidden (c : Char) : Prop :=
  c ∈ ['<', '>', '"', '{', '}', '|', '^', '\\', '`'] ∨ c.toNat ≤ 0x20

instance : DecidablePred W3CIriForbidden := fun c => by unfold W3CIriForbidden; infer_instance

/-- ASCII letter. -/
def AsciiLetter (c : Char) : Prop := (0x41 ≤ c.toNat ∧ c.toNat ≤ 0x5A) ∨ (0x61 ≤ c.toNat ∧ c.toNat ≤ 0x7A)

instance : DecidablePred AsciiLetter := fun c => by unfold AsciiLetter; infer_instance

/-- ASCII digit. -/
def AsciiDigit (c : Char) : Prop := 0x30 ≤ c.toNat ∧ c.toNat ≤ 0x39

instance : DecidablePred AsciiDigit := fun c => by unfold AsciiDigit; infer_instance

/-- Outer bound for characters of names: ASCII letters, digits, `_`, and non-ASCII characters. -/
def NameChar (c : Char) : Prop := AsciiLetter c ∨ AsciiDigit c ∨ c = '_' ∨ 0x80 ≤ c.toNat

instance : DecidablePred NameChar := fun c => by unfold NameChar; infer_instance

/-! ## Decimal values -/

/-- `DecVal s n`: the digit string `s` (non-empty) denotes `n` in base ten. -/
inductive DecVal : Str → Nat → Prop
  | digit {c} : AsciiDigit c → DecVal [c] (c.toNat - 0x30)
  | snoc {s c n} : DecVal s n → AsciiDigit c → DecVal (s ++ [c]) (10 * n + (c.toNat - 0x30))

end NomSparql
