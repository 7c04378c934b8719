import Verif.Model.Ast

/-!
# Model of src/terminals.rs

`iri_or_fun` (259-264) needs `arg_list` and is in `Verif/Model/Expr.lean`.
-/

namespace NomSparql

/-! ## Whitespace -/

/-- src/terminals.rs:83-88 `new_line` -/
def newLine : P Str :=
  recognize (pair
    (opt (preceded (char '#') (many0 (noneOf ['\n', '\r']))))
    (oneOf ['\r', '\n']))

/-- The element of `sp`/`sp1`: src/terminals.rs:75, 80 -/
def spItem : P Str := alt [recognize (oneOf [' ', '\t']), newLine]

/-- src/terminals.rs:73-76 `sp` -/
def sp : P Str := recognize (many0 spItem)

/-- src/terminals.rs:78-81 `sp1` -/
def sp1 : P Str := recognize (many1 spItem)

/-! ## Combinators -/

/-- src/terminals.rs:43-49 `bracketted` -/
def bracketted (p : P α) : P α := delimited (char '(') p (char ')')

/-- src/terminals.rs:51-60 `preceded_tag1` -/
def precededTag1 (t : List Char) (p : P α) : P α := preceded (terminated (tagNoCase t) sp1) p

/-- src/terminals.rs:62-71 `preceded_tag` -/
def precededTag (t : List Char) (p : P α) : P α := preceded (terminated (tagNoCase t) sp) p

/-- src/terminals.rs:32-41 `preceded_bracketted` -/
def precededBracketted (t : List Char) (p : P α) : P α := precededTag t (bracketted p)

/-- src/terminals.rs:90-96 `sp_enc` -/
def spEnc (p : P α) : P α := delimited sp p sp

/-- src/terminals.rs:98-104 `sp_enc1` -/
def spEnc1 (p : P α) : P α := delimited sp1 p sp1

/-- src/terminals.rs:106-116 `sp_sep1` -/
def spSep1 (p : P α) (q : P β) : P (α × β) := separatedPair p sp1 q

/-- src/terminals.rs:118-128 `sp_sep` -/
def spSep (p : P α) (q : P β) : P (α × β) := separatedPair p sp q

/-! ## Character classes -/

/-- src/terminals.rs:323-326 `is_sp` -/
def isSp (c : Char) : Bool := c ∈ [' ', '\t', '\n', '\r']

/-- src/terminals.rs:328-343 `is_unicode` -/
def isUnicode (c : Char) : Bool :=
  let n := c.toNat
  (0x00C0 ≤ n && n ≤ 0x00D6) || (0x00D8 ≤ n && n ≤ 0x00F6) || (0x00F8 ≤ n && n ≤ 0x02FF) ||
  (0x0370 ≤ n && n ≤ 0x037D) || (0x037F ≤ n && n ≤ 0x1FFF) || (0x200C ≤ n && n ≤ 0x200D) ||
  (0x2070 ≤ n && n ≤ 0x218F) || (0x2C00 ≤ n && n ≤ 0x2FEF) || (0x3001 ≤ n && n ≤ 0xD7FF) ||
  (0xF900 ≤ n && n ≤ 0xFDCF) || (0xFDF0 ≤ n && n ≤ 0xFFFD)

/-- src/terminals.rs:345-351 `is_illegal_char_lit_1` -/
def isIllegalCharLit1 (c : Char) : Bool :=
  c.toNat = 0x27 || c.toNat = 0x5C || c.toNat = 0x0A || c.toNat = 0x0D

/-- src/terminals.rs:353-360 `is_illegal_char_lit_2` -/
def isIllegalCharLit2 (c : Char) : Bool :=
  if !isIllegalCharLit1 c then c.toNat = 0x22 else true

/-- src/terminals.rs:362-365 `is_pn_chars_base` (`is_alphabetic(i as u8) || is_unicode(i)`) -/
def isPnCharsBase (c : Char) : Bool := isAsciiAlphaCode (asU8 c) || isUnicode c

/-- src/terminals.rs:377-380 `is_pn_chars_u` -/
def isPnCharsU (c : Char) : Bool := isPnCharsBase c || c == '_'

/-- src/terminals.rs:392-395 `is_pn_char` -/
def isPnChar (c : Char) : Bool := isPnCharsU c || c == '-' || isDecDigit c

/-- The predicate `|c| is_digit(c as u8)`: src/terminals.rs:298, src/graph.rs:268, src/clauses.rs:123 -/
def isDigitU8 (c : Char) : Bool := isAsciiDigitCode (asU8 c)

/-- src/terminals.rs:367-370 `pn_chars_base_one` -/
def pnCharsBaseOne : P Str := takeWhileN 1 isPnCharsBase

/-- src/terminals.rs:372-375 `pn_chars_base1` -/
def pnCharsBase1 : P Str := takeWhile1 isPnCharsBase

/-- src/terminals.rs:382-385 `pn_chars_u_one` -/
def pnCharsUOne : P Str := alt [pnCharsBaseOne, tag ['_']]

/-- src/terminals.rs:387-390 `pn_chars_u1` -/
def pnCharsU1 : P Str := takeWhile1 isPnCharsU

/-- src/terminals.rs:397-400 `pn_chars_one` -/
def pnCharsOne : P Str := takeWhileN 1 isPnChar

/-- src/terminals.rs:402-405 `pn_chars1` -/
def pnChars1 : P Str := takeWhile1 isPnChar

/-! ## Strings and literals -/

/-- The set of `one_of(r#""tbnrf\'"#)`: src/terminals.rs:131, 139, 144 -/
def escapeSet : List Char := ['"', 't', 'b', 'n', 'r', 'f', '\\', '\'']

/-- src/terminals.rs:130-132 `string_content` -/
def stringContent : P Str := escaped (noneOf ['\'', '"', '\\']) '\\' (oneOf escapeSet)

/-- src/terminals.rs:134-148 `string_literal` -/
def stringLiteral : P Str := alt [
  delimited (tag ['\'']) (escaped (noneOf ['\'', '\\']) '\\' (oneOf escapeSet)) (tag ['\'']),
  delimited (tag ['"']) (escaped (noneOf ['"', '\\']) '\\' (oneOf escapeSet)) (tag ['"'])]

/-- src/terminals.rs:169-175 `language_tag` -/
def languageTag : P Str :=
  preceded (char '@') (recognize (pair alpha1 (many0 (pair (tag ['-']) alphanumeric1))))

/-- src/terminals.rs:177-180 `echar` (its set has no backslash) -/
def echar : P Str := escaped (noneOf ['\\']) '\\' (oneOf ['"', 't', 'b', 'n', 'r', 'f', '\''])

/-! ## Names -/

/-- The predicate `|c| c == '.'`: src/terminals.rs:270, 271, 302, 304 -/
def isDot (c : Char) : Bool := c == '.'

/-- src/terminals.rs:266-273 `pn_chars_tail` -/
def pnCharsTail : P Str :=
  recognize (pair (opt (takeWhile1 isDot)) (separatedList (takeWhile1 isDot) pnChars1))

/-- src/terminals.rs:278-280 `is_hex_digit` (`char::is_digit(16)`) -/
def isHexDigit (c : Char) : Bool :=
  isDecDigit c || (0x41 ≤ c.toNat && c.toNat ≤ 0x46) || (0x61 ≤ c.toNat && c.toNat ≤ 0x66)

/-- `char::to_digit(16)` of the standard library, as used by `u8::from_str_radix`: src/terminals.rs:276 -/
def hexDigitVal (c : Char) : Option Nat :=
  if isDecDigit c then some (c.toNat - 0x30)
  else if 0x41 ≤ c.toNat ∧ c.toNat ≤ 0x46 then some (c.toNat - 0x37)
  else if 0x61 ≤ c.toNat ∧ c.toNat ≤ 0x66 then some (c.toNat - 0x57)
  else none

/-- The loop of `u8::from_str_radix(_, 16)`: `checked_mul`, then `checked_add`: src/terminals.rs:276 -/
def hexLoop (acc : Nat) : Str → Option Nat
  | [] => some acc
  | c :: s =>
    match hexDigitVal c with
    | none => none
    | some d =>
      if 255 < acc * 16 then none
      else if 255 < acc * 16 + d then none
      else hexLoop (acc * 16 + d) s

/-- src/terminals.rs:275-277 `from_hex`, `none` for every `ParseIntError`.  `u8::from_str_radix` (standard library, trusted): no digits is an
error, one leading `+` is skipped, a `-` is an invalid digit. -/
def fromHex : Str → Option Nat
  | [] => none
  | ['+'] => none
  | ['-'] => none
  | '+' :: s => hexLoop 0 s
  | s => hexLoop 0 s

/-- src/terminals.rs:282-284 `hex_primary` -/
def hexPrimary : P Str := takeWhileN 2 isHexDigit

/-- The set of `one_of("_~.-!$&'()*+,;=/?#@%")`: src/terminals.rs:289 -/
def pnLocalEsc : List Char := c!"_~.-!$&'()*+,;=/?#@%"

/-- src/terminals.rs:286-291 `plx` -/
def plx : P Str := recognize (alt [
  pair (tag ['%']) hexPrimary,
  pair (tag ['\\']) (recognize (oneOf pnLocalEsc))])

/-- The predicate `|c| is_pn_char(c) || c == ':'`: src/terminals.rs:305 -/
def isLocalChar (c : Char) : Bool := isPnChar c || c == ':'

/-- First character of a local name: src/terminals.rs:295-300 -/
def pnLocalFirst : P Str := alt [pnCharsUOne, tag [':'], takeWhileN 1 isDigitU8, plx]

/-- `many0(alt((take_while1(..), plx)))`: src/terminals.rs:305 -/
def pnLocalChunk : P (List Str) := many0 (alt [takeWhile1 isLocalChar, plx])

/-- src/terminals.rs:293-309 `pn_local` -/
def pnLocal : P Str :=
  recognize (pair pnLocalFirst
    (recognize (pair (opt (takeWhile1 isDot)) (separatedList (takeWhile1 isDot) pnLocalChunk))))

/-- src/terminals.rs:311-313 `pn_prefix` -/
def pnPrefix : P Str := recognize (pair pnCharsBaseOne pnCharsTail)

/-- src/terminals.rs:315-317 `pname_ns` -/
def pnameNs : P (Option Str) := terminated (opt pnPrefix) (preceded sp (char ':'))

/-- src/terminals.rs:319-321 `pname_ln` -/
def pnameLn : P (Option Str × Str) := pair pnameNs (preceded sp pnLocal)

/-- src/terminals.rs:182-190 `prefixed_name` -/
def prefixedName : P PrefixedName := alt [
  map pnameLn (fun x => .pnameLN x.1 x.2),
  map pnameNs .pnameNS]

/-! ## IRIs -/

/-- The characters of `"<>\"{}|^\\`"`: src/terminals.rs:224 -/
def iriExcluded : List Char := ['<', '>', '"', '{', '}', '|', '^', '\\', '`']

/-- The predicate of `iri_ref`: src/terminals.rs:223-230 (`c as u8 > 0x20`, truncating) -/
def isIriChar (c : Char) : Bool := if c ∈ iriExcluded then false else 0x20 < asU8 c

/-- src/terminals.rs:220-233 `iri_ref` -/
def iriRef : P Str := delimited (tag ['<']) (takeWhile isIriChar) (tag ['>'])

/-- src/terminals.rs:252-257 `iri` -/
def iri : P Iri := alt [map iriRef .iri, map prefixedName .prefixedName]

/-- src/terminals.rs:235-243 `named_iri` -/
def namedIri : P Iri :=
  precededTag1 c!"named" (alt [map iriRef .iri, map prefixedName .prefixedName])

/-- src/terminals.rs:245-250 `default_or_named_iri` -/
def defaultOrNamedIri : P DefaultOrNamedIri := alt [map namedIri .named, map iri .default]

/-- src/terminals.rs:150-167 `rdf_literal` -/
def rdfLiteral : P RdfLiteral :=
  map (pair stringLiteral
        (opt (alt [
          map languageTag .langTag,
          map (preceded (tag c!"^^") iri) .iriRef])))
    (fun x => { literal := x.1, descriptor := x.2 })

/-! ## Prologue -/

/-- src/terminals.rs:192-194 `base_decl` -/
def baseDecl : P Str := preceded (terminated (tagNoCase c!"base") sp1) iriRef

/-- src/terminals.rs:196-205 `prefix_decl` -/
def prefixDecl : P PrefixDecl :=
  map (tuple3 (tagNoCase c!"prefix") (spEnc pnameNs) iriRef)
    (fun x => { pnameNs := x.2.1, iriRef := x.2.2 })

/-- src/terminals.rs:207-218 `prologue` -/
def prologue : P Prologue :=
  map (separatedList sp1 (alt [map baseDecl .base, map prefixDecl .prefix])) .mk

/-! ## Anonymous node and nil -/

/-- src/terminals.rs:407-409 `anon` -/
def anon : P Str := preceded (char '[') (cut (terminated sp (char ']')))

/-- src/terminals.rs:411-413 `nil` -/
def nil : P Str := preceded (char '(') (cut (terminated sp (char ')')))

end NomSparql
