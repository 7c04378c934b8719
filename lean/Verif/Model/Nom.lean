/-!
# Model of the nom 5 combinators used by nom-sparql

nom is an external dependency (`/repo/Cargo.toml`, `nom = "5.0"`).  Its source is not part of `/repo`;
the behaviour modelled here is that of nom 5.1 and is part of the trusted base (DESIGN.md, section 2).
The imports that pull each combinator in are cited.
-/

namespace NomSparql

/-- `c!"abc"` is the character list `['a', 'b', 'c']` (notation only, for Rust string literals). -/
syntax:max "c!" str : term

macro_rules
  | `(c! $s:str) => do
    let cs := s.getString.toList.map Lean.Syntax.mkCharLit
    `([$(cs.toArray),*])

/-- `&str`: a sequence of Unicode scalar values. -/
abbrev Input := List Char

/-- `nom::error::ErrorKind`, the kinds that the crate's parsers can produce. -/
inductive Kind where
  | Tag | Char | OneOf | NoneOf | Many0 | Many1 | SeparatedList
  | Alpha | AlphaNumeric | Digit | TakeWhile1 | TakeWhileMN | MapRes | Float | Escaped
  deriving DecidableEq, Repr

/-- The non-`Ok` outcomes: `nom::Err::{Error, Failure, Incomplete}`, a Rust panic, and `fuel`, the
model's "recursion budget exhausted" (proved unreachable for every entry point). -/
inductive Err where
  | error (pos : Input) (kind : Kind)
  | failure (pos : Input) (kind : Kind)
  | incomplete (needed : Nat)
  | panic
  | fuel
  deriving DecidableEq, Repr

/-- `nom::IResult<&str, α>` (extended with panic and fuel, see `Err`). -/
inductive Res (α : Type) where
  | ok (rest : Input) (val : α)
  | err (e : Err)
  deriving DecidableEq, Repr

/-- A parser: `Fn(&str) -> IResult<&str, α>`. -/
abbrev P (α : Type) := Input → Res α

/-! ## combinator.rs -/

/-- `nom::combinator::map`. -/
def map (p : P α) (f : α → β) : P β := fun i =>
  match p i with
  | .ok r a => .ok r (f a)
  | .err e => .err e

/-- `nom::combinator::opt`: recovers from `Error` only. -/
def opt (p : P α) : P (Option α) := fun i =>
  match p i with
  | .ok r a => .ok r (some a)
  | .err (.error _ _) => .ok i none
  | .err e => .err e

/-- `nom::combinator::cut`: turns `Error` into `Failure`. -/
def cut (p : P α) : P α := fun i =>
  match p i with
  | .ok r a => .ok r a
  | .err (.error pos k) => .err (.failure pos k)
  | .err e => .err e

/-- `nom::combinator::recognize`: the text consumed by `p`
(`input.slice(..input.offset(&rest))`). -/
def recognize (p : P α) : P Input := fun i =>
  match p i with
  | .ok r _ => .ok r (i.take (i.length - r.length))
  | .err e => .err e

/-- `nom::combinator::map_res`: a failing conversion is `Error(input, MapRes)`. -/
def mapRes (p : P α) (f : α → Option β) : P β := fun i =>
  match p i with
  | .ok r a =>
    match f a with
    | some b => .ok r b
    | none => .err (.error i .MapRes)
  | .err e => .err e

/-! ## sequence.rs -/

/-- `nom::sequence::pair` (and `tuple` of two). -/
def pair (p : P α) (q : P β) : P (α × β) := fun i =>
  match p i with
  | .ok r a =>
    match q r with
    | .ok r' b => .ok r' (a, b)
    | .err e => .err e
  | .err e => .err e

/-- `nom::sequence::tuple` of three. -/
def tuple3 (p : P α) (q : P β) (s : P γ) : P (α × β × γ) := pair p (pair q s)

/-- `nom::sequence::tuple` of four. -/
def tuple4 (p : P α) (q : P β) (s : P γ) (t : P δ) : P (α × β × γ × δ) :=
  pair p (pair q (pair s t))

/-- `nom::sequence::tuple` of five. -/
def tuple5 (p : P α) (q : P β) (s : P γ) (t : P δ) (u : P ε) : P (α × β × γ × δ × ε) :=
  pair p (pair q (pair s (pair t u)))

/-- `nom::sequence::preceded`. -/
def preceded (p : P α) (q : P β) : P β := map (pair p q) Prod.snd

/-- `nom::sequence::terminated`. -/
def terminated (p : P α) (q : P β) : P α := map (pair p q) Prod.fst

/-- `nom::sequence::delimited`. -/
def delimited (p : P α) (q : P β) (s : P γ) : P β := preceded p (terminated q s)

/-- `nom::sequence::separated_pair`. -/
def separatedPair (p : P α) (s : P γ) (q : P β) : P (α × β) := pair p (preceded s q)

/-! ## branch.rs -/

/-- `nom::branch::alt`: first alternative whose result is not `Error`; if all are
`Error`, the last error (for `(I, ErrorKind)` both `ParseError::or` and `append` keep the later
error).  nom's `alt` takes a non-empty tuple; the empty list does not occur. -/
def alt : List (P α) → P α
  | [], i => .err (.error i .Tag)
  | [p], i => p i
  | p :: q :: ps, i =>
    match p i with
    | .err (.error _ _) => alt (q :: ps) i
    | r => r

/-! ## multi.rs -/

/-- Loop of `nom::multi::many0` / `many1`; `n` is an iteration budget, `kind` the error kind for an
element that consumes nothing. -/
def manyLoop (kind : Kind) (p : P α) : Nat → P (List α)
  | 0, _ => .err .fuel
  | n + 1, i =>
    match p i with
    | .err (.error _ _) => .ok i []
    | .err e => .err e
    | .ok r a =>
      if r = i then .err (.error i kind)
      else
        match manyLoop kind p n r with
        | .ok r' as => .ok r' (a :: as)
        | .err e => .err e

/-- `nom::multi::many0`. -/
def many0 (p : P α) : P (List α) := fun i => manyLoop .Many0 p (i.length + 1) i

/-- `nom::multi::many1`: the first element may be empty, later ones may not. -/
def many1 (p : P α) : P (List α) := fun i =>
  match p i with
  | .err e => .err e
  | .ok r a =>
    match manyLoop .Many1 p (r.length + 1) r with
    | .ok r' as => .ok r' (a :: as)
    | .err e => .err e

/-- Loop of `nom::multi::separated_list` / `separated_nonempty_list` after an element:
separator (must consume), then element (must end elsewhere than where the separator began). -/
def sepLoop (sep : P σ) (p : P α) : Nat → P (List α)
  | 0, _ => .err .fuel
  | n + 1, i =>
    match sep i with
    | .err (.error _ _) => .ok i []
    | .err e => .err e
    | .ok r _ =>
      if r = i then .err (.error r .SeparatedList)
      else
        match p r with
        | .err (.error _ _) => .ok i []
        | .err e => .err e
        | .ok r2 a =>
          if r2 = i then .err (.error r2 .SeparatedList)
          else
            match sepLoop sep p n r2 with
            | .ok r' as => .ok r' (a :: as)
            | .err e => .err e

/-- `nom::multi::separated_list`. -/
def separatedList (sep : P σ) (p : P α) : P (List α) := fun i =>
  match p i with
  | .err (.error _ _) => .ok i []
  | .err e => .err e
  | .ok r a =>
    if r = i then .err (.error r .SeparatedList)
    else
      match sepLoop sep p (r.length + 1) r with
      | .ok r' as => .ok r' (a :: as)
      | .err e => .err e

/-- `nom::multi::separated_nonempty_list`. -/
def separatedNonemptyList (sep : P σ) (p : P α) : P (List α) := fun i =>
  match p i with
  | .err e => .err e
  | .ok r a =>
    if r = i then .err (.error r .SeparatedList)
    else
      match sepLoop sep p (r.length + 1) r with
      | .ok r' as => .ok r' (a :: as)
      | .err e => .err e

/-! ## character/complete.rs and bytes/complete.rs -/

/-- `nom::character::complete::char`. -/
def char (c : Char) : P Char := fun i =>
  match i with
  | d :: r => if d = c then .ok r d else .err (.error i .Char)
  | [] => .err (.error i .Char)

/-- `nom::character::complete::one_of`. -/
def oneOf (cs : List Char) : P Char := fun i =>
  match i with
  | d :: r => if d ∈ cs then .ok r d else .err (.error i .OneOf)
  | [] => .err (.error i .OneOf)

/-- `nom::character::complete::none_of`. -/
def noneOf (cs : List Char) : P Char := fun i =>
  match i with
  | d :: r => if d ∈ cs then .err (.error i .NoneOf) else .ok r d
  | [] => .err (.error i .NoneOf)

/-- Compare the input with a tag; `some rest` if the tag is a prefix. -/
def stripPrefix : List Char → Input → Option Input
  | [], i => some i
  | _ :: _, [] => none
  | t :: ts, c :: cs => if c = t then stripPrefix ts cs else none

/-- `nom::bytes::complete::tag`. -/
def tag (t : List Char) : P Input := fun i =>
  match stripPrefix t i with
  | some r => .ok r t
  | none => .err (.error i .Tag)

/-- `nom::bytes::complete::take_while`: the longest prefix of characters satisfying `f`. -/
def takeWhile (f : Char → Bool) : P Input := fun i =>
  .ok (i.dropWhile f) (i.takeWhile f)

/-- `split_at_position1_complete`: as `take_while`, `Error(i, kind)` if the prefix is empty. -/
def takeWhile1K (kind : Kind) (f : Char → Bool) : P Input := fun i =>
  match i.takeWhile f with
  | [] => .err (.error i kind)
  | c :: cs => .ok (i.dropWhile f) (c :: cs)

/-- `nom::bytes::complete::take_while1`. -/
def takeWhile1 (f : Char → Bool) : P Input := takeWhile1K .TakeWhile1 f

/-- `nom::bytes::complete::take_while_m_n(n, n, f)`, the only use in the crate (`n` = 1 or 2): exactly `n`
characters satisfying `f`. -/
def takeWhileN (n : Nat) (f : Char → Bool) : P Input := fun i =>
  if (i.take n).length = n ∧ (i.take n).all f then .ok (i.drop n) (i.take n)
  else .err (.error i .TakeWhileMN)

/-- ASCII letter: `u8::is_ascii_alphabetic`, `nom::character::is_alphabetic` on the code `n`. -/
def isAsciiAlphaCode (n : Nat) : Bool := (0x41 ≤ n && n ≤ 0x5A) || (0x61 ≤ n && n ≤ 0x7A)

/-- ASCII digit: `nom::character::is_digit` on the code `n`. -/
def isAsciiDigitCode (n : Nat) : Bool := 0x30 ≤ n && n ≤ 0x39

/-- `AsChar::is_alpha` for `char` (ASCII only). -/
def isAlpha (c : Char) : Bool := isAsciiAlphaCode c.toNat

/-- `AsChar::is_dec_digit` for `char` (ASCII only). -/
def isDecDigit (c : Char) : Bool := isAsciiDigitCode c.toNat

/-- `AsChar::is_alphanum` for `char`. -/
def isAlphanum (c : Char) : Bool := isAlpha c || isDecDigit c

/-- `nom::character::complete::digit1`. -/
def digit1 : P Input := takeWhile1K .Digit isDecDigit

/-- `nom::character::complete::alpha1`. -/
def alpha1 : P Input := takeWhile1K .Alpha isAlpha

/-- `nom::character::complete::alphanumeric1`. -/
def alphanumeric1 : P Input := takeWhile1K .AlphaNumeric isAlphanum

/-! ## Byte offsets and case-insensitive tags -/

/-- Rust `c as u8`: truncation of the code point. -/
def asU8 (c : Char) : Nat := c.toNat % 256

/-- Split a string at byte offset `n` (`&s[..n]`, `&s[n..]`); `none` when `n` is beyond the end or not on
a character boundary, where Rust panics. -/
def takeBytes : Nat → Input → Option (Input × Input)
  | n, [] => if n = 0 then some ([], []) else none
  | n, c :: cs =>
    if n = 0 then some ([], c :: cs)
    else if c.utf8Size ≤ n then
      match takeBytes (n - c.utf8Size) cs with
      | some (a, b) => some (c :: a, b)
      | none => none
    else none

/-- Byte length of a string (`str::len`). -/
def byteLen (i : Input) : Nat := (i.map Char.utf8Size).sum

/-- `char::to_lowercase` as far as it can produce a single ASCII letter: ASCII upper case, and U+212A KELVIN
SIGN whose lower case is `k`.  All other characters are mapped to themselves, which preserves "equal to
an ASCII character after lower-casing" (the tags are ASCII). -/
def lower (c : Char) : Char :=
  if 0x41 ≤ c.toNat ∧ c.toNat ≤ 0x5A then Char.ofNat (c.toNat + 32)
  else if c.toNat = 0x212A then 'k'
  else c

/-- `Compare::compare_no_case` for `&str`: pointwise comparison of the overlap
(`zip` stops at the shorter one). -/
def overlapNoCase : Input → List Char → Bool
  | c :: cs, t :: ts => lower c == lower t && overlapNoCase cs ts
  | _, _ => true

/-- `nom::bytes::complete::tag_no_case`: compare ignoring case, then split at the *byte* length of the
tag. -/
def tagNoCase (t : List Char) : P Input := fun i =>
  if overlapNoCase i t && decide (byteLen t ≤ byteLen i) then
    match takeBytes (byteLen t) i with
    | some (a, r) => .ok r a
    | none => .err .panic
  else .err (.error i .Tag)

/-- `nom::bytes::streaming::tag_no_case`: as above, but a too short matching input is
`Incomplete(Size(tag_len))`. -/
def tagNoCaseStreaming (t : List Char) : P Input := fun i =>
  if overlapNoCase i t then
    if byteLen t ≤ byteLen i then
      match takeBytes (byteLen t) i with
      | some (a, r) => .ok r a
      | none => .err .panic
    else .err (.incomplete (byteLen t))
  else .err (.error i .Tag)

/-! ## escaped -/

/-- Loop of `nom::bytes::complete::escaped`; `input` is the original input, `i` the current position, `n` an
iteration budget.  (`input.slice(input.input_len()..)` is the empty string; `escaped` returns
the whole input when it reaches the end.) -/
def escapedLoop (normal : P α) (control : Char) (escapable : P β) (input : Input) :
    Nat → Input → Res Input
  | 0, _ => .err .fuel
  | _ + 1, [] => .ok [] input
  | n + 1, c :: cs =>
    match normal (c :: cs) with
    | .ok r _ =>
      if r = [] then .ok [] input
      else escapedLoop normal control escapable input n r
    | .err (.error _ _) =>
      if c = control then
        if cs = [] then .err (.error input .Escaped)
        else
          match escapable cs with
          | .ok r _ =>
            if r = [] then .ok [] input
            else escapedLoop normal control escapable input n r
          | .err e => .err e
      else if input.length = (c :: cs).length then .err (.error input .Escaped)
      else .ok (c :: cs) (input.take (input.length - (c :: cs).length))
    | .err e => .err e

/-- `nom::bytes::complete::escaped`. -/
def escaped (normal : P α) (control : Char) (escapable : P β) : P Input := fun i =>
  escapedLoop normal control escapable i (i.length + 1) i

end NomSparql
