import Verif.Model.Terminals

/-!
# Model of src/literal.rs and of the string conversions in src/arithmetic.rs, src/path.rs, src/node.rs,
src/clauses.rs (public helper methods)
-/

namespace NomSparql

/-- src/literal.rs:30-62 `StringLiteral::compatible_arg` -/
def StringLiteral.compatibleArg (self arg2 : StringLiteral) : Bool :=
  match self with
  | .simple _ =>
    match arg2 with
    | .language _ _ => true
    | _ => false
  | .language _ lang =>
    match arg2 with
    | .language _ arg2Lang => lang == arg2Lang
    | _ => true
  | .typed _ =>
    match arg2 with
    | .language _ _ => false
    | _ => true

/-- src/literal.rs:73-97 `string_literal_arg` -/
def stringLiteralArg : P StringLiteral := alt [
  map (terminated stringLiteral (tagNoCase c!"^^xsd:string")) .simple,
  map (pair stringLiteral (opt languageTag))
    (fun x => match x.2 with
      | some lang => .language x.1 lang
      | none => .simple x.1)]

/-- src/literal.rs:99-102 `silent` -/
def silent : P Bool := map (tagNoCase c!"silent") (fun _ => true)

/-- src/literal.rs:104-107 `distinct` -/
def distinct : P Bool := map (tagNoCase c!"distinct") (fun _ => true)

/-- src/literal.rs:109-114 `boolean` -/
def boolean : P Bool := alt [
  map (tagNoCase c!"false") (fun _ => false),
  map (tagNoCase c!"true") (fun _ => true)]

/-- src/literal.rs:116-118 `sign` -/
def sign : P Sign := alt [map (char '+') (fun _ => .pos), map (char '-') (fun _ => .neg)]

/-- Value of an ASCII digit. -/
def digitVal (c : Char) : Nat := c.toNat - 0x30

/-- Value of a digit string, left to right as Rust's integer parser accumulates it. -/
def digitsVal (s : Str) : Nat := s.foldl (fun n c => 10 * n + digitVal c) 0

/-- Rust `str::parse::<i64>`: optional sign, at least one ASCII digit, value within
`-2^63 ..= 2^63 - 1`; `none` is the error. -/
def parseI64 (s : Str) : Option Int :=
  let go (neg : Bool) (ds : Str) : Option Int :=
    if ds ≠ [] ∧ ds.all isDecDigit then
      let v : Int := if neg then - (digitsVal ds : Int) else digitsVal ds
      if -(2 ^ 63) ≤ v ∧ v < 2 ^ 63 then some v else none
    else none
  match s with
  | '+' :: ds => go false ds
  | '-' :: ds => go true ds
  | ds => go false ds

/-- Rust `str::parse::<u64>` on a string without sign (the callers pass the result of
`take_while1`, which cannot start with `+`): at least one digit, all ASCII digits, below `2^64`. -/
def parseU64 (s : Str) : Option Nat :=
  if s ≠ [] ∧ s.all isDecDigit then
    if digitsVal s < 2 ^ 64 then some (digitsVal s) else none
  else none

/-- Rust `str::parse::<f64>` (`ParseTo`) on the texts recognised by
`recognize_spaqrql_float`: sign, digits, optional point and digits.  The result is
the exact decimal (rounding not modelled); texts without any digit are errors. -/
def parseDecimal (s : Str) : Option Decimal :=
  let go (neg : Bool) (t : Str) : Option Decimal :=
    let whole := t.takeWhile isDecDigit
    let frac := (t.dropWhile isDecDigit).tail
    if whole ++ frac = [] then none
    else some { neg := neg, mantissa := digitsVal (whole ++ frac), scale := frac.length }
  match s with
  | '+' :: t => go false t
  | '-' :: t => go true t
  | t => go false t

/-- `opt(alt((char('+'), char('-'))))`: src/literal.rs:124, 132, 155 -/
def optSign : P (Option Char) := opt (alt [char '+', char '-'])

/-- src/literal.rs:120-128 `exponent` -/
def exponent : P Int :=
  preceded (alt [char 'e', char 'E'])
    (mapRes (recognize (pair optSign (cut digit1))) parseI64)

/-- src/literal.rs:130-138 `recognize_spaqrql_float` -/
def recognizeSparqlFloat : P Str :=
  recognize (pair optSign (alt [
    map (pair digit1 (opt (pair (char '.') (opt digit1)))) (fun _ => ()),
    map (pair (char '.') digit1) (fun _ => ())]))

/-- src/literal.rs:140-148 `sparql_decimal` -/
def sparqlDecimal : P Decimal := fun input =>
  match recognizeSparqlFloat input with
  | .err e => .err e
  | .ok i s =>
    match parseDecimal s with
    | some n => .ok i n
    | none => .err (.error i .Float)

/-- src/literal.rs:150-152 `sparql_double` -/
def sparqlDouble : P (Decimal × Option Int) := pair sparqlDecimal (opt exponent)

/-- `i.chars().next().map_or_else(|| false, |c| ".eE".contains(c))`: src/literal.rs:158-160 -/
def startsDotE : Input → Bool
  | c :: _ => c ∈ ['.', 'e', 'E']
  | [] => false

/-- src/literal.rs:154-171 `sparql_int` -/
def sparqlInt : P Int := fun i =>
  match recognize (pair optSign digit1) i with
  | .ok r o =>
    if startsDotE r then .err (.error r .Float)
    else
      match parseI64 o with
      | some v => .ok r v
      | none => .err (.error r .Digit)
  | .err e => .err e

/-- src/literal.rs:173-178 `numeric_literal` -/
def numericLiteral : P NumericLiteral := alt [
  map sparqlInt .int,
  map sparqlDouble (fun x => .double x.1 x.2)]

/-! ## Sign (src/arithmetic.rs:77-108) and PathMod (src/path.rs:98-109) -/

/-- src/arithmetic.rs:77-81 `Sign::default` -/
def Sign.default : Sign := .pos

/-- src/arithmetic.rs:83-90 `Sign::as_ref` -/
def Sign.asRef : Sign → Str
  | .pos => ['+']
  | .neg => ['-']

/-- src/arithmetic.rs:92-102 `Sign::from_str` -/
def Sign.fromStr (s : Str) : Option Sign :=
  if s = ['+'] ∨ s = [] then some .pos
  else if s = ['-'] then some .neg
  else none

/-- src/arithmetic.rs:104-108 `Display for Sign` -/
def Sign.display (s : Sign) : Str := s.asRef

/-- src/path.rs:98-109 `PathMod::from_str` -/
def PathMod.fromStr (s : Str) : Option PathMod :=
  if s = ['?'] then some .questionMark
  else if s = ['*'] then some .asterisk
  else if s = ['+'] then some .plus
  else none

/-! ## Public constructors -/

/-- src/node.rs:23-28 `RdfLiteral::new` -/
def RdfLiteral.new (literal : Str) (d : RdfLiteralDescriptor) : RdfLiteral :=
  { literal := literal, descriptor := some d }

/-- src/node.rs:31-36 `RdfLiteral::literal` -/
def RdfLiteral.ofLiteral (literal : Str) : RdfLiteral := { literal := literal, descriptor := none }

/-- src/clauses.rs:46-48 `LimitOffsetClause::limit_offset` -/
def LimitOffsetClause.newLimitOffset (limit : Nat) (offset : Option Nat) : LimitOffsetClause :=
  .limitOffset limit offset

/-- src/clauses.rs:49-51 `LimitOffsetClause::offset_limit` -/
def LimitOffsetClause.newOffsetLimit (offset : Nat) (limit : Option Nat) : LimitOffsetClause :=
  .offsetLimit offset limit

/-- src/expression/mod.rs:51-53 `Iri::iri_ref` -/
def Iri.newIriRef (s : Str) : Iri := .iri s

/-- src/expression/mod.rs:55-57 `Iri::prefixed_name` -/
def Iri.newPrefixedName (n : PrefixedName) : Iri := .prefixedName n

end NomSparql
