# Formal model of nom-sparql in Lean 4

`nom-sparql` is a recursive-descent SPARQL 1.1 parser: about 150 functions
`fn(&str) -> IResult<&str, Ast>` composed from nom 5 combinators, without state, I/O or
concurrency.  Everything a user can observe is the function from the input string to
`Ok((rest, ast))`, `Err::Error((pos, kind))`, `Err::Failure((pos, kind))`, `Err::Incomplete(n)`
or a panic.  The model is that function, for every parser of the crate.

## 1. What is modelled, and how

| Rust | Lean |
|---|---|
| `&str` | `List Char` (Lean `Char` = Unicode scalar value = Rust `char`) |
| `IResult` | `Res α` = `ok rest val` or `err e`, `e` one of `error pos kind`, `failure pos kind`, `incomplete n`, `panic`, and the model artefact `fuel` (proved unreachable, C03) |
| nom combinators (`alt`, `opt`, `many0`, `many1`, `separated_list`, `separated_nonempty_list`, `escaped`, `recognize`, `cut`, `map_res`, `tag_no_case`, ...) | functions of the same names in `Verif/Model/Nom.lean`, including nom 5's "no progress" errors |
| `&s[a..b]`, nom's `take_split` | `takeBytes`, on UTF-8 byte offsets; off a character boundary it is `panic` |
| each `fn` of the crate | one definition, same name in camelCase, comment with file and lines |
| recursion between parsers | open recursion + budget: each recursive nest is `step : (parser) → parser`, iterated `length + 1` times; C03 proves that the result is the fixpoint of the Rust equations and the budget is never exhausted |
| `i64`, `u64`, `u8` parsing | `Int` / `Nat` with explicit range check (the out-of-range branch is the Rust error branch) |
| `f64` | in trees the exact decimal `(negative?, mantissa, number of fraction digits)` that was written; Model/Float converts it to the `f64` of the crate (C65) |
| `c as u8` | `c.toNat % 256` (this truncation is observable, see C12, C13, C21) |
| `char::to_lowercase` in `tag_no_case` | ASCII lower case plus U+212A (KELVIN SIGN) to `k`; no other character has an ASCII lower case |
| `Box<T>`, `String`, `Vec<T>` | `T`, `List Char`, `List T` |
| newtypes such as `ConstructTemplate(Vec<_>)` | the list itself |

Coverage: every `fn` outside `#[cfg(test)]` of every file under `/repo/src` is cited by a definition in
`Verif/Model`, `Display for SparqlQuery` (src/query/mod.rs:29-33, `unimplemented!()`) in Model/Display.
Files: terminals.rs in Model/Terminals; literal.rs, node.rs and the `FromStr`/`Default` helpers in
Model/Literal; var.rs, data.rs, quads.rs, graph.rs (terms), triple.rs, clauses.rs (without expressions) in Model/Graph; path.rs,
expression/iri.rs in Model/Path; expression/, arithmetic.rs, call.rs, aggregate.rs, order.rs, group.rs, the
rest of graph.rs and clauses.rs and `sub_select` in Model/Expr; query/, parser.rs in Model/Query; operations.rs,
update.rs in Model/Update; all types in Model/Ast.  Types nothing produces are left out: `GraphPattern`, `GraphPatternOrFilter`
(src/graph.rs:79-89), `ConstructTriples` (src/triple.rs:35-39).

Not modelled: stack overflow, allocation; the derived `Debug`/`Clone` impls (the derived `PartialEq` is in Model/Equal; types without numbers and recursion use Lean's equality there); the module list of `lib.rs`.
Running time: only the number of calls of `expression` and `group_graph_pattern` (Model/Cost, a copy of Model/Expr and Model/Query with a
counter, proved to return the same results; C63) and, for update requests, of `update` too (Model/CostUpdate).  Triples, paths and collections are not counted there.
The calls of `path_alternative` are counted separately (Model/CostPath; C75): for a path, and for the first triples block of an ASK query.
The depth of recursion is the budget of the recursive parsers; Model/Depth has the entry points with that budget as a parameter (C64).
Stack frames of the non-recursive functions between two recursive calls are not counted.

## 2. Trusted base

* Lean 4.33.0's kernel.  Axioms: at most `propext`, `Classical.choice`, `Quot.sound`.  `AXIOMS.txt` lists them for each
  theorem named in `MANIFEST.json`, as printed by `#print axioms`.
  No own axioms, no `sorry`, no `native_decide`, no `bv_decide`.  Mathlib is not used.
* The reading of the Rust source: each definition cites the lines it models.  The crate's own unit
  tests are ported to `Verif/Tests.lean` and hold in the model by kernel computation (they are tests of the
  model's fidelity, not property proofs).
* nom's source is not available in the sandbox.  Its combinators are modelled from nom 5.1
  (the version `nom = "5.0"` resolves to).  Facts relied on, in decreasing order of consequence:
  1. `separated_list(sep, f)` and `separated_nonempty_list`: return `Error` when the first element
     or any separator succeeds without consuming; compare the remainder after an element with
     the input before its separator; a failing separator or element ends the list before the separator.
  2. `many0`/`many1` return `Error` when the element succeeds without consuming.
  3. `escaped` rejects an empty body followed by other text; at end of input returns the whole input.
  4. `alt` and `opt` recover from `Error` only, not from `Failure`/`Incomplete`; `alt` reports the last
     alternative's error; `cut` turns `Error` into `Failure`.
  5. `tag_no_case` compares `char::to_lowercase` pointwise and then splits at the tag's *byte*
     length; the only non-ASCII character whose lower case is an ASCII letter is U+212A (KELVIN
     SIGN).  (Older 5.0.x differ for U+0130 only.)
  6. `bytes::streaming::tag_no_case` answers `Incomplete(Size(tag_len))` on a too short matching input.
  7. `alpha1`, `alphanumeric1`, `digit1`, `is_dec_digit` are ASCII-only on `char`.
  8. `ErrorKind`s attached to errors.  No property theorem depends on a kind except ported tests.
* `f64::from_str` rounds correctly (nearest, ties to even, infinity on overflow) for digit strings of any length.
* `i64::from_str`, `u64::from_str`, `u8::from_str_radix`: decimal (hexadecimal) value, one optional sign, error outside the range.

## 3. Layout

1. `Verif/Model/*`: the executable model.
2. `Verif/Spec/*`: the specification vocabulary, independent of the parsers (texts and AST types only).
   * Lex, Tokens, Names, Hex: W3C character classes, white space, decimal and hexadecimal values, token shapes.
   * Render: which texts spell which AST, a declarative grammar as relations with explicit concatenations, no
     ordered choice, no budget; DEVIATION marks where the crate's spelling is not that of SPARQL 1.1.
   * Canon, CanonTriples, CanonWhere, CanonUpdate, CanonExpr, CanonGroup, CanonQuery: canonical texts, the
     inputs of acceptance theorems.  They leave out exactly the layouts which a `_violated` theorem shows to be rejected or misread.
   * Print: a printer for trees, and the trees it is meant for.  Occurs: leaves written in a text.
   * Ieee: floating point numbers and rounding to nearest.
   * Case: spelling variants of keywords.  Filled, Leaf: predicates on whole trees.
3. `Verif/Lemmas/*`: combinator laws and helper lemmas.
4. `Verif/Props/*`: the property theorems, named `Cnn_...`, each section followed by concrete cases.
5. `seeded/LOG.jsonl`: realistic bugs put into a copy of the model, the claim each breaks and the theorems that then failed.

Global theorems are proved compositionally: for each combinator a lemma that it preserves
a judgement, then one line (or instance) per parser, and induction on the recursion budget for the recursive nests.  The judgements:
`Good` (rests and error positions are suffixes, no fuel), `Consumes`, `Soft` (no Failure, Incomplete, panic), `Total`, `Sound` (rendering), `Blind`
(letter case of a keyword), `Avoids`/`KeepsNul` (panic, Incomplete), `YieldsIn` (predicates on returned trees), `Fails`/`Dies` (rejection with Error/Failure),
`ReadsAs` (acceptance of a text before any, or any suitable, continuation).

Where the code violates a property a user expects, the property is kept as expected, the violation is proved
for a whole family of inputs (theorem suffix `_violated`), and what does hold is proved as `_partial`.

### Per property

The exact scope of each partial result is in the notes of `MANIFEST.json` and the comments at the theorems.

| id | property | status | file | proof |
|---|---|---|---|---|
| C01 | Remainder is a suffix of the input | proved | C01_C04 | judgement `Good` |
| C02 | Reported error positions lie inside the input | proved | C01_C04 | judgement `Good` |
| C03 | Parsing terminates on every input | proved | C01_C04 | `EqUpTo`: a result on inputs shorter than m depends on the recursive parsers only below m; hence the fixpoint equations |
| C04 | A successful query parse consumes input | proved | C01_C04 | judgement `Consumes` |
| C05 | No input makes the parser panic | partial, violated | C05_C06 | judgement `Avoids`; violating family |
| C06 | Complete-input parsers never answer Incomplete | partial, violated | C05_C06 | judgement `KeepsNul`; violating family |
| C07 | Keywords are case-insensitive | proved | C07 | judgement `Blind` |
| C08 | Query ASTs are faithful to the consumed text | partial, violated | C08_C10 | judgement `Sound` |
| C09 | Update ASTs are faithful to the consumed text | partial, violated | C08_C10 | judgement `Sound` |
| C10 | The query form follows the leading keyword | proved | C51_C55 | dispatch on the keyword, both directions |
| C11 | Whitespace and comments are interchangeable and skipped maximally | proved | C11_C16 | exact characterisation |
| C12 | Variables keep their sigil and full name | partial, violated | C11_C16 | families of rejected or misread inputs; what holds as `_partial` |
| C13 | IRI references are returned verbatim and exactly the legal ones are accepted | partial, violated | C11_C16 | families of rejected or misread inputs; what holds as `_partial` |
| C14 | Prefixed names split into the written prefix and local part | partial, violated | C11_C16 | families of rejected or misread inputs; what holds as `_partial` |
| C15 | String literals: exact acceptance and raw contents | partial, violated | C11_C16 | families of rejected or misread inputs; what holds as `_partial` |
| C16 | Literal tags and datatypes | proved | C11_C16 | exact characterisation |
| C17 | Integer literals have their exact value | partial, violated | C17_C23 | families of rejected or misread inputs; what holds as `_partial` |
| C18 | Decimals and doubles keep mantissa and exponent | partial, violated | C17_C23 | families of rejected or misread inputs; what holds as `_partial` |
| C19 | Booleans | proved | C17_C23 | exact characterisation |
| C20 | Blank nodes | partial, violated | C17_C23 | families of rejected or misread inputs; what holds as `_partial` |
| C21 | Name character classes match SPARQL 1.1 | partial, violated | C17_C23 | families of rejected or misread inputs; what holds as `_partial` |
| C22 | String argument compatibility follows its documentation | partial, violated | C17_C23 | families of rejected or misread inputs; what holds as `_partial` |
| C23 | Sign and path-modifier text conversions are inverse | proved | C17_C23 | exact characterisation |
| C24 | Prologue declarations are all kept, in order | proved | C24_C29 | list induction, converse from `Sound` |
| C25 | Dataset clauses | partial, violated | C51_C55 | families of rejected or misread inputs; what holds as `_partial` |
| C26 | LIMIT/OFFSET values are exact | proved | C24_C29 | exact characterisation |
| C27 | VALUES data is kept in order | proved | C24_C29 | exact characterisation |
| C28 | VALUES rows have one value per variable | partial, violated | C24_C29 | families of rejected or misread inputs; what holds as `_partial` |
| C29 | A trailing VALUES clause is attached to the query | partial, violated | C24_C29 | families of rejected or misread inputs; what holds as `_partial` |
| C30 | Clause lists are never empty | proved | C30_C32 | judgement `YieldsIn` with Spec/Filled |
| C31 | A query may end right after its last clause | partial, violated | C30_C32 | families of rejected or misread inputs; what holds as `_partial` |
| C32 | SELECT projects every listed variable | partial, violated | C30_C32 | families of rejected or misread inputs; what holds as `_partial` |
| C33 | Basic triple patterns are accepted in WHERE | partial, violated | C33_C37 | families of rejected or misread inputs; what holds as `_partial` |
| C34 | Triples templates keep subjects, predicates and objects in order | partial, violated | C33_C37 | families of rejected or misread inputs; what holds as `_partial` |
| C35 | Collections and blank-node property lists nest | partial, violated | C33_C37 | families of rejected or misread inputs; what holds as `_partial` |
| C36 | Property path operators keep their meaning | partial, violated | C33_C37 | families of rejected or misread inputs; what holds as `_partial` |
| C37 | The keyword a is rdf:type | partial, violated | C33_C37 | families of rejected or misread inputs; what holds as `_partial` |
| C38 | Groups, unions and graph patterns keep their structure | partial, violated | C38_C41 | induction over canonical groups |
| C39 | Boolean and relational operators bind as in SPARQL | proved | C38_C41 | induction over canonical expressions; converse from `Sound` |
| C40 | Sums and differences are accepted | partial, violated | C38_C41 | families of rejected or misread inputs; what holds as `_partial` |
| C41 | Products and quotients | partial, violated | C38_C41 | families of rejected or misread inputs; what holds as `_partial` |
| C42 | Argument lists and IN lists | partial, violated | C42_C45 | families of rejected or misread inputs; what holds as `_partial` |
| C43 | Built-in calls are returned as the function that was written | partial, violated | C42_C45 | families of rejected or misread inputs; what holds as `_partial` |
| C44 | Argument-less built-ins | partial, violated | C42_C45 | families of rejected or misread inputs; what holds as `_partial` |
| C45 | Aggregates and DISTINCT | proved | C42_C45 | exact characterisation |
| C46 | Graph management statements round-trip | partial, violated | C46_C50 | families of rejected or misread inputs; what holds as `_partial` |
| C47 | ADD and MOVE are accepted updates | partial, violated | C46_C50 | families of rejected or misread inputs; what holds as `_partial` |
| C48 | Data updates keep their quads | partial, violated | C51_C55 | families of rejected or misread inputs; what holds as `_partial` |
| C49 | DELETE/INSERT ... WHERE modifications are accepted | partial, violated | C46_C50 | both alternatives of modify fail; list induction |
| C50 | Update requests keep all statements in order | partial, violated | C46_C50 | induction over chains of statements |
| C51 | Characters excluded from short strings | partial, violated | C51_C55 | families of rejected or misread inputs; what holds as `_partial` |
| C52 | Names, literals and numbers in returned trees are well-formed | proved | C51_C55 | judgement `YieldsIn` with Spec/Leaf |
| C53 | Every kind of node can be returned | partial, violated | C51_C55 | judgement `YieldsIn` with dead constructors |
| C54 | Whole queries are returned as written | partial | C51_C55 | canonical queries on top of C38, C39 |
| C55 | A malformed update is an error | partial, violated | C51_C55 | families of rejected or misread inputs; what holds as `_partial` |
| C56 | Percent-encoded bytes decode to their value | proved | C56_C62 | exact characterisation |
| C57 | GROUP BY keeps a named expression | partial, violated | C56_C62 | families of rejected or misread inputs; what holds as `_partial` |
| C58 | Property and object lists in WHERE are read as SPARQL defines them | partial, violated | C56_C62 | families of rejected or misread inputs; what holds as `_partial` |
| C59 | White space before a request changes nothing | partial, violated | C56_C62 | families of rejected or misread inputs; what holds as `_partial` |
| C60 | White space between a keyword and a bracket is optional | partial, violated | C56_C62 | families of rejected or misread inputs; what holds as `_partial` |
| C61 | A DESCRIBE query may end after its targets | partial, violated | C56_C62 | families of rejected or misread inputs; what holds as `_partial` |
| C62 | A query cut where reading stopped gives the same tree | partial, violated | C56_C62 | families of rejected or misread inputs; what holds as `_partial` |
| C63 | The effort of parsing is polynomial in the length of the query | partial, violated | C63 | counting copy of the model, erased by simp; judgements `Bd` (crude) and `Lin` (linear, doubled per STRLEN) for the upper bounds, doubling induction for the lower one; updates on top, induction on the budget |
| C64 | The recursion depth is bounded for all inputs | partial, violated | C64 | judgement `Near`: budget and closed parser agree below a number of opening brackets; induction on the nesting for the other direction |
| C65 | Number literals keep their value | partial, violated | C65 | correctly rounded conversion refined to the IEEE specification (Spec/Ieee); order and injectivity from the specification |
| C66 | Nothing in a returned tree is invented | proved | C66 | `YieldsIn` for the inputs that are suffixes of the text, leaves from `Sound` |
| C67 | Printing a query and parsing the text gives the query back | partial, violated | C67 | printed texts are canonical: induction on the nesting depth |
| C68 | Layout does not change what a request means | partial, violated | C68 | judgement `Lay`: related inputs give related answers; instances parser by parser, induction on the budget |
| C69 | Contents of strings and names of variables are opaque | partial, violated | C69 | judgement `Sub`: inputs related by replacement give related answers; instances parser by parser, induction on the budget; relations on trees determined by induction |
| C70 | The brackets of an accepted request are balanced | proved | C70 | judgement `Bal`: what a parser reads is nested; instances parser by parser, induction on the budget; the reader with a stack by induction on the nesting |
| C71 | String arguments keep their kind | partial, violated | C71 | both alternatives unfolded; exact acceptance of their tokens |
| C72 | No text is both a query and an update | proved | C72 | keywords that clash; both entry points read the same prologue |
| C73 | Public constructors build the nodes that the parser returns | proved | C73 | composition of the token theorems C13, C14, C16, C26 |
| C74 | Escapes, string contents and runs of name characters | partial, violated | C74 | induction on the loop of `escaped`, for any stop set |
| C75 | The effort of reading a property path | partial, violated | C75 | counting copy of Model/Path; strong induction on the length for the upper bound, doubling induction for the lower one |
| C76 | Restrictions that SPARQL puts on top of its grammar | partial, violated | C76 | composition of C38, C50, C54 for the counter-examples; `YieldsIn` for the texts without the marks |
| C77 | A braced block means the same whatever follows it | partial | C77 | judgements `Loc`, `OpensB`, `ClosesB`: a parser run on a text cut into units answers the same whatever follows; instances parser by parser, induction on the budget |
| C78 | Update requests can be joined with a semicolon | partial | C78 | induction on the length of the first request, `Loc` for prologue and operation |
| C79 | Accepted requests are SPARQL 1.1 | partial, violated | C79 | renderings of Sound refined to derivations of the W3C grammar (judgement `Fits`), induction on the nesting; liberties excluded by conditions on the text, induction on the derivation; tables of first and last characters checked against all productions for the counter-examples |
| C80 | SPARQL 1.1 requests are accepted | partial, violated | C80 | derivations of the W3C grammar inverted to canonical texts (judgement `GenIn`), induction on the length, then C50; for canonical texts the other way (judgement `Leg`: legal wherever it stands in a tidy text), induction on the canonical texts; a verified recogniser for the counter-examples |
| C81 | Errors tell where the mistake is | partial, violated | C81 | judgement `HaltsAt` (a failure is at a stuck place) for every parser, induction on the budgets; inversion of recoverable errors through alternatives and lists, with balanced brackets from the judgement `Bal` |
| C82 | The returned tree is not larger than a fixed multiple of the text | proved | C82 | `Weighs`: for each parser a condition on answer and number of characters, computed bottom up and closed by `omega` |
| C83 | The returned tree is as deep as the brackets of the text are nested | partial, violated | C83 | `Climbs`: as `Weighs`, with the nesting of the consumed text instead of its length; a family of canonical expressions shows that the factor is least |
| C84 | Comparing returned trees with == is lawful and exact up to the rounding of numbers | proved | C84 | each derived `PartialEq` agrees with equality after a map over the numbers, by mutual recursion over all types; numbers of integer-only texts by the leaf judgement of C66 |
| C85 | Nothing that was written is lost | proved | C85 | judgement `Keeps`: the condition for every answer to store the quiet characters of the consumed text, computed from the parser bottom up; induction on the budget |
| C86 | What was written is stored in the order it was written | proved | C86 | judgement `Inks`: as `Keeps`, with the texts themselves instead of their numbers |
