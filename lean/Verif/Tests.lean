import Verif.Model.Update

/-!
# The unit tests of /repo, run on the model

Every `assert_eq!` of the Rust test modules, evaluated by the kernel on the model.  These are tests of the
model's fidelity, not proofs of properties.
-/

namespace NomSparql.Tests

set_option maxRecDepth 8000

private def alice : Iri := .iri c!"http://example.org/foaf/aliceFoaf"
private def ln (s : Str) : Iri := .prefixedName (.pnameLN none s)
private def nilN : GraphNode := .varOrTerm (.term .nil)
private def boolN (b : Bool) : GraphNode := .varOrTerm (.term (.booleanLiteral b))
private def aNilNil : PropertyList := .mk [.mk .a [nilN, nilN]]

/-! ## src/terminals.rs:415-538 -/

example : anon c!"[]" = .ok [] [] := rfl
example : anon c!"[   ]" = .ok [] c!"   " := rfl
example : anon c!"[a]" = .err (.failure c!"a]" .Char) := rfl
example : pnCharsBaseOne c!"a " = .ok c!" " c!"a" := rfl
example : pnCharsBaseOne ['À', ' '] = .ok c!" " ['À'] := rfl
example : pnCharsBaseOne ['α', ' '] = .ok c!" " ['α'] := rfl
example : pnCharsBaseOne ['Ø', ' '] = .ok c!" " ['Ø'] := rfl
example : pnCharsBaseOne ['ﷰ', ' '] = .ok c!" " ['ﷰ'] := rfl
example : pnCharsBaseOne ['豈', ' '] = .ok c!" " ['豈'] := rfl
example : iri c!"<http://education.data.gov.uk/def/school/>" =
    .ok [] (.iri c!"http://education.data.gov.uk/def/school/") := rfl
example : stringLiteral c!"\"some string lit\"" = .ok [] c!"some string lit" := rfl
example : stringLiteral c!"'some string lit'" = .ok [] c!"some string lit" := rfl
example : stringLiteral c!"'some \tstring\n\r\"  lit'" = .ok [] c!"some \tstring\n\r\"  lit" := rfl
example : languageTag c!"@en" = .ok [] c!"en" := rfl
example : languageTag c!"@some-lang-tag1" = .ok [] c!"some-lang-tag1" := rfl
example : languageTag c!"@some-123lang-tag1" = .ok [] c!"some-123lang-tag1" := rfl
example : languageTag c!"@1lang" = .err (.error c!"1lang" .Alpha) := rfl
example : rdfLiteral c!"'chat'" = .ok [] (RdfLiteral.ofLiteral c!"chat") := rfl
example : rdfLiteral c!"'chat'@fr" = .ok [] (RdfLiteral.new c!"chat" (.langTag c!"fr")) := rfl
example : rdfLiteral c!"'xyz'^^<http://example.org/ns/userDatatype>" =
    .ok [] (RdfLiteral.new c!"xyz" (.iriRef (.iri c!"http://example.org/ns/userDatatype"))) := rfl
example : rdfLiteral c!"\"abc\"^^appNS:1app.Data.Type" =
    .ok [] (RdfLiteral.new c!"abc"
      (.iriRef (.prefixedName (.pnameLN (some c!"appNS") c!"1app.Data.Type")))) := rfl
example : rdfLiteral c!"\"abc\"^^appNS:1...app.Data.Type" =
    .ok [] (RdfLiteral.new c!"abc"
      (.iriRef (.prefixedName (.pnameLN (some c!"appNS") c!"1...app.Data.Type")))) := rfl

/-! ## src/path.rs:291-302 -/

example : pathMod c!"*" = .ok [] .asterisk := rfl
example : pathMod c!"+" = .ok [] .plus := rfl
example : pathMod c!"?" = .ok [] .questionMark := rfl

/-! ## src/var.rs:111-152 -/

example : verb c!"a" = .ok [] .a := rfl
example : verb c!"?name" = .ok [] (.varOrIri (.var (.qmark c!"name"))) := rfl
example : verb c!"<http://example.org/foaf/aliceFoaf>" = .ok [] (.varOrIri (.iri alice)) := rfl
example : varOrIri c!"?name" = .ok [] (.var (.qmark c!"name")) := rfl
example : var c!"?name" = .ok [] (.qmark c!"name") := rfl
example : var c!"$name" = .ok [] (.dollar c!"name") := rfl

/-! ## src/literal.rs:180-246 -/

example : exponent c!"e+25" = .ok [] 25 := rfl
example : exponent c!"e25" = .ok [] 25 := rfl
example : exponent c!"E-25" = .ok [] (-25) := rfl
example : sparqlDecimal c!"-.0" = .ok [] ⟨true, 0, 1⟩ := rfl
example : sparqlDecimal c!".02" = .ok [] ⟨false, 2, 2⟩ := rfl
example : sparqlDecimal c!"1." = .ok [] ⟨false, 1, 0⟩ := rfl
example : sparqlDouble c!"-.0" = .ok [] (⟨true, 0, 1⟩, none) := rfl
example : sparqlDouble c!".02e10" = .ok [] (⟨false, 2, 2⟩, some 10) := rfl
example : sparqlDouble c!"1.E-20" = .ok [] (⟨false, 1, 0⟩, some (-20)) := rfl
example : numericLiteral c!"+11" = .ok [] (.int 11) := rfl
example : numericLiteral c!"-5" = .ok [] (.int (-5)) := rfl
example : numericLiteral c!"+11." = .ok [] (.double ⟨false, 11, 0⟩ none) := rfl
example : numericLiteral c!"+.0e10" = .ok [] (.double ⟨false, 0, 1⟩ (some 10)) := rfl
example : stringLiteralArg c!"\"A\"" = .ok [] (.simple c!"A") := rfl

/-! ## src/expression/mod.rs:209-240 -/

example : iri c!"<http://example.org/book/book1>" = .ok [] (.iri c!"http://example.org/book/book1") := rfl
example : iri c!":book1" = .ok [] (ln c!"book1") := rfl
example : iri c!":" = .ok [] (.prefixedName (.pnameNS none)) := rfl

/-! ## src/node.rs -/

example : blankNode c!"[]" = .ok [] .anon := rfl
example : blankNode c!"_:a.b.c" = .ok [] (.label c!"a.b.c") := rfl
example : collection c!"(()())" = .ok [] [nilN, nilN] := rfl
example : objectList c!"(),()" = .ok [] [nilN, nilN] := rfl
example : propertyList [] = .ok [] none := rfl
example : propertyListNotEmpty c!"a (),()" = .ok [] aNilNil := rfl
example : propertyListNotEmpty c!"a (),();;;" = .ok [] aNilNil := rfl
example : propertyListNotEmpty c!"a () , ()  \n; ; ;" = .ok [] aNilNil := rfl
example : propertyListNotEmpty c!"a (),(); ?z true , ?name" =
    .ok [] (.mk [.mk .a [nilN, nilN],
      .mk (.varOrIri (.var (.qmark c!"z"))) [boolN true, .varOrTerm (.var (.qmark c!"name"))]]) := rfl
example : propertyListNotEmpty
    c!"a (),(); ?z true , ?name ;
            <http://example.org/foaf/aliceFoaf>
            <http://example.org/foaf/aliceFoaf> ;; ;" =
    .ok [] (.mk [.mk .a [nilN, nilN],
      .mk (.varOrIri (.var (.qmark c!"z"))) [boolN true, .varOrTerm (.var (.qmark c!"name"))],
      .mk (.varOrIri (.iri alice)) [.varOrTerm (.term (.iri alice))]]) := rfl
example : blankNodePropertyList c!"[   a (),()\t]" = .ok [] aNilNil := rfl

/-! ## src/triple.rs:125-266 -/

example : triplesSameSubject c!"() a true,()" =
    .ok [] (.term (.term .nil) (.mk [.mk .a [boolN true, nilN]])) := rfl
example : triplesSameSubject c!"(()())" = .ok [] (.node (.collection [nilN, nilN]) none) := rfl
example : triplesSameSubject c!"[   a (),()\t] a false,()" =
    .ok [] (.node (.blankNodePropertyList aNilNil) (some (.mk [.mk .a [boolN false, nilN]]))) := rfl
example : triplesNode c!"(true ())" = .ok [] (.collection [boolN true, nilN]) := rfl
example : triplesNode c!"[\na false,() \n]" =
    .ok [] (.blankNodePropertyList (.mk [.mk .a [boolN false, nilN]])) := rfl
example : triplesTemplate c!"(true())." = .ok [] [.node (.collection [boolN true, nilN]) none] := rfl
example : triplesTemplate c!"(true()).(true())" =
    .ok [] [.node (.collection [boolN true, nilN]) none,
      .node (.collection [boolN true, nilN]) none] := rfl
example : triplesTemplate c!"(true()).[   a (),()\t] a false,()" =
    .ok [] [.node (.collection [boolN true, nilN]) none,
      .node (.blankNodePropertyList aNilNil) (some (.mk [.mk .a [boolN false, nilN]]))] := rfl

/-! ## src/quads.rs:84-202 -/

private def foafMbox : TriplesSameSubject :=
  .term (.var (.qmark c!"x"))
    (.mk [.mk (.varOrIri (.iri (.prefixedName (.pnameLN (some c!"foaf") c!"mbox"))))
      [.varOrTerm (.var (.qmark c!"mbox"))]])

example : quadsNotTriples c!"graph ?name {}" = .ok [] ⟨.var (.qmark c!"name"), none⟩ := rfl
example : quadsNotTriples c!"graph ?name { (true ()) }" =
    .ok [] ⟨.var (.qmark c!"name"), some [.node (.collection [boolN true, nilN]) none]⟩ := rfl
example : quadsNotTriples c!"GRAPH ?g { ?x foaf:mbox ?mbox }" =
    .ok [] ⟨.var (.qmark c!"g"), some [foafMbox]⟩ := rfl
example : quadsPattern
    c!"{
   ?g dc:publisher ?who .
   GRAPH ?g { ?x foaf:mbox ?mbox }
}" =
    .ok [] ⟨some [.term (.var (.qmark c!"g"))
        (.mk [.mk (.varOrIri (.iri (.prefixedName (.pnameLN (some c!"dc") c!"publisher"))))
          [.varOrTerm (.var (.qmark c!"who"))]])],
      [⟨⟨.var (.qmark c!"g"), some [foafMbox]⟩, none⟩]⟩ := rfl

/-! ## src/operations.rs:211-273 -/

example : dropStmt c!"drop  graph :uri1" = .ok [] ⟨false, .graphRef (ln c!"uri1")⟩ := rfl
example : dropStmt c!"drop silent graph <http://example.org/foaf/aliceFoaf>" =
    .ok [] ⟨true, .graphRef alice⟩ := rfl
example : createStmt c!"create silent graph <http://example.org/foaf/aliceFoaf>" =
    .ok [] ⟨true, alice⟩ := rfl
example : createStmt c!"create   graph   :uri1" = .ok [] ⟨false, ln c!"uri1"⟩ := rfl

/-! ## src/graph.rs:285-347 -/

example : graphRefAll c!"default" = .ok [] .default := rfl
example : graphRefAll c!"graph :uri1" = .ok [] (.graphRef (ln c!"uri1")) := rfl
example : graphRefAll c!"graph <http://example.org/foaf/aliceFoaf>" = .ok [] (.graphRef alice) := rfl
example : graphTerm c!"()" = .ok [] .nil := rfl
example : graphTerm c!"true" = .ok [] (.booleanLiteral true) := rfl
example : graphTerm c!"<http://example.org/foaf/aliceFoaf>" = .ok [] (.iri alice) := rfl
example : graphTerm c!"-5" = .ok [] (.numericLiteral (.int (-5))) := rfl
example : varOrTerm c!"()" = .ok [] (.term .nil) := rfl
example : varOrTerm c!"false" = .ok [] (.term (.booleanLiteral false)) := rfl
example : varOrTerm c!"?name" = .ok [] (.var (.qmark c!"name")) := rfl

/-! ## src/clauses.rs:151-215 -/

example : limitClause c!"limit 5" = .ok [] 5 := rfl
example : offsetClause c!"offset 5" = .ok [] 5 := rfl
example : offsetClause c!"offset      100" = .ok [] 100 := rfl
example : limitOffsetClause c!"limit 5     offset 10" =
    .ok [] (LimitOffsetClause.newLimitOffset 5 (some 10)) := rfl
example : limitOffsetClause c!"offset 5 limit 10" =
    .ok [] (LimitOffsetClause.newOffsetLimit 5 (some 10)) := rfl
example : usingClause c!"using named <http://example.org/foaf/aliceFoaf>" = .ok [] (.named alice) := rfl
example : usingClause c!"using named :uri1" = .ok [] (.named (ln c!"uri1")) := rfl
example : usingClause c!"using :uri1" = .ok [] (.default (ln c!"uri1")) := rfl

/-! ## src/data.rs:111-258 -/

private def lit (s : Str) : DataBlockValue := .rdfLiteral (RdfLiteral.ofLiteral s)

example : datablockValue c!"true" = .ok [] (.booleanLiteral true) := rfl
example : datablockValue c!"'chat'@fr" =
    .ok [] (.rdfLiteral (RdfLiteral.new c!"chat" (.langTag c!"fr"))) := rfl
example : datablockValue c!"\"abc\"" = .ok [] (lit c!"abc") := rfl
example : inlineDataOneVar c!"?name { \"abc\" \"def\" }" =
    .ok [] ⟨.qmark c!"name", [lit c!"abc", lit c!"def"]⟩ := rfl
example : inlineDataFull c!"() { }" = .ok [] ⟨[], []⟩ := rfl
example : inlineDataFull c!"( ?name ?z) { }" = .ok [] ⟨[.qmark c!"name", .qmark c!"z"], []⟩ := rfl
example : inlineDataFull c!"(?name) {  (\"abc\")  (\"def\")}" =
    .ok [] ⟨[.qmark c!"name"], [[lit c!"abc"], [lit c!"def"]]⟩ := rfl
example : valuesClause c!"values (?x ?y) {
  (:uri1 1)
  (:uri2 UNDEF)
}" = .ok [] (some (.inlineDataFull ⟨[.qmark c!"x", .qmark c!"y"],
      [[.iri (ln c!"uri1"), .numericLiteral (.int 1)], [.iri (ln c!"uri2"), .undef]]⟩)) := rfl
example : dataSetClause c!"FROM    <http://example.org/foaf/aliceFoaf>" = .ok [] (.default alice) := rfl
example : dataSetClause c!"FROM NAMED <http://example.org/bob>" =
    .ok [] (.named (.iri c!"http://example.org/bob")) := rfl
example : dataSetClause c!"FROM NAMED :uri1" = .ok [] (.named (ln c!"uri1")) := rfl

/-! ## src/prologue.rs -/

example : baseDecl c!"Base <http://xmlns.com/foaf/0.1/>" = .ok [] c!"http://xmlns.com/foaf/0.1/" := rfl
example : prologue c!"PREFIX foaf:   <http://xmlns.com/foaf/0.1/>
            PREFIX :    <http://example.com/ns#>
            BASE <http://example.org/book/>" =
    .ok [] (.mk [.prefix ⟨some c!"foaf", c!"http://xmlns.com/foaf/0.1/"⟩,
      .prefix ⟨none, c!"http://example.com/ns#"⟩, .base c!"http://example.org/book/"]) := rfl
example : prefixDecl c!"PREFIX foaf: <http://xmlns.com/foaf/0.1/>" =
    .ok [] ⟨some c!"foaf", c!"http://xmlns.com/foaf/0.1/"⟩ := rfl
example : prefixDecl c!"prefix   :   <http://xmlns.com/foaf/0.1/>" =
    .ok [] ⟨none, c!"http://xmlns.com/foaf/0.1/"⟩ := rfl

end NomSparql.Tests
