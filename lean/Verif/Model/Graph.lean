import Verif.Model.Literal

/-!
# Model of src/var.rs, src/data.rs, src/triple.rs, src/quads.rs, the non-recursive part of src/graph.rs
and of src/clauses.rs
-/

namespace NomSparql

/-! ## src/var.rs -/

/-- The predicate `|c| is_pn_chars_u(c) || c.is_dec_digit()`: src/var.rs:106-107 -/
def isVarChar (c : Char) : Bool := isPnCharsU c || isDecDigit c

/-- src/var.rs:103-109 `var_name` -/
def varName : P Str := recognize (pair (takeWhileN 1 isVarChar) (takeWhile isVarChar))

/-- src/var.rs:73-84 `var` -/
def var : P Var := alt [
  map (preceded (char '?') (preceded sp varName)) .qmark,
  map (preceded (char '$') (preceded sp varName)) .dollar]

/-- src/var.rs:58-60 `var_or_iri` -/
def varOrIri : P VarOrIri := alt [map var .var, map iri .iri]

/-- src/var.rs:62-67 `verb` -/
def verb : P Verb := alt [map varOrIri .varOrIri, map (tagNoCase c!"a") (fun _ => .a)]

/-- src/var.rs:86-94 `var_or_iris_or_all` -/
def varOrIrisOrAll : P VarOrIrisOrAll := alt [
  map (separatedNonemptyList sp varOrIri) .varIri,
  map (char '*') (fun _ => .all)]

/-! ## src/graph.rs, terms -/

/-- src/graph.rs:262-276 `blank_node` -/
def blankNode : P BlankNode := alt [
  map (spSep (tag c!"_:")
        (recognize (pair (alt [pnCharsUOne, takeWhileN 1 isDigitU8]) pnCharsTail)))
    (fun x => .label x.2),
  map anon (fun _ => .anon)]

/-- src/graph.rs:251-260 `graph_term` -/
def graphTerm : P GraphTerm := alt [
  map iri .iri,
  map rdfLiteral .rdfLiteral,
  map numericLiteral .numericLiteral,
  map boolean .booleanLiteral,
  map blankNode .blankNode,
  map nil (fun _ => .nil)]

/-- src/var.rs:69-71 `var_or_term` -/
def varOrTerm : P VarOrTerm := alt [map var .var, map graphTerm .term]

/-- src/graph.rs:125-127 `graph_ref` -/
def graphRef : P Iri := map (spSep1 (tagNoCase c!"graph") iri) Prod.snd

/-- src/graph.rs:129-137 `graph_or_default` -/
def graphOrDefault : P GraphOrDefault := alt [
  map (tagNoCase c!"default") (fun _ => .default),
  map (pair (opt (pair (tagNoCase c!"graph") sp1)) iri) (fun x => .graph x.2)]

/-- src/graph.rs:139-146 `graph_ref_all` -/
def graphRefAll : P GraphRefAll := alt [
  map (tagNoCase c!"default") (fun _ => .default),
  map (tagNoCase c!"named") (fun _ => .named),
  map (tagNoCase c!"all") (fun _ => .all),
  map graphRef .graphRef]

/-! ## src/data.rs -/

/-- src/data.rs:51-53 `data_set_clause` -/
def dataSetClause : P DataSetClause := precededTag1 c!"from" defaultOrNamedIri

/-- src/data.rs:101-109 `datablock_value` -/
def datablockValue : P DataBlockValue := alt [
  map iri .iri,
  map rdfLiteral .rdfLiteral,
  map numericLiteral .numericLiteral,
  map boolean .booleanLiteral,
  map (tagNoCase c!"undef") (fun _ => .undef)]

/-- src/data.rs:67-85 `inline_data_full` -/
def inlineDataFull : P InlineDataFull :=
  map (pair
      (bracketted (preceded sp (many0 (spEnc var))))
      (delimited
        (spEnc (char '{'))
        (many0 (spEnc (bracketted (preceded sp (many0 (spEnc datablockValue))))))
        (preceded sp (char '}'))))
    (fun x => { vars := x.1, dataBlockValues := x.2 })

/-- src/data.rs:87-99 `inline_data_one_var` -/
def inlineDataOneVar : P InlineDataOneVar :=
  map (pair var
      (delimited (spEnc (char '{')) (many0 (spEnc datablockValue)) (preceded sp (char '}'))))
    (fun x => { var := x.1, values := x.2 })

/-- src/data.rs:55-60 `datablock` -/
def datablock : P DataBlock := alt [
  map inlineDataOneVar .inlineDataOneVar,
  map inlineDataFull .inlineDataFull]

/-- src/data.rs:62-64 `inline_data` -/
def inlineData : P DataBlock := precededTag1 c!"values" datablock

/-! ## src/clauses.rs, clauses without expressions -/

/-- src/clauses.rs:98-100 `values_clause` -/
def valuesClause : P (Option DataBlock) := opt (precededTag1 c!"values" datablock)

/-- src/clauses.rs:112-115 `using_clause` -/
def usingClause : P DefaultOrNamedIri := precededTag1 c!"using" defaultOrNamedIri

/-- src/clauses.rs:117-126 `int_clause` -/
def intClause (pat : P Str) : P Nat :=
  mapRes (preceded (terminated pat sp) (takeWhile1 isDigitU8)) parseU64

/-- src/clauses.rs:128-131 `limit_clause` -/
def limitClause : P Nat := intClause (tagNoCase c!"limit")

/-- src/clauses.rs:133-136 `offset_clause` -/
def offsetClause : P Nat := intClause (tagNoCase c!"offset")

/-- src/clauses.rs:138-149 `limit_offset_clause` -/
def limitOffsetClause : P LimitOffsetClause := alt [
  map (separatedPair limitClause sp (opt offsetClause)) (fun x => .limitOffset x.1 x.2),
  map (separatedPair offsetClause sp (opt limitClause)) (fun x => .offsetLimit x.1 x.2)]

/-! ## src/triple.rs and `graph_node` of src/graph.rs (recursive nest)

The parameter `gn` of the functions below is the recursive parser `graph_node`. -/

section
variable (gn : P GraphNode)

/-- src/triple.rs:54-56 `collection` -/
def collectionS : P (List GraphNode) := bracketted (many1 (spEnc gn))

/-- src/triple.rs:58-63 `object_list` -/
def objectListS : P (List GraphNode) := separatedNonemptyList (spEnc (tag [','])) gn

/-- src/triple.rs:65-78 `property_list_not_empty` -/
def propertyListNotEmptyS : P PropertyList :=
  map (terminated
      (separatedNonemptyList
        (spEnc (many1 (spEnc (char ';'))))
        (map (separatedPair verb sp (objectListS gn)) (fun x => .mk x.1 x.2)))
      (many0 (preceded sp (char ';'))))
    .mk

/-- src/triple.rs:80-83 `property_list` -/
def propertyListS : P (Option PropertyList) := opt (propertyListNotEmptyS gn)

/-- src/triple.rs:46-52 `blank_node_property_list` -/
def blankNodePropertyListS : P PropertyList :=
  delimited (terminated (char '[') sp) (propertyListNotEmptyS gn) (preceded sp (char ']'))

/-- src/triple.rs:85-90 `triples_node` -/
def triplesNodeS : P TriplesNode := alt [
  map (collectionS gn) .collection,
  map (blankNodePropertyListS gn) .blankNodePropertyList]

/-- src/graph.rs:278-283 `graph_node` -/
def graphNodeStep : P GraphNode := alt [
  map varOrTerm .varOrTerm,
  map (triplesNodeS gn) .triplesNode]

end

/-- `graph_node` with recursion budget `n`. -/
def graphNodeF : Nat → P GraphNode
  | 0 => fun _ => .err .fuel
  | n + 1 => graphNodeStep (graphNodeF n)

/-- src/graph.rs:278-283 `graph_node` (budget: input length + 1, proved sufficient) -/
def graphNode : P GraphNode := fun i => graphNodeF (i.length + 1) i

/-- src/triple.rs:54-56 `collection` -/
def collection : P (List GraphNode) := collectionS graphNode
/-- src/triple.rs:58-63 `object_list` -/
def objectList : P (List GraphNode) := objectListS graphNode
/-- src/triple.rs:65-78 `property_list_not_empty` -/
def propertyListNotEmpty : P PropertyList := propertyListNotEmptyS graphNode
/-- src/triple.rs:80-83 `property_list` -/
def propertyList : P (Option PropertyList) := propertyListS graphNode
/-- src/triple.rs:46-52 `blank_node_property_list` -/
def blankNodePropertyList : P PropertyList := blankNodePropertyListS graphNode
/-- src/triple.rs:85-90 `triples_node` -/
def triplesNode : P TriplesNode := triplesNodeS graphNode

/-- src/triple.rs:106-123 `triples_same_subject` -/
def triplesSameSubject : P TriplesSameSubject := alt [
  map (spSep triplesNode propertyList) (fun x => .node x.1 x.2),
  map (spSep1 varOrTerm propertyListNotEmpty) (fun x => .term x.1 x.2)]

/-- src/triple.rs:99-104 `triples_template` -/
def triplesTemplate : P TriplesTemplate :=
  terminated
    (separatedNonemptyList (many1 (spEnc (char '.'))) triplesSameSubject)
    (opt (preceded sp (char '.')))

/-! ## src/quads.rs -/

/-- src/quads.rs:60-72 `quads_not_triples` -/
def quadsNotTriples : P QuadsNotTriples :=
  map (tuple3 (tagNoCase c!"graph") (spEnc varOrIri)
        (delimited (char '{') (spEnc (opt triplesTemplate)) (char '}')))
    (fun x => { varOrIri := x.2.1, triplesTemplate := x.2.2 })

/-- src/quads.rs:74-82 `quads_entry` -/
def quadsEntry : P QuadsEntry :=
  map (separatedPair quadsNotTriples (opt (char '.')) (opt triplesTemplate))
    (fun x => { quadsNotTriples := x.1, triplesTemplate := x.2 })

/-- src/quads.rs:50-58 `quads` -/
def quads : P Quads :=
  map (pair (opt (terminated triplesTemplate sp)) (many0 quadsEntry))
    (fun x => { firstTriple := x.1, entries := x.2 })

/-- src/quads.rs:42-44 `quads_pattern` -/
def quadsPattern : P Quads :=
  delimited (terminated (tag ['{']) sp) quads (terminated sp (tag ['}']))

/-- src/quads.rs:46-48 `quad_data` -/
def quadData : P Quads := quadsPattern

/-- src/clauses.rs:102-105 `insert_clause` -/
def insertClause : P Quads := precededTag1 c!"insert" quadsPattern

/-- src/clauses.rs:107-110 `delete_clause` (the keyword in the source is `offset`) -/
def deleteClause : P Quads := precededTag1 c!"offset" quadsPattern

end NomSparql
