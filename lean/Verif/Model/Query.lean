import Verif.Model.Expr

/-!
# Model of src/query/*.rs and src/parser.rs
-/

namespace NomSparql

/-- `separated_list(sp, data_set_clause)` -/
def dataSetClauses : P (List DataSetClause) := separatedList sp dataSetClause

/-- src/query/select.rs:53-68 `select_query` -/
def selectQuery : P SelectQuery :=
  map (tuple4 (terminated selectClause sp1) dataSetClauses (spEnc whereClause) solutionModifier)
    (fun x => { selectClause := x.1, datasetClauses := x.2.1, whereClause := x.2.2.1,
                solutionModifier := x.2.2.2 })

/-- src/query/ask.rs:18-32 `ask_query` -/
def askQuery : P AskQuery :=
  map (tuple4 (terminated (tagNoCase c!"ask") sp1) (terminated dataSetClauses sp)
        (terminated whereClause sp) solutionModifier)
    (fun x => { datasetClauses := x.2.1, whereClause := x.2.2.1, solutionModifier := x.2.2.2 })

/-- src/query/describe.rs:24-40 `describe_query` -/
def describeQuery : P DescribeQuery :=
  map (tuple5 (tagNoCase c!"describe") (spEnc1 varOrIrisOrAll) (terminated dataSetClauses sp)
        (opt (terminated whereClause sp)) solutionModifier)
    (fun x => { varOrIrisOrAll := x.2.1, datasetClauses := x.2.2.1, whereClause := x.2.2.2.1,
                solutionModifier := x.2.2.2.2 })

/-- src/query/construct.rs:89-98 `construct_template` -/
def constructTemplate : P (List TriplesSameSubject) :=
  delimited (terminated (char '{') sp)
    (separatedList (many1 (spEnc (char '.'))) triplesSameSubject)
    (preceded sp (char '}'))

/-- src/query/construct.rs:46-60 `sub_triples` -/
def subTriples : P SubTriples :=
  map (tuple4 (terminated dataSetClauses sp) (terminated (tagNoCase c!"where") sp1)
        (delimited (char '{') (spEnc (opt triplesTemplate)) (char '}'))
        (preceded sp solutionModifier))
    (fun x => { datasetClauses := x.1, triplesTemplate := x.2.2.1, solutionModifier := x.2.2.2 })

/-- src/query/construct.rs:62-77 `sub_construct` -/
def subConstruct : P SubConstruct :=
  map (tuple4 (terminated constructTemplate sp1) (terminated dataSetClauses sp)
        (terminated whereClause sp) solutionModifier)
    (fun x => { constructTemplate := x.1, datasetClauses := x.2.1, whereClause := x.2.2.1,
                solutionModifier := x.2.2.2 })

/-- src/query/construct.rs:79-87 `construct_query` -/
def constructQuery : P ConstructQuery :=
  precededTag1 c!"construct" (alt [map subConstruct .subConstruct, map subTriples .subTriples])

/-- src/parser.rs:28-35 `sparql_query` -/
def sparqlQuery : P SparqlQuery := alt [
  map selectQuery .select,
  map constructQuery .construct,
  map describeQuery .describe,
  map askQuery .ask]

/-- src/parser.rs:13-26 `sparql_query_stmt` -/
def sparqlQueryStmt : P SparqlQueryStatement :=
  map (tuple3 (terminated prologue sp) sparqlQuery
        (opt (preceded sp1 (precededTag1 c!"values" datablock))))
    (fun x => { prologue := x.1, query := x.2.1, values := x.2.2 })

end NomSparql
