import Verif.Model.Update

/-!
# Entry points with a recursion budget

The entry points of Model/Query and Model/Update with the recursive parsers `expression` and `group_graph_pattern` as a parameter, as in
Model/Expr.  With `R₀` they are those of Model/Query and Model/Update (by `rfl`, Props/C64); with `recF n` they answer `fuel` exactly when
more than `n` calls of the two functions would be open at the same time.
-/

namespace NomSparql

section
variable (R : Rec)

/-- src/query/select.rs:53-68 `select_query` -/
def selectQueryS : P SelectQuery :=
  map (tuple4 (terminated (selectClauseS R) sp1) dataSetClauses (spEnc (whereClauseS R)) (solutionModifierS R))
    (fun x => { selectClause := x.1, datasetClauses := x.2.1, whereClause := x.2.2.1,
                solutionModifier := x.2.2.2 })

/-- src/query/ask.rs:18-32 `ask_query` -/
def askQueryS : P AskQuery :=
  map (tuple4 (terminated (tagNoCase c!"ask") sp1) (terminated dataSetClauses sp)
        (terminated (whereClauseS R) sp) (solutionModifierS R))
    (fun x => { datasetClauses := x.2.1, whereClause := x.2.2.1, solutionModifier := x.2.2.2 })

/-- src/query/describe.rs:24-40 `describe_query` -/
def describeQueryS : P DescribeQuery :=
  map (tuple5 (tagNoCase c!"describe") (spEnc1 varOrIrisOrAll) (terminated dataSetClauses sp)
        (opt (terminated (whereClauseS R) sp)) (solutionModifierS R))
    (fun x => { varOrIrisOrAll := x.2.1, datasetClauses := x.2.2.1, whereClause := x.2.2.2.1,
                solutionModifier := x.2.2.2.2 })

/-- src/query/construct.rs:46-60 `sub_triples` -/
def subTriplesS : P SubTriples :=
  map (tuple4 (terminated dataSetClauses sp) (terminated (tagNoCase c!"where") sp1)
        (delimited (char '{') (spEnc (opt triplesTemplate)) (char '}'))
        (preceded sp (solutionModifierS R)))
    (fun x => { datasetClauses := x.1, triplesTemplate := x.2.2.1, solutionModifier := x.2.2.2 })

/-- src/query/construct.rs:62-77 `sub_construct` -/
def subConstructS : P SubConstruct :=
  map (tuple4 (terminated constructTemplate sp1) (terminated dataSetClauses sp)
        (terminated (whereClauseS R) sp) (solutionModifierS R))
    (fun x => { constructTemplate := x.1, datasetClauses := x.2.1, whereClause := x.2.2.1,
                solutionModifier := x.2.2.2 })

/-- src/query/construct.rs:79-87 `construct_query` -/
def constructQueryS : P ConstructQuery :=
  precededTag1 c!"construct" (alt [map (subConstructS R) .subConstruct, map (subTriplesS R) .subTriples])

/-- src/parser.rs:28-35 `sparql_query` -/
def sparqlQueryS : P SparqlQuery := alt [
  map (selectQueryS R) .select,
  map (constructQueryS R) .construct,
  map (describeQueryS R) .describe,
  map (askQueryS R) .ask]

/-- src/parser.rs:13-26 `sparql_query_stmt` -/
def sparqlQueryStmtS : P SparqlQueryStatement :=
  map (tuple3 (terminated prologue sp) (sparqlQueryS R)
        (opt (preceded sp1 (precededTag1 c!"values" datablock))))
    (fun x => { prologue := x.1, query := x.2.1, values := x.2.2 })

/-- src/operations.rs:95-111 `modify_stmt` -/
def modifyStmtS : P ModifyStatement :=
  map (tuple5
      (opt (delimited (tagNoCase c!"where") iri sp1))
      (terminated deleteInsert sp)
      (separatedList sp usingClause)
      (spEnc1 (tagNoCase c!"where"))
      R.ggp)
    (fun x => { iri := x.1, deleteInsert := x.2.1, usingClauses := x.2.2.1,
                whereGroupGraph := x.2.2.2.2 })

/-- src/update.rs:68-82 `update_stmt` -/
def updateStmtS : P UpdateStatement := alt [
  map loadStmt .load,
  map clearStmt .clear,
  map dropStmt .drop,
  map createStmt .create,
  map copyStmt .copy,
  map insertData .insertData,
  map deleteData .deleteData,
  map deleteWhereData .deleteWhere,
  map (modifyStmtS R) .modify]

end

end NomSparql
