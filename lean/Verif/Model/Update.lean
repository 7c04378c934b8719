import Verif.Model.Query

/-!
# Model of src/operations.rs and src/update.rs
-/

namespace NomSparql

/-- src/operations.rs:127-133 `silent_from_to` -/
def silentFromTo : P (Bool × GraphOrDefault × GraphOrDefault) :=
  tuple3 optSilent graphOrDefault (preceded (spEnc (tagNoCase c!"to")) graphOrDefault)

/-- src/operations.rs:88-93 `add_stmt` -/
def addStmt : P AddStatement :=
  map (pair (pair (tagNoCase c!"add") sp1) silentFromTo)
    (fun x => { silent := x.2.1, from' := x.2.2.1, to := x.2.2.2 })

/-- src/operations.rs:113-118 `move_stmt` -/
def moveStmt : P MoveStatement :=
  map (pair (pair (tagNoCase c!"move") sp1) silentFromTo)
    (fun x => { silent := x.2.1, from' := x.2.2.1, to := x.2.2.2 })

/-- src/operations.rs:120-125 `copy_stmt` -/
def copyStmt : P CopyStatement :=
  map (pair (pair (tagNoCase c!"copy") sp1) silentFromTo)
    (fun x => { silent := x.2.1, from' := x.2.2.1, to := x.2.2.2 })

/-- src/operations.rs:135-144 `create_stmt` -/
def createStmt : P CreateStatement :=
  map (tuple3 (pair (tagNoCase c!"create") sp1) optSilent graphRef)
    (fun x => { silent := x.2.1, graphRef := x.2.2 })

/-- src/operations.rs:166-171 `silent_graph_ref_all` -/
def silentGraphRefAll : P (Bool × GraphRefAll) := pair optSilent graphRefAll

/-- src/operations.rs:146-154 `drop_stmt` -/
def dropStmt : P DropStatement :=
  map (pair (pair (tagNoCase c!"drop") sp1) silentGraphRefAll)
    (fun x => { silent := x.2.1, graphRefAll := x.2.2 })

/-- src/operations.rs:156-164 `clear_stmt` -/
def clearStmt : P ClearStatement :=
  map (pair (pair (tagNoCase c!"clear") sp1) silentGraphRefAll)
    (fun x => { silent := x.2.1, graphRefAll := x.2.2 })

/-- src/operations.rs:173-187 `load_stmt` -/
def loadStmt : P LoadStatement :=
  map (tuple4 (pair (tagNoCase c!"load") sp1) optSilent iri
        (opt (preceded (spEnc (tagNoCase c!"into")) graphRef)))
    (fun x => { iri := x.2.2.1, silent := x.2.1, graphRef := x.2.2.2 })

/-- src/operations.rs:189-191 `insert_data` -/
def insertData : P Quads := precededTag1 c!"insert" (precededTag1 c!"data" quadData)

/-- src/operations.rs:193-195 `delete_data` -/
def deleteData : P Quads := precededTag1 c!"delete" (precededTag1 c!"data" quadData)

/-- src/operations.rs:197-199 `delete_where_data` -/
def deleteWhereData : P Quads := precededTag1 c!"delete" (precededTag1 c!"where" quadData)

/-- src/operations.rs:201-209 `delete_insert` -/
def deleteInsert : P DeleteInsert := alt [
  map (pair deleteClause (opt (preceded sp insertClause))) (fun x => .deleteInsert x.1 x.2),
  map insertClause .insert]

/-- src/operations.rs:95-111 `modify_stmt` (the keyword before the IRI in the source is `where`) -/
def modifyStmt : P ModifyStatement :=
  map (tuple5
      (opt (delimited (tagNoCase c!"where") iri sp1))
      (terminated deleteInsert sp)
      (separatedList sp usingClause)
      (spEnc1 (tagNoCase c!"where"))
      groupGraphPattern)
    (fun x => { iri := x.1, deleteInsert := x.2.1, usingClauses := x.2.2.1,
                whereGroupGraph := x.2.2.2.2 })

/-- src/update.rs:68-82 `update_stmt` (`add_stmt` and `move_stmt` are not among the alternatives) -/
def updateStmt : P UpdateStatement := alt [
  map loadStmt .load,
  map clearStmt .clear,
  map dropStmt .drop,
  map createStmt .create,
  map copyStmt .copy,
  map insertData .insertData,
  map deleteData .deleteData,
  map deleteWhereData .deleteWhere,
  map modifyStmt .modify]

/-- src/update.rs:41-66 `update` (`up` is the recursive call) -/
def updateStep (up : P Update) : P Update :=
  map (pair prologue
        (opt (pair (preceded sp updateStmt) (opt (preceded (spEnc (char ';')) up)))))
    (fun x => match x.2 with
      | some (stmt, inner) => .mk x.1 (some stmt) inner
      | none => .mk x.1 none none)

/-- `update` with recursion budget `n`. -/
def updateF : Nat → P Update
  | 0 => fun _ => .err .fuel
  | n + 1 => updateStep (updateF n)

/-- src/update.rs:41-66 `update` (budget: input length + 1, proved sufficient) -/
def update : P Update := fun i => updateF (i.length + 1) i

end NomSparql
