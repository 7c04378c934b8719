import Verif.Model.Cost
import Verif.Model.Update

/-!
# Counting calls in updates

A copy of Model/Update with counts, as Model/Cost is one of Model/Query.  Calls of `update` (src/update.rs:41-66) count too, so all three
functions through which the grammar of updates nests are counted.
-/

namespace NomSparql.Cost

/-- src/operations.rs:95-111 `modify_stmt`; only its group is counted. -/
def modifyStmt : K ModifyStatement :=
  map (tuple5
      (lift (NomSparql.opt (NomSparql.delimited (NomSparql.tagNoCase c!"where") NomSparql.iri NomSparql.sp1)))
      (lift (NomSparql.terminated NomSparql.deleteInsert NomSparql.sp))
      (lift (NomSparql.separatedList NomSparql.sp NomSparql.usingClause))
      (spEnc1 (tagNoCase c!"where"))
      groupGraphPattern)
    (fun x => { iri := x.1, deleteInsert := x.2.1, usingClauses := x.2.2.1,
                whereGroupGraph := x.2.2.2.2 })

/-- src/update.rs:68-82 `update_stmt` -/
def updateStmt : K UpdateStatement := alt [
  map (lift NomSparql.loadStmt) .load,
  map (lift NomSparql.clearStmt) .clear,
  map (lift NomSparql.dropStmt) .drop,
  map (lift NomSparql.createStmt) .create,
  map (lift NomSparql.copyStmt) .copy,
  map (lift NomSparql.insertData) .insertData,
  map (lift NomSparql.deleteData) .deleteData,
  map (lift NomSparql.deleteWhereData) .deleteWhere,
  map modifyStmt .modify]

/-- src/update.rs:41-66 `update` (`up` is the recursive call) -/
def updateStep (up : K Update) : K Update :=
  map (pair prologue
        (opt (pair (preceded sp updateStmt) (opt (preceded (spEnc (char ';')) up)))))
    (fun x => match x.2 with
      | some (stmt, inner) => .mk x.1 (some stmt) inner
      | none => .mk x.1 none none)

/-- `update` with recursion budget `n`; a call counts when it is made. -/
def updateF : Nat → K Update
  | 0 => fun _ => (.err .fuel, 0)
  | n + 1 => tick (updateStep (updateF n))

/-- src/update.rs:41-66 `update` -/
def update : K Update := fun i => updateF (i.length + 1) i

end NomSparql.Cost
