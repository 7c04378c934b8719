import Verif.Spec.CanonGroup

/-!
# Canonical texts of whole queries

The texts are those the crate accepts: white space follows every dataset clause and every DESCRIBE target.
-/

namespace NomSparql

section
variable (cG : GroupGraphPattern → Lang)

/-- Dataset clauses, each followed by white space. -/
def cDataSets (l : List DataSetClause) : Lang := Many (fun d => cDataSetClause d ⬝ Ws1) l

def cSelectQuery (q : SelectQuery) : Lang :=
  cSelectClause cG q.selectClause ⬝ Ws1 ⬝ cDataSets q.datasetClauses ⬝ cWhere cG q.whereClause ⬝ Ws ⬝ cModifier cG q.solutionModifier

def cAskQuery (q : AskQuery) : Lang :=
  kw c!"ask" ⬝ Ws1 ⬝ cDataSets q.datasetClauses ⬝ cWhere cG q.whereClause ⬝ Ws ⬝ cModifier cG q.solutionModifier

/-- What DESCRIBE describes, with the white space after it. -/
def cTargets : VarOrIrisOrAll → Lang
  | .varIri l => WsList cVarOrIri l
  | .all => lit c!"*" ⬝ Ws1

def cDescribeQuery (q : DescribeQuery) : Lang :=
  kw c!"describe" ⬝ Ws1 ⬝ cTargets q.varOrIrisOrAll ⬝ cDataSets q.datasetClauses ⬝ rOpt (fun g => cWhere cG g ⬝ Ws) q.whereClause ⬝
    cModifier cG q.solutionModifier

/-- `{ triples }` or `{ }`, without a final dot. -/
def cConstructTemplate (l : List TriplesSameSubject) : Lang :=
  lit c!"{" ⬝ Ws ⬝ (fun s => (l = [] ∧ s = []) ∨ cTriples l s) ⬝ Ws ⬝ lit c!"}"

def cConstructQuery : ConstructQuery → Lang
  | .subConstruct q => kw c!"construct" ⬝ Ws1 ⬝ cConstructTemplate q.constructTemplate ⬝ Ws1 ⬝ cDataSets q.datasetClauses ⬝
      cWhere cG q.whereClause ⬝ Ws ⬝ cModifier cG q.solutionModifier
  | .subTriples q => kw c!"construct" ⬝ Ws1 ⬝ cDataSets q.datasetClauses ⬝ kw c!"where" ⬝ Ws1 ⬝ cBlock q.triplesTemplate ⬝ Ws ⬝
      cModifier cG q.solutionModifier

def cQuery : SparqlQuery → Lang
  | .select q => cSelectQuery cG q
  | .construct q => cConstructQuery cG q
  | .describe q => cDescribeQuery cG q
  | .ask q => cAskQuery cG q

end

/-- A whole statement without trailing VALUES (see C29). -/
def cQueryStmt (q : SparqlQueryStatement) : Lang :=
  fun s => q.values = none ∧ (cPrologue q.prologue ⬝ Ws ⬝ cQuery cGroup q.query) s

end NomSparql
