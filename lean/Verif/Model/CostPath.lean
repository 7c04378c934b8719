import Verif.Model.Cost

/-!
# Counting calls of `path_alternative`

A copy of Model/Path in which every parser also returns how many calls of the recursive function `path_alternative` (src/path.rs:215-220) it
makes before it answers, built with the combinators of Model/Cost.  As there, calls made before backtracking count.

The copies of `group_graph_pattern`, `ask_query` and `sparql_query_stmt` at the end count the calls made by the first triples block of the
outermost group of an ASK query only; all other calls count 0, so these counts are lower bounds of the real ones.
-/

namespace NomSparql.Cost

/-- The count of `many0` (Model/Nom). -/
def many0 (p : K α) : K (List α) := fun i => (NomSparql.many0 (erase p) i, manyCost p (i.length + 1) i)

/-- `delimited(sp, tag("|"), sp)`: src/path.rs:217, 224 -/
def barSep : K Input := lift (NomSparql.delimited NomSparql.sp (NomSparql.tag ['|']) NomSparql.sp)

section
variable (pa : K PathAlternative)

/-- src/path.rs:229-242 `path_primary` -/
def pathPrimaryS : K PathPrimary := alt [
  map iri .iri,
  map (tag ['a']) (fun _ => .a),
  map (preceded (tag ['!']) (lift NomSparql.pathNegatedPropertySet)) .pathNegatedPropertySet,
  map (delimited (tag ['(']) pa (tag [')'])) .path]

/-- src/path.rs:251-259 `path_elt` -/
def pathEltS : K PathElt :=
  map (pair (pathPrimaryS pa) (opt (preceded sp1 (lift NomSparql.pathMod)))) (fun x => .mk x.1 x.2)

/-- src/path.rs:244-249 `path_elt_or_inverse` -/
def pathEltOrInverseS : K PathEltOrInverse := alt [
  map (pathEltS pa) .pathElt,
  map (preceded (tag ['^']) (pathEltS pa)) .inverse]

/-- src/path.rs:222-227 `path_sequence` -/
def pathSequenceS : K PathSequence := map (separatedNonemptyList barSep (pathEltOrInverseS pa)) .mk

/-- src/path.rs:215-220 `path_alternative` -/
def pathAlternativeStep : K PathAlternative := map (separatedNonemptyList barSep (pathSequenceS pa)) .mk

end

/-- `path_alternative` with recursion budget `n`; a call counts when it is made. -/
def pathAlternativeF : Nat → K PathAlternative
  | 0 => fun _ => (.err .fuel, 0)
  | n + 1 => tick (pathAlternativeStep (pathAlternativeF n))

/-- src/path.rs:215-220 `path_alternative` -/
def pathAlternative : K PathAlternative := fun i => pathAlternativeF (i.length + 1) i

/-- src/path.rs:171-176 `verb_path_or_simple` -/
def verbPathOrSimple : K VerbPathOrSimple := alt [map pathAlternative .path, map var .simple]

/-- src/path.rs:185-193 `property_list_path_entry` -/
def propertyListPathEntry : K PropertyListPathEntry :=
  map (separatedPair verbPathOrSimple sp1 (lift NomSparql.objectList))
    (fun x => { verbPathOrSimple := x.1, objectList := x.2 })

section
variable (gn : K GraphNodePath)

/-- src/path.rs:178-183 `object_list_path` -/
def objectListPathS : K (List GraphNodePath) := separatedNonemptyList (spEnc (tag [';'])) gn

/-- src/path.rs:152-165 `property_list_path_not_empty` -/
def propertyListPathNotEmptyS : K PropertyListPath :=
  map (tuple3
      (terminated verbPathOrSimple sp1)
      (objectListPathS gn)
      (many0 (preceded (lift (NomSparql.many1 (NomSparql.spEnc (NomSparql.char ';')))) propertyListPathEntry)))
    (fun x => .mk x.1 x.2.1 x.2.2)

/-- src/path.rs:144-150 `blank_node_property_list_path` -/
def blankNodePropertyListPathS : K PropertyListPath :=
  delimited (terminated (tag ['[']) sp) (propertyListPathNotEmptyS gn) (preceded sp (tag [']']))

/-- src/path.rs:195-206 `triples_node_path` -/
def triplesNodePathS : K TriplesNodePath := alt [
  map (blankNodePropertyListPathS gn) .blankNodePropertyListPath,
  map (delimited (tag ['(']) (many1 gn) (tag [')'])) .collectionPath]

/-- src/path.rs:208-213 `graph_node_path` -/
def graphNodePathStep : K GraphNodePath := alt [
  map (lift varOrTerm) .varOrTerm,
  map (triplesNodePathS gn) .triplesNodePath]

end

/-- `graph_node_path` with recursion budget `n`. -/
def graphNodePathF : Nat → K GraphNodePath
  | 0 => fun _ => (.err .fuel, 0)
  | n + 1 => graphNodePathStep (graphNodePathF n)

/-- src/path.rs:208-213 `graph_node_path` -/
def graphNodePath : K GraphNodePath := fun i => graphNodePathF (i.length + 1) i

/-- src/path.rs:125-142 `triples_same_subject_path` -/
def triplesSameSubjectPath : K TriplesSameSubjectPath := alt [
  map (separatedPair (lift varOrTerm) sp1 (propertyListPathNotEmptyS graphNodePath)) (fun x => .term x.1 x.2),
  map (separatedPair (triplesNodePathS graphNodePath) sp (opt (propertyListPathNotEmptyS graphNodePath))) (fun x => .node x.1 x.2)]

/-- src/triple.rs:92-97 `triples_block` -/
def pathTriplesBlock : K TriplesBlock :=
  map (separatedNonemptyList (lift (NomSparql.many1 (NomSparql.spEnc (NomSparql.char '.')))) triplesSameSubjectPath) .mk

/-! ## The first triples block of an ASK query -/

/-- src/graph.rs:194-205 `group_graph_pattern_sub`; only the triples block counts -/
def firstSub : K GroupGraphPatternSub :=
  map (pair (opt (terminated pathTriplesBlock sp))
        (lift (NomSparql.separatedList NomSparql.sp (NomSparql.groupGraphPatternAndTriplesS NomSparql.R₀))))
    (fun x => .mk x.1 x.2)

/-- src/graph.rs:237-249 `group_graph_pattern`; only the first triples block counts -/
def firstGroup : K GroupGraphPattern :=
  delimited (char '{')
    (spEnc (alt [
      map (lift NomSparql.subSelect) .subSelect,
      map firstSub .groupGraphPatternSub]))
    (char '}')

/-- src/clauses.rs:91-96 `where_clause`; only the first triples block counts -/
def firstWhere : K GroupGraphPattern := preceded (opt (terminated (tagNoCase c!"where") sp1)) firstGroup

/-- src/query/ask.rs:18-32 `ask_query`; only the first triples block counts -/
def firstAsk : K AskQuery :=
  map (tuple4 (terminated (tagNoCase c!"ask") sp1) (terminated dataSetClauses sp)
        (terminated firstWhere sp) (lift NomSparql.solutionModifier))
    (fun x => { datasetClauses := x.2.1, whereClause := x.2.2.1, solutionModifier := x.2.2.2 })

/-- src/parser.rs:28-35 `sparql_query`; only the first triples block of an ASK query counts -/
def firstQuery : K SparqlQuery := alt [
  map (lift NomSparql.selectQuery) .select,
  map (lift NomSparql.constructQuery) .construct,
  map (lift NomSparql.describeQuery) .describe,
  map firstAsk .ask]

/-- src/parser.rs:13-26 `sparql_query_stmt`; only the first triples block of an ASK query counts -/
def firstStmt : K SparqlQueryStatement :=
  map (tuple3 (terminated prologue sp) firstQuery
        (opt (preceded sp1 (precededTag1 c!"values" datablock))))
    (fun x => { prologue := x.1, query := x.2.1, values := x.2.2 })

end NomSparql.Cost
