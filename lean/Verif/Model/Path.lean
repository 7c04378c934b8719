import Verif.Model.Graph

/-!
# Model of src/path.rs, src/expression/iri.rs and `triples_block` of src/triple.rs
-/

namespace NomSparql

/-! ## src/expression/iri.rs -/

/-- src/expression/iri.rs:22-24 `iri_or_a` -/
def iriOrA : P IriOrA := alt [map iri .iri, map (tagNoCase c!"a") (fun _ => .a)]

/-- src/expression/iri.rs:26-31 `iri_or_a_or_caret` -/
def iriOrAOrCaret : P IriOrAOrCaret := alt [
  map iriOrA .iriOrA,
  map (preceded (char '^') iriOrA) .caret]

/-! ## src/path.rs -/

/-- src/path.rs:286-289 `is_path_mod` -/
def isPathMod (c : Char) : Bool := c ∈ ['?', '*', '+']

/-- src/path.rs:276-284 `path_mod`: `&i[0..1]` and `&i[1..]` are byte slices. -/
def pathMod : P PathMod := fun i =>
  if i = [] then .err (.incomplete 1)
  else
    match takeBytes 1 i with
    | none => .err .panic
    | some (a, r) =>
      match PathMod.fromStr a with
      | some m => .ok r m
      | none => .err (.error i .Char)

/-- src/path.rs:272-274 `path_one_in_property_set` -/
def pathOneInPropertySet : P IriOrAOrCaret := iriOrAOrCaret

/-- src/path.rs:261-270 `path_negated_property_set` -/
def pathNegatedPropertySet : P (List IriOrAOrCaret) :=
  delimited (terminated (tag ['(']) sp)
    (separatedNonemptyList (delimited sp (char '|') sp) pathOneInPropertySet)
    (preceded sp (tag [')']))

section
variable (pa : P PathAlternative)

/-- src/path.rs:229-242 `path_primary` (`pa` is the recursive `path_alternative`) -/
def pathPrimaryS : P PathPrimary := alt [
  map iri .iri,
  map (tag ['a']) (fun _ => .a),
  map (preceded (tag ['!']) pathNegatedPropertySet) .pathNegatedPropertySet,
  map (delimited (tag ['(']) pa (tag [')'])) .path]

/-- src/path.rs:251-259 `path_elt` -/
def pathEltS : P PathElt :=
  map (pair (pathPrimaryS pa) (opt (preceded sp1 pathMod))) (fun x => .mk x.1 x.2)

/-- src/path.rs:244-249 `path_elt_or_inverse` -/
def pathEltOrInverseS : P PathEltOrInverse := alt [
  map (pathEltS pa) .pathElt,
  map (preceded (tag ['^']) (pathEltS pa)) .inverse]

/-- src/path.rs:222-227 `path_sequence` (the separator in the source is `|`) -/
def pathSequenceS : P PathSequence :=
  map (separatedNonemptyList (delimited sp (tag ['|']) sp) (pathEltOrInverseS pa)) .mk

/-- src/path.rs:215-220 `path_alternative` -/
def pathAlternativeStep : P PathAlternative :=
  map (separatedNonemptyList (delimited sp (tag ['|']) sp) (pathSequenceS pa)) .mk

end

/-- `path_alternative` with recursion budget `n`. -/
def pathAlternativeF : Nat → P PathAlternative
  | 0 => fun _ => .err .fuel
  | n + 1 => pathAlternativeStep (pathAlternativeF n)

/-- src/path.rs:215-220 `path_alternative` (budget: input length + 1, proved sufficient) -/
def pathAlternative : P PathAlternative := fun i => pathAlternativeF (i.length + 1) i

/-- src/path.rs:229-242 `path_primary` -/
def pathPrimary : P PathPrimary := pathPrimaryS pathAlternative
/-- src/path.rs:251-259 `path_elt` -/
def pathElt : P PathElt := pathEltS pathAlternative
/-- src/path.rs:244-249 `path_elt_or_inverse` -/
def pathEltOrInverse : P PathEltOrInverse := pathEltOrInverseS pathAlternative
/-- src/path.rs:222-227 `path_sequence` -/
def pathSequence : P PathSequence := pathSequenceS pathAlternative

/-- src/path.rs:171-176 `verb_path_or_simple` -/
def verbPathOrSimple : P VerbPathOrSimple := alt [
  map pathAlternative .path,
  map var .simple]

/-- src/path.rs:185-193 `property_list_path_entry` -/
def propertyListPathEntry : P PropertyListPathEntry :=
  map (separatedPair verbPathOrSimple sp1 objectList)
    (fun x => { verbPathOrSimple := x.1, objectList := x.2 })

section
variable (gn : P GraphNodePath)

/-- src/path.rs:178-183 `object_list_path` (`gn` is the recursive `graph_node_path`; the separator in
the source is `;`) -/
def objectListPathS : P (List GraphNodePath) := separatedNonemptyList (spEnc (tag [';'])) gn

/-- src/path.rs:152-165 `property_list_path_not_empty` -/
def propertyListPathNotEmptyS : P PropertyListPath :=
  map (tuple3
      (terminated verbPathOrSimple sp1)
      (objectListPathS gn)
      (many0 (preceded (many1 (spEnc (char ';'))) propertyListPathEntry)))
    (fun x => .mk x.1 x.2.1 x.2.2)

/-- src/path.rs:167-169 `property_list_path` -/
def propertyListPathS : P (Option PropertyListPath) := opt (propertyListPathNotEmptyS gn)

/-- src/path.rs:144-150 `blank_node_property_list_path` -/
def blankNodePropertyListPathS : P PropertyListPath :=
  delimited (terminated (tag ['[']) sp) (propertyListPathNotEmptyS gn) (preceded sp (tag [']']))

/-- src/path.rs:195-206 `triples_node_path` -/
def triplesNodePathS : P TriplesNodePath := alt [
  map (blankNodePropertyListPathS gn) .blankNodePropertyListPath,
  map (delimited (tag ['(']) (many1 gn) (tag [')'])) .collectionPath]

/-- src/path.rs:208-213 `graph_node_path` -/
def graphNodePathStep : P GraphNodePath := alt [
  map varOrTerm .varOrTerm,
  map (triplesNodePathS gn) .triplesNodePath]

end

/-- `graph_node_path` with recursion budget `n`. -/
def graphNodePathF : Nat → P GraphNodePath
  | 0 => fun _ => .err .fuel
  | n + 1 => graphNodePathStep (graphNodePathF n)

/-- src/path.rs:208-213 `graph_node_path` (budget: input length + 1, proved sufficient) -/
def graphNodePath : P GraphNodePath := fun i => graphNodePathF (i.length + 1) i

/-- src/path.rs:178-183 `object_list_path` -/
def objectListPath : P (List GraphNodePath) := objectListPathS graphNodePath
/-- src/path.rs:152-165 `property_list_path_not_empty` -/
def propertyListPathNotEmpty : P PropertyListPath := propertyListPathNotEmptyS graphNodePath
/-- src/path.rs:167-169 `property_list_path` -/
def propertyListPath : P (Option PropertyListPath) := propertyListPathS graphNodePath
/-- src/path.rs:144-150 `blank_node_property_list_path` -/
def blankNodePropertyListPath : P PropertyListPath := blankNodePropertyListPathS graphNodePath
/-- src/path.rs:195-206 `triples_node_path` -/
def triplesNodePath : P TriplesNodePath := triplesNodePathS graphNodePath

/-- src/path.rs:125-142 `triples_same_subject_path` -/
def triplesSameSubjectPath : P TriplesSameSubjectPath := alt [
  map (spSep1 varOrTerm propertyListPathNotEmpty) (fun x => .term x.1 x.2),
  map (spSep triplesNodePath propertyListPath) (fun x => .node x.1 x.2)]

/-- src/triple.rs:92-97 `triples_block` -/
def triplesBlock : P TriplesBlock :=
  map (separatedNonemptyList (many1 (spEnc (char '.'))) triplesSameSubjectPath) .mk

end NomSparql
