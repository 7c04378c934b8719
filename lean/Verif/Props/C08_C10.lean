import Verif.Lemmas.Rendered

/-!
# C08 – C10: the AST is faithful to the text; the query form follows the keyword

The renderings `rStatement`, `rUpdate`, ... are defined in `Verif/Spec/Render.lean` over texts and ASTs only.
-/

namespace NomSparql

set_option maxRecDepth 8000

/-! ## C08 -/

/-- Whatever `p` accepts is spelled, by the rendering `R`, in exactly the text it consumed. -/
def Faithful (p : P α) (R : α → Lang) : Prop :=
  ∀ i rest a, p i = .ok rest a → ∃ text, i = text ++ rest ∧ R a text

theorem faithful_of_sound {p : P α} {R : α → Lang} (h : Sound p R) : Faithful p R := fun _ _ _ e => h.out e

/-- Partial with respect to C08: `rStatement` has the places marked DEVIATION, where the code returns an AST node for
a text that SPARQL 1.1 gives another meaning (`C08_function_violated`, `C08_path_violated`,
`C08_objects_violated`). -/
theorem C08_faithful_partial : Faithful sparqlQueryStmt rStatement := faithful_of_sound inferInstance

theorem C08_query_partial : Faithful sparqlQuery rSparqlQuery := faithful_of_sound inferInstance
theorem C08_select_partial : Faithful selectQuery rSelectQuery := faithful_of_sound inferInstance
theorem C08_construct_partial : Faithful constructQuery rConstructQuery := faithful_of_sound inferInstance
theorem C08_describe_partial : Faithful describeQuery rDescribeQuery := faithful_of_sound inferInstance
theorem C08_ask_partial : Faithful askQuery rAskQuery := faithful_of_sound inferInstance
theorem C08_subTriples : Faithful subTriples rSubTriples := faithful_of_sound inferInstance
theorem C08_subConstruct_partial : Faithful subConstruct rSubConstruct := faithful_of_sound inferInstance
theorem C08_expression_partial : Faithful expression rExpression := faithful_of_sound inferInstance
theorem C08_group_partial : Faithful groupGraphPattern rGroupGraphPattern := faithful_of_sound inferInstance
theorem C08_prologue : Faithful prologue rPrologue := faithful_of_sound inferInstance
theorem C08_datablock : Faithful datablock rDataBlock := faithful_of_sound inferInstance
theorem C08_template : Faithful triplesTemplate rTriplesTemplate := faithful_of_sound inferInstance

/-- The relations for recursive types are fixed points on everything that is accepted: an accepted
expression is spelled as disjunctions of conjunctions ... of sub-expressions that are themselves spelled. -/
theorem C08_expression_unfold_partial : Faithful expression (rExpressionS rel₀) := by
  rw [expression_eq]; exact faithful_of_sound inferInstance

theorem C08_group_unfold_partial : Faithful groupGraphPattern (rGroupGraphPatternS rel₀) := by
  rw [groupGraphPattern_eq]; exact faithful_of_sound inferInstance

/-- Non-vacuity: a query with prologue, several clauses and a remainder. -/
example : ∃ q, sparqlQueryStmt
    c!"PREFIX x:<http://a> SELECT DISTINCT ?s?o FROM <g> WHERE { ?s x:bc $o OPTIONAL {?o ?p $q} } LIMIT 5 tail" =
      .ok c!"tail" q ∧ q.prologue.decls.length = 1 := ⟨_, rfl, rfl⟩

/-- Two different function calls give the same AST, so the AST does not say what was written. -/
theorem C08_function_violated : ∃ q,
    sparqlQueryStmt c!"ASK { FILTER ABS(?x) }" = .ok [] q ∧
    sparqlQueryStmt c!"ASK { FILTER URI(?x) }" = .ok [] q ∧
    sparqlQueryStmt c!"ASK { FILTER CEIL(?x) }" = .ok [] q ∧
    sparqlQueryStmt c!"ASK { FILTER FLOOR(?x) }" = .ok [] q ∧
    sparqlQueryStmt c!"ASK { FILTER ROUND(?x) }" = .ok [] q := ⟨_, rfl, rfl, rfl, rfl, rfl⟩

/-- The path in the group. -/
def firstPath : GroupGraphPattern → Option PathAlternative
  | .groupGraphPatternSub (.mk (some ⟨.term _ (.mk (.path p) _ _) :: _⟩) _) => some p
  | _ => none

/-- An alternative of two paths is returned as a sequence. -/
theorem C08_path_violated : ∃ g, groupGraphPattern c!"{?s <a>|<b> <o>}" = .ok [] g ∧
    firstPath g = some (.mk [.mk [.pathElt (.mk (.iri (.iri ['a'])) none),
      .pathElt (.mk (.iri (.iri ['b'])) none)]]) := ⟨_, rfl, rfl⟩

/-- The objects in the group. -/
def firstObjects : GroupGraphPattern → Option (List GraphNodePath)
  | .groupGraphPatternSub (.mk (some ⟨.term _ (.mk _ os _) :: _⟩) _) => some os
  | _ => none

/-- After `;` the code expects another object, not another predicate. -/
theorem C08_objects_violated : ∃ g, groupGraphPattern c!"{?s <a> <o> ; <b>}" = .ok [] g ∧
    firstObjects g = some [.varOrTerm (.term (.iri (.iri ['o']))), .varOrTerm (.term (.iri (.iri ['b'])))] :=
  ⟨_, rfl, rfl⟩

/-! ## C09 -/

/-- Partial with respect to C09: `rUpdate` spells DELETE of a modification as `offset`, WITH as `where`
(`C09_delete_violated`, `C09_with_violated`). -/
theorem C09_faithful_partial : Faithful update rUpdate := faithful_of_sound inferInstance

theorem C09_statement_partial : Faithful updateStmt rUpdateStatement := faithful_of_sound inferInstance

/-- Graph management and data updates are spelled as in SPARQL 1.1. -/
theorem C09_load : Faithful loadStmt (fun s => rUpdateStatement (.load s)) := faithful_of_sound inferInstance
theorem C09_clear : Faithful clearStmt (fun s => rUpdateStatement (.clear s)) := faithful_of_sound inferInstance
theorem C09_drop : Faithful dropStmt (fun s => rUpdateStatement (.drop s)) := faithful_of_sound inferInstance
theorem C09_create : Faithful createStmt (fun s => rUpdateStatement (.create s)) := faithful_of_sound inferInstance
theorem C09_copy : Faithful copyStmt (fun s => rUpdateStatement (.copy s)) := faithful_of_sound inferInstance
theorem C09_add : Faithful addStmt (fun s => rUpdateStatement (.add s)) := faithful_of_sound inferInstance
theorem C09_move : Faithful moveStmt (fun s => rUpdateStatement (.move s)) := faithful_of_sound inferInstance
theorem C09_insertData : Faithful insertData (fun s => rUpdateStatement (.insertData s)) :=
  faithful_of_sound inferInstance
theorem C09_deleteData : Faithful deleteData (fun s => rUpdateStatement (.deleteData s)) :=
  faithful_of_sound inferInstance
theorem C09_deleteWhere : Faithful deleteWhereData (fun s => rUpdateStatement (.deleteWhere s)) :=
  faithful_of_sound inferInstance

/-- Non-vacuity. -/
example : ∃ u, update c!"PREFIX : <x> LOAD SILENT <a> INTO GRAPH <b> ; CLEAR NAMED ; COPY DEFAULT TO <c>" =
    .ok [] u := ⟨_, rfl⟩
example : ∃ u, update c!"INSERT DATA { <s> <p> 1 . GRAPH <g> { <s> a <o> } }" = .ok [] u := ⟨_, rfl⟩

/-- A modification whose DELETE clause is returned although the text says `offset`. -/
theorem C09_delete_violated : ∃ m, update c!"OFFSET { } USING <g> WHERE {}" =
    .ok [] (.mk { decls := [] } (some (.modify m)) none) ∧
    m.deleteInsert = .deleteInsert { firstTriple := none, entries := [] } none := ⟨_, rfl, rfl⟩

/-- A modification whose graph is returned although the text says `where`. -/
theorem C09_with_violated : ∃ m, update c!"WHERE<w> INSERT { } USING <g> WHERE {}" =
    .ok [] (.mk { decls := [] } (some (.modify m)) none) ∧ m.iri = some (.iri ['w']) := ⟨_, rfl, rfl⟩

/-! ## C10 -/

/-- The four query forms. -/
inductive Form | select | construct | describe | ask
  deriving DecidableEq

def formOf : SparqlQuery → Form
  | .select _ => .select
  | .construct _ => .construct
  | .describe _ => .describe
  | .ask _ => .ask

def formKeyword : Form → Str
  | .select => c!"select"
  | .construct => c!"construct"
  | .describe => c!"describe"
  | .ask => c!"ask"

theorem form_leads {q : SparqlQuery} {s : Str} (h : rSparqlQuery q s) :
    ∃ k s', s = k ++ s' ∧ CaseVariant (formKeyword (formOf q)) k := by
  cases q with
  | select q =>
    obtain ⟨a, b, rfl, h, _⟩ := h
    obtain ⟨sc, _, _, _⟩ := q
    obtain ⟨_, _⟩ := sc
    obtain ⟨c, d, rfl, h, _⟩ := h
    exact ⟨c, d ++ b, by simp, h⟩
  | construct q => cases q <;> (obtain ⟨a, b, rfl, h, _⟩ := h; exact ⟨a, b, rfl, h⟩)
  | describe q => obtain ⟨a, b, rfl, h, _⟩ := h; exact ⟨a, b, rfl, h⟩
  | ask q => obtain ⟨a, b, rfl, h, _⟩ := h; exact ⟨a, b, rfl, h⟩

theorem sameLetter_clash {x x' y : Char} (h : SameLetter x y) (h' : SameLetter x' y)
    (hne : x ≠ x') (hx : ¬ (0x41 ≤ x.toNat ∧ x.toNat ≤ 0x5A)) (hx' : ¬ (0x41 ≤ x'.toNat ∧ x'.toNat ≤ 0x5A)) :
    False := hne (sameLetter_unique h h' hx hx')

theorem form_unique {f g : Form} {k k' s s' : Str} (h : CaseVariant (formKeyword f) k)
    (h' : CaseVariant (formKeyword g) k') (e : k ++ s = k' ++ s') : f = g := by
  have key : ∀ {x t x' t'}, CaseVariant (x :: t) k → CaseVariant (x' :: t') k' →
      ¬ (0x41 ≤ x.toNat ∧ x.toNat ≤ 0x5A) → ¬ (0x41 ≤ x'.toNat ∧ x'.toNat ≤ 0x5A) → x = x' := by
    intro x t x' t' h h' hx hx'
    obtain ⟨y, _, rfl, h1, _⟩ := CaseVariant.cons_iff.mp h
    obtain ⟨y', _, rfl, h2, _⟩ := CaseVariant.cons_iff.mp h'
    simp only [List.cons_append, List.cons.injEq] at e
    rw [← e.1] at h2
    exact sameLetter_unique h1 h2 hx hx'
  cases f <;> cases g <;> first
    | rfl
    | (have := key h h' (by decide) (by decide); revert this; decide)

/-- An accepted query starts with the keyword of the form that is returned. -/
theorem C10_form (i rest : Str) (q : SparqlQuery) (h : sparqlQuery i = .ok rest q) :
    ∃ k s, i = k ++ s ∧ CaseVariant (formKeyword (formOf q)) k := by
  obtain ⟨c, rfl, h'⟩ := Sound.out h
  obtain ⟨k, s, rfl, h2⟩ := form_leads h'
  exact ⟨k, s ++ rest, by simp, h2⟩

/-- Exactly: a text that starts with the keyword of form `f` is either rejected or returned as form `f`. -/
theorem C10_exactly (f : Form) (k s rest : Str) (q : SparqlQuery) (hk : CaseVariant (formKeyword f) k)
    (h : sparqlQuery (k ++ s) = .ok rest q) : formOf q = f := by
  obtain ⟨k', s', e, h'⟩ := C10_form _ _ _ h
  exact form_unique h' hk e.symm

/-- The same for the statement: the form keyword comes right after prologue and white space. -/
theorem C10_statement (i rest : Str) (q : SparqlQueryStatement) (h : sparqlQueryStmt i = .ok rest q) :
    ∃ p w k s, i = p ++ (w ++ (k ++ s)) ∧ rPrologue q.prologue p ∧ Ws w ∧
      CaseVariant (formKeyword (formOf q.query)) k := by
  obtain ⟨c, rfl, h'⟩ := Sound.out h
  obtain ⟨p, _, rfl, hp, w, _, rfl, hw, t, v, rfl, ht, _⟩ := h'
  obtain ⟨k, s, rfl, h2⟩ := form_leads ht
  exact ⟨p, w, k, s ++ (v ++ rest), by simp, hp, hw, h2⟩

/-- Non-vacuity: every form occurs. -/
example : ∃ q, sparqlQuery c!"SELECT * {}" = .ok [] q ∧ formOf q = .select := ⟨_, rfl, rfl⟩
example : ∃ q, sparqlQuery c!"CONSTRUCT {?s a ?o} {}" = .ok [] q ∧ formOf q = .construct := ⟨_, rfl, rfl⟩
example : ∃ q, sparqlQuery c!"DESCRIBE * " = .ok [] q ∧ formOf q = .describe := ⟨_, rfl, rfl⟩
example : ∃ q, sparqlQuery c!"ASK {}" = .ok [] q ∧ formOf q = .ask := ⟨_, rfl, rfl⟩

end NomSparql
