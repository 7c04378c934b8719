import Verif.Lemmas.Instances

/-!
# C01 – C04: remainders, error positions, termination, progress

`List.IsSuffix` (`<:+`) is core's "is a suffix of".
-/

namespace NomSparql

/-! ## C01 -/

/-- Successful results of `p` leave a suffix of the input. -/
def RemainderIsSuffix (p : P α) : Prop := ∀ i rest a, p i = .ok rest a → rest <:+ i

theorem remainderIsSuffix_of_good {p : P α} (_ : Good p) : RemainderIsSuffix p :=
  fun _ _ _ h => Good.ok h

theorem C01_sparqlQueryStmt : RemainderIsSuffix sparqlQueryStmt := remainderIsSuffix_of_good inferInstance
theorem C01_sparqlQuery : RemainderIsSuffix sparqlQuery := remainderIsSuffix_of_good inferInstance
theorem C01_selectQuery : RemainderIsSuffix selectQuery := remainderIsSuffix_of_good inferInstance
theorem C01_constructQuery : RemainderIsSuffix constructQuery := remainderIsSuffix_of_good inferInstance
theorem C01_describeQuery : RemainderIsSuffix describeQuery := remainderIsSuffix_of_good inferInstance
theorem C01_askQuery : RemainderIsSuffix askQuery := remainderIsSuffix_of_good inferInstance
theorem C01_subTriples : RemainderIsSuffix subTriples := remainderIsSuffix_of_good inferInstance
theorem C01_subConstruct : RemainderIsSuffix subConstruct := remainderIsSuffix_of_good inferInstance
theorem C01_update : RemainderIsSuffix update := remainderIsSuffix_of_good inferInstance

/-- Non-vacuity: an accepted query with a non-empty remainder. -/
example : ∃ a, sparqlQueryStmt c!"ask {} tail" = .ok c!"tail" a := ⟨_, rfl⟩
example : ∃ a, update c!"clear all ; drop default x" = .ok c!" x" a := ⟨_, rfl⟩

/-! ## C02 -/

/-- Positions in errors and failures of `p` are suffixes of the input. -/
def ErrorPosIsSuffix (p : P α) : Prop :=
  ∀ i pos k, (p i = .err (.error pos k) ∨ p i = .err (.failure pos k)) → pos <:+ i

theorem errorPosIsSuffix_of_good {p : P α} (_ : Good p) : ErrorPosIsSuffix p :=
  fun _ _ _ h => h.elim Good.error Good.failure

theorem C02_sparqlQueryStmt : ErrorPosIsSuffix sparqlQueryStmt := errorPosIsSuffix_of_good inferInstance
theorem C02_sparqlQuery : ErrorPosIsSuffix sparqlQuery := errorPosIsSuffix_of_good inferInstance
theorem C02_selectQuery : ErrorPosIsSuffix selectQuery := errorPosIsSuffix_of_good inferInstance
theorem C02_constructQuery : ErrorPosIsSuffix constructQuery := errorPosIsSuffix_of_good inferInstance
theorem C02_describeQuery : ErrorPosIsSuffix describeQuery := errorPosIsSuffix_of_good inferInstance
theorem C02_askQuery : ErrorPosIsSuffix askQuery := errorPosIsSuffix_of_good inferInstance
theorem C02_subTriples : ErrorPosIsSuffix subTriples := errorPosIsSuffix_of_good inferInstance
theorem C02_subConstruct : ErrorPosIsSuffix subConstruct := errorPosIsSuffix_of_good inferInstance
theorem C02_update : ErrorPosIsSuffix update := errorPosIsSuffix_of_good inferInstance

/-- Non-vacuity: an error inside the input, and a failure inside the input. -/
example : askQuery c!"ask {" = .err (.error [] .Char) := rfl
example : askQuery c!"ask { ?s ?p ( 1 ) }" = .err (.failure c!"1 ) }" .Char) := rfl

/-! ## C03 -/

/-- `fuel` is the model's "recursion or loop budget exhausted".  No parser reaches it. -/
def NeverExhausted (p : P α) : Prop := ∀ i, p i ≠ .err .fuel

theorem C03_sparqlQueryStmt : NeverExhausted sparqlQueryStmt := NoFuel.out
theorem C03_sparqlQuery : NeverExhausted sparqlQuery := NoFuel.out
theorem C03_selectQuery : NeverExhausted selectQuery := NoFuel.out
theorem C03_constructQuery : NeverExhausted constructQuery := NoFuel.out
theorem C03_describeQuery : NeverExhausted describeQuery := NoFuel.out
theorem C03_askQuery : NeverExhausted askQuery := NoFuel.out
theorem C03_update : NeverExhausted update := NoFuel.out

/-- Any budget above the input length gives the result of the closed parser: nesting of the
recursive calls never exceeds `length + 1`. -/
theorem C03_budget (i : Input) (n : Nat) (h : i.length < n) :
    (recF n).expr i = expression i ∧
    (recF n).ggp i = groupGraphPattern i ∧
    graphNodeF n i = graphNode i ∧
    graphNodePathF n i = graphNodePath i ∧
    pathAlternativeF n i = pathAlternative i ∧
    updateF n i = update i :=
  ⟨(expression_eq_F n i h).1, (groupGraphPattern_eq_F n i h).1, (graphNode_eq_F n i h).1,
   (graphNodePath_eq_F n i h).1, (pathAlternative_eq_F n i h).1, (update_eq_F n i h).1⟩

/-- The closed parsers satisfy the (budget-free) recursive equations of the Rust source. -/
theorem C03_equations :
    expression = expressionStep R₀ ∧
    groupGraphPattern = groupGraphPatternStep R₀ ∧
    graphNode = graphNodeStep graphNode ∧
    graphNodePath = graphNodePathStep graphNodePath ∧
    pathAlternative = pathAlternativeStep pathAlternative ∧
    update = updateStep update :=
  ⟨expression_eq, groupGraphPattern_eq, graphNode_eq, graphNodePath_eq, pathAlternative_eq, update_eq⟩

/-- Non-vacuity: too small a budget is visible. -/
example : updateF 1 c!"clear all;clear all" = .err .fuel := rfl
example : updateF 2 c!"clear all;clear all" ≠ .err .fuel := by
  intro h; have : updateF 2 c!"clear all;clear all" = .ok _ _ := rfl; simp [this] at h

/-! ## C04 -/

/-- Successful parses make progress. -/
def MakesProgress (p : P α) : Prop := ∀ i rest a, p i = .ok rest a → rest.length < i.length

theorem C04_sparqlQueryStmt : MakesProgress sparqlQueryStmt := Consumes.out
theorem C04_sparqlQuery : MakesProgress sparqlQuery := Consumes.out
theorem C04_constructQuery : MakesProgress constructQuery := Consumes.out
theorem C04_describeQuery : MakesProgress describeQuery := Consumes.out
theorem C04_askQuery : MakesProgress askQuery := Consumes.out
theorem C04_updateStmt : MakesProgress updateStmt := Consumes.out

/-- `update` itself accepts the empty request (so it is not in the list above). -/
theorem C04_update_empty : update [] = .ok [] (.mk ⟨[]⟩ none none) := rfl

example : ∃ a, sparqlQuery c!"ask {}" = .ok [] a := ⟨_, rfl⟩

end NomSparql
