import Verif.Model.Equal
import Verif.Spec.Renumber

/-!
# `==` compares the trees after replacing the numbers by what `==` sees of them
-/

namespace NomSparql

theorem rsEqList_iff {e : α → α → Bool} {g : α → β} (h : ∀ a b, e a b = true ↔ g a = g b) : ∀ l m : List α, rsEqList e l m = true ↔ l.map g = m.map g
  | [], m => by cases m <;> simp [rsEqList]
  | a :: l, m => by cases m <;> simp [rsEqList, h a, rsEqList_iff h l]

theorem rsEqOption_iff {e : α → α → Bool} {g : α → β} (h : ∀ a b, e a b = true ↔ g a = g b) (l m : Option α) :
    rsEqOption e l m = true ↔ l.map g = m.map g := by
  cases l <;> cases m <;> simp [rsEqOption, h]

attribute [-simp] renumListGraphNode_eq renumListVerbList_eq renumListPathSequence_eq renumListPathEltOrInverse_eq renumListGraphNodePath_eq renumListConditionalAndExpression_eq renumListRelationalExpression_eq renumOptionOpExpression_eq renumListAddExpression_eq renumListMultExpression_eq renumListExpression_eq renumOptionArgList_eq renumOptionExpression_eq renumListGraphPatternAndTriples_eq renumListGroupGraphPattern_eq renumListVarOrExpressionAsVar_eq renumOptionOrderClause_eq renumOptionGroupClause_eq renumOptionHavingClause_eq renumListConstraint_eq renumListOrderCondition_eq renumListGroupCondition_eq

theorem rsEqGraphTerm_iri {f : NumericLiteral → NumericLiteral} (a0 : Iri) (y : GraphTerm) :
    rsEqGraphTerm (GraphTerm.iri a0) y = true ↔ renumGraphTerm f (GraphTerm.iri a0) = renumGraphTerm f y := by
  have e : ∀ b0, rsEqGraphTerm (GraphTerm.iri a0) (GraphTerm.iri b0) = (a0 == b0) := fun _ => rfl
  have e' : ∀ b0, renumGraphTerm f (GraphTerm.iri b0) = GraphTerm.iri b0 := fun _ => rfl
  refine ⟨fun h => ?_, fun h => ?_⟩
  · cases y <;> first | exact absurd (show false = true from h) Bool.false_ne_true | (rw [e] at h; rw [e', e']; simpa using h)
  · cases y <;> first | (rw [e', e'] at h; rw [e]; simpa using h) | injection h
theorem rsEqGraphTerm_rdfLiteral {f : NumericLiteral → NumericLiteral} (a0 : RdfLiteral) (y : GraphTerm) :
    rsEqGraphTerm (GraphTerm.rdfLiteral a0) y = true ↔ renumGraphTerm f (GraphTerm.rdfLiteral a0) = renumGraphTerm f y := by
  have e : ∀ b0, rsEqGraphTerm (GraphTerm.rdfLiteral a0) (GraphTerm.rdfLiteral b0) = (a0 == b0) := fun _ => rfl
  have e' : ∀ b0, renumGraphTerm f (GraphTerm.rdfLiteral b0) = GraphTerm.rdfLiteral b0 := fun _ => rfl
  refine ⟨fun h => ?_, fun h => ?_⟩
  · cases y <;> first | exact absurd (show false = true from h) Bool.false_ne_true | (rw [e] at h; rw [e', e']; simpa using h)
  · cases y <;> first | (rw [e', e'] at h; rw [e]; simpa using h) | injection h
theorem rsEqGraphTerm_numericLiteral {f : NumericLiteral → NumericLiteral} (a0 : NumericLiteral) (h0 : ∀ b, NumericLiteral.rustEq a0 b = true ↔ f a0 = f b) (y : GraphTerm) :
    rsEqGraphTerm (GraphTerm.numericLiteral a0) y = true ↔ renumGraphTerm f (GraphTerm.numericLiteral a0) = renumGraphTerm f y := by
  have e : ∀ b0, rsEqGraphTerm (GraphTerm.numericLiteral a0) (GraphTerm.numericLiteral b0) = (NumericLiteral.rustEq a0 b0) := fun _ => rfl
  have e' : ∀ b0, renumGraphTerm f (GraphTerm.numericLiteral b0) = GraphTerm.numericLiteral (f b0) := fun _ => rfl
  refine ⟨fun h => ?_, fun h => ?_⟩
  · cases y <;> first | exact absurd (show false = true from h) Bool.false_ne_true | (rw [e] at h; rw [e', e']; simpa [h0] using h)
  · cases y <;> first | (rw [e', e'] at h; rw [e]; simpa [h0] using h) | injection h
theorem rsEqGraphTerm_booleanLiteral {f : NumericLiteral → NumericLiteral} (a0 : Bool) (y : GraphTerm) :
    rsEqGraphTerm (GraphTerm.booleanLiteral a0) y = true ↔ renumGraphTerm f (GraphTerm.booleanLiteral a0) = renumGraphTerm f y := by
  have e : ∀ b0, rsEqGraphTerm (GraphTerm.booleanLiteral a0) (GraphTerm.booleanLiteral b0) = (a0 == b0) := fun _ => rfl
  have e' : ∀ b0, renumGraphTerm f (GraphTerm.booleanLiteral b0) = GraphTerm.booleanLiteral b0 := fun _ => rfl
  refine ⟨fun h => ?_, fun h => ?_⟩
  · cases y <;> first | exact absurd (show false = true from h) Bool.false_ne_true | (rw [e] at h; rw [e', e']; simpa using h)
  · cases y <;> first | (rw [e', e'] at h; rw [e]; simpa using h) | injection h
theorem rsEqGraphTerm_blankNode {f : NumericLiteral → NumericLiteral} (a0 : BlankNode) (y : GraphTerm) :
    rsEqGraphTerm (GraphTerm.blankNode a0) y = true ↔ renumGraphTerm f (GraphTerm.blankNode a0) = renumGraphTerm f y := by
  have e : ∀ b0, rsEqGraphTerm (GraphTerm.blankNode a0) (GraphTerm.blankNode b0) = (a0 == b0) := fun _ => rfl
  have e' : ∀ b0, renumGraphTerm f (GraphTerm.blankNode b0) = GraphTerm.blankNode b0 := fun _ => rfl
  refine ⟨fun h => ?_, fun h => ?_⟩
  · cases y <;> first | exact absurd (show false = true from h) Bool.false_ne_true | (rw [e] at h; rw [e', e']; simpa using h)
  · cases y <;> first | (rw [e', e'] at h; rw [e]; simpa using h) | injection h
theorem rsEqGraphTerm_nil {f : NumericLiteral → NumericLiteral}  (y : GraphTerm) :
    rsEqGraphTerm (GraphTerm.nil) y = true ↔ renumGraphTerm f (GraphTerm.nil) = renumGraphTerm f y := by
  have e : rsEqGraphTerm (GraphTerm.nil) (GraphTerm.nil) = (true) := rfl
  have e' : renumGraphTerm f (GraphTerm.nil) = GraphTerm.nil := rfl
  refine ⟨fun h => ?_, fun h => ?_⟩
  · cases y <;> first | exact absurd (show false = true from h) Bool.false_ne_true | rfl
  · cases y <;> first | exact e | injection h
theorem rsEqGraphTerm_iff {f : NumericLiteral → NumericLiteral} (hf : ∀ a b, NumericLiteral.rustEq a b = true ↔ f a = f b) :
    ∀ a b : GraphTerm, rsEqGraphTerm a b = true ↔ renumGraphTerm f a = renumGraphTerm f b
  | .iri a0, y => rsEqGraphTerm_iri a0 y
  | .rdfLiteral a0, y => rsEqGraphTerm_rdfLiteral a0 y
  | .numericLiteral a0, y => rsEqGraphTerm_numericLiteral a0 (hf a0) y
  | .booleanLiteral a0, y => rsEqGraphTerm_booleanLiteral a0 y
  | .blankNode a0, y => rsEqGraphTerm_blankNode a0 y
  | .nil, y => rsEqGraphTerm_nil  y
theorem rsEqVarOrTerm_var {f : NumericLiteral → NumericLiteral} (a0 : Var) (y : VarOrTerm) :
    rsEqVarOrTerm (VarOrTerm.var a0) y = true ↔ renumVarOrTerm f (VarOrTerm.var a0) = renumVarOrTerm f y := by
  have e : ∀ b0, rsEqVarOrTerm (VarOrTerm.var a0) (VarOrTerm.var b0) = (a0 == b0) := fun _ => rfl
  have e' : ∀ b0, renumVarOrTerm f (VarOrTerm.var b0) = VarOrTerm.var b0 := fun _ => rfl
  refine ⟨fun h => ?_, fun h => ?_⟩
  · cases y <;> first | exact absurd (show false = true from h) Bool.false_ne_true | (rw [e] at h; rw [e', e']; simpa using h)
  · cases y <;> first | (rw [e', e'] at h; rw [e]; simpa using h) | injection h
theorem rsEqVarOrTerm_term {f : NumericLiteral → NumericLiteral} (a0 : GraphTerm) (h0 : ∀ b, rsEqGraphTerm a0 b = true ↔ (renumGraphTerm f) a0 = (renumGraphTerm f) b) (y : VarOrTerm) :
    rsEqVarOrTerm (VarOrTerm.term a0) y = true ↔ renumVarOrTerm f (VarOrTerm.term a0) = renumVarOrTerm f y := by
  have e : ∀ b0, rsEqVarOrTerm (VarOrTerm.term a0) (VarOrTerm.term b0) = (rsEqGraphTerm a0 b0) := fun _ => rfl
  have e' : ∀ b0, renumVarOrTerm f (VarOrTerm.term b0) = VarOrTerm.term (renumGraphTerm f b0) := fun _ => rfl
  refine ⟨fun h => ?_, fun h => ?_⟩
  · cases y <;> first | exact absurd (show false = true from h) Bool.false_ne_true | (rw [e] at h; rw [e', e']; simpa [h0] using h)
  · cases y <;> first | (rw [e', e'] at h; rw [e]; simpa [h0] using h) | injection h
theorem rsEqVarOrTerm_iff {f : NumericLiteral → NumericLiteral} (hf : ∀ a b, NumericLiteral.rustEq a b = true ↔ f a = f b) :
    ∀ a b : VarOrTerm, rsEqVarOrTerm a b = true ↔ renumVarOrTerm f a = renumVarOrTerm f b
  | .var a0, y => rsEqVarOrTerm_var a0 y
  | .term a0, y => rsEqVarOrTerm_term a0 (rsEqGraphTerm_iff hf a0) y
theorem rsEqDataBlockValue_iri {f : NumericLiteral → NumericLiteral} (a0 : Iri) (y : DataBlockValue) :
    rsEqDataBlockValue (DataBlockValue.iri a0) y = true ↔ renumDataBlockValue f (DataBlockValue.iri a0) = renumDataBlockValue f y := by
  have e : ∀ b0, rsEqDataBlockValue (DataBlockValue.iri a0) (DataBlockValue.iri b0) = (a0 == b0) := fun _ => rfl
  have e' : ∀ b0, renumDataBlockValue f (DataBlockValue.iri b0) = DataBlockValue.iri b0 := fun _ => rfl
  refine ⟨fun h => ?_, fun h => ?_⟩
  · cases y <;> first | exact absurd (show false = true from h) Bool.false_ne_true | (rw [e] at h; rw [e', e']; simpa using h)
  · cases y <;> first | (rw [e', e'] at h; rw [e]; simpa using h) | injection h
theorem rsEqDataBlockValue_rdfLiteral {f : NumericLiteral → NumericLiteral} (a0 : RdfLiteral) (y : DataBlockValue) :
    rsEqDataBlockValue (DataBlockValue.rdfLiteral a0) y = true ↔ renumDataBlockValue f (DataBlockValue.rdfLiteral a0) = renumDataBlockValue f y := by
  have e : ∀ b0, rsEqDataBlockValue (DataBlockValue.rdfLiteral a0) (DataBlockValue.rdfLiteral b0) = (a0 == b0) := fun _ => rfl
  have e' : ∀ b0, renumDataBlockValue f (DataBlockValue.rdfLiteral b0) = DataBlockValue.rdfLiteral b0 := fun _ => rfl
  refine ⟨fun h => ?_, fun h => ?_⟩
  · cases y <;> first | exact absurd (show false = true from h) Bool.false_ne_true | (rw [e] at h; rw [e', e']; simpa using h)
  · cases y <;> first | (rw [e', e'] at h; rw [e]; simpa using h) | injection h
theorem rsEqDataBlockValue_numericLiteral {f : NumericLiteral → NumericLiteral} (a0 : NumericLiteral) (h0 : ∀ b, NumericLiteral.rustEq a0 b = true ↔ f a0 = f b) (y : DataBlockValue) :
    rsEqDataBlockValue (DataBlockValue.numericLiteral a0) y = true ↔ renumDataBlockValue f (DataBlockValue.numericLiteral a0) = renumDataBlockValue f y := by
  have e : ∀ b0, rsEqDataBlockValue (DataBlockValue.numericLiteral a0) (DataBlockValue.numericLiteral b0) = (NumericLiteral.rustEq a0 b0) := fun _ => rfl
  have e' : ∀ b0, renumDataBlockValue f (DataBlockValue.numericLiteral b0) = DataBlockValue.numericLiteral (f b0) := fun _ => rfl
  refine ⟨fun h => ?_, fun h => ?_⟩
  · cases y <;> first | exact absurd (show false = true from h) Bool.false_ne_true | (rw [e] at h; rw [e', e']; simpa [h0] using h)
  · cases y <;> first | (rw [e', e'] at h; rw [e]; simpa [h0] using h) | injection h
theorem rsEqDataBlockValue_booleanLiteral {f : NumericLiteral → NumericLiteral} (a0 : Bool) (y : DataBlockValue) :
    rsEqDataBlockValue (DataBlockValue.booleanLiteral a0) y = true ↔ renumDataBlockValue f (DataBlockValue.booleanLiteral a0) = renumDataBlockValue f y := by
  have e : ∀ b0, rsEqDataBlockValue (DataBlockValue.booleanLiteral a0) (DataBlockValue.booleanLiteral b0) = (a0 == b0) := fun _ => rfl
  have e' : ∀ b0, renumDataBlockValue f (DataBlockValue.booleanLiteral b0) = DataBlockValue.booleanLiteral b0 := fun _ => rfl
  refine ⟨fun h => ?_, fun h => ?_⟩
  · cases y <;> first | exact absurd (show false = true from h) Bool.false_ne_true | (rw [e] at h; rw [e', e']; simpa using h)
  · cases y <;> first | (rw [e', e'] at h; rw [e]; simpa using h) | injection h
theorem rsEqDataBlockValue_undef {f : NumericLiteral → NumericLiteral}  (y : DataBlockValue) :
    rsEqDataBlockValue (DataBlockValue.undef) y = true ↔ renumDataBlockValue f (DataBlockValue.undef) = renumDataBlockValue f y := by
  have e : rsEqDataBlockValue (DataBlockValue.undef) (DataBlockValue.undef) = (true) := rfl
  have e' : renumDataBlockValue f (DataBlockValue.undef) = DataBlockValue.undef := rfl
  refine ⟨fun h => ?_, fun h => ?_⟩
  · cases y <;> first | exact absurd (show false = true from h) Bool.false_ne_true | rfl
  · cases y <;> first | exact e | injection h
theorem rsEqDataBlockValue_iff {f : NumericLiteral → NumericLiteral} (hf : ∀ a b, NumericLiteral.rustEq a b = true ↔ f a = f b) :
    ∀ a b : DataBlockValue, rsEqDataBlockValue a b = true ↔ renumDataBlockValue f a = renumDataBlockValue f b
  | .iri a0, y => rsEqDataBlockValue_iri a0 y
  | .rdfLiteral a0, y => rsEqDataBlockValue_rdfLiteral a0 y
  | .numericLiteral a0, y => rsEqDataBlockValue_numericLiteral a0 (hf a0) y
  | .booleanLiteral a0, y => rsEqDataBlockValue_booleanLiteral a0 y
  | .undef, y => rsEqDataBlockValue_undef  y
theorem rsEqInlineDataOneVar_mk {f : NumericLiteral → NumericLiteral} (a0 : Var) (a1 : List DataBlockValue) (h1 : ∀ b, (rsEqList rsEqDataBlockValue) a1 b = true ↔ (List.map (renumDataBlockValue f)) a1 = (List.map (renumDataBlockValue f)) b) (y : InlineDataOneVar) :
    rsEqInlineDataOneVar (InlineDataOneVar.mk a0 a1) y = true ↔ renumInlineDataOneVar f (InlineDataOneVar.mk a0 a1) = renumInlineDataOneVar f y := by
  have e : ∀ b0 b1, rsEqInlineDataOneVar (InlineDataOneVar.mk a0 a1) (InlineDataOneVar.mk b0 b1) = (a0 == b0 && rsEqList rsEqDataBlockValue a1 b1) := fun _ _ => rfl
  have e' : ∀ b0 b1, renumInlineDataOneVar f (InlineDataOneVar.mk b0 b1) = InlineDataOneVar.mk b0 (List.map (renumDataBlockValue f) b1) := fun _ _ => rfl
  cases y
  rw [e, e', e']
  simp [h1]
theorem rsEqInlineDataOneVar_iff {f : NumericLiteral → NumericLiteral} (hf : ∀ a b, NumericLiteral.rustEq a b = true ↔ f a = f b) :
    ∀ a b : InlineDataOneVar, rsEqInlineDataOneVar a b = true ↔ renumInlineDataOneVar f a = renumInlineDataOneVar f b
  | ⟨a0, a1⟩, y => rsEqInlineDataOneVar_mk a0 a1 (rsEqList_iff (rsEqDataBlockValue_iff hf) a1) y
theorem rsEqInlineDataFull_mk {f : NumericLiteral → NumericLiteral} (a0 : List Var) (a1 : List (List DataBlockValue)) (h1 : ∀ b, (rsEqList (rsEqList rsEqDataBlockValue)) a1 b = true ↔ (List.map (List.map (renumDataBlockValue f))) a1 = (List.map (List.map (renumDataBlockValue f))) b) (y : InlineDataFull) :
    rsEqInlineDataFull (InlineDataFull.mk a0 a1) y = true ↔ renumInlineDataFull f (InlineDataFull.mk a0 a1) = renumInlineDataFull f y := by
  have e : ∀ b0 b1, rsEqInlineDataFull (InlineDataFull.mk a0 a1) (InlineDataFull.mk b0 b1) = (a0 == b0 && rsEqList (rsEqList rsEqDataBlockValue) a1 b1) := fun _ _ => rfl
  have e' : ∀ b0 b1, renumInlineDataFull f (InlineDataFull.mk b0 b1) = InlineDataFull.mk b0 (List.map (List.map (renumDataBlockValue f)) b1) := fun _ _ => rfl
  cases y
  rw [e, e', e']
  simp [h1]
theorem rsEqInlineDataFull_iff {f : NumericLiteral → NumericLiteral} (hf : ∀ a b, NumericLiteral.rustEq a b = true ↔ f a = f b) :
    ∀ a b : InlineDataFull, rsEqInlineDataFull a b = true ↔ renumInlineDataFull f a = renumInlineDataFull f b
  | ⟨a0, a1⟩, y => rsEqInlineDataFull_mk a0 a1 (rsEqList_iff (rsEqList_iff (rsEqDataBlockValue_iff hf)) a1) y
theorem rsEqDataBlock_inlineDataOneVar {f : NumericLiteral → NumericLiteral} (a0 : InlineDataOneVar) (h0 : ∀ b, rsEqInlineDataOneVar a0 b = true ↔ (renumInlineDataOneVar f) a0 = (renumInlineDataOneVar f) b) (y : DataBlock) :
    rsEqDataBlock (DataBlock.inlineDataOneVar a0) y = true ↔ renumDataBlock f (DataBlock.inlineDataOneVar a0) = renumDataBlock f y := by
  have e : ∀ b0, rsEqDataBlock (DataBlock.inlineDataOneVar a0) (DataBlock.inlineDataOneVar b0) = (rsEqInlineDataOneVar a0 b0) := fun _ => rfl
  have e' : ∀ b0, renumDataBlock f (DataBlock.inlineDataOneVar b0) = DataBlock.inlineDataOneVar (renumInlineDataOneVar f b0) := fun _ => rfl
  refine ⟨fun h => ?_, fun h => ?_⟩
  · cases y <;> first | exact absurd (show false = true from h) Bool.false_ne_true | (rw [e] at h; rw [e', e']; simpa [h0] using h)
  · cases y <;> first | (rw [e', e'] at h; rw [e]; simpa [h0] using h) | injection h
theorem rsEqDataBlock_inlineDataFull {f : NumericLiteral → NumericLiteral} (a0 : InlineDataFull) (h0 : ∀ b, rsEqInlineDataFull a0 b = true ↔ (renumInlineDataFull f) a0 = (renumInlineDataFull f) b) (y : DataBlock) :
    rsEqDataBlock (DataBlock.inlineDataFull a0) y = true ↔ renumDataBlock f (DataBlock.inlineDataFull a0) = renumDataBlock f y := by
  have e : ∀ b0, rsEqDataBlock (DataBlock.inlineDataFull a0) (DataBlock.inlineDataFull b0) = (rsEqInlineDataFull a0 b0) := fun _ => rfl
  have e' : ∀ b0, renumDataBlock f (DataBlock.inlineDataFull b0) = DataBlock.inlineDataFull (renumInlineDataFull f b0) := fun _ => rfl
  refine ⟨fun h => ?_, fun h => ?_⟩
  · cases y <;> first | exact absurd (show false = true from h) Bool.false_ne_true | (rw [e] at h; rw [e', e']; simpa [h0] using h)
  · cases y <;> first | (rw [e', e'] at h; rw [e]; simpa [h0] using h) | injection h
theorem rsEqDataBlock_iff {f : NumericLiteral → NumericLiteral} (hf : ∀ a b, NumericLiteral.rustEq a b = true ↔ f a = f b) :
    ∀ a b : DataBlock, rsEqDataBlock a b = true ↔ renumDataBlock f a = renumDataBlock f b
  | .inlineDataOneVar a0, y => rsEqDataBlock_inlineDataOneVar a0 (rsEqInlineDataOneVar_iff hf a0) y
  | .inlineDataFull a0, y => rsEqDataBlock_inlineDataFull a0 (rsEqInlineDataFull_iff hf a0) y
theorem rsEqGraphNode_varOrTerm {f : NumericLiteral → NumericLiteral} (a0 : VarOrTerm) (h0 : ∀ b, rsEqVarOrTerm a0 b = true ↔ (renumVarOrTerm f) a0 = (renumVarOrTerm f) b) (y : GraphNode) :
    rsEqGraphNode (GraphNode.varOrTerm a0) y = true ↔ renumGraphNode f (GraphNode.varOrTerm a0) = renumGraphNode f y := by
  have e : ∀ b0, rsEqGraphNode (GraphNode.varOrTerm a0) (GraphNode.varOrTerm b0) = (rsEqVarOrTerm a0 b0) := fun _ => rfl
  have e' : ∀ b0, renumGraphNode f (GraphNode.varOrTerm b0) = GraphNode.varOrTerm (renumVarOrTerm f b0) := fun _ => rfl
  refine ⟨fun h => ?_, fun h => ?_⟩
  · cases y <;> first | exact absurd (show false = true from h) Bool.false_ne_true | (rw [e] at h; rw [e', e']; simpa [h0] using h)
  · cases y <;> first | (rw [e', e'] at h; rw [e]; simpa [h0] using h) | injection h
theorem rsEqGraphNode_triplesNode {f : NumericLiteral → NumericLiteral} (a0 : TriplesNode) (h0 : ∀ b, rsEqTriplesNode a0 b = true ↔ (renumTriplesNode f) a0 = (renumTriplesNode f) b) (y : GraphNode) :
    rsEqGraphNode (GraphNode.triplesNode a0) y = true ↔ renumGraphNode f (GraphNode.triplesNode a0) = renumGraphNode f y := by
  have e : ∀ b0, rsEqGraphNode (GraphNode.triplesNode a0) (GraphNode.triplesNode b0) = (rsEqTriplesNode a0 b0) := fun _ => rfl
  have e' : ∀ b0, renumGraphNode f (GraphNode.triplesNode b0) = GraphNode.triplesNode (renumTriplesNode f b0) := fun _ => rfl
  refine ⟨fun h => ?_, fun h => ?_⟩
  · cases y <;> first | exact absurd (show false = true from h) Bool.false_ne_true | (rw [e] at h; rw [e', e']; simpa [h0] using h)
  · cases y <;> first | (rw [e', e'] at h; rw [e]; simpa [h0] using h) | injection h
theorem rsEqTriplesNode_collection {f : NumericLiteral → NumericLiteral} (a0 : List GraphNode) (h0 : ∀ b, rsEqListGraphNode a0 b = true ↔ (renumListGraphNode f) a0 = (renumListGraphNode f) b) (y : TriplesNode) :
    rsEqTriplesNode (TriplesNode.collection a0) y = true ↔ renumTriplesNode f (TriplesNode.collection a0) = renumTriplesNode f y := by
  have e : ∀ b0, rsEqTriplesNode (TriplesNode.collection a0) (TriplesNode.collection b0) = (rsEqListGraphNode a0 b0) := fun _ => rfl
  have e' : ∀ b0, renumTriplesNode f (TriplesNode.collection b0) = TriplesNode.collection (renumListGraphNode f b0) := fun _ => rfl
  refine ⟨fun h => ?_, fun h => ?_⟩
  · cases y <;> first | exact absurd (show false = true from h) Bool.false_ne_true | (rw [e] at h; rw [e', e']; simpa [h0] using h)
  · cases y <;> first | (rw [e', e'] at h; rw [e]; simpa [h0] using h) | injection h
theorem rsEqTriplesNode_blankNodePropertyList {f : NumericLiteral → NumericLiteral} (a0 : PropertyList) (h0 : ∀ b, rsEqPropertyList a0 b = true ↔ (renumPropertyList f) a0 = (renumPropertyList f) b) (y : TriplesNode) :
    rsEqTriplesNode (TriplesNode.blankNodePropertyList a0) y = true ↔ renumTriplesNode f (TriplesNode.blankNodePropertyList a0) = renumTriplesNode f y := by
  have e : ∀ b0, rsEqTriplesNode (TriplesNode.blankNodePropertyList a0) (TriplesNode.blankNodePropertyList b0) = (rsEqPropertyList a0 b0) := fun _ => rfl
  have e' : ∀ b0, renumTriplesNode f (TriplesNode.blankNodePropertyList b0) = TriplesNode.blankNodePropertyList (renumPropertyList f b0) := fun _ => rfl
  refine ⟨fun h => ?_, fun h => ?_⟩
  · cases y <;> first | exact absurd (show false = true from h) Bool.false_ne_true | (rw [e] at h; rw [e', e']; simpa [h0] using h)
  · cases y <;> first | (rw [e', e'] at h; rw [e]; simpa [h0] using h) | injection h
theorem rsEqPropertyList_mk {f : NumericLiteral → NumericLiteral} (a0 : List VerbList) (h0 : ∀ b, rsEqListVerbList a0 b = true ↔ (renumListVerbList f) a0 = (renumListVerbList f) b) (y : PropertyList) :
    rsEqPropertyList (PropertyList.mk a0) y = true ↔ renumPropertyList f (PropertyList.mk a0) = renumPropertyList f y := by
  have e : ∀ b0, rsEqPropertyList (PropertyList.mk a0) (PropertyList.mk b0) = (rsEqListVerbList a0 b0) := fun _ => rfl
  have e' : ∀ b0, renumPropertyList f (PropertyList.mk b0) = PropertyList.mk (renumListVerbList f b0) := fun _ => rfl
  cases y
  rw [e, e', e']
  simp [h0]
theorem rsEqVerbList_mk {f : NumericLiteral → NumericLiteral} (a0 : Verb) (a1 : List GraphNode) (h1 : ∀ b, rsEqListGraphNode a1 b = true ↔ (renumListGraphNode f) a1 = (renumListGraphNode f) b) (y : VerbList) :
    rsEqVerbList (VerbList.mk a0 a1) y = true ↔ renumVerbList f (VerbList.mk a0 a1) = renumVerbList f y := by
  have e : ∀ b0 b1, rsEqVerbList (VerbList.mk a0 a1) (VerbList.mk b0 b1) = (a0 == b0 && rsEqListGraphNode a1 b1) := fun _ _ => rfl
  have e' : ∀ b0 b1, renumVerbList f (VerbList.mk b0 b1) = VerbList.mk b0 (renumListGraphNode f b1) := fun _ _ => rfl
  cases y
  rw [e, e', e']
  simp [h1]
theorem rsEqListGraphNode_nil {f : NumericLiteral → NumericLiteral} (y : List GraphNode) : rsEqListGraphNode [] y = true ↔ renumListGraphNode f [] = renumListGraphNode f y := by
  cases y <;> simp [rsEqListGraphNode, renumListGraphNode]
theorem rsEqListGraphNode_cons {f : NumericLiteral → NumericLiteral} (a : GraphNode) (ha : ∀ b, rsEqGraphNode a b = true ↔ (renumGraphNode f) a = (renumGraphNode f) b) (l : List GraphNode) (hl : ∀ b, rsEqListGraphNode l b = true ↔ renumListGraphNode f l = renumListGraphNode f b) (y : List GraphNode) :
    rsEqListGraphNode (a :: l) y = true ↔ renumListGraphNode f (a :: l) = renumListGraphNode f y := by
  cases y <;> simp [rsEqListGraphNode, renumListGraphNode, ha, hl]
theorem rsEqListVerbList_nil {f : NumericLiteral → NumericLiteral} (y : List VerbList) : rsEqListVerbList [] y = true ↔ renumListVerbList f [] = renumListVerbList f y := by
  cases y <;> simp [rsEqListVerbList, renumListVerbList]
theorem rsEqListVerbList_cons {f : NumericLiteral → NumericLiteral} (a : VerbList) (ha : ∀ b, rsEqVerbList a b = true ↔ (renumVerbList f) a = (renumVerbList f) b) (l : List VerbList) (hl : ∀ b, rsEqListVerbList l b = true ↔ renumListVerbList f l = renumListVerbList f b) (y : List VerbList) :
    rsEqListVerbList (a :: l) y = true ↔ renumListVerbList f (a :: l) = renumListVerbList f y := by
  cases y <;> simp [rsEqListVerbList, renumListVerbList, ha, hl]
mutual
theorem rsEqGraphNode_iff {f : NumericLiteral → NumericLiteral} (hf : ∀ a b, NumericLiteral.rustEq a b = true ↔ f a = f b) :
    ∀ a b : GraphNode, rsEqGraphNode a b = true ↔ renumGraphNode f a = renumGraphNode f b
  | .varOrTerm a0, y => rsEqGraphNode_varOrTerm a0 (rsEqVarOrTerm_iff hf a0) y
  | .triplesNode a0, y => rsEqGraphNode_triplesNode a0 (rsEqTriplesNode_iff hf a0) y
termination_by structural x => x
theorem rsEqTriplesNode_iff {f : NumericLiteral → NumericLiteral} (hf : ∀ a b, NumericLiteral.rustEq a b = true ↔ f a = f b) :
    ∀ a b : TriplesNode, rsEqTriplesNode a b = true ↔ renumTriplesNode f a = renumTriplesNode f b
  | .collection a0, y => rsEqTriplesNode_collection a0 (rsEqListGraphNode_iff hf a0) y
  | .blankNodePropertyList a0, y => rsEqTriplesNode_blankNodePropertyList a0 (rsEqPropertyList_iff hf a0) y
termination_by structural x => x
theorem rsEqPropertyList_iff {f : NumericLiteral → NumericLiteral} (hf : ∀ a b, NumericLiteral.rustEq a b = true ↔ f a = f b) :
    ∀ a b : PropertyList, rsEqPropertyList a b = true ↔ renumPropertyList f a = renumPropertyList f b
  | .mk a0, y => rsEqPropertyList_mk a0 (rsEqListVerbList_iff hf a0) y
termination_by structural x => x
theorem rsEqVerbList_iff {f : NumericLiteral → NumericLiteral} (hf : ∀ a b, NumericLiteral.rustEq a b = true ↔ f a = f b) :
    ∀ a b : VerbList, rsEqVerbList a b = true ↔ renumVerbList f a = renumVerbList f b
  | .mk a0 a1, y => rsEqVerbList_mk a0 a1 (rsEqListGraphNode_iff hf a1) y
termination_by structural x => x
theorem rsEqListGraphNode_iff {f : NumericLiteral → NumericLiteral} (hf : ∀ a b, NumericLiteral.rustEq a b = true ↔ f a = f b) :
    ∀ a b : List GraphNode, rsEqListGraphNode a b = true ↔ renumListGraphNode f a = renumListGraphNode f b
  | [], y => rsEqListGraphNode_nil y
  | a :: l, y => rsEqListGraphNode_cons a (rsEqGraphNode_iff hf a) l (rsEqListGraphNode_iff hf l) y
termination_by structural x => x
theorem rsEqListVerbList_iff {f : NumericLiteral → NumericLiteral} (hf : ∀ a b, NumericLiteral.rustEq a b = true ↔ f a = f b) :
    ∀ a b : List VerbList, rsEqListVerbList a b = true ↔ renumListVerbList f a = renumListVerbList f b
  | [], y => rsEqListVerbList_nil y
  | a :: l, y => rsEqListVerbList_cons a (rsEqVerbList_iff hf a) l (rsEqListVerbList_iff hf l) y
termination_by structural x => x
end
theorem rsEqTriplesSameSubject_term {f : NumericLiteral → NumericLiteral} (a0 : VarOrTerm) (h0 : ∀ b, rsEqVarOrTerm a0 b = true ↔ (renumVarOrTerm f) a0 = (renumVarOrTerm f) b) (a1 : PropertyList) (h1 : ∀ b, rsEqPropertyList a1 b = true ↔ (renumPropertyList f) a1 = (renumPropertyList f) b) (y : TriplesSameSubject) :
    rsEqTriplesSameSubject (TriplesSameSubject.term a0 a1) y = true ↔ renumTriplesSameSubject f (TriplesSameSubject.term a0 a1) = renumTriplesSameSubject f y := by
  have e : ∀ b0 b1, rsEqTriplesSameSubject (TriplesSameSubject.term a0 a1) (TriplesSameSubject.term b0 b1) = (rsEqVarOrTerm a0 b0 && rsEqPropertyList a1 b1) := fun _ _ => rfl
  have e' : ∀ b0 b1, renumTriplesSameSubject f (TriplesSameSubject.term b0 b1) = TriplesSameSubject.term (renumVarOrTerm f b0) (renumPropertyList f b1) := fun _ _ => rfl
  refine ⟨fun h => ?_, fun h => ?_⟩
  · cases y <;> first | exact absurd (show false = true from h) Bool.false_ne_true | (rw [e] at h; rw [e', e']; simpa [h0, h1] using h)
  · cases y <;> first | (rw [e', e'] at h; rw [e]; simpa [h0, h1] using h) | injection h
theorem rsEqTriplesSameSubject_node {f : NumericLiteral → NumericLiteral} (a0 : TriplesNode) (h0 : ∀ b, rsEqTriplesNode a0 b = true ↔ (renumTriplesNode f) a0 = (renumTriplesNode f) b) (a1 : Option PropertyList) (h1 : ∀ b, (rsEqOption rsEqPropertyList) a1 b = true ↔ (Option.map (renumPropertyList f)) a1 = (Option.map (renumPropertyList f)) b) (y : TriplesSameSubject) :
    rsEqTriplesSameSubject (TriplesSameSubject.node a0 a1) y = true ↔ renumTriplesSameSubject f (TriplesSameSubject.node a0 a1) = renumTriplesSameSubject f y := by
  have e : ∀ b0 b1, rsEqTriplesSameSubject (TriplesSameSubject.node a0 a1) (TriplesSameSubject.node b0 b1) = (rsEqTriplesNode a0 b0 && rsEqOption rsEqPropertyList a1 b1) := fun _ _ => rfl
  have e' : ∀ b0 b1, renumTriplesSameSubject f (TriplesSameSubject.node b0 b1) = TriplesSameSubject.node (renumTriplesNode f b0) (Option.map (renumPropertyList f) b1) := fun _ _ => rfl
  refine ⟨fun h => ?_, fun h => ?_⟩
  · cases y <;> first | exact absurd (show false = true from h) Bool.false_ne_true | (rw [e] at h; rw [e', e']; simpa [h0, h1] using h)
  · cases y <;> first | (rw [e', e'] at h; rw [e]; simpa [h0, h1] using h) | injection h
theorem rsEqTriplesSameSubject_iff {f : NumericLiteral → NumericLiteral} (hf : ∀ a b, NumericLiteral.rustEq a b = true ↔ f a = f b) :
    ∀ a b : TriplesSameSubject, rsEqTriplesSameSubject a b = true ↔ renumTriplesSameSubject f a = renumTriplesSameSubject f b
  | .term a0 a1, y => rsEqTriplesSameSubject_term a0 (rsEqVarOrTerm_iff hf a0) a1 (rsEqPropertyList_iff hf a1) y
  | .node a0 a1, y => rsEqTriplesSameSubject_node a0 (rsEqTriplesNode_iff hf a0) a1 (rsEqOption_iff (rsEqPropertyList_iff hf) a1) y
theorem rsEqQuadsNotTriples_mk {f : NumericLiteral → NumericLiteral} (a0 : VarOrIri) (a1 : Option TriplesTemplate) (h1 : ∀ b, (rsEqOption (rsEqList rsEqTriplesSameSubject)) a1 b = true ↔ (Option.map (List.map (renumTriplesSameSubject f))) a1 = (Option.map (List.map (renumTriplesSameSubject f))) b) (y : QuadsNotTriples) :
    rsEqQuadsNotTriples (QuadsNotTriples.mk a0 a1) y = true ↔ renumQuadsNotTriples f (QuadsNotTriples.mk a0 a1) = renumQuadsNotTriples f y := by
  have e : ∀ b0 b1, rsEqQuadsNotTriples (QuadsNotTriples.mk a0 a1) (QuadsNotTriples.mk b0 b1) = (a0 == b0 && rsEqOption (rsEqList rsEqTriplesSameSubject) a1 b1) := fun _ _ => rfl
  have e' : ∀ b0 b1, renumQuadsNotTriples f (QuadsNotTriples.mk b0 b1) = QuadsNotTriples.mk b0 (Option.map (List.map (renumTriplesSameSubject f)) b1) := fun _ _ => rfl
  cases y
  rw [e, e', e']
  simp [h1]
theorem rsEqQuadsNotTriples_iff {f : NumericLiteral → NumericLiteral} (hf : ∀ a b, NumericLiteral.rustEq a b = true ↔ f a = f b) :
    ∀ a b : QuadsNotTriples, rsEqQuadsNotTriples a b = true ↔ renumQuadsNotTriples f a = renumQuadsNotTriples f b
  | ⟨a0, a1⟩, y => rsEqQuadsNotTriples_mk a0 a1 (rsEqOption_iff (rsEqList_iff (rsEqTriplesSameSubject_iff hf)) a1) y
theorem rsEqQuadsEntry_mk {f : NumericLiteral → NumericLiteral} (a0 : QuadsNotTriples) (h0 : ∀ b, rsEqQuadsNotTriples a0 b = true ↔ (renumQuadsNotTriples f) a0 = (renumQuadsNotTriples f) b) (a1 : Option TriplesTemplate) (h1 : ∀ b, (rsEqOption (rsEqList rsEqTriplesSameSubject)) a1 b = true ↔ (Option.map (List.map (renumTriplesSameSubject f))) a1 = (Option.map (List.map (renumTriplesSameSubject f))) b) (y : QuadsEntry) :
    rsEqQuadsEntry (QuadsEntry.mk a0 a1) y = true ↔ renumQuadsEntry f (QuadsEntry.mk a0 a1) = renumQuadsEntry f y := by
  have e : ∀ b0 b1, rsEqQuadsEntry (QuadsEntry.mk a0 a1) (QuadsEntry.mk b0 b1) = (rsEqQuadsNotTriples a0 b0 && rsEqOption (rsEqList rsEqTriplesSameSubject) a1 b1) := fun _ _ => rfl
  have e' : ∀ b0 b1, renumQuadsEntry f (QuadsEntry.mk b0 b1) = QuadsEntry.mk (renumQuadsNotTriples f b0) (Option.map (List.map (renumTriplesSameSubject f)) b1) := fun _ _ => rfl
  cases y
  rw [e, e', e']
  simp [h0, h1]
theorem rsEqQuadsEntry_iff {f : NumericLiteral → NumericLiteral} (hf : ∀ a b, NumericLiteral.rustEq a b = true ↔ f a = f b) :
    ∀ a b : QuadsEntry, rsEqQuadsEntry a b = true ↔ renumQuadsEntry f a = renumQuadsEntry f b
  | ⟨a0, a1⟩, y => rsEqQuadsEntry_mk a0 (rsEqQuadsNotTriples_iff hf a0) a1 (rsEqOption_iff (rsEqList_iff (rsEqTriplesSameSubject_iff hf)) a1) y
theorem rsEqQuads_mk {f : NumericLiteral → NumericLiteral} (a0 : Option TriplesTemplate) (h0 : ∀ b, (rsEqOption (rsEqList rsEqTriplesSameSubject)) a0 b = true ↔ (Option.map (List.map (renumTriplesSameSubject f))) a0 = (Option.map (List.map (renumTriplesSameSubject f))) b) (a1 : List QuadsEntry) (h1 : ∀ b, (rsEqList rsEqQuadsEntry) a1 b = true ↔ (List.map (renumQuadsEntry f)) a1 = (List.map (renumQuadsEntry f)) b) (y : Quads) :
    rsEqQuads (Quads.mk a0 a1) y = true ↔ renumQuads f (Quads.mk a0 a1) = renumQuads f y := by
  have e : ∀ b0 b1, rsEqQuads (Quads.mk a0 a1) (Quads.mk b0 b1) = (rsEqOption (rsEqList rsEqTriplesSameSubject) a0 b0 && rsEqList rsEqQuadsEntry a1 b1) := fun _ _ => rfl
  have e' : ∀ b0 b1, renumQuads f (Quads.mk b0 b1) = Quads.mk (Option.map (List.map (renumTriplesSameSubject f)) b0) (List.map (renumQuadsEntry f) b1) := fun _ _ => rfl
  cases y
  rw [e, e', e']
  simp [h0, h1]
theorem rsEqQuads_iff {f : NumericLiteral → NumericLiteral} (hf : ∀ a b, NumericLiteral.rustEq a b = true ↔ f a = f b) :
    ∀ a b : Quads, rsEqQuads a b = true ↔ renumQuads f a = renumQuads f b
  | ⟨a0, a1⟩, y => rsEqQuads_mk a0 (rsEqOption_iff (rsEqList_iff (rsEqTriplesSameSubject_iff hf)) a0) a1 (rsEqList_iff (rsEqQuadsEntry_iff hf) a1) y
theorem rsEqPathAlternative_mk {f : NumericLiteral → NumericLiteral} (a0 : List PathSequence) (h0 : ∀ b, rsEqListPathSequence a0 b = true ↔ (renumListPathSequence f) a0 = (renumListPathSequence f) b) (y : PathAlternative) :
    rsEqPathAlternative (PathAlternative.mk a0) y = true ↔ renumPathAlternative f (PathAlternative.mk a0) = renumPathAlternative f y := by
  have e : ∀ b0, rsEqPathAlternative (PathAlternative.mk a0) (PathAlternative.mk b0) = (rsEqListPathSequence a0 b0) := fun _ => rfl
  have e' : ∀ b0, renumPathAlternative f (PathAlternative.mk b0) = PathAlternative.mk (renumListPathSequence f b0) := fun _ => rfl
  cases y
  rw [e, e', e']
  simp [h0]
theorem rsEqPathSequence_mk {f : NumericLiteral → NumericLiteral} (a0 : List PathEltOrInverse) (h0 : ∀ b, rsEqListPathEltOrInverse a0 b = true ↔ (renumListPathEltOrInverse f) a0 = (renumListPathEltOrInverse f) b) (y : PathSequence) :
    rsEqPathSequence (PathSequence.mk a0) y = true ↔ renumPathSequence f (PathSequence.mk a0) = renumPathSequence f y := by
  have e : ∀ b0, rsEqPathSequence (PathSequence.mk a0) (PathSequence.mk b0) = (rsEqListPathEltOrInverse a0 b0) := fun _ => rfl
  have e' : ∀ b0, renumPathSequence f (PathSequence.mk b0) = PathSequence.mk (renumListPathEltOrInverse f b0) := fun _ => rfl
  cases y
  rw [e, e', e']
  simp [h0]
theorem rsEqPathEltOrInverse_pathElt {f : NumericLiteral → NumericLiteral} (a0 : PathElt) (h0 : ∀ b, rsEqPathElt a0 b = true ↔ (renumPathElt f) a0 = (renumPathElt f) b) (y : PathEltOrInverse) :
    rsEqPathEltOrInverse (PathEltOrInverse.pathElt a0) y = true ↔ renumPathEltOrInverse f (PathEltOrInverse.pathElt a0) = renumPathEltOrInverse f y := by
  have e : ∀ b0, rsEqPathEltOrInverse (PathEltOrInverse.pathElt a0) (PathEltOrInverse.pathElt b0) = (rsEqPathElt a0 b0) := fun _ => rfl
  have e' : ∀ b0, renumPathEltOrInverse f (PathEltOrInverse.pathElt b0) = PathEltOrInverse.pathElt (renumPathElt f b0) := fun _ => rfl
  refine ⟨fun h => ?_, fun h => ?_⟩
  · cases y <;> first | exact absurd (show false = true from h) Bool.false_ne_true | (rw [e] at h; rw [e', e']; simpa [h0] using h)
  · cases y <;> first | (rw [e', e'] at h; rw [e]; simpa [h0] using h) | injection h
theorem rsEqPathEltOrInverse_inverse {f : NumericLiteral → NumericLiteral} (a0 : PathElt) (h0 : ∀ b, rsEqPathElt a0 b = true ↔ (renumPathElt f) a0 = (renumPathElt f) b) (y : PathEltOrInverse) :
    rsEqPathEltOrInverse (PathEltOrInverse.inverse a0) y = true ↔ renumPathEltOrInverse f (PathEltOrInverse.inverse a0) = renumPathEltOrInverse f y := by
  have e : ∀ b0, rsEqPathEltOrInverse (PathEltOrInverse.inverse a0) (PathEltOrInverse.inverse b0) = (rsEqPathElt a0 b0) := fun _ => rfl
  have e' : ∀ b0, renumPathEltOrInverse f (PathEltOrInverse.inverse b0) = PathEltOrInverse.inverse (renumPathElt f b0) := fun _ => rfl
  refine ⟨fun h => ?_, fun h => ?_⟩
  · cases y <;> first | exact absurd (show false = true from h) Bool.false_ne_true | (rw [e] at h; rw [e', e']; simpa [h0] using h)
  · cases y <;> first | (rw [e', e'] at h; rw [e]; simpa [h0] using h) | injection h
theorem rsEqPathElt_mk {f : NumericLiteral → NumericLiteral} (a0 : PathPrimary) (h0 : ∀ b, rsEqPathPrimary a0 b = true ↔ (renumPathPrimary f) a0 = (renumPathPrimary f) b) (a1 : Option PathMod) (y : PathElt) :
    rsEqPathElt (PathElt.mk a0 a1) y = true ↔ renumPathElt f (PathElt.mk a0 a1) = renumPathElt f y := by
  have e : ∀ b0 b1, rsEqPathElt (PathElt.mk a0 a1) (PathElt.mk b0 b1) = (rsEqPathPrimary a0 b0 && a1 == b1) := fun _ _ => rfl
  have e' : ∀ b0 b1, renumPathElt f (PathElt.mk b0 b1) = PathElt.mk (renumPathPrimary f b0) b1 := fun _ _ => rfl
  cases y
  rw [e, e', e']
  simp [h0]
theorem rsEqPathPrimary_iri {f : NumericLiteral → NumericLiteral} (a0 : Iri) (y : PathPrimary) :
    rsEqPathPrimary (PathPrimary.iri a0) y = true ↔ renumPathPrimary f (PathPrimary.iri a0) = renumPathPrimary f y := by
  have e : ∀ b0, rsEqPathPrimary (PathPrimary.iri a0) (PathPrimary.iri b0) = (a0 == b0) := fun _ => rfl
  have e' : ∀ b0, renumPathPrimary f (PathPrimary.iri b0) = PathPrimary.iri b0 := fun _ => rfl
  refine ⟨fun h => ?_, fun h => ?_⟩
  · cases y <;> first | exact absurd (show false = true from h) Bool.false_ne_true | (rw [e] at h; rw [e', e']; simpa using h)
  · cases y <;> first | (rw [e', e'] at h; rw [e]; simpa using h) | injection h
theorem rsEqPathPrimary_a {f : NumericLiteral → NumericLiteral}  (y : PathPrimary) :
    rsEqPathPrimary (PathPrimary.a) y = true ↔ renumPathPrimary f (PathPrimary.a) = renumPathPrimary f y := by
  have e : rsEqPathPrimary (PathPrimary.a) (PathPrimary.a) = (true) := rfl
  have e' : renumPathPrimary f (PathPrimary.a) = PathPrimary.a := rfl
  refine ⟨fun h => ?_, fun h => ?_⟩
  · cases y <;> first | exact absurd (show false = true from h) Bool.false_ne_true | rfl
  · cases y <;> first | exact e | injection h
theorem rsEqPathPrimary_pathNegatedPropertySet {f : NumericLiteral → NumericLiteral} (a0 : List IriOrAOrCaret) (y : PathPrimary) :
    rsEqPathPrimary (PathPrimary.pathNegatedPropertySet a0) y = true ↔ renumPathPrimary f (PathPrimary.pathNegatedPropertySet a0) = renumPathPrimary f y := by
  have e : ∀ b0, rsEqPathPrimary (PathPrimary.pathNegatedPropertySet a0) (PathPrimary.pathNegatedPropertySet b0) = (a0 == b0) := fun _ => rfl
  have e' : ∀ b0, renumPathPrimary f (PathPrimary.pathNegatedPropertySet b0) = PathPrimary.pathNegatedPropertySet b0 := fun _ => rfl
  refine ⟨fun h => ?_, fun h => ?_⟩
  · cases y <;> first | exact absurd (show false = true from h) Bool.false_ne_true | (rw [e] at h; rw [e', e']; simpa using h)
  · cases y <;> first | (rw [e', e'] at h; rw [e]; simpa using h) | injection h
theorem rsEqPathPrimary_path {f : NumericLiteral → NumericLiteral} (a0 : PathAlternative) (h0 : ∀ b, rsEqPathAlternative a0 b = true ↔ (renumPathAlternative f) a0 = (renumPathAlternative f) b) (y : PathPrimary) :
    rsEqPathPrimary (PathPrimary.path a0) y = true ↔ renumPathPrimary f (PathPrimary.path a0) = renumPathPrimary f y := by
  have e : ∀ b0, rsEqPathPrimary (PathPrimary.path a0) (PathPrimary.path b0) = (rsEqPathAlternative a0 b0) := fun _ => rfl
  have e' : ∀ b0, renumPathPrimary f (PathPrimary.path b0) = PathPrimary.path (renumPathAlternative f b0) := fun _ => rfl
  refine ⟨fun h => ?_, fun h => ?_⟩
  · cases y <;> first | exact absurd (show false = true from h) Bool.false_ne_true | (rw [e] at h; rw [e', e']; simpa [h0] using h)
  · cases y <;> first | (rw [e', e'] at h; rw [e]; simpa [h0] using h) | injection h
theorem rsEqListPathSequence_nil {f : NumericLiteral → NumericLiteral} (y : List PathSequence) : rsEqListPathSequence [] y = true ↔ renumListPathSequence f [] = renumListPathSequence f y := by
  cases y <;> simp [rsEqListPathSequence, renumListPathSequence]
theorem rsEqListPathSequence_cons {f : NumericLiteral → NumericLiteral} (a : PathSequence) (ha : ∀ b, rsEqPathSequence a b = true ↔ (renumPathSequence f) a = (renumPathSequence f) b) (l : List PathSequence) (hl : ∀ b, rsEqListPathSequence l b = true ↔ renumListPathSequence f l = renumListPathSequence f b) (y : List PathSequence) :
    rsEqListPathSequence (a :: l) y = true ↔ renumListPathSequence f (a :: l) = renumListPathSequence f y := by
  cases y <;> simp [rsEqListPathSequence, renumListPathSequence, ha, hl]
theorem rsEqListPathEltOrInverse_nil {f : NumericLiteral → NumericLiteral} (y : List PathEltOrInverse) : rsEqListPathEltOrInverse [] y = true ↔ renumListPathEltOrInverse f [] = renumListPathEltOrInverse f y := by
  cases y <;> simp [rsEqListPathEltOrInverse, renumListPathEltOrInverse]
theorem rsEqListPathEltOrInverse_cons {f : NumericLiteral → NumericLiteral} (a : PathEltOrInverse) (ha : ∀ b, rsEqPathEltOrInverse a b = true ↔ (renumPathEltOrInverse f) a = (renumPathEltOrInverse f) b) (l : List PathEltOrInverse) (hl : ∀ b, rsEqListPathEltOrInverse l b = true ↔ renumListPathEltOrInverse f l = renumListPathEltOrInverse f b) (y : List PathEltOrInverse) :
    rsEqListPathEltOrInverse (a :: l) y = true ↔ renumListPathEltOrInverse f (a :: l) = renumListPathEltOrInverse f y := by
  cases y <;> simp [rsEqListPathEltOrInverse, renumListPathEltOrInverse, ha, hl]
mutual
theorem rsEqPathAlternative_iff {f : NumericLiteral → NumericLiteral} (hf : ∀ a b, NumericLiteral.rustEq a b = true ↔ f a = f b) :
    ∀ a b : PathAlternative, rsEqPathAlternative a b = true ↔ renumPathAlternative f a = renumPathAlternative f b
  | .mk a0, y => rsEqPathAlternative_mk a0 (rsEqListPathSequence_iff hf a0) y
termination_by structural x => x
theorem rsEqPathSequence_iff {f : NumericLiteral → NumericLiteral} (hf : ∀ a b, NumericLiteral.rustEq a b = true ↔ f a = f b) :
    ∀ a b : PathSequence, rsEqPathSequence a b = true ↔ renumPathSequence f a = renumPathSequence f b
  | .mk a0, y => rsEqPathSequence_mk a0 (rsEqListPathEltOrInverse_iff hf a0) y
termination_by structural x => x
theorem rsEqPathEltOrInverse_iff {f : NumericLiteral → NumericLiteral} (hf : ∀ a b, NumericLiteral.rustEq a b = true ↔ f a = f b) :
    ∀ a b : PathEltOrInverse, rsEqPathEltOrInverse a b = true ↔ renumPathEltOrInverse f a = renumPathEltOrInverse f b
  | .pathElt a0, y => rsEqPathEltOrInverse_pathElt a0 (rsEqPathElt_iff hf a0) y
  | .inverse a0, y => rsEqPathEltOrInverse_inverse a0 (rsEqPathElt_iff hf a0) y
termination_by structural x => x
theorem rsEqPathElt_iff {f : NumericLiteral → NumericLiteral} (hf : ∀ a b, NumericLiteral.rustEq a b = true ↔ f a = f b) :
    ∀ a b : PathElt, rsEqPathElt a b = true ↔ renumPathElt f a = renumPathElt f b
  | .mk a0 a1, y => rsEqPathElt_mk a0 (rsEqPathPrimary_iff hf a0) a1 y
termination_by structural x => x
theorem rsEqPathPrimary_iff {f : NumericLiteral → NumericLiteral} (hf : ∀ a b, NumericLiteral.rustEq a b = true ↔ f a = f b) :
    ∀ a b : PathPrimary, rsEqPathPrimary a b = true ↔ renumPathPrimary f a = renumPathPrimary f b
  | .iri a0, y => rsEqPathPrimary_iri a0 y
  | .a, y => rsEqPathPrimary_a  y
  | .pathNegatedPropertySet a0, y => rsEqPathPrimary_pathNegatedPropertySet a0 y
  | .path a0, y => rsEqPathPrimary_path a0 (rsEqPathAlternative_iff hf a0) y
termination_by structural x => x
theorem rsEqListPathSequence_iff {f : NumericLiteral → NumericLiteral} (hf : ∀ a b, NumericLiteral.rustEq a b = true ↔ f a = f b) :
    ∀ a b : List PathSequence, rsEqListPathSequence a b = true ↔ renumListPathSequence f a = renumListPathSequence f b
  | [], y => rsEqListPathSequence_nil y
  | a :: l, y => rsEqListPathSequence_cons a (rsEqPathSequence_iff hf a) l (rsEqListPathSequence_iff hf l) y
termination_by structural x => x
theorem rsEqListPathEltOrInverse_iff {f : NumericLiteral → NumericLiteral} (hf : ∀ a b, NumericLiteral.rustEq a b = true ↔ f a = f b) :
    ∀ a b : List PathEltOrInverse, rsEqListPathEltOrInverse a b = true ↔ renumListPathEltOrInverse f a = renumListPathEltOrInverse f b
  | [], y => rsEqListPathEltOrInverse_nil y
  | a :: l, y => rsEqListPathEltOrInverse_cons a (rsEqPathEltOrInverse_iff hf a) l (rsEqListPathEltOrInverse_iff hf l) y
termination_by structural x => x
end
theorem rsEqVerbPathOrSimple_path {f : NumericLiteral → NumericLiteral} (a0 : PathAlternative) (h0 : ∀ b, rsEqPathAlternative a0 b = true ↔ (renumPathAlternative f) a0 = (renumPathAlternative f) b) (y : VerbPathOrSimple) :
    rsEqVerbPathOrSimple (VerbPathOrSimple.path a0) y = true ↔ renumVerbPathOrSimple f (VerbPathOrSimple.path a0) = renumVerbPathOrSimple f y := by
  have e : ∀ b0, rsEqVerbPathOrSimple (VerbPathOrSimple.path a0) (VerbPathOrSimple.path b0) = (rsEqPathAlternative a0 b0) := fun _ => rfl
  have e' : ∀ b0, renumVerbPathOrSimple f (VerbPathOrSimple.path b0) = VerbPathOrSimple.path (renumPathAlternative f b0) := fun _ => rfl
  refine ⟨fun h => ?_, fun h => ?_⟩
  · cases y <;> first | exact absurd (show false = true from h) Bool.false_ne_true | (rw [e] at h; rw [e', e']; simpa [h0] using h)
  · cases y <;> first | (rw [e', e'] at h; rw [e]; simpa [h0] using h) | injection h
theorem rsEqVerbPathOrSimple_simple {f : NumericLiteral → NumericLiteral} (a0 : Var) (y : VerbPathOrSimple) :
    rsEqVerbPathOrSimple (VerbPathOrSimple.simple a0) y = true ↔ renumVerbPathOrSimple f (VerbPathOrSimple.simple a0) = renumVerbPathOrSimple f y := by
  have e : ∀ b0, rsEqVerbPathOrSimple (VerbPathOrSimple.simple a0) (VerbPathOrSimple.simple b0) = (a0 == b0) := fun _ => rfl
  have e' : ∀ b0, renumVerbPathOrSimple f (VerbPathOrSimple.simple b0) = VerbPathOrSimple.simple b0 := fun _ => rfl
  refine ⟨fun h => ?_, fun h => ?_⟩
  · cases y <;> first | exact absurd (show false = true from h) Bool.false_ne_true | (rw [e] at h; rw [e', e']; simpa using h)
  · cases y <;> first | (rw [e', e'] at h; rw [e]; simpa using h) | injection h
theorem rsEqVerbPathOrSimple_iff {f : NumericLiteral → NumericLiteral} (hf : ∀ a b, NumericLiteral.rustEq a b = true ↔ f a = f b) :
    ∀ a b : VerbPathOrSimple, rsEqVerbPathOrSimple a b = true ↔ renumVerbPathOrSimple f a = renumVerbPathOrSimple f b
  | .path a0, y => rsEqVerbPathOrSimple_path a0 (rsEqPathAlternative_iff hf a0) y
  | .simple a0, y => rsEqVerbPathOrSimple_simple a0 y
theorem rsEqPropertyListPathEntry_mk {f : NumericLiteral → NumericLiteral} (a0 : VerbPathOrSimple) (h0 : ∀ b, rsEqVerbPathOrSimple a0 b = true ↔ (renumVerbPathOrSimple f) a0 = (renumVerbPathOrSimple f) b) (a1 : List GraphNode) (h1 : ∀ b, (rsEqList rsEqGraphNode) a1 b = true ↔ (List.map (renumGraphNode f)) a1 = (List.map (renumGraphNode f)) b) (y : PropertyListPathEntry) :
    rsEqPropertyListPathEntry (PropertyListPathEntry.mk a0 a1) y = true ↔ renumPropertyListPathEntry f (PropertyListPathEntry.mk a0 a1) = renumPropertyListPathEntry f y := by
  have e : ∀ b0 b1, rsEqPropertyListPathEntry (PropertyListPathEntry.mk a0 a1) (PropertyListPathEntry.mk b0 b1) = (rsEqVerbPathOrSimple a0 b0 && rsEqList rsEqGraphNode a1 b1) := fun _ _ => rfl
  have e' : ∀ b0 b1, renumPropertyListPathEntry f (PropertyListPathEntry.mk b0 b1) = PropertyListPathEntry.mk (renumVerbPathOrSimple f b0) (List.map (renumGraphNode f) b1) := fun _ _ => rfl
  cases y
  rw [e, e', e']
  simp [h0, h1]
theorem rsEqPropertyListPathEntry_iff {f : NumericLiteral → NumericLiteral} (hf : ∀ a b, NumericLiteral.rustEq a b = true ↔ f a = f b) :
    ∀ a b : PropertyListPathEntry, rsEqPropertyListPathEntry a b = true ↔ renumPropertyListPathEntry f a = renumPropertyListPathEntry f b
  | ⟨a0, a1⟩, y => rsEqPropertyListPathEntry_mk a0 (rsEqVerbPathOrSimple_iff hf a0) a1 (rsEqList_iff (rsEqGraphNode_iff hf) a1) y
theorem rsEqGraphNodePath_varOrTerm {f : NumericLiteral → NumericLiteral} (a0 : VarOrTerm) (h0 : ∀ b, rsEqVarOrTerm a0 b = true ↔ (renumVarOrTerm f) a0 = (renumVarOrTerm f) b) (y : GraphNodePath) :
    rsEqGraphNodePath (GraphNodePath.varOrTerm a0) y = true ↔ renumGraphNodePath f (GraphNodePath.varOrTerm a0) = renumGraphNodePath f y := by
  have e : ∀ b0, rsEqGraphNodePath (GraphNodePath.varOrTerm a0) (GraphNodePath.varOrTerm b0) = (rsEqVarOrTerm a0 b0) := fun _ => rfl
  have e' : ∀ b0, renumGraphNodePath f (GraphNodePath.varOrTerm b0) = GraphNodePath.varOrTerm (renumVarOrTerm f b0) := fun _ => rfl
  refine ⟨fun h => ?_, fun h => ?_⟩
  · cases y <;> first | exact absurd (show false = true from h) Bool.false_ne_true | (rw [e] at h; rw [e', e']; simpa [h0] using h)
  · cases y <;> first | (rw [e', e'] at h; rw [e]; simpa [h0] using h) | injection h
theorem rsEqGraphNodePath_triplesNodePath {f : NumericLiteral → NumericLiteral} (a0 : TriplesNodePath) (h0 : ∀ b, rsEqTriplesNodePath a0 b = true ↔ (renumTriplesNodePath f) a0 = (renumTriplesNodePath f) b) (y : GraphNodePath) :
    rsEqGraphNodePath (GraphNodePath.triplesNodePath a0) y = true ↔ renumGraphNodePath f (GraphNodePath.triplesNodePath a0) = renumGraphNodePath f y := by
  have e : ∀ b0, rsEqGraphNodePath (GraphNodePath.triplesNodePath a0) (GraphNodePath.triplesNodePath b0) = (rsEqTriplesNodePath a0 b0) := fun _ => rfl
  have e' : ∀ b0, renumGraphNodePath f (GraphNodePath.triplesNodePath b0) = GraphNodePath.triplesNodePath (renumTriplesNodePath f b0) := fun _ => rfl
  refine ⟨fun h => ?_, fun h => ?_⟩
  · cases y <;> first | exact absurd (show false = true from h) Bool.false_ne_true | (rw [e] at h; rw [e', e']; simpa [h0] using h)
  · cases y <;> first | (rw [e', e'] at h; rw [e]; simpa [h0] using h) | injection h
theorem rsEqTriplesNodePath_collectionPath {f : NumericLiteral → NumericLiteral} (a0 : List GraphNodePath) (h0 : ∀ b, rsEqListGraphNodePath a0 b = true ↔ (renumListGraphNodePath f) a0 = (renumListGraphNodePath f) b) (y : TriplesNodePath) :
    rsEqTriplesNodePath (TriplesNodePath.collectionPath a0) y = true ↔ renumTriplesNodePath f (TriplesNodePath.collectionPath a0) = renumTriplesNodePath f y := by
  have e : ∀ b0, rsEqTriplesNodePath (TriplesNodePath.collectionPath a0) (TriplesNodePath.collectionPath b0) = (rsEqListGraphNodePath a0 b0) := fun _ => rfl
  have e' : ∀ b0, renumTriplesNodePath f (TriplesNodePath.collectionPath b0) = TriplesNodePath.collectionPath (renumListGraphNodePath f b0) := fun _ => rfl
  refine ⟨fun h => ?_, fun h => ?_⟩
  · cases y <;> first | exact absurd (show false = true from h) Bool.false_ne_true | (rw [e] at h; rw [e', e']; simpa [h0] using h)
  · cases y <;> first | (rw [e', e'] at h; rw [e]; simpa [h0] using h) | injection h
theorem rsEqTriplesNodePath_blankNodePropertyListPath {f : NumericLiteral → NumericLiteral} (a0 : PropertyListPath) (h0 : ∀ b, rsEqPropertyListPath a0 b = true ↔ (renumPropertyListPath f) a0 = (renumPropertyListPath f) b) (y : TriplesNodePath) :
    rsEqTriplesNodePath (TriplesNodePath.blankNodePropertyListPath a0) y = true ↔ renumTriplesNodePath f (TriplesNodePath.blankNodePropertyListPath a0) = renumTriplesNodePath f y := by
  have e : ∀ b0, rsEqTriplesNodePath (TriplesNodePath.blankNodePropertyListPath a0) (TriplesNodePath.blankNodePropertyListPath b0) = (rsEqPropertyListPath a0 b0) := fun _ => rfl
  have e' : ∀ b0, renumTriplesNodePath f (TriplesNodePath.blankNodePropertyListPath b0) = TriplesNodePath.blankNodePropertyListPath (renumPropertyListPath f b0) := fun _ => rfl
  refine ⟨fun h => ?_, fun h => ?_⟩
  · cases y <;> first | exact absurd (show false = true from h) Bool.false_ne_true | (rw [e] at h; rw [e', e']; simpa [h0] using h)
  · cases y <;> first | (rw [e', e'] at h; rw [e]; simpa [h0] using h) | injection h
theorem rsEqPropertyListPath_mk {f : NumericLiteral → NumericLiteral} (a0 : VerbPathOrSimple) (h0 : ∀ b, rsEqVerbPathOrSimple a0 b = true ↔ (renumVerbPathOrSimple f) a0 = (renumVerbPathOrSimple f) b) (a1 : List GraphNodePath) (h1 : ∀ b, rsEqListGraphNodePath a1 b = true ↔ (renumListGraphNodePath f) a1 = (renumListGraphNodePath f) b) (a2 : List PropertyListPathEntry) (h2 : ∀ b, (rsEqList rsEqPropertyListPathEntry) a2 b = true ↔ (List.map (renumPropertyListPathEntry f)) a2 = (List.map (renumPropertyListPathEntry f)) b) (y : PropertyListPath) :
    rsEqPropertyListPath (PropertyListPath.mk a0 a1 a2) y = true ↔ renumPropertyListPath f (PropertyListPath.mk a0 a1 a2) = renumPropertyListPath f y := by
  have e : ∀ b0 b1 b2, rsEqPropertyListPath (PropertyListPath.mk a0 a1 a2) (PropertyListPath.mk b0 b1 b2) = (rsEqVerbPathOrSimple a0 b0 && rsEqListGraphNodePath a1 b1 && rsEqList rsEqPropertyListPathEntry a2 b2) := fun _ _ _ => rfl
  have e' : ∀ b0 b1 b2, renumPropertyListPath f (PropertyListPath.mk b0 b1 b2) = PropertyListPath.mk (renumVerbPathOrSimple f b0) (renumListGraphNodePath f b1) (List.map (renumPropertyListPathEntry f) b2) := fun _ _ _ => rfl
  cases y
  rw [e, e', e']
  simp [h0, h1, h2, and_assoc]
theorem rsEqListGraphNodePath_nil {f : NumericLiteral → NumericLiteral} (y : List GraphNodePath) : rsEqListGraphNodePath [] y = true ↔ renumListGraphNodePath f [] = renumListGraphNodePath f y := by
  cases y <;> simp [rsEqListGraphNodePath, renumListGraphNodePath]
theorem rsEqListGraphNodePath_cons {f : NumericLiteral → NumericLiteral} (a : GraphNodePath) (ha : ∀ b, rsEqGraphNodePath a b = true ↔ (renumGraphNodePath f) a = (renumGraphNodePath f) b) (l : List GraphNodePath) (hl : ∀ b, rsEqListGraphNodePath l b = true ↔ renumListGraphNodePath f l = renumListGraphNodePath f b) (y : List GraphNodePath) :
    rsEqListGraphNodePath (a :: l) y = true ↔ renumListGraphNodePath f (a :: l) = renumListGraphNodePath f y := by
  cases y <;> simp [rsEqListGraphNodePath, renumListGraphNodePath, ha, hl]
mutual
theorem rsEqGraphNodePath_iff {f : NumericLiteral → NumericLiteral} (hf : ∀ a b, NumericLiteral.rustEq a b = true ↔ f a = f b) :
    ∀ a b : GraphNodePath, rsEqGraphNodePath a b = true ↔ renumGraphNodePath f a = renumGraphNodePath f b
  | .varOrTerm a0, y => rsEqGraphNodePath_varOrTerm a0 (rsEqVarOrTerm_iff hf a0) y
  | .triplesNodePath a0, y => rsEqGraphNodePath_triplesNodePath a0 (rsEqTriplesNodePath_iff hf a0) y
termination_by structural x => x
theorem rsEqTriplesNodePath_iff {f : NumericLiteral → NumericLiteral} (hf : ∀ a b, NumericLiteral.rustEq a b = true ↔ f a = f b) :
    ∀ a b : TriplesNodePath, rsEqTriplesNodePath a b = true ↔ renumTriplesNodePath f a = renumTriplesNodePath f b
  | .collectionPath a0, y => rsEqTriplesNodePath_collectionPath a0 (rsEqListGraphNodePath_iff hf a0) y
  | .blankNodePropertyListPath a0, y => rsEqTriplesNodePath_blankNodePropertyListPath a0 (rsEqPropertyListPath_iff hf a0) y
termination_by structural x => x
theorem rsEqPropertyListPath_iff {f : NumericLiteral → NumericLiteral} (hf : ∀ a b, NumericLiteral.rustEq a b = true ↔ f a = f b) :
    ∀ a b : PropertyListPath, rsEqPropertyListPath a b = true ↔ renumPropertyListPath f a = renumPropertyListPath f b
  | .mk a0 a1 a2, y => rsEqPropertyListPath_mk a0 (rsEqVerbPathOrSimple_iff hf a0) a1 (rsEqListGraphNodePath_iff hf a1) a2 (rsEqList_iff (rsEqPropertyListPathEntry_iff hf) a2) y
termination_by structural x => x
theorem rsEqListGraphNodePath_iff {f : NumericLiteral → NumericLiteral} (hf : ∀ a b, NumericLiteral.rustEq a b = true ↔ f a = f b) :
    ∀ a b : List GraphNodePath, rsEqListGraphNodePath a b = true ↔ renumListGraphNodePath f a = renumListGraphNodePath f b
  | [], y => rsEqListGraphNodePath_nil y
  | a :: l, y => rsEqListGraphNodePath_cons a (rsEqGraphNodePath_iff hf a) l (rsEqListGraphNodePath_iff hf l) y
termination_by structural x => x
end
theorem rsEqTriplesSameSubjectPath_term {f : NumericLiteral → NumericLiteral} (a0 : VarOrTerm) (h0 : ∀ b, rsEqVarOrTerm a0 b = true ↔ (renumVarOrTerm f) a0 = (renumVarOrTerm f) b) (a1 : PropertyListPath) (h1 : ∀ b, rsEqPropertyListPath a1 b = true ↔ (renumPropertyListPath f) a1 = (renumPropertyListPath f) b) (y : TriplesSameSubjectPath) :
    rsEqTriplesSameSubjectPath (TriplesSameSubjectPath.term a0 a1) y = true ↔ renumTriplesSameSubjectPath f (TriplesSameSubjectPath.term a0 a1) = renumTriplesSameSubjectPath f y := by
  have e : ∀ b0 b1, rsEqTriplesSameSubjectPath (TriplesSameSubjectPath.term a0 a1) (TriplesSameSubjectPath.term b0 b1) = (rsEqVarOrTerm a0 b0 && rsEqPropertyListPath a1 b1) := fun _ _ => rfl
  have e' : ∀ b0 b1, renumTriplesSameSubjectPath f (TriplesSameSubjectPath.term b0 b1) = TriplesSameSubjectPath.term (renumVarOrTerm f b0) (renumPropertyListPath f b1) := fun _ _ => rfl
  refine ⟨fun h => ?_, fun h => ?_⟩
  · cases y <;> first | exact absurd (show false = true from h) Bool.false_ne_true | (rw [e] at h; rw [e', e']; simpa [h0, h1] using h)
  · cases y <;> first | (rw [e', e'] at h; rw [e]; simpa [h0, h1] using h) | injection h
theorem rsEqTriplesSameSubjectPath_node {f : NumericLiteral → NumericLiteral} (a0 : TriplesNodePath) (h0 : ∀ b, rsEqTriplesNodePath a0 b = true ↔ (renumTriplesNodePath f) a0 = (renumTriplesNodePath f) b) (a1 : Option PropertyListPath) (h1 : ∀ b, (rsEqOption rsEqPropertyListPath) a1 b = true ↔ (Option.map (renumPropertyListPath f)) a1 = (Option.map (renumPropertyListPath f)) b) (y : TriplesSameSubjectPath) :
    rsEqTriplesSameSubjectPath (TriplesSameSubjectPath.node a0 a1) y = true ↔ renumTriplesSameSubjectPath f (TriplesSameSubjectPath.node a0 a1) = renumTriplesSameSubjectPath f y := by
  have e : ∀ b0 b1, rsEqTriplesSameSubjectPath (TriplesSameSubjectPath.node a0 a1) (TriplesSameSubjectPath.node b0 b1) = (rsEqTriplesNodePath a0 b0 && rsEqOption rsEqPropertyListPath a1 b1) := fun _ _ => rfl
  have e' : ∀ b0 b1, renumTriplesSameSubjectPath f (TriplesSameSubjectPath.node b0 b1) = TriplesSameSubjectPath.node (renumTriplesNodePath f b0) (Option.map (renumPropertyListPath f) b1) := fun _ _ => rfl
  refine ⟨fun h => ?_, fun h => ?_⟩
  · cases y <;> first | exact absurd (show false = true from h) Bool.false_ne_true | (rw [e] at h; rw [e', e']; simpa [h0, h1] using h)
  · cases y <;> first | (rw [e', e'] at h; rw [e]; simpa [h0, h1] using h) | injection h
theorem rsEqTriplesSameSubjectPath_iff {f : NumericLiteral → NumericLiteral} (hf : ∀ a b, NumericLiteral.rustEq a b = true ↔ f a = f b) :
    ∀ a b : TriplesSameSubjectPath, rsEqTriplesSameSubjectPath a b = true ↔ renumTriplesSameSubjectPath f a = renumTriplesSameSubjectPath f b
  | .term a0 a1, y => rsEqTriplesSameSubjectPath_term a0 (rsEqVarOrTerm_iff hf a0) a1 (rsEqPropertyListPath_iff hf a1) y
  | .node a0 a1, y => rsEqTriplesSameSubjectPath_node a0 (rsEqTriplesNodePath_iff hf a0) a1 (rsEqOption_iff (rsEqPropertyListPath_iff hf) a1) y
theorem rsEqTriplesBlock_mk {f : NumericLiteral → NumericLiteral} (a0 : List TriplesSameSubjectPath) (h0 : ∀ b, (rsEqList rsEqTriplesSameSubjectPath) a0 b = true ↔ (List.map (renumTriplesSameSubjectPath f)) a0 = (List.map (renumTriplesSameSubjectPath f)) b) (y : TriplesBlock) :
    rsEqTriplesBlock (TriplesBlock.mk a0) y = true ↔ renumTriplesBlock f (TriplesBlock.mk a0) = renumTriplesBlock f y := by
  have e : ∀ b0, rsEqTriplesBlock (TriplesBlock.mk a0) (TriplesBlock.mk b0) = (rsEqList rsEqTriplesSameSubjectPath a0 b0) := fun _ => rfl
  have e' : ∀ b0, renumTriplesBlock f (TriplesBlock.mk b0) = TriplesBlock.mk (List.map (renumTriplesSameSubjectPath f) b0) := fun _ => rfl
  cases y
  rw [e, e', e']
  simp [h0]
theorem rsEqTriplesBlock_iff {f : NumericLiteral → NumericLiteral} (hf : ∀ a b, NumericLiteral.rustEq a b = true ↔ f a = f b) :
    ∀ a b : TriplesBlock, rsEqTriplesBlock a b = true ↔ renumTriplesBlock f a = renumTriplesBlock f b
  | ⟨a0⟩, y => rsEqTriplesBlock_mk a0 (rsEqList_iff (rsEqTriplesSameSubjectPath_iff hf) a0) y
theorem rsEqExpression_mk {f : NumericLiteral → NumericLiteral} (a0 : List ConditionalAndExpression) (h0 : ∀ b, rsEqListConditionalAndExpression a0 b = true ↔ (renumListConditionalAndExpression f) a0 = (renumListConditionalAndExpression f) b) (y : Expression) :
    rsEqExpression (Expression.mk a0) y = true ↔ renumExpression f (Expression.mk a0) = renumExpression f y := by
  have e : ∀ b0, rsEqExpression (Expression.mk a0) (Expression.mk b0) = (rsEqListConditionalAndExpression a0 b0) := fun _ => rfl
  have e' : ∀ b0, renumExpression f (Expression.mk b0) = Expression.mk (renumListConditionalAndExpression f b0) := fun _ => rfl
  cases y
  rw [e, e', e']
  simp [h0]
theorem rsEqConditionalAndExpression_mk {f : NumericLiteral → NumericLiteral} (a0 : List RelationalExpression) (h0 : ∀ b, rsEqListRelationalExpression a0 b = true ↔ (renumListRelationalExpression f) a0 = (renumListRelationalExpression f) b) (y : ConditionalAndExpression) :
    rsEqConditionalAndExpression (ConditionalAndExpression.mk a0) y = true ↔ renumConditionalAndExpression f (ConditionalAndExpression.mk a0) = renumConditionalAndExpression f y := by
  have e : ∀ b0, rsEqConditionalAndExpression (ConditionalAndExpression.mk a0) (ConditionalAndExpression.mk b0) = (rsEqListRelationalExpression a0 b0) := fun _ => rfl
  have e' : ∀ b0, renumConditionalAndExpression f (ConditionalAndExpression.mk b0) = ConditionalAndExpression.mk (renumListRelationalExpression f b0) := fun _ => rfl
  cases y
  rw [e, e', e']
  simp [h0]
theorem rsEqRelationalExpression_mk {f : NumericLiteral → NumericLiteral} (a0 : AdditiveExpression) (h0 : ∀ b, rsEqAdditiveExpression a0 b = true ↔ (renumAdditiveExpression f) a0 = (renumAdditiveExpression f) b) (a1 : Option OpExpression) (h1 : ∀ b, rsEqOptionOpExpression a1 b = true ↔ (renumOptionOpExpression f) a1 = (renumOptionOpExpression f) b) (y : RelationalExpression) :
    rsEqRelationalExpression (RelationalExpression.mk a0 a1) y = true ↔ renumRelationalExpression f (RelationalExpression.mk a0 a1) = renumRelationalExpression f y := by
  have e : ∀ b0 b1, rsEqRelationalExpression (RelationalExpression.mk a0 a1) (RelationalExpression.mk b0 b1) = (rsEqAdditiveExpression a0 b0 && rsEqOptionOpExpression a1 b1) := fun _ _ => rfl
  have e' : ∀ b0 b1, renumRelationalExpression f (RelationalExpression.mk b0 b1) = RelationalExpression.mk (renumAdditiveExpression f b0) (renumOptionOpExpression f b1) := fun _ _ => rfl
  cases y
  rw [e, e', e']
  simp [h0, h1]
theorem rsEqOpExpression_eq {f : NumericLiteral → NumericLiteral} (a0 : AdditiveExpression) (h0 : ∀ b, rsEqAdditiveExpression a0 b = true ↔ (renumAdditiveExpression f) a0 = (renumAdditiveExpression f) b) (y : OpExpression) :
    rsEqOpExpression (OpExpression.eq a0) y = true ↔ renumOpExpression f (OpExpression.eq a0) = renumOpExpression f y := by
  have e : ∀ b0, rsEqOpExpression (OpExpression.eq a0) (OpExpression.eq b0) = (rsEqAdditiveExpression a0 b0) := fun _ => rfl
  have e' : ∀ b0, renumOpExpression f (OpExpression.eq b0) = OpExpression.eq (renumAdditiveExpression f b0) := fun _ => rfl
  refine ⟨fun h => ?_, fun h => ?_⟩
  · cases y <;> first | exact absurd (show false = true from h) Bool.false_ne_true | (rw [e] at h; rw [e', e']; simpa [h0] using h)
  · cases y <;> first | (rw [e', e'] at h; rw [e]; simpa [h0] using h) | injection h
theorem rsEqOpExpression_ne {f : NumericLiteral → NumericLiteral} (a0 : AdditiveExpression) (h0 : ∀ b, rsEqAdditiveExpression a0 b = true ↔ (renumAdditiveExpression f) a0 = (renumAdditiveExpression f) b) (y : OpExpression) :
    rsEqOpExpression (OpExpression.ne a0) y = true ↔ renumOpExpression f (OpExpression.ne a0) = renumOpExpression f y := by
  have e : ∀ b0, rsEqOpExpression (OpExpression.ne a0) (OpExpression.ne b0) = (rsEqAdditiveExpression a0 b0) := fun _ => rfl
  have e' : ∀ b0, renumOpExpression f (OpExpression.ne b0) = OpExpression.ne (renumAdditiveExpression f b0) := fun _ => rfl
  refine ⟨fun h => ?_, fun h => ?_⟩
  · cases y <;> first | exact absurd (show false = true from h) Bool.false_ne_true | (rw [e] at h; rw [e', e']; simpa [h0] using h)
  · cases y <;> first | (rw [e', e'] at h; rw [e]; simpa [h0] using h) | injection h
theorem rsEqOpExpression_lt {f : NumericLiteral → NumericLiteral} (a0 : AdditiveExpression) (h0 : ∀ b, rsEqAdditiveExpression a0 b = true ↔ (renumAdditiveExpression f) a0 = (renumAdditiveExpression f) b) (y : OpExpression) :
    rsEqOpExpression (OpExpression.lt a0) y = true ↔ renumOpExpression f (OpExpression.lt a0) = renumOpExpression f y := by
  have e : ∀ b0, rsEqOpExpression (OpExpression.lt a0) (OpExpression.lt b0) = (rsEqAdditiveExpression a0 b0) := fun _ => rfl
  have e' : ∀ b0, renumOpExpression f (OpExpression.lt b0) = OpExpression.lt (renumAdditiveExpression f b0) := fun _ => rfl
  refine ⟨fun h => ?_, fun h => ?_⟩
  · cases y <;> first | exact absurd (show false = true from h) Bool.false_ne_true | (rw [e] at h; rw [e', e']; simpa [h0] using h)
  · cases y <;> first | (rw [e', e'] at h; rw [e]; simpa [h0] using h) | injection h
theorem rsEqOpExpression_gt {f : NumericLiteral → NumericLiteral} (a0 : AdditiveExpression) (h0 : ∀ b, rsEqAdditiveExpression a0 b = true ↔ (renumAdditiveExpression f) a0 = (renumAdditiveExpression f) b) (y : OpExpression) :
    rsEqOpExpression (OpExpression.gt a0) y = true ↔ renumOpExpression f (OpExpression.gt a0) = renumOpExpression f y := by
  have e : ∀ b0, rsEqOpExpression (OpExpression.gt a0) (OpExpression.gt b0) = (rsEqAdditiveExpression a0 b0) := fun _ => rfl
  have e' : ∀ b0, renumOpExpression f (OpExpression.gt b0) = OpExpression.gt (renumAdditiveExpression f b0) := fun _ => rfl
  refine ⟨fun h => ?_, fun h => ?_⟩
  · cases y <;> first | exact absurd (show false = true from h) Bool.false_ne_true | (rw [e] at h; rw [e', e']; simpa [h0] using h)
  · cases y <;> first | (rw [e', e'] at h; rw [e]; simpa [h0] using h) | injection h
theorem rsEqOpExpression_le {f : NumericLiteral → NumericLiteral} (a0 : AdditiveExpression) (h0 : ∀ b, rsEqAdditiveExpression a0 b = true ↔ (renumAdditiveExpression f) a0 = (renumAdditiveExpression f) b) (y : OpExpression) :
    rsEqOpExpression (OpExpression.le a0) y = true ↔ renumOpExpression f (OpExpression.le a0) = renumOpExpression f y := by
  have e : ∀ b0, rsEqOpExpression (OpExpression.le a0) (OpExpression.le b0) = (rsEqAdditiveExpression a0 b0) := fun _ => rfl
  have e' : ∀ b0, renumOpExpression f (OpExpression.le b0) = OpExpression.le (renumAdditiveExpression f b0) := fun _ => rfl
  refine ⟨fun h => ?_, fun h => ?_⟩
  · cases y <;> first | exact absurd (show false = true from h) Bool.false_ne_true | (rw [e] at h; rw [e', e']; simpa [h0] using h)
  · cases y <;> first | (rw [e', e'] at h; rw [e]; simpa [h0] using h) | injection h
theorem rsEqOpExpression_ge {f : NumericLiteral → NumericLiteral} (a0 : AdditiveExpression) (h0 : ∀ b, rsEqAdditiveExpression a0 b = true ↔ (renumAdditiveExpression f) a0 = (renumAdditiveExpression f) b) (y : OpExpression) :
    rsEqOpExpression (OpExpression.ge a0) y = true ↔ renumOpExpression f (OpExpression.ge a0) = renumOpExpression f y := by
  have e : ∀ b0, rsEqOpExpression (OpExpression.ge a0) (OpExpression.ge b0) = (rsEqAdditiveExpression a0 b0) := fun _ => rfl
  have e' : ∀ b0, renumOpExpression f (OpExpression.ge b0) = OpExpression.ge (renumAdditiveExpression f b0) := fun _ => rfl
  refine ⟨fun h => ?_, fun h => ?_⟩
  · cases y <;> first | exact absurd (show false = true from h) Bool.false_ne_true | (rw [e] at h; rw [e', e']; simpa [h0] using h)
  · cases y <;> first | (rw [e', e'] at h; rw [e]; simpa [h0] using h) | injection h
theorem rsEqOpExpression_in {f : NumericLiteral → NumericLiteral} (a0 : ExpressionList) (h0 : ∀ b, rsEqExpressionList a0 b = true ↔ (renumExpressionList f) a0 = (renumExpressionList f) b) (y : OpExpression) :
    rsEqOpExpression (OpExpression.in a0) y = true ↔ renumOpExpression f (OpExpression.in a0) = renumOpExpression f y := by
  have e : ∀ b0, rsEqOpExpression (OpExpression.in a0) (OpExpression.in b0) = (rsEqExpressionList a0 b0) := fun _ => rfl
  have e' : ∀ b0, renumOpExpression f (OpExpression.in b0) = OpExpression.in (renumExpressionList f b0) := fun _ => rfl
  refine ⟨fun h => ?_, fun h => ?_⟩
  · cases y <;> first | exact absurd (show false = true from h) Bool.false_ne_true | (rw [e] at h; rw [e', e']; simpa [h0] using h)
  · cases y <;> first | (rw [e', e'] at h; rw [e]; simpa [h0] using h) | injection h
theorem rsEqOpExpression_nin {f : NumericLiteral → NumericLiteral} (a0 : ExpressionList) (h0 : ∀ b, rsEqExpressionList a0 b = true ↔ (renumExpressionList f) a0 = (renumExpressionList f) b) (y : OpExpression) :
    rsEqOpExpression (OpExpression.nin a0) y = true ↔ renumOpExpression f (OpExpression.nin a0) = renumOpExpression f y := by
  have e : ∀ b0, rsEqOpExpression (OpExpression.nin a0) (OpExpression.nin b0) = (rsEqExpressionList a0 b0) := fun _ => rfl
  have e' : ∀ b0, renumOpExpression f (OpExpression.nin b0) = OpExpression.nin (renumExpressionList f b0) := fun _ => rfl
  refine ⟨fun h => ?_, fun h => ?_⟩
  · cases y <;> first | exact absurd (show false = true from h) Bool.false_ne_true | (rw [e] at h; rw [e', e']; simpa [h0] using h)
  · cases y <;> first | (rw [e', e'] at h; rw [e]; simpa [h0] using h) | injection h
theorem rsEqAdditiveExpression_mk {f : NumericLiteral → NumericLiteral} (a0 : MultiplicativeExpression) (h0 : ∀ b, rsEqMultiplicativeExpression a0 b = true ↔ (renumMultiplicativeExpression f) a0 = (renumMultiplicativeExpression f) b) (a1 : List AddExpression) (h1 : ∀ b, rsEqListAddExpression a1 b = true ↔ (renumListAddExpression f) a1 = (renumListAddExpression f) b) (y : AdditiveExpression) :
    rsEqAdditiveExpression (AdditiveExpression.mk a0 a1) y = true ↔ renumAdditiveExpression f (AdditiveExpression.mk a0 a1) = renumAdditiveExpression f y := by
  have e : ∀ b0 b1, rsEqAdditiveExpression (AdditiveExpression.mk a0 a1) (AdditiveExpression.mk b0 b1) = (rsEqMultiplicativeExpression a0 b0 && rsEqListAddExpression a1 b1) := fun _ _ => rfl
  have e' : ∀ b0 b1, renumAdditiveExpression f (AdditiveExpression.mk b0 b1) = AdditiveExpression.mk (renumMultiplicativeExpression f b0) (renumListAddExpression f b1) := fun _ _ => rfl
  cases y
  rw [e, e', e']
  simp [h0, h1]
theorem rsEqAddExpression_add {f : NumericLiteral → NumericLiteral} (a0 : MultiplicativeExpression) (h0 : ∀ b, rsEqMultiplicativeExpression a0 b = true ↔ (renumMultiplicativeExpression f) a0 = (renumMultiplicativeExpression f) b) (y : AddExpression) :
    rsEqAddExpression (AddExpression.add a0) y = true ↔ renumAddExpression f (AddExpression.add a0) = renumAddExpression f y := by
  have e : ∀ b0, rsEqAddExpression (AddExpression.add a0) (AddExpression.add b0) = (rsEqMultiplicativeExpression a0 b0) := fun _ => rfl
  have e' : ∀ b0, renumAddExpression f (AddExpression.add b0) = AddExpression.add (renumMultiplicativeExpression f b0) := fun _ => rfl
  refine ⟨fun h => ?_, fun h => ?_⟩
  · cases y <;> first | exact absurd (show false = true from h) Bool.false_ne_true | (rw [e] at h; rw [e', e']; simpa [h0] using h)
  · cases y <;> first | (rw [e', e'] at h; rw [e]; simpa [h0] using h) | injection h
theorem rsEqAddExpression_sub {f : NumericLiteral → NumericLiteral} (a0 : MultiplicativeExpression) (h0 : ∀ b, rsEqMultiplicativeExpression a0 b = true ↔ (renumMultiplicativeExpression f) a0 = (renumMultiplicativeExpression f) b) (y : AddExpression) :
    rsEqAddExpression (AddExpression.sub a0) y = true ↔ renumAddExpression f (AddExpression.sub a0) = renumAddExpression f y := by
  have e : ∀ b0, rsEqAddExpression (AddExpression.sub a0) (AddExpression.sub b0) = (rsEqMultiplicativeExpression a0 b0) := fun _ => rfl
  have e' : ∀ b0, renumAddExpression f (AddExpression.sub b0) = AddExpression.sub (renumMultiplicativeExpression f b0) := fun _ => rfl
  refine ⟨fun h => ?_, fun h => ?_⟩
  · cases y <;> first | exact absurd (show false = true from h) Bool.false_ne_true | (rw [e] at h; rw [e', e']; simpa [h0] using h)
  · cases y <;> first | (rw [e', e'] at h; rw [e]; simpa [h0] using h) | injection h
theorem rsEqAddExpression_numeric {f : NumericLiteral → NumericLiteral} (a0 : NumericLiteral) (h0 : ∀ b, NumericLiteral.rustEq a0 b = true ↔ f a0 = f b) (a1 : List MultExpression) (h1 : ∀ b, rsEqListMultExpression a1 b = true ↔ (renumListMultExpression f) a1 = (renumListMultExpression f) b) (y : AddExpression) :
    rsEqAddExpression (AddExpression.numeric a0 a1) y = true ↔ renumAddExpression f (AddExpression.numeric a0 a1) = renumAddExpression f y := by
  have e : ∀ b0 b1, rsEqAddExpression (AddExpression.numeric a0 a1) (AddExpression.numeric b0 b1) = (NumericLiteral.rustEq a0 b0 && rsEqListMultExpression a1 b1) := fun _ _ => rfl
  have e' : ∀ b0 b1, renumAddExpression f (AddExpression.numeric b0 b1) = AddExpression.numeric (f b0) (renumListMultExpression f b1) := fun _ _ => rfl
  refine ⟨fun h => ?_, fun h => ?_⟩
  · cases y <;> first | exact absurd (show false = true from h) Bool.false_ne_true | (rw [e] at h; rw [e', e']; simpa [h0, h1] using h)
  · cases y <;> first | (rw [e', e'] at h; rw [e]; simpa [h0, h1] using h) | injection h
theorem rsEqMultiplicativeExpression_mk {f : NumericLiteral → NumericLiteral} (a0 : UnaryExpression) (h0 : ∀ b, rsEqUnaryExpression a0 b = true ↔ (renumUnaryExpression f) a0 = (renumUnaryExpression f) b) (a1 : List MultExpression) (h1 : ∀ b, rsEqListMultExpression a1 b = true ↔ (renumListMultExpression f) a1 = (renumListMultExpression f) b) (y : MultiplicativeExpression) :
    rsEqMultiplicativeExpression (MultiplicativeExpression.mk a0 a1) y = true ↔ renumMultiplicativeExpression f (MultiplicativeExpression.mk a0 a1) = renumMultiplicativeExpression f y := by
  have e : ∀ b0 b1, rsEqMultiplicativeExpression (MultiplicativeExpression.mk a0 a1) (MultiplicativeExpression.mk b0 b1) = (rsEqUnaryExpression a0 b0 && rsEqListMultExpression a1 b1) := fun _ _ => rfl
  have e' : ∀ b0 b1, renumMultiplicativeExpression f (MultiplicativeExpression.mk b0 b1) = MultiplicativeExpression.mk (renumUnaryExpression f b0) (renumListMultExpression f b1) := fun _ _ => rfl
  cases y
  rw [e, e', e']
  simp [h0, h1]
theorem rsEqMultExpression_mult {f : NumericLiteral → NumericLiteral} (a0 : UnaryExpression) (h0 : ∀ b, rsEqUnaryExpression a0 b = true ↔ (renumUnaryExpression f) a0 = (renumUnaryExpression f) b) (y : MultExpression) :
    rsEqMultExpression (MultExpression.mult a0) y = true ↔ renumMultExpression f (MultExpression.mult a0) = renumMultExpression f y := by
  have e : ∀ b0, rsEqMultExpression (MultExpression.mult a0) (MultExpression.mult b0) = (rsEqUnaryExpression a0 b0) := fun _ => rfl
  have e' : ∀ b0, renumMultExpression f (MultExpression.mult b0) = MultExpression.mult (renumUnaryExpression f b0) := fun _ => rfl
  refine ⟨fun h => ?_, fun h => ?_⟩
  · cases y <;> first | exact absurd (show false = true from h) Bool.false_ne_true | (rw [e] at h; rw [e', e']; simpa [h0] using h)
  · cases y <;> first | (rw [e', e'] at h; rw [e]; simpa [h0] using h) | injection h
theorem rsEqMultExpression_div {f : NumericLiteral → NumericLiteral} (a0 : UnaryExpression) (h0 : ∀ b, rsEqUnaryExpression a0 b = true ↔ (renumUnaryExpression f) a0 = (renumUnaryExpression f) b) (y : MultExpression) :
    rsEqMultExpression (MultExpression.div a0) y = true ↔ renumMultExpression f (MultExpression.div a0) = renumMultExpression f y := by
  have e : ∀ b0, rsEqMultExpression (MultExpression.div a0) (MultExpression.div b0) = (rsEqUnaryExpression a0 b0) := fun _ => rfl
  have e' : ∀ b0, renumMultExpression f (MultExpression.div b0) = MultExpression.div (renumUnaryExpression f b0) := fun _ => rfl
  refine ⟨fun h => ?_, fun h => ?_⟩
  · cases y <;> first | exact absurd (show false = true from h) Bool.false_ne_true | (rw [e] at h; rw [e', e']; simpa [h0] using h)
  · cases y <;> first | (rw [e', e'] at h; rw [e]; simpa [h0] using h) | injection h
theorem rsEqUnaryExpression_not {f : NumericLiteral → NumericLiteral} (a0 : PrimaryExpression) (h0 : ∀ b, rsEqPrimaryExpression a0 b = true ↔ (renumPrimaryExpression f) a0 = (renumPrimaryExpression f) b) (y : UnaryExpression) :
    rsEqUnaryExpression (UnaryExpression.not a0) y = true ↔ renumUnaryExpression f (UnaryExpression.not a0) = renumUnaryExpression f y := by
  have e : ∀ b0, rsEqUnaryExpression (UnaryExpression.not a0) (UnaryExpression.not b0) = (rsEqPrimaryExpression a0 b0) := fun _ => rfl
  have e' : ∀ b0, renumUnaryExpression f (UnaryExpression.not b0) = UnaryExpression.not (renumPrimaryExpression f b0) := fun _ => rfl
  refine ⟨fun h => ?_, fun h => ?_⟩
  · cases y <;> first | exact absurd (show false = true from h) Bool.false_ne_true | (rw [e] at h; rw [e', e']; simpa [h0] using h)
  · cases y <;> first | (rw [e', e'] at h; rw [e]; simpa [h0] using h) | injection h
theorem rsEqUnaryExpression_add {f : NumericLiteral → NumericLiteral} (a0 : PrimaryExpression) (h0 : ∀ b, rsEqPrimaryExpression a0 b = true ↔ (renumPrimaryExpression f) a0 = (renumPrimaryExpression f) b) (y : UnaryExpression) :
    rsEqUnaryExpression (UnaryExpression.add a0) y = true ↔ renumUnaryExpression f (UnaryExpression.add a0) = renumUnaryExpression f y := by
  have e : ∀ b0, rsEqUnaryExpression (UnaryExpression.add a0) (UnaryExpression.add b0) = (rsEqPrimaryExpression a0 b0) := fun _ => rfl
  have e' : ∀ b0, renumUnaryExpression f (UnaryExpression.add b0) = UnaryExpression.add (renumPrimaryExpression f b0) := fun _ => rfl
  refine ⟨fun h => ?_, fun h => ?_⟩
  · cases y <;> first | exact absurd (show false = true from h) Bool.false_ne_true | (rw [e] at h; rw [e', e']; simpa [h0] using h)
  · cases y <;> first | (rw [e', e'] at h; rw [e]; simpa [h0] using h) | injection h
theorem rsEqUnaryExpression_sub {f : NumericLiteral → NumericLiteral} (a0 : PrimaryExpression) (h0 : ∀ b, rsEqPrimaryExpression a0 b = true ↔ (renumPrimaryExpression f) a0 = (renumPrimaryExpression f) b) (y : UnaryExpression) :
    rsEqUnaryExpression (UnaryExpression.sub a0) y = true ↔ renumUnaryExpression f (UnaryExpression.sub a0) = renumUnaryExpression f y := by
  have e : ∀ b0, rsEqUnaryExpression (UnaryExpression.sub a0) (UnaryExpression.sub b0) = (rsEqPrimaryExpression a0 b0) := fun _ => rfl
  have e' : ∀ b0, renumUnaryExpression f (UnaryExpression.sub b0) = UnaryExpression.sub (renumPrimaryExpression f b0) := fun _ => rfl
  refine ⟨fun h => ?_, fun h => ?_⟩
  · cases y <;> first | exact absurd (show false = true from h) Bool.false_ne_true | (rw [e] at h; rw [e', e']; simpa [h0] using h)
  · cases y <;> first | (rw [e', e'] at h; rw [e]; simpa [h0] using h) | injection h
theorem rsEqUnaryExpression_default {f : NumericLiteral → NumericLiteral} (a0 : PrimaryExpression) (h0 : ∀ b, rsEqPrimaryExpression a0 b = true ↔ (renumPrimaryExpression f) a0 = (renumPrimaryExpression f) b) (y : UnaryExpression) :
    rsEqUnaryExpression (UnaryExpression.default a0) y = true ↔ renumUnaryExpression f (UnaryExpression.default a0) = renumUnaryExpression f y := by
  have e : ∀ b0, rsEqUnaryExpression (UnaryExpression.default a0) (UnaryExpression.default b0) = (rsEqPrimaryExpression a0 b0) := fun _ => rfl
  have e' : ∀ b0, renumUnaryExpression f (UnaryExpression.default b0) = UnaryExpression.default (renumPrimaryExpression f b0) := fun _ => rfl
  refine ⟨fun h => ?_, fun h => ?_⟩
  · cases y <;> first | exact absurd (show false = true from h) Bool.false_ne_true | (rw [e] at h; rw [e', e']; simpa [h0] using h)
  · cases y <;> first | (rw [e', e'] at h; rw [e]; simpa [h0] using h) | injection h
theorem rsEqPrimaryExpression_brackettedExpression {f : NumericLiteral → NumericLiteral} (a0 : Expression) (h0 : ∀ b, rsEqExpression a0 b = true ↔ (renumExpression f) a0 = (renumExpression f) b) (y : PrimaryExpression) :
    rsEqPrimaryExpression (PrimaryExpression.brackettedExpression a0) y = true ↔ renumPrimaryExpression f (PrimaryExpression.brackettedExpression a0) = renumPrimaryExpression f y := by
  have e : ∀ b0, rsEqPrimaryExpression (PrimaryExpression.brackettedExpression a0) (PrimaryExpression.brackettedExpression b0) = (rsEqExpression a0 b0) := fun _ => rfl
  have e' : ∀ b0, renumPrimaryExpression f (PrimaryExpression.brackettedExpression b0) = PrimaryExpression.brackettedExpression (renumExpression f b0) := fun _ => rfl
  refine ⟨fun h => ?_, fun h => ?_⟩
  · cases y <;> first | exact absurd (show false = true from h) Bool.false_ne_true | (rw [e] at h; rw [e', e']; simpa [h0] using h)
  · cases y <;> first | (rw [e', e'] at h; rw [e]; simpa [h0] using h) | injection h
theorem rsEqPrimaryExpression_builtInCall {f : NumericLiteral → NumericLiteral} (a0 : BuiltInCall) (h0 : ∀ b, rsEqBuiltInCall a0 b = true ↔ (renumBuiltInCall f) a0 = (renumBuiltInCall f) b) (y : PrimaryExpression) :
    rsEqPrimaryExpression (PrimaryExpression.builtInCall a0) y = true ↔ renumPrimaryExpression f (PrimaryExpression.builtInCall a0) = renumPrimaryExpression f y := by
  have e : ∀ b0, rsEqPrimaryExpression (PrimaryExpression.builtInCall a0) (PrimaryExpression.builtInCall b0) = (rsEqBuiltInCall a0 b0) := fun _ => rfl
  have e' : ∀ b0, renumPrimaryExpression f (PrimaryExpression.builtInCall b0) = PrimaryExpression.builtInCall (renumBuiltInCall f b0) := fun _ => rfl
  refine ⟨fun h => ?_, fun h => ?_⟩
  · cases y <;> first | exact absurd (show false = true from h) Bool.false_ne_true | (rw [e] at h; rw [e', e']; simpa [h0] using h)
  · cases y <;> first | (rw [e', e'] at h; rw [e]; simpa [h0] using h) | injection h
theorem rsEqPrimaryExpression_iriOrFunction {f : NumericLiteral → NumericLiteral} (a0 : IriOrFunction) (h0 : ∀ b, rsEqIriOrFunction a0 b = true ↔ (renumIriOrFunction f) a0 = (renumIriOrFunction f) b) (y : PrimaryExpression) :
    rsEqPrimaryExpression (PrimaryExpression.iriOrFunction a0) y = true ↔ renumPrimaryExpression f (PrimaryExpression.iriOrFunction a0) = renumPrimaryExpression f y := by
  have e : ∀ b0, rsEqPrimaryExpression (PrimaryExpression.iriOrFunction a0) (PrimaryExpression.iriOrFunction b0) = (rsEqIriOrFunction a0 b0) := fun _ => rfl
  have e' : ∀ b0, renumPrimaryExpression f (PrimaryExpression.iriOrFunction b0) = PrimaryExpression.iriOrFunction (renumIriOrFunction f b0) := fun _ => rfl
  refine ⟨fun h => ?_, fun h => ?_⟩
  · cases y <;> first | exact absurd (show false = true from h) Bool.false_ne_true | (rw [e] at h; rw [e', e']; simpa [h0] using h)
  · cases y <;> first | (rw [e', e'] at h; rw [e]; simpa [h0] using h) | injection h
theorem rsEqPrimaryExpression_rdfLiteral {f : NumericLiteral → NumericLiteral} (a0 : RdfLiteral) (y : PrimaryExpression) :
    rsEqPrimaryExpression (PrimaryExpression.rdfLiteral a0) y = true ↔ renumPrimaryExpression f (PrimaryExpression.rdfLiteral a0) = renumPrimaryExpression f y := by
  have e : ∀ b0, rsEqPrimaryExpression (PrimaryExpression.rdfLiteral a0) (PrimaryExpression.rdfLiteral b0) = (a0 == b0) := fun _ => rfl
  have e' : ∀ b0, renumPrimaryExpression f (PrimaryExpression.rdfLiteral b0) = PrimaryExpression.rdfLiteral b0 := fun _ => rfl
  refine ⟨fun h => ?_, fun h => ?_⟩
  · cases y <;> first | exact absurd (show false = true from h) Bool.false_ne_true | (rw [e] at h; rw [e', e']; simpa using h)
  · cases y <;> first | (rw [e', e'] at h; rw [e]; simpa using h) | injection h
theorem rsEqPrimaryExpression_numericLiteral {f : NumericLiteral → NumericLiteral} (a0 : NumericLiteral) (h0 : ∀ b, NumericLiteral.rustEq a0 b = true ↔ f a0 = f b) (y : PrimaryExpression) :
    rsEqPrimaryExpression (PrimaryExpression.numericLiteral a0) y = true ↔ renumPrimaryExpression f (PrimaryExpression.numericLiteral a0) = renumPrimaryExpression f y := by
  have e : ∀ b0, rsEqPrimaryExpression (PrimaryExpression.numericLiteral a0) (PrimaryExpression.numericLiteral b0) = (NumericLiteral.rustEq a0 b0) := fun _ => rfl
  have e' : ∀ b0, renumPrimaryExpression f (PrimaryExpression.numericLiteral b0) = PrimaryExpression.numericLiteral (f b0) := fun _ => rfl
  refine ⟨fun h => ?_, fun h => ?_⟩
  · cases y <;> first | exact absurd (show false = true from h) Bool.false_ne_true | (rw [e] at h; rw [e', e']; simpa [h0] using h)
  · cases y <;> first | (rw [e', e'] at h; rw [e]; simpa [h0] using h) | injection h
theorem rsEqPrimaryExpression_booleanLiteral {f : NumericLiteral → NumericLiteral} (a0 : Bool) (y : PrimaryExpression) :
    rsEqPrimaryExpression (PrimaryExpression.booleanLiteral a0) y = true ↔ renumPrimaryExpression f (PrimaryExpression.booleanLiteral a0) = renumPrimaryExpression f y := by
  have e : ∀ b0, rsEqPrimaryExpression (PrimaryExpression.booleanLiteral a0) (PrimaryExpression.booleanLiteral b0) = (a0 == b0) := fun _ => rfl
  have e' : ∀ b0, renumPrimaryExpression f (PrimaryExpression.booleanLiteral b0) = PrimaryExpression.booleanLiteral b0 := fun _ => rfl
  refine ⟨fun h => ?_, fun h => ?_⟩
  · cases y <;> first | exact absurd (show false = true from h) Bool.false_ne_true | (rw [e] at h; rw [e', e']; simpa using h)
  · cases y <;> first | (rw [e', e'] at h; rw [e]; simpa using h) | injection h
theorem rsEqPrimaryExpression_var {f : NumericLiteral → NumericLiteral} (a0 : Var) (y : PrimaryExpression) :
    rsEqPrimaryExpression (PrimaryExpression.var a0) y = true ↔ renumPrimaryExpression f (PrimaryExpression.var a0) = renumPrimaryExpression f y := by
  have e : ∀ b0, rsEqPrimaryExpression (PrimaryExpression.var a0) (PrimaryExpression.var b0) = (a0 == b0) := fun _ => rfl
  have e' : ∀ b0, renumPrimaryExpression f (PrimaryExpression.var b0) = PrimaryExpression.var b0 := fun _ => rfl
  refine ⟨fun h => ?_, fun h => ?_⟩
  · cases y <;> first | exact absurd (show false = true from h) Bool.false_ne_true | (rw [e] at h; rw [e', e']; simpa using h)
  · cases y <;> first | (rw [e', e'] at h; rw [e]; simpa using h) | injection h
theorem rsEqExpressionList_nil {f : NumericLiteral → NumericLiteral}  (y : ExpressionList) :
    rsEqExpressionList (ExpressionList.nil) y = true ↔ renumExpressionList f (ExpressionList.nil) = renumExpressionList f y := by
  have e : rsEqExpressionList (ExpressionList.nil) (ExpressionList.nil) = (true) := rfl
  have e' : renumExpressionList f (ExpressionList.nil) = ExpressionList.nil := rfl
  refine ⟨fun h => ?_, fun h => ?_⟩
  · cases y <;> first | exact absurd (show false = true from h) Bool.false_ne_true | rfl
  · cases y <;> first | exact e | injection h
theorem rsEqExpressionList_list {f : NumericLiteral → NumericLiteral} (a0 : List Expression) (h0 : ∀ b, rsEqListExpression a0 b = true ↔ (renumListExpression f) a0 = (renumListExpression f) b) (y : ExpressionList) :
    rsEqExpressionList (ExpressionList.list a0) y = true ↔ renumExpressionList f (ExpressionList.list a0) = renumExpressionList f y := by
  have e : ∀ b0, rsEqExpressionList (ExpressionList.list a0) (ExpressionList.list b0) = (rsEqListExpression a0 b0) := fun _ => rfl
  have e' : ∀ b0, renumExpressionList f (ExpressionList.list b0) = ExpressionList.list (renumListExpression f b0) := fun _ => rfl
  refine ⟨fun h => ?_, fun h => ?_⟩
  · cases y <;> first | exact absurd (show false = true from h) Bool.false_ne_true | (rw [e] at h; rw [e', e']; simpa [h0] using h)
  · cases y <;> first | (rw [e', e'] at h; rw [e]; simpa [h0] using h) | injection h
theorem rsEqIriOrFunction_mk {f : NumericLiteral → NumericLiteral} (a0 : Iri) (a1 : Option ArgList) (h1 : ∀ b, rsEqOptionArgList a1 b = true ↔ (renumOptionArgList f) a1 = (renumOptionArgList f) b) (y : IriOrFunction) :
    rsEqIriOrFunction (IriOrFunction.mk a0 a1) y = true ↔ renumIriOrFunction f (IriOrFunction.mk a0 a1) = renumIriOrFunction f y := by
  have e : ∀ b0 b1, rsEqIriOrFunction (IriOrFunction.mk a0 a1) (IriOrFunction.mk b0 b1) = (a0 == b0 && rsEqOptionArgList a1 b1) := fun _ _ => rfl
  have e' : ∀ b0 b1, renumIriOrFunction f (IriOrFunction.mk b0 b1) = IriOrFunction.mk b0 (renumOptionArgList f b1) := fun _ _ => rfl
  cases y
  rw [e, e', e']
  simp [h1]
theorem rsEqArgList_nil {f : NumericLiteral → NumericLiteral}  (y : ArgList) :
    rsEqArgList (ArgList.nil) y = true ↔ renumArgList f (ArgList.nil) = renumArgList f y := by
  have e : rsEqArgList (ArgList.nil) (ArgList.nil) = (true) := rfl
  have e' : renumArgList f (ArgList.nil) = ArgList.nil := rfl
  refine ⟨fun h => ?_, fun h => ?_⟩
  · cases y <;> first | exact absurd (show false = true from h) Bool.false_ne_true | rfl
  · cases y <;> first | exact e | injection h
theorem rsEqArgList_expression {f : NumericLiteral → NumericLiteral} (a0 : Bool) (a1 : List Expression) (h1 : ∀ b, rsEqListExpression a1 b = true ↔ (renumListExpression f) a1 = (renumListExpression f) b) (y : ArgList) :
    rsEqArgList (ArgList.expression a0 a1) y = true ↔ renumArgList f (ArgList.expression a0 a1) = renumArgList f y := by
  have e : ∀ b0 b1, rsEqArgList (ArgList.expression a0 a1) (ArgList.expression b0 b1) = (a0 == b0 && rsEqListExpression a1 b1) := fun _ _ => rfl
  have e' : ∀ b0 b1, renumArgList f (ArgList.expression b0 b1) = ArgList.expression b0 (renumListExpression f b1) := fun _ _ => rfl
  refine ⟨fun h => ?_, fun h => ?_⟩
  · cases y <;> first | exact absurd (show false = true from h) Bool.false_ne_true | (rw [e] at h; rw [e', e']; simpa [h1] using h)
  · cases y <;> first | (rw [e', e'] at h; rw [e]; simpa [h1] using h) | injection h
theorem rsEqDistinctExpression_mk {f : NumericLiteral → NumericLiteral} (a0 : Bool) (a1 : Expression) (h1 : ∀ b, rsEqExpression a1 b = true ↔ (renumExpression f) a1 = (renumExpression f) b) (y : DistinctExpression) :
    rsEqDistinctExpression (DistinctExpression.mk a0 a1) y = true ↔ renumDistinctExpression f (DistinctExpression.mk a0 a1) = renumDistinctExpression f y := by
  have e : ∀ b0 b1, rsEqDistinctExpression (DistinctExpression.mk a0 a1) (DistinctExpression.mk b0 b1) = (a0 == b0 && rsEqExpression a1 b1) := fun _ _ => rfl
  have e' : ∀ b0 b1, renumDistinctExpression f (DistinctExpression.mk b0 b1) = DistinctExpression.mk b0 (renumExpression f b1) := fun _ _ => rfl
  cases y
  rw [e, e', e']
  simp [h1]
theorem rsEqExpressionAsVar_mk {f : NumericLiteral → NumericLiteral} (a0 : Expression) (h0 : ∀ b, rsEqExpression a0 b = true ↔ (renumExpression f) a0 = (renumExpression f) b) (a1 : Var) (y : ExpressionAsVar) :
    rsEqExpressionAsVar (ExpressionAsVar.mk a0 a1) y = true ↔ renumExpressionAsVar f (ExpressionAsVar.mk a0 a1) = renumExpressionAsVar f y := by
  have e : ∀ b0 b1, rsEqExpressionAsVar (ExpressionAsVar.mk a0 a1) (ExpressionAsVar.mk b0 b1) = (rsEqExpression a0 b0 && a1 == b1) := fun _ _ => rfl
  have e' : ∀ b0 b1, renumExpressionAsVar f (ExpressionAsVar.mk b0 b1) = ExpressionAsVar.mk (renumExpression f b0) b1 := fun _ _ => rfl
  cases y
  rw [e, e', e']
  simp [h0]
theorem rsEqExpressionAsVarOpt_mk {f : NumericLiteral → NumericLiteral} (a0 : Expression) (h0 : ∀ b, rsEqExpression a0 b = true ↔ (renumExpression f) a0 = (renumExpression f) b) (a1 : Option Var) (y : ExpressionAsVarOpt) :
    rsEqExpressionAsVarOpt (ExpressionAsVarOpt.mk a0 a1) y = true ↔ renumExpressionAsVarOpt f (ExpressionAsVarOpt.mk a0 a1) = renumExpressionAsVarOpt f y := by
  have e : ∀ b0 b1, rsEqExpressionAsVarOpt (ExpressionAsVarOpt.mk a0 a1) (ExpressionAsVarOpt.mk b0 b1) = (rsEqExpression a0 b0 && a1 == b1) := fun _ _ => rfl
  have e' : ∀ b0 b1, renumExpressionAsVarOpt f (ExpressionAsVarOpt.mk b0 b1) = ExpressionAsVarOpt.mk (renumExpression f b0) b1 := fun _ _ => rfl
  cases y
  rw [e, e', e']
  simp [h0]
theorem rsEqRegexExpression_mk {f : NumericLiteral → NumericLiteral} (a0 : Expression) (h0 : ∀ b, rsEqExpression a0 b = true ↔ (renumExpression f) a0 = (renumExpression f) b) (a1 : Expression) (h1 : ∀ b, rsEqExpression a1 b = true ↔ (renumExpression f) a1 = (renumExpression f) b) (a2 : Option Expression) (h2 : ∀ b, rsEqOptionExpression a2 b = true ↔ (renumOptionExpression f) a2 = (renumOptionExpression f) b) (y : RegexExpression) :
    rsEqRegexExpression (RegexExpression.mk a0 a1 a2) y = true ↔ renumRegexExpression f (RegexExpression.mk a0 a1 a2) = renumRegexExpression f y := by
  have e : ∀ b0 b1 b2, rsEqRegexExpression (RegexExpression.mk a0 a1 a2) (RegexExpression.mk b0 b1 b2) = (rsEqExpression a0 b0 && rsEqExpression a1 b1 && rsEqOptionExpression a2 b2) := fun _ _ _ => rfl
  have e' : ∀ b0 b1 b2, renumRegexExpression f (RegexExpression.mk b0 b1 b2) = RegexExpression.mk (renumExpression f b0) (renumExpression f b1) (renumOptionExpression f b2) := fun _ _ _ => rfl
  cases y
  rw [e, e', e']
  simp [h0, h1, h2, and_assoc]
theorem rsEqStrReplaceExpression_mk {f : NumericLiteral → NumericLiteral} (a0 : Expression) (h0 : ∀ b, rsEqExpression a0 b = true ↔ (renumExpression f) a0 = (renumExpression f) b) (a1 : Expression) (h1 : ∀ b, rsEqExpression a1 b = true ↔ (renumExpression f) a1 = (renumExpression f) b) (a2 : Expression) (h2 : ∀ b, rsEqExpression a2 b = true ↔ (renumExpression f) a2 = (renumExpression f) b) (a3 : Option Expression) (h3 : ∀ b, rsEqOptionExpression a3 b = true ↔ (renumOptionExpression f) a3 = (renumOptionExpression f) b) (y : StrReplaceExpression) :
    rsEqStrReplaceExpression (StrReplaceExpression.mk a0 a1 a2 a3) y = true ↔ renumStrReplaceExpression f (StrReplaceExpression.mk a0 a1 a2 a3) = renumStrReplaceExpression f y := by
  have e : ∀ b0 b1 b2 b3, rsEqStrReplaceExpression (StrReplaceExpression.mk a0 a1 a2 a3) (StrReplaceExpression.mk b0 b1 b2 b3) = (rsEqExpression a0 b0 && rsEqExpression a1 b1 && rsEqExpression a2 b2 && rsEqOptionExpression a3 b3) := fun _ _ _ _ => rfl
  have e' : ∀ b0 b1 b2 b3, renumStrReplaceExpression f (StrReplaceExpression.mk b0 b1 b2 b3) = StrReplaceExpression.mk (renumExpression f b0) (renumExpression f b1) (renumExpression f b2) (renumOptionExpression f b3) := fun _ _ _ _ => rfl
  cases y
  rw [e, e', e']
  simp [h0, h1, h2, h3, and_assoc]
theorem rsEqConstraint_bracketted {f : NumericLiteral → NumericLiteral} (a0 : Expression) (h0 : ∀ b, rsEqExpression a0 b = true ↔ (renumExpression f) a0 = (renumExpression f) b) (y : Constraint) :
    rsEqConstraint (Constraint.bracketted a0) y = true ↔ renumConstraint f (Constraint.bracketted a0) = renumConstraint f y := by
  have e : ∀ b0, rsEqConstraint (Constraint.bracketted a0) (Constraint.bracketted b0) = (rsEqExpression a0 b0) := fun _ => rfl
  have e' : ∀ b0, renumConstraint f (Constraint.bracketted b0) = Constraint.bracketted (renumExpression f b0) := fun _ => rfl
  refine ⟨fun h => ?_, fun h => ?_⟩
  · cases y <;> first | exact absurd (show false = true from h) Bool.false_ne_true | (rw [e] at h; rw [e', e']; simpa [h0] using h)
  · cases y <;> first | (rw [e', e'] at h; rw [e]; simpa [h0] using h) | injection h
theorem rsEqConstraint_builtInCall {f : NumericLiteral → NumericLiteral} (a0 : BuiltInCall) (h0 : ∀ b, rsEqBuiltInCall a0 b = true ↔ (renumBuiltInCall f) a0 = (renumBuiltInCall f) b) (y : Constraint) :
    rsEqConstraint (Constraint.builtInCall a0) y = true ↔ renumConstraint f (Constraint.builtInCall a0) = renumConstraint f y := by
  have e : ∀ b0, rsEqConstraint (Constraint.builtInCall a0) (Constraint.builtInCall b0) = (rsEqBuiltInCall a0 b0) := fun _ => rfl
  have e' : ∀ b0, renumConstraint f (Constraint.builtInCall b0) = Constraint.builtInCall (renumBuiltInCall f b0) := fun _ => rfl
  refine ⟨fun h => ?_, fun h => ?_⟩
  · cases y <;> first | exact absurd (show false = true from h) Bool.false_ne_true | (rw [e] at h; rw [e', e']; simpa [h0] using h)
  · cases y <;> first | (rw [e', e'] at h; rw [e]; simpa [h0] using h) | injection h
theorem rsEqConstraint_functionCall {f : NumericLiteral → NumericLiteral} (a0 : FunctionCall) (h0 : ∀ b, rsEqFunctionCall a0 b = true ↔ (renumFunctionCall f) a0 = (renumFunctionCall f) b) (y : Constraint) :
    rsEqConstraint (Constraint.functionCall a0) y = true ↔ renumConstraint f (Constraint.functionCall a0) = renumConstraint f y := by
  have e : ∀ b0, rsEqConstraint (Constraint.functionCall a0) (Constraint.functionCall b0) = (rsEqFunctionCall a0 b0) := fun _ => rfl
  have e' : ∀ b0, renumConstraint f (Constraint.functionCall b0) = Constraint.functionCall (renumFunctionCall f b0) := fun _ => rfl
  refine ⟨fun h => ?_, fun h => ?_⟩
  · cases y <;> first | exact absurd (show false = true from h) Bool.false_ne_true | (rw [e] at h; rw [e', e']; simpa [h0] using h)
  · cases y <;> first | (rw [e', e'] at h; rw [e]; simpa [h0] using h) | injection h
theorem rsEqFunctionCall_mk {f : NumericLiteral → NumericLiteral} (a0 : Iri) (a1 : ArgList) (h1 : ∀ b, rsEqArgList a1 b = true ↔ (renumArgList f) a1 = (renumArgList f) b) (y : FunctionCall) :
    rsEqFunctionCall (FunctionCall.mk a0 a1) y = true ↔ renumFunctionCall f (FunctionCall.mk a0 a1) = renumFunctionCall f y := by
  have e : ∀ b0 b1, rsEqFunctionCall (FunctionCall.mk a0 a1) (FunctionCall.mk b0 b1) = (a0 == b0 && rsEqArgList a1 b1) := fun _ _ => rfl
  have e' : ∀ b0 b1, renumFunctionCall f (FunctionCall.mk b0 b1) = FunctionCall.mk b0 (renumArgList f b1) := fun _ _ => rfl
  cases y
  rw [e, e', e']
  simp [h1]
theorem rsEqBuiltInCall_aggregate {f : NumericLiteral → NumericLiteral} (a0 : Aggregate) (h0 : ∀ b, rsEqAggregate a0 b = true ↔ (renumAggregate f) a0 = (renumAggregate f) b) (y : BuiltInCall) :
    rsEqBuiltInCall (BuiltInCall.aggregate a0) y = true ↔ renumBuiltInCall f (BuiltInCall.aggregate a0) = renumBuiltInCall f y := by
  have e : ∀ b0, rsEqBuiltInCall (BuiltInCall.aggregate a0) (BuiltInCall.aggregate b0) = (rsEqAggregate a0 b0) := fun _ => rfl
  have e' : ∀ b0, renumBuiltInCall f (BuiltInCall.aggregate b0) = BuiltInCall.aggregate (renumAggregate f b0) := fun _ => rfl
  refine ⟨fun h => ?_, fun h => ?_⟩
  · cases y <;> first | exact absurd (show false = true from h) Bool.false_ne_true | (rw [e] at h; rw [e', e']; simpa [h0] using h)
  · cases y <;> first | (rw [e', e'] at h; rw [e]; simpa [h0] using h) | injection h
theorem rsEqBuiltInCall_str {f : NumericLiteral → NumericLiteral} (a0 : Expression) (h0 : ∀ b, rsEqExpression a0 b = true ↔ (renumExpression f) a0 = (renumExpression f) b) (y : BuiltInCall) :
    rsEqBuiltInCall (BuiltInCall.str a0) y = true ↔ renumBuiltInCall f (BuiltInCall.str a0) = renumBuiltInCall f y := by
  have e : ∀ b0, rsEqBuiltInCall (BuiltInCall.str a0) (BuiltInCall.str b0) = (rsEqExpression a0 b0) := fun _ => rfl
  have e' : ∀ b0, renumBuiltInCall f (BuiltInCall.str b0) = BuiltInCall.str (renumExpression f b0) := fun _ => rfl
  refine ⟨fun h => ?_, fun h => ?_⟩
  · cases y <;> first | exact absurd (show false = true from h) Bool.false_ne_true | (rw [e] at h; rw [e', e']; simpa [h0] using h)
  · cases y <;> first | (rw [e', e'] at h; rw [e]; simpa [h0] using h) | injection h
theorem rsEqBuiltInCall_lang {f : NumericLiteral → NumericLiteral} (a0 : Expression) (h0 : ∀ b, rsEqExpression a0 b = true ↔ (renumExpression f) a0 = (renumExpression f) b) (y : BuiltInCall) :
    rsEqBuiltInCall (BuiltInCall.lang a0) y = true ↔ renumBuiltInCall f (BuiltInCall.lang a0) = renumBuiltInCall f y := by
  have e : ∀ b0, rsEqBuiltInCall (BuiltInCall.lang a0) (BuiltInCall.lang b0) = (rsEqExpression a0 b0) := fun _ => rfl
  have e' : ∀ b0, renumBuiltInCall f (BuiltInCall.lang b0) = BuiltInCall.lang (renumExpression f b0) := fun _ => rfl
  refine ⟨fun h => ?_, fun h => ?_⟩
  · cases y <;> first | exact absurd (show false = true from h) Bool.false_ne_true | (rw [e] at h; rw [e', e']; simpa [h0] using h)
  · cases y <;> first | (rw [e', e'] at h; rw [e]; simpa [h0] using h) | injection h
theorem rsEqBuiltInCall_langMatches {f : NumericLiteral → NumericLiteral} (a0 : Expression) (h0 : ∀ b, rsEqExpression a0 b = true ↔ (renumExpression f) a0 = (renumExpression f) b) (a1 : Expression) (h1 : ∀ b, rsEqExpression a1 b = true ↔ (renumExpression f) a1 = (renumExpression f) b) (y : BuiltInCall) :
    rsEqBuiltInCall (BuiltInCall.langMatches a0 a1) y = true ↔ renumBuiltInCall f (BuiltInCall.langMatches a0 a1) = renumBuiltInCall f y := by
  have e : ∀ b0 b1, rsEqBuiltInCall (BuiltInCall.langMatches a0 a1) (BuiltInCall.langMatches b0 b1) = (rsEqExpression a0 b0 && rsEqExpression a1 b1) := fun _ _ => rfl
  have e' : ∀ b0 b1, renumBuiltInCall f (BuiltInCall.langMatches b0 b1) = BuiltInCall.langMatches (renumExpression f b0) (renumExpression f b1) := fun _ _ => rfl
  refine ⟨fun h => ?_, fun h => ?_⟩
  · cases y <;> first | exact absurd (show false = true from h) Bool.false_ne_true | (rw [e] at h; rw [e', e']; simpa [h0, h1] using h)
  · cases y <;> first | (rw [e', e'] at h; rw [e]; simpa [h0, h1] using h) | injection h
theorem rsEqBuiltInCall_datatype {f : NumericLiteral → NumericLiteral} (a0 : Expression) (h0 : ∀ b, rsEqExpression a0 b = true ↔ (renumExpression f) a0 = (renumExpression f) b) (y : BuiltInCall) :
    rsEqBuiltInCall (BuiltInCall.datatype a0) y = true ↔ renumBuiltInCall f (BuiltInCall.datatype a0) = renumBuiltInCall f y := by
  have e : ∀ b0, rsEqBuiltInCall (BuiltInCall.datatype a0) (BuiltInCall.datatype b0) = (rsEqExpression a0 b0) := fun _ => rfl
  have e' : ∀ b0, renumBuiltInCall f (BuiltInCall.datatype b0) = BuiltInCall.datatype (renumExpression f b0) := fun _ => rfl
  refine ⟨fun h => ?_, fun h => ?_⟩
  · cases y <;> first | exact absurd (show false = true from h) Bool.false_ne_true | (rw [e] at h; rw [e', e']; simpa [h0] using h)
  · cases y <;> first | (rw [e', e'] at h; rw [e]; simpa [h0] using h) | injection h
theorem rsEqBuiltInCall_bound {f : NumericLiteral → NumericLiteral} (a0 : Var) (y : BuiltInCall) :
    rsEqBuiltInCall (BuiltInCall.bound a0) y = true ↔ renumBuiltInCall f (BuiltInCall.bound a0) = renumBuiltInCall f y := by
  have e : ∀ b0, rsEqBuiltInCall (BuiltInCall.bound a0) (BuiltInCall.bound b0) = (a0 == b0) := fun _ => rfl
  have e' : ∀ b0, renumBuiltInCall f (BuiltInCall.bound b0) = BuiltInCall.bound b0 := fun _ => rfl
  refine ⟨fun h => ?_, fun h => ?_⟩
  · cases y <;> first | exact absurd (show false = true from h) Bool.false_ne_true | (rw [e] at h; rw [e', e']; simpa using h)
  · cases y <;> first | (rw [e', e'] at h; rw [e]; simpa using h) | injection h
theorem rsEqBuiltInCall_iri {f : NumericLiteral → NumericLiteral} (a0 : Expression) (h0 : ∀ b, rsEqExpression a0 b = true ↔ (renumExpression f) a0 = (renumExpression f) b) (y : BuiltInCall) :
    rsEqBuiltInCall (BuiltInCall.iri a0) y = true ↔ renumBuiltInCall f (BuiltInCall.iri a0) = renumBuiltInCall f y := by
  have e : ∀ b0, rsEqBuiltInCall (BuiltInCall.iri a0) (BuiltInCall.iri b0) = (rsEqExpression a0 b0) := fun _ => rfl
  have e' : ∀ b0, renumBuiltInCall f (BuiltInCall.iri b0) = BuiltInCall.iri (renumExpression f b0) := fun _ => rfl
  refine ⟨fun h => ?_, fun h => ?_⟩
  · cases y <;> first | exact absurd (show false = true from h) Bool.false_ne_true | (rw [e] at h; rw [e', e']; simpa [h0] using h)
  · cases y <;> first | (rw [e', e'] at h; rw [e]; simpa [h0] using h) | injection h
theorem rsEqBuiltInCall_uri {f : NumericLiteral → NumericLiteral} (a0 : Expression) (h0 : ∀ b, rsEqExpression a0 b = true ↔ (renumExpression f) a0 = (renumExpression f) b) (y : BuiltInCall) :
    rsEqBuiltInCall (BuiltInCall.uri a0) y = true ↔ renumBuiltInCall f (BuiltInCall.uri a0) = renumBuiltInCall f y := by
  have e : ∀ b0, rsEqBuiltInCall (BuiltInCall.uri a0) (BuiltInCall.uri b0) = (rsEqExpression a0 b0) := fun _ => rfl
  have e' : ∀ b0, renumBuiltInCall f (BuiltInCall.uri b0) = BuiltInCall.uri (renumExpression f b0) := fun _ => rfl
  refine ⟨fun h => ?_, fun h => ?_⟩
  · cases y <;> first | exact absurd (show false = true from h) Bool.false_ne_true | (rw [e] at h; rw [e', e']; simpa [h0] using h)
  · cases y <;> first | (rw [e', e'] at h; rw [e]; simpa [h0] using h) | injection h
theorem rsEqBuiltInCall_bnode {f : NumericLiteral → NumericLiteral} (a0 : Option Expression) (h0 : ∀ b, rsEqOptionExpression a0 b = true ↔ (renumOptionExpression f) a0 = (renumOptionExpression f) b) (y : BuiltInCall) :
    rsEqBuiltInCall (BuiltInCall.bnode a0) y = true ↔ renumBuiltInCall f (BuiltInCall.bnode a0) = renumBuiltInCall f y := by
  have e : ∀ b0, rsEqBuiltInCall (BuiltInCall.bnode a0) (BuiltInCall.bnode b0) = (rsEqOptionExpression a0 b0) := fun _ => rfl
  have e' : ∀ b0, renumBuiltInCall f (BuiltInCall.bnode b0) = BuiltInCall.bnode (renumOptionExpression f b0) := fun _ => rfl
  refine ⟨fun h => ?_, fun h => ?_⟩
  · cases y <;> first | exact absurd (show false = true from h) Bool.false_ne_true | (rw [e] at h; rw [e', e']; simpa [h0] using h)
  · cases y <;> first | (rw [e', e'] at h; rw [e]; simpa [h0] using h) | injection h
theorem rsEqBuiltInCall_rand {f : NumericLiteral → NumericLiteral}  (y : BuiltInCall) :
    rsEqBuiltInCall (BuiltInCall.rand) y = true ↔ renumBuiltInCall f (BuiltInCall.rand) = renumBuiltInCall f y := by
  have e : rsEqBuiltInCall (BuiltInCall.rand) (BuiltInCall.rand) = (true) := rfl
  have e' : renumBuiltInCall f (BuiltInCall.rand) = BuiltInCall.rand := rfl
  refine ⟨fun h => ?_, fun h => ?_⟩
  · cases y <;> first | exact absurd (show false = true from h) Bool.false_ne_true | rfl
  · cases y <;> first | exact e | injection h
theorem rsEqBuiltInCall_abs {f : NumericLiteral → NumericLiteral} (a0 : Expression) (h0 : ∀ b, rsEqExpression a0 b = true ↔ (renumExpression f) a0 = (renumExpression f) b) (y : BuiltInCall) :
    rsEqBuiltInCall (BuiltInCall.abs a0) y = true ↔ renumBuiltInCall f (BuiltInCall.abs a0) = renumBuiltInCall f y := by
  have e : ∀ b0, rsEqBuiltInCall (BuiltInCall.abs a0) (BuiltInCall.abs b0) = (rsEqExpression a0 b0) := fun _ => rfl
  have e' : ∀ b0, renumBuiltInCall f (BuiltInCall.abs b0) = BuiltInCall.abs (renumExpression f b0) := fun _ => rfl
  refine ⟨fun h => ?_, fun h => ?_⟩
  · cases y <;> first | exact absurd (show false = true from h) Bool.false_ne_true | (rw [e] at h; rw [e', e']; simpa [h0] using h)
  · cases y <;> first | (rw [e', e'] at h; rw [e]; simpa [h0] using h) | injection h
theorem rsEqBuiltInCall_ceil {f : NumericLiteral → NumericLiteral} (a0 : Expression) (h0 : ∀ b, rsEqExpression a0 b = true ↔ (renumExpression f) a0 = (renumExpression f) b) (y : BuiltInCall) :
    rsEqBuiltInCall (BuiltInCall.ceil a0) y = true ↔ renumBuiltInCall f (BuiltInCall.ceil a0) = renumBuiltInCall f y := by
  have e : ∀ b0, rsEqBuiltInCall (BuiltInCall.ceil a0) (BuiltInCall.ceil b0) = (rsEqExpression a0 b0) := fun _ => rfl
  have e' : ∀ b0, renumBuiltInCall f (BuiltInCall.ceil b0) = BuiltInCall.ceil (renumExpression f b0) := fun _ => rfl
  refine ⟨fun h => ?_, fun h => ?_⟩
  · cases y <;> first | exact absurd (show false = true from h) Bool.false_ne_true | (rw [e] at h; rw [e', e']; simpa [h0] using h)
  · cases y <;> first | (rw [e', e'] at h; rw [e]; simpa [h0] using h) | injection h
theorem rsEqBuiltInCall_floor {f : NumericLiteral → NumericLiteral} (a0 : Expression) (h0 : ∀ b, rsEqExpression a0 b = true ↔ (renumExpression f) a0 = (renumExpression f) b) (y : BuiltInCall) :
    rsEqBuiltInCall (BuiltInCall.floor a0) y = true ↔ renumBuiltInCall f (BuiltInCall.floor a0) = renumBuiltInCall f y := by
  have e : ∀ b0, rsEqBuiltInCall (BuiltInCall.floor a0) (BuiltInCall.floor b0) = (rsEqExpression a0 b0) := fun _ => rfl
  have e' : ∀ b0, renumBuiltInCall f (BuiltInCall.floor b0) = BuiltInCall.floor (renumExpression f b0) := fun _ => rfl
  refine ⟨fun h => ?_, fun h => ?_⟩
  · cases y <;> first | exact absurd (show false = true from h) Bool.false_ne_true | (rw [e] at h; rw [e', e']; simpa [h0] using h)
  · cases y <;> first | (rw [e', e'] at h; rw [e]; simpa [h0] using h) | injection h
theorem rsEqBuiltInCall_round {f : NumericLiteral → NumericLiteral} (a0 : Expression) (h0 : ∀ b, rsEqExpression a0 b = true ↔ (renumExpression f) a0 = (renumExpression f) b) (y : BuiltInCall) :
    rsEqBuiltInCall (BuiltInCall.round a0) y = true ↔ renumBuiltInCall f (BuiltInCall.round a0) = renumBuiltInCall f y := by
  have e : ∀ b0, rsEqBuiltInCall (BuiltInCall.round a0) (BuiltInCall.round b0) = (rsEqExpression a0 b0) := fun _ => rfl
  have e' : ∀ b0, renumBuiltInCall f (BuiltInCall.round b0) = BuiltInCall.round (renumExpression f b0) := fun _ => rfl
  refine ⟨fun h => ?_, fun h => ?_⟩
  · cases y <;> first | exact absurd (show false = true from h) Bool.false_ne_true | (rw [e] at h; rw [e', e']; simpa [h0] using h)
  · cases y <;> first | (rw [e', e'] at h; rw [e]; simpa [h0] using h) | injection h
theorem rsEqBuiltInCall_concat {f : NumericLiteral → NumericLiteral} (a0 : ExpressionList) (h0 : ∀ b, rsEqExpressionList a0 b = true ↔ (renumExpressionList f) a0 = (renumExpressionList f) b) (a1 : RegexExpression) (h1 : ∀ b, rsEqRegexExpression a1 b = true ↔ (renumRegexExpression f) a1 = (renumRegexExpression f) b) (y : BuiltInCall) :
    rsEqBuiltInCall (BuiltInCall.concat a0 a1) y = true ↔ renumBuiltInCall f (BuiltInCall.concat a0 a1) = renumBuiltInCall f y := by
  have e : ∀ b0 b1, rsEqBuiltInCall (BuiltInCall.concat a0 a1) (BuiltInCall.concat b0 b1) = (rsEqExpressionList a0 b0 && rsEqRegexExpression a1 b1) := fun _ _ => rfl
  have e' : ∀ b0 b1, renumBuiltInCall f (BuiltInCall.concat b0 b1) = BuiltInCall.concat (renumExpressionList f b0) (renumRegexExpression f b1) := fun _ _ => rfl
  refine ⟨fun h => ?_, fun h => ?_⟩
  · cases y <;> first | exact absurd (show false = true from h) Bool.false_ne_true | (rw [e] at h; rw [e', e']; simpa [h0, h1] using h)
  · cases y <;> first | (rw [e', e'] at h; rw [e]; simpa [h0, h1] using h) | injection h
theorem rsEqBuiltInCall_strLen {f : NumericLiteral → NumericLiteral} (a0 : Expression) (h0 : ∀ b, rsEqExpression a0 b = true ↔ (renumExpression f) a0 = (renumExpression f) b) (a1 : StrReplaceExpression) (h1 : ∀ b, rsEqStrReplaceExpression a1 b = true ↔ (renumStrReplaceExpression f) a1 = (renumStrReplaceExpression f) b) (y : BuiltInCall) :
    rsEqBuiltInCall (BuiltInCall.strLen a0 a1) y = true ↔ renumBuiltInCall f (BuiltInCall.strLen a0 a1) = renumBuiltInCall f y := by
  have e : ∀ b0 b1, rsEqBuiltInCall (BuiltInCall.strLen a0 a1) (BuiltInCall.strLen b0 b1) = (rsEqExpression a0 b0 && rsEqStrReplaceExpression a1 b1) := fun _ _ => rfl
  have e' : ∀ b0 b1, renumBuiltInCall f (BuiltInCall.strLen b0 b1) = BuiltInCall.strLen (renumExpression f b0) (renumStrReplaceExpression f b1) := fun _ _ => rfl
  refine ⟨fun h => ?_, fun h => ?_⟩
  · cases y <;> first | exact absurd (show false = true from h) Bool.false_ne_true | (rw [e] at h; rw [e', e']; simpa [h0, h1] using h)
  · cases y <;> first | (rw [e', e'] at h; rw [e]; simpa [h0, h1] using h) | injection h
theorem rsEqBuiltInCall_uCase {f : NumericLiteral → NumericLiteral} (a0 : Expression) (h0 : ∀ b, rsEqExpression a0 b = true ↔ (renumExpression f) a0 = (renumExpression f) b) (y : BuiltInCall) :
    rsEqBuiltInCall (BuiltInCall.uCase a0) y = true ↔ renumBuiltInCall f (BuiltInCall.uCase a0) = renumBuiltInCall f y := by
  have e : ∀ b0, rsEqBuiltInCall (BuiltInCall.uCase a0) (BuiltInCall.uCase b0) = (rsEqExpression a0 b0) := fun _ => rfl
  have e' : ∀ b0, renumBuiltInCall f (BuiltInCall.uCase b0) = BuiltInCall.uCase (renumExpression f b0) := fun _ => rfl
  refine ⟨fun h => ?_, fun h => ?_⟩
  · cases y <;> first | exact absurd (show false = true from h) Bool.false_ne_true | (rw [e] at h; rw [e', e']; simpa [h0] using h)
  · cases y <;> first | (rw [e', e'] at h; rw [e]; simpa [h0] using h) | injection h
theorem rsEqBuiltInCall_lCase {f : NumericLiteral → NumericLiteral} (a0 : Expression) (h0 : ∀ b, rsEqExpression a0 b = true ↔ (renumExpression f) a0 = (renumExpression f) b) (y : BuiltInCall) :
    rsEqBuiltInCall (BuiltInCall.lCase a0) y = true ↔ renumBuiltInCall f (BuiltInCall.lCase a0) = renumBuiltInCall f y := by
  have e : ∀ b0, rsEqBuiltInCall (BuiltInCall.lCase a0) (BuiltInCall.lCase b0) = (rsEqExpression a0 b0) := fun _ => rfl
  have e' : ∀ b0, renumBuiltInCall f (BuiltInCall.lCase b0) = BuiltInCall.lCase (renumExpression f b0) := fun _ => rfl
  refine ⟨fun h => ?_, fun h => ?_⟩
  · cases y <;> first | exact absurd (show false = true from h) Bool.false_ne_true | (rw [e] at h; rw [e', e']; simpa [h0] using h)
  · cases y <;> first | (rw [e', e'] at h; rw [e]; simpa [h0] using h) | injection h
theorem rsEqBuiltInCall_encodeForUri {f : NumericLiteral → NumericLiteral} (a0 : Expression) (h0 : ∀ b, rsEqExpression a0 b = true ↔ (renumExpression f) a0 = (renumExpression f) b) (y : BuiltInCall) :
    rsEqBuiltInCall (BuiltInCall.encodeForUri a0) y = true ↔ renumBuiltInCall f (BuiltInCall.encodeForUri a0) = renumBuiltInCall f y := by
  have e : ∀ b0, rsEqBuiltInCall (BuiltInCall.encodeForUri a0) (BuiltInCall.encodeForUri b0) = (rsEqExpression a0 b0) := fun _ => rfl
  have e' : ∀ b0, renumBuiltInCall f (BuiltInCall.encodeForUri b0) = BuiltInCall.encodeForUri (renumExpression f b0) := fun _ => rfl
  refine ⟨fun h => ?_, fun h => ?_⟩
  · cases y <;> first | exact absurd (show false = true from h) Bool.false_ne_true | (rw [e] at h; rw [e', e']; simpa [h0] using h)
  · cases y <;> first | (rw [e', e'] at h; rw [e]; simpa [h0] using h) | injection h
theorem rsEqBuiltInCall_contains {f : NumericLiteral → NumericLiteral} (a0 : Expression) (h0 : ∀ b, rsEqExpression a0 b = true ↔ (renumExpression f) a0 = (renumExpression f) b) (a1 : Expression) (h1 : ∀ b, rsEqExpression a1 b = true ↔ (renumExpression f) a1 = (renumExpression f) b) (y : BuiltInCall) :
    rsEqBuiltInCall (BuiltInCall.contains a0 a1) y = true ↔ renumBuiltInCall f (BuiltInCall.contains a0 a1) = renumBuiltInCall f y := by
  have e : ∀ b0 b1, rsEqBuiltInCall (BuiltInCall.contains a0 a1) (BuiltInCall.contains b0 b1) = (rsEqExpression a0 b0 && rsEqExpression a1 b1) := fun _ _ => rfl
  have e' : ∀ b0 b1, renumBuiltInCall f (BuiltInCall.contains b0 b1) = BuiltInCall.contains (renumExpression f b0) (renumExpression f b1) := fun _ _ => rfl
  refine ⟨fun h => ?_, fun h => ?_⟩
  · cases y <;> first | exact absurd (show false = true from h) Bool.false_ne_true | (rw [e] at h; rw [e', e']; simpa [h0, h1] using h)
  · cases y <;> first | (rw [e', e'] at h; rw [e]; simpa [h0, h1] using h) | injection h
theorem rsEqBuiltInCall_strStarts {f : NumericLiteral → NumericLiteral} (a0 : Expression) (h0 : ∀ b, rsEqExpression a0 b = true ↔ (renumExpression f) a0 = (renumExpression f) b) (a1 : Expression) (h1 : ∀ b, rsEqExpression a1 b = true ↔ (renumExpression f) a1 = (renumExpression f) b) (y : BuiltInCall) :
    rsEqBuiltInCall (BuiltInCall.strStarts a0 a1) y = true ↔ renumBuiltInCall f (BuiltInCall.strStarts a0 a1) = renumBuiltInCall f y := by
  have e : ∀ b0 b1, rsEqBuiltInCall (BuiltInCall.strStarts a0 a1) (BuiltInCall.strStarts b0 b1) = (rsEqExpression a0 b0 && rsEqExpression a1 b1) := fun _ _ => rfl
  have e' : ∀ b0 b1, renumBuiltInCall f (BuiltInCall.strStarts b0 b1) = BuiltInCall.strStarts (renumExpression f b0) (renumExpression f b1) := fun _ _ => rfl
  refine ⟨fun h => ?_, fun h => ?_⟩
  · cases y <;> first | exact absurd (show false = true from h) Bool.false_ne_true | (rw [e] at h; rw [e', e']; simpa [h0, h1] using h)
  · cases y <;> first | (rw [e', e'] at h; rw [e]; simpa [h0, h1] using h) | injection h
theorem rsEqBuiltInCall_strEnds {f : NumericLiteral → NumericLiteral} (a0 : Expression) (h0 : ∀ b, rsEqExpression a0 b = true ↔ (renumExpression f) a0 = (renumExpression f) b) (a1 : Expression) (h1 : ∀ b, rsEqExpression a1 b = true ↔ (renumExpression f) a1 = (renumExpression f) b) (y : BuiltInCall) :
    rsEqBuiltInCall (BuiltInCall.strEnds a0 a1) y = true ↔ renumBuiltInCall f (BuiltInCall.strEnds a0 a1) = renumBuiltInCall f y := by
  have e : ∀ b0 b1, rsEqBuiltInCall (BuiltInCall.strEnds a0 a1) (BuiltInCall.strEnds b0 b1) = (rsEqExpression a0 b0 && rsEqExpression a1 b1) := fun _ _ => rfl
  have e' : ∀ b0 b1, renumBuiltInCall f (BuiltInCall.strEnds b0 b1) = BuiltInCall.strEnds (renumExpression f b0) (renumExpression f b1) := fun _ _ => rfl
  refine ⟨fun h => ?_, fun h => ?_⟩
  · cases y <;> first | exact absurd (show false = true from h) Bool.false_ne_true | (rw [e] at h; rw [e', e']; simpa [h0, h1] using h)
  · cases y <;> first | (rw [e', e'] at h; rw [e]; simpa [h0, h1] using h) | injection h
theorem rsEqBuiltInCall_strBefore {f : NumericLiteral → NumericLiteral} (a0 : Expression) (h0 : ∀ b, rsEqExpression a0 b = true ↔ (renumExpression f) a0 = (renumExpression f) b) (a1 : Expression) (h1 : ∀ b, rsEqExpression a1 b = true ↔ (renumExpression f) a1 = (renumExpression f) b) (y : BuiltInCall) :
    rsEqBuiltInCall (BuiltInCall.strBefore a0 a1) y = true ↔ renumBuiltInCall f (BuiltInCall.strBefore a0 a1) = renumBuiltInCall f y := by
  have e : ∀ b0 b1, rsEqBuiltInCall (BuiltInCall.strBefore a0 a1) (BuiltInCall.strBefore b0 b1) = (rsEqExpression a0 b0 && rsEqExpression a1 b1) := fun _ _ => rfl
  have e' : ∀ b0 b1, renumBuiltInCall f (BuiltInCall.strBefore b0 b1) = BuiltInCall.strBefore (renumExpression f b0) (renumExpression f b1) := fun _ _ => rfl
  refine ⟨fun h => ?_, fun h => ?_⟩
  · cases y <;> first | exact absurd (show false = true from h) Bool.false_ne_true | (rw [e] at h; rw [e', e']; simpa [h0, h1] using h)
  · cases y <;> first | (rw [e', e'] at h; rw [e]; simpa [h0, h1] using h) | injection h
theorem rsEqBuiltInCall_strAfter {f : NumericLiteral → NumericLiteral} (a0 : Expression) (h0 : ∀ b, rsEqExpression a0 b = true ↔ (renumExpression f) a0 = (renumExpression f) b) (a1 : Expression) (h1 : ∀ b, rsEqExpression a1 b = true ↔ (renumExpression f) a1 = (renumExpression f) b) (y : BuiltInCall) :
    rsEqBuiltInCall (BuiltInCall.strAfter a0 a1) y = true ↔ renumBuiltInCall f (BuiltInCall.strAfter a0 a1) = renumBuiltInCall f y := by
  have e : ∀ b0 b1, rsEqBuiltInCall (BuiltInCall.strAfter a0 a1) (BuiltInCall.strAfter b0 b1) = (rsEqExpression a0 b0 && rsEqExpression a1 b1) := fun _ _ => rfl
  have e' : ∀ b0 b1, renumBuiltInCall f (BuiltInCall.strAfter b0 b1) = BuiltInCall.strAfter (renumExpression f b0) (renumExpression f b1) := fun _ _ => rfl
  refine ⟨fun h => ?_, fun h => ?_⟩
  · cases y <;> first | exact absurd (show false = true from h) Bool.false_ne_true | (rw [e] at h; rw [e', e']; simpa [h0, h1] using h)
  · cases y <;> first | (rw [e', e'] at h; rw [e]; simpa [h0, h1] using h) | injection h
theorem rsEqBuiltInCall_year {f : NumericLiteral → NumericLiteral} (a0 : Expression) (h0 : ∀ b, rsEqExpression a0 b = true ↔ (renumExpression f) a0 = (renumExpression f) b) (y : BuiltInCall) :
    rsEqBuiltInCall (BuiltInCall.year a0) y = true ↔ renumBuiltInCall f (BuiltInCall.year a0) = renumBuiltInCall f y := by
  have e : ∀ b0, rsEqBuiltInCall (BuiltInCall.year a0) (BuiltInCall.year b0) = (rsEqExpression a0 b0) := fun _ => rfl
  have e' : ∀ b0, renumBuiltInCall f (BuiltInCall.year b0) = BuiltInCall.year (renumExpression f b0) := fun _ => rfl
  refine ⟨fun h => ?_, fun h => ?_⟩
  · cases y <;> first | exact absurd (show false = true from h) Bool.false_ne_true | (rw [e] at h; rw [e', e']; simpa [h0] using h)
  · cases y <;> first | (rw [e', e'] at h; rw [e]; simpa [h0] using h) | injection h
theorem rsEqBuiltInCall_month {f : NumericLiteral → NumericLiteral} (a0 : Expression) (h0 : ∀ b, rsEqExpression a0 b = true ↔ (renumExpression f) a0 = (renumExpression f) b) (y : BuiltInCall) :
    rsEqBuiltInCall (BuiltInCall.month a0) y = true ↔ renumBuiltInCall f (BuiltInCall.month a0) = renumBuiltInCall f y := by
  have e : ∀ b0, rsEqBuiltInCall (BuiltInCall.month a0) (BuiltInCall.month b0) = (rsEqExpression a0 b0) := fun _ => rfl
  have e' : ∀ b0, renumBuiltInCall f (BuiltInCall.month b0) = BuiltInCall.month (renumExpression f b0) := fun _ => rfl
  refine ⟨fun h => ?_, fun h => ?_⟩
  · cases y <;> first | exact absurd (show false = true from h) Bool.false_ne_true | (rw [e] at h; rw [e', e']; simpa [h0] using h)
  · cases y <;> first | (rw [e', e'] at h; rw [e]; simpa [h0] using h) | injection h
theorem rsEqBuiltInCall_day {f : NumericLiteral → NumericLiteral} (a0 : Expression) (h0 : ∀ b, rsEqExpression a0 b = true ↔ (renumExpression f) a0 = (renumExpression f) b) (y : BuiltInCall) :
    rsEqBuiltInCall (BuiltInCall.day a0) y = true ↔ renumBuiltInCall f (BuiltInCall.day a0) = renumBuiltInCall f y := by
  have e : ∀ b0, rsEqBuiltInCall (BuiltInCall.day a0) (BuiltInCall.day b0) = (rsEqExpression a0 b0) := fun _ => rfl
  have e' : ∀ b0, renumBuiltInCall f (BuiltInCall.day b0) = BuiltInCall.day (renumExpression f b0) := fun _ => rfl
  refine ⟨fun h => ?_, fun h => ?_⟩
  · cases y <;> first | exact absurd (show false = true from h) Bool.false_ne_true | (rw [e] at h; rw [e', e']; simpa [h0] using h)
  · cases y <;> first | (rw [e', e'] at h; rw [e]; simpa [h0] using h) | injection h
theorem rsEqBuiltInCall_hours {f : NumericLiteral → NumericLiteral} (a0 : Expression) (h0 : ∀ b, rsEqExpression a0 b = true ↔ (renumExpression f) a0 = (renumExpression f) b) (y : BuiltInCall) :
    rsEqBuiltInCall (BuiltInCall.hours a0) y = true ↔ renumBuiltInCall f (BuiltInCall.hours a0) = renumBuiltInCall f y := by
  have e : ∀ b0, rsEqBuiltInCall (BuiltInCall.hours a0) (BuiltInCall.hours b0) = (rsEqExpression a0 b0) := fun _ => rfl
  have e' : ∀ b0, renumBuiltInCall f (BuiltInCall.hours b0) = BuiltInCall.hours (renumExpression f b0) := fun _ => rfl
  refine ⟨fun h => ?_, fun h => ?_⟩
  · cases y <;> first | exact absurd (show false = true from h) Bool.false_ne_true | (rw [e] at h; rw [e', e']; simpa [h0] using h)
  · cases y <;> first | (rw [e', e'] at h; rw [e]; simpa [h0] using h) | injection h
theorem rsEqBuiltInCall_minutes {f : NumericLiteral → NumericLiteral} (a0 : Expression) (h0 : ∀ b, rsEqExpression a0 b = true ↔ (renumExpression f) a0 = (renumExpression f) b) (y : BuiltInCall) :
    rsEqBuiltInCall (BuiltInCall.minutes a0) y = true ↔ renumBuiltInCall f (BuiltInCall.minutes a0) = renumBuiltInCall f y := by
  have e : ∀ b0, rsEqBuiltInCall (BuiltInCall.minutes a0) (BuiltInCall.minutes b0) = (rsEqExpression a0 b0) := fun _ => rfl
  have e' : ∀ b0, renumBuiltInCall f (BuiltInCall.minutes b0) = BuiltInCall.minutes (renumExpression f b0) := fun _ => rfl
  refine ⟨fun h => ?_, fun h => ?_⟩
  · cases y <;> first | exact absurd (show false = true from h) Bool.false_ne_true | (rw [e] at h; rw [e', e']; simpa [h0] using h)
  · cases y <;> first | (rw [e', e'] at h; rw [e]; simpa [h0] using h) | injection h
theorem rsEqBuiltInCall_seconds {f : NumericLiteral → NumericLiteral} (a0 : Expression) (h0 : ∀ b, rsEqExpression a0 b = true ↔ (renumExpression f) a0 = (renumExpression f) b) (y : BuiltInCall) :
    rsEqBuiltInCall (BuiltInCall.seconds a0) y = true ↔ renumBuiltInCall f (BuiltInCall.seconds a0) = renumBuiltInCall f y := by
  have e : ∀ b0, rsEqBuiltInCall (BuiltInCall.seconds a0) (BuiltInCall.seconds b0) = (rsEqExpression a0 b0) := fun _ => rfl
  have e' : ∀ b0, renumBuiltInCall f (BuiltInCall.seconds b0) = BuiltInCall.seconds (renumExpression f b0) := fun _ => rfl
  refine ⟨fun h => ?_, fun h => ?_⟩
  · cases y <;> first | exact absurd (show false = true from h) Bool.false_ne_true | (rw [e] at h; rw [e', e']; simpa [h0] using h)
  · cases y <;> first | (rw [e', e'] at h; rw [e]; simpa [h0] using h) | injection h
theorem rsEqBuiltInCall_timezone {f : NumericLiteral → NumericLiteral} (a0 : Expression) (h0 : ∀ b, rsEqExpression a0 b = true ↔ (renumExpression f) a0 = (renumExpression f) b) (y : BuiltInCall) :
    rsEqBuiltInCall (BuiltInCall.timezone a0) y = true ↔ renumBuiltInCall f (BuiltInCall.timezone a0) = renumBuiltInCall f y := by
  have e : ∀ b0, rsEqBuiltInCall (BuiltInCall.timezone a0) (BuiltInCall.timezone b0) = (rsEqExpression a0 b0) := fun _ => rfl
  have e' : ∀ b0, renumBuiltInCall f (BuiltInCall.timezone b0) = BuiltInCall.timezone (renumExpression f b0) := fun _ => rfl
  refine ⟨fun h => ?_, fun h => ?_⟩
  · cases y <;> first | exact absurd (show false = true from h) Bool.false_ne_true | (rw [e] at h; rw [e', e']; simpa [h0] using h)
  · cases y <;> first | (rw [e', e'] at h; rw [e]; simpa [h0] using h) | injection h
theorem rsEqBuiltInCall_tz {f : NumericLiteral → NumericLiteral} (a0 : Expression) (h0 : ∀ b, rsEqExpression a0 b = true ↔ (renumExpression f) a0 = (renumExpression f) b) (y : BuiltInCall) :
    rsEqBuiltInCall (BuiltInCall.tz a0) y = true ↔ renumBuiltInCall f (BuiltInCall.tz a0) = renumBuiltInCall f y := by
  have e : ∀ b0, rsEqBuiltInCall (BuiltInCall.tz a0) (BuiltInCall.tz b0) = (rsEqExpression a0 b0) := fun _ => rfl
  have e' : ∀ b0, renumBuiltInCall f (BuiltInCall.tz b0) = BuiltInCall.tz (renumExpression f b0) := fun _ => rfl
  refine ⟨fun h => ?_, fun h => ?_⟩
  · cases y <;> first | exact absurd (show false = true from h) Bool.false_ne_true | (rw [e] at h; rw [e', e']; simpa [h0] using h)
  · cases y <;> first | (rw [e', e'] at h; rw [e]; simpa [h0] using h) | injection h
theorem rsEqBuiltInCall_now {f : NumericLiteral → NumericLiteral}  (y : BuiltInCall) :
    rsEqBuiltInCall (BuiltInCall.now) y = true ↔ renumBuiltInCall f (BuiltInCall.now) = renumBuiltInCall f y := by
  have e : rsEqBuiltInCall (BuiltInCall.now) (BuiltInCall.now) = (true) := rfl
  have e' : renumBuiltInCall f (BuiltInCall.now) = BuiltInCall.now := rfl
  refine ⟨fun h => ?_, fun h => ?_⟩
  · cases y <;> first | exact absurd (show false = true from h) Bool.false_ne_true | rfl
  · cases y <;> first | exact e | injection h
theorem rsEqBuiltInCall_uuid {f : NumericLiteral → NumericLiteral}  (y : BuiltInCall) :
    rsEqBuiltInCall (BuiltInCall.uuid) y = true ↔ renumBuiltInCall f (BuiltInCall.uuid) = renumBuiltInCall f y := by
  have e : rsEqBuiltInCall (BuiltInCall.uuid) (BuiltInCall.uuid) = (true) := rfl
  have e' : renumBuiltInCall f (BuiltInCall.uuid) = BuiltInCall.uuid := rfl
  refine ⟨fun h => ?_, fun h => ?_⟩
  · cases y <;> first | exact absurd (show false = true from h) Bool.false_ne_true | rfl
  · cases y <;> first | exact e | injection h
theorem rsEqBuiltInCall_strUuid {f : NumericLiteral → NumericLiteral}  (y : BuiltInCall) :
    rsEqBuiltInCall (BuiltInCall.strUuid) y = true ↔ renumBuiltInCall f (BuiltInCall.strUuid) = renumBuiltInCall f y := by
  have e : rsEqBuiltInCall (BuiltInCall.strUuid) (BuiltInCall.strUuid) = (true) := rfl
  have e' : renumBuiltInCall f (BuiltInCall.strUuid) = BuiltInCall.strUuid := rfl
  refine ⟨fun h => ?_, fun h => ?_⟩
  · cases y <;> first | exact absurd (show false = true from h) Bool.false_ne_true | rfl
  · cases y <;> first | exact e | injection h
theorem rsEqBuiltInCall_md5 {f : NumericLiteral → NumericLiteral} (a0 : Expression) (h0 : ∀ b, rsEqExpression a0 b = true ↔ (renumExpression f) a0 = (renumExpression f) b) (y : BuiltInCall) :
    rsEqBuiltInCall (BuiltInCall.md5 a0) y = true ↔ renumBuiltInCall f (BuiltInCall.md5 a0) = renumBuiltInCall f y := by
  have e : ∀ b0, rsEqBuiltInCall (BuiltInCall.md5 a0) (BuiltInCall.md5 b0) = (rsEqExpression a0 b0) := fun _ => rfl
  have e' : ∀ b0, renumBuiltInCall f (BuiltInCall.md5 b0) = BuiltInCall.md5 (renumExpression f b0) := fun _ => rfl
  refine ⟨fun h => ?_, fun h => ?_⟩
  · cases y <;> first | exact absurd (show false = true from h) Bool.false_ne_true | (rw [e] at h; rw [e', e']; simpa [h0] using h)
  · cases y <;> first | (rw [e', e'] at h; rw [e]; simpa [h0] using h) | injection h
theorem rsEqBuiltInCall_sha1 {f : NumericLiteral → NumericLiteral} (a0 : Expression) (h0 : ∀ b, rsEqExpression a0 b = true ↔ (renumExpression f) a0 = (renumExpression f) b) (y : BuiltInCall) :
    rsEqBuiltInCall (BuiltInCall.sha1 a0) y = true ↔ renumBuiltInCall f (BuiltInCall.sha1 a0) = renumBuiltInCall f y := by
  have e : ∀ b0, rsEqBuiltInCall (BuiltInCall.sha1 a0) (BuiltInCall.sha1 b0) = (rsEqExpression a0 b0) := fun _ => rfl
  have e' : ∀ b0, renumBuiltInCall f (BuiltInCall.sha1 b0) = BuiltInCall.sha1 (renumExpression f b0) := fun _ => rfl
  refine ⟨fun h => ?_, fun h => ?_⟩
  · cases y <;> first | exact absurd (show false = true from h) Bool.false_ne_true | (rw [e] at h; rw [e', e']; simpa [h0] using h)
  · cases y <;> first | (rw [e', e'] at h; rw [e]; simpa [h0] using h) | injection h
theorem rsEqBuiltInCall_sha256 {f : NumericLiteral → NumericLiteral} (a0 : Expression) (h0 : ∀ b, rsEqExpression a0 b = true ↔ (renumExpression f) a0 = (renumExpression f) b) (y : BuiltInCall) :
    rsEqBuiltInCall (BuiltInCall.sha256 a0) y = true ↔ renumBuiltInCall f (BuiltInCall.sha256 a0) = renumBuiltInCall f y := by
  have e : ∀ b0, rsEqBuiltInCall (BuiltInCall.sha256 a0) (BuiltInCall.sha256 b0) = (rsEqExpression a0 b0) := fun _ => rfl
  have e' : ∀ b0, renumBuiltInCall f (BuiltInCall.sha256 b0) = BuiltInCall.sha256 (renumExpression f b0) := fun _ => rfl
  refine ⟨fun h => ?_, fun h => ?_⟩
  · cases y <;> first | exact absurd (show false = true from h) Bool.false_ne_true | (rw [e] at h; rw [e', e']; simpa [h0] using h)
  · cases y <;> first | (rw [e', e'] at h; rw [e]; simpa [h0] using h) | injection h
theorem rsEqBuiltInCall_sha384 {f : NumericLiteral → NumericLiteral} (a0 : Expression) (h0 : ∀ b, rsEqExpression a0 b = true ↔ (renumExpression f) a0 = (renumExpression f) b) (y : BuiltInCall) :
    rsEqBuiltInCall (BuiltInCall.sha384 a0) y = true ↔ renumBuiltInCall f (BuiltInCall.sha384 a0) = renumBuiltInCall f y := by
  have e : ∀ b0, rsEqBuiltInCall (BuiltInCall.sha384 a0) (BuiltInCall.sha384 b0) = (rsEqExpression a0 b0) := fun _ => rfl
  have e' : ∀ b0, renumBuiltInCall f (BuiltInCall.sha384 b0) = BuiltInCall.sha384 (renumExpression f b0) := fun _ => rfl
  refine ⟨fun h => ?_, fun h => ?_⟩
  · cases y <;> first | exact absurd (show false = true from h) Bool.false_ne_true | (rw [e] at h; rw [e', e']; simpa [h0] using h)
  · cases y <;> first | (rw [e', e'] at h; rw [e]; simpa [h0] using h) | injection h
theorem rsEqBuiltInCall_sha512 {f : NumericLiteral → NumericLiteral} (a0 : Expression) (h0 : ∀ b, rsEqExpression a0 b = true ↔ (renumExpression f) a0 = (renumExpression f) b) (y : BuiltInCall) :
    rsEqBuiltInCall (BuiltInCall.sha512 a0) y = true ↔ renumBuiltInCall f (BuiltInCall.sha512 a0) = renumBuiltInCall f y := by
  have e : ∀ b0, rsEqBuiltInCall (BuiltInCall.sha512 a0) (BuiltInCall.sha512 b0) = (rsEqExpression a0 b0) := fun _ => rfl
  have e' : ∀ b0, renumBuiltInCall f (BuiltInCall.sha512 b0) = BuiltInCall.sha512 (renumExpression f b0) := fun _ => rfl
  refine ⟨fun h => ?_, fun h => ?_⟩
  · cases y <;> first | exact absurd (show false = true from h) Bool.false_ne_true | (rw [e] at h; rw [e', e']; simpa [h0] using h)
  · cases y <;> first | (rw [e', e'] at h; rw [e]; simpa [h0] using h) | injection h
theorem rsEqBuiltInCall_coalesce {f : NumericLiteral → NumericLiteral} (a0 : ExpressionList) (h0 : ∀ b, rsEqExpressionList a0 b = true ↔ (renumExpressionList f) a0 = (renumExpressionList f) b) (y : BuiltInCall) :
    rsEqBuiltInCall (BuiltInCall.coalesce a0) y = true ↔ renumBuiltInCall f (BuiltInCall.coalesce a0) = renumBuiltInCall f y := by
  have e : ∀ b0, rsEqBuiltInCall (BuiltInCall.coalesce a0) (BuiltInCall.coalesce b0) = (rsEqExpressionList a0 b0) := fun _ => rfl
  have e' : ∀ b0, renumBuiltInCall f (BuiltInCall.coalesce b0) = BuiltInCall.coalesce (renumExpressionList f b0) := fun _ => rfl
  refine ⟨fun h => ?_, fun h => ?_⟩
  · cases y <;> first | exact absurd (show false = true from h) Bool.false_ne_true | (rw [e] at h; rw [e', e']; simpa [h0] using h)
  · cases y <;> first | (rw [e', e'] at h; rw [e]; simpa [h0] using h) | injection h
theorem rsEqBuiltInCall_if {f : NumericLiteral → NumericLiteral} (a0 : Expression) (h0 : ∀ b, rsEqExpression a0 b = true ↔ (renumExpression f) a0 = (renumExpression f) b) (a1 : Expression) (h1 : ∀ b, rsEqExpression a1 b = true ↔ (renumExpression f) a1 = (renumExpression f) b) (a2 : Expression) (h2 : ∀ b, rsEqExpression a2 b = true ↔ (renumExpression f) a2 = (renumExpression f) b) (y : BuiltInCall) :
    rsEqBuiltInCall (BuiltInCall.if a0 a1 a2) y = true ↔ renumBuiltInCall f (BuiltInCall.if a0 a1 a2) = renumBuiltInCall f y := by
  have e : ∀ b0 b1 b2, rsEqBuiltInCall (BuiltInCall.if a0 a1 a2) (BuiltInCall.if b0 b1 b2) = (rsEqExpression a0 b0 && rsEqExpression a1 b1 && rsEqExpression a2 b2) := fun _ _ _ => rfl
  have e' : ∀ b0 b1 b2, renumBuiltInCall f (BuiltInCall.if b0 b1 b2) = BuiltInCall.if (renumExpression f b0) (renumExpression f b1) (renumExpression f b2) := fun _ _ _ => rfl
  refine ⟨fun h => ?_, fun h => ?_⟩
  · cases y <;> first | exact absurd (show false = true from h) Bool.false_ne_true | (rw [e] at h; rw [e', e']; simpa [h0, h1, h2, and_assoc] using h)
  · cases y <;> first | (rw [e', e'] at h; rw [e]; simpa [h0, h1, h2, and_assoc] using h) | injection h
theorem rsEqBuiltInCall_strLang {f : NumericLiteral → NumericLiteral} (a0 : Expression) (h0 : ∀ b, rsEqExpression a0 b = true ↔ (renumExpression f) a0 = (renumExpression f) b) (a1 : Expression) (h1 : ∀ b, rsEqExpression a1 b = true ↔ (renumExpression f) a1 = (renumExpression f) b) (y : BuiltInCall) :
    rsEqBuiltInCall (BuiltInCall.strLang a0 a1) y = true ↔ renumBuiltInCall f (BuiltInCall.strLang a0 a1) = renumBuiltInCall f y := by
  have e : ∀ b0 b1, rsEqBuiltInCall (BuiltInCall.strLang a0 a1) (BuiltInCall.strLang b0 b1) = (rsEqExpression a0 b0 && rsEqExpression a1 b1) := fun _ _ => rfl
  have e' : ∀ b0 b1, renumBuiltInCall f (BuiltInCall.strLang b0 b1) = BuiltInCall.strLang (renumExpression f b0) (renumExpression f b1) := fun _ _ => rfl
  refine ⟨fun h => ?_, fun h => ?_⟩
  · cases y <;> first | exact absurd (show false = true from h) Bool.false_ne_true | (rw [e] at h; rw [e', e']; simpa [h0, h1] using h)
  · cases y <;> first | (rw [e', e'] at h; rw [e]; simpa [h0, h1] using h) | injection h
theorem rsEqBuiltInCall_strDt {f : NumericLiteral → NumericLiteral} (a0 : Expression) (h0 : ∀ b, rsEqExpression a0 b = true ↔ (renumExpression f) a0 = (renumExpression f) b) (a1 : Expression) (h1 : ∀ b, rsEqExpression a1 b = true ↔ (renumExpression f) a1 = (renumExpression f) b) (y : BuiltInCall) :
    rsEqBuiltInCall (BuiltInCall.strDt a0 a1) y = true ↔ renumBuiltInCall f (BuiltInCall.strDt a0 a1) = renumBuiltInCall f y := by
  have e : ∀ b0 b1, rsEqBuiltInCall (BuiltInCall.strDt a0 a1) (BuiltInCall.strDt b0 b1) = (rsEqExpression a0 b0 && rsEqExpression a1 b1) := fun _ _ => rfl
  have e' : ∀ b0 b1, renumBuiltInCall f (BuiltInCall.strDt b0 b1) = BuiltInCall.strDt (renumExpression f b0) (renumExpression f b1) := fun _ _ => rfl
  refine ⟨fun h => ?_, fun h => ?_⟩
  · cases y <;> first | exact absurd (show false = true from h) Bool.false_ne_true | (rw [e] at h; rw [e', e']; simpa [h0, h1] using h)
  · cases y <;> first | (rw [e', e'] at h; rw [e]; simpa [h0, h1] using h) | injection h
theorem rsEqBuiltInCall_sameTerm {f : NumericLiteral → NumericLiteral} (a0 : Expression) (h0 : ∀ b, rsEqExpression a0 b = true ↔ (renumExpression f) a0 = (renumExpression f) b) (a1 : Expression) (h1 : ∀ b, rsEqExpression a1 b = true ↔ (renumExpression f) a1 = (renumExpression f) b) (y : BuiltInCall) :
    rsEqBuiltInCall (BuiltInCall.sameTerm a0 a1) y = true ↔ renumBuiltInCall f (BuiltInCall.sameTerm a0 a1) = renumBuiltInCall f y := by
  have e : ∀ b0 b1, rsEqBuiltInCall (BuiltInCall.sameTerm a0 a1) (BuiltInCall.sameTerm b0 b1) = (rsEqExpression a0 b0 && rsEqExpression a1 b1) := fun _ _ => rfl
  have e' : ∀ b0 b1, renumBuiltInCall f (BuiltInCall.sameTerm b0 b1) = BuiltInCall.sameTerm (renumExpression f b0) (renumExpression f b1) := fun _ _ => rfl
  refine ⟨fun h => ?_, fun h => ?_⟩
  · cases y <;> first | exact absurd (show false = true from h) Bool.false_ne_true | (rw [e] at h; rw [e', e']; simpa [h0, h1] using h)
  · cases y <;> first | (rw [e', e'] at h; rw [e]; simpa [h0, h1] using h) | injection h
theorem rsEqBuiltInCall_isIri {f : NumericLiteral → NumericLiteral} (a0 : Expression) (h0 : ∀ b, rsEqExpression a0 b = true ↔ (renumExpression f) a0 = (renumExpression f) b) (y : BuiltInCall) :
    rsEqBuiltInCall (BuiltInCall.isIri a0) y = true ↔ renumBuiltInCall f (BuiltInCall.isIri a0) = renumBuiltInCall f y := by
  have e : ∀ b0, rsEqBuiltInCall (BuiltInCall.isIri a0) (BuiltInCall.isIri b0) = (rsEqExpression a0 b0) := fun _ => rfl
  have e' : ∀ b0, renumBuiltInCall f (BuiltInCall.isIri b0) = BuiltInCall.isIri (renumExpression f b0) := fun _ => rfl
  refine ⟨fun h => ?_, fun h => ?_⟩
  · cases y <;> first | exact absurd (show false = true from h) Bool.false_ne_true | (rw [e] at h; rw [e', e']; simpa [h0] using h)
  · cases y <;> first | (rw [e', e'] at h; rw [e]; simpa [h0] using h) | injection h
theorem rsEqBuiltInCall_isUri {f : NumericLiteral → NumericLiteral} (a0 : Expression) (h0 : ∀ b, rsEqExpression a0 b = true ↔ (renumExpression f) a0 = (renumExpression f) b) (y : BuiltInCall) :
    rsEqBuiltInCall (BuiltInCall.isUri a0) y = true ↔ renumBuiltInCall f (BuiltInCall.isUri a0) = renumBuiltInCall f y := by
  have e : ∀ b0, rsEqBuiltInCall (BuiltInCall.isUri a0) (BuiltInCall.isUri b0) = (rsEqExpression a0 b0) := fun _ => rfl
  have e' : ∀ b0, renumBuiltInCall f (BuiltInCall.isUri b0) = BuiltInCall.isUri (renumExpression f b0) := fun _ => rfl
  refine ⟨fun h => ?_, fun h => ?_⟩
  · cases y <;> first | exact absurd (show false = true from h) Bool.false_ne_true | (rw [e] at h; rw [e', e']; simpa [h0] using h)
  · cases y <;> first | (rw [e', e'] at h; rw [e]; simpa [h0] using h) | injection h
theorem rsEqBuiltInCall_isBlank {f : NumericLiteral → NumericLiteral} (a0 : Expression) (h0 : ∀ b, rsEqExpression a0 b = true ↔ (renumExpression f) a0 = (renumExpression f) b) (y : BuiltInCall) :
    rsEqBuiltInCall (BuiltInCall.isBlank a0) y = true ↔ renumBuiltInCall f (BuiltInCall.isBlank a0) = renumBuiltInCall f y := by
  have e : ∀ b0, rsEqBuiltInCall (BuiltInCall.isBlank a0) (BuiltInCall.isBlank b0) = (rsEqExpression a0 b0) := fun _ => rfl
  have e' : ∀ b0, renumBuiltInCall f (BuiltInCall.isBlank b0) = BuiltInCall.isBlank (renumExpression f b0) := fun _ => rfl
  refine ⟨fun h => ?_, fun h => ?_⟩
  · cases y <;> first | exact absurd (show false = true from h) Bool.false_ne_true | (rw [e] at h; rw [e', e']; simpa [h0] using h)
  · cases y <;> first | (rw [e', e'] at h; rw [e]; simpa [h0] using h) | injection h
theorem rsEqBuiltInCall_isLiteral {f : NumericLiteral → NumericLiteral} (a0 : Expression) (h0 : ∀ b, rsEqExpression a0 b = true ↔ (renumExpression f) a0 = (renumExpression f) b) (y : BuiltInCall) :
    rsEqBuiltInCall (BuiltInCall.isLiteral a0) y = true ↔ renumBuiltInCall f (BuiltInCall.isLiteral a0) = renumBuiltInCall f y := by
  have e : ∀ b0, rsEqBuiltInCall (BuiltInCall.isLiteral a0) (BuiltInCall.isLiteral b0) = (rsEqExpression a0 b0) := fun _ => rfl
  have e' : ∀ b0, renumBuiltInCall f (BuiltInCall.isLiteral b0) = BuiltInCall.isLiteral (renumExpression f b0) := fun _ => rfl
  refine ⟨fun h => ?_, fun h => ?_⟩
  · cases y <;> first | exact absurd (show false = true from h) Bool.false_ne_true | (rw [e] at h; rw [e', e']; simpa [h0] using h)
  · cases y <;> first | (rw [e', e'] at h; rw [e]; simpa [h0] using h) | injection h
theorem rsEqBuiltInCall_isNumeric {f : NumericLiteral → NumericLiteral} (a0 : Expression) (h0 : ∀ b, rsEqExpression a0 b = true ↔ (renumExpression f) a0 = (renumExpression f) b) (y : BuiltInCall) :
    rsEqBuiltInCall (BuiltInCall.isNumeric a0) y = true ↔ renumBuiltInCall f (BuiltInCall.isNumeric a0) = renumBuiltInCall f y := by
  have e : ∀ b0, rsEqBuiltInCall (BuiltInCall.isNumeric a0) (BuiltInCall.isNumeric b0) = (rsEqExpression a0 b0) := fun _ => rfl
  have e' : ∀ b0, renumBuiltInCall f (BuiltInCall.isNumeric b0) = BuiltInCall.isNumeric (renumExpression f b0) := fun _ => rfl
  refine ⟨fun h => ?_, fun h => ?_⟩
  · cases y <;> first | exact absurd (show false = true from h) Bool.false_ne_true | (rw [e] at h; rw [e', e']; simpa [h0] using h)
  · cases y <;> first | (rw [e', e'] at h; rw [e]; simpa [h0] using h) | injection h
theorem rsEqBuiltInCall_regex {f : NumericLiteral → NumericLiteral} (a0 : RegexExpression) (h0 : ∀ b, rsEqRegexExpression a0 b = true ↔ (renumRegexExpression f) a0 = (renumRegexExpression f) b) (y : BuiltInCall) :
    rsEqBuiltInCall (BuiltInCall.regex a0) y = true ↔ renumBuiltInCall f (BuiltInCall.regex a0) = renumBuiltInCall f y := by
  have e : ∀ b0, rsEqBuiltInCall (BuiltInCall.regex a0) (BuiltInCall.regex b0) = (rsEqRegexExpression a0 b0) := fun _ => rfl
  have e' : ∀ b0, renumBuiltInCall f (BuiltInCall.regex b0) = BuiltInCall.regex (renumRegexExpression f b0) := fun _ => rfl
  refine ⟨fun h => ?_, fun h => ?_⟩
  · cases y <;> first | exact absurd (show false = true from h) Bool.false_ne_true | (rw [e] at h; rw [e', e']; simpa [h0] using h)
  · cases y <;> first | (rw [e', e'] at h; rw [e]; simpa [h0] using h) | injection h
theorem rsEqBuiltInCall_existsFunc {f : NumericLiteral → NumericLiteral} (a0 : GroupGraphPattern) (h0 : ∀ b, rsEqGroupGraphPattern a0 b = true ↔ (renumGroupGraphPattern f) a0 = (renumGroupGraphPattern f) b) (y : BuiltInCall) :
    rsEqBuiltInCall (BuiltInCall.existsFunc a0) y = true ↔ renumBuiltInCall f (BuiltInCall.existsFunc a0) = renumBuiltInCall f y := by
  have e : ∀ b0, rsEqBuiltInCall (BuiltInCall.existsFunc a0) (BuiltInCall.existsFunc b0) = (rsEqGroupGraphPattern a0 b0) := fun _ => rfl
  have e' : ∀ b0, renumBuiltInCall f (BuiltInCall.existsFunc b0) = BuiltInCall.existsFunc (renumGroupGraphPattern f b0) := fun _ => rfl
  refine ⟨fun h => ?_, fun h => ?_⟩
  · cases y <;> first | exact absurd (show false = true from h) Bool.false_ne_true | (rw [e] at h; rw [e', e']; simpa [h0] using h)
  · cases y <;> first | (rw [e', e'] at h; rw [e]; simpa [h0] using h) | injection h
theorem rsEqBuiltInCall_notExistsFunc {f : NumericLiteral → NumericLiteral} (a0 : GroupGraphPattern) (h0 : ∀ b, rsEqGroupGraphPattern a0 b = true ↔ (renumGroupGraphPattern f) a0 = (renumGroupGraphPattern f) b) (y : BuiltInCall) :
    rsEqBuiltInCall (BuiltInCall.notExistsFunc a0) y = true ↔ renumBuiltInCall f (BuiltInCall.notExistsFunc a0) = renumBuiltInCall f y := by
  have e : ∀ b0, rsEqBuiltInCall (BuiltInCall.notExistsFunc a0) (BuiltInCall.notExistsFunc b0) = (rsEqGroupGraphPattern a0 b0) := fun _ => rfl
  have e' : ∀ b0, renumBuiltInCall f (BuiltInCall.notExistsFunc b0) = BuiltInCall.notExistsFunc (renumGroupGraphPattern f b0) := fun _ => rfl
  refine ⟨fun h => ?_, fun h => ?_⟩
  · cases y <;> first | exact absurd (show false = true from h) Bool.false_ne_true | (rw [e] at h; rw [e', e']; simpa [h0] using h)
  · cases y <;> first | (rw [e', e'] at h; rw [e]; simpa [h0] using h) | injection h
theorem rsEqAggregate_count {f : NumericLiteral → NumericLiteral} (a0 : Count) (h0 : ∀ b, rsEqCount a0 b = true ↔ (renumCount f) a0 = (renumCount f) b) (y : Aggregate) :
    rsEqAggregate (Aggregate.count a0) y = true ↔ renumAggregate f (Aggregate.count a0) = renumAggregate f y := by
  have e : ∀ b0, rsEqAggregate (Aggregate.count a0) (Aggregate.count b0) = (rsEqCount a0 b0) := fun _ => rfl
  have e' : ∀ b0, renumAggregate f (Aggregate.count b0) = Aggregate.count (renumCount f b0) := fun _ => rfl
  refine ⟨fun h => ?_, fun h => ?_⟩
  · cases y <;> first | exact absurd (show false = true from h) Bool.false_ne_true | (rw [e] at h; rw [e', e']; simpa [h0] using h)
  · cases y <;> first | (rw [e', e'] at h; rw [e]; simpa [h0] using h) | injection h
theorem rsEqAggregate_sum {f : NumericLiteral → NumericLiteral} (a0 : DistinctExpression) (h0 : ∀ b, rsEqDistinctExpression a0 b = true ↔ (renumDistinctExpression f) a0 = (renumDistinctExpression f) b) (y : Aggregate) :
    rsEqAggregate (Aggregate.sum a0) y = true ↔ renumAggregate f (Aggregate.sum a0) = renumAggregate f y := by
  have e : ∀ b0, rsEqAggregate (Aggregate.sum a0) (Aggregate.sum b0) = (rsEqDistinctExpression a0 b0) := fun _ => rfl
  have e' : ∀ b0, renumAggregate f (Aggregate.sum b0) = Aggregate.sum (renumDistinctExpression f b0) := fun _ => rfl
  refine ⟨fun h => ?_, fun h => ?_⟩
  · cases y <;> first | exact absurd (show false = true from h) Bool.false_ne_true | (rw [e] at h; rw [e', e']; simpa [h0] using h)
  · cases y <;> first | (rw [e', e'] at h; rw [e]; simpa [h0] using h) | injection h
theorem rsEqAggregate_min {f : NumericLiteral → NumericLiteral} (a0 : DistinctExpression) (h0 : ∀ b, rsEqDistinctExpression a0 b = true ↔ (renumDistinctExpression f) a0 = (renumDistinctExpression f) b) (y : Aggregate) :
    rsEqAggregate (Aggregate.min a0) y = true ↔ renumAggregate f (Aggregate.min a0) = renumAggregate f y := by
  have e : ∀ b0, rsEqAggregate (Aggregate.min a0) (Aggregate.min b0) = (rsEqDistinctExpression a0 b0) := fun _ => rfl
  have e' : ∀ b0, renumAggregate f (Aggregate.min b0) = Aggregate.min (renumDistinctExpression f b0) := fun _ => rfl
  refine ⟨fun h => ?_, fun h => ?_⟩
  · cases y <;> first | exact absurd (show false = true from h) Bool.false_ne_true | (rw [e] at h; rw [e', e']; simpa [h0] using h)
  · cases y <;> first | (rw [e', e'] at h; rw [e]; simpa [h0] using h) | injection h
theorem rsEqAggregate_max {f : NumericLiteral → NumericLiteral} (a0 : DistinctExpression) (h0 : ∀ b, rsEqDistinctExpression a0 b = true ↔ (renumDistinctExpression f) a0 = (renumDistinctExpression f) b) (y : Aggregate) :
    rsEqAggregate (Aggregate.max a0) y = true ↔ renumAggregate f (Aggregate.max a0) = renumAggregate f y := by
  have e : ∀ b0, rsEqAggregate (Aggregate.max a0) (Aggregate.max b0) = (rsEqDistinctExpression a0 b0) := fun _ => rfl
  have e' : ∀ b0, renumAggregate f (Aggregate.max b0) = Aggregate.max (renumDistinctExpression f b0) := fun _ => rfl
  refine ⟨fun h => ?_, fun h => ?_⟩
  · cases y <;> first | exact absurd (show false = true from h) Bool.false_ne_true | (rw [e] at h; rw [e', e']; simpa [h0] using h)
  · cases y <;> first | (rw [e', e'] at h; rw [e]; simpa [h0] using h) | injection h
theorem rsEqAggregate_avg {f : NumericLiteral → NumericLiteral} (a0 : DistinctExpression) (h0 : ∀ b, rsEqDistinctExpression a0 b = true ↔ (renumDistinctExpression f) a0 = (renumDistinctExpression f) b) (y : Aggregate) :
    rsEqAggregate (Aggregate.avg a0) y = true ↔ renumAggregate f (Aggregate.avg a0) = renumAggregate f y := by
  have e : ∀ b0, rsEqAggregate (Aggregate.avg a0) (Aggregate.avg b0) = (rsEqDistinctExpression a0 b0) := fun _ => rfl
  have e' : ∀ b0, renumAggregate f (Aggregate.avg b0) = Aggregate.avg (renumDistinctExpression f b0) := fun _ => rfl
  refine ⟨fun h => ?_, fun h => ?_⟩
  · cases y <;> first | exact absurd (show false = true from h) Bool.false_ne_true | (rw [e] at h; rw [e', e']; simpa [h0] using h)
  · cases y <;> first | (rw [e', e'] at h; rw [e]; simpa [h0] using h) | injection h
theorem rsEqAggregate_sample {f : NumericLiteral → NumericLiteral} (a0 : DistinctExpression) (h0 : ∀ b, rsEqDistinctExpression a0 b = true ↔ (renumDistinctExpression f) a0 = (renumDistinctExpression f) b) (y : Aggregate) :
    rsEqAggregate (Aggregate.sample a0) y = true ↔ renumAggregate f (Aggregate.sample a0) = renumAggregate f y := by
  have e : ∀ b0, rsEqAggregate (Aggregate.sample a0) (Aggregate.sample b0) = (rsEqDistinctExpression a0 b0) := fun _ => rfl
  have e' : ∀ b0, renumAggregate f (Aggregate.sample b0) = Aggregate.sample (renumDistinctExpression f b0) := fun _ => rfl
  refine ⟨fun h => ?_, fun h => ?_⟩
  · cases y <;> first | exact absurd (show false = true from h) Bool.false_ne_true | (rw [e] at h; rw [e', e']; simpa [h0] using h)
  · cases y <;> first | (rw [e', e'] at h; rw [e]; simpa [h0] using h) | injection h
theorem rsEqAggregate_groupConcat {f : NumericLiteral → NumericLiteral} (a0 : GroupConcat) (h0 : ∀ b, rsEqGroupConcat a0 b = true ↔ (renumGroupConcat f) a0 = (renumGroupConcat f) b) (y : Aggregate) :
    rsEqAggregate (Aggregate.groupConcat a0) y = true ↔ renumAggregate f (Aggregate.groupConcat a0) = renumAggregate f y := by
  have e : ∀ b0, rsEqAggregate (Aggregate.groupConcat a0) (Aggregate.groupConcat b0) = (rsEqGroupConcat a0 b0) := fun _ => rfl
  have e' : ∀ b0, renumAggregate f (Aggregate.groupConcat b0) = Aggregate.groupConcat (renumGroupConcat f b0) := fun _ => rfl
  refine ⟨fun h => ?_, fun h => ?_⟩
  · cases y <;> first | exact absurd (show false = true from h) Bool.false_ne_true | (rw [e] at h; rw [e', e']; simpa [h0] using h)
  · cases y <;> first | (rw [e', e'] at h; rw [e]; simpa [h0] using h) | injection h
theorem rsEqCount_mk {f : NumericLiteral → NumericLiteral} (a0 : Bool) (a1 : CountTarget) (h1 : ∀ b, rsEqCountTarget a1 b = true ↔ (renumCountTarget f) a1 = (renumCountTarget f) b) (y : Count) :
    rsEqCount (Count.mk a0 a1) y = true ↔ renumCount f (Count.mk a0 a1) = renumCount f y := by
  have e : ∀ b0 b1, rsEqCount (Count.mk a0 a1) (Count.mk b0 b1) = (a0 == b0 && rsEqCountTarget a1 b1) := fun _ _ => rfl
  have e' : ∀ b0 b1, renumCount f (Count.mk b0 b1) = Count.mk b0 (renumCountTarget f b1) := fun _ _ => rfl
  cases y
  rw [e, e', e']
  simp [h1]
theorem rsEqCountTarget_all {f : NumericLiteral → NumericLiteral}  (y : CountTarget) :
    rsEqCountTarget (CountTarget.all) y = true ↔ renumCountTarget f (CountTarget.all) = renumCountTarget f y := by
  have e : rsEqCountTarget (CountTarget.all) (CountTarget.all) = (true) := rfl
  have e' : renumCountTarget f (CountTarget.all) = CountTarget.all := rfl
  refine ⟨fun h => ?_, fun h => ?_⟩
  · cases y <;> first | exact absurd (show false = true from h) Bool.false_ne_true | rfl
  · cases y <;> first | exact e | injection h
theorem rsEqCountTarget_expr {f : NumericLiteral → NumericLiteral} (a0 : Expression) (h0 : ∀ b, rsEqExpression a0 b = true ↔ (renumExpression f) a0 = (renumExpression f) b) (y : CountTarget) :
    rsEqCountTarget (CountTarget.expr a0) y = true ↔ renumCountTarget f (CountTarget.expr a0) = renumCountTarget f y := by
  have e : ∀ b0, rsEqCountTarget (CountTarget.expr a0) (CountTarget.expr b0) = (rsEqExpression a0 b0) := fun _ => rfl
  have e' : ∀ b0, renumCountTarget f (CountTarget.expr b0) = CountTarget.expr (renumExpression f b0) := fun _ => rfl
  refine ⟨fun h => ?_, fun h => ?_⟩
  · cases y <;> first | exact absurd (show false = true from h) Bool.false_ne_true | (rw [e] at h; rw [e', e']; simpa [h0] using h)
  · cases y <;> first | (rw [e', e'] at h; rw [e]; simpa [h0] using h) | injection h
theorem rsEqGroupConcat_mk {f : NumericLiteral → NumericLiteral} (a0 : DistinctExpression) (h0 : ∀ b, rsEqDistinctExpression a0 b = true ↔ (renumDistinctExpression f) a0 = (renumDistinctExpression f) b) (a1 : Option Str) (y : GroupConcat) :
    rsEqGroupConcat (GroupConcat.mk a0 a1) y = true ↔ renumGroupConcat f (GroupConcat.mk a0 a1) = renumGroupConcat f y := by
  have e : ∀ b0 b1, rsEqGroupConcat (GroupConcat.mk a0 a1) (GroupConcat.mk b0 b1) = (rsEqDistinctExpression a0 b0 && a1 == b1) := fun _ _ => rfl
  have e' : ∀ b0 b1, renumGroupConcat f (GroupConcat.mk b0 b1) = GroupConcat.mk (renumDistinctExpression f b0) b1 := fun _ _ => rfl
  cases y
  rw [e, e', e']
  simp [h0]
theorem rsEqGroupGraphPattern_subSelect {f : NumericLiteral → NumericLiteral} (a0 : SubSelect) (h0 : ∀ b, rsEqSubSelect a0 b = true ↔ (renumSubSelect f) a0 = (renumSubSelect f) b) (y : GroupGraphPattern) :
    rsEqGroupGraphPattern (GroupGraphPattern.subSelect a0) y = true ↔ renumGroupGraphPattern f (GroupGraphPattern.subSelect a0) = renumGroupGraphPattern f y := by
  have e : ∀ b0, rsEqGroupGraphPattern (GroupGraphPattern.subSelect a0) (GroupGraphPattern.subSelect b0) = (rsEqSubSelect a0 b0) := fun _ => rfl
  have e' : ∀ b0, renumGroupGraphPattern f (GroupGraphPattern.subSelect b0) = GroupGraphPattern.subSelect (renumSubSelect f b0) := fun _ => rfl
  refine ⟨fun h => ?_, fun h => ?_⟩
  · cases y <;> first | exact absurd (show false = true from h) Bool.false_ne_true | (rw [e] at h; rw [e', e']; simpa [h0] using h)
  · cases y <;> first | (rw [e', e'] at h; rw [e]; simpa [h0] using h) | injection h
theorem rsEqGroupGraphPattern_groupGraphPatternSub {f : NumericLiteral → NumericLiteral} (a0 : GroupGraphPatternSub) (h0 : ∀ b, rsEqGroupGraphPatternSub a0 b = true ↔ (renumGroupGraphPatternSub f) a0 = (renumGroupGraphPatternSub f) b) (y : GroupGraphPattern) :
    rsEqGroupGraphPattern (GroupGraphPattern.groupGraphPatternSub a0) y = true ↔ renumGroupGraphPattern f (GroupGraphPattern.groupGraphPatternSub a0) = renumGroupGraphPattern f y := by
  have e : ∀ b0, rsEqGroupGraphPattern (GroupGraphPattern.groupGraphPatternSub a0) (GroupGraphPattern.groupGraphPatternSub b0) = (rsEqGroupGraphPatternSub a0 b0) := fun _ => rfl
  have e' : ∀ b0, renumGroupGraphPattern f (GroupGraphPattern.groupGraphPatternSub b0) = GroupGraphPattern.groupGraphPatternSub (renumGroupGraphPatternSub f b0) := fun _ => rfl
  refine ⟨fun h => ?_, fun h => ?_⟩
  · cases y <;> first | exact absurd (show false = true from h) Bool.false_ne_true | (rw [e] at h; rw [e', e']; simpa [h0] using h)
  · cases y <;> first | (rw [e', e'] at h; rw [e]; simpa [h0] using h) | injection h
theorem rsEqGroupGraphPatternSub_mk {f : NumericLiteral → NumericLiteral} (a0 : Option TriplesBlock) (h0 : ∀ b, (rsEqOption rsEqTriplesBlock) a0 b = true ↔ (Option.map (renumTriplesBlock f)) a0 = (Option.map (renumTriplesBlock f)) b) (a1 : List GraphPatternAndTriples) (h1 : ∀ b, rsEqListGraphPatternAndTriples a1 b = true ↔ (renumListGraphPatternAndTriples f) a1 = (renumListGraphPatternAndTriples f) b) (y : GroupGraphPatternSub) :
    rsEqGroupGraphPatternSub (GroupGraphPatternSub.mk a0 a1) y = true ↔ renumGroupGraphPatternSub f (GroupGraphPatternSub.mk a0 a1) = renumGroupGraphPatternSub f y := by
  have e : ∀ b0 b1, rsEqGroupGraphPatternSub (GroupGraphPatternSub.mk a0 a1) (GroupGraphPatternSub.mk b0 b1) = (rsEqOption rsEqTriplesBlock a0 b0 && rsEqListGraphPatternAndTriples a1 b1) := fun _ _ => rfl
  have e' : ∀ b0 b1, renumGroupGraphPatternSub f (GroupGraphPatternSub.mk b0 b1) = GroupGraphPatternSub.mk (Option.map (renumTriplesBlock f) b0) (renumListGraphPatternAndTriples f b1) := fun _ _ => rfl
  cases y
  rw [e, e', e']
  simp [h0, h1]
theorem rsEqGraphPatternAndTriples_mk {f : NumericLiteral → NumericLiteral} (a0 : GraphPatternNotTriples) (h0 : ∀ b, rsEqGraphPatternNotTriples a0 b = true ↔ (renumGraphPatternNotTriples f) a0 = (renumGraphPatternNotTriples f) b) (a1 : Option TriplesBlock) (h1 : ∀ b, (rsEqOption rsEqTriplesBlock) a1 b = true ↔ (Option.map (renumTriplesBlock f)) a1 = (Option.map (renumTriplesBlock f)) b) (y : GraphPatternAndTriples) :
    rsEqGraphPatternAndTriples (GraphPatternAndTriples.mk a0 a1) y = true ↔ renumGraphPatternAndTriples f (GraphPatternAndTriples.mk a0 a1) = renumGraphPatternAndTriples f y := by
  have e : ∀ b0 b1, rsEqGraphPatternAndTriples (GraphPatternAndTriples.mk a0 a1) (GraphPatternAndTriples.mk b0 b1) = (rsEqGraphPatternNotTriples a0 b0 && rsEqOption rsEqTriplesBlock a1 b1) := fun _ _ => rfl
  have e' : ∀ b0 b1, renumGraphPatternAndTriples f (GraphPatternAndTriples.mk b0 b1) = GraphPatternAndTriples.mk (renumGraphPatternNotTriples f b0) (Option.map (renumTriplesBlock f) b1) := fun _ _ => rfl
  cases y
  rw [e, e', e']
  simp [h0, h1]
theorem rsEqGraphPatternNotTriples_optional {f : NumericLiteral → NumericLiteral} (a0 : GroupGraphPattern) (h0 : ∀ b, rsEqGroupGraphPattern a0 b = true ↔ (renumGroupGraphPattern f) a0 = (renumGroupGraphPattern f) b) (y : GraphPatternNotTriples) :
    rsEqGraphPatternNotTriples (GraphPatternNotTriples.optional a0) y = true ↔ renumGraphPatternNotTriples f (GraphPatternNotTriples.optional a0) = renumGraphPatternNotTriples f y := by
  have e : ∀ b0, rsEqGraphPatternNotTriples (GraphPatternNotTriples.optional a0) (GraphPatternNotTriples.optional b0) = (rsEqGroupGraphPattern a0 b0) := fun _ => rfl
  have e' : ∀ b0, renumGraphPatternNotTriples f (GraphPatternNotTriples.optional b0) = GraphPatternNotTriples.optional (renumGroupGraphPattern f b0) := fun _ => rfl
  refine ⟨fun h => ?_, fun h => ?_⟩
  · cases y <;> first | exact absurd (show false = true from h) Bool.false_ne_true | (rw [e] at h; rw [e', e']; simpa [h0] using h)
  · cases y <;> first | (rw [e', e'] at h; rw [e]; simpa [h0] using h) | injection h
theorem rsEqGraphPatternNotTriples_groupOrUnion {f : NumericLiteral → NumericLiteral} (a0 : List GroupGraphPattern) (h0 : ∀ b, rsEqListGroupGraphPattern a0 b = true ↔ (renumListGroupGraphPattern f) a0 = (renumListGroupGraphPattern f) b) (y : GraphPatternNotTriples) :
    rsEqGraphPatternNotTriples (GraphPatternNotTriples.groupOrUnion a0) y = true ↔ renumGraphPatternNotTriples f (GraphPatternNotTriples.groupOrUnion a0) = renumGraphPatternNotTriples f y := by
  have e : ∀ b0, rsEqGraphPatternNotTriples (GraphPatternNotTriples.groupOrUnion a0) (GraphPatternNotTriples.groupOrUnion b0) = (rsEqListGroupGraphPattern a0 b0) := fun _ => rfl
  have e' : ∀ b0, renumGraphPatternNotTriples f (GraphPatternNotTriples.groupOrUnion b0) = GraphPatternNotTriples.groupOrUnion (renumListGroupGraphPattern f b0) := fun _ => rfl
  refine ⟨fun h => ?_, fun h => ?_⟩
  · cases y <;> first | exact absurd (show false = true from h) Bool.false_ne_true | (rw [e] at h; rw [e', e']; simpa [h0] using h)
  · cases y <;> first | (rw [e', e'] at h; rw [e]; simpa [h0] using h) | injection h
theorem rsEqGraphPatternNotTriples_minus {f : NumericLiteral → NumericLiteral} (a0 : GroupGraphPattern) (h0 : ∀ b, rsEqGroupGraphPattern a0 b = true ↔ (renumGroupGraphPattern f) a0 = (renumGroupGraphPattern f) b) (y : GraphPatternNotTriples) :
    rsEqGraphPatternNotTriples (GraphPatternNotTriples.minus a0) y = true ↔ renumGraphPatternNotTriples f (GraphPatternNotTriples.minus a0) = renumGraphPatternNotTriples f y := by
  have e : ∀ b0, rsEqGraphPatternNotTriples (GraphPatternNotTriples.minus a0) (GraphPatternNotTriples.minus b0) = (rsEqGroupGraphPattern a0 b0) := fun _ => rfl
  have e' : ∀ b0, renumGraphPatternNotTriples f (GraphPatternNotTriples.minus b0) = GraphPatternNotTriples.minus (renumGroupGraphPattern f b0) := fun _ => rfl
  refine ⟨fun h => ?_, fun h => ?_⟩
  · cases y <;> first | exact absurd (show false = true from h) Bool.false_ne_true | (rw [e] at h; rw [e', e']; simpa [h0] using h)
  · cases y <;> first | (rw [e', e'] at h; rw [e]; simpa [h0] using h) | injection h
theorem rsEqGraphPatternNotTriples_graph {f : NumericLiteral → NumericLiteral} (a0 : GraphGraphPattern) (h0 : ∀ b, rsEqGraphGraphPattern a0 b = true ↔ (renumGraphGraphPattern f) a0 = (renumGraphGraphPattern f) b) (y : GraphPatternNotTriples) :
    rsEqGraphPatternNotTriples (GraphPatternNotTriples.graph a0) y = true ↔ renumGraphPatternNotTriples f (GraphPatternNotTriples.graph a0) = renumGraphPatternNotTriples f y := by
  have e : ∀ b0, rsEqGraphPatternNotTriples (GraphPatternNotTriples.graph a0) (GraphPatternNotTriples.graph b0) = (rsEqGraphGraphPattern a0 b0) := fun _ => rfl
  have e' : ∀ b0, renumGraphPatternNotTriples f (GraphPatternNotTriples.graph b0) = GraphPatternNotTriples.graph (renumGraphGraphPattern f b0) := fun _ => rfl
  refine ⟨fun h => ?_, fun h => ?_⟩
  · cases y <;> first | exact absurd (show false = true from h) Bool.false_ne_true | (rw [e] at h; rw [e', e']; simpa [h0] using h)
  · cases y <;> first | (rw [e', e'] at h; rw [e]; simpa [h0] using h) | injection h
theorem rsEqGraphPatternNotTriples_service {f : NumericLiteral → NumericLiteral} (a0 : ServiceGraphPattern) (h0 : ∀ b, rsEqServiceGraphPattern a0 b = true ↔ (renumServiceGraphPattern f) a0 = (renumServiceGraphPattern f) b) (y : GraphPatternNotTriples) :
    rsEqGraphPatternNotTriples (GraphPatternNotTriples.service a0) y = true ↔ renumGraphPatternNotTriples f (GraphPatternNotTriples.service a0) = renumGraphPatternNotTriples f y := by
  have e : ∀ b0, rsEqGraphPatternNotTriples (GraphPatternNotTriples.service a0) (GraphPatternNotTriples.service b0) = (rsEqServiceGraphPattern a0 b0) := fun _ => rfl
  have e' : ∀ b0, renumGraphPatternNotTriples f (GraphPatternNotTriples.service b0) = GraphPatternNotTriples.service (renumServiceGraphPattern f b0) := fun _ => rfl
  refine ⟨fun h => ?_, fun h => ?_⟩
  · cases y <;> first | exact absurd (show false = true from h) Bool.false_ne_true | (rw [e] at h; rw [e', e']; simpa [h0] using h)
  · cases y <;> first | (rw [e', e'] at h; rw [e]; simpa [h0] using h) | injection h
theorem rsEqGraphPatternNotTriples_filter {f : NumericLiteral → NumericLiteral} (a0 : Constraint) (h0 : ∀ b, rsEqConstraint a0 b = true ↔ (renumConstraint f) a0 = (renumConstraint f) b) (y : GraphPatternNotTriples) :
    rsEqGraphPatternNotTriples (GraphPatternNotTriples.filter a0) y = true ↔ renumGraphPatternNotTriples f (GraphPatternNotTriples.filter a0) = renumGraphPatternNotTriples f y := by
  have e : ∀ b0, rsEqGraphPatternNotTriples (GraphPatternNotTriples.filter a0) (GraphPatternNotTriples.filter b0) = (rsEqConstraint a0 b0) := fun _ => rfl
  have e' : ∀ b0, renumGraphPatternNotTriples f (GraphPatternNotTriples.filter b0) = GraphPatternNotTriples.filter (renumConstraint f b0) := fun _ => rfl
  refine ⟨fun h => ?_, fun h => ?_⟩
  · cases y <;> first | exact absurd (show false = true from h) Bool.false_ne_true | (rw [e] at h; rw [e', e']; simpa [h0] using h)
  · cases y <;> first | (rw [e', e'] at h; rw [e]; simpa [h0] using h) | injection h
theorem rsEqGraphPatternNotTriples_bind {f : NumericLiteral → NumericLiteral} (a0 : ExpressionAsVar) (h0 : ∀ b, rsEqExpressionAsVar a0 b = true ↔ (renumExpressionAsVar f) a0 = (renumExpressionAsVar f) b) (y : GraphPatternNotTriples) :
    rsEqGraphPatternNotTriples (GraphPatternNotTriples.bind a0) y = true ↔ renumGraphPatternNotTriples f (GraphPatternNotTriples.bind a0) = renumGraphPatternNotTriples f y := by
  have e : ∀ b0, rsEqGraphPatternNotTriples (GraphPatternNotTriples.bind a0) (GraphPatternNotTriples.bind b0) = (rsEqExpressionAsVar a0 b0) := fun _ => rfl
  have e' : ∀ b0, renumGraphPatternNotTriples f (GraphPatternNotTriples.bind b0) = GraphPatternNotTriples.bind (renumExpressionAsVar f b0) := fun _ => rfl
  refine ⟨fun h => ?_, fun h => ?_⟩
  · cases y <;> first | exact absurd (show false = true from h) Bool.false_ne_true | (rw [e] at h; rw [e', e']; simpa [h0] using h)
  · cases y <;> first | (rw [e', e'] at h; rw [e]; simpa [h0] using h) | injection h
theorem rsEqGraphPatternNotTriples_inlineData {f : NumericLiteral → NumericLiteral} (a0 : DataBlock) (h0 : ∀ b, rsEqDataBlock a0 b = true ↔ (renumDataBlock f) a0 = (renumDataBlock f) b) (y : GraphPatternNotTriples) :
    rsEqGraphPatternNotTriples (GraphPatternNotTriples.inlineData a0) y = true ↔ renumGraphPatternNotTriples f (GraphPatternNotTriples.inlineData a0) = renumGraphPatternNotTriples f y := by
  have e : ∀ b0, rsEqGraphPatternNotTriples (GraphPatternNotTriples.inlineData a0) (GraphPatternNotTriples.inlineData b0) = (rsEqDataBlock a0 b0) := fun _ => rfl
  have e' : ∀ b0, renumGraphPatternNotTriples f (GraphPatternNotTriples.inlineData b0) = GraphPatternNotTriples.inlineData (renumDataBlock f b0) := fun _ => rfl
  refine ⟨fun h => ?_, fun h => ?_⟩
  · cases y <;> first | exact absurd (show false = true from h) Bool.false_ne_true | (rw [e] at h; rw [e', e']; simpa [h0] using h)
  · cases y <;> first | (rw [e', e'] at h; rw [e]; simpa [h0] using h) | injection h
theorem rsEqGraphGraphPattern_mk {f : NumericLiteral → NumericLiteral} (a0 : VarOrIri) (a1 : GroupGraphPattern) (h1 : ∀ b, rsEqGroupGraphPattern a1 b = true ↔ (renumGroupGraphPattern f) a1 = (renumGroupGraphPattern f) b) (y : GraphGraphPattern) :
    rsEqGraphGraphPattern (GraphGraphPattern.mk a0 a1) y = true ↔ renumGraphGraphPattern f (GraphGraphPattern.mk a0 a1) = renumGraphGraphPattern f y := by
  have e : ∀ b0 b1, rsEqGraphGraphPattern (GraphGraphPattern.mk a0 a1) (GraphGraphPattern.mk b0 b1) = (a0 == b0 && rsEqGroupGraphPattern a1 b1) := fun _ _ => rfl
  have e' : ∀ b0 b1, renumGraphGraphPattern f (GraphGraphPattern.mk b0 b1) = GraphGraphPattern.mk b0 (renumGroupGraphPattern f b1) := fun _ _ => rfl
  cases y
  rw [e, e', e']
  simp [h1]
theorem rsEqServiceGraphPattern_mk {f : NumericLiteral → NumericLiteral} (a0 : VarOrIri) (a1 : Bool) (a2 : GroupGraphPattern) (h2 : ∀ b, rsEqGroupGraphPattern a2 b = true ↔ (renumGroupGraphPattern f) a2 = (renumGroupGraphPattern f) b) (y : ServiceGraphPattern) :
    rsEqServiceGraphPattern (ServiceGraphPattern.mk a0 a1 a2) y = true ↔ renumServiceGraphPattern f (ServiceGraphPattern.mk a0 a1 a2) = renumServiceGraphPattern f y := by
  have e : ∀ b0 b1 b2, rsEqServiceGraphPattern (ServiceGraphPattern.mk a0 a1 a2) (ServiceGraphPattern.mk b0 b1 b2) = (a0 == b0 && a1 == b1 && rsEqGroupGraphPattern a2 b2) := fun _ _ _ => rfl
  have e' : ∀ b0 b1 b2, renumServiceGraphPattern f (ServiceGraphPattern.mk b0 b1 b2) = ServiceGraphPattern.mk b0 b1 (renumGroupGraphPattern f b2) := fun _ _ _ => rfl
  cases y
  rw [e, e', e']
  simp [h2, and_assoc]
theorem rsEqSubSelect_mk {f : NumericLiteral → NumericLiteral} (a0 : SelectClause) (h0 : ∀ b, rsEqSelectClause a0 b = true ↔ (renumSelectClause f) a0 = (renumSelectClause f) b) (a1 : GroupGraphPattern) (h1 : ∀ b, rsEqGroupGraphPattern a1 b = true ↔ (renumGroupGraphPattern f) a1 = (renumGroupGraphPattern f) b) (a2 : SolutionModifier) (h2 : ∀ b, rsEqSolutionModifier a2 b = true ↔ (renumSolutionModifier f) a2 = (renumSolutionModifier f) b) (a3 : Option DataBlock) (h3 : ∀ b, (rsEqOption rsEqDataBlock) a3 b = true ↔ (Option.map (renumDataBlock f)) a3 = (Option.map (renumDataBlock f)) b) (y : SubSelect) :
    rsEqSubSelect (SubSelect.mk a0 a1 a2 a3) y = true ↔ renumSubSelect f (SubSelect.mk a0 a1 a2 a3) = renumSubSelect f y := by
  have e : ∀ b0 b1 b2 b3, rsEqSubSelect (SubSelect.mk a0 a1 a2 a3) (SubSelect.mk b0 b1 b2 b3) = (rsEqSelectClause a0 b0 && rsEqGroupGraphPattern a1 b1 && rsEqSolutionModifier a2 b2 && rsEqOption rsEqDataBlock a3 b3) := fun _ _ _ _ => rfl
  have e' : ∀ b0 b1 b2 b3, renumSubSelect f (SubSelect.mk b0 b1 b2 b3) = SubSelect.mk (renumSelectClause f b0) (renumGroupGraphPattern f b1) (renumSolutionModifier f b2) (Option.map (renumDataBlock f) b3) := fun _ _ _ _ => rfl
  cases y
  rw [e, e', e']
  simp [h0, h1, h2, h3, and_assoc]
theorem rsEqSelectClause_mk {f : NumericLiteral → NumericLiteral} (a0 : Option SelectModifier) (a1 : SelectVars) (h1 : ∀ b, rsEqSelectVars a1 b = true ↔ (renumSelectVars f) a1 = (renumSelectVars f) b) (y : SelectClause) :
    rsEqSelectClause (SelectClause.mk a0 a1) y = true ↔ renumSelectClause f (SelectClause.mk a0 a1) = renumSelectClause f y := by
  have e : ∀ b0 b1, rsEqSelectClause (SelectClause.mk a0 a1) (SelectClause.mk b0 b1) = (a0 == b0 && rsEqSelectVars a1 b1) := fun _ _ => rfl
  have e' : ∀ b0 b1, renumSelectClause f (SelectClause.mk b0 b1) = SelectClause.mk b0 (renumSelectVars f b1) := fun _ _ => rfl
  cases y
  rw [e, e', e']
  simp [h1]
theorem rsEqSelectVars_varOrExpressionAsVar {f : NumericLiteral → NumericLiteral} (a0 : List VarOrExpressionAsVar) (h0 : ∀ b, rsEqListVarOrExpressionAsVar a0 b = true ↔ (renumListVarOrExpressionAsVar f) a0 = (renumListVarOrExpressionAsVar f) b) (y : SelectVars) :
    rsEqSelectVars (SelectVars.varOrExpressionAsVar a0) y = true ↔ renumSelectVars f (SelectVars.varOrExpressionAsVar a0) = renumSelectVars f y := by
  have e : ∀ b0, rsEqSelectVars (SelectVars.varOrExpressionAsVar a0) (SelectVars.varOrExpressionAsVar b0) = (rsEqListVarOrExpressionAsVar a0 b0) := fun _ => rfl
  have e' : ∀ b0, renumSelectVars f (SelectVars.varOrExpressionAsVar b0) = SelectVars.varOrExpressionAsVar (renumListVarOrExpressionAsVar f b0) := fun _ => rfl
  refine ⟨fun h => ?_, fun h => ?_⟩
  · cases y <;> first | exact absurd (show false = true from h) Bool.false_ne_true | (rw [e] at h; rw [e', e']; simpa [h0] using h)
  · cases y <;> first | (rw [e', e'] at h; rw [e]; simpa [h0] using h) | injection h
theorem rsEqSelectVars_all {f : NumericLiteral → NumericLiteral}  (y : SelectVars) :
    rsEqSelectVars (SelectVars.all) y = true ↔ renumSelectVars f (SelectVars.all) = renumSelectVars f y := by
  have e : rsEqSelectVars (SelectVars.all) (SelectVars.all) = (true) := rfl
  have e' : renumSelectVars f (SelectVars.all) = SelectVars.all := rfl
  refine ⟨fun h => ?_, fun h => ?_⟩
  · cases y <;> first | exact absurd (show false = true from h) Bool.false_ne_true | rfl
  · cases y <;> first | exact e | injection h
theorem rsEqVarOrExpressionAsVar_var {f : NumericLiteral → NumericLiteral} (a0 : Var) (y : VarOrExpressionAsVar) :
    rsEqVarOrExpressionAsVar (VarOrExpressionAsVar.var a0) y = true ↔ renumVarOrExpressionAsVar f (VarOrExpressionAsVar.var a0) = renumVarOrExpressionAsVar f y := by
  have e : ∀ b0, rsEqVarOrExpressionAsVar (VarOrExpressionAsVar.var a0) (VarOrExpressionAsVar.var b0) = (a0 == b0) := fun _ => rfl
  have e' : ∀ b0, renumVarOrExpressionAsVar f (VarOrExpressionAsVar.var b0) = VarOrExpressionAsVar.var b0 := fun _ => rfl
  refine ⟨fun h => ?_, fun h => ?_⟩
  · cases y <;> first | exact absurd (show false = true from h) Bool.false_ne_true | (rw [e] at h; rw [e', e']; simpa using h)
  · cases y <;> first | (rw [e', e'] at h; rw [e]; simpa using h) | injection h
theorem rsEqVarOrExpressionAsVar_expressionAsVar {f : NumericLiteral → NumericLiteral} (a0 : ExpressionAsVar) (h0 : ∀ b, rsEqExpressionAsVar a0 b = true ↔ (renumExpressionAsVar f) a0 = (renumExpressionAsVar f) b) (y : VarOrExpressionAsVar) :
    rsEqVarOrExpressionAsVar (VarOrExpressionAsVar.expressionAsVar a0) y = true ↔ renumVarOrExpressionAsVar f (VarOrExpressionAsVar.expressionAsVar a0) = renumVarOrExpressionAsVar f y := by
  have e : ∀ b0, rsEqVarOrExpressionAsVar (VarOrExpressionAsVar.expressionAsVar a0) (VarOrExpressionAsVar.expressionAsVar b0) = (rsEqExpressionAsVar a0 b0) := fun _ => rfl
  have e' : ∀ b0, renumVarOrExpressionAsVar f (VarOrExpressionAsVar.expressionAsVar b0) = VarOrExpressionAsVar.expressionAsVar (renumExpressionAsVar f b0) := fun _ => rfl
  refine ⟨fun h => ?_, fun h => ?_⟩
  · cases y <;> first | exact absurd (show false = true from h) Bool.false_ne_true | (rw [e] at h; rw [e', e']; simpa [h0] using h)
  · cases y <;> first | (rw [e', e'] at h; rw [e]; simpa [h0] using h) | injection h
theorem rsEqSolutionModifier_mk {f : NumericLiteral → NumericLiteral} (a0 : Option OrderClause) (h0 : ∀ b, rsEqOptionOrderClause a0 b = true ↔ (renumOptionOrderClause f) a0 = (renumOptionOrderClause f) b) (a1 : Option GroupClause) (h1 : ∀ b, rsEqOptionGroupClause a1 b = true ↔ (renumOptionGroupClause f) a1 = (renumOptionGroupClause f) b) (a2 : Option HavingClause) (h2 : ∀ b, rsEqOptionHavingClause a2 b = true ↔ (renumOptionHavingClause f) a2 = (renumOptionHavingClause f) b) (a3 : Option LimitOffsetClause) (y : SolutionModifier) :
    rsEqSolutionModifier (SolutionModifier.mk a0 a1 a2 a3) y = true ↔ renumSolutionModifier f (SolutionModifier.mk a0 a1 a2 a3) = renumSolutionModifier f y := by
  have e : ∀ b0 b1 b2 b3, rsEqSolutionModifier (SolutionModifier.mk a0 a1 a2 a3) (SolutionModifier.mk b0 b1 b2 b3) = (rsEqOptionOrderClause a0 b0 && rsEqOptionGroupClause a1 b1 && rsEqOptionHavingClause a2 b2 && a3 == b3) := fun _ _ _ _ => rfl
  have e' : ∀ b0 b1 b2 b3, renumSolutionModifier f (SolutionModifier.mk b0 b1 b2 b3) = SolutionModifier.mk (renumOptionOrderClause f b0) (renumOptionGroupClause f b1) (renumOptionHavingClause f b2) b3 := fun _ _ _ _ => rfl
  cases y
  rw [e, e', e']
  simp [h0, h1, h2, and_assoc]
theorem rsEqHavingClause_mk {f : NumericLiteral → NumericLiteral} (a0 : List Constraint) (h0 : ∀ b, rsEqListConstraint a0 b = true ↔ (renumListConstraint f) a0 = (renumListConstraint f) b) (y : HavingClause) :
    rsEqHavingClause (HavingClause.mk a0) y = true ↔ renumHavingClause f (HavingClause.mk a0) = renumHavingClause f y := by
  have e : ∀ b0, rsEqHavingClause (HavingClause.mk a0) (HavingClause.mk b0) = (rsEqListConstraint a0 b0) := fun _ => rfl
  have e' : ∀ b0, renumHavingClause f (HavingClause.mk b0) = HavingClause.mk (renumListConstraint f b0) := fun _ => rfl
  cases y
  rw [e, e', e']
  simp [h0]
theorem rsEqOrderClause_mk {f : NumericLiteral → NumericLiteral} (a0 : List OrderCondition) (h0 : ∀ b, rsEqListOrderCondition a0 b = true ↔ (renumListOrderCondition f) a0 = (renumListOrderCondition f) b) (y : OrderClause) :
    rsEqOrderClause (OrderClause.mk a0) y = true ↔ renumOrderClause f (OrderClause.mk a0) = renumOrderClause f y := by
  have e : ∀ b0, rsEqOrderClause (OrderClause.mk a0) (OrderClause.mk b0) = (rsEqListOrderCondition a0 b0) := fun _ => rfl
  have e' : ∀ b0, renumOrderClause f (OrderClause.mk b0) = OrderClause.mk (renumListOrderCondition f b0) := fun _ => rfl
  cases y
  rw [e, e', e']
  simp [h0]
theorem rsEqOrderCondition_order {f : NumericLiteral → NumericLiteral} (a0 : OrderExpression) (h0 : ∀ b, rsEqOrderExpression a0 b = true ↔ (renumOrderExpression f) a0 = (renumOrderExpression f) b) (y : OrderCondition) :
    rsEqOrderCondition (OrderCondition.order a0) y = true ↔ renumOrderCondition f (OrderCondition.order a0) = renumOrderCondition f y := by
  have e : ∀ b0, rsEqOrderCondition (OrderCondition.order a0) (OrderCondition.order b0) = (rsEqOrderExpression a0 b0) := fun _ => rfl
  have e' : ∀ b0, renumOrderCondition f (OrderCondition.order b0) = OrderCondition.order (renumOrderExpression f b0) := fun _ => rfl
  refine ⟨fun h => ?_, fun h => ?_⟩
  · cases y <;> first | exact absurd (show false = true from h) Bool.false_ne_true | (rw [e] at h; rw [e', e']; simpa [h0] using h)
  · cases y <;> first | (rw [e', e'] at h; rw [e]; simpa [h0] using h) | injection h
theorem rsEqOrderCondition_constraint {f : NumericLiteral → NumericLiteral} (a0 : Constraint) (h0 : ∀ b, rsEqConstraint a0 b = true ↔ (renumConstraint f) a0 = (renumConstraint f) b) (y : OrderCondition) :
    rsEqOrderCondition (OrderCondition.constraint a0) y = true ↔ renumOrderCondition f (OrderCondition.constraint a0) = renumOrderCondition f y := by
  have e : ∀ b0, rsEqOrderCondition (OrderCondition.constraint a0) (OrderCondition.constraint b0) = (rsEqConstraint a0 b0) := fun _ => rfl
  have e' : ∀ b0, renumOrderCondition f (OrderCondition.constraint b0) = OrderCondition.constraint (renumConstraint f b0) := fun _ => rfl
  refine ⟨fun h => ?_, fun h => ?_⟩
  · cases y <;> first | exact absurd (show false = true from h) Bool.false_ne_true | (rw [e] at h; rw [e', e']; simpa [h0] using h)
  · cases y <;> first | (rw [e', e'] at h; rw [e]; simpa [h0] using h) | injection h
theorem rsEqOrderCondition_var {f : NumericLiteral → NumericLiteral} (a0 : Var) (y : OrderCondition) :
    rsEqOrderCondition (OrderCondition.var a0) y = true ↔ renumOrderCondition f (OrderCondition.var a0) = renumOrderCondition f y := by
  have e : ∀ b0, rsEqOrderCondition (OrderCondition.var a0) (OrderCondition.var b0) = (a0 == b0) := fun _ => rfl
  have e' : ∀ b0, renumOrderCondition f (OrderCondition.var b0) = OrderCondition.var b0 := fun _ => rfl
  refine ⟨fun h => ?_, fun h => ?_⟩
  · cases y <;> first | exact absurd (show false = true from h) Bool.false_ne_true | (rw [e] at h; rw [e', e']; simpa using h)
  · cases y <;> first | (rw [e', e'] at h; rw [e]; simpa using h) | injection h
theorem rsEqOrderExpression_mk {f : NumericLiteral → NumericLiteral} (a0 : Order) (a1 : Expression) (h1 : ∀ b, rsEqExpression a1 b = true ↔ (renumExpression f) a1 = (renumExpression f) b) (y : OrderExpression) :
    rsEqOrderExpression (OrderExpression.mk a0 a1) y = true ↔ renumOrderExpression f (OrderExpression.mk a0 a1) = renumOrderExpression f y := by
  have e : ∀ b0 b1, rsEqOrderExpression (OrderExpression.mk a0 a1) (OrderExpression.mk b0 b1) = (a0 == b0 && rsEqExpression a1 b1) := fun _ _ => rfl
  have e' : ∀ b0 b1, renumOrderExpression f (OrderExpression.mk b0 b1) = OrderExpression.mk b0 (renumExpression f b1) := fun _ _ => rfl
  cases y
  rw [e, e', e']
  simp [h1]
theorem rsEqGroupClause_mk {f : NumericLiteral → NumericLiteral} (a0 : List GroupCondition) (h0 : ∀ b, rsEqListGroupCondition a0 b = true ↔ (renumListGroupCondition f) a0 = (renumListGroupCondition f) b) (y : GroupClause) :
    rsEqGroupClause (GroupClause.mk a0) y = true ↔ renumGroupClause f (GroupClause.mk a0) = renumGroupClause f y := by
  have e : ∀ b0, rsEqGroupClause (GroupClause.mk a0) (GroupClause.mk b0) = (rsEqListGroupCondition a0 b0) := fun _ => rfl
  have e' : ∀ b0, renumGroupClause f (GroupClause.mk b0) = GroupClause.mk (renumListGroupCondition f b0) := fun _ => rfl
  cases y
  rw [e, e', e']
  simp [h0]
theorem rsEqGroupCondition_builtInCall {f : NumericLiteral → NumericLiteral} (a0 : BuiltInCall) (h0 : ∀ b, rsEqBuiltInCall a0 b = true ↔ (renumBuiltInCall f) a0 = (renumBuiltInCall f) b) (y : GroupCondition) :
    rsEqGroupCondition (GroupCondition.builtInCall a0) y = true ↔ renumGroupCondition f (GroupCondition.builtInCall a0) = renumGroupCondition f y := by
  have e : ∀ b0, rsEqGroupCondition (GroupCondition.builtInCall a0) (GroupCondition.builtInCall b0) = (rsEqBuiltInCall a0 b0) := fun _ => rfl
  have e' : ∀ b0, renumGroupCondition f (GroupCondition.builtInCall b0) = GroupCondition.builtInCall (renumBuiltInCall f b0) := fun _ => rfl
  refine ⟨fun h => ?_, fun h => ?_⟩
  · cases y <;> first | exact absurd (show false = true from h) Bool.false_ne_true | (rw [e] at h; rw [e', e']; simpa [h0] using h)
  · cases y <;> first | (rw [e', e'] at h; rw [e]; simpa [h0] using h) | injection h
theorem rsEqGroupCondition_functionCall {f : NumericLiteral → NumericLiteral} (a0 : FunctionCall) (h0 : ∀ b, rsEqFunctionCall a0 b = true ↔ (renumFunctionCall f) a0 = (renumFunctionCall f) b) (y : GroupCondition) :
    rsEqGroupCondition (GroupCondition.functionCall a0) y = true ↔ renumGroupCondition f (GroupCondition.functionCall a0) = renumGroupCondition f y := by
  have e : ∀ b0, rsEqGroupCondition (GroupCondition.functionCall a0) (GroupCondition.functionCall b0) = (rsEqFunctionCall a0 b0) := fun _ => rfl
  have e' : ∀ b0, renumGroupCondition f (GroupCondition.functionCall b0) = GroupCondition.functionCall (renumFunctionCall f b0) := fun _ => rfl
  refine ⟨fun h => ?_, fun h => ?_⟩
  · cases y <;> first | exact absurd (show false = true from h) Bool.false_ne_true | (rw [e] at h; rw [e', e']; simpa [h0] using h)
  · cases y <;> first | (rw [e', e'] at h; rw [e]; simpa [h0] using h) | injection h
theorem rsEqGroupCondition_expressionAsVarOpt {f : NumericLiteral → NumericLiteral} (a0 : ExpressionAsVarOpt) (h0 : ∀ b, rsEqExpressionAsVarOpt a0 b = true ↔ (renumExpressionAsVarOpt f) a0 = (renumExpressionAsVarOpt f) b) (y : GroupCondition) :
    rsEqGroupCondition (GroupCondition.expressionAsVarOpt a0) y = true ↔ renumGroupCondition f (GroupCondition.expressionAsVarOpt a0) = renumGroupCondition f y := by
  have e : ∀ b0, rsEqGroupCondition (GroupCondition.expressionAsVarOpt a0) (GroupCondition.expressionAsVarOpt b0) = (rsEqExpressionAsVarOpt a0 b0) := fun _ => rfl
  have e' : ∀ b0, renumGroupCondition f (GroupCondition.expressionAsVarOpt b0) = GroupCondition.expressionAsVarOpt (renumExpressionAsVarOpt f b0) := fun _ => rfl
  refine ⟨fun h => ?_, fun h => ?_⟩
  · cases y <;> first | exact absurd (show false = true from h) Bool.false_ne_true | (rw [e] at h; rw [e', e']; simpa [h0] using h)
  · cases y <;> first | (rw [e', e'] at h; rw [e]; simpa [h0] using h) | injection h
theorem rsEqGroupCondition_var {f : NumericLiteral → NumericLiteral} (a0 : Var) (y : GroupCondition) :
    rsEqGroupCondition (GroupCondition.var a0) y = true ↔ renumGroupCondition f (GroupCondition.var a0) = renumGroupCondition f y := by
  have e : ∀ b0, rsEqGroupCondition (GroupCondition.var a0) (GroupCondition.var b0) = (a0 == b0) := fun _ => rfl
  have e' : ∀ b0, renumGroupCondition f (GroupCondition.var b0) = GroupCondition.var b0 := fun _ => rfl
  refine ⟨fun h => ?_, fun h => ?_⟩
  · cases y <;> first | exact absurd (show false = true from h) Bool.false_ne_true | (rw [e] at h; rw [e', e']; simpa using h)
  · cases y <;> first | (rw [e', e'] at h; rw [e]; simpa using h) | injection h
theorem rsEqListConditionalAndExpression_nil {f : NumericLiteral → NumericLiteral} (y : List ConditionalAndExpression) : rsEqListConditionalAndExpression [] y = true ↔ renumListConditionalAndExpression f [] = renumListConditionalAndExpression f y := by
  cases y <;> simp [rsEqListConditionalAndExpression, renumListConditionalAndExpression]
theorem rsEqListConditionalAndExpression_cons {f : NumericLiteral → NumericLiteral} (a : ConditionalAndExpression) (ha : ∀ b, rsEqConditionalAndExpression a b = true ↔ (renumConditionalAndExpression f) a = (renumConditionalAndExpression f) b) (l : List ConditionalAndExpression) (hl : ∀ b, rsEqListConditionalAndExpression l b = true ↔ renumListConditionalAndExpression f l = renumListConditionalAndExpression f b) (y : List ConditionalAndExpression) :
    rsEqListConditionalAndExpression (a :: l) y = true ↔ renumListConditionalAndExpression f (a :: l) = renumListConditionalAndExpression f y := by
  cases y <;> simp [rsEqListConditionalAndExpression, renumListConditionalAndExpression, ha, hl]
theorem rsEqListRelationalExpression_nil {f : NumericLiteral → NumericLiteral} (y : List RelationalExpression) : rsEqListRelationalExpression [] y = true ↔ renumListRelationalExpression f [] = renumListRelationalExpression f y := by
  cases y <;> simp [rsEqListRelationalExpression, renumListRelationalExpression]
theorem rsEqListRelationalExpression_cons {f : NumericLiteral → NumericLiteral} (a : RelationalExpression) (ha : ∀ b, rsEqRelationalExpression a b = true ↔ (renumRelationalExpression f) a = (renumRelationalExpression f) b) (l : List RelationalExpression) (hl : ∀ b, rsEqListRelationalExpression l b = true ↔ renumListRelationalExpression f l = renumListRelationalExpression f b) (y : List RelationalExpression) :
    rsEqListRelationalExpression (a :: l) y = true ↔ renumListRelationalExpression f (a :: l) = renumListRelationalExpression f y := by
  cases y <;> simp [rsEqListRelationalExpression, renumListRelationalExpression, ha, hl]
theorem rsEqOptionOpExpression_none {f : NumericLiteral → NumericLiteral} (y : Option OpExpression) : rsEqOptionOpExpression none y = true ↔ renumOptionOpExpression f none = renumOptionOpExpression f y := by
  cases y <;> simp [rsEqOptionOpExpression, renumOptionOpExpression]
theorem rsEqOptionOpExpression_some {f : NumericLiteral → NumericLiteral} (a : OpExpression) (ha : ∀ b, rsEqOpExpression a b = true ↔ (renumOpExpression f) a = (renumOpExpression f) b) (y : Option OpExpression) :
    rsEqOptionOpExpression (some a) y = true ↔ renumOptionOpExpression f (some a) = renumOptionOpExpression f y := by
  cases y <;> simp [rsEqOptionOpExpression, renumOptionOpExpression, ha]
theorem rsEqListAddExpression_nil {f : NumericLiteral → NumericLiteral} (y : List AddExpression) : rsEqListAddExpression [] y = true ↔ renumListAddExpression f [] = renumListAddExpression f y := by
  cases y <;> simp [rsEqListAddExpression, renumListAddExpression]
theorem rsEqListAddExpression_cons {f : NumericLiteral → NumericLiteral} (a : AddExpression) (ha : ∀ b, rsEqAddExpression a b = true ↔ (renumAddExpression f) a = (renumAddExpression f) b) (l : List AddExpression) (hl : ∀ b, rsEqListAddExpression l b = true ↔ renumListAddExpression f l = renumListAddExpression f b) (y : List AddExpression) :
    rsEqListAddExpression (a :: l) y = true ↔ renumListAddExpression f (a :: l) = renumListAddExpression f y := by
  cases y <;> simp [rsEqListAddExpression, renumListAddExpression, ha, hl]
theorem rsEqListMultExpression_nil {f : NumericLiteral → NumericLiteral} (y : List MultExpression) : rsEqListMultExpression [] y = true ↔ renumListMultExpression f [] = renumListMultExpression f y := by
  cases y <;> simp [rsEqListMultExpression, renumListMultExpression]
theorem rsEqListMultExpression_cons {f : NumericLiteral → NumericLiteral} (a : MultExpression) (ha : ∀ b, rsEqMultExpression a b = true ↔ (renumMultExpression f) a = (renumMultExpression f) b) (l : List MultExpression) (hl : ∀ b, rsEqListMultExpression l b = true ↔ renumListMultExpression f l = renumListMultExpression f b) (y : List MultExpression) :
    rsEqListMultExpression (a :: l) y = true ↔ renumListMultExpression f (a :: l) = renumListMultExpression f y := by
  cases y <;> simp [rsEqListMultExpression, renumListMultExpression, ha, hl]
theorem rsEqListExpression_nil {f : NumericLiteral → NumericLiteral} (y : List Expression) : rsEqListExpression [] y = true ↔ renumListExpression f [] = renumListExpression f y := by
  cases y <;> simp [rsEqListExpression, renumListExpression]
theorem rsEqListExpression_cons {f : NumericLiteral → NumericLiteral} (a : Expression) (ha : ∀ b, rsEqExpression a b = true ↔ (renumExpression f) a = (renumExpression f) b) (l : List Expression) (hl : ∀ b, rsEqListExpression l b = true ↔ renumListExpression f l = renumListExpression f b) (y : List Expression) :
    rsEqListExpression (a :: l) y = true ↔ renumListExpression f (a :: l) = renumListExpression f y := by
  cases y <;> simp [rsEqListExpression, renumListExpression, ha, hl]
theorem rsEqOptionArgList_none {f : NumericLiteral → NumericLiteral} (y : Option ArgList) : rsEqOptionArgList none y = true ↔ renumOptionArgList f none = renumOptionArgList f y := by
  cases y <;> simp [rsEqOptionArgList, renumOptionArgList]
theorem rsEqOptionArgList_some {f : NumericLiteral → NumericLiteral} (a : ArgList) (ha : ∀ b, rsEqArgList a b = true ↔ (renumArgList f) a = (renumArgList f) b) (y : Option ArgList) :
    rsEqOptionArgList (some a) y = true ↔ renumOptionArgList f (some a) = renumOptionArgList f y := by
  cases y <;> simp [rsEqOptionArgList, renumOptionArgList, ha]
theorem rsEqOptionExpression_none {f : NumericLiteral → NumericLiteral} (y : Option Expression) : rsEqOptionExpression none y = true ↔ renumOptionExpression f none = renumOptionExpression f y := by
  cases y <;> simp [rsEqOptionExpression, renumOptionExpression]
theorem rsEqOptionExpression_some {f : NumericLiteral → NumericLiteral} (a : Expression) (ha : ∀ b, rsEqExpression a b = true ↔ (renumExpression f) a = (renumExpression f) b) (y : Option Expression) :
    rsEqOptionExpression (some a) y = true ↔ renumOptionExpression f (some a) = renumOptionExpression f y := by
  cases y <;> simp [rsEqOptionExpression, renumOptionExpression, ha]
theorem rsEqListGraphPatternAndTriples_nil {f : NumericLiteral → NumericLiteral} (y : List GraphPatternAndTriples) : rsEqListGraphPatternAndTriples [] y = true ↔ renumListGraphPatternAndTriples f [] = renumListGraphPatternAndTriples f y := by
  cases y <;> simp [rsEqListGraphPatternAndTriples, renumListGraphPatternAndTriples]
theorem rsEqListGraphPatternAndTriples_cons {f : NumericLiteral → NumericLiteral} (a : GraphPatternAndTriples) (ha : ∀ b, rsEqGraphPatternAndTriples a b = true ↔ (renumGraphPatternAndTriples f) a = (renumGraphPatternAndTriples f) b) (l : List GraphPatternAndTriples) (hl : ∀ b, rsEqListGraphPatternAndTriples l b = true ↔ renumListGraphPatternAndTriples f l = renumListGraphPatternAndTriples f b) (y : List GraphPatternAndTriples) :
    rsEqListGraphPatternAndTriples (a :: l) y = true ↔ renumListGraphPatternAndTriples f (a :: l) = renumListGraphPatternAndTriples f y := by
  cases y <;> simp [rsEqListGraphPatternAndTriples, renumListGraphPatternAndTriples, ha, hl]
theorem rsEqListGroupGraphPattern_nil {f : NumericLiteral → NumericLiteral} (y : List GroupGraphPattern) : rsEqListGroupGraphPattern [] y = true ↔ renumListGroupGraphPattern f [] = renumListGroupGraphPattern f y := by
  cases y <;> simp [rsEqListGroupGraphPattern, renumListGroupGraphPattern]
theorem rsEqListGroupGraphPattern_cons {f : NumericLiteral → NumericLiteral} (a : GroupGraphPattern) (ha : ∀ b, rsEqGroupGraphPattern a b = true ↔ (renumGroupGraphPattern f) a = (renumGroupGraphPattern f) b) (l : List GroupGraphPattern) (hl : ∀ b, rsEqListGroupGraphPattern l b = true ↔ renumListGroupGraphPattern f l = renumListGroupGraphPattern f b) (y : List GroupGraphPattern) :
    rsEqListGroupGraphPattern (a :: l) y = true ↔ renumListGroupGraphPattern f (a :: l) = renumListGroupGraphPattern f y := by
  cases y <;> simp [rsEqListGroupGraphPattern, renumListGroupGraphPattern, ha, hl]
theorem rsEqListVarOrExpressionAsVar_nil {f : NumericLiteral → NumericLiteral} (y : List VarOrExpressionAsVar) : rsEqListVarOrExpressionAsVar [] y = true ↔ renumListVarOrExpressionAsVar f [] = renumListVarOrExpressionAsVar f y := by
  cases y <;> simp [rsEqListVarOrExpressionAsVar, renumListVarOrExpressionAsVar]
theorem rsEqListVarOrExpressionAsVar_cons {f : NumericLiteral → NumericLiteral} (a : VarOrExpressionAsVar) (ha : ∀ b, rsEqVarOrExpressionAsVar a b = true ↔ (renumVarOrExpressionAsVar f) a = (renumVarOrExpressionAsVar f) b) (l : List VarOrExpressionAsVar) (hl : ∀ b, rsEqListVarOrExpressionAsVar l b = true ↔ renumListVarOrExpressionAsVar f l = renumListVarOrExpressionAsVar f b) (y : List VarOrExpressionAsVar) :
    rsEqListVarOrExpressionAsVar (a :: l) y = true ↔ renumListVarOrExpressionAsVar f (a :: l) = renumListVarOrExpressionAsVar f y := by
  cases y <;> simp [rsEqListVarOrExpressionAsVar, renumListVarOrExpressionAsVar, ha, hl]
theorem rsEqOptionOrderClause_none {f : NumericLiteral → NumericLiteral} (y : Option OrderClause) : rsEqOptionOrderClause none y = true ↔ renumOptionOrderClause f none = renumOptionOrderClause f y := by
  cases y <;> simp [rsEqOptionOrderClause, renumOptionOrderClause]
theorem rsEqOptionOrderClause_some {f : NumericLiteral → NumericLiteral} (a : OrderClause) (ha : ∀ b, rsEqOrderClause a b = true ↔ (renumOrderClause f) a = (renumOrderClause f) b) (y : Option OrderClause) :
    rsEqOptionOrderClause (some a) y = true ↔ renumOptionOrderClause f (some a) = renumOptionOrderClause f y := by
  cases y <;> simp [rsEqOptionOrderClause, renumOptionOrderClause, ha]
theorem rsEqOptionGroupClause_none {f : NumericLiteral → NumericLiteral} (y : Option GroupClause) : rsEqOptionGroupClause none y = true ↔ renumOptionGroupClause f none = renumOptionGroupClause f y := by
  cases y <;> simp [rsEqOptionGroupClause, renumOptionGroupClause]
theorem rsEqOptionGroupClause_some {f : NumericLiteral → NumericLiteral} (a : GroupClause) (ha : ∀ b, rsEqGroupClause a b = true ↔ (renumGroupClause f) a = (renumGroupClause f) b) (y : Option GroupClause) :
    rsEqOptionGroupClause (some a) y = true ↔ renumOptionGroupClause f (some a) = renumOptionGroupClause f y := by
  cases y <;> simp [rsEqOptionGroupClause, renumOptionGroupClause, ha]
theorem rsEqOptionHavingClause_none {f : NumericLiteral → NumericLiteral} (y : Option HavingClause) : rsEqOptionHavingClause none y = true ↔ renumOptionHavingClause f none = renumOptionHavingClause f y := by
  cases y <;> simp [rsEqOptionHavingClause, renumOptionHavingClause]
theorem rsEqOptionHavingClause_some {f : NumericLiteral → NumericLiteral} (a : HavingClause) (ha : ∀ b, rsEqHavingClause a b = true ↔ (renumHavingClause f) a = (renumHavingClause f) b) (y : Option HavingClause) :
    rsEqOptionHavingClause (some a) y = true ↔ renumOptionHavingClause f (some a) = renumOptionHavingClause f y := by
  cases y <;> simp [rsEqOptionHavingClause, renumOptionHavingClause, ha]
theorem rsEqListConstraint_nil {f : NumericLiteral → NumericLiteral} (y : List Constraint) : rsEqListConstraint [] y = true ↔ renumListConstraint f [] = renumListConstraint f y := by
  cases y <;> simp [rsEqListConstraint, renumListConstraint]
theorem rsEqListConstraint_cons {f : NumericLiteral → NumericLiteral} (a : Constraint) (ha : ∀ b, rsEqConstraint a b = true ↔ (renumConstraint f) a = (renumConstraint f) b) (l : List Constraint) (hl : ∀ b, rsEqListConstraint l b = true ↔ renumListConstraint f l = renumListConstraint f b) (y : List Constraint) :
    rsEqListConstraint (a :: l) y = true ↔ renumListConstraint f (a :: l) = renumListConstraint f y := by
  cases y <;> simp [rsEqListConstraint, renumListConstraint, ha, hl]
theorem rsEqListOrderCondition_nil {f : NumericLiteral → NumericLiteral} (y : List OrderCondition) : rsEqListOrderCondition [] y = true ↔ renumListOrderCondition f [] = renumListOrderCondition f y := by
  cases y <;> simp [rsEqListOrderCondition, renumListOrderCondition]
theorem rsEqListOrderCondition_cons {f : NumericLiteral → NumericLiteral} (a : OrderCondition) (ha : ∀ b, rsEqOrderCondition a b = true ↔ (renumOrderCondition f) a = (renumOrderCondition f) b) (l : List OrderCondition) (hl : ∀ b, rsEqListOrderCondition l b = true ↔ renumListOrderCondition f l = renumListOrderCondition f b) (y : List OrderCondition) :
    rsEqListOrderCondition (a :: l) y = true ↔ renumListOrderCondition f (a :: l) = renumListOrderCondition f y := by
  cases y <;> simp [rsEqListOrderCondition, renumListOrderCondition, ha, hl]
theorem rsEqListGroupCondition_nil {f : NumericLiteral → NumericLiteral} (y : List GroupCondition) : rsEqListGroupCondition [] y = true ↔ renumListGroupCondition f [] = renumListGroupCondition f y := by
  cases y <;> simp [rsEqListGroupCondition, renumListGroupCondition]
theorem rsEqListGroupCondition_cons {f : NumericLiteral → NumericLiteral} (a : GroupCondition) (ha : ∀ b, rsEqGroupCondition a b = true ↔ (renumGroupCondition f) a = (renumGroupCondition f) b) (l : List GroupCondition) (hl : ∀ b, rsEqListGroupCondition l b = true ↔ renumListGroupCondition f l = renumListGroupCondition f b) (y : List GroupCondition) :
    rsEqListGroupCondition (a :: l) y = true ↔ renumListGroupCondition f (a :: l) = renumListGroupCondition f y := by
  cases y <;> simp [rsEqListGroupCondition, renumListGroupCondition, ha, hl]
mutual
theorem rsEqExpression_iff {f : NumericLiteral → NumericLiteral} (hf : ∀ a b, NumericLiteral.rustEq a b = true ↔ f a = f b) :
    ∀ a b : Expression, rsEqExpression a b = true ↔ renumExpression f a = renumExpression f b
  | .mk a0, y => rsEqExpression_mk a0 (rsEqListConditionalAndExpression_iff hf a0) y
termination_by structural x => x
theorem rsEqConditionalAndExpression_iff {f : NumericLiteral → NumericLiteral} (hf : ∀ a b, NumericLiteral.rustEq a b = true ↔ f a = f b) :
    ∀ a b : ConditionalAndExpression, rsEqConditionalAndExpression a b = true ↔ renumConditionalAndExpression f a = renumConditionalAndExpression f b
  | .mk a0, y => rsEqConditionalAndExpression_mk a0 (rsEqListRelationalExpression_iff hf a0) y
termination_by structural x => x
theorem rsEqRelationalExpression_iff {f : NumericLiteral → NumericLiteral} (hf : ∀ a b, NumericLiteral.rustEq a b = true ↔ f a = f b) :
    ∀ a b : RelationalExpression, rsEqRelationalExpression a b = true ↔ renumRelationalExpression f a = renumRelationalExpression f b
  | .mk a0 a1, y => rsEqRelationalExpression_mk a0 (rsEqAdditiveExpression_iff hf a0) a1 (rsEqOptionOpExpression_iff hf a1) y
termination_by structural x => x
theorem rsEqOpExpression_iff {f : NumericLiteral → NumericLiteral} (hf : ∀ a b, NumericLiteral.rustEq a b = true ↔ f a = f b) :
    ∀ a b : OpExpression, rsEqOpExpression a b = true ↔ renumOpExpression f a = renumOpExpression f b
  | .eq a0, y => rsEqOpExpression_eq a0 (rsEqAdditiveExpression_iff hf a0) y
  | .ne a0, y => rsEqOpExpression_ne a0 (rsEqAdditiveExpression_iff hf a0) y
  | .lt a0, y => rsEqOpExpression_lt a0 (rsEqAdditiveExpression_iff hf a0) y
  | .gt a0, y => rsEqOpExpression_gt a0 (rsEqAdditiveExpression_iff hf a0) y
  | .le a0, y => rsEqOpExpression_le a0 (rsEqAdditiveExpression_iff hf a0) y
  | .ge a0, y => rsEqOpExpression_ge a0 (rsEqAdditiveExpression_iff hf a0) y
  | .in a0, y => rsEqOpExpression_in a0 (rsEqExpressionList_iff hf a0) y
  | .nin a0, y => rsEqOpExpression_nin a0 (rsEqExpressionList_iff hf a0) y
termination_by structural x => x
theorem rsEqAdditiveExpression_iff {f : NumericLiteral → NumericLiteral} (hf : ∀ a b, NumericLiteral.rustEq a b = true ↔ f a = f b) :
    ∀ a b : AdditiveExpression, rsEqAdditiveExpression a b = true ↔ renumAdditiveExpression f a = renumAdditiveExpression f b
  | .mk a0 a1, y => rsEqAdditiveExpression_mk a0 (rsEqMultiplicativeExpression_iff hf a0) a1 (rsEqListAddExpression_iff hf a1) y
termination_by structural x => x
theorem rsEqAddExpression_iff {f : NumericLiteral → NumericLiteral} (hf : ∀ a b, NumericLiteral.rustEq a b = true ↔ f a = f b) :
    ∀ a b : AddExpression, rsEqAddExpression a b = true ↔ renumAddExpression f a = renumAddExpression f b
  | .add a0, y => rsEqAddExpression_add a0 (rsEqMultiplicativeExpression_iff hf a0) y
  | .sub a0, y => rsEqAddExpression_sub a0 (rsEqMultiplicativeExpression_iff hf a0) y
  | .numeric a0 a1, y => rsEqAddExpression_numeric a0 (hf a0) a1 (rsEqListMultExpression_iff hf a1) y
termination_by structural x => x
theorem rsEqMultiplicativeExpression_iff {f : NumericLiteral → NumericLiteral} (hf : ∀ a b, NumericLiteral.rustEq a b = true ↔ f a = f b) :
    ∀ a b : MultiplicativeExpression, rsEqMultiplicativeExpression a b = true ↔ renumMultiplicativeExpression f a = renumMultiplicativeExpression f b
  | .mk a0 a1, y => rsEqMultiplicativeExpression_mk a0 (rsEqUnaryExpression_iff hf a0) a1 (rsEqListMultExpression_iff hf a1) y
termination_by structural x => x
theorem rsEqMultExpression_iff {f : NumericLiteral → NumericLiteral} (hf : ∀ a b, NumericLiteral.rustEq a b = true ↔ f a = f b) :
    ∀ a b : MultExpression, rsEqMultExpression a b = true ↔ renumMultExpression f a = renumMultExpression f b
  | .mult a0, y => rsEqMultExpression_mult a0 (rsEqUnaryExpression_iff hf a0) y
  | .div a0, y => rsEqMultExpression_div a0 (rsEqUnaryExpression_iff hf a0) y
termination_by structural x => x
theorem rsEqUnaryExpression_iff {f : NumericLiteral → NumericLiteral} (hf : ∀ a b, NumericLiteral.rustEq a b = true ↔ f a = f b) :
    ∀ a b : UnaryExpression, rsEqUnaryExpression a b = true ↔ renumUnaryExpression f a = renumUnaryExpression f b
  | .not a0, y => rsEqUnaryExpression_not a0 (rsEqPrimaryExpression_iff hf a0) y
  | .add a0, y => rsEqUnaryExpression_add a0 (rsEqPrimaryExpression_iff hf a0) y
  | .sub a0, y => rsEqUnaryExpression_sub a0 (rsEqPrimaryExpression_iff hf a0) y
  | .default a0, y => rsEqUnaryExpression_default a0 (rsEqPrimaryExpression_iff hf a0) y
termination_by structural x => x
theorem rsEqPrimaryExpression_iff {f : NumericLiteral → NumericLiteral} (hf : ∀ a b, NumericLiteral.rustEq a b = true ↔ f a = f b) :
    ∀ a b : PrimaryExpression, rsEqPrimaryExpression a b = true ↔ renumPrimaryExpression f a = renumPrimaryExpression f b
  | .brackettedExpression a0, y => rsEqPrimaryExpression_brackettedExpression a0 (rsEqExpression_iff hf a0) y
  | .builtInCall a0, y => rsEqPrimaryExpression_builtInCall a0 (rsEqBuiltInCall_iff hf a0) y
  | .iriOrFunction a0, y => rsEqPrimaryExpression_iriOrFunction a0 (rsEqIriOrFunction_iff hf a0) y
  | .rdfLiteral a0, y => rsEqPrimaryExpression_rdfLiteral a0 y
  | .numericLiteral a0, y => rsEqPrimaryExpression_numericLiteral a0 (hf a0) y
  | .booleanLiteral a0, y => rsEqPrimaryExpression_booleanLiteral a0 y
  | .var a0, y => rsEqPrimaryExpression_var a0 y
termination_by structural x => x
theorem rsEqExpressionList_iff {f : NumericLiteral → NumericLiteral} (hf : ∀ a b, NumericLiteral.rustEq a b = true ↔ f a = f b) :
    ∀ a b : ExpressionList, rsEqExpressionList a b = true ↔ renumExpressionList f a = renumExpressionList f b
  | .nil, y => rsEqExpressionList_nil  y
  | .list a0, y => rsEqExpressionList_list a0 (rsEqListExpression_iff hf a0) y
termination_by structural x => x
theorem rsEqIriOrFunction_iff {f : NumericLiteral → NumericLiteral} (hf : ∀ a b, NumericLiteral.rustEq a b = true ↔ f a = f b) :
    ∀ a b : IriOrFunction, rsEqIriOrFunction a b = true ↔ renumIriOrFunction f a = renumIriOrFunction f b
  | .mk a0 a1, y => rsEqIriOrFunction_mk a0 a1 (rsEqOptionArgList_iff hf a1) y
termination_by structural x => x
theorem rsEqArgList_iff {f : NumericLiteral → NumericLiteral} (hf : ∀ a b, NumericLiteral.rustEq a b = true ↔ f a = f b) :
    ∀ a b : ArgList, rsEqArgList a b = true ↔ renumArgList f a = renumArgList f b
  | .nil, y => rsEqArgList_nil  y
  | .expression a0 a1, y => rsEqArgList_expression a0 a1 (rsEqListExpression_iff hf a1) y
termination_by structural x => x
theorem rsEqDistinctExpression_iff {f : NumericLiteral → NumericLiteral} (hf : ∀ a b, NumericLiteral.rustEq a b = true ↔ f a = f b) :
    ∀ a b : DistinctExpression, rsEqDistinctExpression a b = true ↔ renumDistinctExpression f a = renumDistinctExpression f b
  | .mk a0 a1, y => rsEqDistinctExpression_mk a0 a1 (rsEqExpression_iff hf a1) y
termination_by structural x => x
theorem rsEqExpressionAsVar_iff {f : NumericLiteral → NumericLiteral} (hf : ∀ a b, NumericLiteral.rustEq a b = true ↔ f a = f b) :
    ∀ a b : ExpressionAsVar, rsEqExpressionAsVar a b = true ↔ renumExpressionAsVar f a = renumExpressionAsVar f b
  | .mk a0 a1, y => rsEqExpressionAsVar_mk a0 (rsEqExpression_iff hf a0) a1 y
termination_by structural x => x
theorem rsEqExpressionAsVarOpt_iff {f : NumericLiteral → NumericLiteral} (hf : ∀ a b, NumericLiteral.rustEq a b = true ↔ f a = f b) :
    ∀ a b : ExpressionAsVarOpt, rsEqExpressionAsVarOpt a b = true ↔ renumExpressionAsVarOpt f a = renumExpressionAsVarOpt f b
  | .mk a0 a1, y => rsEqExpressionAsVarOpt_mk a0 (rsEqExpression_iff hf a0) a1 y
termination_by structural x => x
theorem rsEqRegexExpression_iff {f : NumericLiteral → NumericLiteral} (hf : ∀ a b, NumericLiteral.rustEq a b = true ↔ f a = f b) :
    ∀ a b : RegexExpression, rsEqRegexExpression a b = true ↔ renumRegexExpression f a = renumRegexExpression f b
  | .mk a0 a1 a2, y => rsEqRegexExpression_mk a0 (rsEqExpression_iff hf a0) a1 (rsEqExpression_iff hf a1) a2 (rsEqOptionExpression_iff hf a2) y
termination_by structural x => x
theorem rsEqStrReplaceExpression_iff {f : NumericLiteral → NumericLiteral} (hf : ∀ a b, NumericLiteral.rustEq a b = true ↔ f a = f b) :
    ∀ a b : StrReplaceExpression, rsEqStrReplaceExpression a b = true ↔ renumStrReplaceExpression f a = renumStrReplaceExpression f b
  | .mk a0 a1 a2 a3, y => rsEqStrReplaceExpression_mk a0 (rsEqExpression_iff hf a0) a1 (rsEqExpression_iff hf a1) a2 (rsEqExpression_iff hf a2) a3 (rsEqOptionExpression_iff hf a3) y
termination_by structural x => x
theorem rsEqConstraint_iff {f : NumericLiteral → NumericLiteral} (hf : ∀ a b, NumericLiteral.rustEq a b = true ↔ f a = f b) :
    ∀ a b : Constraint, rsEqConstraint a b = true ↔ renumConstraint f a = renumConstraint f b
  | .bracketted a0, y => rsEqConstraint_bracketted a0 (rsEqExpression_iff hf a0) y
  | .builtInCall a0, y => rsEqConstraint_builtInCall a0 (rsEqBuiltInCall_iff hf a0) y
  | .functionCall a0, y => rsEqConstraint_functionCall a0 (rsEqFunctionCall_iff hf a0) y
termination_by structural x => x
theorem rsEqFunctionCall_iff {f : NumericLiteral → NumericLiteral} (hf : ∀ a b, NumericLiteral.rustEq a b = true ↔ f a = f b) :
    ∀ a b : FunctionCall, rsEqFunctionCall a b = true ↔ renumFunctionCall f a = renumFunctionCall f b
  | .mk a0 a1, y => rsEqFunctionCall_mk a0 a1 (rsEqArgList_iff hf a1) y
termination_by structural x => x
theorem rsEqBuiltInCall_iff {f : NumericLiteral → NumericLiteral} (hf : ∀ a b, NumericLiteral.rustEq a b = true ↔ f a = f b) :
    ∀ a b : BuiltInCall, rsEqBuiltInCall a b = true ↔ renumBuiltInCall f a = renumBuiltInCall f b
  | .aggregate a0, y => rsEqBuiltInCall_aggregate a0 (rsEqAggregate_iff hf a0) y
  | .str a0, y => rsEqBuiltInCall_str a0 (rsEqExpression_iff hf a0) y
  | .lang a0, y => rsEqBuiltInCall_lang a0 (rsEqExpression_iff hf a0) y
  | .langMatches a0 a1, y => rsEqBuiltInCall_langMatches a0 (rsEqExpression_iff hf a0) a1 (rsEqExpression_iff hf a1) y
  | .datatype a0, y => rsEqBuiltInCall_datatype a0 (rsEqExpression_iff hf a0) y
  | .bound a0, y => rsEqBuiltInCall_bound a0 y
  | .iri a0, y => rsEqBuiltInCall_iri a0 (rsEqExpression_iff hf a0) y
  | .uri a0, y => rsEqBuiltInCall_uri a0 (rsEqExpression_iff hf a0) y
  | .bnode a0, y => rsEqBuiltInCall_bnode a0 (rsEqOptionExpression_iff hf a0) y
  | .rand, y => rsEqBuiltInCall_rand  y
  | .abs a0, y => rsEqBuiltInCall_abs a0 (rsEqExpression_iff hf a0) y
  | .ceil a0, y => rsEqBuiltInCall_ceil a0 (rsEqExpression_iff hf a0) y
  | .floor a0, y => rsEqBuiltInCall_floor a0 (rsEqExpression_iff hf a0) y
  | .round a0, y => rsEqBuiltInCall_round a0 (rsEqExpression_iff hf a0) y
  | .concat a0 a1, y => rsEqBuiltInCall_concat a0 (rsEqExpressionList_iff hf a0) a1 (rsEqRegexExpression_iff hf a1) y
  | .strLen a0 a1, y => rsEqBuiltInCall_strLen a0 (rsEqExpression_iff hf a0) a1 (rsEqStrReplaceExpression_iff hf a1) y
  | .uCase a0, y => rsEqBuiltInCall_uCase a0 (rsEqExpression_iff hf a0) y
  | .lCase a0, y => rsEqBuiltInCall_lCase a0 (rsEqExpression_iff hf a0) y
  | .encodeForUri a0, y => rsEqBuiltInCall_encodeForUri a0 (rsEqExpression_iff hf a0) y
  | .contains a0 a1, y => rsEqBuiltInCall_contains a0 (rsEqExpression_iff hf a0) a1 (rsEqExpression_iff hf a1) y
  | .strStarts a0 a1, y => rsEqBuiltInCall_strStarts a0 (rsEqExpression_iff hf a0) a1 (rsEqExpression_iff hf a1) y
  | .strEnds a0 a1, y => rsEqBuiltInCall_strEnds a0 (rsEqExpression_iff hf a0) a1 (rsEqExpression_iff hf a1) y
  | .strBefore a0 a1, y => rsEqBuiltInCall_strBefore a0 (rsEqExpression_iff hf a0) a1 (rsEqExpression_iff hf a1) y
  | .strAfter a0 a1, y => rsEqBuiltInCall_strAfter a0 (rsEqExpression_iff hf a0) a1 (rsEqExpression_iff hf a1) y
  | .year a0, y => rsEqBuiltInCall_year a0 (rsEqExpression_iff hf a0) y
  | .month a0, y => rsEqBuiltInCall_month a0 (rsEqExpression_iff hf a0) y
  | .day a0, y => rsEqBuiltInCall_day a0 (rsEqExpression_iff hf a0) y
  | .hours a0, y => rsEqBuiltInCall_hours a0 (rsEqExpression_iff hf a0) y
  | .minutes a0, y => rsEqBuiltInCall_minutes a0 (rsEqExpression_iff hf a0) y
  | .seconds a0, y => rsEqBuiltInCall_seconds a0 (rsEqExpression_iff hf a0) y
  | .timezone a0, y => rsEqBuiltInCall_timezone a0 (rsEqExpression_iff hf a0) y
  | .tz a0, y => rsEqBuiltInCall_tz a0 (rsEqExpression_iff hf a0) y
  | .now, y => rsEqBuiltInCall_now  y
  | .uuid, y => rsEqBuiltInCall_uuid  y
  | .strUuid, y => rsEqBuiltInCall_strUuid  y
  | .md5 a0, y => rsEqBuiltInCall_md5 a0 (rsEqExpression_iff hf a0) y
  | .sha1 a0, y => rsEqBuiltInCall_sha1 a0 (rsEqExpression_iff hf a0) y
  | .sha256 a0, y => rsEqBuiltInCall_sha256 a0 (rsEqExpression_iff hf a0) y
  | .sha384 a0, y => rsEqBuiltInCall_sha384 a0 (rsEqExpression_iff hf a0) y
  | .sha512 a0, y => rsEqBuiltInCall_sha512 a0 (rsEqExpression_iff hf a0) y
  | .coalesce a0, y => rsEqBuiltInCall_coalesce a0 (rsEqExpressionList_iff hf a0) y
  | .if a0 a1 a2, y => rsEqBuiltInCall_if a0 (rsEqExpression_iff hf a0) a1 (rsEqExpression_iff hf a1) a2 (rsEqExpression_iff hf a2) y
  | .strLang a0 a1, y => rsEqBuiltInCall_strLang a0 (rsEqExpression_iff hf a0) a1 (rsEqExpression_iff hf a1) y
  | .strDt a0 a1, y => rsEqBuiltInCall_strDt a0 (rsEqExpression_iff hf a0) a1 (rsEqExpression_iff hf a1) y
  | .sameTerm a0 a1, y => rsEqBuiltInCall_sameTerm a0 (rsEqExpression_iff hf a0) a1 (rsEqExpression_iff hf a1) y
  | .isIri a0, y => rsEqBuiltInCall_isIri a0 (rsEqExpression_iff hf a0) y
  | .isUri a0, y => rsEqBuiltInCall_isUri a0 (rsEqExpression_iff hf a0) y
  | .isBlank a0, y => rsEqBuiltInCall_isBlank a0 (rsEqExpression_iff hf a0) y
  | .isLiteral a0, y => rsEqBuiltInCall_isLiteral a0 (rsEqExpression_iff hf a0) y
  | .isNumeric a0, y => rsEqBuiltInCall_isNumeric a0 (rsEqExpression_iff hf a0) y
  | .regex a0, y => rsEqBuiltInCall_regex a0 (rsEqRegexExpression_iff hf a0) y
  | .existsFunc a0, y => rsEqBuiltInCall_existsFunc a0 (rsEqGroupGraphPattern_iff hf a0) y
  | .notExistsFunc a0, y => rsEqBuiltInCall_notExistsFunc a0 (rsEqGroupGraphPattern_iff hf a0) y
termination_by structural x => x
theorem rsEqAggregate_iff {f : NumericLiteral → NumericLiteral} (hf : ∀ a b, NumericLiteral.rustEq a b = true ↔ f a = f b) :
    ∀ a b : Aggregate, rsEqAggregate a b = true ↔ renumAggregate f a = renumAggregate f b
  | .count a0, y => rsEqAggregate_count a0 (rsEqCount_iff hf a0) y
  | .sum a0, y => rsEqAggregate_sum a0 (rsEqDistinctExpression_iff hf a0) y
  | .min a0, y => rsEqAggregate_min a0 (rsEqDistinctExpression_iff hf a0) y
  | .max a0, y => rsEqAggregate_max a0 (rsEqDistinctExpression_iff hf a0) y
  | .avg a0, y => rsEqAggregate_avg a0 (rsEqDistinctExpression_iff hf a0) y
  | .sample a0, y => rsEqAggregate_sample a0 (rsEqDistinctExpression_iff hf a0) y
  | .groupConcat a0, y => rsEqAggregate_groupConcat a0 (rsEqGroupConcat_iff hf a0) y
termination_by structural x => x
theorem rsEqCount_iff {f : NumericLiteral → NumericLiteral} (hf : ∀ a b, NumericLiteral.rustEq a b = true ↔ f a = f b) :
    ∀ a b : Count, rsEqCount a b = true ↔ renumCount f a = renumCount f b
  | .mk a0 a1, y => rsEqCount_mk a0 a1 (rsEqCountTarget_iff hf a1) y
termination_by structural x => x
theorem rsEqCountTarget_iff {f : NumericLiteral → NumericLiteral} (hf : ∀ a b, NumericLiteral.rustEq a b = true ↔ f a = f b) :
    ∀ a b : CountTarget, rsEqCountTarget a b = true ↔ renumCountTarget f a = renumCountTarget f b
  | .all, y => rsEqCountTarget_all  y
  | .expr a0, y => rsEqCountTarget_expr a0 (rsEqExpression_iff hf a0) y
termination_by structural x => x
theorem rsEqGroupConcat_iff {f : NumericLiteral → NumericLiteral} (hf : ∀ a b, NumericLiteral.rustEq a b = true ↔ f a = f b) :
    ∀ a b : GroupConcat, rsEqGroupConcat a b = true ↔ renumGroupConcat f a = renumGroupConcat f b
  | .mk a0 a1, y => rsEqGroupConcat_mk a0 (rsEqDistinctExpression_iff hf a0) a1 y
termination_by structural x => x
theorem rsEqGroupGraphPattern_iff {f : NumericLiteral → NumericLiteral} (hf : ∀ a b, NumericLiteral.rustEq a b = true ↔ f a = f b) :
    ∀ a b : GroupGraphPattern, rsEqGroupGraphPattern a b = true ↔ renumGroupGraphPattern f a = renumGroupGraphPattern f b
  | .subSelect a0, y => rsEqGroupGraphPattern_subSelect a0 (rsEqSubSelect_iff hf a0) y
  | .groupGraphPatternSub a0, y => rsEqGroupGraphPattern_groupGraphPatternSub a0 (rsEqGroupGraphPatternSub_iff hf a0) y
termination_by structural x => x
theorem rsEqGroupGraphPatternSub_iff {f : NumericLiteral → NumericLiteral} (hf : ∀ a b, NumericLiteral.rustEq a b = true ↔ f a = f b) :
    ∀ a b : GroupGraphPatternSub, rsEqGroupGraphPatternSub a b = true ↔ renumGroupGraphPatternSub f a = renumGroupGraphPatternSub f b
  | .mk a0 a1, y => rsEqGroupGraphPatternSub_mk a0 (rsEqOption_iff (rsEqTriplesBlock_iff hf) a0) a1 (rsEqListGraphPatternAndTriples_iff hf a1) y
termination_by structural x => x
theorem rsEqGraphPatternAndTriples_iff {f : NumericLiteral → NumericLiteral} (hf : ∀ a b, NumericLiteral.rustEq a b = true ↔ f a = f b) :
    ∀ a b : GraphPatternAndTriples, rsEqGraphPatternAndTriples a b = true ↔ renumGraphPatternAndTriples f a = renumGraphPatternAndTriples f b
  | .mk a0 a1, y => rsEqGraphPatternAndTriples_mk a0 (rsEqGraphPatternNotTriples_iff hf a0) a1 (rsEqOption_iff (rsEqTriplesBlock_iff hf) a1) y
termination_by structural x => x
theorem rsEqGraphPatternNotTriples_iff {f : NumericLiteral → NumericLiteral} (hf : ∀ a b, NumericLiteral.rustEq a b = true ↔ f a = f b) :
    ∀ a b : GraphPatternNotTriples, rsEqGraphPatternNotTriples a b = true ↔ renumGraphPatternNotTriples f a = renumGraphPatternNotTriples f b
  | .optional a0, y => rsEqGraphPatternNotTriples_optional a0 (rsEqGroupGraphPattern_iff hf a0) y
  | .groupOrUnion a0, y => rsEqGraphPatternNotTriples_groupOrUnion a0 (rsEqListGroupGraphPattern_iff hf a0) y
  | .minus a0, y => rsEqGraphPatternNotTriples_minus a0 (rsEqGroupGraphPattern_iff hf a0) y
  | .graph a0, y => rsEqGraphPatternNotTriples_graph a0 (rsEqGraphGraphPattern_iff hf a0) y
  | .service a0, y => rsEqGraphPatternNotTriples_service a0 (rsEqServiceGraphPattern_iff hf a0) y
  | .filter a0, y => rsEqGraphPatternNotTriples_filter a0 (rsEqConstraint_iff hf a0) y
  | .bind a0, y => rsEqGraphPatternNotTriples_bind a0 (rsEqExpressionAsVar_iff hf a0) y
  | .inlineData a0, y => rsEqGraphPatternNotTriples_inlineData a0 (rsEqDataBlock_iff hf a0) y
termination_by structural x => x
theorem rsEqGraphGraphPattern_iff {f : NumericLiteral → NumericLiteral} (hf : ∀ a b, NumericLiteral.rustEq a b = true ↔ f a = f b) :
    ∀ a b : GraphGraphPattern, rsEqGraphGraphPattern a b = true ↔ renumGraphGraphPattern f a = renumGraphGraphPattern f b
  | .mk a0 a1, y => rsEqGraphGraphPattern_mk a0 a1 (rsEqGroupGraphPattern_iff hf a1) y
termination_by structural x => x
theorem rsEqServiceGraphPattern_iff {f : NumericLiteral → NumericLiteral} (hf : ∀ a b, NumericLiteral.rustEq a b = true ↔ f a = f b) :
    ∀ a b : ServiceGraphPattern, rsEqServiceGraphPattern a b = true ↔ renumServiceGraphPattern f a = renumServiceGraphPattern f b
  | .mk a0 a1 a2, y => rsEqServiceGraphPattern_mk a0 a1 a2 (rsEqGroupGraphPattern_iff hf a2) y
termination_by structural x => x
theorem rsEqSubSelect_iff {f : NumericLiteral → NumericLiteral} (hf : ∀ a b, NumericLiteral.rustEq a b = true ↔ f a = f b) :
    ∀ a b : SubSelect, rsEqSubSelect a b = true ↔ renumSubSelect f a = renumSubSelect f b
  | .mk a0 a1 a2 a3, y => rsEqSubSelect_mk a0 (rsEqSelectClause_iff hf a0) a1 (rsEqGroupGraphPattern_iff hf a1) a2 (rsEqSolutionModifier_iff hf a2) a3 (rsEqOption_iff (rsEqDataBlock_iff hf) a3) y
termination_by structural x => x
theorem rsEqSelectClause_iff {f : NumericLiteral → NumericLiteral} (hf : ∀ a b, NumericLiteral.rustEq a b = true ↔ f a = f b) :
    ∀ a b : SelectClause, rsEqSelectClause a b = true ↔ renumSelectClause f a = renumSelectClause f b
  | .mk a0 a1, y => rsEqSelectClause_mk a0 a1 (rsEqSelectVars_iff hf a1) y
termination_by structural x => x
theorem rsEqSelectVars_iff {f : NumericLiteral → NumericLiteral} (hf : ∀ a b, NumericLiteral.rustEq a b = true ↔ f a = f b) :
    ∀ a b : SelectVars, rsEqSelectVars a b = true ↔ renumSelectVars f a = renumSelectVars f b
  | .varOrExpressionAsVar a0, y => rsEqSelectVars_varOrExpressionAsVar a0 (rsEqListVarOrExpressionAsVar_iff hf a0) y
  | .all, y => rsEqSelectVars_all  y
termination_by structural x => x
theorem rsEqVarOrExpressionAsVar_iff {f : NumericLiteral → NumericLiteral} (hf : ∀ a b, NumericLiteral.rustEq a b = true ↔ f a = f b) :
    ∀ a b : VarOrExpressionAsVar, rsEqVarOrExpressionAsVar a b = true ↔ renumVarOrExpressionAsVar f a = renumVarOrExpressionAsVar f b
  | .var a0, y => rsEqVarOrExpressionAsVar_var a0 y
  | .expressionAsVar a0, y => rsEqVarOrExpressionAsVar_expressionAsVar a0 (rsEqExpressionAsVar_iff hf a0) y
termination_by structural x => x
theorem rsEqSolutionModifier_iff {f : NumericLiteral → NumericLiteral} (hf : ∀ a b, NumericLiteral.rustEq a b = true ↔ f a = f b) :
    ∀ a b : SolutionModifier, rsEqSolutionModifier a b = true ↔ renumSolutionModifier f a = renumSolutionModifier f b
  | .mk a0 a1 a2 a3, y => rsEqSolutionModifier_mk a0 (rsEqOptionOrderClause_iff hf a0) a1 (rsEqOptionGroupClause_iff hf a1) a2 (rsEqOptionHavingClause_iff hf a2) a3 y
termination_by structural x => x
theorem rsEqHavingClause_iff {f : NumericLiteral → NumericLiteral} (hf : ∀ a b, NumericLiteral.rustEq a b = true ↔ f a = f b) :
    ∀ a b : HavingClause, rsEqHavingClause a b = true ↔ renumHavingClause f a = renumHavingClause f b
  | .mk a0, y => rsEqHavingClause_mk a0 (rsEqListConstraint_iff hf a0) y
termination_by structural x => x
theorem rsEqOrderClause_iff {f : NumericLiteral → NumericLiteral} (hf : ∀ a b, NumericLiteral.rustEq a b = true ↔ f a = f b) :
    ∀ a b : OrderClause, rsEqOrderClause a b = true ↔ renumOrderClause f a = renumOrderClause f b
  | .mk a0, y => rsEqOrderClause_mk a0 (rsEqListOrderCondition_iff hf a0) y
termination_by structural x => x
theorem rsEqOrderCondition_iff {f : NumericLiteral → NumericLiteral} (hf : ∀ a b, NumericLiteral.rustEq a b = true ↔ f a = f b) :
    ∀ a b : OrderCondition, rsEqOrderCondition a b = true ↔ renumOrderCondition f a = renumOrderCondition f b
  | .order a0, y => rsEqOrderCondition_order a0 (rsEqOrderExpression_iff hf a0) y
  | .constraint a0, y => rsEqOrderCondition_constraint a0 (rsEqConstraint_iff hf a0) y
  | .var a0, y => rsEqOrderCondition_var a0 y
termination_by structural x => x
theorem rsEqOrderExpression_iff {f : NumericLiteral → NumericLiteral} (hf : ∀ a b, NumericLiteral.rustEq a b = true ↔ f a = f b) :
    ∀ a b : OrderExpression, rsEqOrderExpression a b = true ↔ renumOrderExpression f a = renumOrderExpression f b
  | .mk a0 a1, y => rsEqOrderExpression_mk a0 a1 (rsEqExpression_iff hf a1) y
termination_by structural x => x
theorem rsEqGroupClause_iff {f : NumericLiteral → NumericLiteral} (hf : ∀ a b, NumericLiteral.rustEq a b = true ↔ f a = f b) :
    ∀ a b : GroupClause, rsEqGroupClause a b = true ↔ renumGroupClause f a = renumGroupClause f b
  | .mk a0, y => rsEqGroupClause_mk a0 (rsEqListGroupCondition_iff hf a0) y
termination_by structural x => x
theorem rsEqGroupCondition_iff {f : NumericLiteral → NumericLiteral} (hf : ∀ a b, NumericLiteral.rustEq a b = true ↔ f a = f b) :
    ∀ a b : GroupCondition, rsEqGroupCondition a b = true ↔ renumGroupCondition f a = renumGroupCondition f b
  | .builtInCall a0, y => rsEqGroupCondition_builtInCall a0 (rsEqBuiltInCall_iff hf a0) y
  | .functionCall a0, y => rsEqGroupCondition_functionCall a0 (rsEqFunctionCall_iff hf a0) y
  | .expressionAsVarOpt a0, y => rsEqGroupCondition_expressionAsVarOpt a0 (rsEqExpressionAsVarOpt_iff hf a0) y
  | .var a0, y => rsEqGroupCondition_var a0 y
termination_by structural x => x
theorem rsEqListConditionalAndExpression_iff {f : NumericLiteral → NumericLiteral} (hf : ∀ a b, NumericLiteral.rustEq a b = true ↔ f a = f b) :
    ∀ a b : List ConditionalAndExpression, rsEqListConditionalAndExpression a b = true ↔ renumListConditionalAndExpression f a = renumListConditionalAndExpression f b
  | [], y => rsEqListConditionalAndExpression_nil y
  | a :: l, y => rsEqListConditionalAndExpression_cons a (rsEqConditionalAndExpression_iff hf a) l (rsEqListConditionalAndExpression_iff hf l) y
termination_by structural x => x
theorem rsEqListRelationalExpression_iff {f : NumericLiteral → NumericLiteral} (hf : ∀ a b, NumericLiteral.rustEq a b = true ↔ f a = f b) :
    ∀ a b : List RelationalExpression, rsEqListRelationalExpression a b = true ↔ renumListRelationalExpression f a = renumListRelationalExpression f b
  | [], y => rsEqListRelationalExpression_nil y
  | a :: l, y => rsEqListRelationalExpression_cons a (rsEqRelationalExpression_iff hf a) l (rsEqListRelationalExpression_iff hf l) y
termination_by structural x => x
theorem rsEqOptionOpExpression_iff {f : NumericLiteral → NumericLiteral} (hf : ∀ a b, NumericLiteral.rustEq a b = true ↔ f a = f b) :
    ∀ a b : Option OpExpression, rsEqOptionOpExpression a b = true ↔ renumOptionOpExpression f a = renumOptionOpExpression f b
  | none, y => rsEqOptionOpExpression_none y
  | some a, y => rsEqOptionOpExpression_some a (rsEqOpExpression_iff hf a) y
termination_by structural x => x
theorem rsEqListAddExpression_iff {f : NumericLiteral → NumericLiteral} (hf : ∀ a b, NumericLiteral.rustEq a b = true ↔ f a = f b) :
    ∀ a b : List AddExpression, rsEqListAddExpression a b = true ↔ renumListAddExpression f a = renumListAddExpression f b
  | [], y => rsEqListAddExpression_nil y
  | a :: l, y => rsEqListAddExpression_cons a (rsEqAddExpression_iff hf a) l (rsEqListAddExpression_iff hf l) y
termination_by structural x => x
theorem rsEqListMultExpression_iff {f : NumericLiteral → NumericLiteral} (hf : ∀ a b, NumericLiteral.rustEq a b = true ↔ f a = f b) :
    ∀ a b : List MultExpression, rsEqListMultExpression a b = true ↔ renumListMultExpression f a = renumListMultExpression f b
  | [], y => rsEqListMultExpression_nil y
  | a :: l, y => rsEqListMultExpression_cons a (rsEqMultExpression_iff hf a) l (rsEqListMultExpression_iff hf l) y
termination_by structural x => x
theorem rsEqListExpression_iff {f : NumericLiteral → NumericLiteral} (hf : ∀ a b, NumericLiteral.rustEq a b = true ↔ f a = f b) :
    ∀ a b : List Expression, rsEqListExpression a b = true ↔ renumListExpression f a = renumListExpression f b
  | [], y => rsEqListExpression_nil y
  | a :: l, y => rsEqListExpression_cons a (rsEqExpression_iff hf a) l (rsEqListExpression_iff hf l) y
termination_by structural x => x
theorem rsEqOptionArgList_iff {f : NumericLiteral → NumericLiteral} (hf : ∀ a b, NumericLiteral.rustEq a b = true ↔ f a = f b) :
    ∀ a b : Option ArgList, rsEqOptionArgList a b = true ↔ renumOptionArgList f a = renumOptionArgList f b
  | none, y => rsEqOptionArgList_none y
  | some a, y => rsEqOptionArgList_some a (rsEqArgList_iff hf a) y
termination_by structural x => x
theorem rsEqOptionExpression_iff {f : NumericLiteral → NumericLiteral} (hf : ∀ a b, NumericLiteral.rustEq a b = true ↔ f a = f b) :
    ∀ a b : Option Expression, rsEqOptionExpression a b = true ↔ renumOptionExpression f a = renumOptionExpression f b
  | none, y => rsEqOptionExpression_none y
  | some a, y => rsEqOptionExpression_some a (rsEqExpression_iff hf a) y
termination_by structural x => x
theorem rsEqListGraphPatternAndTriples_iff {f : NumericLiteral → NumericLiteral} (hf : ∀ a b, NumericLiteral.rustEq a b = true ↔ f a = f b) :
    ∀ a b : List GraphPatternAndTriples, rsEqListGraphPatternAndTriples a b = true ↔ renumListGraphPatternAndTriples f a = renumListGraphPatternAndTriples f b
  | [], y => rsEqListGraphPatternAndTriples_nil y
  | a :: l, y => rsEqListGraphPatternAndTriples_cons a (rsEqGraphPatternAndTriples_iff hf a) l (rsEqListGraphPatternAndTriples_iff hf l) y
termination_by structural x => x
theorem rsEqListGroupGraphPattern_iff {f : NumericLiteral → NumericLiteral} (hf : ∀ a b, NumericLiteral.rustEq a b = true ↔ f a = f b) :
    ∀ a b : List GroupGraphPattern, rsEqListGroupGraphPattern a b = true ↔ renumListGroupGraphPattern f a = renumListGroupGraphPattern f b
  | [], y => rsEqListGroupGraphPattern_nil y
  | a :: l, y => rsEqListGroupGraphPattern_cons a (rsEqGroupGraphPattern_iff hf a) l (rsEqListGroupGraphPattern_iff hf l) y
termination_by structural x => x
theorem rsEqListVarOrExpressionAsVar_iff {f : NumericLiteral → NumericLiteral} (hf : ∀ a b, NumericLiteral.rustEq a b = true ↔ f a = f b) :
    ∀ a b : List VarOrExpressionAsVar, rsEqListVarOrExpressionAsVar a b = true ↔ renumListVarOrExpressionAsVar f a = renumListVarOrExpressionAsVar f b
  | [], y => rsEqListVarOrExpressionAsVar_nil y
  | a :: l, y => rsEqListVarOrExpressionAsVar_cons a (rsEqVarOrExpressionAsVar_iff hf a) l (rsEqListVarOrExpressionAsVar_iff hf l) y
termination_by structural x => x
theorem rsEqOptionOrderClause_iff {f : NumericLiteral → NumericLiteral} (hf : ∀ a b, NumericLiteral.rustEq a b = true ↔ f a = f b) :
    ∀ a b : Option OrderClause, rsEqOptionOrderClause a b = true ↔ renumOptionOrderClause f a = renumOptionOrderClause f b
  | none, y => rsEqOptionOrderClause_none y
  | some a, y => rsEqOptionOrderClause_some a (rsEqOrderClause_iff hf a) y
termination_by structural x => x
theorem rsEqOptionGroupClause_iff {f : NumericLiteral → NumericLiteral} (hf : ∀ a b, NumericLiteral.rustEq a b = true ↔ f a = f b) :
    ∀ a b : Option GroupClause, rsEqOptionGroupClause a b = true ↔ renumOptionGroupClause f a = renumOptionGroupClause f b
  | none, y => rsEqOptionGroupClause_none y
  | some a, y => rsEqOptionGroupClause_some a (rsEqGroupClause_iff hf a) y
termination_by structural x => x
theorem rsEqOptionHavingClause_iff {f : NumericLiteral → NumericLiteral} (hf : ∀ a b, NumericLiteral.rustEq a b = true ↔ f a = f b) :
    ∀ a b : Option HavingClause, rsEqOptionHavingClause a b = true ↔ renumOptionHavingClause f a = renumOptionHavingClause f b
  | none, y => rsEqOptionHavingClause_none y
  | some a, y => rsEqOptionHavingClause_some a (rsEqHavingClause_iff hf a) y
termination_by structural x => x
theorem rsEqListConstraint_iff {f : NumericLiteral → NumericLiteral} (hf : ∀ a b, NumericLiteral.rustEq a b = true ↔ f a = f b) :
    ∀ a b : List Constraint, rsEqListConstraint a b = true ↔ renumListConstraint f a = renumListConstraint f b
  | [], y => rsEqListConstraint_nil y
  | a :: l, y => rsEqListConstraint_cons a (rsEqConstraint_iff hf a) l (rsEqListConstraint_iff hf l) y
termination_by structural x => x
theorem rsEqListOrderCondition_iff {f : NumericLiteral → NumericLiteral} (hf : ∀ a b, NumericLiteral.rustEq a b = true ↔ f a = f b) :
    ∀ a b : List OrderCondition, rsEqListOrderCondition a b = true ↔ renumListOrderCondition f a = renumListOrderCondition f b
  | [], y => rsEqListOrderCondition_nil y
  | a :: l, y => rsEqListOrderCondition_cons a (rsEqOrderCondition_iff hf a) l (rsEqListOrderCondition_iff hf l) y
termination_by structural x => x
theorem rsEqListGroupCondition_iff {f : NumericLiteral → NumericLiteral} (hf : ∀ a b, NumericLiteral.rustEq a b = true ↔ f a = f b) :
    ∀ a b : List GroupCondition, rsEqListGroupCondition a b = true ↔ renumListGroupCondition f a = renumListGroupCondition f b
  | [], y => rsEqListGroupCondition_nil y
  | a :: l, y => rsEqListGroupCondition_cons a (rsEqGroupCondition_iff hf a) l (rsEqListGroupCondition_iff hf l) y
termination_by structural x => x
end
theorem rsEqSelectQuery_mk {f : NumericLiteral → NumericLiteral} (a0 : SelectClause) (h0 : ∀ b, rsEqSelectClause a0 b = true ↔ (renumSelectClause f) a0 = (renumSelectClause f) b) (a1 : List DataSetClause) (a2 : GroupGraphPattern) (h2 : ∀ b, rsEqGroupGraphPattern a2 b = true ↔ (renumGroupGraphPattern f) a2 = (renumGroupGraphPattern f) b) (a3 : SolutionModifier) (h3 : ∀ b, rsEqSolutionModifier a3 b = true ↔ (renumSolutionModifier f) a3 = (renumSolutionModifier f) b) (y : SelectQuery) :
    rsEqSelectQuery (SelectQuery.mk a0 a1 a2 a3) y = true ↔ renumSelectQuery f (SelectQuery.mk a0 a1 a2 a3) = renumSelectQuery f y := by
  have e : ∀ b0 b1 b2 b3, rsEqSelectQuery (SelectQuery.mk a0 a1 a2 a3) (SelectQuery.mk b0 b1 b2 b3) = (rsEqSelectClause a0 b0 && a1 == b1 && rsEqGroupGraphPattern a2 b2 && rsEqSolutionModifier a3 b3) := fun _ _ _ _ => rfl
  have e' : ∀ b0 b1 b2 b3, renumSelectQuery f (SelectQuery.mk b0 b1 b2 b3) = SelectQuery.mk (renumSelectClause f b0) b1 (renumGroupGraphPattern f b2) (renumSolutionModifier f b3) := fun _ _ _ _ => rfl
  cases y
  rw [e, e', e']
  simp [h0, h2, h3, and_assoc]
theorem rsEqSelectQuery_iff {f : NumericLiteral → NumericLiteral} (hf : ∀ a b, NumericLiteral.rustEq a b = true ↔ f a = f b) :
    ∀ a b : SelectQuery, rsEqSelectQuery a b = true ↔ renumSelectQuery f a = renumSelectQuery f b
  | ⟨a0, a1, a2, a3⟩, y => rsEqSelectQuery_mk a0 (rsEqSelectClause_iff hf a0) a1 a2 (rsEqGroupGraphPattern_iff hf a2) a3 (rsEqSolutionModifier_iff hf a3) y
theorem rsEqAskQuery_mk {f : NumericLiteral → NumericLiteral} (a0 : List DataSetClause) (a1 : GroupGraphPattern) (h1 : ∀ b, rsEqGroupGraphPattern a1 b = true ↔ (renumGroupGraphPattern f) a1 = (renumGroupGraphPattern f) b) (a2 : SolutionModifier) (h2 : ∀ b, rsEqSolutionModifier a2 b = true ↔ (renumSolutionModifier f) a2 = (renumSolutionModifier f) b) (y : AskQuery) :
    rsEqAskQuery (AskQuery.mk a0 a1 a2) y = true ↔ renumAskQuery f (AskQuery.mk a0 a1 a2) = renumAskQuery f y := by
  have e : ∀ b0 b1 b2, rsEqAskQuery (AskQuery.mk a0 a1 a2) (AskQuery.mk b0 b1 b2) = (a0 == b0 && rsEqGroupGraphPattern a1 b1 && rsEqSolutionModifier a2 b2) := fun _ _ _ => rfl
  have e' : ∀ b0 b1 b2, renumAskQuery f (AskQuery.mk b0 b1 b2) = AskQuery.mk b0 (renumGroupGraphPattern f b1) (renumSolutionModifier f b2) := fun _ _ _ => rfl
  cases y
  rw [e, e', e']
  simp [h1, h2, and_assoc]
theorem rsEqAskQuery_iff {f : NumericLiteral → NumericLiteral} (hf : ∀ a b, NumericLiteral.rustEq a b = true ↔ f a = f b) :
    ∀ a b : AskQuery, rsEqAskQuery a b = true ↔ renumAskQuery f a = renumAskQuery f b
  | ⟨a0, a1, a2⟩, y => rsEqAskQuery_mk a0 a1 (rsEqGroupGraphPattern_iff hf a1) a2 (rsEqSolutionModifier_iff hf a2) y
theorem rsEqDescribeQuery_mk {f : NumericLiteral → NumericLiteral} (a0 : List DataSetClause) (a1 : VarOrIrisOrAll) (a2 : Option GroupGraphPattern) (h2 : ∀ b, (rsEqOption rsEqGroupGraphPattern) a2 b = true ↔ (Option.map (renumGroupGraphPattern f)) a2 = (Option.map (renumGroupGraphPattern f)) b) (a3 : SolutionModifier) (h3 : ∀ b, rsEqSolutionModifier a3 b = true ↔ (renumSolutionModifier f) a3 = (renumSolutionModifier f) b) (y : DescribeQuery) :
    rsEqDescribeQuery (DescribeQuery.mk a0 a1 a2 a3) y = true ↔ renumDescribeQuery f (DescribeQuery.mk a0 a1 a2 a3) = renumDescribeQuery f y := by
  have e : ∀ b0 b1 b2 b3, rsEqDescribeQuery (DescribeQuery.mk a0 a1 a2 a3) (DescribeQuery.mk b0 b1 b2 b3) = (a0 == b0 && a1 == b1 && rsEqOption rsEqGroupGraphPattern a2 b2 && rsEqSolutionModifier a3 b3) := fun _ _ _ _ => rfl
  have e' : ∀ b0 b1 b2 b3, renumDescribeQuery f (DescribeQuery.mk b0 b1 b2 b3) = DescribeQuery.mk b0 b1 (Option.map (renumGroupGraphPattern f) b2) (renumSolutionModifier f b3) := fun _ _ _ _ => rfl
  cases y
  rw [e, e', e']
  simp [h2, h3, and_assoc]
theorem rsEqDescribeQuery_iff {f : NumericLiteral → NumericLiteral} (hf : ∀ a b, NumericLiteral.rustEq a b = true ↔ f a = f b) :
    ∀ a b : DescribeQuery, rsEqDescribeQuery a b = true ↔ renumDescribeQuery f a = renumDescribeQuery f b
  | ⟨a0, a1, a2, a3⟩, y => rsEqDescribeQuery_mk a0 a1 a2 (rsEqOption_iff (rsEqGroupGraphPattern_iff hf) a2) a3 (rsEqSolutionModifier_iff hf a3) y
theorem rsEqSubConstruct_mk {f : NumericLiteral → NumericLiteral} (a0 : List TriplesSameSubject) (h0 : ∀ b, (rsEqList rsEqTriplesSameSubject) a0 b = true ↔ (List.map (renumTriplesSameSubject f)) a0 = (List.map (renumTriplesSameSubject f)) b) (a1 : List DataSetClause) (a2 : GroupGraphPattern) (h2 : ∀ b, rsEqGroupGraphPattern a2 b = true ↔ (renumGroupGraphPattern f) a2 = (renumGroupGraphPattern f) b) (a3 : SolutionModifier) (h3 : ∀ b, rsEqSolutionModifier a3 b = true ↔ (renumSolutionModifier f) a3 = (renumSolutionModifier f) b) (y : SubConstruct) :
    rsEqSubConstruct (SubConstruct.mk a0 a1 a2 a3) y = true ↔ renumSubConstruct f (SubConstruct.mk a0 a1 a2 a3) = renumSubConstruct f y := by
  have e : ∀ b0 b1 b2 b3, rsEqSubConstruct (SubConstruct.mk a0 a1 a2 a3) (SubConstruct.mk b0 b1 b2 b3) = (rsEqList rsEqTriplesSameSubject a0 b0 && a1 == b1 && rsEqGroupGraphPattern a2 b2 && rsEqSolutionModifier a3 b3) := fun _ _ _ _ => rfl
  have e' : ∀ b0 b1 b2 b3, renumSubConstruct f (SubConstruct.mk b0 b1 b2 b3) = SubConstruct.mk (List.map (renumTriplesSameSubject f) b0) b1 (renumGroupGraphPattern f b2) (renumSolutionModifier f b3) := fun _ _ _ _ => rfl
  cases y
  rw [e, e', e']
  simp [h0, h2, h3, and_assoc]
theorem rsEqSubConstruct_iff {f : NumericLiteral → NumericLiteral} (hf : ∀ a b, NumericLiteral.rustEq a b = true ↔ f a = f b) :
    ∀ a b : SubConstruct, rsEqSubConstruct a b = true ↔ renumSubConstruct f a = renumSubConstruct f b
  | ⟨a0, a1, a2, a3⟩, y => rsEqSubConstruct_mk a0 (rsEqList_iff (rsEqTriplesSameSubject_iff hf) a0) a1 a2 (rsEqGroupGraphPattern_iff hf a2) a3 (rsEqSolutionModifier_iff hf a3) y
theorem rsEqSubTriples_mk {f : NumericLiteral → NumericLiteral} (a0 : List DataSetClause) (a1 : Option TriplesTemplate) (h1 : ∀ b, (rsEqOption (rsEqList rsEqTriplesSameSubject)) a1 b = true ↔ (Option.map (List.map (renumTriplesSameSubject f))) a1 = (Option.map (List.map (renumTriplesSameSubject f))) b) (a2 : SolutionModifier) (h2 : ∀ b, rsEqSolutionModifier a2 b = true ↔ (renumSolutionModifier f) a2 = (renumSolutionModifier f) b) (y : SubTriples) :
    rsEqSubTriples (SubTriples.mk a0 a1 a2) y = true ↔ renumSubTriples f (SubTriples.mk a0 a1 a2) = renumSubTriples f y := by
  have e : ∀ b0 b1 b2, rsEqSubTriples (SubTriples.mk a0 a1 a2) (SubTriples.mk b0 b1 b2) = (a0 == b0 && rsEqOption (rsEqList rsEqTriplesSameSubject) a1 b1 && rsEqSolutionModifier a2 b2) := fun _ _ _ => rfl
  have e' : ∀ b0 b1 b2, renumSubTriples f (SubTriples.mk b0 b1 b2) = SubTriples.mk b0 (Option.map (List.map (renumTriplesSameSubject f)) b1) (renumSolutionModifier f b2) := fun _ _ _ => rfl
  cases y
  rw [e, e', e']
  simp [h1, h2, and_assoc]
theorem rsEqSubTriples_iff {f : NumericLiteral → NumericLiteral} (hf : ∀ a b, NumericLiteral.rustEq a b = true ↔ f a = f b) :
    ∀ a b : SubTriples, rsEqSubTriples a b = true ↔ renumSubTriples f a = renumSubTriples f b
  | ⟨a0, a1, a2⟩, y => rsEqSubTriples_mk a0 a1 (rsEqOption_iff (rsEqList_iff (rsEqTriplesSameSubject_iff hf)) a1) a2 (rsEqSolutionModifier_iff hf a2) y
theorem rsEqConstructQuery_subConstruct {f : NumericLiteral → NumericLiteral} (a0 : SubConstruct) (h0 : ∀ b, rsEqSubConstruct a0 b = true ↔ (renumSubConstruct f) a0 = (renumSubConstruct f) b) (y : ConstructQuery) :
    rsEqConstructQuery (ConstructQuery.subConstruct a0) y = true ↔ renumConstructQuery f (ConstructQuery.subConstruct a0) = renumConstructQuery f y := by
  have e : ∀ b0, rsEqConstructQuery (ConstructQuery.subConstruct a0) (ConstructQuery.subConstruct b0) = (rsEqSubConstruct a0 b0) := fun _ => rfl
  have e' : ∀ b0, renumConstructQuery f (ConstructQuery.subConstruct b0) = ConstructQuery.subConstruct (renumSubConstruct f b0) := fun _ => rfl
  refine ⟨fun h => ?_, fun h => ?_⟩
  · cases y <;> first | exact absurd (show false = true from h) Bool.false_ne_true | (rw [e] at h; rw [e', e']; simpa [h0] using h)
  · cases y <;> first | (rw [e', e'] at h; rw [e]; simpa [h0] using h) | injection h
theorem rsEqConstructQuery_subTriples {f : NumericLiteral → NumericLiteral} (a0 : SubTriples) (h0 : ∀ b, rsEqSubTriples a0 b = true ↔ (renumSubTriples f) a0 = (renumSubTriples f) b) (y : ConstructQuery) :
    rsEqConstructQuery (ConstructQuery.subTriples a0) y = true ↔ renumConstructQuery f (ConstructQuery.subTriples a0) = renumConstructQuery f y := by
  have e : ∀ b0, rsEqConstructQuery (ConstructQuery.subTriples a0) (ConstructQuery.subTriples b0) = (rsEqSubTriples a0 b0) := fun _ => rfl
  have e' : ∀ b0, renumConstructQuery f (ConstructQuery.subTriples b0) = ConstructQuery.subTriples (renumSubTriples f b0) := fun _ => rfl
  refine ⟨fun h => ?_, fun h => ?_⟩
  · cases y <;> first | exact absurd (show false = true from h) Bool.false_ne_true | (rw [e] at h; rw [e', e']; simpa [h0] using h)
  · cases y <;> first | (rw [e', e'] at h; rw [e]; simpa [h0] using h) | injection h
theorem rsEqConstructQuery_iff {f : NumericLiteral → NumericLiteral} (hf : ∀ a b, NumericLiteral.rustEq a b = true ↔ f a = f b) :
    ∀ a b : ConstructQuery, rsEqConstructQuery a b = true ↔ renumConstructQuery f a = renumConstructQuery f b
  | .subConstruct a0, y => rsEqConstructQuery_subConstruct a0 (rsEqSubConstruct_iff hf a0) y
  | .subTriples a0, y => rsEqConstructQuery_subTriples a0 (rsEqSubTriples_iff hf a0) y
theorem rsEqSparqlQuery_ask {f : NumericLiteral → NumericLiteral} (a0 : AskQuery) (h0 : ∀ b, rsEqAskQuery a0 b = true ↔ (renumAskQuery f) a0 = (renumAskQuery f) b) (y : SparqlQuery) :
    rsEqSparqlQuery (SparqlQuery.ask a0) y = true ↔ renumSparqlQuery f (SparqlQuery.ask a0) = renumSparqlQuery f y := by
  have e : ∀ b0, rsEqSparqlQuery (SparqlQuery.ask a0) (SparqlQuery.ask b0) = (rsEqAskQuery a0 b0) := fun _ => rfl
  have e' : ∀ b0, renumSparqlQuery f (SparqlQuery.ask b0) = SparqlQuery.ask (renumAskQuery f b0) := fun _ => rfl
  refine ⟨fun h => ?_, fun h => ?_⟩
  · cases y <;> first | exact absurd (show false = true from h) Bool.false_ne_true | (rw [e] at h; rw [e', e']; simpa [h0] using h)
  · cases y <;> first | (rw [e', e'] at h; rw [e]; simpa [h0] using h) | injection h
theorem rsEqSparqlQuery_select {f : NumericLiteral → NumericLiteral} (a0 : SelectQuery) (h0 : ∀ b, rsEqSelectQuery a0 b = true ↔ (renumSelectQuery f) a0 = (renumSelectQuery f) b) (y : SparqlQuery) :
    rsEqSparqlQuery (SparqlQuery.select a0) y = true ↔ renumSparqlQuery f (SparqlQuery.select a0) = renumSparqlQuery f y := by
  have e : ∀ b0, rsEqSparqlQuery (SparqlQuery.select a0) (SparqlQuery.select b0) = (rsEqSelectQuery a0 b0) := fun _ => rfl
  have e' : ∀ b0, renumSparqlQuery f (SparqlQuery.select b0) = SparqlQuery.select (renumSelectQuery f b0) := fun _ => rfl
  refine ⟨fun h => ?_, fun h => ?_⟩
  · cases y <;> first | exact absurd (show false = true from h) Bool.false_ne_true | (rw [e] at h; rw [e', e']; simpa [h0] using h)
  · cases y <;> first | (rw [e', e'] at h; rw [e]; simpa [h0] using h) | injection h
theorem rsEqSparqlQuery_describe {f : NumericLiteral → NumericLiteral} (a0 : DescribeQuery) (h0 : ∀ b, rsEqDescribeQuery a0 b = true ↔ (renumDescribeQuery f) a0 = (renumDescribeQuery f) b) (y : SparqlQuery) :
    rsEqSparqlQuery (SparqlQuery.describe a0) y = true ↔ renumSparqlQuery f (SparqlQuery.describe a0) = renumSparqlQuery f y := by
  have e : ∀ b0, rsEqSparqlQuery (SparqlQuery.describe a0) (SparqlQuery.describe b0) = (rsEqDescribeQuery a0 b0) := fun _ => rfl
  have e' : ∀ b0, renumSparqlQuery f (SparqlQuery.describe b0) = SparqlQuery.describe (renumDescribeQuery f b0) := fun _ => rfl
  refine ⟨fun h => ?_, fun h => ?_⟩
  · cases y <;> first | exact absurd (show false = true from h) Bool.false_ne_true | (rw [e] at h; rw [e', e']; simpa [h0] using h)
  · cases y <;> first | (rw [e', e'] at h; rw [e]; simpa [h0] using h) | injection h
theorem rsEqSparqlQuery_construct {f : NumericLiteral → NumericLiteral} (a0 : ConstructQuery) (h0 : ∀ b, rsEqConstructQuery a0 b = true ↔ (renumConstructQuery f) a0 = (renumConstructQuery f) b) (y : SparqlQuery) :
    rsEqSparqlQuery (SparqlQuery.construct a0) y = true ↔ renumSparqlQuery f (SparqlQuery.construct a0) = renumSparqlQuery f y := by
  have e : ∀ b0, rsEqSparqlQuery (SparqlQuery.construct a0) (SparqlQuery.construct b0) = (rsEqConstructQuery a0 b0) := fun _ => rfl
  have e' : ∀ b0, renumSparqlQuery f (SparqlQuery.construct b0) = SparqlQuery.construct (renumConstructQuery f b0) := fun _ => rfl
  refine ⟨fun h => ?_, fun h => ?_⟩
  · cases y <;> first | exact absurd (show false = true from h) Bool.false_ne_true | (rw [e] at h; rw [e', e']; simpa [h0] using h)
  · cases y <;> first | (rw [e', e'] at h; rw [e]; simpa [h0] using h) | injection h
theorem rsEqSparqlQuery_iff {f : NumericLiteral → NumericLiteral} (hf : ∀ a b, NumericLiteral.rustEq a b = true ↔ f a = f b) :
    ∀ a b : SparqlQuery, rsEqSparqlQuery a b = true ↔ renumSparqlQuery f a = renumSparqlQuery f b
  | .ask a0, y => rsEqSparqlQuery_ask a0 (rsEqAskQuery_iff hf a0) y
  | .select a0, y => rsEqSparqlQuery_select a0 (rsEqSelectQuery_iff hf a0) y
  | .describe a0, y => rsEqSparqlQuery_describe a0 (rsEqDescribeQuery_iff hf a0) y
  | .construct a0, y => rsEqSparqlQuery_construct a0 (rsEqConstructQuery_iff hf a0) y
theorem rsEqSparqlQueryStatement_mk {f : NumericLiteral → NumericLiteral} (a0 : Prologue) (a1 : SparqlQuery) (h1 : ∀ b, rsEqSparqlQuery a1 b = true ↔ (renumSparqlQuery f) a1 = (renumSparqlQuery f) b) (a2 : Option DataBlock) (h2 : ∀ b, (rsEqOption rsEqDataBlock) a2 b = true ↔ (Option.map (renumDataBlock f)) a2 = (Option.map (renumDataBlock f)) b) (y : SparqlQueryStatement) :
    rsEqSparqlQueryStatement (SparqlQueryStatement.mk a0 a1 a2) y = true ↔ renumSparqlQueryStatement f (SparqlQueryStatement.mk a0 a1 a2) = renumSparqlQueryStatement f y := by
  have e : ∀ b0 b1 b2, rsEqSparqlQueryStatement (SparqlQueryStatement.mk a0 a1 a2) (SparqlQueryStatement.mk b0 b1 b2) = (a0 == b0 && rsEqSparqlQuery a1 b1 && rsEqOption rsEqDataBlock a2 b2) := fun _ _ _ => rfl
  have e' : ∀ b0 b1 b2, renumSparqlQueryStatement f (SparqlQueryStatement.mk b0 b1 b2) = SparqlQueryStatement.mk b0 (renumSparqlQuery f b1) (Option.map (renumDataBlock f) b2) := fun _ _ _ => rfl
  cases y
  rw [e, e', e']
  simp [h1, h2, and_assoc]
theorem rsEqSparqlQueryStatement_iff {f : NumericLiteral → NumericLiteral} (hf : ∀ a b, NumericLiteral.rustEq a b = true ↔ f a = f b) :
    ∀ a b : SparqlQueryStatement, rsEqSparqlQueryStatement a b = true ↔ renumSparqlQueryStatement f a = renumSparqlQueryStatement f b
  | ⟨a0, a1, a2⟩, y => rsEqSparqlQueryStatement_mk a0 a1 (rsEqSparqlQuery_iff hf a1) a2 (rsEqOption_iff (rsEqDataBlock_iff hf) a2) y
theorem rsEqDeleteInsert_deleteInsert {f : NumericLiteral → NumericLiteral} (a0 : Quads) (h0 : ∀ b, rsEqQuads a0 b = true ↔ (renumQuads f) a0 = (renumQuads f) b) (a1 : Option Quads) (h1 : ∀ b, (rsEqOption rsEqQuads) a1 b = true ↔ (Option.map (renumQuads f)) a1 = (Option.map (renumQuads f)) b) (y : DeleteInsert) :
    rsEqDeleteInsert (DeleteInsert.deleteInsert a0 a1) y = true ↔ renumDeleteInsert f (DeleteInsert.deleteInsert a0 a1) = renumDeleteInsert f y := by
  have e : ∀ b0 b1, rsEqDeleteInsert (DeleteInsert.deleteInsert a0 a1) (DeleteInsert.deleteInsert b0 b1) = (rsEqQuads a0 b0 && rsEqOption rsEqQuads a1 b1) := fun _ _ => rfl
  have e' : ∀ b0 b1, renumDeleteInsert f (DeleteInsert.deleteInsert b0 b1) = DeleteInsert.deleteInsert (renumQuads f b0) (Option.map (renumQuads f) b1) := fun _ _ => rfl
  refine ⟨fun h => ?_, fun h => ?_⟩
  · cases y <;> first | exact absurd (show false = true from h) Bool.false_ne_true | (rw [e] at h; rw [e', e']; simpa [h0, h1] using h)
  · cases y <;> first | (rw [e', e'] at h; rw [e]; simpa [h0, h1] using h) | injection h
theorem rsEqDeleteInsert_insert {f : NumericLiteral → NumericLiteral} (a0 : Quads) (h0 : ∀ b, rsEqQuads a0 b = true ↔ (renumQuads f) a0 = (renumQuads f) b) (y : DeleteInsert) :
    rsEqDeleteInsert (DeleteInsert.insert a0) y = true ↔ renumDeleteInsert f (DeleteInsert.insert a0) = renumDeleteInsert f y := by
  have e : ∀ b0, rsEqDeleteInsert (DeleteInsert.insert a0) (DeleteInsert.insert b0) = (rsEqQuads a0 b0) := fun _ => rfl
  have e' : ∀ b0, renumDeleteInsert f (DeleteInsert.insert b0) = DeleteInsert.insert (renumQuads f b0) := fun _ => rfl
  refine ⟨fun h => ?_, fun h => ?_⟩
  · cases y <;> first | exact absurd (show false = true from h) Bool.false_ne_true | (rw [e] at h; rw [e', e']; simpa [h0] using h)
  · cases y <;> first | (rw [e', e'] at h; rw [e]; simpa [h0] using h) | injection h
theorem rsEqDeleteInsert_iff {f : NumericLiteral → NumericLiteral} (hf : ∀ a b, NumericLiteral.rustEq a b = true ↔ f a = f b) :
    ∀ a b : DeleteInsert, rsEqDeleteInsert a b = true ↔ renumDeleteInsert f a = renumDeleteInsert f b
  | .deleteInsert a0 a1, y => rsEqDeleteInsert_deleteInsert a0 (rsEqQuads_iff hf a0) a1 (rsEqOption_iff (rsEqQuads_iff hf) a1) y
  | .insert a0, y => rsEqDeleteInsert_insert a0 (rsEqQuads_iff hf a0) y
theorem rsEqModifyStatement_mk {f : NumericLiteral → NumericLiteral} (a0 : Option Iri) (a1 : DeleteInsert) (h1 : ∀ b, rsEqDeleteInsert a1 b = true ↔ (renumDeleteInsert f) a1 = (renumDeleteInsert f) b) (a2 : List DefaultOrNamedIri) (a3 : GroupGraphPattern) (h3 : ∀ b, rsEqGroupGraphPattern a3 b = true ↔ (renumGroupGraphPattern f) a3 = (renumGroupGraphPattern f) b) (y : ModifyStatement) :
    rsEqModifyStatement (ModifyStatement.mk a0 a1 a2 a3) y = true ↔ renumModifyStatement f (ModifyStatement.mk a0 a1 a2 a3) = renumModifyStatement f y := by
  have e : ∀ b0 b1 b2 b3, rsEqModifyStatement (ModifyStatement.mk a0 a1 a2 a3) (ModifyStatement.mk b0 b1 b2 b3) = (a0 == b0 && rsEqDeleteInsert a1 b1 && a2 == b2 && rsEqGroupGraphPattern a3 b3) := fun _ _ _ _ => rfl
  have e' : ∀ b0 b1 b2 b3, renumModifyStatement f (ModifyStatement.mk b0 b1 b2 b3) = ModifyStatement.mk b0 (renumDeleteInsert f b1) b2 (renumGroupGraphPattern f b3) := fun _ _ _ _ => rfl
  cases y
  rw [e, e', e']
  simp [h1, h3, and_assoc]
theorem rsEqModifyStatement_iff {f : NumericLiteral → NumericLiteral} (hf : ∀ a b, NumericLiteral.rustEq a b = true ↔ f a = f b) :
    ∀ a b : ModifyStatement, rsEqModifyStatement a b = true ↔ renumModifyStatement f a = renumModifyStatement f b
  | ⟨a0, a1, a2, a3⟩, y => rsEqModifyStatement_mk a0 a1 (rsEqDeleteInsert_iff hf a1) a2 a3 (rsEqGroupGraphPattern_iff hf a3) y
theorem rsEqUpdateStatement_load {f : NumericLiteral → NumericLiteral} (a0 : LoadStatement) (y : UpdateStatement) :
    rsEqUpdateStatement (UpdateStatement.load a0) y = true ↔ renumUpdateStatement f (UpdateStatement.load a0) = renumUpdateStatement f y := by
  have e : ∀ b0, rsEqUpdateStatement (UpdateStatement.load a0) (UpdateStatement.load b0) = (a0 == b0) := fun _ => rfl
  have e' : ∀ b0, renumUpdateStatement f (UpdateStatement.load b0) = UpdateStatement.load b0 := fun _ => rfl
  refine ⟨fun h => ?_, fun h => ?_⟩
  · cases y <;> first | exact absurd (show false = true from h) Bool.false_ne_true | (rw [e] at h; rw [e', e']; simpa using h)
  · cases y <;> first | (rw [e', e'] at h; rw [e]; simpa using h) | injection h
theorem rsEqUpdateStatement_clear {f : NumericLiteral → NumericLiteral} (a0 : ClearStatement) (y : UpdateStatement) :
    rsEqUpdateStatement (UpdateStatement.clear a0) y = true ↔ renumUpdateStatement f (UpdateStatement.clear a0) = renumUpdateStatement f y := by
  have e : ∀ b0, rsEqUpdateStatement (UpdateStatement.clear a0) (UpdateStatement.clear b0) = (a0 == b0) := fun _ => rfl
  have e' : ∀ b0, renumUpdateStatement f (UpdateStatement.clear b0) = UpdateStatement.clear b0 := fun _ => rfl
  refine ⟨fun h => ?_, fun h => ?_⟩
  · cases y <;> first | exact absurd (show false = true from h) Bool.false_ne_true | (rw [e] at h; rw [e', e']; simpa using h)
  · cases y <;> first | (rw [e', e'] at h; rw [e]; simpa using h) | injection h
theorem rsEqUpdateStatement_drop {f : NumericLiteral → NumericLiteral} (a0 : DropStatement) (y : UpdateStatement) :
    rsEqUpdateStatement (UpdateStatement.drop a0) y = true ↔ renumUpdateStatement f (UpdateStatement.drop a0) = renumUpdateStatement f y := by
  have e : ∀ b0, rsEqUpdateStatement (UpdateStatement.drop a0) (UpdateStatement.drop b0) = (a0 == b0) := fun _ => rfl
  have e' : ∀ b0, renumUpdateStatement f (UpdateStatement.drop b0) = UpdateStatement.drop b0 := fun _ => rfl
  refine ⟨fun h => ?_, fun h => ?_⟩
  · cases y <;> first | exact absurd (show false = true from h) Bool.false_ne_true | (rw [e] at h; rw [e', e']; simpa using h)
  · cases y <;> first | (rw [e', e'] at h; rw [e]; simpa using h) | injection h
theorem rsEqUpdateStatement_create {f : NumericLiteral → NumericLiteral} (a0 : CreateStatement) (y : UpdateStatement) :
    rsEqUpdateStatement (UpdateStatement.create a0) y = true ↔ renumUpdateStatement f (UpdateStatement.create a0) = renumUpdateStatement f y := by
  have e : ∀ b0, rsEqUpdateStatement (UpdateStatement.create a0) (UpdateStatement.create b0) = (a0 == b0) := fun _ => rfl
  have e' : ∀ b0, renumUpdateStatement f (UpdateStatement.create b0) = UpdateStatement.create b0 := fun _ => rfl
  refine ⟨fun h => ?_, fun h => ?_⟩
  · cases y <;> first | exact absurd (show false = true from h) Bool.false_ne_true | (rw [e] at h; rw [e', e']; simpa using h)
  · cases y <;> first | (rw [e', e'] at h; rw [e]; simpa using h) | injection h
theorem rsEqUpdateStatement_add {f : NumericLiteral → NumericLiteral} (a0 : AddStatement) (y : UpdateStatement) :
    rsEqUpdateStatement (UpdateStatement.add a0) y = true ↔ renumUpdateStatement f (UpdateStatement.add a0) = renumUpdateStatement f y := by
  have e : ∀ b0, rsEqUpdateStatement (UpdateStatement.add a0) (UpdateStatement.add b0) = (a0 == b0) := fun _ => rfl
  have e' : ∀ b0, renumUpdateStatement f (UpdateStatement.add b0) = UpdateStatement.add b0 := fun _ => rfl
  refine ⟨fun h => ?_, fun h => ?_⟩
  · cases y <;> first | exact absurd (show false = true from h) Bool.false_ne_true | (rw [e] at h; rw [e', e']; simpa using h)
  · cases y <;> first | (rw [e', e'] at h; rw [e]; simpa using h) | injection h
theorem rsEqUpdateStatement_move {f : NumericLiteral → NumericLiteral} (a0 : MoveStatement) (y : UpdateStatement) :
    rsEqUpdateStatement (UpdateStatement.move a0) y = true ↔ renumUpdateStatement f (UpdateStatement.move a0) = renumUpdateStatement f y := by
  have e : ∀ b0, rsEqUpdateStatement (UpdateStatement.move a0) (UpdateStatement.move b0) = (a0 == b0) := fun _ => rfl
  have e' : ∀ b0, renumUpdateStatement f (UpdateStatement.move b0) = UpdateStatement.move b0 := fun _ => rfl
  refine ⟨fun h => ?_, fun h => ?_⟩
  · cases y <;> first | exact absurd (show false = true from h) Bool.false_ne_true | (rw [e] at h; rw [e', e']; simpa using h)
  · cases y <;> first | (rw [e', e'] at h; rw [e]; simpa using h) | injection h
theorem rsEqUpdateStatement_copy {f : NumericLiteral → NumericLiteral} (a0 : CopyStatement) (y : UpdateStatement) :
    rsEqUpdateStatement (UpdateStatement.copy a0) y = true ↔ renumUpdateStatement f (UpdateStatement.copy a0) = renumUpdateStatement f y := by
  have e : ∀ b0, rsEqUpdateStatement (UpdateStatement.copy a0) (UpdateStatement.copy b0) = (a0 == b0) := fun _ => rfl
  have e' : ∀ b0, renumUpdateStatement f (UpdateStatement.copy b0) = UpdateStatement.copy b0 := fun _ => rfl
  refine ⟨fun h => ?_, fun h => ?_⟩
  · cases y <;> first | exact absurd (show false = true from h) Bool.false_ne_true | (rw [e] at h; rw [e', e']; simpa using h)
  · cases y <;> first | (rw [e', e'] at h; rw [e]; simpa using h) | injection h
theorem rsEqUpdateStatement_insertData {f : NumericLiteral → NumericLiteral} (a0 : Quads) (h0 : ∀ b, rsEqQuads a0 b = true ↔ (renumQuads f) a0 = (renumQuads f) b) (y : UpdateStatement) :
    rsEqUpdateStatement (UpdateStatement.insertData a0) y = true ↔ renumUpdateStatement f (UpdateStatement.insertData a0) = renumUpdateStatement f y := by
  have e : ∀ b0, rsEqUpdateStatement (UpdateStatement.insertData a0) (UpdateStatement.insertData b0) = (rsEqQuads a0 b0) := fun _ => rfl
  have e' : ∀ b0, renumUpdateStatement f (UpdateStatement.insertData b0) = UpdateStatement.insertData (renumQuads f b0) := fun _ => rfl
  refine ⟨fun h => ?_, fun h => ?_⟩
  · cases y <;> first | exact absurd (show false = true from h) Bool.false_ne_true | (rw [e] at h; rw [e', e']; simpa [h0] using h)
  · cases y <;> first | (rw [e', e'] at h; rw [e]; simpa [h0] using h) | injection h
theorem rsEqUpdateStatement_deleteData {f : NumericLiteral → NumericLiteral} (a0 : Quads) (h0 : ∀ b, rsEqQuads a0 b = true ↔ (renumQuads f) a0 = (renumQuads f) b) (y : UpdateStatement) :
    rsEqUpdateStatement (UpdateStatement.deleteData a0) y = true ↔ renumUpdateStatement f (UpdateStatement.deleteData a0) = renumUpdateStatement f y := by
  have e : ∀ b0, rsEqUpdateStatement (UpdateStatement.deleteData a0) (UpdateStatement.deleteData b0) = (rsEqQuads a0 b0) := fun _ => rfl
  have e' : ∀ b0, renumUpdateStatement f (UpdateStatement.deleteData b0) = UpdateStatement.deleteData (renumQuads f b0) := fun _ => rfl
  refine ⟨fun h => ?_, fun h => ?_⟩
  · cases y <;> first | exact absurd (show false = true from h) Bool.false_ne_true | (rw [e] at h; rw [e', e']; simpa [h0] using h)
  · cases y <;> first | (rw [e', e'] at h; rw [e]; simpa [h0] using h) | injection h
theorem rsEqUpdateStatement_deleteWhere {f : NumericLiteral → NumericLiteral} (a0 : Quads) (h0 : ∀ b, rsEqQuads a0 b = true ↔ (renumQuads f) a0 = (renumQuads f) b) (y : UpdateStatement) :
    rsEqUpdateStatement (UpdateStatement.deleteWhere a0) y = true ↔ renumUpdateStatement f (UpdateStatement.deleteWhere a0) = renumUpdateStatement f y := by
  have e : ∀ b0, rsEqUpdateStatement (UpdateStatement.deleteWhere a0) (UpdateStatement.deleteWhere b0) = (rsEqQuads a0 b0) := fun _ => rfl
  have e' : ∀ b0, renumUpdateStatement f (UpdateStatement.deleteWhere b0) = UpdateStatement.deleteWhere (renumQuads f b0) := fun _ => rfl
  refine ⟨fun h => ?_, fun h => ?_⟩
  · cases y <;> first | exact absurd (show false = true from h) Bool.false_ne_true | (rw [e] at h; rw [e', e']; simpa [h0] using h)
  · cases y <;> first | (rw [e', e'] at h; rw [e]; simpa [h0] using h) | injection h
theorem rsEqUpdateStatement_modify {f : NumericLiteral → NumericLiteral} (a0 : ModifyStatement) (h0 : ∀ b, rsEqModifyStatement a0 b = true ↔ (renumModifyStatement f) a0 = (renumModifyStatement f) b) (y : UpdateStatement) :
    rsEqUpdateStatement (UpdateStatement.modify a0) y = true ↔ renumUpdateStatement f (UpdateStatement.modify a0) = renumUpdateStatement f y := by
  have e : ∀ b0, rsEqUpdateStatement (UpdateStatement.modify a0) (UpdateStatement.modify b0) = (rsEqModifyStatement a0 b0) := fun _ => rfl
  have e' : ∀ b0, renumUpdateStatement f (UpdateStatement.modify b0) = UpdateStatement.modify (renumModifyStatement f b0) := fun _ => rfl
  refine ⟨fun h => ?_, fun h => ?_⟩
  · cases y <;> first | exact absurd (show false = true from h) Bool.false_ne_true | (rw [e] at h; rw [e', e']; simpa [h0] using h)
  · cases y <;> first | (rw [e', e'] at h; rw [e]; simpa [h0] using h) | injection h
theorem rsEqUpdateStatement_iff {f : NumericLiteral → NumericLiteral} (hf : ∀ a b, NumericLiteral.rustEq a b = true ↔ f a = f b) :
    ∀ a b : UpdateStatement, rsEqUpdateStatement a b = true ↔ renumUpdateStatement f a = renumUpdateStatement f b
  | .load a0, y => rsEqUpdateStatement_load a0 y
  | .clear a0, y => rsEqUpdateStatement_clear a0 y
  | .drop a0, y => rsEqUpdateStatement_drop a0 y
  | .create a0, y => rsEqUpdateStatement_create a0 y
  | .add a0, y => rsEqUpdateStatement_add a0 y
  | .move a0, y => rsEqUpdateStatement_move a0 y
  | .copy a0, y => rsEqUpdateStatement_copy a0 y
  | .insertData a0, y => rsEqUpdateStatement_insertData a0 (rsEqQuads_iff hf a0) y
  | .deleteData a0, y => rsEqUpdateStatement_deleteData a0 (rsEqQuads_iff hf a0) y
  | .deleteWhere a0, y => rsEqUpdateStatement_deleteWhere a0 (rsEqQuads_iff hf a0) y
  | .modify a0, y => rsEqUpdateStatement_modify a0 (rsEqModifyStatement_iff hf a0) y
theorem rsEqUpdate_iff {f : NumericLiteral → NumericLiteral} (hf : ∀ a b, NumericLiteral.rustEq a b = true ↔ f a = f b) :
    ∀ a b : Update, rsEqUpdate a b = true ↔ renumUpdate f a = renumUpdate f b
  | .mk a0 a1 none, .mk b0 b1 none => by simp [rsEqUpdate, renumUpdate, rsEqOption_iff (rsEqUpdateStatement_iff hf) a1]
  | .mk a0 a1 none, .mk b0 b1 (some _) => by simp [rsEqUpdate, renumUpdate]
  | .mk a0 a1 (some _), .mk b0 b1 none => by simp [rsEqUpdate, renumUpdate]
  | .mk a0 a1 (some a2), .mk b0 b1 (some b2) => by
    simp [rsEqUpdate, renumUpdate, rsEqOption_iff (rsEqUpdateStatement_iff hf) a1, rsEqUpdate_iff hf a2, and_assoc]

end NomSparql
