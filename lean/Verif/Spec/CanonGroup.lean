import Verif.Spec.CanonExpr

/-!
# Canonical texts of group graph patterns, solution modifiers and sub-selects

As in Spec/CanonExpr the texts are those the crate accepts; they avoid the places where it needs white space (C31, C38), rejects
separators (C32) or takes a `?` for a separator (C38).  Everything is parametrised by the texts of the groups inside; `cGroup` closes
the definition.
-/

namespace NomSparql

section
variable (cG : GroupGraphPattern → Lang)

/-! ## Constraints and conditions -/

/-- `( e )` -/
inductive CBracket : Expression → Lang
  | mk {w b e s w'} : Ws w → CExpr cG b e s → Ws w' → CBracket e ('(' :: (w ++ (s ++ (w' ++ [')']))))

/-- `( e AS ?v )` -/
inductive CAsVar : ExpressionAsVar → Lang
  | mk {w b e s w1 k w2 v t w'} : Ws w → CExpr cG b e s → Ws1 w1 → kw c!"as" k → Ws w2 → cVar v t → Ws w' →
      CAsVar (.mk e v) ('(' :: (w ++ (s ++ (w1 ++ (k ++ (w2 ++ (t ++ (w' ++ [')']))))))))

/-- What FILTER and HAVING take. -/
inductive CConstraint : Constraint → Lang
  | bracket {e s} : CBracket cG e s → CConstraint (.bracketted e) s
  | call {b s} : CCall cG b s → CConstraint (.builtInCall b) s
  | function {i s w n} : cOperandIri i s → Ws w → rNil n → CConstraint (.functionCall (.mk i .nil)) (s ++ (w ++ n))

/-- What ORDER BY takes. -/
inductive COrderCond : OrderCondition → Lang
  | order {o k w e s} : rOrder o k → Ws1 w → CBracket cG e s → COrderCond (.order (.mk o e)) (k ++ (w ++ s))
  | constraint {c s} : CConstraint cG c s → COrderCond (.constraint c) s
  | var {v s} : cVar v s → COrderCond (.var v) s

/-- What GROUP BY takes; before AS only a text of kind `false` (see C57). -/
inductive CGroupCond : GroupCondition → Lang
  | call {b s} : CCall cG b s → CGroupCond (.builtInCall b) s
  | function {i s w n} : cOperandIri i s → Ws w → rNil n → CGroupCond (.functionCall (.mk i .nil)) (s ++ (w ++ n))
  | bracket {e s} : CBracket cG e s → CGroupCond (.expressionAsVarOpt (.mk e none)) s
  | asVar {w e s w1 k w2 v t w'} : Ws w → CExpr cG false e s → Ws1 w1 → kw c!"as" k → Ws1 w2 → cVar v t → Ws w' →
      CGroupCond (.expressionAsVarOpt (.mk e (some v))) ('(' :: (w ++ (s ++ (w1 ++ (k ++ (w2 ++ (t ++ (w' ++ [')']))))))))
  | var {v s} : cVar v s → CGroupCond (.var v) s

/-! ## Solution modifiers -/

/-- White space after every element. -/
def WsList (R : α → Lang) (l : List α) : Lang := fun s => l ≠ [] ∧ Many (fun a => R a ⬝ Ws1) l s

def cGroupClause : GroupClause → Lang
  | .mk l => kw c!"group" ⬝ Ws1 ⬝ kw c!"by" ⬝ Ws1 ⬝ WsList (CGroupCond cG) l
def cHavingClause : HavingClause → Lang
  | .mk l => kw c!"having" ⬝ Ws1 ⬝ WsList (CConstraint cG) l
def cOrderClause : OrderClause → Lang
  | .mk l => kw c!"order" ⬝ Ws1 ⬝ kw c!"by" ⬝ Ws1 ⬝ WsList (COrderCond cG) l

/-- LIMIT and OFFSET. -/
def cLimit (n : Nat) : Lang := kw c!"limit" ⬝ Ws1 ⬝ rU64 n
def cOffset (n : Nat) : Lang := kw c!"offset" ⬝ Ws1 ⬝ rU64 n

/-- One or both in either order, and the white space after them. -/
def cLimitOffset : LimitOffsetClause → Lang
  | .limitOffset l none => cLimit l ⬝ Ws
  | .limitOffset l (some o) => cLimit l ⬝ Ws1 ⬝ cOffset o ⬝ Ws
  | .offsetLimit o none => cOffset o ⬝ Ws
  | .offsetLimit o (some l) => cOffset o ⬝ Ws1 ⬝ cLimit l ⬝ Ws

/-- GROUP BY, HAVING, ORDER BY, LIMIT and OFFSET, and the white space after them. -/
def cModifier : SolutionModifier → Lang
  | .mk o g h l => rOpt (cGroupClause cG) g ⬝ rOpt (cHavingClause cG) h ⬝ rOpt (cOrderClause cG) o ⬝ rOpt cLimitOffset l

/-! ## Sub-selects -/

/-- A projected variable or expression. -/
inductive CProj : VarOrExpressionAsVar → Lang
  | var {v s} : cVar v s → CProj (.var v) s
  | expr {x s} : CAsVar cG x s → CProj (.expressionAsVar x) s

/-- `*`, or projections without white space between them. -/
def cSelectVars : SelectVars → Lang
  | .all => lit c!"*"
  | .varOrExpressionAsVar l => Many1 (CProj cG) l

def cSelectClause : SelectClause → Lang
  | .mk m v => kw c!"select" ⬝ rOpt (fun m => Ws1 ⬝ rSelectModifier m) m ⬝ Ws1 ⬝ cSelectVars cG v

/-- `[WHERE] { ... }` -/
def cWhere (g : GroupGraphPattern) : Lang := (fun s => s = [] ∨ (kw c!"where" ⬝ Ws1) s) ⬝ cG g

/-- `SELECT ... WHERE { ... } modifiers [VALUES ...]`, with the white space after it. -/
def cSubSelect : SubSelect → Lang
  | .mk c g m v => cSelectClause cG c ⬝ Ws1 ⬝ cWhere cG g ⬝ Ws ⬝ cModifier cG m ⬝
      rOpt (fun d => kw c!"values" ⬝ Ws1 ⬝ cDataBlock d ⬝ Ws) v

/-! ## Groups -/

/-- UNION with white space around it. -/
def cUnion : Lang := Ws1 ⬝ kw c!"union" ⬝ Ws1

/-- Everything in a group but triples. -/
inductive CItem : GraphPatternNotTriples → Lang
  | union {l s} : Sep1 cUnion cG l s → CItem (.groupOrUnion l) s
  | optional {k w g s} : kw c!"optional" k → Ws1 w → cG g s → CItem (.optional g) (k ++ (w ++ s))
  | minus {k w g s} : kw c!"minus" k → Ws1 w → cG g s → CItem (.minus g) (k ++ (w ++ s))
  | graph {k w v t w' g s} : kw c!"graph" k → Ws1 w → cVarOrIri v t → Ws w' → cG g s →
      CItem (.graph (.mk v g)) (k ++ (w ++ (t ++ (w' ++ s))))
  | service {k w b y v t w' g s} : kw c!"service" k → Ws1 w → rSilent b y → cVarOrIri v t → Ws w' → cG g s →
      CItem (.service (.mk v b g)) (k ++ (w ++ (y ++ (t ++ (w' ++ s)))))
  | filter {k w c s} : kw c!"filter" k → Ws1 w → CConstraint cG c s → CItem (.filter c) (k ++ (w ++ s))
  | bind {k w x s} : kw c!"bind" k → Ws1 w → CAsVar cG x s → CItem (.bind x) (k ++ (w ++ s))
  | inlineData {k w d s} : kw c!"values" k → Ws1 w → cDataBlock d s → CItem (.inlineData d) (k ++ (w ++ s))

/-- An item and the triples after it; these do not begin with a `?`. -/
inductive CEntry : GraphPatternAndTriples → Lang
  | plain {g s} : CItem cG g s → CEntry (.mk g none) s
  | triples {g s w l t} : CItem cG g s → Ws w → cPatterns l t → t.head? ≠ some '?' →
      CEntry (.mk g (some (.mk (l.map Pattern.ast)))) (s ++ (w ++ t))

/-- A group: triples, items, both, or a sub-select. -/
inductive CGroup : GroupGraphPattern → Lang
  | empty {w} : Ws w → CGroup (.groupGraphPatternSub (.mk none [])) ('{' :: (w ++ ['}']))
  | patterns {w l s w'} : Ws w → cPatterns l s → Ws w' →
      CGroup (.groupGraphPatternSub (.mk (some (.mk (l.map Pattern.ast))) [])) ('{' :: (w ++ (s ++ (w' ++ ['}']))))
  | items {w l s} : Ws w → WsList (CEntry cG) l s →
      CGroup (.groupGraphPatternSub (.mk none l)) ('{' :: (w ++ (s ++ ['}'])))
  | both {w l s w' m t} : Ws w → cPatterns l s → Ws1 w' → WsList (CEntry cG) m t →
      CGroup (.groupGraphPatternSub (.mk (some (.mk (l.map Pattern.ast))) m)) ('{' :: (w ++ (s ++ (w' ++ (t ++ ['}'])))))
  | select {w q s} : Ws w → cSubSelect cG q s → CGroup (.subSelect q) ('{' :: (w ++ (s ++ ['}'])))

end

/-- The canonical group graph patterns: the least relation closed under `CGroup`. -/
def cGroup (g : GroupGraphPattern) (s : Str) : Prop :=
  ∀ P : GroupGraphPattern → Lang, (∀ g s, CGroup P g s → P g s) → P g s

/-- The canonical expressions, with groups of any depth inside. -/
def cExpr (b : Bool) (e : Expression) : Lang := CExpr cGroup b e

end NomSparql
