import Verif.Model.Query

/-!
# Counting calls

A copy of Model/Expr and Model/Query in which every parser also returns how many calls of the two recursive functions of the crate,
`expression` (src/expression/mod.rs:202-207) and `group_graph_pattern` (src/graph.rs:237-249), it makes before it answers.  Calls made
before backtracking count, as they do in the crate: nom keeps no memo table.

The result is by definition that of the combinators in Model/Nom; the count of a combinator is the sum of the counts of the parsers it runs.
Parsers that call neither function have count 0 (`lift`).  Lemmas/Cost proves that the results are those of Model/Query.
-/

namespace NomSparql.Cost

/-- A parser with its number of calls. -/
abbrev K (α : Type) := Input → Res α × Nat

/-- The parser alone. -/
def erase (p : K α) : P α := fun i => (p i).1

/-- A parser that makes no calls. -/
def lift (p : P α) : K α := fun i => (p i, 0)

/-- One more call. -/
def tick (p : K α) : K α := fun i => ((p i).1, (p i).2 + 1)

/-! ## Combinators (Model/Nom, src/terminals.rs) -/

def map (p : K α) (f : α → β) : K β := fun i => (NomSparql.map (erase p) f i, (p i).2)

def opt (p : K α) : K (Option α) := fun i => (NomSparql.opt (erase p) i, (p i).2)

/-- The second parser runs where the first one succeeded. -/
def pair (p : K α) (q : K β) : K (α × β) := fun i =>
  (NomSparql.pair (erase p) (erase q) i,
    (p i).2 + match (p i).1 with
      | .ok r _ => (q r).2
      | .err _ => 0)

def tuple3 (p : K α) (q : K β) (s : K γ) : K (α × β × γ) := pair p (pair q s)
def tuple4 (p : K α) (q : K β) (s : K γ) (t : K δ) : K (α × β × γ × δ) := pair p (pair q (pair s t))
def tuple5 (p : K α) (q : K β) (s : K γ) (t : K δ) (u : K ε) : K (α × β × γ × δ × ε) := pair p (pair q (pair s (pair t u)))
def preceded (p : K α) (q : K β) : K β := map (pair p q) Prod.snd
def terminated (p : K α) (q : K β) : K α := map (pair p q) Prod.fst
def delimited (p : K α) (q : K β) (s : K γ) : K β := preceded p (terminated q s)
def separatedPair (p : K α) (s : K γ) (q : K β) : K (α × β) := pair p (preceded s q)

/-- The next alternative runs after an `Error`. -/
def altCost : List (K α) → Input → Nat
  | [], _ => 0
  | [p], i => (p i).2
  | p :: q :: ps, i => (p i).2 + match (p i).1 with
      | .err (.error _ _) => altCost (q :: ps) i
      | _ => 0

def alt (l : List (K α)) : K α := fun i => (NomSparql.alt (l.map erase) i, altCost l i)

def manyCost (p : K α) : Nat → Input → Nat
  | 0, _ => 0
  | n + 1, i => (p i).2 + match (p i).1 with
      | .ok r _ => if r = i then 0 else manyCost p n r
      | .err _ => 0

def many1 (p : K α) : K (List α) := fun i =>
  (NomSparql.many1 (erase p) i,
    (p i).2 + match (p i).1 with
      | .ok r _ => manyCost p (r.length + 1) r
      | .err _ => 0)

/-- Separator, then element, and so on. -/
def sepCost (sep : K σ) (p : K α) : Nat → Input → Nat
  | 0, _ => 0
  | n + 1, i => (sep i).2 + match (sep i).1 with
      | .err _ => 0
      | .ok r _ => if r = i then 0 else (p r).2 + match (p r).1 with
          | .err _ => 0
          | .ok r2 _ => if r2 = i then 0 else sepCost sep p n r2

/-- The count of both list combinators. -/
def listCost (sep : K σ) (p : K α) (i : Input) : Nat :=
  (p i).2 + match (p i).1 with
    | .err _ => 0
    | .ok r _ => if r = i then 0 else sepCost sep p (r.length + 1) r

def separatedList (sep : K σ) (p : K α) : K (List α) := fun i => (NomSparql.separatedList (erase sep) (erase p) i, listCost sep p i)

def separatedNonemptyList (sep : K σ) (p : K α) : K (List α) := fun i =>
  (NomSparql.separatedNonemptyList (erase sep) (erase p) i, listCost sep p i)

/-! ## Parsers without calls -/

def char (c : Char) : K Char := lift (NomSparql.char c)
def tag (t : List Char) : K Input := lift (NomSparql.tag t)
def tagNoCase (t : List Char) : K Input := lift (NomSparql.tagNoCase t)
def tagNoCaseStreaming (t : List Char) : K Input := lift (NomSparql.tagNoCaseStreaming t)
def sp := lift NomSparql.sp
def sp1 := lift NomSparql.sp1
def var := lift NomSparql.var
def iri := lift NomSparql.iri
def nil := lift NomSparql.nil
def stringLiteral := lift NomSparql.stringLiteral
def rdfLiteral := lift NomSparql.rdfLiteral
def numericLiteral := lift NomSparql.numericLiteral
def boolean := lift NomSparql.boolean
def varOrIri := lift NomSparql.varOrIri
def inlineData := lift NomSparql.inlineData
def triplesBlock := lift NomSparql.triplesBlock
def limitOffsetClause := lift NomSparql.limitOffsetClause
def valuesClause := lift NomSparql.valuesClause
def comma := lift NomSparql.comma
def optDistinct := lift NomSparql.optDistinct
def optSilent := lift NomSparql.optSilent
def separatorEq := lift NomSparql.separatorEq
def order := lift NomSparql.order
def selectModifier := lift NomSparql.selectModifier
def dataSetClauses := lift NomSparql.dataSetClauses
def varOrIrisOrAll := lift NomSparql.varOrIrisOrAll
def constructTemplate := lift NomSparql.constructTemplate
def triplesTemplate := lift NomSparql.triplesTemplate
def prologue := lift NomSparql.prologue
def datablock := lift NomSparql.datablock

def bracketted (p : K α) : K α := delimited (char '(') p (char ')')
def precededTag1 (t : List Char) (p : K α) : K α := preceded (terminated (tagNoCase t) sp1) p
def precededTag (t : List Char) (p : K α) : K α := preceded (terminated (tagNoCase t) sp) p
def precededBracketted (t : List Char) (p : K α) : K α := precededTag t (bracketted p)
def spEnc (p : K α) : K α := delimited sp p sp
def spEnc1 (p : K α) : K α := delimited sp1 p sp1

/-! ## Model/Expr -/

/-- The recursive parsers of the nest. -/
structure Rec where
  expr : K Expression
  ggp : K GroupGraphPattern

section
variable (R : Rec)

/-- src/expression/mod.rs:108-117 `bracketted3` -/
def bracketted3 (p : K α) : K (α × α × Option α) :=
  bracketted (tuple3 p (preceded comma p) (opt (preceded comma p)))

/-- src/expression/mod.rs:119-123 `bracketted_expr3` -/
def brackettedExpr3S : K (Expression × Expression × Option Expression) := bracketted3 R.expr

/-- src/expression/mod.rs:125-137 `expression_as_var_opt` -/
def expressionAsVarOptS : K ExpressionAsVarOpt :=
  delimited (char '(')
    (spEnc (map (pair R.expr (opt (preceded (spEnc1 (tagNoCase c!"as")) var)))
      (fun x => .mk x.1 x.2)))
    (char ')')

/-- src/expression/mod.rs:139-151 `expression_as_var` -/
def expressionAsVarS : K ExpressionAsVar :=
  delimited (char '(')
    (spEnc (map (separatedPair R.expr (spEnc (tagNoCase c!"as")) var) (fun x => .mk x.1 x.2)))
    (char ')')

/-- src/expression/mod.rs:167-179 `expression_list` -/
def expressionListS : K ExpressionList := alt [
  map nil (fun _ => .nil),
  map (delimited (char '(') (separatedNonemptyList comma R.expr) (char ')')) .list]

/-- src/expression/mod.rs:181-192 `distinct_expression` -/
def distinctExpressionS : K DistinctExpression :=
  map (pair optDistinct R.expr) (fun x => .mk x.1 x.2)

/-- src/expression/mod.rs:194-196 `bracketted_expression` -/
def brackettedExpressionS : K Expression := bracketted (spEnc R.expr)

/-- src/expression/mod.rs:198-200 `bind` -/
def bindS : K ExpressionAsVar := precededTag1 c!"bind" (expressionAsVarS R)

/-- src/expression/functions.rs:35-44 `regex_expression` -/
def regexExpressionS : K RegexExpression :=
  map (precededTag1 c!"regex" (brackettedExpr3S R)) (fun x => .mk x.1 x.2.1 x.2.2)

/-- src/expression/functions.rs:46-55 `substring_expression` -/
def substringExpressionS : K RegexExpression :=
  map (precededTag1 c!"substr" (brackettedExpr3S R)) (fun x => .mk x.1 x.2.1 x.2.2)

/-- src/expression/functions.rs:57-72 `str_replace_expression` -/
def strReplaceExpressionS : K StrReplaceExpression :=
  map (bracketted (tuple4 R.expr (preceded comma R.expr) (preceded comma R.expr)
        (opt (preceded comma R.expr))))
    (fun x => .mk x.1 x.2.1 x.2.2.1 x.2.2.2)

/-- src/call.rs:296-314 `arg_list` -/
def argListS : K ArgList := alt [
  map nil (fun _ => .nil),
  map (delimited (terminated (char '(') sp)
        (pair optDistinct (separatedNonemptyList comma R.expr))
        (char ')'))
    (fun x => .expression x.1 x.2)]

/-- src/call.rs:90-94 `function_call` -/
def functionCallS : K FunctionCall :=
  map (separatedPair iri sp (argListS R)) (fun x => .mk x.1 x.2)

/-- src/terminals.rs:259-264 `iri_or_fun` -/
def iriOrFunS : K IriOrFunction :=
  map (pair iri (opt (preceded sp1 (argListS R)))) (fun x => .mk x.1 x.2)

/-- src/aggregate.rs:85-90 `count_target` -/
def countTargetS : K CountTarget := alt [
  map (char '*') (fun _ => .all),
  map R.expr .expr]

/-- src/aggregate.rs:92-103 `count` -/
def countS : K Count :=
  map (precededTag c!"count" (bracketted (pair optDistinct (countTargetS R))))
    (fun x => .mk x.1 x.2)

/-- src/aggregate.rs:105-129 `group_concat` -/
def groupConcatS : K GroupConcat :=
  map (precededTag c!"group_concat" (bracketted (pair
        (distinctExpressionS R)
        (opt (preceded sp (preceded separatorEq stringLiteral))))))
    (fun x => .mk x.1 x.2)

/-- src/aggregate.rs:58-83 `aggregate` -/
def aggregateS : K Aggregate := alt [
  map (countS R) .count,
  map (precededBracketted c!"sum" (distinctExpressionS R)) .sum,
  map (precededBracketted c!"min" (distinctExpressionS R)) .min,
  map (precededBracketted c!"max" (distinctExpressionS R)) .max,
  map (precededBracketted c!"avg" (distinctExpressionS R)) .avg,
  map (precededBracketted c!"sample" (distinctExpressionS R)) .sample,
  map (groupConcatS R) .groupConcat]

/-! ### src/call.rs, built-in calls -/

/-- `separated_pair(expression, sp_enc(char(',')), expression)` -/
def exprPairS : K (Expression × Expression) := separatedPair R.expr comma R.expr

/-- src/call.rs:96-162 `built_in_call_1` -/
def builtInCall1S : K BuiltInCall := alt [
  map (aggregateS R) .aggregate,
  map (precededBracketted c!"str" R.expr) .str,
  map (precededBracketted c!"lang" R.expr) .lang,
  map (precededBracketted c!"langmatches" (exprPairS R)) (fun x => .langMatches x.1 x.2),
  map (precededBracketted c!"datatype" R.expr) .datatype,
  map (precededBracketted c!"bound" var) .bound,
  map (precededBracketted c!"iri" R.expr) .iri,
  map (precededBracketted c!"uri" R.expr) .uri,
  map (precededBracketted c!"bnode" (alt [map R.expr some, map nil (fun _ => none)])) .bnode,
  map (precededBracketted c!"rand" nil) (fun _ => .rand),
  map (precededBracketted c!"abs" R.expr) .uri,
  map (precededBracketted c!"ceil" R.expr) .uri,
  map (precededBracketted c!"floor" R.expr) .uri,
  map (precededBracketted c!"round" R.expr) .uri,
  map (precededTag1 c!"concat" (separatedPair (expressionListS R) sp (substringExpressionS R)))
    (fun x => .concat x.1 x.2),
  map (precededTag1 c!"strlen"
        (separatedPair (brackettedExpressionS R) sp (strReplaceExpressionS R)))
    (fun x => .strLen x.1 x.2),
  map (precededBracketted c!"ucase" R.expr) .uCase,
  map (precededBracketted c!"lcase" R.expr) .lCase,
  map (precededBracketted c!"encode_for_uri" R.expr) .encodeForUri,
  map (precededBracketted c!"strlen" (exprPairS R)) (fun x => .contains x.1 x.2),
  map (precededBracketted c!"strstarts" (exprPairS R)) (fun x => .strStarts x.1 x.2)]

/-- src/call.rs:164-210 `built_in_call_2` -/
def builtInCall2S : K BuiltInCall := alt [
  map (precededBracketted c!"strends" (exprPairS R)) (fun x => .strEnds x.1 x.2),
  map (precededBracketted c!"strbefore" (exprPairS R)) (fun x => .strBefore x.1 x.2),
  map (precededBracketted c!"strafter" (exprPairS R)) (fun x => .strAfter x.1 x.2),
  map (precededBracketted c!"year" R.expr) .year,
  map (precededBracketted c!"month" R.expr) .month,
  map (precededBracketted c!"day" R.expr) .day,
  map (precededBracketted c!"hours" R.expr) .hours,
  map (precededBracketted c!"minutes" R.expr) .minutes,
  map (precededBracketted c!"seconds" R.expr) .seconds,
  map (precededBracketted c!"timezone" R.expr) .timezone,
  map (precededBracketted c!"tz" R.expr) .tz,
  map (precededBracketted c!"now" nil) (fun _ => .now),
  map (precededBracketted c!"uuid" nil) (fun _ => .uuid),
  map (precededBracketted c!"struuid" nil) (fun _ => .strUuid)]

/-- src/call.rs:212-294 `built_in_call` -/
def builtInCallS : K BuiltInCall := alt [
  builtInCall1S R,
  builtInCall2S R,
  map (precededBracketted c!"md5" R.expr) .md5,
  map (precededBracketted c!"sha1" R.expr) .sha1,
  map (precededBracketted c!"sha256" R.expr) .sha256,
  map (precededBracketted c!"sha384" R.expr) .sha384,
  map (precededBracketted c!"sha512" R.expr) .sha512,
  map (precededTag1 c!"coalesce" (expressionListS R)) .coalesce,
  map (precededBracketted c!"if"
        (tuple3 R.expr (preceded comma R.expr) (preceded comma R.expr)))
    (fun x => .if x.1 x.2.1 x.2.2),
  map (precededBracketted c!"strlang" (exprPairS R)) (fun x => .strLang x.1 x.2),
  map (precededBracketted c!"strdt" (exprPairS R)) (fun x => .strDt x.1 x.2),
  map (precededBracketted c!"sameterm" (exprPairS R)) (fun x => .sameTerm x.1 x.2),
  map (precededBracketted c!"isiri" R.expr) .isIri,
  map (precededBracketted c!"isuri" R.expr) .isUri,
  map (precededBracketted c!"isblank" R.expr) .isBlank,
  map (precededBracketted c!"isliteral" R.expr) .isLiteral,
  map (precededBracketted c!"isnumeric" R.expr) .isNumeric,
  map (regexExpressionS R) .regex,
  map (precededTag1 c!"exists" R.ggp) .existsFunc,
  map (tuple3 (tagNoCase c!"not") (spEnc1 (tagNoCase c!"exists")) R.ggp)
    (fun x => .notExistsFunc x.2.2)]

/-- src/expression/mod.rs:153-165 `primary_expression` -/
def primaryExpressionS : K PrimaryExpression := alt [
  map (brackettedExpressionS R) .brackettedExpression,
  map (builtInCallS R) .builtInCall,
  map (iriOrFunS R) .iriOrFunction,
  map rdfLiteral .rdfLiteral,
  map numericLiteral .numericLiteral,
  map boolean .booleanLiteral,
  map var .var]

/-- src/arithmetic.rs:110-117 `unary_expression` -/
def unaryExpressionS : K UnaryExpression := alt [
  map (precededTag c!"!" (primaryExpressionS R)) .not,
  map (precededTag c!"+" (primaryExpressionS R)) .add,
  map (precededTag c!"-" (primaryExpressionS R)) .sub,
  map (primaryExpressionS R) .default]

/-- src/arithmetic.rs:162-167 `mult_expression` -/
def multExpressionS : K MultExpression := alt [
  map (precededTag c!"*" (unaryExpressionS R)) .mult,
  map (precededTag c!"/" (unaryExpressionS R)) .div]

/-- src/arithmetic.rs:152-160 `multiplicative_expression` -/
def multiplicativeExpressionS : K MultiplicativeExpression :=
  map (pair (unaryExpressionS R) (preceded sp (separatedList sp (multExpressionS R))))
    (fun x => .mk x.1 x.2)

/-- src/arithmetic.rs:129-150 `add_expression` -/
def addExpressionS : K AddExpression := alt [
  map (precededTag c!"+" (multiplicativeExpressionS R)) .add,
  map (precededTag c!"-" (multiplicativeExpressionS R)) .sub,
  map (pair numericLiteral (preceded sp (separatedList sp (multExpressionS R))))
    (fun x => .numeric x.1 x.2)]

/-- src/arithmetic.rs:119-127 `additive_expression` -/
def additiveExpressionS : K AdditiveExpression :=
  map (pair (multiplicativeExpressionS R) (preceded sp (separatedList sp (addExpressionS R))))
    (fun x => .mk x.1 x.2)

/-- src/arithmetic.rs:169-186 `op_expression`; `preceded_tag` is built on the complete
`tag_no_case`, the last alternative on the streaming one (src/arithmetic.rs:8). -/
def opExpressionS : K OpExpression := alt [
  map (precededTag c!"=" (additiveExpressionS R)) .eq,
  map (precededTag c!"!=" (additiveExpressionS R)) .ne,
  map (precededTag c!"<" (additiveExpressionS R)) .lt,
  map (precededTag c!">" (additiveExpressionS R)) .gt,
  map (precededTag c!"<=" (additiveExpressionS R)) .le,
  map (precededTag c!">=" (additiveExpressionS R)) .ge,
  map (precededTag c!"in" (expressionListS R)) .in,
  map (preceded (terminated (tagNoCaseStreaming c!"not") (spEnc1 (tagNoCaseStreaming c!"in")))
        (expressionListS R))
    .nin]

/-- src/arithmetic.rs:188-193 `relational_expression` -/
def relationalExpressionS : K RelationalExpression :=
  map (pair (additiveExpressionS R) (opt (preceded sp (opExpressionS R)))) (fun x => .mk x.1 x.2)

/-- src/arithmetic.rs:195-200 `conditional_and_expression` -/
def conditionalAndExpressionS : K ConditionalAndExpression :=
  map (separatedNonemptyList (spEnc (tag c!"&&")) (relationalExpressionS R)) .mk

/-- src/expression/mod.rs:202-207 `expression` -/
def expressionStep : K Expression :=
  map (separatedNonemptyList (spEnc (tag c!"||")) (conditionalAndExpressionS R)) .mk

/-- src/expression/functions.rs:74-80 `constraint` -/
def constraintS : K Constraint := alt [
  map (brackettedExpressionS R) .bracketted,
  map (builtInCallS R) .builtInCall,
  map (functionCallS R) .functionCall]

/-- src/expression/functions.rs:82-84 `filter` -/
def filterS : K Constraint := precededTag1 c!"filter" (constraintS R)

/-- src/order.rs:38-43 `order_expression` -/
def orderExpressionS : K OrderExpression :=
  map (separatedPair order sp1 (brackettedExpressionS R)) (fun x => .mk x.1 x.2)

/-- src/order.rs:45-55 `order_condition` -/
def orderConditionS : K OrderCondition := alt [
  map (orderExpressionS R) .order,
  map (constraintS R) .constraint,
  map var .var]

/-- src/group.rs:43-50 `group_condition` -/
def groupConditionS : K GroupCondition := alt [
  map (builtInCallS R) .builtInCall,
  map (functionCallS R) .functionCall,
  map (expressionAsVarOptS R) .expressionAsVarOpt,
  map var .var]

/-- src/group.rs:33-41 `group_clause` -/
def groupClauseS : K GroupClause :=
  map (preceded
      (terminated (delimited (tagNoCase c!"group") sp1 (tagNoCase c!"by")) sp1)
      (separatedNonemptyList sp (groupConditionS R)))
    .mk

/-- src/clauses.rs:71-79 `order_clause` -/
def orderClauseS : K OrderClause :=
  map (preceded
      (terminated (delimited (tagNoCase c!"order") sp1 (tagNoCase c!"by")) sp1)
      (separatedNonemptyList sp (orderConditionS R)))
    .mk

/-- src/clauses.rs:81-89 `having_clause` -/
def havingClauseS : K HavingClause :=
  map (preceded (terminated (tagNoCase c!"having") sp1)
      (separatedNonemptyList sp (constraintS R)))
    .mk

/-- src/clauses.rs:54-69 `solution_modifier` -/
def solutionModifierS : K SolutionModifier :=
  map (tuple4
      (opt (groupClauseS R))
      (opt (preceded sp (havingClauseS R)))
      (opt (preceded sp (orderClauseS R)))
      (opt (preceded sp limitOffsetClause)))
    (fun x => .mk x.2.2.1 x.1 x.2.1 x.2.2.2)

/-- src/clauses.rs:91-96 `where_clause` -/
def whereClauseS : K GroupGraphPattern :=
  preceded (opt (terminated (tagNoCase c!"where") sp1)) R.ggp

/-- src/var.rs:96-101 `var_or_expression_as_var` -/
def varOrExpressionAsVarS : K VarOrExpressionAsVar := alt [
  map var .var,
  map (expressionAsVarS R) .expressionAsVar]

/-- src/query/select.rs:98-106 `select_vars` -/
def selectVarsS : K SelectVars := alt [
  map (char '*') (fun _ => .all),
  map (many1 (varOrExpressionAsVarS R)) .varOrExpressionAsVar]

/-- src/query/select.rs:87-96 `select_clause` -/
def selectClauseS : K SelectClause :=
  map (tuple3 (tagNoCase c!"select") (opt (preceded sp1 selectModifier))
        (preceded sp1 (selectVarsS R)))
    (fun x => .mk x.2.1 x.2.2)

/-- src/query/select.rs:70-85 `sub_select` -/
def subSelectS : K SubSelect :=
  map (tuple4 (selectClauseS R) (spEnc (whereClauseS R)) (solutionModifierS R)
        (preceded sp valuesClause))
    (fun x => .mk x.1 x.2.1 x.2.2.1 x.2.2.2)

/-- src/graph.rs:167-172 `group_or_union_graph_pattern` -/
def groupOrUnionGraphPatternS : K (List GroupGraphPattern) :=
  separatedNonemptyList (spEnc1 (tagNoCase c!"union")) R.ggp

/-- src/graph.rs:173-175 `optional_group_graph_pattern` -/
def optionalGroupGraphPatternS : K GroupGraphPattern := precededTag1 c!"optional" R.ggp

/-- src/graph.rs:176-178 `minus_graph_pattern` -/
def minusGraphPatternS : K GroupGraphPattern := precededTag1 c!"minus" R.ggp

/-- src/graph.rs:180-192 `graph_graph_pattern` -/
def graphGraphPatternS : K GraphGraphPattern :=
  map (tuple3 (terminated (tagNoCase c!"graph") sp1) (terminated varOrIri sp) R.ggp)
    (fun x => .mk x.2.1 x.2.2)

/-- src/graph.rs:221-235 `service_graph_pattern` -/
def serviceGraphPatternS : K ServiceGraphPattern :=
  map (tuple4 (terminated (tagNoCase c!"service") sp1) optSilent (terminated varOrIri sp) R.ggp)
    (fun x => .mk x.2.2.1 x.2.1 x.2.2.2)

/-- src/graph.rs:148-165 `graph_pattern_not_triples` -/
def graphPatternNotTriplesS : K GraphPatternNotTriples := alt [
  map (groupOrUnionGraphPatternS R) .groupOrUnion,
  map (optionalGroupGraphPatternS R) .optional,
  map (minusGraphPatternS R) .minus,
  map (graphGraphPatternS R) .graph,
  map (serviceGraphPatternS R) .service,
  map (filterS R) .filter,
  map (bindS R) .bind,
  map inlineData .inlineData]

/-- src/graph.rs:207-219 `group_graph_pattern_and_triples` (the separator in the source is `?`) -/
def groupGraphPatternAndTriplesS : K GraphPatternAndTriples :=
  map (separatedPair (graphPatternNotTriplesS R) (opt (preceded sp (char '?')))
        (opt (preceded sp triplesBlock)))
    (fun x => .mk x.1 x.2)

/-- src/graph.rs:194-205 `group_graph_pattern_sub` -/
def groupGraphPatternSubS : K GroupGraphPatternSub :=
  map (pair (opt (terminated triplesBlock sp))
        (separatedList sp (groupGraphPatternAndTriplesS R)))
    (fun x => .mk x.1 x.2)

/-- src/graph.rs:237-249 `group_graph_pattern` -/
def groupGraphPatternStep : K GroupGraphPattern :=
  delimited (char '{')
    (spEnc (alt [
      map (subSelectS R) .subSelect,
      map (groupGraphPatternSubS R) .groupGraphPatternSub]))
    (char '}')

end

/-- The nest with recursion budget `n`; a call counts when it is made. -/
def recF : Nat → Rec
  | 0 => { expr := fun _ => (.err .fuel, 0), ggp := fun _ => (.err .fuel, 0) }
  | n + 1 => { expr := tick (expressionStep (recF n)), ggp := tick (groupGraphPatternStep (recF n)) }

def expression : K Expression := fun i => (recF (i.length + 1)).expr i
def groupGraphPattern : K GroupGraphPattern := fun i => (recF (i.length + 1)).ggp i

/-- The closed nest. -/
def R₀ : Rec := { expr := expression, ggp := groupGraphPattern }

def selectClause : K SelectClause := selectClauseS R₀
def whereClause : K GroupGraphPattern := whereClauseS R₀
def solutionModifier : K SolutionModifier := solutionModifierS R₀

/-! ## Model/Query -/

/-- src/query/select.rs:53-68 `select_query` -/
def selectQuery : K SelectQuery :=
  map (tuple4 (terminated selectClause sp1) dataSetClauses (spEnc whereClause) solutionModifier)
    (fun x => { selectClause := x.1, datasetClauses := x.2.1, whereClause := x.2.2.1,
                solutionModifier := x.2.2.2 })

/-- src/query/ask.rs:18-32 `ask_query` -/
def askQuery : K AskQuery :=
  map (tuple4 (terminated (tagNoCase c!"ask") sp1) (terminated dataSetClauses sp)
        (terminated whereClause sp) solutionModifier)
    (fun x => { datasetClauses := x.2.1, whereClause := x.2.2.1, solutionModifier := x.2.2.2 })

/-- src/query/describe.rs:24-40 `describe_query` -/
def describeQuery : K DescribeQuery :=
  map (tuple5 (tagNoCase c!"describe") (spEnc1 varOrIrisOrAll) (terminated dataSetClauses sp)
        (opt (terminated whereClause sp)) solutionModifier)
    (fun x => { varOrIrisOrAll := x.2.1, datasetClauses := x.2.2.1, whereClause := x.2.2.2.1,
                solutionModifier := x.2.2.2.2 })

/-- src/query/construct.rs:46-60 `sub_triples` -/
def subTriples : K SubTriples :=
  map (tuple4 (terminated dataSetClauses sp) (terminated (tagNoCase c!"where") sp1)
        (delimited (char '{') (spEnc (opt triplesTemplate)) (char '}'))
        (preceded sp solutionModifier))
    (fun x => { datasetClauses := x.1, triplesTemplate := x.2.2.1, solutionModifier := x.2.2.2 })

/-- src/query/construct.rs:62-77 `sub_construct` -/
def subConstruct : K SubConstruct :=
  map (tuple4 (terminated constructTemplate sp1) (terminated dataSetClauses sp)
        (terminated whereClause sp) solutionModifier)
    (fun x => { constructTemplate := x.1, datasetClauses := x.2.1, whereClause := x.2.2.1,
                solutionModifier := x.2.2.2 })

/-- src/query/construct.rs:79-87 `construct_query` -/
def constructQuery : K ConstructQuery :=
  precededTag1 c!"construct" (alt [map subConstruct .subConstruct, map subTriples .subTriples])

/-- src/parser.rs:28-35 `sparql_query` -/
def sparqlQuery : K SparqlQuery := alt [
  map selectQuery .select,
  map constructQuery .construct,
  map describeQuery .describe,
  map askQuery .ask]

/-- src/parser.rs:13-26 `sparql_query_stmt` -/
def sparqlQueryStmt : K SparqlQueryStatement :=
  map (tuple3 (terminated prologue sp) sparqlQuery
        (opt (preceded sp1 (precededTag1 c!"values" datablock))))
    (fun x => { prologue := x.1, query := x.2.1, values := x.2.2 })

end NomSparql.Cost
