import Verif.Model.Path

/-!
# Model of the expression / graph pattern nest

src/expression/mod.rs, src/expression/functions.rs, src/arithmetic.rs, src/call.rs, src/aggregate.rs,
src/order.rs, src/group.rs, the expression clauses of src/clauses.rs, the group part of src/graph.rs,
`sub_select` of src/query/select.rs, `iri_or_fun` of src/terminals.rs.

Two parsers are taken as parameters (the recursion goes through them): `R.expr` is `expression`
(src/expression/mod.rs:202-207), `R.ggp` is `group_graph_pattern` (src/graph.rs:237-249).
-/

namespace NomSparql

/-- The recursive parsers of the nest. -/
structure Rec where
  expr : P Expression
  ggp : P GroupGraphPattern

/-- `sp_enc(char(','))` -/
def comma : P Char := spEnc (char ',')

/-- `map(opt(terminated(distinct, sp1)), Option::unwrap_or_default)` -/
def optDistinct : P Bool := map (opt (terminated distinct sp1)) (fun o => o.getD false)

/-- `map(opt(terminated(silent, sp1)), Option::unwrap_or_default)` -/
def optSilent : P Bool := map (opt (terminated silent sp1)) (fun o => o.getD false)

section
variable (R : Rec)

/-! ### src/expression/mod.rs -/

/-- src/expression/mod.rs:108-117 `bracketted3` -/
def bracketted3 (p : P α) : P (α × α × Option α) :=
  bracketted (tuple3 p (preceded comma p) (opt (preceded comma p)))

/-- src/expression/mod.rs:119-123 `bracketted_expr3` -/
def brackettedExpr3S : P (Expression × Expression × Option Expression) := bracketted3 R.expr

/-- src/expression/mod.rs:125-137 `expression_as_var_opt` -/
def expressionAsVarOptS : P ExpressionAsVarOpt :=
  delimited (char '(')
    (spEnc (map (pair R.expr (opt (preceded (spEnc1 (tagNoCase c!"as")) var)))
      (fun x => .mk x.1 x.2)))
    (char ')')

/-- src/expression/mod.rs:139-151 `expression_as_var` -/
def expressionAsVarS : P ExpressionAsVar :=
  delimited (char '(')
    (spEnc (map (separatedPair R.expr (spEnc (tagNoCase c!"as")) var) (fun x => .mk x.1 x.2)))
    (char ')')

/-- src/expression/mod.rs:167-179 `expression_list` -/
def expressionListS : P ExpressionList := alt [
  map nil (fun _ => .nil),
  map (delimited (char '(') (separatedNonemptyList comma R.expr) (char ')')) .list]

/-- src/expression/mod.rs:181-192 `distinct_expression` -/
def distinctExpressionS : P DistinctExpression :=
  map (pair optDistinct R.expr) (fun x => .mk x.1 x.2)

/-- src/expression/mod.rs:194-196 `bracketted_expression` -/
def brackettedExpressionS : P Expression := bracketted (spEnc R.expr)

/-- src/expression/mod.rs:198-200 `bind` -/
def bindS : P ExpressionAsVar := precededTag1 c!"bind" (expressionAsVarS R)

/-! ### src/expression/functions.rs -/

/-- src/expression/functions.rs:35-44 `regex_expression` -/
def regexExpressionS : P RegexExpression :=
  map (precededTag1 c!"regex" (brackettedExpr3S R)) (fun x => .mk x.1 x.2.1 x.2.2)

/-- src/expression/functions.rs:46-55 `substring_expression` -/
def substringExpressionS : P RegexExpression :=
  map (precededTag1 c!"substr" (brackettedExpr3S R)) (fun x => .mk x.1 x.2.1 x.2.2)

/-- src/expression/functions.rs:57-72 `str_replace_expression` -/
def strReplaceExpressionS : P StrReplaceExpression :=
  map (bracketted (tuple4 R.expr (preceded comma R.expr) (preceded comma R.expr)
        (opt (preceded comma R.expr))))
    (fun x => .mk x.1 x.2.1 x.2.2.1 x.2.2.2)

/-! ### src/call.rs -/

/-- src/call.rs:296-314 `arg_list` -/
def argListS : P ArgList := alt [
  map nil (fun _ => .nil),
  map (delimited (terminated (char '(') sp)
        (pair optDistinct (separatedNonemptyList comma R.expr))
        (char ')'))
    (fun x => .expression x.1 x.2)]

/-- src/call.rs:90-94 `function_call` -/
def functionCallS : P FunctionCall :=
  map (separatedPair iri sp (argListS R)) (fun x => .mk x.1 x.2)

/-- src/terminals.rs:259-264 `iri_or_fun` -/
def iriOrFunS : P IriOrFunction :=
  map (pair iri (opt (preceded sp1 (argListS R)))) (fun x => .mk x.1 x.2)

/-! ### src/aggregate.rs -/

/-- src/aggregate.rs:85-90 `count_target` -/
def countTargetS : P CountTarget := alt [
  map (char '*') (fun _ => .all),
  map R.expr .expr]

/-- src/aggregate.rs:92-103 `count` -/
def countS : P Count :=
  map (precededTag c!"count" (bracketted (pair optDistinct (countTargetS R))))
    (fun x => .mk x.1 x.2)

/-- `tuple((char(';'), sp_enc(tag_no_case("separator")), terminated(char('='), sp)))`:
src/aggregate.rs:114-118 -/
def separatorEq : P (Char × Str × Char) :=
  tuple3 (char ';') (spEnc (tagNoCase c!"separator")) (terminated (char '=') sp)

/-- src/aggregate.rs:105-129 `group_concat` -/
def groupConcatS : P GroupConcat :=
  map (precededTag c!"group_concat" (bracketted (pair
        (distinctExpressionS R)
        (opt (preceded sp (preceded separatorEq stringLiteral))))))
    (fun x => .mk x.1 x.2)

/-- src/aggregate.rs:58-83 `aggregate` -/
def aggregateS : P Aggregate := alt [
  map (countS R) .count,
  map (precededBracketted c!"sum" (distinctExpressionS R)) .sum,
  map (precededBracketted c!"min" (distinctExpressionS R)) .min,
  map (precededBracketted c!"max" (distinctExpressionS R)) .max,
  map (precededBracketted c!"avg" (distinctExpressionS R)) .avg,
  map (precededBracketted c!"sample" (distinctExpressionS R)) .sample,
  map (groupConcatS R) .groupConcat]

/-! ### src/call.rs, built-in calls -/

/-- `separated_pair(expression, sp_enc(char(',')), expression)` -/
def exprPairS : P (Expression × Expression) := separatedPair R.expr comma R.expr

/-- src/call.rs:96-162 `built_in_call_1` -/
def builtInCall1S : P BuiltInCall := alt [
  map (aggregateS R) .aggregate,
  map (precededBracketted c!"str" R.expr) .str,
  map (precededBracketted c!"lang" R.expr) .lang,
  map (precededBracketted c!"langmatches" (exprPairS R)) (fun x => .langMatches x.1 x.2),
  map (precededBracketted c!"datatype" R.expr) .datatype,
  map (precededBracketted c!"bound" var) .bound,
  map (precededBracketted c!"iri" R.expr) .iri,
  map (precededBracketted c!"uri" R.expr) .uri,
  map (precededBracketted c!"bnode" (alt [map R.expr some, map nil (fun _ => none)])) .bnode,
  map (precededBracketted c!"rand" nil) (fun _ => .rand),
  map (precededBracketted c!"abs" R.expr) .uri,
  map (precededBracketted c!"ceil" R.expr) .uri,
  map (precededBracketted c!"floor" R.expr) .uri,
  map (precededBracketted c!"round" R.expr) .uri,
  map (precededTag1 c!"concat" (separatedPair (expressionListS R) sp (substringExpressionS R)))
    (fun x => .concat x.1 x.2),
  map (precededTag1 c!"strlen"
        (separatedPair (brackettedExpressionS R) sp (strReplaceExpressionS R)))
    (fun x => .strLen x.1 x.2),
  map (precededBracketted c!"ucase" R.expr) .uCase,
  map (precededBracketted c!"lcase" R.expr) .lCase,
  map (precededBracketted c!"encode_for_uri" R.expr) .encodeForUri,
  map (precededBracketted c!"strlen" (exprPairS R)) (fun x => .contains x.1 x.2),
  map (precededBracketted c!"strstarts" (exprPairS R)) (fun x => .strStarts x.1 x.2)]

/-- src/call.rs:164-210 `built_in_call_2` -/
def builtInCall2S : P BuiltInCall := alt [
  map (precededBracketted c!"strends" (exprPairS R)) (fun x => .strEnds x.1 x.2),
  map (precededBracketted c!"strbefore" (exprPairS R)) (fun x => .strBefore x.1 x.2),
  map (precededBracketted c!"strafter" (exprPairS R)) (fun x => .strAfter x.1 x.2),
  map (precededBracketted c!"year" R.expr) .year,
  map (precededBracketted c!"month" R.expr) .month,
  map (precededBracketted c!"day" R.expr) .day,
  map (precededBracketted c!"hours" R.expr) .hours,
  map (precededBracketted c!"minutes" R.expr) .minutes,
  map (precededBracketted c!"seconds" R.expr) .seconds,
  map (precededBracketted c!"timezone" R.expr) .timezone,
  map (precededBracketted c!"tz" R.expr) .tz,
  map (precededBracketted c!"now" nil) (fun _ => .now),
  map (precededBracketted c!"uuid" nil) (fun _ => .uuid),
  map (precededBracketted c!"struuid" nil) (fun _ => .strUuid)]

/-- src/call.rs:212-294 `built_in_call` -/
def builtInCallS : P BuiltInCall := alt [
  builtInCall1S R,
  builtInCall2S R,
  map (precededBracketted c!"md5" R.expr) .md5,
  map (precededBracketted c!"sha1" R.expr) .sha1,
  map (precededBracketted c!"sha256" R.expr) .sha256,
  map (precededBracketted c!"sha384" R.expr) .sha384,
  map (precededBracketted c!"sha512" R.expr) .sha512,
  map (precededTag1 c!"coalesce" (expressionListS R)) .coalesce,
  map (precededBracketted c!"if"
        (tuple3 R.expr (preceded comma R.expr) (preceded comma R.expr)))
    (fun x => .if x.1 x.2.1 x.2.2),
  map (precededBracketted c!"strlang" (exprPairS R)) (fun x => .strLang x.1 x.2),
  map (precededBracketted c!"strdt" (exprPairS R)) (fun x => .strDt x.1 x.2),
  map (precededBracketted c!"sameterm" (exprPairS R)) (fun x => .sameTerm x.1 x.2),
  map (precededBracketted c!"isiri" R.expr) .isIri,
  map (precededBracketted c!"isuri" R.expr) .isUri,
  map (precededBracketted c!"isblank" R.expr) .isBlank,
  map (precededBracketted c!"isliteral" R.expr) .isLiteral,
  map (precededBracketted c!"isnumeric" R.expr) .isNumeric,
  map (regexExpressionS R) .regex,
  map (precededTag1 c!"exists" R.ggp) .existsFunc,
  map (tuple3 (tagNoCase c!"not") (spEnc1 (tagNoCase c!"exists")) R.ggp)
    (fun x => .notExistsFunc x.2.2)]

/-- src/expression/mod.rs:153-165 `primary_expression` -/
def primaryExpressionS : P PrimaryExpression := alt [
  map (brackettedExpressionS R) .brackettedExpression,
  map (builtInCallS R) .builtInCall,
  map (iriOrFunS R) .iriOrFunction,
  map rdfLiteral .rdfLiteral,
  map numericLiteral .numericLiteral,
  map boolean .booleanLiteral,
  map var .var]

/-! ### src/arithmetic.rs -/

/-- src/arithmetic.rs:110-117 `unary_expression` -/
def unaryExpressionS : P UnaryExpression := alt [
  map (precededTag c!"!" (primaryExpressionS R)) .not,
  map (precededTag c!"+" (primaryExpressionS R)) .add,
  map (precededTag c!"-" (primaryExpressionS R)) .sub,
  map (primaryExpressionS R) .default]

/-- src/arithmetic.rs:162-167 `mult_expression` -/
def multExpressionS : P MultExpression := alt [
  map (precededTag c!"*" (unaryExpressionS R)) .mult,
  map (precededTag c!"/" (unaryExpressionS R)) .div]

/-- src/arithmetic.rs:152-160 `multiplicative_expression` -/
def multiplicativeExpressionS : P MultiplicativeExpression :=
  map (pair (unaryExpressionS R) (preceded sp (separatedList sp (multExpressionS R))))
    (fun x => .mk x.1 x.2)

/-- src/arithmetic.rs:129-150 `add_expression` -/
def addExpressionS : P AddExpression := alt [
  map (precededTag c!"+" (multiplicativeExpressionS R)) .add,
  map (precededTag c!"-" (multiplicativeExpressionS R)) .sub,
  map (pair numericLiteral (preceded sp (separatedList sp (multExpressionS R))))
    (fun x => .numeric x.1 x.2)]

/-- src/arithmetic.rs:119-127 `additive_expression` -/
def additiveExpressionS : P AdditiveExpression :=
  map (pair (multiplicativeExpressionS R) (preceded sp (separatedList sp (addExpressionS R))))
    (fun x => .mk x.1 x.2)

/-- src/arithmetic.rs:169-186 `op_expression`; `preceded_tag` is built on the complete
`tag_no_case`, the last alternative on the streaming one (src/arithmetic.rs:8). -/
def opExpressionS : P OpExpression := alt [
  map (precededTag c!"=" (additiveExpressionS R)) .eq,
  map (precededTag c!"!=" (additiveExpressionS R)) .ne,
  map (precededTag c!"<" (additiveExpressionS R)) .lt,
  map (precededTag c!">" (additiveExpressionS R)) .gt,
  map (precededTag c!"<=" (additiveExpressionS R)) .le,
  map (precededTag c!">=" (additiveExpressionS R)) .ge,
  map (precededTag c!"in" (expressionListS R)) .in,
  map (preceded (terminated (tagNoCaseStreaming c!"not") (spEnc1 (tagNoCaseStreaming c!"in")))
        (expressionListS R))
    .nin]

/-- src/arithmetic.rs:188-193 `relational_expression` -/
def relationalExpressionS : P RelationalExpression :=
  map (pair (additiveExpressionS R) (opt (preceded sp (opExpressionS R)))) (fun x => .mk x.1 x.2)

/-- src/arithmetic.rs:195-200 `conditional_and_expression` -/
def conditionalAndExpressionS : P ConditionalAndExpression :=
  map (separatedNonemptyList (spEnc (tag c!"&&")) (relationalExpressionS R)) .mk

/-- src/expression/mod.rs:202-207 `expression` -/
def expressionStep : P Expression :=
  map (separatedNonemptyList (spEnc (tag c!"||")) (conditionalAndExpressionS R)) .mk

/-! ### src/expression/functions.rs, constraints; src/order.rs; src/group.rs -/

/-- src/expression/functions.rs:74-80 `constraint` -/
def constraintS : P Constraint := alt [
  map (brackettedExpressionS R) .bracketted,
  map (builtInCallS R) .builtInCall,
  map (functionCallS R) .functionCall]

/-- src/expression/functions.rs:82-84 `filter` -/
def filterS : P Constraint := precededTag1 c!"filter" (constraintS R)

/-- src/order.rs:31-36 `order` -/
def order : P Order := alt [
  map (tagNoCase c!"asc") (fun _ => .asc),
  map (tagNoCase c!"desc") (fun _ => .desc)]

/-- src/order.rs:38-43 `order_expression` -/
def orderExpressionS : P OrderExpression :=
  map (separatedPair order sp1 (brackettedExpressionS R)) (fun x => .mk x.1 x.2)

/-- src/order.rs:45-55 `order_condition` -/
def orderConditionS : P OrderCondition := alt [
  map (orderExpressionS R) .order,
  map (constraintS R) .constraint,
  map var .var]

/-- src/group.rs:43-50 `group_condition` -/
def groupConditionS : P GroupCondition := alt [
  map (builtInCallS R) .builtInCall,
  map (functionCallS R) .functionCall,
  map (expressionAsVarOptS R) .expressionAsVarOpt,
  map var .var]

/-- src/group.rs:33-41 `group_clause` -/
def groupClauseS : P GroupClause :=
  map (preceded
      (terminated (delimited (tagNoCase c!"group") sp1 (tagNoCase c!"by")) sp1)
      (separatedNonemptyList sp (groupConditionS R)))
    .mk

/-! ### src/clauses.rs -/

/-- src/clauses.rs:71-79 `order_clause` -/
def orderClauseS : P OrderClause :=
  map (preceded
      (terminated (delimited (tagNoCase c!"order") sp1 (tagNoCase c!"by")) sp1)
      (separatedNonemptyList sp (orderConditionS R)))
    .mk

/-- src/clauses.rs:81-89 `having_clause` -/
def havingClauseS : P HavingClause :=
  map (preceded (terminated (tagNoCase c!"having") sp1)
      (separatedNonemptyList sp (constraintS R)))
    .mk

/-- src/clauses.rs:54-69 `solution_modifier` -/
def solutionModifierS : P SolutionModifier :=
  map (tuple4
      (opt (groupClauseS R))
      (opt (preceded sp (havingClauseS R)))
      (opt (preceded sp (orderClauseS R)))
      (opt (preceded sp limitOffsetClause)))
    (fun x => .mk x.2.2.1 x.1 x.2.1 x.2.2.2)

/-- src/clauses.rs:91-96 `where_clause` -/
def whereClauseS : P GroupGraphPattern :=
  preceded (opt (terminated (tagNoCase c!"where") sp1)) R.ggp

/-! ### src/query/select.rs, src/var.rs -/

/-- src/var.rs:96-101 `var_or_expression_as_var` -/
def varOrExpressionAsVarS : P VarOrExpressionAsVar := alt [
  map var .var,
  map (expressionAsVarS R) .expressionAsVar]

/-- src/query/select.rs:108-113 `select_modifier` -/
def selectModifier : P SelectModifier := alt [
  map (tagNoCase c!"distinct") (fun _ => .distinct),
  map (tagNoCase c!"reduced") (fun _ => .reduced)]

/-- src/query/select.rs:98-106 `select_vars` -/
def selectVarsS : P SelectVars := alt [
  map (char '*') (fun _ => .all),
  map (many1 (varOrExpressionAsVarS R)) .varOrExpressionAsVar]

/-- src/query/select.rs:87-96 `select_clause` -/
def selectClauseS : P SelectClause :=
  map (tuple3 (tagNoCase c!"select") (opt (preceded sp1 selectModifier))
        (preceded sp1 (selectVarsS R)))
    (fun x => .mk x.2.1 x.2.2)

/-- src/query/select.rs:70-85 `sub_select` -/
def subSelectS : P SubSelect :=
  map (tuple4 (selectClauseS R) (spEnc (whereClauseS R)) (solutionModifierS R)
        (preceded sp valuesClause))
    (fun x => .mk x.1 x.2.1 x.2.2.1 x.2.2.2)

/-! ### src/graph.rs, group graph patterns -/

/-- src/graph.rs:167-172 `group_or_union_graph_pattern` -/
def groupOrUnionGraphPatternS : P (List GroupGraphPattern) :=
  separatedNonemptyList (spEnc1 (tagNoCase c!"union")) R.ggp

/-- src/graph.rs:173-175 `optional_group_graph_pattern` -/
def optionalGroupGraphPatternS : P GroupGraphPattern := precededTag1 c!"optional" R.ggp

/-- src/graph.rs:176-178 `minus_graph_pattern` -/
def minusGraphPatternS : P GroupGraphPattern := precededTag1 c!"minus" R.ggp

/-- src/graph.rs:180-192 `graph_graph_pattern` -/
def graphGraphPatternS : P GraphGraphPattern :=
  map (tuple3 (terminated (tagNoCase c!"graph") sp1) (terminated varOrIri sp) R.ggp)
    (fun x => .mk x.2.1 x.2.2)

/-- src/graph.rs:221-235 `service_graph_pattern` -/
def serviceGraphPatternS : P ServiceGraphPattern :=
  map (tuple4 (terminated (tagNoCase c!"service") sp1) optSilent (terminated varOrIri sp) R.ggp)
    (fun x => .mk x.2.2.1 x.2.1 x.2.2.2)

/-- src/graph.rs:148-165 `graph_pattern_not_triples` -/
def graphPatternNotTriplesS : P GraphPatternNotTriples := alt [
  map (groupOrUnionGraphPatternS R) .groupOrUnion,
  map (optionalGroupGraphPatternS R) .optional,
  map (minusGraphPatternS R) .minus,
  map (graphGraphPatternS R) .graph,
  map (serviceGraphPatternS R) .service,
  map (filterS R) .filter,
  map (bindS R) .bind,
  map inlineData .inlineData]

/-- src/graph.rs:207-219 `group_graph_pattern_and_triples` (the separator in the source is `?`) -/
def groupGraphPatternAndTriplesS : P GraphPatternAndTriples :=
  map (separatedPair (graphPatternNotTriplesS R) (opt (preceded sp (char '?')))
        (opt (preceded sp triplesBlock)))
    (fun x => .mk x.1 x.2)

/-- src/graph.rs:194-205 `group_graph_pattern_sub` -/
def groupGraphPatternSubS : P GroupGraphPatternSub :=
  map (pair (opt (terminated triplesBlock sp))
        (separatedList sp (groupGraphPatternAndTriplesS R)))
    (fun x => .mk x.1 x.2)

/-- src/graph.rs:237-249 `group_graph_pattern` -/
def groupGraphPatternStep : P GroupGraphPattern :=
  delimited (char '{')
    (spEnc (alt [
      map (subSelectS R) .subSelect,
      map (groupGraphPatternSubS R) .groupGraphPatternSub]))
    (char '}')

end

/-- The nest with recursion budget `n`. -/
def recF : Nat → Rec
  | 0 => { expr := fun _ => .err .fuel, ggp := fun _ => .err .fuel }
  | n + 1 => { expr := expressionStep (recF n), ggp := groupGraphPatternStep (recF n) }

/-- src/expression/mod.rs:202-207 `expression` (budget: input length + 1, proved sufficient) -/
def expression : P Expression := fun i => (recF (i.length + 1)).expr i

/-- src/graph.rs:237-249 `group_graph_pattern` (budget: input length + 1, proved sufficient) -/
def groupGraphPattern : P GroupGraphPattern := fun i => (recF (i.length + 1)).ggp i

/-- The closed nest. -/
def R₀ : Rec := { expr := expression, ggp := groupGraphPattern }

/-- src/expression/mod.rs:194-196 -/
def brackettedExpression : P Expression := brackettedExpressionS R₀
/-- src/expression/mod.rs:167-179 -/
def expressionList : P ExpressionList := expressionListS R₀
/-- src/expression/mod.rs:139-151 -/
def expressionAsVar : P ExpressionAsVar := expressionAsVarS R₀
/-- src/expression/mod.rs:125-137 -/
def expressionAsVarOpt : P ExpressionAsVarOpt := expressionAsVarOptS R₀
/-- src/expression/mod.rs:181-192 -/
def distinctExpression : P DistinctExpression := distinctExpressionS R₀
/-- src/expression/mod.rs:198-200 -/
def bind : P ExpressionAsVar := bindS R₀
/-- src/expression/mod.rs:153-165 -/
def primaryExpression : P PrimaryExpression := primaryExpressionS R₀
/-- src/expression/functions.rs:74-80 -/
def constraint : P Constraint := constraintS R₀
/-- src/expression/functions.rs:82-84 -/
def filter : P Constraint := filterS R₀
/-- src/call.rs:90-94 -/
def functionCall : P FunctionCall := functionCallS R₀
/-- src/call.rs:296-314 -/
def argList : P ArgList := argListS R₀
/-- src/call.rs:212-294 -/
def builtInCall : P BuiltInCall := builtInCallS R₀
/-- src/terminals.rs:259-264 -/
def iriOrFun : P IriOrFunction := iriOrFunS R₀
/-- src/aggregate.rs:58-83 -/
def aggregate : P Aggregate := aggregateS R₀
/-- src/arithmetic.rs:110-117 -/
def unaryExpression : P UnaryExpression := unaryExpressionS R₀
/-- src/arithmetic.rs:162-167 -/
def multExpression : P MultExpression := multExpressionS R₀
/-- src/arithmetic.rs:152-160 -/
def multiplicativeExpression : P MultiplicativeExpression := multiplicativeExpressionS R₀
/-- src/arithmetic.rs:129-150 -/
def addExpression : P AddExpression := addExpressionS R₀
/-- src/arithmetic.rs:119-127 -/
def additiveExpression : P AdditiveExpression := additiveExpressionS R₀
/-- src/arithmetic.rs:169-186 -/
def opExpression : P OpExpression := opExpressionS R₀
/-- src/arithmetic.rs:188-193 -/
def relationalExpression : P RelationalExpression := relationalExpressionS R₀
/-- src/arithmetic.rs:195-200 -/
def conditionalAndExpression : P ConditionalAndExpression := conditionalAndExpressionS R₀
/-- src/order.rs:45-55 -/
def orderCondition : P OrderCondition := orderConditionS R₀
/-- src/clauses.rs:71-79 -/
def orderClause : P OrderClause := orderClauseS R₀
/-- src/clauses.rs:81-89 -/
def havingClause : P HavingClause := havingClauseS R₀
/-- src/group.rs:33-41 -/
def groupClause : P GroupClause := groupClauseS R₀
/-- src/group.rs:43-50 -/
def groupCondition : P GroupCondition := groupConditionS R₀
/-- src/clauses.rs:54-69 -/
def solutionModifier : P SolutionModifier := solutionModifierS R₀
/-- src/clauses.rs:91-96 -/
def whereClause : P GroupGraphPattern := whereClauseS R₀
/-- src/query/select.rs:87-96 -/
def selectClause : P SelectClause := selectClauseS R₀
/-- src/query/select.rs:70-85 -/
def subSelect : P SubSelect := subSelectS R₀
/-- src/graph.rs:148-165 -/
def graphPatternNotTriples : P GraphPatternNotTriples := graphPatternNotTriplesS R₀
/-- src/graph.rs:194-205 -/
def groupGraphPatternSub : P GroupGraphPatternSub := groupGraphPatternSubS R₀

/-! ### `Aggregate::is_distinct` -/

/-- src/aggregate.rs:26-38 `Aggregate::is_distinct` -/
def Aggregate.isDistinct : Aggregate → Bool
  | .sum (.mk d _) | .min (.mk d _) | .max (.mk d _) | .avg (.mk d _) | .sample (.mk d _) => d
  | .count (.mk d _) => d
  | .groupConcat (.mk (.mk d _) _) => d

end NomSparql
