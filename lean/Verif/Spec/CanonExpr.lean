import Verif.Spec.CanonWhere

/-!
# Canonical texts of expressions

The texts of expressions that the crate reads as SPARQL 1.1 does (see C39 to C45 for the ones it does not): white space after every factor
but the first, a product of at least two factors as every summand but the first, calls without white space after the opening parenthesis.

Additive expressions and everything above them come in two kinds.  After a text of kind `true` the crate consumes white space, after one of kind
`false` (a sum, or `IN ()`) it does not; the last argument of a call has to be of kind `true`, because the crate wants the closing parenthesis there.
-/

namespace NomSparql

/-- No U+212A KELVIN SIGN. -/
def NoKelvin (s : Str) : Prop := '\u212A' ∉ s

/-- An IRI as operand. -/
def cOperandIri (i : Iri) : Lang := fun s => cIri i s ∧ NoKelvin s

/-- A number without sign (a sign would be read as an operator). -/
def cUnsigned (n : NumericLiteral) : Lang := fun s => cNumericLiteral n s ∧ s.head? ≠ some '+' ∧ s.head? ≠ some '-'

/-- `KEYWORD(e)`. -/
def calls1 : List (Str × (Expression → BuiltInCall)) := [
  (c!"str", .str), (c!"lang", .lang), (c!"datatype", .datatype), (c!"iri", .iri), (c!"uri", .uri), (c!"bnode", fun e => .bnode (some e)),
  (c!"ucase", .uCase), (c!"lcase", .lCase), (c!"encode_for_uri", .encodeForUri), (c!"year", .year), (c!"month", .month), (c!"day", .day),
  (c!"hours", .hours), (c!"minutes", .minutes), (c!"seconds", .seconds), (c!"timezone", .timezone), (c!"tz", .tz), (c!"md5", .md5),
  (c!"sha1", .sha1), (c!"sha256", .sha256), (c!"sha384", .sha384), (c!"sha512", .sha512), (c!"isiri", .isIri), (c!"isuri", .isUri),
  (c!"isblank", .isBlank), (c!"isliteral", .isLiteral), (c!"isnumeric", .isNumeric)]

/-- `KEYWORD(e1, e2)`. -/
def calls2 : List (Str × (Expression → Expression → BuiltInCall)) := [
  (c!"langmatches", .langMatches), (c!"strstarts", .strStarts), (c!"strends", .strEnds), (c!"strbefore", .strBefore),
  (c!"strafter", .strAfter), (c!"strlang", .strLang), (c!"strdt", .strDt), (c!"sameterm", .sameTerm)]

/-- `KEYWORD([DISTINCT] e)`. -/
def aggregates : List (Str × (DistinctExpression → Aggregate)) := [
  (c!"sum", .sum), (c!"min", .min), (c!"max", .max), (c!"avg", .avg), (c!"sample", .sample)]

/-- A comma with white space around it. -/
def cComma : Lang := Ws ⬝ lit c!"," ⬝ Ws

/-- `; SEPARATOR = "..."`. -/
def cSeparator (sep : Str) : Lang := Ws ⬝ lit c!";" ⬝ Ws ⬝ kw c!"separator" ⬝ Ws ⬝ lit c!"=" ⬝ Ws ⬝ StringText sep

section
variable (cG : GroupGraphPattern → Lang)

mutual
/-- Built-in calls. -/
inductive CCall : BuiltInCall → Lang
  | one {t f k w e s w' c} : (t, f) ∈ calls1 → kw t k → Ws w → CExpr true e s → Ws w' → c = f e →
      CCall c (k ++ (w ++ '(' :: (s ++ (w' ++ [')']))))
  | two {t f k w b e s m e' s' w' c} : (t, f) ∈ calls2 → kw t k → Ws w → CExpr b e s → cComma m → CExpr true e' s' → Ws w' →
      c = f e e' → CCall c (k ++ (w ++ '(' :: (s ++ (m ++ (s' ++ (w' ++ [')']))))))
  | bound {k w v s} : kw c!"bound" k → Ws w → cVar v s → CCall (.bound v) (k ++ (w ++ '(' :: (s ++ [')'])))
  | if {k w b e s m b' e' s' m' e'' s'' w'} : kw c!"if" k → Ws w → CExpr b e s → cComma m → CExpr b' e' s' → cComma m' →
      CExpr true e'' s'' → Ws w' → CCall (.if e e' e'') (k ++ (w ++ '(' :: (s ++ (m ++ (s' ++ (m' ++ (s'' ++ (w' ++ [')']))))))))
  | regex {k w b e s m e' s' w'} : kw c!"regex" k → Ws1 w → CExpr b e s → cComma m → CExpr true e' s' → Ws w' →
      CCall (.regex (.mk e e' none)) (k ++ (w ++ '(' :: (s ++ (m ++ (s' ++ (w' ++ [')']))))))
  | regexFlags {k w b e s m b' e' s' m' e'' s'' w'} : kw c!"regex" k → Ws1 w → CExpr b e s → cComma m → CExpr b' e' s' → cComma m' →
      CExpr true e'' s'' → Ws w' →
      CCall (.regex (.mk e e' (some e''))) (k ++ (w ++ '(' :: (s ++ (m ++ (s' ++ (m' ++ (s'' ++ (w' ++ [')']))))))))
  | exists {k w g s} : kw c!"exists" k → Ws1 w → cG g s → CCall (.existsFunc g) (k ++ (w ++ s))
  | notExists {k w k' w' g s} : kw c!"not" k → Ws1 w → kw c!"exists" k' → Ws1 w' → cG g s →
      CCall (.notExistsFunc g) (k ++ (w ++ (k' ++ (w' ++ s))))
  | aggregate {t f k w d y e s w' a} : (t, f) ∈ aggregates → kw t k → Ws w → rDistinct d y → CExpr true e s → Ws w' →
      a = f (.mk d e) → CCall (.aggregate a) (k ++ (w ++ '(' :: (y ++ (s ++ (w' ++ [')'])))))
  | count {k w d y e s w'} : kw c!"count" k → Ws w → rDistinct d y → CExpr true e s → Ws w' →
      CCall (.aggregate (.count (.mk d (.expr e)))) (k ++ (w ++ '(' :: (y ++ (s ++ (w' ++ [')'])))))
  | countAll {k w d y} : kw c!"count" k → Ws w → rDistinct d y →
      CCall (.aggregate (.count (.mk d .all))) (k ++ (w ++ '(' :: (y ++ c!"*)")))
  | concat {k w d y e s w'} : kw c!"group_concat" k → Ws w → rDistinct d y → CExpr true e s → Ws w' →
      CCall (.aggregate (.groupConcat (.mk (.mk d e) none))) (k ++ (w ++ '(' :: (y ++ (s ++ (w' ++ [')'])))))
  | concatSep {k w d y b e s z sep} : kw c!"group_concat" k → Ws w → rDistinct d y → CExpr b e s → cSeparator sep z →
      CCall (.aggregate (.groupConcat (.mk (.mk d e) (some sep)))) (k ++ (w ++ '(' :: (y ++ (s ++ (z ++ [')'])))))
/-- Operands. -/
inductive CPrim : PrimaryExpression → Lang
  | bracket {w b e s w'} : Ws w → CExpr b e s → Ws w' → CPrim (.brackettedExpression e) ('(' :: (w ++ (s ++ (w' ++ [')']))))
  | call {b s} : CCall b s → CPrim (.builtInCall b) s
  | iri {i s} : cOperandIri i s → CPrim (.iriOrFunction (.mk i none)) s
  | function {i s w n} : cOperandIri i s → Ws1 w → rNil n → CPrim (.iriOrFunction (.mk i (some .nil))) (s ++ (w ++ n))
  | rdfLiteral {l s} : cRdfLiteral l s → CPrim (.rdfLiteral l) s
  | numericLiteral {n s} : cUnsigned n s → CPrim (.numericLiteral n) s
  | booleanLiteral {b s} : rBoolean b s → CPrim (.booleanLiteral b) s
  | var {v s} : cVar v s → CPrim (.var v) s
/-- Operands with or without a unary operator. -/
inductive CUnary : UnaryExpression → Lang
  | plain {p s} : CPrim p s → CUnary (.default p) s
  | not {w p s} : Ws w → CPrim p s → CUnary (.not p) ('!' :: (w ++ s))
  | plus {w p s} : Ws w → CPrim p s → CUnary (.add p) ('+' :: (w ++ s))
  | minus {w p s} : Ws w → CPrim p s → CUnary (.sub p) ('-' :: (w ++ s))
/-- Factors with their operators, white space after each. -/
inductive CFactors : List MultExpression → Lang
  | nil : CFactors [] []
  | times {w u s w' l t} : Ws w → CUnary u s → Ws1 w' → CFactors l t → CFactors (.mult u :: l) ('*' :: (w ++ (s ++ (w' ++ t))))
  | over {w u s w' l t} : Ws w → CUnary u s → Ws1 w' → CFactors l t → CFactors (.div u :: l) ('/' :: (w ++ (s ++ (w' ++ t))))
/-- Products of at least two factors. -/
inductive CProduct : MultiplicativeExpression → Lang
  | mk {u s w l t} : CUnary u s → Ws w → l ≠ [] → CFactors l t → CProduct (.mk u l) (s ++ (w ++ t))
/-- A single operand or a product. -/
inductive CMult : MultiplicativeExpression → Lang
  | one {u s} : CUnary u s → CMult (.mk u []) s
  | product {m s} : CProduct m s → CMult m s
/-- Summands after the first. -/
inductive CSummands : List AddExpression → Lang
  | nil : CSummands [] []
  | plus {w m s l x} : Ws w → CProduct m s → CSummands l x → CSummands (.add m :: l) ('+' :: (w ++ (s ++ x)))
  | minus {w m s l x} : Ws w → CProduct m s → CSummands l x → CSummands (.sub m :: l) ('-' :: (w ++ (s ++ x)))
/-- A product, or a sum. -/
inductive CAdd : Bool → AdditiveExpression → Lang
  | one {m s} : CMult m s → CAdd true (.mk m []) s
  | sum {m s w l t} : CMult m s → Ws1 w → l ≠ [] → CSummands l t → CAdd false (.mk m l) (s ++ (w ++ t))
/-- A relational operator with its right operand; the second flag tells signs from words. -/
inductive COp : Bool → Bool → OpExpression → Lang
  | eq {w b a s} : Ws w → CAdd b a s → COp b true (.eq a) ('=' :: (w ++ s))
  | ne {w b a s} : Ws w → CAdd b a s → COp b true (.ne a) ('!' :: '=' :: (w ++ s))
  | lt {w b a s} : Ws w → CAdd b a s → COp b true (.lt a) ('<' :: (w ++ s))
  | gt {w b a s} : Ws w → CAdd b a s → COp b true (.gt a) ('>' :: (w ++ s))
  | le {w b a s} : Ws w → CAdd b a s → COp b true (.le a) ('<' :: '=' :: (w ++ s))
  | ge {w b a s} : Ws w → CAdd b a s → COp b true (.ge a) ('>' :: '=' :: (w ++ s))
  | in {k w n} : kw c!"in" k → Ws w → rNil n → COp false false (.in .nil) (k ++ (w ++ n))
  | notIn {k w k' w' n} : kw c!"not" k → Ws1 w → kw c!"in" k' → Ws1 w' → rNil n →
      COp false false (.nin .nil) (k ++ (w ++ (k' ++ (w' ++ n))))
/-- Relations. -/
inductive CRel : Bool → RelationalExpression → Lang
  | one {b a s} : CAdd b a s → CRel b (.mk a none) s
  | op {b a s w b' sign o t} : CAdd b a s → Ws w → (sign = false → w ≠ []) → COp b' sign o t → CRel b' (.mk a (some o)) (s ++ (w ++ t))
/-- Conjunctions. -/
inductive CAnd : Bool → List RelationalExpression → Lang
  | one {b r s} : CRel b r s → CAnd b [r] s
  | and {b r s w w' b' l t} : CRel b r s → Ws w → Ws w' → CAnd b' l t → CAnd b' (r :: l) (s ++ (w ++ '&' :: '&' :: (w' ++ t)))
/-- Disjunctions. -/
inductive COr : Bool → List ConditionalAndExpression → Lang
  | one {b l s} : CAnd b l s → COr b [.mk l] s
  | or {b l s w w' b' m t} : CAnd b l s → Ws w → Ws w' → COr b' m t → COr b' (.mk l :: m) (s ++ (w ++ '|' :: '|' :: (w' ++ t)))
/-- Expressions. -/
inductive CExpr : Bool → Expression → Lang
  | mk {b l s} : COr b l s → CExpr b (.mk l) s
end

end

end NomSparql
