import Verif.Lemmas.ExprCalls

/-!
# Canonical expressions are accepted

`expression` reads every canonical expression (Spec/CanonExpr) followed by white space and a closing sign, returns the value it was
written for, and leaves at most white space before that sign.
-/

namespace NomSparql

variable {cG : GroupGraphPattern → Lang}

mutual
theorem call_reads (hG : ∀ g s, cG g s → ReadsAs groupGraphPattern s g) : ∀ {b s}, CCall cG b s → CallReads b s
  | _, _, .one hf hk hw h hw' e => e ▸ call_one hf hk hw (expr_reads hG h) hw'
  | _, _, .two hf hk hw h hm h' hw' e => e ▸ call_two hf hk hw (expr_reads hG h) hm (expr_reads hG h') hw'
  | _, _, .bound hk hw h => call_bound hk hw h
  | _, _, .if hk hw h hm h' hm' h'' hw' => call_if hk hw (expr_reads hG h) hm (expr_reads hG h') hm' (expr_reads hG h'') hw'
  | _, _, .regex hk hw h hm h' hw' => call_regex hk hw (expr_reads hG h) hm (expr_reads hG h') hw'
  | _, _, .regexFlags hk hw h hm h' hm' h'' hw' => call_regexFlags hk hw (expr_reads hG h) hm (expr_reads hG h') hm' (expr_reads hG h'') hw'
  | _, _, .exists hk hw h => call_exists hk hw (hG _ _ h)
  | _, _, .notExists hk hw hk' hw' h => call_notExists hk hw hk' hw' (hG _ _ h)
  | _, _, .aggregate hf hk hw hd h hw' e => e ▸ call_aggregate hf hk hw hd (expr_reads hG h) hw'
  | _, _, .count hk hw hd h hw' => call_count hk hw hd (expr_reads hG h) hw'
  | _, _, .countAll hk hw hd => call_countAll hk hw hd
  | _, _, .concat hk hw hd h hw' => call_concat hk hw hd (expr_reads hG h) hw'
  | _, _, .concatSep hk hw hd h hz => call_concatSep hk hw hd (expr_reads hG h) hz
theorem prim_reads (hG : ∀ g s, cG g s → ReadsAs groupGraphPattern s g) : ∀ {p s}, CPrim cG p s → PrimReads p s
  | _, _, .bracket hw h hw' => prim_bracket hw (expr_reads hG h) hw'
  | _, _, .call h => prim_call (call_reads hG h)
  | _, _, .iri h => prim_iri h
  | _, _, .function h hw hn => prim_function h hw hn
  | _, _, .rdfLiteral h => prim_rdfLiteral h
  | _, _, .numericLiteral h => prim_numericLiteral h
  | _, _, .booleanLiteral h => prim_booleanLiteral h
  | _, _, .var h => prim_var h
theorem unary_reads (hG : ∀ g s, cG g s → ReadsAs groupGraphPattern s g) : ∀ {u s}, CUnary cG u s → Reads unaryExpression u s
  | _, _, .plain h => unary_plain (prim_reads hG h)
  | _, _, .not hw h => unary_not hw (prim_reads hG h)
  | _, _, .plus hw h => unary_plus hw (prim_reads hG h)
  | _, _, .minus hw h => unary_minus hw (prim_reads hG h)
theorem factors_read (hG : ∀ g s, cG g s → ReadsAs groupGraphPattern s g) : ∀ {l s}, CFactors cG l s → FactorsRead l s
  | _, _, .nil => factors_nil
  | _, _, .times hw h hw' ht => factors_times hw (unary_reads hG h) hw' (factors_read hG ht)
  | _, _, .over hw h hw' ht => factors_over hw (unary_reads hG h) hw' (factors_read hG ht)
theorem product_reads (hG : ∀ g s, cG g s → ReadsAs groupGraphPattern s g) : ∀ {m s}, CProduct cG m s → ProductReads m s
  | _, _, .mk h hw hl ht => product_mk (unary_reads hG h) hw hl (factors_read hG ht)
theorem mult_reads (hG : ∀ g s, cG g s → ReadsAs groupGraphPattern s g) :
    ∀ {m s}, CMult cG m s → ∃ b, ReadsTo multiplicativeExpression multStops b m s
  | _, _, .one h => ⟨_, mult_one (unary_reads hG h)⟩
  | _, _, .product h => ⟨_, mult_product (product_reads hG h)⟩
theorem summands_read (hG : ∀ g s, cG g s → ReadsAs groupGraphPattern s g) : ∀ {l s}, CSummands cG l s → SummandsRead l s
  | _, _, .nil => summands_nil
  | _, _, .plus hw h ht => summands_plus hw (product_reads hG h) (summands_read hG ht)
  | _, _, .minus hw h ht => summands_minus hw (product_reads hG h) (summands_read hG ht)
theorem add_reads (hG : ∀ g s, cG g s → ReadsAs groupGraphPattern s g) :
    ∀ {b a s}, CAdd cG b a s → ReadsTo additiveExpression addStops b a s
  | _, _, _, .one h => have ⟨_, h⟩ := mult_reads hG h; add_one h
  | _, _, _, .sum h hw hl ht => have ⟨_, h⟩ := mult_reads hG h; add_sum h hw hl (summands_read hG ht)
theorem op_reads (hG : ∀ g s, cG g s → ReadsAs groupGraphPattern s g) : ∀ {b sign o s}, COp cG b sign o s → OpReads b sign o s
  | _, _, _, _, .eq hw h => op_eq hw (add_reads hG h)
  | _, _, _, _, .ne hw h => op_ne hw (add_reads hG h)
  | _, _, _, _, .lt hw h => op_lt hw (add_reads hG h)
  | _, _, _, _, .gt hw h => op_gt hw (add_reads hG h)
  | _, _, _, _, .le hw h => op_le hw (add_reads hG h)
  | _, _, _, _, .ge hw h => op_ge hw (add_reads hG h)
  | _, _, _, _, .in hk hw hn => op_in hk hw hn
  | _, _, _, _, .notIn hk hw hk' hw' hn => op_notIn hk hw hk' hw' hn
theorem rel_reads (hG : ∀ g s, cG g s → ReadsAs groupGraphPattern s g) :
    ∀ {b a s}, CRel cG b a s → ReadsTo relationalExpression relStops b a s
  | _, _, _, .one h => rel_one (add_reads hG h)
  | _, _, _, .op h hw hs ho => rel_op (add_reads hG h) hw hs (op_reads hG ho)
theorem and_reads (hG : ∀ g s, cG g s → ReadsAs groupGraphPattern s g) :
    ∀ {b l s}, CAnd cG b l s → ChainReads (spEnc (tag ['&', '&'])) relationalExpression andStops b l s
  | _, _, _, .one h => chain_one Stop.rel andSep_stops (rel_reads hG h)
  | _, _, _, .and h hw hw' ht => chain_cons (by decide) (by decide) (fun h => h.add.mult.unary) (rel_reads hG h) hw hw' (and_reads hG ht)
theorem or_reads (hG : ∀ g s, cG g s → ReadsAs groupGraphPattern s g) :
    ∀ {b l s}, COr cG b l s → ChainReads (spEnc (tag ['|', '|'])) conditionalAndExpression orStops b l s
  | _, _, _, .one h => chain_one Stop.and orSep_stops (chain_accept (and_reads hG h) (f := ConditionalAndExpression.mk))
  | _, _, _, .or h hw hw' ht => chain_cons (by decide) (by decide) (fun h => h.rel.add.mult.unary)
      (chain_accept (and_reads hG h) (f := ConditionalAndExpression.mk)) hw hw' (or_reads hG ht)
theorem expr_reads (hG : ∀ g s, cG g s → ReadsAs groupGraphPattern s g) :
    ∀ {b e s}, CExpr cG b e s → ReadsTo expression orStops b e s
  | _, _, _, .mk h => by
    rw [expression_eq]
    exact chain_accept (or_reads hG h) (f := Expression.mk)
end

end NomSparql
