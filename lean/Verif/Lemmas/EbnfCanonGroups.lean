import Verif.Lemmas.EbnfCanonTriples

/-!
# Canonical expressions, groups and requests in the grammar of SPARQL 1.1
-/

namespace NomSparql

open Ebnf

variable {S : Str} {x : Bool} {s t w : Str}

/-! ## Calls -/

theorem calls1_names : ∀ v ∈ calls1.map (·.1), v = c!"bnode" ∨ v ∈ oneArgFns := by decide
theorem calls2_names : ∀ v ∈ calls2.map (·.1), v ∈ twoArgFns := by decide
theorem aggregates_names : ∀ v ∈ aggregates.map (·.1), v ∈ plainAggregates := by decide

theorem leg_call1 {v : Str} (hv : v ∈ oneArgFns) (h : Leg S x (call1 v) s) : Leg S x (.n .builtInCall) s :=
  .n (.mem (by iterate 11 apply List.mem_cons_of_mem
               exact List.mem_append_left _ (List.mem_append_left _ (List.mem_map_of_mem hv))) h)
theorem leg_call2 {v : Str} (hv : v ∈ twoArgFns) (h : Leg S x (call2 v) s) : Leg S x (.n .builtInCall) s :=
  .n (.mem (by iterate 11 apply List.mem_cons_of_mem
               exact List.mem_append_left _ (List.mem_append_right _ (List.mem_map_of_mem hv))) h)

/-- `( a )` with white space before the end. -/
theorem Leg.parensW {a : Ebnf} (h : Leg S true a s) (hw : Ws w) : Leg S x (Ebnf.parens a) ('(' :: (s ++ (w ++ [')']))) :=
  (Leg.parens (.tail h hw)).cast (by simp)

theorem cl_call (k w v : Str) : Cl (k ++ (w ++ '(' :: (v ++ [')']))) := .append (.append (cl_close (by decide)) (by simp)) (by simp)

/-- Two texts with a comma between them. -/
theorem Leg.two {a b : Ebnf} {m : Str} (h : Leg S true a s) (hm : cComma m) (h' : Leg S true b t) : Leg S true (a ⬩ .p c!"," ⬩ b) (s ++ (m ++ t)) :=
  have c := Leg.comma (S := S) hm
  .seq h (.seqC c.1 h' c.2.2) c.2.1.append

/-- `DISTINCT` and white space, or nothing. -/
theorem leg_distinct {d : Bool} (h : rDistinct d s) : Leg S false (maybe (.k c!"distinct")) s ∧ Cl s := by
  cases d with
  | false => cases h; exact ⟨.none, .nil⟩
  | true =>
    obtain ⟨k, w, rfl, hk, hw⟩ := h
    exact ⟨.left (.tail (.k hk) hw.1), .append hw.1.cl hw.2⟩

/-- Members that do not end with a word character, and separators. -/
theorem Leg.sepC {α : Type} {a b : Ebnf} {B : Lang} {R : α → Lang} {l : List α} (hB : ∀ t, B t → Leg S false b t ∧ Cl t)
    (h : ∀ y t, R y t → Leg S false a t ∧ Cl t) (hs : Sep1 B R l s) : Leg S false (sepBy a b) s ∧ Cl s := by
  cases l with
  | nil => cases hs
  | cons y l =>
    obtain ⟨u, v, rfl, hu, hv⟩ := hs
    have := Leg.manyC (a := b ⬩ a) (S := S) (fun y t ⟨m, u, e, hm, hu⟩ => e ▸ ⟨Leg.seqC (hB _ hm).1 (h _ _ hu).1 (hB _ hm).2,
      .append' (hB _ hm).2 (h _ _ hu).2⟩) hv
    exact ⟨.seqC (h _ _ hu).1 this.1 (h _ _ hu).2, .append' (h _ _ hu).2 this.2⟩

theorem cProduct_ne {cG : GroupGraphPattern → Lang} {m : MultiplicativeExpression} (h : CProduct cG m s) : s ≠ [] := by
  obtain ⟨_, _, hn, h'⟩ := h
  cases h' <;> simp_all

section
variable (T : Tidy S) {cG : GroupGraphPattern → Lang} (H : ∀ g s, cG g s → Leg S false (.n .groupGraphPattern) s ∧ Op s ∧ Cl s)
include T H

mutual
theorem leg_cCall : ∀ {c : BuiltInCall} {s : Str}, CCall cG c s → Leg S false (.n .builtInCall) s ∧ Cl s
  | _, _, .one (t := v) hm hk hw h hw' _ => by
    refine ⟨?_, ?_⟩
    · have e : ∀ {y}, Leg S y (Ebnf.parens (.n .expression)) _ := (leg_cExpr h).parensW hw'
      rcases calls1_names _ (List.mem_map_of_mem hm) with rfl | hv
      · exact .n (.pick 7 rfl (.seq (.k hk) (.ws hw (.left e)) (hw.nw.op (.cons (by decide)))))
      · exact leg_call1 hv (.seq (.k hk) (.ws hw e) (hw.nw.op (.cons (by decide))))
    · exact .append (.append (.cons (.append (.snoc (by decide)) (by simp)) (by simp)) (by simp)) (by simp)
  | _, _, .two (t := v) hm hk hw h hc h' hw' _ => by
    refine ⟨?_, ?_⟩
    · have e : ∀ {y}, Leg S y (Ebnf.parens _) _ := (Leg.two (leg_cExpr h) hc (leg_cExpr h')).parensW hw'
      have := leg_call2 (S := S) (x := false) (calls2_names _ (List.mem_map_of_mem hm)) (.seq (.k hk) (.ws hw e) (hw.nw.op (.cons (by decide))))
      exact this.cast (by simp)
    · exact .append (.append (.cons (.append (.append (.append (.snoc (by decide)) (by simp)) (by simp)) (by simp)) (by simp)) (by simp)) (by simp)
  | _, _, .bound hk hw hv => by
    refine ⟨?_, ?_⟩
    · exact .n (.pick 6 rfl (.seq (.k hk) (.ws hw (.parens (leg_var hv).1)) (hw.nw.op (.cons (by decide)))))
    · exact .append (.append (cl_close (by decide)) (by simp)) (by simp)
  | _, _, .if hk hw h hc h' hc' h'' hw' => by
    refine ⟨?_, ?_⟩
    · have e : ∀ {y}, Leg S y (Ebnf.parens _) _ := (Leg.two (leg_cExpr h) hc (Leg.two (leg_cExpr h') hc' (leg_cExpr h''))).parensW hw'
      have : Leg S false (.n .builtInCall) _ := .n (.pick 10 rfl (.seq (.k hk) (.ws hw e) (hw.nw.op (.cons (by decide)))))
      exact this.cast (by simp)
    · exact .append (.append (.cons (.append (.append (.append (.append (.append (.snoc (by decide)) (by simp)) (by simp)) (by simp)) (by simp)) (by simp)) (by simp)) (by simp)) (by simp)
  | _, _, .regex hk hw h hc h' hw' => by
    refine ⟨?_, ?_⟩
    · have c := Leg.comma (S := S) hc
      have e : ∀ {y}, Leg S y (Ebnf.parens (.n .expression ⬩ .p c!"," ⬩ .n .expression ⬩ maybe (.p c!"," ⬩ .n .expression))) _ :=
        (Leg.two (leg_cExpr h) hc (.endM (leg_cExpr h'))).parensW hw'
      have : Leg S false (.n .builtInCall) _ := .n (.pick 3 rfl (.n (.seq (.k hk) (.ws hw.1 e) hw.op)))
      exact this.cast (by simp)
    · exact .append (.append (.cons (.append (.append (.append (.snoc (by decide)) (by simp)) (by simp)) (by simp)) (by simp)) (by simp)) (by simp)
  | _, _, .regexFlags hk hw h hc h' hc' h'' hw' => by
    refine ⟨?_, ?_⟩
    · have c := Leg.comma (S := S) hc'
      have e : ∀ {y}, Leg S y (Ebnf.parens (.n .expression ⬩ .p c!"," ⬩ .n .expression ⬩ maybe (.p c!"," ⬩ .n .expression))) _ :=
        (Leg.two (leg_cExpr h) hc (.seq (leg_cExpr h') (.left (.seqC c.1 (leg_cExpr h'') c.2.2)) c.2.1.append)).parensW hw'
      have : Leg S false (.n .builtInCall) _ := .n (.pick 3 rfl (.n (.seq (.k hk) (.ws hw.1 e) hw.op)))
      exact this.cast (by simp)
    · exact .append (.append (.cons (.append (.append (.append (.append (.append (.snoc (by decide)) (by simp)) (by simp)) (by simp)) (by simp)) (by simp)) (by simp)) (by simp)) (by simp)
  | _, _, .exists hk hw hg => by
    have := H _ _ hg
    refine ⟨.n (.pick 4 rfl (.n (.seq (.k hk) (.ws hw.1 this.1) hw.op))), .append (.append' hw.1.cl this.2.2) (by simp [hw.2])⟩
  | _, _, .notExists hk hw hk' hw' hg => by
    have := H _ _ hg
    exact ⟨.n (.pick 5 rfl (.n (.seq (.k hk) (.ws hw.1 (.seq (.k hk') (.ws hw'.1 this.1) hw'.op)) hw.op))),
      .append (.append (.append (.append' hw'.1.cl this.2.2) (by simp [hw'.2])) (by simp [hw'.2])) (by simp [hw.2])⟩
  | _, _, .aggregate (t := v) hm hk hw hy h hw' _ => by
    refine ⟨?_, ?_⟩
    · have d := leg_distinct (S := S) hy
      have e : ∀ {y}, Leg S y (Ebnf.parens (maybe (.k c!"distinct") ⬩ .n .expression)) _ := (Leg.seqC d.1 (leg_cExpr h) d.2).parensW hw'
      have : Leg S false (.n .builtInCall) _ := .n (.pick 0 rfl (.n (.mem (List.mem_cons_of_mem _ (List.mem_cons_of_mem _ (List.mem_map_of_mem
        (aggregates_names _ (List.mem_map_of_mem hm))))) (.seq (.k hk) (.ws hw e) (hw.nw.op (.cons (by decide)))))))
      exact this.cast (by simp)
    · simpa using cl_call _ _ (_ ++ (_ ++ _))
  | _, _, .count hk hw hy h hw' => by
    refine ⟨?_, ?_⟩
    · have d := leg_distinct (S := S) hy
      have e : ∀ {y}, Leg S y (Ebnf.parens (maybe (.k c!"distinct") ⬩ (.p c!"*" ⫾ .n .expression))) _ := (Leg.seqC d.1 (.right (leg_cExpr h)) d.2).parensW hw'
      have : Leg S false (.n .builtInCall) _ := .n (.pick 0 rfl (.n (.pick 0 rfl (.seq (.k hk) (.ws hw e) (hw.nw.op (.cons (by decide)))))))
      exact this.cast (by simp)
    · simpa using cl_call _ _ (_ ++ (_ ++ _))
  | _, _, .countAll hk hw hy => by
    refine ⟨?_, ?_⟩
    · have d := leg_distinct (S := S) hy
      have e : ∀ {y}, Leg S y (Ebnf.parens (maybe (.k c!"distinct") ⬩ (.p c!"*" ⫾ .n .expression))) _ := .parens (Leg.seqC d.1 (.left .p) d.2)
      have : Leg S false (.n .builtInCall) _ := .n (.pick 0 rfl (.n (.pick 0 rfl (.seq (.k hk) (.ws hw e) (hw.nw.op (.cons (by decide)))))))
      exact this.cast (by simp)
    · exact .append (.append (.cons (.append (.snoc (s := c!"*") (by decide)) (by simp)) (by simp)) (by simp)) (by simp)
  | _, _, .concat hk hw hy h hw' => by
    refine ⟨?_, ?_⟩
    · have d := leg_distinct (S := S) hy
      have e : ∀ {y}, Leg S y (Ebnf.parens (maybe (.k c!"distinct") ⬩ .n .expression ⬩ maybe (.p c!";" ⬩ .k c!"separator" ⬩ .p c!"=" ⬩ .t .string))) _ :=
        (Leg.seqC d.1 (.endM (leg_cExpr h)) d.2).parensW hw'
      have : Leg S false (.n .builtInCall) _ := .n (.pick 0 rfl (.n (.pick 1 rfl (.seq (.k hk) (.ws hw e) (hw.nw.op (.cons (by decide)))))))
      exact this.cast (by simp)
    · simpa using cl_call _ _ (_ ++ (_ ++ _))
  | _, _, .concatSep hk hw hy h hz => by
    refine ⟨?_, ?_⟩
    · have d := leg_distinct (S := S) hy
      obtain ⟨w1, _, rfl, hw1, _, _, rfl, rfl, w2, _, rfl, hw2, k2, _, rfl, hk2, w3, _, rfl, hw3, _, _, rfl, rfl, w4, z, rfl, hw4, hz⟩ := hz
      have sep : ∀ {y}, Leg S y (.p c!";" ⬩ .k c!"separator" ⬩ .p c!"=" ⬩ .t .string) (';' :: (w2 ++ (k2 ++ (w3 ++ '=' :: (w4 ++ z))))) :=
        .pc (.ws hw2 (.seq (.k hk2) (.ws hw3 (.pc (.ws hw4 (leg_string T hz)) (by decide))) (hw3.nw.op (.cons (by decide))))) (by decide)
      have e : ∀ {y}, Leg S y (Ebnf.parens (maybe (.k c!"distinct") ⬩ .n .expression ⬩ maybe (.p c!";" ⬩ .k c!"separator" ⬩ .p c!"=" ⬩ .t .string))) _ :=
        .parens (Leg.seqC d.1 (.seq (leg_cExpr h) (.left (.ws hw1 sep)) (hw1.nw.op (.cons (by decide)))) d.2)
      have : Leg S false (.n .builtInCall) _ := .n (.pick 0 rfl (.n (.pick 1 rfl (.seq (.k hk) (.ws hw e) (hw.nw.op (.cons (by decide)))))))
      exact this.cast (by simp)
    · exact .append (.append (.cons (.append (.append (.snoc (by decide)) (by simp)) (by simp)) (by simp)) (by simp)) (by simp)
theorem leg_cPrim : ∀ {q : PrimaryExpression} {s : Str}, CPrim cG q s → Leg S true (.n .primaryExpression) s
  | _, _, .bracket hw h hw' => .n (.pick 0 rfl (.n ((Leg.parens (.ws hw (.tail (leg_cExpr h) hw'))).cast (by simp))))
  | _, _, .call h => .n (.pick 1 rfl (leg_cCall h).1.up)
  | _, _, .iri h => .n (.pick 2 rfl (.n (.endM (leg_iri T h.1))))
  | _, _, .function h hw hn => .n (.pick 2 rfl (.n (.seq (leg_iri T h.1) (.left (.ws hw.1 (.n (.left (leg_nil T hn))))) hw.op)))
  | _, _, .rdfLiteral h => .n (.pick 3 rfl (leg_rdfLiteral T h))
  | _, _, .numericLiteral h => .n (.pick 4 rfl (leg_number T h.1))
  | _, _, .booleanLiteral h => .n (.pick 5 rfl (leg_boolean h))
  | _, _, .var h => .n (.pick 6 rfl (leg_var h).1)
theorem leg_cUnary : ∀ {u : UnaryExpression} {s : Str}, CUnary cG u s → Leg S true (.n .unaryExpression) s
  | _, _, .plain h => .n (.right (.right (.right (leg_cPrim h))))
  | _, _, .not hw h => .n (.left (.pc (.ws hw (leg_cPrim h)) (by decide)))
  | _, _, .plus hw h => .n (.right (.left (.pc (.ws hw (leg_cPrim h)) (by decide))))
  | _, _, .minus hw h => .n (.right (.right (.left (.minus (.ws hw (leg_cPrim h))))))
theorem leg_cFactors : ∀ {l : List MultExpression} {s : Str}, CFactors cG l s →
    Leg S false (.star ((.p c!"*" ⬩ .n .unaryExpression) ⫾ (.p c!"/" ⬩ .n .unaryExpression))) s ∧ Cl s ∧ (l ≠ [] → Op s)
  | _, _, .nil => ⟨.stop, .nil, fun h => (h rfl).elim⟩
  | _, _, .times (w := w) (s := s) (w' := w') (t := v) hw h hw' h' => by
    have e : Leg S false (.p c!"*" ⬩ .n .unaryExpression) ('*' :: (w ++ (s ++ w'))) := .pc (.ws hw (.tail1 (leg_cUnary h) hw')) (by decide)
    have c : Cl ('*' :: (w ++ (s ++ w'))) := .cons (.append (.append hw'.1.cl hw'.2) (by simp [hw'.2])) (by simp [hw'.2])
    have ih := leg_cFactors h'
    have := Leg.moreC (.left e) ih.1 c
    refine ⟨this.cast (by simp), ?_, fun _ => .cons (by decide)⟩
    have := Cl.append' c ih.2.1
    simpa using this
  | _, _, .over (w := w) (s := s) (w' := w') (t := v) hw h hw' h' => by
    have e : Leg S false (.p c!"/" ⬩ .n .unaryExpression) ('/' :: (w ++ (s ++ w'))) := .pc (.ws hw (.tail1 (leg_cUnary h) hw')) (by decide)
    have c : Cl ('/' :: (w ++ (s ++ w'))) := .cons (.append (.append hw'.1.cl hw'.2) (by simp [hw'.2])) (by simp [hw'.2])
    have ih := leg_cFactors h'
    have := Leg.moreC (.right e) ih.1 c
    refine ⟨this.cast (by simp), ?_, fun _ => .cons (by decide)⟩
    have := Cl.append' c ih.2.1
    simpa using this
theorem leg_cProduct : ∀ {m : MultiplicativeExpression} {s : Str}, CProduct cG m s → Leg S false (.n .multiplicativeExpression) s ∧ Cl s
  | _, _, .mk h hw hn h' => by
    have f := leg_cFactors h'
    have o := f.2.2 hn
    refine ⟨.n (.seq (leg_cUnary h) (.ws hw f.1) (hw.nw.op o)), ?_⟩
    obtain ⟨_, _, rfl, _⟩ := o
    exact .append (.append f.2.1 (by simp)) (by simp)
theorem leg_cMult : ∀ {m : MultiplicativeExpression} {s : Str}, CMult cG m s → Leg S true (.n .multiplicativeExpression) s
  | _, _, .one h => .n (.endS (leg_cUnary h))
  | _, _, .product h => (leg_cProduct h).1.up
theorem leg_cSummands : ∀ {l : List AddExpression} {s : Str}, CSummands cG l s →
    Leg S false (.star ((.p c!"+" ⬩ .n .multiplicativeExpression) ⫾ (.p c!"-" ⬩ .n .multiplicativeExpression) ⫾
      (.t .signedNumber ⬩ .star ((.p c!"*" ⬩ .n .unaryExpression) ⫾ (.p c!"/" ⬩ .n .unaryExpression))))) s
  | _, _, .nil => .stop
  | _, _, .plus hw h h' => by
    have m := leg_cProduct h
    have n : _ ≠ [] := cProduct_ne h
    exact (Leg.moreC (.left (.pc (.ws hw m.1) (by decide))) (leg_cSummands h') (.cons (.append m.2 n) (by simp [n]))).cast (by simp)
  | _, _, .minus hw h h' => by
    have m := leg_cProduct h
    have n : _ ≠ [] := cProduct_ne h
    exact (Leg.moreC (.right (.left (.minus (.ws hw m.1)))) (leg_cSummands h') (.cons (.append m.2 n) (by simp [n]))).cast (by simp)
theorem leg_cAdd : ∀ {b : Bool} {a : AdditiveExpression} {s : Str}, CAdd cG b a s → Leg S true (.n .numericExpression) s
  | _, _, _, .one h => .n (.n (.endS (leg_cMult h)))
  | _, _, _, .sum h hw _ h' => .n (.n (.seq (leg_cMult h) (.ws hw.1 (leg_cSummands h').up) hw.op))
theorem leg_cOp : ∀ {b sign : Bool} {o : OpExpression} {s : Str}, COp cG b sign o s →
    Leg S true (choice [.p c!"=" ⬩ .n .numericExpression, .p c!"!=" ⬩ .n .numericExpression,
      .p c!"<" ⬩ .n .numericExpression, .p c!">" ⬩ .n .numericExpression, .p c!"<=" ⬩ .n .numericExpression, .p c!">=" ⬩ .n .numericExpression,
      .k c!"in" ⬩ .n .expressionList, .k c!"not" ⬩ .k c!"in" ⬩ .n .expressionList]) s ∧ (sign = true → Op s)
  | _, _, _, _, .eq hw h => ⟨.pick 0 rfl (.pc (.ws hw (leg_cAdd h)) (by decide)), fun _ => .cons (by decide)⟩
  | _, _, _, _, .ne hw h => ⟨.pick 1 rfl (.pc2 (.ws hw (leg_cAdd h)) (by decide)), fun _ => .cons (by decide)⟩
  | _, _, _, _, .lt hw h => ⟨.pick 2 rfl (.pc (.ws hw (leg_cAdd h)) (by decide)), fun _ => .cons (by decide)⟩
  | _, _, _, _, .gt hw h => ⟨.pick 3 rfl (.pc (.ws hw (leg_cAdd h)) (by decide)), fun _ => .cons (by decide)⟩
  | _, _, _, _, .le hw h => ⟨.pick 4 rfl (.pc2 (.ws hw (leg_cAdd h)) (by decide)), fun _ => .cons (by decide)⟩
  | _, _, _, _, .ge hw h => ⟨.pick 5 rfl (.pc2 (.ws hw (leg_cAdd h)) (by decide)), fun _ => .cons (by decide)⟩
  | _, _, _, _, .in hk hw hn => ⟨.pick 6 rfl (.seq (.k hk) (.ws hw (.n (.left (leg_nil T hn)))) (hw.nw.op (nil_cl hn).1)), by rintro ⟨⟩⟩
  | _, _, _, _, .notIn hk hw hk' hw' hn =>
    ⟨.pick 7 rfl (.seq (.k hk) (.ws hw.1 (.seq (.k hk') (.ws hw'.1 (.n (.left (leg_nil T hn)))) hw'.op)) hw.op), by rintro ⟨⟩⟩
theorem leg_cRel : ∀ {b : Bool} {r : RelationalExpression} {s : Str}, CRel cG b r s → Leg S true (.n .valueLogical) s
  | _, _, _, .one h => .n (.n (.endM (leg_cAdd h)))
  | _, _, _, .op (sign := sign) h hw hs h' => by
    have o := leg_cOp h'
    refine .n (.n (.seq (leg_cAdd h) (.left (.ws hw o.1)) ?_))
    cases sign with
    | true => exact hw.nw.op (o.2 rfl)
    | false => exact Ws1.op ⟨hw, hs rfl⟩
theorem leg_cAnd : ∀ {b : Bool} {l : List RelationalExpression} {s : Str}, CAnd cG b l s → Leg S true (sepBy (.n .valueLogical) (.p c!"&&")) s ∧
    ∀ w w', Ws w → Ws w' → Leg S true (.star (.p c!"&&" ⬩ .n .valueLogical)) (w ++ '&' :: '&' :: (w' ++ s))
  | _, _, _, .one h => ⟨.endS (leg_cRel h), fun w w' hw hw' => by
      have := Leg.more0 (.ws hw (.pc2 (c := '&') (d := '&') (.ws hw' (leg_cRel h)) (by decide))) .stop .nil
      rwa [List.append_nil] at this⟩
  | _, _, _, .and (w := v) (w' := v') (t := z) h hv hv' h' => by
    have ih := (leg_cAnd h').2 v v' hv hv'
    have o : Op (v ++ '&' :: '&' :: (v' ++ z)) := hv.nw.op (.cons (by decide))
    refine ⟨.seq (leg_cRel h) ih o, fun w w' hw hw' => ?_⟩
    exact (Leg.more (.ws hw (.pc2 (c := '&') (d := '&') (.ws hw' (leg_cRel h)) (by decide))) ih o).cast (by simp)
theorem leg_cOr : ∀ {b : Bool} {l : List ConditionalAndExpression} {s : Str}, COr cG b l s →
    Leg S true (sepBy (.n .conditionalAndExpression) (.p c!"||")) s ∧
    ∀ w w', Ws w → Ws w' → Leg S true (.star (.p c!"||" ⬩ .n .conditionalAndExpression)) (w ++ '|' :: '|' :: (w' ++ s))
  | _, _, _, .one h => ⟨.endS (.n (leg_cAnd h).1), fun w w' hw hw' => by
      have := Leg.more0 (.ws hw (.pc2 (c := '|') (d := '|') (.ws hw' (.n (y := .conditionalAndExpression) (leg_cAnd h).1)) (by decide))) .stop .nil
      rwa [List.append_nil] at this⟩
  | _, _, _, .or (w := v) (w' := v') (t := z) h hv hv' h' => by
    have ih := (leg_cOr h').2 v v' hv hv'
    have o : Op (v ++ '|' :: '|' :: (v' ++ z)) := hv.nw.op (.cons (by decide))
    refine ⟨.seq (.n (leg_cAnd h).1) ih o, fun w w' hw hw' => ?_⟩
    exact (Leg.more (.ws hw (.pc2 (c := '|') (d := '|') (.ws hw' (.n (y := .conditionalAndExpression) (leg_cAnd h).1)) (by decide))) ih o).cast (by simp)
theorem leg_cExpr : ∀ {b : Bool} {e : Expression} {s : Str}, CExpr cG b e s → Leg S true (.n .expression) s
  | _, _, _, .mk h => .n (.n (leg_cOr h).1)
end

theorem leg_cBracket {e : Expression} (h : CBracket cG e s) : Leg S x (.n .brackettedExpression) s ∧ Cl s := by
  obtain ⟨hw, h, hw'⟩ := h
  exact ⟨.n ((Leg.parens (.ws hw (.tail (leg_cExpr T H h) hw'))).cast (by simp)), by simpa using cl_call [] [] (_ ++ (_ ++ _))⟩

theorem leg_cAsVar {y : ExpressionAsVar} (h : CAsVar cG y s) : Leg S x (parens (.n .expression ⬩ .k c!"as" ⬩ .t .var)) s ∧ Op s ∧ Cl s := by
  obtain ⟨hw, h, hw1, hk, hw2, hv, hw'⟩ := h
  refine ⟨(Leg.parens (.ws hw (.seq (leg_cExpr T H h) (.ws hw1.1 (.seq (.k hk) (.ws hw2 (.tail (leg_var hv).1 hw')) (hw2.nw.op (var_op hv).append)))
    hw1.op))).cast (by simp), .cons (by decide), by simpa using cl_call [] [] (_ ++ (_ ++ (_ ++ (_ ++ (_ ++ (_ ++ _))))))⟩

omit H in
theorem leg_function {i : Iri} {m : Str} (h : cOperandIri i s) (hw : Ws w) (hn : rNil m) : Leg S false (.n .functionCall) (s ++ (w ++ m)) ∧ Cl (s ++ (w ++ m)) := by
  have := nil_cl hn
  have hm : m ≠ [] := by obtain ⟨_, _, rfl, _⟩ := this.1; simp
  exact ⟨.n (.seq (leg_iri T h.1) (.ws hw (.n (.left (leg_nil T hn)))) (hw.nw.op this.1)), .append (.append this.2 hm) (by simp [hm])⟩

theorem leg_constraint {c : Constraint} (h : CConstraint cG c s) : Leg S false (.n .constraint) s ∧ Cl s := by
  cases h with
  | bracket h => exact ⟨.n (.left (leg_cBracket T H h).1), (leg_cBracket (x := false) T H h).2⟩
  | call h => exact ⟨.n (.right (.left (leg_cCall T H h).1)), (leg_cCall T H h).2⟩
  | function h hw hn => exact ⟨.n (.right (.right (leg_function T h hw hn).1)), (leg_function T h hw hn).2⟩

theorem leg_orderCond {c : OrderCondition} (h : COrderCond cG c s) : Leg S true (.n .orderCondition) s := by
  cases h with
  | @order o k w e u hk hw h =>
    have : Leg S true (.k c!"asc" ⫾ .k c!"desc") k := by
      cases o with
      | asc => exact .left (.k hk)
      | desc => exact .right (.k hk)
    exact .n (.left (.seq this (.ws hw.1 (leg_cBracket T H h).1) hw.op))
  | constraint h => exact .n (.right (.left (leg_constraint T H h).1.up))
  | var h => exact .n (.right (.right (leg_var h).1))

theorem leg_groupCond {c : GroupCondition} (h : CGroupCond cG c s) : Leg S true (.n .groupCondition) s := by
  cases h with
  | call h => exact .n (.left (leg_cCall T H h).1.up)
  | function h hw hn => exact .n (.right (.left (leg_function T h hw hn).1.up))
  | bracket h =>
    obtain ⟨hw, h, hw'⟩ := h
    exact .n (.right (.right (.left ((Leg.parens (.ws hw (.endM (.tail (leg_cExpr T H h) hw')))).cast (by simp)))))
  | asVar hw h hw1 hk hw2 hv hw' =>
    exact .n (.right (.right (.left ((Leg.parens (.ws hw (.seq (leg_cExpr T H h) (.left (.ws hw1.1 (.seq (.k hk) (.ws hw2.1 (.tail (leg_var hv).1 hw')) hw2.op)))
      hw1.op))).cast (by simp)))))
  | var h => exact .n (.right (.right (.right (leg_var h).1)))

/-! ## Solution modifiers -/

omit T H in
theorem leg_limit {m : Nat} (h : cLimit m s) : Leg S x (.n .limitClause) s := by
  obtain ⟨k, _, rfl, hk, w, u, rfl, hw, hu⟩ := h
  exact .n (.seq (.k hk) (.ws hw.1 (.of (.t hu.1.int))) hw.op)
omit T H in
theorem leg_offset {m : Nat} (h : cOffset m s) : Leg S x (.n .offsetClause) s := by
  obtain ⟨k, _, rfl, hk, w, u, rfl, hw, hu⟩ := h
  exact .n (.seq (.k hk) (.ws hw.1 (.of (.t hu.1.int))) hw.op)

omit T H in
theorem leg_limitOffset {l : LimitOffsetClause} (h : cLimitOffset l s) : Leg S x (.n .limitOffsetClauses) s := by
  match l, h with
  | .limitOffset l none, h => obtain ⟨u, w, rfl, hu, hw⟩ := h; exact .tail (.n (.left (.endM (leg_limit hu)))) hw
  | .offsetLimit l none, h => obtain ⟨u, w, rfl, hu, hw⟩ := h; exact .tail (.n (.right (.endM (leg_offset hu)))) hw
  | .limitOffset l (some o), h =>
    obtain ⟨u, _, rfl, hu, w, _, rfl, hw, v, w', rfl, hv, hw'⟩ := h
    exact .n (.left (.seq (leg_limit hu) (.left (.ws hw.1 (.tail (leg_offset hv) hw'))) hw.op))
  | .offsetLimit l (some o), h =>
    obtain ⟨u, _, rfl, hu, w, _, rfl, hw, v, w', rfl, hv, hw'⟩ := h
    exact .n (.right (.seq (leg_offset hu) (.left (.ws hw.1 (.tail (leg_limit hv) hw'))) hw.op))

omit T H in
theorem wsList_ne {α : Type} {R : α → Lang} {l : List α} (h : WsList R l s) : s ≠ [] := by
  obtain ⟨hn, h⟩ := h
  cases l with
  | nil => exact (hn rfl).elim
  | cons y l => obtain ⟨_, v, rfl, ⟨u, w, rfl, _, hw⟩, _⟩ := h; simp [hw.2]

theorem leg_groupClause {c : GroupClause} (h : cGroupClause cG c s) : Leg S false (.n .groupClause) s ∧ Cl s := by
  obtain ⟨l⟩ := c
  obtain ⟨k, _, rfl, hk, w, _, rfl, hw, k', _, rfl, hk', w', u, rfl, hw', hu⟩ := h
  have := Leg.wsList (fun _ _ h => leg_groupCond T H h) hu
  have ne := wsList_ne hu
  exact ⟨.n (.seq (.k hk) (.ws hw.1 (.seq (.k hk') (.ws hw'.1 this.1) hw'.op)) hw.op),
    .append (.append (.append (.append this.2 ne) (by simp [ne])) (by simp [ne])) (by simp [ne])⟩

theorem leg_orderClause {c : OrderClause} (h : cOrderClause cG c s) : Leg S false (.n .orderClause) s ∧ Cl s := by
  obtain ⟨l⟩ := c
  obtain ⟨k, _, rfl, hk, w, _, rfl, hw, k', _, rfl, hk', w', u, rfl, hw', hu⟩ := h
  have := Leg.wsList (fun _ _ h => leg_orderCond T H h) hu
  have ne := wsList_ne hu
  exact ⟨.n (.seq (.k hk) (.ws hw.1 (.seq (.k hk') (.ws hw'.1 this.1) hw'.op)) hw.op),
    .append (.append (.append (.append this.2 ne) (by simp [ne])) (by simp [ne])) (by simp [ne])⟩

theorem leg_havingClause {c : HavingClause} (h : cHavingClause cG c s) : Leg S false (.n .havingClause) s ∧ Cl s := by
  obtain ⟨l⟩ := c
  obtain ⟨k, _, rfl, hk, w, u, rfl, hw, hu⟩ := h
  have := Leg.wsList (a := .n .havingCondition) (fun _ _ h => .n (leg_constraint T H h).1.up) hu
  have ne := wsList_ne hu
  exact ⟨.n (.seq (.k hk) (.ws hw.1 this.1) hw.op), .append (.append this.2 ne) (by simp [ne])⟩

theorem leg_modifier {m : SolutionModifier} (h : cModifier cG m s) : Leg S false (.n .solutionModifier) s := by
  obtain ⟨o, g, v, l⟩ := m
  obtain ⟨a, _, rfl, ha, b, _, rfl, hb, c, d, rfl, hc, hd⟩ := h
  exact .n (.seqC (.opt (fun _ _ h => (leg_groupClause T H h).1) ha) (.seqC (.opt (fun _ _ h => (leg_havingClause T H h).1) hb)
    (.seqC (.opt (fun _ _ h => (leg_orderClause T H h).1) hc) (.opt (fun _ _ h => leg_limitOffset h) hd)
      (opt_cl (fun _ _ h => (leg_orderClause T H h).2) hc)) (opt_cl (fun _ _ h => (leg_havingClause T H h).2) hb))
        (opt_cl (fun _ _ h => (leg_groupClause T H h).2) ha))

/-! ## Sub-selects -/

theorem leg_proj {y : VarOrExpressionAsVar} (h : CProj cG y s) : Leg S true (.t .var ⫾ parens (.n .expression ⬩ .k c!"as" ⬩ .t .var)) s ∧ NW s := by
  cases h with
  | var h => exact ⟨.left (leg_var h).1, (var_op h).nw⟩
  | expr h => exact ⟨.right (leg_cAsVar T H h).1, (leg_cAsVar (x := false) T H h).2.1.nw⟩

theorem leg_selectClause {c : SelectClause} (h : cSelectClause cG c s) : Leg S true (.n .selectClause) s := by
  obtain ⟨m, v⟩ := c
  obtain ⟨k, _, rfl, hk, u, _, rfl, hu, w, r, rfl, hw, hr⟩ := h
  have hr : Leg S true (plus (.t .var ⫾ parens (.n .expression ⬩ .k c!"as" ⬩ .t .var)) ⫾ .p c!"*") r := by
    cases v with
    | all => cases hr; exact .right .p
    | varOrExpressionAsVar l =>
      cases l with
      | nil => cases hr
      | cons y l =>
        obtain ⟨a, b, rfl, ha, hb⟩ := hr
        have := Leg.manyO (fun _ _ h => leg_proj T H h) hb
        exact .left (.seq0 (leg_proj T H ha).1 this.1 this.2)
  cases m with
  | none => cases hu; rw [List.nil_append]; exact .n (.seq (.k hk) (.skipM (.ws hw.1 hr)) hw.op)
  | some m =>
    obtain ⟨w', u, rfl, hw', hu⟩ := hu
    have : Leg S true (.k c!"distinct" ⫾ .k c!"reduced") u := by
      cases m with
      | distinct => exact .left (.k hu)
      | reduced => exact .right (.k hu)
    refine .n (.seq (.k hk) (.seq (.left (.ws hw'.1 this)) (.ws hw.1 hr) hw.op) ?_)
    rw [List.append_assoc]
    exact hw'.op

omit T in
theorem leg_where {g : GroupGraphPattern} (h : cWhere cG g s) : Leg S x (.n .whereClause) s ∧ Cl s ∧ s ≠ [] := by
  obtain ⟨u, v, rfl, hu, hv⟩ := h
  have := H _ _ hv
  have ne : v ≠ [] := by obtain ⟨_, _, rfl, _⟩ := this.2.1; simp
  refine ⟨.n ?_, .append this.2.2 ne, by simp [ne]⟩
  rcases hu with rfl | ⟨k, w, rfl, hk, hw⟩
  · exact .skipM this.1.up
  · rw [List.append_assoc]
    exact .seq (.left (.k hk)) (.ws hw.1 this.1.up) hw.op

theorem leg_subSelect {q : SubSelect} (h : cSubSelect cG q s) : Leg S false (.n .subSelect) s := by
  obtain ⟨c, g, m, v⟩ := q
  obtain ⟨a, _, rfl, ha, w, _, rfl, hw, b, _, rfl, hb, w', _, rfl, hw', d, e, rfl, hd, he⟩ := h
  have hb := leg_where (x := false) H hb
  have key : Leg S false (.n .solutionModifier ⬩ .n .valuesClause) (d ++ e) := by
    cases v with
    | none => cases he; rw [List.append_nil]; exact .endR (leg_modifier T H hd) (.n (.right .nothing))
    | some y =>
      obtain ⟨k, _, rfl, hk, w1, _, rfl, hw1, u, w2, rfl, hu, hw2⟩ := he
      have hv : Leg S false (.n .valuesClause) (k ++ (w1 ++ (u ++ w2))) :=
        .n (.left (.seq (.k hk) (.ws hw1.1 (.tail (leg_dataBlock T hu).1 hw2)) hw1.op))
      intro p r hS _
      refine .seq (leg_modifier T H hd p _ (by rw [hS]; simp; rfl) (by rintro ⟨⟩)) (hv (p ++ d) r (by simp [hS]) (by rintro ⟨⟩)) (.inr ?_)
      rintro d' c _ _ rfl _ hc
      exact T.beforeValues (p ++ d') c k ((w1 ++ (u ++ w2)) ++ r) (by simp [hS]) hk hc.1
  exact .n (.seq (leg_selectClause T H ha) (.ws hw.1 (.seqC hb.1 (.ws hw' key) hb.2.1)) hw.op)

/-! ## Groups -/

omit T H in
theorem leg_silent {b : Bool} (h : rSilent b s) : Leg S false (maybe (.k c!"silent")) s ∧ Cl s := by
  cases b with
  | false => cases h; exact ⟨.none, .nil⟩
  | true =>
    obtain ⟨k, w, rfl, hk, hw⟩ := h
    exact ⟨.left (.tail (.k hk) hw.1), .append hw.1.cl hw.2⟩

omit T H in
theorem opens_ne (h : Op s) : s ≠ [] := by obtain ⟨_, _, rfl, _⟩ := h; simp

theorem leg_item {y : GraphPatternNotTriples} (h : CItem cG y s) : Leg S false (.n .graphPatternNotTriples) s ∧ Cl s := by
  cases h with
  | union h =>
    have := Leg.sepC (a := .n .groupGraphPattern) (b := .k c!"union") (S := S) (B := cUnion) (fun m hm => ?_) (fun _ _ h => ⟨(H _ _ h).1, (H _ _ h).2.2⟩) h
    · exact ⟨.n (.pick 0 rfl (.n this.1)), this.2⟩
    · obtain ⟨w, _, rfl, hw, k, w', rfl, hk, hw'⟩ := hm
      exact ⟨.ws hw.1 (.tail (.k hk) hw'.1), .append (.append hw'.1.cl hw'.2) (by simp [hw'.2])⟩
  | optional hk hw h =>
    have := H _ _ h
    have ne := opens_ne this.2.1
    exact ⟨.n (.pick 1 rfl (.n (.seq (.k hk) (.ws hw.1 this.1) hw.op))), .append (.append this.2.2 ne) (by simp [ne])⟩
  | minus hk hw h =>
    have := H _ _ h
    have ne := opens_ne this.2.1
    exact ⟨.n (.pick 2 rfl (.n (.seq (.k hk) (.ws hw.1 this.1) hw.op))), .append (.append this.2.2 ne) (by simp [ne])⟩
  | graph hk hw hv hw' h =>
    have := H _ _ h
    have ne := opens_ne this.2.1
    exact ⟨.n (.pick 3 rfl (.n (.seq (.k hk) (.ws hw.1 (.seq (leg_varOrIri T hv) (.ws hw' this.1) (hw'.nw.op this.2.1))) hw.op))),
      .append (.append (.append (.append this.2.2 ne) (by simp [ne])) (by simp [ne])) (by simp [ne])⟩
  | service hk hw hy hv hw' h =>
    have := H _ _ h
    have ne := opens_ne this.2.1
    have hy := leg_silent (S := S) hy
    exact ⟨.n (.pick 4 rfl (.n (.seq (.k hk) (.ws hw.1 (.seqC hy.1 (.seq (leg_varOrIri T hv) (.ws hw' this.1) (hw'.nw.op this.2.1)) hy.2)) hw.op))),
      .append (.append (.append (.append (.append this.2.2 ne) (by simp [ne])) (by simp [ne])) (by simp [ne])) (by simp [ne])⟩
  | filter hk hw h =>
    have := leg_constraint T H h
    exact ⟨.n (.pick 5 rfl (.n (.seq (.k hk) (.ws hw.1 this.1) hw.op))), .append (.append' hw.1.cl this.2) (by simp [hw.2])⟩
  | bind hk hw h =>
    have := leg_cAsVar (x := false) T H h
    exact ⟨.n (.pick 6 rfl (.n (.seq (.k hk) (.ws hw.1 this.1) hw.op))), .append (.append' hw.1.cl this.2.2) (by simp [hw.2])⟩
  | inlineData hk hw h =>
    have := leg_dataBlock T h
    exact ⟨.n (.pick 7 rfl (.n (.seq (.k hk) (.ws hw.1 this.1) hw.op))), .append (.append' hw.1.cl this.2.2) (by simp [hw.2])⟩

theorem leg_groupEntry {y : GraphPatternAndTriples} (h : CEntry cG y s) :
    Leg S true (.n .graphPatternNotTriples ⬩ maybe (.p c!".") ⬩ maybe (.n .triplesBlock)) s := by
  cases h with
  | plain h => exact .endR (leg_item T H h).1.up (Leg.endM (S := []) (x := false) (.of (.right .nothing)) [] [] rfl (by rintro ⟨⟩))
  | triples h hw hp _ => exact .seqC (leg_item T H h).1 (.skipM (.left (.ws hw (leg_patterns T hp)))) (leg_item T H h).2

theorem leg_entryList {l : List GraphPatternAndTriples} (h : WsList (CEntry cG) l s) :
    Leg S false (.star (.n .graphPatternNotTriples ⬩ maybe (.p c!".") ⬩ maybe (.n .triplesBlock))) s :=
  (Leg.manyC (S := S) (fun _ _ ⟨_, _, e, hu, hw⟩ => e ▸ ⟨Leg.tail1 (leg_groupEntry T H hu) hw, Cl.append hw.1.cl hw.2⟩) h.2).1

theorem leg_group {g : GroupGraphPattern} (h : CGroup cG g s) : Leg S false (.n .groupGraphPattern) s ∧ Op s ∧ Cl s := by
  cases h with
  | empty hw =>
    exact ⟨.n (.braces (.right ((Leg.ws hw (Leg.n (y := .groupGraphPatternSub) (.skipM .stop))).cast (by simp)))), .cons (by decide), cl_close (by decide)⟩
  | patterns hw h hw' =>
    refine ⟨.n ((Leg.braces (.right (.ws hw (.tail (.n (.endS (.left (leg_patterns T h)))) hw')))).cast (by simp)), .cons (by decide), ?_⟩
    simpa using cl_close (c := '{') (d := '}') (s := _ ++ (_ ++ _)) (by decide)
  | items hw h =>
    refine ⟨.n ((Leg.braces (.right (.ws hw (.n (.skipM (leg_entryList T H h).up))))).cast (by simp)), .cons (by decide), ?_⟩
    simpa using cl_close (c := '{') (d := '}') (s := _ ++ _) (by decide)
  | both hw h hw' h' =>
    refine ⟨.n ((Leg.braces (.right (.ws hw (.n (.seq (.left (leg_patterns T h)) (.ws hw'.1 (leg_entryList T H h').up) hw'.op))))).cast (by simp)),
      .cons (by decide), ?_⟩
    simpa using cl_close (c := '{') (d := '}') (s := _ ++ (_ ++ (_ ++ _))) (by decide)
  | select hw h =>
    refine ⟨.n ((Leg.braces (.left (.ws hw (leg_subSelect T H h).up))).cast (by simp)), .cons (by decide), ?_⟩
    simpa using cl_close (c := '{') (d := '}') (s := _ ++ _) (by decide)

end

/-- Canonical groups in a tidy text are groups of SPARQL 1.1. -/
theorem leg_cGroup (T : Tidy S) (g : GroupGraphPattern) (s : Str) (h : cGroup g s) : Leg S false (.n .groupGraphPattern) s ∧ Op s ∧ Cl s :=
  h (fun _ s => Leg S false (.n .groupGraphPattern) s ∧ Op s ∧ Cl s) fun _ _ h => leg_group T (fun _ _ h => h) h

end NomSparql
