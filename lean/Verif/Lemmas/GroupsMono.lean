import Verif.Lemmas.Groups

/-!
# The canonical groups are closed

`cGroup` is the least relation closed under `CGroup`, so `CGroup cGroup` and `cGroup` agree.
-/

namespace NomSparql

variable {cG cH : GroupGraphPattern → Lang}

mutual
theorem CCall.mono (h : ∀ g s, cG g s → cH g s) : ∀ {c s}, CCall cG c s → CCall cH c s
  | _, _, .one h1 h2 h3 h4 h5 h6 => .one h1 h2 h3 (CExpr.mono h h4) h5 h6
  | _, _, .two h1 h2 h3 h4 h5 h6 h7 h8 => .two h1 h2 h3 (CExpr.mono h h4) h5 (CExpr.mono h h6) h7 h8
  | _, _, .bound h1 h2 h3 => .bound h1 h2 h3
  | _, _, .if h1 h2 h3 h4 h5 h6 h7 h8 => .if h1 h2 (CExpr.mono h h3) h4 (CExpr.mono h h5) h6 (CExpr.mono h h7) h8
  | _, _, .regex h1 h2 h3 h4 h5 h6 => .regex h1 h2 (CExpr.mono h h3) h4 (CExpr.mono h h5) h6
  | _, _, .regexFlags h1 h2 h3 h4 h5 h6 h7 h8 => .regexFlags h1 h2 (CExpr.mono h h3) h4 (CExpr.mono h h5) h6 (CExpr.mono h h7) h8
  | _, _, .exists h1 h2 h3 => .exists h1 h2 (h _ _ h3)
  | _, _, .notExists h1 h2 h3 h4 h5 => .notExists h1 h2 h3 h4 (h _ _ h5)
  | _, _, .aggregate h1 h2 h3 h4 h5 h6 h7 => .aggregate h1 h2 h3 h4 (CExpr.mono h h5) h6 h7
  | _, _, .count h1 h2 h3 h4 h5 => .count h1 h2 h3 (CExpr.mono h h4) h5
  | _, _, .countAll h1 h2 h3 => .countAll h1 h2 h3
  | _, _, .concat h1 h2 h3 h4 h5 => .concat h1 h2 h3 (CExpr.mono h h4) h5
  | _, _, .concatSep h1 h2 h3 h4 h5 => .concatSep h1 h2 h3 (CExpr.mono h h4) h5
theorem CPrim.mono (h : ∀ g s, cG g s → cH g s) : ∀ {c s}, CPrim cG c s → CPrim cH c s
  | _, _, .bracket h1 h2 h3 => .bracket h1 (CExpr.mono h h2) h3
  | _, _, .call h1 => .call (CCall.mono h h1)
  | _, _, .iri h1 => .iri h1
  | _, _, .function h1 h2 h3 => .function h1 h2 h3
  | _, _, .rdfLiteral h1 => .rdfLiteral h1
  | _, _, .numericLiteral h1 => .numericLiteral h1
  | _, _, .booleanLiteral h1 => .booleanLiteral h1
  | _, _, .var h1 => .var h1
theorem CUnary.mono (h : ∀ g s, cG g s → cH g s) : ∀ {c s}, CUnary cG c s → CUnary cH c s
  | _, _, .plain h1 => .plain (CPrim.mono h h1)
  | _, _, .not h1 h2 => .not h1 (CPrim.mono h h2)
  | _, _, .plus h1 h2 => .plus h1 (CPrim.mono h h2)
  | _, _, .minus h1 h2 => .minus h1 (CPrim.mono h h2)
theorem CFactors.mono (h : ∀ g s, cG g s → cH g s) : ∀ {c s}, CFactors cG c s → CFactors cH c s
  | _, _, .nil => .nil
  | _, _, .times h1 h2 h3 h4 => .times h1 (CUnary.mono h h2) h3 (CFactors.mono h h4)
  | _, _, .over h1 h2 h3 h4 => .over h1 (CUnary.mono h h2) h3 (CFactors.mono h h4)
theorem CProduct.mono (h : ∀ g s, cG g s → cH g s) : ∀ {c s}, CProduct cG c s → CProduct cH c s
  | _, _, .mk h1 h2 h3 h4 => .mk (CUnary.mono h h1) h2 h3 (CFactors.mono h h4)
theorem CMult.mono (h : ∀ g s, cG g s → cH g s) : ∀ {c s}, CMult cG c s → CMult cH c s
  | _, _, .one h1 => .one (CUnary.mono h h1)
  | _, _, .product h1 => .product (CProduct.mono h h1)
theorem CSummands.mono (h : ∀ g s, cG g s → cH g s) : ∀ {c s}, CSummands cG c s → CSummands cH c s
  | _, _, .nil => .nil
  | _, _, .plus h1 h2 h3 => .plus h1 (CProduct.mono h h2) (CSummands.mono h h3)
  | _, _, .minus h1 h2 h3 => .minus h1 (CProduct.mono h h2) (CSummands.mono h h3)
theorem CAdd.mono (h : ∀ g s, cG g s → cH g s) : ∀ {b c s}, CAdd cG b c s → CAdd cH b c s
  | _, _, _, .one h1 => .one (CMult.mono h h1)
  | _, _, _, .sum h1 h2 h3 h4 => .sum (CMult.mono h h1) h2 h3 (CSummands.mono h h4)
theorem COp.mono (h : ∀ g s, cG g s → cH g s) : ∀ {b b' c s}, COp cG b b' c s → COp cH b b' c s
  | _, _, _, _, .eq h1 h2 => .eq h1 (CAdd.mono h h2)
  | _, _, _, _, .ne h1 h2 => .ne h1 (CAdd.mono h h2)
  | _, _, _, _, .lt h1 h2 => .lt h1 (CAdd.mono h h2)
  | _, _, _, _, .gt h1 h2 => .gt h1 (CAdd.mono h h2)
  | _, _, _, _, .le h1 h2 => .le h1 (CAdd.mono h h2)
  | _, _, _, _, .ge h1 h2 => .ge h1 (CAdd.mono h h2)
  | _, _, _, _, .in h1 h2 h3 => .in h1 h2 h3
  | _, _, _, _, .notIn h1 h2 h3 h4 h5 => .notIn h1 h2 h3 h4 h5
theorem CRel.mono (h : ∀ g s, cG g s → cH g s) : ∀ {b c s}, CRel cG b c s → CRel cH b c s
  | _, _, _, .one h1 => .one (CAdd.mono h h1)
  | _, _, _, .op h1 h2 h3 h4 => .op (CAdd.mono h h1) h2 h3 (COp.mono h h4)
theorem CAnd.mono (h : ∀ g s, cG g s → cH g s) : ∀ {b c s}, CAnd cG b c s → CAnd cH b c s
  | _, _, _, .one h1 => .one (CRel.mono h h1)
  | _, _, _, .and h1 h2 h3 h4 => .and (CRel.mono h h1) h2 h3 (CAnd.mono h h4)
theorem COr.mono (h : ∀ g s, cG g s → cH g s) : ∀ {b c s}, COr cG b c s → COr cH b c s
  | _, _, _, .one h1 => .one (CAnd.mono h h1)
  | _, _, _, .or h1 h2 h3 h4 => .or (CAnd.mono h h1) h2 h3 (COr.mono h h4)
theorem CExpr.mono (h : ∀ g s, cG g s → cH g s) : ∀ {b c s}, CExpr cG b c s → CExpr cH b c s
  | _, _, _, .mk h1 => .mk (COr.mono h h1)
end

theorem CBracket.mono (h : ∀ g s, cG g s → cH g s) {e s} : CBracket cG e s → CBracket cH e s
  | .mk h1 h2 h3 => .mk h1 (h2.mono h) h3

theorem CAsVar.mono (h : ∀ g s, cG g s → cH g s) {e s} : CAsVar cG e s → CAsVar cH e s
  | .mk h1 h2 h3 h4 h5 h6 h7 => .mk h1 (h2.mono h) h3 h4 h5 h6 h7

theorem CConstraint.mono (h : ∀ g s, cG g s → cH g s) {e s} : CConstraint cG e s → CConstraint cH e s
  | .bracket h1 => .bracket (h1.mono h)
  | .call h1 => .call (h1.mono h)
  | .function h1 h2 h3 => .function h1 h2 h3

theorem COrderCond.mono (h : ∀ g s, cG g s → cH g s) {e s} : COrderCond cG e s → COrderCond cH e s
  | .order h1 h2 h3 => .order h1 h2 (h3.mono h)
  | .constraint h1 => .constraint (h1.mono h)
  | .var h1 => .var h1

theorem CGroupCond.mono (h : ∀ g s, cG g s → cH g s) {e s} : CGroupCond cG e s → CGroupCond cH e s
  | .call h1 => .call (h1.mono h)
  | .function h1 h2 h3 => .function h1 h2 h3
  | .bracket h1 => .bracket (h1.mono h)
  | .asVar h1 h2 h3 h4 h5 h6 h7 => .asVar h1 (h2.mono h) h3 h4 h5 h6 h7
  | .var h1 => .var h1

theorem cat_mono {L L' M M' : Lang} (h1 : ∀ s, L s → L' s) (h2 : ∀ s, M s → M' s) {s : Str} : (L ⬝ M) s → (L' ⬝ M') s
  | ⟨x, y, e, hx, hy⟩ => ⟨x, y, e, h1 x hx, h2 y hy⟩

theorem many1_mono {R Q : α → Lang} (h : ∀ a s, R a s → Q a s) : ∀ {l s}, Many1 R l s → Many1 Q l s
  | [], _, hs => hs
  | _ :: _, _, ⟨x, y, e, hx, hy⟩ => ⟨x, y, e, h _ _ hx, many_mono h _ _ hy⟩

theorem WsList.mono {R Q : α → Lang} (h : ∀ a s, R a s → Q a s) {l s} (hs : WsList R l s) : WsList Q l s :=
  ⟨hs.1, many_mono (fun _ _ => cat_mono (h _) fun _ h => h) _ _ hs.2⟩

theorem cModifier_mono (h : ∀ g s, cG g s → cH g s) {m s} (hs : cModifier cG m s) : cModifier cH m s := by
  obtain ⟨o, g, v, l⟩ := m
  refine cat_mono (rOpt_mono ?_ _) (fun _ => cat_mono (rOpt_mono ?_ _) (fun _ => cat_mono (rOpt_mono ?_ _) fun _ h => h)) hs
  · rintro ⟨l⟩ s
    exact cat_mono (fun _ h => h) fun _ => cat_mono (fun _ h => h) fun _ => cat_mono (fun _ h => h) fun _ => cat_mono (fun _ h => h) fun _ => WsList.mono fun _ _ => CGroupCond.mono h
  · rintro ⟨l⟩ s
    exact cat_mono (fun _ h => h) fun _ => cat_mono (fun _ h => h) fun _ => WsList.mono fun _ _ => CConstraint.mono h
  · rintro ⟨l⟩ s
    exact cat_mono (fun _ h => h) fun _ => cat_mono (fun _ h => h) fun _ => cat_mono (fun _ h => h) fun _ => cat_mono (fun _ h => h) fun _ => WsList.mono fun _ _ => COrderCond.mono h

theorem CProj.mono (h : ∀ g s, cG g s → cH g s) {e s} : CProj cG e s → CProj cH e s
  | .var h1 => .var h1
  | .expr h1 => .expr (h1.mono h)

theorem cSelectClause_mono (h : ∀ g s, cG g s → cH g s) {c s} (hs : cSelectClause cG c s) : cSelectClause cH c s := by
  obtain ⟨m, v⟩ := c
  refine cat_mono (fun _ h => h) (fun _ => cat_mono (fun _ h => h) fun _ => cat_mono (fun _ h => h) fun _ hv => ?_) hs
  cases v with
  | all => exact hv
  | varOrExpressionAsVar l => exact many1_mono (fun _ _ => CProj.mono h) hv

theorem cSubSelect_mono (h : ∀ g s, cG g s → cH g s) {q s} (hs : cSubSelect cG q s) : cSubSelect cH q s := by
  obtain ⟨c, g, m, v⟩ := q
  exact cat_mono (fun _ => cSelectClause_mono h) (fun _ => cat_mono (fun _ h => h) fun _ => cat_mono (fun _ => cat_mono (fun _ h => h) (h _))
    fun _ => cat_mono (fun _ h => h) fun _ => cat_mono (fun _ => cModifier_mono h) fun _ h => h) hs

theorem CItem.mono (h : ∀ g s, cG g s → cH g s) {e s} : CItem cG e s → CItem cH e s
  | .union h1 => .union (sep1_mono (fun _ h => h) h _ _ h1)
  | .optional h1 h2 h3 => .optional h1 h2 (h _ _ h3)
  | .minus h1 h2 h3 => .minus h1 h2 (h _ _ h3)
  | .graph h1 h2 h3 h4 h5 => .graph h1 h2 h3 h4 (h _ _ h5)
  | .service h1 h2 h3 h4 h5 h6 => .service h1 h2 h3 h4 h5 (h _ _ h6)
  | .filter h1 h2 h3 => .filter h1 h2 (h3.mono h)
  | .bind h1 h2 h3 => .bind h1 h2 (h3.mono h)
  | .inlineData h1 h2 h3 => .inlineData h1 h2 h3

theorem CEntry.mono (h : ∀ g s, cG g s → cH g s) {e s} : CEntry cG e s → CEntry cH e s
  | .plain h1 => .plain (h1.mono h)
  | .triples h1 h2 h3 h4 => .triples (h1.mono h) h2 h3 h4

theorem CGroup.mono (h : ∀ g s, cG g s → cH g s) {e s} : CGroup cG e s → CGroup cH e s
  | .empty h1 => .empty h1
  | .patterns h1 h2 h3 => .patterns h1 h2 h3
  | .items h1 h2 => .items h1 (h2.mono fun _ _ => CEntry.mono h)
  | .both h1 h2 h3 h4 => .both h1 h2 h3 (h4.mono fun _ _ => CEntry.mono h)
  | .select h1 h2 => .select h1 (cSubSelect_mono h h2)

theorem cGroup_intro {g s} (h : CGroup cGroup g s) : cGroup g s :=
  fun P hP => hP g s (h.mono fun _ _ hg => hg P hP)

/-- A canonical group is made of canonical parts. -/
theorem cGroup_iff {g s} : cGroup g s ↔ CGroup cGroup g s :=
  ⟨fun h => h (CGroup cGroup) fun _ _ h => h.mono fun _ _ => cGroup_intro, cGroup_intro⟩

end NomSparql
