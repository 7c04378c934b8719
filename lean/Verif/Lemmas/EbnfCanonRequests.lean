import Verif.Spec.CanonUpdate
import Verif.Lemmas.EbnfCanonGroups

/-!
# Canonical queries and updates in the grammar of SPARQL 1.1
-/

namespace NomSparql

open Ebnf

variable {S : Str} {x : Bool} {s t w : Str}

section
variable (T : Tidy S)
include T

/-! ## Queries -/

theorem leg_dataSets {l : List DataSetClause} (h : cDataSets l s) : Leg S false (.star (.n .datasetClause)) s ∧ Cl s :=
  Leg.manyC (S := S) (fun _ _ ⟨_, _, e, hu, hw⟩ => e ▸ ⟨Leg.tail1 (leg_dataset T hu) hw, Cl.append hw.1.cl hw.2⟩) h

/-- Dataset clauses, pattern and modifiers. -/
theorem leg_rest {l : List DataSetClause} {g : GroupGraphPattern} {m : SolutionModifier}
    (h : (cDataSets l ⬝ cWhere cGroup g ⬝ Ws ⬝ cModifier cGroup m) s) :
    Leg S false (.star (.n .datasetClause) ⬩ .n .whereClause ⬩ .n .solutionModifier) s := by
  obtain ⟨a, _, rfl, ha, b, _, rfl, hb, w, c, rfl, hw, hc⟩ := h
  have ha := leg_dataSets T ha
  have hb := leg_where (x := false) (leg_cGroup T) hb
  exact .seqC ha.1 (.seqC hb.1 (.ws hw (leg_modifier T (leg_cGroup T) hc)) hb.2.1) ha.2

theorem leg_constructTemplate {l : List TriplesSameSubject} (h : cConstructTemplate l s) : Leg S x (.n .constructTemplate) s ∧ Cl s := by
  obtain ⟨_, _, rfl, rfl, w, _, rfl, hw, u, _, rfl, hu, w', _, rfl, hw', rfl⟩ := h
  have hu : Leg S true (maybe (.n .constructTriples)) u := by
    rcases hu with ⟨_, rfl⟩ | hu
    · exact .none
    · exact .left (leg_dots0 T (X := .constructTriples) rfl (fun _ _ h => leg_triples1 T h) hu)
  constructor
  · exact .n ((Leg.braces (.ws hw (.tail hu hw'))).cast (by simp))
  · simpa using cl_close (c := '{') (d := '}') (s := w ++ (u ++ w')) (by decide)

theorem leg_query {q : SparqlQuery} (h : cQuery cGroup q s) :
    Leg S false (.n .selectQuery ⫾ .n .constructQuery ⫾ .n .describeQuery ⫾ .n .askQuery) s := by
  match q, h with
  | .select q, h =>
    obtain ⟨a, _, rfl, ha, w, r, rfl, hw, hr⟩ := h
    exact .left (.n (.seq (leg_selectClause T (leg_cGroup T) ha) (.ws hw.1 (leg_rest T hr)) hw.op))
  | .ask q, h =>
    obtain ⟨k, _, rfl, hk, w, r, rfl, hw, hr⟩ := h
    exact .right (.right (.right (.n (.seq (.k hk) (.ws hw.1 (leg_rest T hr)) hw.op))))
  | .describe q, h =>
    obtain ⟨k, _, rfl, hk, w, _, rfl, hw, a, _, rfl, ha, b, _, rfl, hb, c, d, rfl, hc, hd⟩ := h
    have ha : Leg S false (plus (.n .varOrIri) ⫾ .p c!"*") a ∧ Cl a := by
      obtain ⟨_, v, _, _⟩ := q
      cases v with
      | varIri l =>
        have := Leg.wsList (S := S) (fun _ _ h => leg_varOrIri T h) ha
        exact ⟨.left this.1, this.2⟩
      | all =>
        obtain ⟨_, w', rfl, rfl, hw'⟩ := ha
        exact ⟨.right (.tail .p hw'.1), .append hw'.1.cl hw'.2⟩
    have hb := leg_dataSets T hb
    have hc1 : Leg S false (maybe (.n .whereClause)) c := .opt (fun _ _ ⟨_, _, e, hu, hw⟩ => e ▸ .tail (leg_where (leg_cGroup T) hu).1 hw) hc
    have hc2 : Cl c := opt_cl (fun _ _ ⟨_, _, e, hu, hw⟩ => e ▸ .append' (leg_where (x := false) (leg_cGroup T) hu).2.1 hw.cl) hc
    exact .right (.right (.left (.n (.seq (.k hk) (.ws hw.1 (.seqC ha.1 (.seqC hb.1 (.seqC hc1 (leg_modifier T (leg_cGroup T) hd) hc2) hb.2) ha.2)) hw.op))))
  | .construct (.subConstruct q), h =>
    obtain ⟨k, _, rfl, hk, w, _, rfl, hw, a, _, rfl, ha, w', r, rfl, hw', hr⟩ := h
    have ha := leg_constructTemplate (x := false) T ha
    exact .right (.left (.n (.seq (.k hk) (.ws hw.1 (.left (.seqC ha.1 (.ws hw'.1 (leg_rest T hr)) ha.2))) hw.op)))
  | .construct (.subTriples q), h =>
    obtain ⟨k, _, rfl, hk, w, _, rfl, hw, a, _, rfl, ha, k', _, rfl, hk', w', _, rfl, hw', b, _, rfl, hb, w2, c, rfl, hw2, hc⟩ := h
    have ha := leg_dataSets T ha
    obtain ⟨_, _, rfl, rfl, w3, _, rfl, hw3, u, _, rfl, hu, w4, _, rfl, hw4, rfl⟩ := hb
    have hu : Leg S true (maybe (.n .triplesTemplate)) (w3 ++ (u ++ w4)) := .ws hw3 (.tail (.opt (fun _ _ h => leg_template T h) hu) hw4)
    have hb : Leg S false (.p c!"{" ⬩ maybe (.n .triplesTemplate) ⬩ .p c!"}" ⬩ .n .solutionModifier) ('{' :: ((w3 ++ (u ++ w4)) ++ '}' :: (w2 ++ c))) :=
      .pc (.seq hu (.pc (.ws hw2 (leg_modifier T (leg_cGroup T) hc)) (by decide)) (.cons (by decide))) (by decide)
    have : Leg S false (rule .constructQuery) (k ++ (w ++ (a ++ (k' ++ (w' ++ '{' :: ((w3 ++ (u ++ w4)) ++ '}' :: (w2 ++ c))))))) :=
      .seq (.k hk) (.ws hw.1 (.right (.seqC ha.1 (.seq (.k hk') (.ws hw'.1 hb) hw'.op) ha.2))) hw.op
    exact .right (.left (.n (this.cast (by simp))))

theorem leg_queryStmt {q : SparqlQueryStatement} (h : cQueryStmt q s) : Leg S false (.n .query) s := by
  obtain ⟨_, a, _, rfl, ha, w, b, rfl, hw, hb⟩ := h
  have ha := leg_prologue T ha
  exact .n (.seqC ha.1 (.ws hw (.endR (leg_query T hb) (.n (.right .nothing)))) ha.2)

/-! ## Updates -/

theorem leg_graphRef {i : Iri} (h : cGraphRef i s) : Leg S true (.n .graphRef) s := by
  obtain ⟨k, _, rfl, hk, w, u, rfl, hw, hu⟩ := h
  exact .n (.seq (.k hk) (.ws hw.1 (leg_iri T hu)) hw.op)

theorem leg_graphOrDefault {g : GraphOrDefault} (h : cGraphOrDefault g s) : Leg S true (.n .graphOrDefault) s := by
  cases g with
  | default => exact .n (.left (.k h))
  | graph i =>
    rcases h with ⟨k, _, rfl, hk, w, u, rfl, hw, hu⟩ | ⟨h, _⟩
    · exact .n (.right (.seq (.left (.k hk)) (.ws hw.1 (leg_iri T hu)) hw.op))
    · exact .n (.right (.skipM (leg_iri T h)))

theorem leg_graphRefAll {g : GraphRefAll} (h : cGraphRefAll g s) : Leg S true (.n .graphRefAll) s := by
  cases g with
  | graphRef i => exact .n (.left (leg_graphRef T h))
  | default => exact .n (.right (.left (.k h)))
  | named => exact .n (.right (.right (.left (.k h))))
  | all => exact .n (.right (.right (.right (.k h))))

theorem leg_statement {u : UpdateStatement} (h : cStatement cGroup u s) : Leg S true (.n .update1) s := by
  match u, h with
  | .load st, h =>
    obtain ⟨k, _, rfl, hk, w, _, rfl, hw, a, _, rfl, ha, b, c, rfl, hb, hc⟩ := h
    have ha := leg_silent (S := S) ha
    have hc1 : Leg S true (maybe (.k c!"into" ⬩ .n .graphRef)) c ∧ NW c := by
      refine ⟨.opt ?_ hc, opt_nw ?_ hc⟩
      · rintro _ _ ⟨w1, _, rfl, hw1, k', _, rfl, hk', w2, u, rfl, hw2, hu⟩
        exact .ws hw1.1 (.seq (.k hk') (.ws hw2.1 (leg_graphRef T hu)) hw2.op)
      · rintro _ _ ⟨w1, _, rfl, hw1, _⟩
        exact hw1.op.nw
    exact .n (.pick 0 rfl (.n (.seq (.k hk) (.ws hw.1 (.seqC ha.1 (.seq0 (leg_iri T hb) hc1.1 hc1.2) ha.2)) hw.op)))
  | .clear st, h =>
    obtain ⟨k, _, rfl, hk, w, _, rfl, hw, a, b, rfl, ha, hb⟩ := h
    have ha := leg_silent (S := S) ha
    exact .n (.pick 1 rfl (.n (.seq (.k hk) (.ws hw.1 (.seqC ha.1 (leg_graphRefAll T hb) ha.2)) hw.op)))
  | .drop st, h =>
    obtain ⟨k, _, rfl, hk, w, _, rfl, hw, a, b, rfl, ha, hb⟩ := h
    have ha := leg_silent (S := S) ha
    exact .n (.pick 2 rfl (.n (.seq (.k hk) (.ws hw.1 (.seqC ha.1 (leg_graphRefAll T hb) ha.2)) hw.op)))
  | .create st, h =>
    obtain ⟨k, _, rfl, hk, w, _, rfl, hw, a, b, rfl, ha, hb⟩ := h
    have ha := leg_silent (S := S) ha
    exact .n (.pick 6 rfl (.n (.seq (.k hk) (.ws hw.1 (.seqC ha.1 (leg_graphRef T hb) ha.2)) hw.op)))
  | .copy st, h =>
    obtain ⟨k, _, rfl, hk, w, _, rfl, hw, a, _, rfl, ha, b, _, rfl, hb, w1, _, rfl, hw1, k', _, rfl, hk', w2, c, rfl, hw2, hc⟩ := h
    have ha := leg_silent (S := S) ha
    exact .n (.pick 5 rfl (.n (.seq (.k hk) (.ws hw.1 (.seqC ha.1 (.seq (leg_graphOrDefault T hb) (.ws hw1.1 (.seq (.k hk')
      (.ws hw2.1 (leg_graphOrDefault T hc)) hw2.op)) hw1.op) ha.2)) hw.op)))
  | .insertData q, h =>
    obtain ⟨k, _, rfl, hk, w, _, rfl, hw, k', _, rfl, hk', w', u, rfl, hw', hu⟩ := h
    exact .n (.pick 7 rfl (.n (.seq (.k hk) (.ws hw.1 (.seq (.k hk') (.ws hw'.1 (.n (leg_quads T hu).1)) hw'.op)) hw.op)))
  | .deleteData q, h =>
    obtain ⟨k, _, rfl, hk, w, _, rfl, hw, k', _, rfl, hk', w', u, rfl, hw', hu⟩ := h
    exact .n (.pick 8 rfl (.n (.seq (.k hk) (.ws hw.1 (.seq (.k hk') (.ws hw'.1 (.n (leg_quads T hu).1)) hw'.op)) hw.op)))
  | .deleteWhere q, h =>
    obtain ⟨k, _, rfl, hk, w, _, rfl, hw, k', _, rfl, hk', w', u, rfl, hw', hu⟩ := h
    exact .n (.pick 9 rfl (.n (.seq (.k hk) (.ws hw.1 (.seq (.k hk') (.ws hw'.1 (.n (leg_quads T hu).1)) hw'.op)) hw.op)))
  | .modify ⟨none, .insert q, l, G⟩, h =>
    obtain ⟨k, _, rfl, hk, w, _, rfl, hw, a, _, rfl, ha, w1, _, rfl, hw1, b, _, rfl, hb, w2, _, rfl, hw2, k', _, rfl, hk', w3, c, rfl, hw3, hc⟩ := h
    have hb : Leg S true (.star (.n .usingClause)) b := by
      cases l with
      | nil => cases hb
      | cons y l => exact .sepWs0 (R := cUsingClause) (l := y :: l) (fun _ _ h => leg_using T h) hb
    have hq := leg_quads (x := false) T ha
    have hi : Leg S false (.n .insertClause) (k ++ (w ++ a)) := .n (.seq (.k hk) (.ws hw.1 (.n hq.1)) hw.op)
    have ne := opens_ne hq.2.1
    have : Leg S true (rule .modify) ((k ++ (w ++ a)) ++ (w1 ++ (b ++ (w2 ++ (k' ++ (w3 ++ c)))))) :=
      .skipM (.seqC (.right hi) (.ws hw1 (.seq hb (.ws hw2.1 (.seq (.k hk') (.ws hw3.1 (leg_cGroup T _ _ hc).1.up) hw3.op)) hw2.op))
        (.append (.append hq.2.2 ne) (by simp [ne])))
    exact .n (.pick 10 rfl (.n (this.cast (by simp))))

theorem leg_update : ∀ {u : Update} {s : Str}, cUpdate cGroup u s → Leg S true (.n .update) s
  | .mk _ none none, _, h => .n (.endM (leg_prologue T h).1.up)
  | .mk _ (some _) none, _, h => by
    obtain ⟨a, _, rfl, ha, w, b, rfl, hw, hb⟩ := h
    have ha := leg_prologue T ha
    exact .n (.seqC ha.1 (.left (.ws hw (.endM (leg_statement T hb)))) ha.2)
  | .mk _ (some _) (some _), _, h => by
    obtain ⟨a, _, rfl, ha, w, _, rfl, hw, b, _, rfl, hb, w1, _, rfl, hw1, _, _, rfl, rfl, w2, c, rfl, hw2, hc⟩ := h
    have ha := leg_prologue T ha
    have hc : Leg S true (.p c!";" ⬩ .n .update) (';' :: (w2 ++ c)) := .pc (.ws hw2 (leg_update hc)) (by decide)
    exact .n (.seqC ha.1 (.left (.ws hw (.seq (leg_statement T hb) (.left (.ws hw1 hc)) (hw1.nw.op (.cons (by decide)))))) ha.2)
  | .mk _ none (some _), _, h => h.elim

end

/-- Canonical tidy queries are legal. -/
theorem canon_query_legal {q : SparqlQueryStatement} (h : cQueryStmt q s) (T : Tidy s) : LegalQuery s :=
  leg_queryStmt T h [] [] (by simp) (by rintro ⟨⟩)

/-- Canonical tidy update requests are legal. -/
theorem canon_update_legal {u : Update} (h : cUpdate cGroup u s) (T : Tidy s) : LegalUpdate s :=
  leg_update T h [] [] (by simp) fun _ => .nil

end NomSparql
