import Verif.Props.C33_C37
import Verif.Lemmas.GroupsMono
import Verif.Lemmas.WsLists

/-!
# The crate accepts the canonical queries
-/

namespace NomSparql

/-! ## Lists that nothing follows -/

theorem ws_stuck_loop {p : P α} {R : α → Lang} (hacc : ∀ a s r, R a s → Follow r → p (s ++ r) = .ok r a) (hR : ∀ a s x, R a s → Start (s ++ x))
    {r : Str} (hr : Follow r) (hn : ¬ StartsWs r) : ∀ {l s n}, Many (fun a => Ws1 ⬝ R a) l s → (s ++ r).length < n →
      Fails (sepLoop sp p n) (s ++ r) ∧ Follow (s ++ r) := by
  intro l
  induction l with
  | nil =>
    rintro s n rfl h
    cases n with
    | zero => cases h
    | succ n => exact ⟨sepLoop_stuck hn, hr⟩
  | cons a l ih =>
    rintro s n ⟨_, y, rfl, ⟨w, t, rfl, hw, ht⟩, hy⟩ h
    simp only [List.append_assoc, List.length_append] at h ⊢
    have hlen : w.length ≠ 0 := by
      intro e; exact hw.2 (List.length_eq_zero_iff.mp e)
    refine ⟨?_, (hR a t (y ++ r) ht).follow hw⟩
    cases n with
    | zero => cases h
    | succ n =>
      obtain ⟨⟨pos, k, g1⟩, g2⟩ := ih hy (n := n) (by simp only [List.length_append]; omega)
      refine ⟨pos, k, ?_⟩
      unfold sepLoop
      rw [sp_eval hw.1 (hR a t _ ht).1]
      simp only
      rw [if_neg (fun e => by have := congrArg List.length e; simp only [List.length_append] at this; omega), hacc a t _ ht g2]
      simp only
      rw [if_neg (fun e => by have := congrArg List.length e; simp only [List.length_append] at this; omega), g1]

/-- A list in which every element is read, and that ends where no white space follows, is rejected. -/
theorem ws_stuck {p : P α} {R : α → Lang} (hacc : ∀ a s r, R a s → Follow r → p (s ++ r) = .ok r a) (hR : ∀ a s x, R a s → Start (s ++ x))
    {r : Str} (hr : Follow r) (hn : ¬ StartsWs r) {l : List α} {s : Str} (h : Sep1 Ws1 R l s) : Fails (separatedNonemptyList sp p) (s ++ r) ∧ Start (s ++ r) := by
  cases l with
  | nil => exact h.elim
  | cons a l =>
    obtain ⟨t, y, rfl, ht, hy⟩ := h
    rw [List.append_assoc]
    refine ⟨?_, hR a t _ ht⟩
    obtain ⟨⟨pos, k, g1⟩, g2⟩ := ws_stuck_loop hacc hR hr hn hy (n := (y ++ r).length + 1) (by omega)
    unfold Fails separatedNonemptyList
    rw [hacc a t _ ht g2]
    by_cases e : y ++ r = t ++ (y ++ r)
    · exact ⟨y ++ r, .SeparatedList, by simp only; rw [if_pos e]⟩
    · exact ⟨pos, k, by simp only; rw [if_neg e, g1]⟩

/-! ## Parts of queries -/

/-- What may follow dataset clauses and DESCRIBE targets. -/
def PartEnd (x : Str) : Prop := (∃ t, x = '{' :: t) ∨ KwEnd [c!"where", c!"group", c!"having", c!"order", c!"limit", c!"offset", c!"values"] x

theorem PartEnd.start {x : Str} (h : PartEnd x) : Start x := by
  rcases h with ⟨t, rfl⟩ | h
  · exact Start.cons (by decide)
  · exact h.start (by decide)

theorem PartEnd.from {x : Str} (h : PartEnd x) : Fails dataSetClause x := by
  refine Fails.preceded (Fails.terminated ?_)
  rcases h with ⟨t, rfl⟩ | h
  · exact First.cons rfl
  · exact h.tag (by decide) First.nil fun r => First.cons rfl

theorem datasets_eval {l : List DataSetClause} {s x : Str} (h : cDataSets l s) (hx : PartEnd x) :
    (∃ w, Ws w ∧ dataSetClauses (s ++ x) = .ok (w ++ x) l) ∧ Start (s ++ x) := by
  cases l with
  | nil => obtain rfl := h; exact ⟨⟨[], .nil, Fails.sep0 hx.from⟩, hx.start⟩
  | cons d l =>
    obtain ⟨⟨w, hw, h1⟩, h2⟩ := ws_list (p := dataSetClause) (E := Start) (fun a s w x h hw hx => C25_from a s _ h (hx.follow hw))
      (fun a s x h => by obtain ⟨k, y, rfl, hk, _⟩ := h; rw [List.append_assoc]; exact Start.kw hk (by decide)) (fun _ h => h.1) hx.start hx.from ⟨List.cons_ne_nil d l, h⟩
    refine ⟨⟨w, hw.1, ?_⟩, h2⟩
    obtain ⟨a, l', j, e, g1, g2, g3⟩ := separatedNonemptyList_ok.mp h1
    exact separatedList_ok.mpr (.inr ⟨a, l', j, e, g1, g2, g3⟩)

section
variable {cG : GroupGraphPattern → Lang}

theorem where_part (hG : ∀ g s, cG g s → ReadsAs groupGraphPattern s g) {g : GroupGraphPattern} {s : Str} (h : cWhere cG g s) (r : Str) :
    PartEnd (s ++ r) := by
  obtain ⟨a, b, rfl, ha, hb⟩ := h
  rcases ha with rfl | ⟨k, w, rfl, hk, hw⟩
  · obtain ⟨t, rfl⟩ := (hG _ _ hb).brace
    exact .inl ⟨_, rfl⟩
  · refine .inr (.inr (.inr ⟨_, k, w ++ (b ++ r), by simp, hk, by simp, (brace_start (hG _ _ hb) r).follow hw⟩))

theorem modifier_part (hG : ∀ g s, cG g s → ReadsAs groupGraphPattern s g) {m : SolutionModifier} {s x : Str} (h : cModifier cG m s)
    (hx : KwEnd [c!"values"] x) : PartEnd (s ++ x) := by
  obtain ⟨o, g, hv, l⟩ := m
  obtain ⟨sg, _, rfl, h1, sh, _, rfl, h2, so, sl, rfl, h3, h4⟩ := h
  simp only [List.append_assoc]
  exact .inr ((groupPart h1 (havingPart hG h2 (orderPart h3 (limitPart h4 hx)))).mono (by decide))

theorem selectQuery_eval (hG : ∀ g s, cG g s → ReadsAs groupGraphPattern s g) {q : SelectQuery} {s x : Str} (h : cSelectQuery cG q s)
    (hx : KwEnd [c!"values"] x) : ∃ w, Ws w ∧ selectQuery (s ++ x) = .ok (w ++ x) q := by
  obtain ⟨c, d, g, m⟩ := q
  obtain ⟨sc, _, rfl, hc, w1, _, rfl, hw1, sd, _, rfl, hd, sg, _, rfl, hg, w2, sm, rfl, hw2, hm⟩ := h
  simp only [List.append_assoc] at *
  obtain ⟨n1, w, hw, h1⟩ := modifier_eval hG hm hx
  obtain ⟨h2, n2⟩ := where_eval hG hg (w2 ++ (sm ++ x))
  obtain ⟨⟨w3, hw3, h3⟩, n3⟩ := datasets_eval hd (where_part hG hg (w2 ++ (sm ++ x)))
  exact ⟨w, hw, map_eval (a := (c, d, g, m)) (f := fun x => SelectQuery.mk x.1 x.2.1 x.2.2.1 x.2.2.2)
    (tuple4_eval (terminated_eval (selectClause_eval hG hc hw1 _) (sp1_eval hw1 n3.1)) h3
      (delimited_eval (sp_eval hw3 n2.1) h2 (sp_eval hw2 n1.1)) h1)⟩

theorem askQuery_eval (hG : ∀ g s, cG g s → ReadsAs groupGraphPattern s g) {q : AskQuery} {s x : Str} (h : cAskQuery cG q s)
    (hx : KwEnd [c!"values"] x) : ∃ w, Ws w ∧ askQuery (s ++ x) = .ok (w ++ x) q := by
  obtain ⟨d, g, m⟩ := q
  obtain ⟨k, _, rfl, hk, w1, _, rfl, hw1, sd, _, rfl, hd, sg, _, rfl, hg, w2, sm, rfl, hw2, hm⟩ := h
  simp only [List.append_assoc] at *
  obtain ⟨n1, w, hw, h1⟩ := modifier_eval hG hm hx
  obtain ⟨h2, n2⟩ := where_eval hG hg (w2 ++ (sm ++ x))
  obtain ⟨⟨w3, hw3, h3⟩, n3⟩ := datasets_eval hd (where_part hG hg (w2 ++ (sm ++ x)))
  exact ⟨w, hw, map_eval (a := (k, d, g, m)) (f := fun x => AskQuery.mk x.2.1 x.2.2.1 x.2.2.2)
    (tuple4_eval (terminated_eval (kw_eval hk) (sp1_eval hw1 n3.1)) (terminated_eval h3 (sp_eval hw3 n2.1))
      (terminated_eval h2 (sp_eval hw2 n1.1)) h1)⟩

/-! ## DESCRIBE -/

/-- What may follow DESCRIBE targets. -/
def TargetEnd (x : Str) : Prop :=
  (∃ t, x = '{' :: t) ∨ KwEnd [c!"from", c!"where", c!"group", c!"having", c!"order", c!"limit", c!"offset", c!"values"] x

theorem datasets_target {l : List DataSetClause} {s x : Str} (h : cDataSets l s) (hx : PartEnd x) : TargetEnd (s ++ x) := by
  cases l with
  | nil =>
    obtain rfl := h
    rcases hx with hx | hx
    · exact .inl hx
    · exact .inr (hx.mono (by decide))
  | cons d l =>
    obtain ⟨_, y, rfl, ⟨_, w2, rfl, ⟨k, _, rfl, hk, w, z, rfl, hw, hz⟩, hw2⟩, h2⟩ := h
    refine .inr (.inr (.inr ⟨_, k, w ++ (z ++ (w2 ++ (y ++ x))), by simp, hk, by simp, Follow.ws1_tok (cDefaultOrNamedIri_toks d) hw hz _⟩))

theorem TargetEnd.start {x : Str} (h : TargetEnd x) : Start x := by
  rcases h with ⟨t, rfl⟩ | h
  · exact Start.cons (by decide)
  · exact h.start (by decide)

theorem TargetEnd.fails {x : Str} (h : TargetEnd x) : Fails varOrIri x := by
  rcases h with ⟨t, rfl⟩ | rfl | ⟨t, rfl⟩ | ⟨u, k, r, rfl, hk, hu, hr⟩
  · exact First.cons rfl
  · exact First.nil
  · exact First.cons rfl
  · simp only [List.mem_cons, List.not_mem_nil, or_false] at hu
    rcases hu with rfl | rfl | rfl | rfl | rfl | rfl | rfl | rfl <;>
    exact Fails.alt_cons (Fails.map (kw_first hk rfl)) (Fails.map (iri_fails_kw hk (by decide) (by decide) hr))

theorem targets_eval {v : VarOrIrisOrAll} {s x : Str} (h : cTargets v s) (hx : TargetEnd x) :
    (∃ w, Ws1 w ∧ varOrIrisOrAll (s ++ x) = .ok (w ++ x) v) ∧ Start (s ++ x) := by
  cases v with
  | all =>
    obtain ⟨_, w, rfl, rfl, hw⟩ := h
    exact ⟨⟨w, hw, alt_eval2 (Fails.map (Fails.sep1 (First.cons rfl))) (map_eval (f := fun _ => VarOrIrisOrAll.all) char_eval)⟩, Start.cons (by decide)⟩
  | varIri l =>
    obtain ⟨⟨w, hw, h1⟩, h2⟩ := ws_list (p := varOrIri) (E := Start) (fun a s w x h hw hx => varOrIri_accepts a s _ h (hx.follow hw))
      (fun a s x h => varOrIri_start h x) (fun _ h => h.1) hx.start hx.fails h
    exact ⟨⟨w, hw, alt_eval1 (map_eval (f := VarOrIrisOrAll.varIri) h1)⟩, h2⟩

theorem describeQuery_eval (hG : ∀ g s, cG g s → ReadsAs groupGraphPattern s g) {q : DescribeQuery} {s x : Str} (h : cDescribeQuery cG q s)
    (hx : KwEnd [c!"values"] x) : ∃ w, Ws w ∧ describeQuery (s ++ x) = .ok (w ++ x) q := by
  obtain ⟨d, v, g, m⟩ := q
  obtain ⟨k, _, rfl, hk, w1, _, rfl, hw1, sv, _, rfl, hv, sd, _, rfl, hd, sg, sm, rfl, hg, hm⟩ := h
  simp only [List.append_assoc] at *
  obtain ⟨n1, w, hw, h1⟩ := modifier_eval hG hm hx
  have hp := modifier_part hG hm hx
  obtain ⟨h2, hp2⟩ : opt (terminated whereClause sp) (sg ++ (sm ++ x)) = .ok (sm ++ x) g ∧ PartEnd (sg ++ (sm ++ x)) := by
    cases g with
    | none =>
      obtain rfl := hg
      refine ⟨Fails.opt (Fails.terminated ?_), hp⟩
      obtain ⟨o, g, hv, l⟩ := m
      obtain ⟨sg, _, rfl, g1, sh, _, rfl, g2, so, sl, rfl, g3, g4⟩ := hm
      have h := groupPart g1 (havingPart hG g2 (orderPart g3 (limitPart g4 hx)))
      simp only [List.nil_append, List.append_assoc] at h ⊢
      have f1 : Fails (terminated (tagNoCase c!"where") sp1) (sg ++ (sh ++ (so ++ (sl ++ x)))) :=
        Fails.terminated (h.tag (by decide) First.nil fun r => First.cons rfl)
      refine Fails.preceded2 f1.opt ?_
      rcases h with h | ⟨t, h⟩ | ⟨u, k, r, h, hk, hu, hr⟩
      · rw [h]; exact First.nil
      · rw [h]; exact First.cons rfl
      · rw [h]
        simp only [List.mem_cons, List.not_mem_nil, or_false] at hu
        rcases hu with rfl | rfl | rfl | rfl | rfl | rfl <;> exact kw_first hk rfl
    | some g =>
      obtain ⟨sg, w2, rfl, hg, hw2⟩ := hg
      simp only [List.append_assoc]
      exact ⟨opt_eval (terminated_eval (where_eval hG hg _).1 (sp_eval hw2 n1.1)), where_part hG hg _⟩
  obtain ⟨⟨w3, hw3, h3⟩, n3⟩ := datasets_eval hd hp2
  obtain ⟨⟨w4, hw4, h4⟩, n4⟩ := targets_eval hv (datasets_target hd hp2)
  exact ⟨w, hw, map_eval (a := (k, v, d, g, m)) (f := fun x => DescribeQuery.mk x.2.2.1 x.2.1 x.2.2.2.1 x.2.2.2.2)
    (tuple5_eval (kw_eval hk) (delimited_eval (sp1_eval hw1 n4.1) h4 (sp1_eval hw4 n3.1)) (terminated_eval h3 (sp_eval hw3 hp2.start.1))
      h2 h1)⟩

/-! ## CONSTRUCT -/

theorem constructQuery_eval (hG : ∀ g s, cG g s → ReadsAs groupGraphPattern s g) {q : ConstructQuery} {s x : Str} (h : cConstructQuery cG q s)
    (hx : KwEnd [c!"values"] x) : ∃ w, Ws w ∧ constructQuery (s ++ x) = .ok (w ++ x) q := by
  rcases q with ⟨t, d, g, m⟩ | ⟨d, t, m⟩
  · obtain ⟨k, _, rfl, hk, w1, _, rfl, hw1, st, _, rfl, ht, w4, _, rfl, hw4, sd, _, rfl, hd, sg, _, rfl, hg, w2, sm, rfl, hw2, hm⟩ := h
    simp only [List.append_assoc] at *
    obtain ⟨n1, w, hw, h1⟩ := modifier_eval hG hm hx
    obtain ⟨h2, n2⟩ := where_eval hG hg (w2 ++ (sm ++ x))
    obtain ⟨⟨w3, hw3, h3⟩, n3⟩ := datasets_eval hd (where_part hG hg (w2 ++ (sm ++ x)))
    have nt : ∀ r, ¬ StartsWs (st ++ r) := by
      obtain ⟨_, _, rfl, rfl, _⟩ := ht
      exact fun r => not_startsWs_cons rfl
    exact ⟨w, hw, preceded_eval (terminated_eval (kw_eval hk) (sp1_eval hw1 (nt _))) (alt_eval1 (map_eval (f := ConstructQuery.subConstruct)
      (map_eval (a := (t, d, g, m)) (f := fun x => SubConstruct.mk x.1 x.2.1 x.2.2.1 x.2.2.2)
        (tuple4_eval (terminated_eval (C34_construct_template t st _ ht) (sp1_eval hw4 n3.1)) (terminated_eval h3 (sp_eval hw3 n2.1))
        (terminated_eval h2 (sp_eval hw2 n1.1)) h1))))⟩
  · obtain ⟨k, _, rfl, hk, w1, _, rfl, hw1, sd, _, rfl, hd, k', _, rfl, hk', w4, _, rfl, hw4, st, _, rfl, ht, w2, sm, rfl, hw2, hm⟩ := h
    simp only [List.append_assoc] at *
    obtain ⟨n1, w, hw, h1⟩ := modifier_eval hG hm hx
    have nt : Start (st ++ (w2 ++ (sm ++ x))) := by
      obtain ⟨_, _, rfl, rfl, _⟩ := ht
      exact Start.cons (by decide)
    have hp : PartEnd (k' ++ (w4 ++ (st ++ (w2 ++ (sm ++ x))))) := .inr (.inr (.inr ⟨_, k', _, rfl, hk', by simp, nt.follow hw4⟩))
    obtain ⟨⟨w3, hw3, h3⟩, n3⟩ := datasets_eval hd hp
    have hf : Fails (char '{') (sd ++ (k' ++ (w4 ++ (st ++ (w2 ++ (sm ++ x)))))) := by
      cases d with
      | nil => obtain rfl := hd; rw [List.nil_append]; exact kw_first hk' rfl
      | cons d l =>
        obtain ⟨_, y, rfl, ⟨_, w5, rfl, ⟨k5, _, rfl, hk5, _⟩, _⟩, _⟩ := hd
        simp only [List.append_assoc]
        exact kw_first hk5 rfl
    exact ⟨w, hw, preceded_eval (terminated_eval (kw_eval hk) (sp1_eval hw1 n3.1)) (alt_eval2
      (Fails.map (Fails.map (Fails.tuple4 (Fails.terminated (Fails.delimited (Fails.terminated hf))))))
      (map_eval (f := ConstructQuery.subTriples)
      (map_eval (a := (d, k', t, m)) (f := fun x => SubTriples.mk x.1 x.2.2.1 x.2.2.2)
        (tuple4_eval (terminated_eval h3 (sp_eval hw3 hp.start.1)) (terminated_eval (kw_eval hk') (sp1_eval hw4 nt.1))
        (block_accept t st _ ht) (preceded_eval (sp_eval hw2 n1.1) h1)))))⟩

/-! ## Whole queries -/

theorem query_eval (hG : ∀ g s, cG g s → ReadsAs groupGraphPattern s g) {q : SparqlQuery} {s x : Str} (h : cQuery cG q s)
    (hx : KwEnd [c!"values"] x) : (∃ w, Ws w ∧ sparqlQuery (s ++ x) = .ok (w ++ x) q) ∧
      ∃ u k t, s = k ++ t ∧ CaseVariant u k ∧ u ∈ [c!"ask", c!"select", c!"construct", c!"describe"] := by
  cases q with
  | select q =>
    refine ⟨?_, ?_⟩
    · obtain ⟨w, hw, h1⟩ := selectQuery_eval hG h hx
      exact ⟨w, hw, alt_eval1 (map_eval (f := SparqlQuery.select) h1)⟩
    · obtain ⟨c, d, g, m⟩ := q
      obtain ⟨a, b⟩ := c
      obtain ⟨_, _, rfl, ⟨k, _, rfl, hk, _⟩, _⟩ := h
      exact ⟨_, k, _, List.append_assoc .., hk, by simp⟩
  | construct q =>
    obtain ⟨k, t, rfl, hk⟩ : ∃ k t, s = k ++ t ∧ CaseVariant c!"construct" k := by
      cases q with
      | subConstruct q => obtain ⟨k, t, rfl, hk, _⟩ := h; exact ⟨k, t, rfl, hk⟩
      | subTriples q => obtain ⟨k, t, rfl, hk, _⟩ := h; exact ⟨k, t, rfl, hk⟩
    refine ⟨?_, _, k, t, rfl, hk, by simp⟩
    obtain ⟨w, hw, h1⟩ := constructQuery_eval hG h hx
    refine ⟨w, hw, alt_eval2 ?_ (alt_eval1 (map_eval (f := SparqlQuery.construct) h1))⟩
    rw [List.append_assoc]
    exact Fails.map (Fails.map (Fails.tuple4 (Fails.terminated (Fails.map (Fails.tuple3 (kw_fails hk (by decide)))))))
  | describe q =>
    obtain ⟨w, hw, h1⟩ := describeQuery_eval hG h hx
    obtain ⟨k, t, rfl, hk, _⟩ := h
    refine ⟨⟨w, hw, alt_eval2 ?_ (alt_eval2 ?_ (alt_eval1 (map_eval (f := SparqlQuery.describe) h1)))⟩, _, k, t, rfl, hk, by simp⟩
    · rw [List.append_assoc]
      exact Fails.map (Fails.map (Fails.tuple4 (Fails.terminated (Fails.map (Fails.tuple3 (kw_fails hk (by decide)))))))
    · rw [List.append_assoc]
      exact Fails.map (Fails.preceded (Fails.terminated (kw_fails hk (by decide))))
  | ask q =>
    obtain ⟨w, hw, h1⟩ := askQuery_eval hG h hx
    obtain ⟨k, t, rfl, hk, _⟩ := h
    refine ⟨⟨w, hw, alt_eval2 ?_ (alt_eval2 ?_ (alt_eval2 ?_ (map_eval (f := SparqlQuery.ask) h1)))⟩, _, k, t, rfl, hk, by simp⟩
    · rw [List.append_assoc]
      exact Fails.map (Fails.map (Fails.tuple4 (Fails.terminated (Fails.map (Fails.tuple3 (kw_fails hk (by decide)))))))
    · rw [List.append_assoc]
      exact Fails.map (Fails.preceded (Fails.terminated (kw_fails hk (by decide))))
    · rw [List.append_assoc]
      exact Fails.map (Fails.map (Fails.tuple5 (kw_fails hk (by decide))))

end

/-- A query after its prologue, read by the statement parser. -/
theorem stmt_front {p : Prologue} {ps w0 q : Str} (hp : cPrologue p ps) (hw0 : Ws w0)
    (hq : ∃ u k t, q = k ++ t ∧ CaseVariant u k ∧ u ∈ [c!"ask", c!"select", c!"construct", c!"describe"]) :
    terminated prologue sp (ps ++ (w0 ++ q)) = .ok q p := by
  obtain ⟨u, k, t, rfl, hk, hu⟩ := hq
  refine terminated_eval (C24_prologue p ps _ hp (noDecl hw0 hk hu)) (sp_eval hw0 ?_)
  simp only [List.mem_cons, List.not_mem_nil, or_false] at hu
  rcases hu with rfl | rfl | rfl | rfl <;> exact kw_not_ws hk (by decide)

theorem queryStmt_eval {q : SparqlQueryStatement} {s : Str} (h : cQueryStmt q s) : ∃ w, Ws w ∧ sparqlQueryStmt s = .ok w q := by
  obtain ⟨p, q, v⟩ := q
  obtain ⟨hv, ps, _, rfl, hp, w0, t, rfl, hw0, ht⟩ := h
  simp only at hv
  subst hv
  obtain ⟨⟨w, hw, h1⟩, h2⟩ := query_eval (fun _ _ h => cGroup_reads h) ht (x := []) (.inl rfl)
  simp only [List.append_nil] at h1
  refine ⟨w, hw, map_eval (a := (p, q, none)) (f := fun x => SparqlQueryStatement.mk x.1 x.2.1 x.2.2) (tuple3_eval (stmt_front hp hw0 h2) h1 ?_)⟩
  refine Fails.opt ?_
  by_cases hn : w = []
  · subst hn; exact Fails.preceded (sp1_fails not_startsWs_nil)
  · have := sp1_eval (w := w) (r := []) ⟨hw, hn⟩ not_startsWs_nil
    rw [List.append_nil] at this
    exact Fails.preceded2 this (Fails.preceded (Fails.terminated First.nil))

end NomSparql
