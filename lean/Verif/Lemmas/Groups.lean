import Verif.Lemmas.Modifiers
import Verif.Props.C46_C50

/-!
# Canonical group graph patterns and sub-selects are accepted
-/

namespace NomSparql

variable {cG : GroupGraphPattern → Lang}

/-! ## Sub-selects -/

theorem proj_eval (hG : ∀ g s, cG g s → ReadsAs groupGraphPattern s g) {p : VarOrExpressionAsVar} {s r : Str} (h : CProj cG p s)
    (hr : NotStart CodedVarChar r) : varOrExpressionAsVarS R₀ (s ++ r) = .ok r p := by
  unfold varOrExpressionAsVarS
  cases h with
  | @var v s h =>
    obtain ⟨rfl, hn, hc⟩ := h
    exact alt_eval1 (map_eval (f := VarOrExpressionAsVar.var) (C12_roundtrip v r hn hc hr))
  | expr h =>
    have h' := asVar_eval hG h r
    obtain ⟨_, _, _, _, _, _, _⟩ := h
    exact alt_eval2 (First.cons (c := '(') rfl) (map_eval (f := VarOrExpressionAsVar.expressionAsVar) h')

theorem proj_head {p : VarOrExpressionAsVar} {s : Str} (h : CProj cG p s) : ∃ c t, s = c :: t ∧ (c = '?' ∨ c = '$' ∨ c = '(') := by
  cases h with
  | var h => obtain ⟨t, rfl | rfl⟩ := cVar_head h <;> exact ⟨_, _, rfl, by simp⟩
  | expr h => obtain ⟨_, _, _, _, _, _, _⟩ := h; exact ⟨_, _, rfl, by simp⟩

theorem ws1_head {w : Str} (hw : Ws1 w) : ∃ c t, w = c :: t ∧ wsStart c = true := by
  obtain ⟨hw, hne⟩ := hw
  cases w with
  | nil => contradiction
  | cons c t => exact ⟨c, t, rfl, ws_first hw _ _ rfl⟩

theorem ws_notVar {w : Str} (hw : Ws1 w) (x : Str) : NotStart CodedVarChar (w ++ x) := by
  obtain ⟨c, t, rfl, hc⟩ := ws1_head hw
  rcases wsStart_iff.mp hc with rfl | rfl | rfl | rfl | rfl <;> exact notStart_cons (not_coded (by simp)).1

theorem projs_run (hG : ∀ g s, cG g s → ReadsAs groupGraphPattern s g) {r : Str} (hr : NotStart CodedVarChar r) (hf : Fails (varOrExpressionAsVarS R₀) r) :
    ∀ {l s}, Many (CProj cG) l s → NotStart CodedVarChar (s ++ r) ∧ ManyRun (varOrExpressionAsVarS R₀) (s ++ r) r l := by
  intro l
  induction l with
  | nil =>
    rintro _ rfl
    obtain ⟨_, _, hf⟩ := hf
    exact ⟨hr, .stop hf⟩
  | cons a l ih =>
    rintro _ ⟨x, y, rfl, hx, hy⟩
    obtain ⟨h1, h2⟩ := ih hy
    have h3 := proj_eval hG hx h1
    rw [List.append_assoc]
    refine ⟨?_, .step h3 ?_ h2⟩
    · obtain ⟨c, t, rfl, rfl | rfl | rfl⟩ := proj_head hx <;> exact notStart_cons (by decide)
    · obtain ⟨c, t, rfl, _⟩ := proj_head hx
      exact append_ne_self (by simp)

theorem selectVars_eval (hG : ∀ g s, cG g s → ReadsAs groupGraphPattern s g) {v : SelectVars} {s w : Str} (h : cSelectVars cG v s)
    (hw : Ws1 w) (x : Str) : selectVarsS R₀ (s ++ (w ++ x)) = .ok (w ++ x) v ∧ ∃ c t, s = c :: t ∧ c ∈ ['*', '?', '$', '('] := by
  unfold selectVarsS
  cases v with
  | all => obtain rfl := h; exact ⟨alt_eval1 (map_eval (f := fun _ => SelectVars.all) char_eval), _, _, rfl, by simp⟩
  | varOrExpressionAsVar l =>
    cases l with
    | nil => exact h.elim
    | cons a l =>
      obtain ⟨y, z, rfl, hy, hz⟩ := h
      have hf : Fails (varOrExpressionAsVarS R₀) (w ++ x) := by
        obtain ⟨c, t, rfl, hc⟩ := ws1_head hw
        rcases wsStart_iff.mp hc with rfl | rfl | rfl | rfl | rfl <;> exact First.cons rfl
      obtain ⟨h1, h2⟩ := projs_run hG (ws_notVar hw x) hf hz
      have h3 := proj_eval hG hy h1
      rw [List.append_assoc]
      obtain ⟨c, t, rfl, hc⟩ := proj_head hy
      refine ⟨?_, _, _, rfl, by simp [hc]⟩
      refine alt_eval2 (First.cons ?_) (map_eval (f := SelectVars.varOrExpressionAsVar) (many1_ok.mpr ⟨a, l, _, rfl, h3, h2⟩))
      rcases hc with rfl | rfl | rfl <;> rfl

theorem selectClause_eval (hG : ∀ g s, cG g s → ReadsAs groupGraphPattern s g) {c : SelectClause} {s w : Str} (h : cSelectClause cG c s)
    (hw : Ws1 w) (x : Str) : selectClause (s ++ (w ++ x)) = .ok (w ++ x) c := by
  obtain ⟨m, v⟩ := c
  obtain ⟨k, _, rfl, hk, sm, _, rfl, hm, w1, sv, rfl, hw1, hv⟩ := h
  obtain ⟨h1, d, t, rfl, hd⟩ := selectVars_eval hG hv hw x
  simp only [List.append_assoc] at h1 ⊢
  have hn : ¬ StartsWs (d :: t ++ (w ++ x)) := by
    simp only [List.mem_cons, List.not_mem_nil, or_false] at hd
    rcases hd with rfl | rfl | rfl | rfl <;> exact not_startsWs_cons rfl
  refine map_eval (a := (k, m, v)) (f := fun x => SelectClause.mk x.2.1 x.2.2) (tuple3_eval (r2 := w1 ++ (d :: t ++ (w ++ x))) (kw_eval hk) ?_
    (preceded_eval (sp1_eval hw1 hn) h1))
  cases m with
  | none =>
    obtain rfl := hm
    rw [List.nil_append]
    refine Fails.opt (Fails.preceded2 (sp1_eval hw1 hn) ?_)
    simp only [List.mem_cons, List.not_mem_nil, or_false] at hd
    rcases hd with rfl | rfl | rfl | rfl <;> exact First.cons rfl
  | some m =>
    obtain ⟨w2, k2, rfl, hw2, hk2⟩ := hm
    simp only [List.append_assoc]
    refine opt_eval ?_
    cases m with
    | distinct => exact preceded_eval (sp1_eval hw2 (Start.kw hk2 (by decide)).1) (alt_eval1 (map_eval (f := fun _ => SelectModifier.distinct) (kw_eval hk2)))
    | reduced => exact preceded_eval (sp1_eval hw2 (Start.kw hk2 (by decide)).1) (alt_eval2 (kw_first hk2 rfl) (map_eval (f := fun _ => SelectModifier.reduced) (kw_eval hk2)))

theorem brace_start {g : GroupGraphPattern} {s : Str} (h : ReadsAs groupGraphPattern s g) (x : Str) : Start (s ++ x) := by
  obtain ⟨t, rfl⟩ := h.brace
  exact Start.cons (by decide)

theorem where_eval (hG : ∀ g s, cG g s → ReadsAs groupGraphPattern s g) {g : GroupGraphPattern} {s : Str} (h : cWhere cG g s) (r : Str) :
    whereClause (s ++ r) = .ok r g ∧ Start (s ++ r) := by
  obtain ⟨a, b, rfl, ha, hb⟩ := h
  have hb := hG _ _ hb
  rcases ha with rfl | ⟨k, w, rfl, hk, hw⟩
  · exact ⟨whereClause_brace hb, brace_start hb r⟩
  · simp only [List.append_assoc]
    exact ⟨preceded_eval (opt_eval (terminated_eval (kw_eval hk) (sp1_eval hw (brace_start hb r).1))) (hb r), Start.kw hk (by decide)⟩

theorem dataBlock_start {d : DataBlock} {s : Str} (h : cDataBlock d s) (r : Str) : Start (s ++ r) := by
  cases d with
  | inlineDataOneVar d =>
    obtain ⟨sv, _, rfl, hv, _⟩ := h
    obtain ⟨t, rfl | rfl⟩ := cVar_head hv <;> exact Start.cons (by decide)
  | inlineDataFull d =>
    obtain ⟨_, _, rfl, ⟨_, _, rfl, rfl, _⟩, _⟩ := h
    exact Start.cons (by decide)

theorem subSelect_eval (hG : ∀ g s, cG g s → ReadsAs groupGraphPattern s g) {q : SubSelect} {s : Str} (h : cSubSelect cG q s) (r : Str) :
    Start (s ++ '}' :: r) ∧ ∃ w, Ws w ∧ subSelect (s ++ '}' :: r) = .ok (w ++ '}' :: r) q := by
  obtain ⟨c, g, m, v⟩ := q
  obtain ⟨sc, _, rfl, hc, w1, _, rfl, hw1, sg, _, rfl, hg, w2, _, rfl, hw2, sm, sv, rfl, hm, hv⟩ := h
  simp only [List.append_assoc]
  have hend : ¬ StartsWs ('}' :: r) := not_startsWs_cons rfl
  obtain ⟨hx, w', hw', hvv⟩ : KwEnd [c!"values"] (sv ++ '}' :: r) ∧ ∃ w, Ws w ∧ valuesClause (sv ++ '}' :: r) = .ok (w ++ '}' :: r) v := by
    cases v with
    | none => obtain rfl := hv; exact ⟨.inr (.inl ⟨r, rfl⟩), [], .nil, Fails.opt (First.cons (c := '}') rfl)⟩
    | some d =>
      obtain ⟨k, _, rfl, hk, w, _, rfl, hw, sd, w', rfl, hd, hw'⟩ := hv
      simp only [List.append_assoc]
      exact ⟨.inr (.inr ⟨_, k, _, rfl, hk, by simp, (dataBlock_start hd _).follow hw⟩), w', hw', (C27_clause k w sd _ d hk hw hd).2⟩
  obtain ⟨hms, wm, hwm, hmm⟩ := modifier_eval hG hm hx
  obtain ⟨hg1, hg2⟩ := where_eval hG hg (w2 ++ (sm ++ (sv ++ '}' :: r)))
  refine ⟨?_, w', hw', map_eval (a := (c, g, m, v)) (f := fun x => SubSelect.mk x.1 x.2.1 x.2.2.1 x.2.2.2) (tuple4_eval
    (selectClause_eval hG hc hw1 _) (delimited_eval (sp_eval hw1.1 hg2.1) hg1 (sp_eval hw2 hms.1)) hmm
    (preceded_eval (sp_eval hwm (hx.start' (by decide)).1) hvv))⟩
  obtain ⟨m', v'⟩ := c
  obtain ⟨k, _, rfl, hk, _⟩ := hc
  simp only [List.append_assoc]
  exact Start.kw hk (by decide)

/-! ## Items -/

/-- No UNION follows. -/
def NoUnion (r : Str) : Prop := Fails (spEnc1 (tagNoCase c!"union")) r

theorem union_eval (hG : ∀ g s, cG g s → ReadsAs groupGraphPattern s g) {l : List GroupGraphPattern} {s r : Str} (h : Sep1 cUnion cG l s)
    (hr : NoUnion r) : groupOrUnionGraphPatternS R₀ (s ++ r) = .ok r l := by
  refine sep1_accept (E := fun _ => True) (Sp := cUnion) (R := cG) (fun g s r h _ => hG g s h r) ?_ ?_ ?_ (fun _ _ _ _ _ _ => trivial) trivial (.inl hr) h
  · intro g s h
    obtain ⟨t, rfl⟩ := (hG g s h).brace
    simp
  · rintro _ g s r ⟨w, _, rfl, hw, k, w', rfl, hk, hw'⟩ h
    simp only [List.append_assoc]
    exact ⟨_, delimited_eval (sp1_eval hw (Start.kw hk (by decide)).1) (kw_eval hk) (sp1_eval hw' (brace_start (hG g s h) r).1)⟩
  · rintro _ ⟨w, _, rfl, hw, _⟩ e
    exact hw.2 (List.append_eq_nil_iff.mp e).1

/-- The keywords of the items. -/
def itemKws : List Str := [c!"optional", c!"minus", c!"graph", c!"service", c!"filter", c!"bind", c!"values"]

/-- An item begins with a brace or a keyword. -/
def ItemHead (s : Str) : Prop := (∃ t, s = '{' :: t) ∨ ∃ u k r, s = k ++ r ∧ CaseVariant u k ∧ u ∈ itemKws ∧ ∀ x, Follow (r ++ x)

theorem varOrIri_start {v : VarOrIri} {t : Str} (h : cVarOrIri v t) (x : Str) : Start (t ++ x) := by
  obtain ⟨c, t, rfl, hc⟩ := cVarOrIri_toks v t h
  exact Start.cons ⟨hc.ws, hc.ne (by simp)⟩

theorem brace_follow {g : GroupGraphPattern} {s w : Str} (hw : Ws w) (h : ReadsAs groupGraphPattern s g) (x : Str) : Follow (w ++ (s ++ x)) := by
  obtain ⟨t, rfl⟩ := h.brace
  exact Follow.ws_close hw (by simp)

theorem silent_start {b : Bool} {y z : Str} (h : rSilent b y) (hz : Start z) : Start (y ++ z) := by
  cases b with
  | false => obtain rfl := h; exact hz
  | true =>
    obtain ⟨k, w, rfl, hk, hw⟩ := h
    rw [List.append_assoc]
    exact Start.kw hk (by decide)

theorem asVar_start {a : ExpressionAsVar} {s : Str} (h : CAsVar cG a s) (x : Str) : Start (s ++ x) := by
  obtain ⟨_, _, _, _, _, _, _⟩ := h
  exact Start.cons (by decide)

theorem item_head (hG : ∀ g s, cG g s → ReadsAs groupGraphPattern s g) {g : GraphPatternNotTriples} {s : Str} (h : CItem cG g s) : ItemHead s := by
  cases h with
  | @union l s h =>
    left
    cases l with
    | nil => exact h.elim
    | cons a l =>
      obtain ⟨x, y, rfl, hx, _⟩ := h
      obtain ⟨t, rfl⟩ := (hG _ _ hx).brace
      exact ⟨_, rfl⟩
  | optional hk hw h => exact .inr ⟨_, _, _, rfl, hk, by simp [itemKws], fun x => by rw [List.append_assoc]; exact brace_follow hw.1 (hG _ _ h) x⟩
  | minus hk hw h => exact .inr ⟨_, _, _, rfl, hk, by simp [itemKws], fun x => by rw [List.append_assoc]; exact brace_follow hw.1 (hG _ _ h) x⟩
  | graph hk hw hv hw' h => exact .inr ⟨_, _, _, rfl, hk, by simp [itemKws], fun x => by rw [List.append_assoc, List.append_assoc]; exact (varOrIri_start hv _).follow hw⟩
  | service hk hw hy hv hw' h => exact .inr ⟨_, _, _, rfl, hk, by simp [itemKws], fun x => by
      simp only [List.append_assoc]; exact (silent_start hy (varOrIri_start hv _)).follow hw⟩
  | filter hk hw h => exact .inr ⟨_, _, _, rfl, hk, by simp [itemKws], fun x => by rw [List.append_assoc]; exact (constraint_start hG h _).follow hw⟩
  | bind hk hw h => exact .inr ⟨_, _, _, rfl, hk, by simp [itemKws], fun x => by rw [List.append_assoc]; exact (asVar_start h _).follow hw⟩
  | inlineData hk hw h => exact .inr ⟨_, _, _, rfl, hk, by simp [itemKws], fun x => by rw [List.append_assoc]; exact (dataBlock_start h _).follow hw⟩

theorem item_eval (hG : ∀ g s, cG g s → ReadsAs groupGraphPattern s g) {g : GraphPatternNotTriples} {s r : Str} (h : CItem cG g s)
    (hr : NoUnion r) : graphPatternNotTriples (s ++ r) = .ok r g := by
  unfold graphPatternNotTriples graphPatternNotTriplesS
  cases h with
  | union h => exact alt_eval1 (map_eval (f := GraphPatternNotTriples.groupOrUnion) (union_eval hG h hr))
  | optional hk hw h =>
    simp only [List.append_assoc]
    refine alt_eval2 (kw_first hk rfl) (alt_eval1 ?_)
    exact map_eval (f := GraphPatternNotTriples.optional) (preceded_eval (terminated_eval (kw_eval hk) (sp1_eval hw (brace_start (hG _ _ h) _).1)) (hG _ _ h r))
  | minus hk hw h =>
    simp only [List.append_assoc]
    refine alt_eval2 (kw_first hk rfl) (alt_eval2 (kw_first hk rfl) (alt_eval1 ?_))
    exact map_eval (f := GraphPatternNotTriples.minus) (preceded_eval (terminated_eval (kw_eval hk) (sp1_eval hw (brace_start (hG _ _ h) _).1)) (hG _ _ h r))
  | @graph k w v t w' g s hk hw hv hw' h =>
    simp only [List.append_assoc]
    refine alt_eval2 (kw_first hk rfl) (alt_eval2 (kw_first hk rfl) (alt_eval2 (kw_first hk rfl) (alt_eval1 ?_)))
    exact map_eval (f := GraphPatternNotTriples.graph) (map_eval (a := (k, v, g)) (f := fun x => GraphGraphPattern.mk x.2.1 x.2.2) (tuple3_eval
      (terminated_eval (kw_eval hk) (sp1_eval hw (varOrIri_start hv _).1))
      (terminated_eval (varOrIri_accepts v t _ hv (brace_follow hw' (hG _ _ h) r)) (sp_eval hw' (brace_start (hG _ _ h) _).1)) (hG _ _ h r)))
  | @service k w b y v t w' g s hk hw hy hv hw' h =>
    simp only [List.append_assoc]
    refine alt_eval2 (kw_first hk rfl) (alt_eval2 (kw_first hk rfl) (alt_eval2 (kw_first hk rfl) (alt_eval2 (kw_first hk rfl) (alt_eval1 ?_))))
    have hv' := varOrIri_start hv (w' ++ (s ++ r))
    refine map_eval (f := GraphPatternNotTriples.service) (map_eval (a := (k, b, v, g)) (f := fun x => ServiceGraphPattern.mk x.2.2.1 x.2.1 x.2.2.2) (tuple4_eval
      (terminated_eval (kw_eval hk) (sp1_eval hw (silent_start hy hv').1)) (silent_eval hy hv'.1 ?_)
      (terminated_eval (varOrIri_accepts v t _ hv (brace_follow hw' (hG _ _ h) r)) (sp_eval hw' (brace_start (hG _ _ h) _).1)) (hG _ _ h r)))
    cases v with
    | var v => obtain ⟨x, rfl | rfl⟩ := cVar_head hv <;> exact Fails.terminated (Fails.map (First.cons rfl))
    | iri i => exact silent_iri hv _
  | filter hk hw h =>
    simp only [List.append_assoc]
    refine alt_eval2 (kw_first hk rfl) (alt_eval2 (kw_first hk rfl) (alt_eval2 (kw_first hk rfl) (alt_eval2 (kw_first hk rfl)
      (alt_eval2 (kw_first hk rfl) (alt_eval1 ?_)))))
    exact map_eval (f := GraphPatternNotTriples.filter) (preceded_eval (terminated_eval (kw_eval hk) (sp1_eval hw (constraint_start hG h _).1)) (constraint_eval hG h r))
  | bind hk hw h =>
    simp only [List.append_assoc]
    refine alt_eval2 (kw_first hk rfl) (alt_eval2 (kw_first hk rfl) (alt_eval2 (kw_first hk rfl) (alt_eval2 (kw_first hk rfl)
      (alt_eval2 (kw_first hk rfl) (alt_eval2 (kw_first hk rfl) (alt_eval1 ?_))))))
    exact map_eval (f := GraphPatternNotTriples.bind) (preceded_eval (terminated_eval (kw_eval hk) (sp1_eval hw (asVar_start h _).1)) (asVar_eval hG h r))
  | inlineData hk hw h =>
    simp only [List.append_assoc]
    refine alt_eval2 (kw_first hk rfl) (alt_eval2 (kw_first hk rfl) (alt_eval2 (kw_first hk rfl) (alt_eval2 (kw_first hk rfl)
      (alt_eval2 (kw_first hk rfl) (alt_eval2 (kw_first hk rfl) (alt_eval2 (kw_first hk rfl) ?_))))))
    exact map_eval (f := GraphPatternNotTriples.inlineData) (C27_clause _ _ _ _ _ hk hw h).1

/-! ## Entries -/

/-- What may come after an entry and white space. -/
structure EntryStart (x : Str) : Prop where
  start : Start x
  semi : NotStart (· = ';') x
  comma : NotStart (· = ',') x
  qmark : Fails (char '?') x
  dot : Fails (char '.') x
  triples : Fails triplesSameSubjectPath x
  union : Fails (terminated (tagNoCase c!"union") sp1) x

theorem EntryStart.brace (t : Str) : EntryStart ('}' :: t) :=
  ⟨Start.cons (by decide), notStart_cons (by decide), notStart_cons (by decide), First.cons rfl, First.cons rfl, First.cons rfl, Fails.terminated (First.cons rfl)⟩

theorem kw_triples {a : Char} {u k r : Str} (h : CaseVariant (a :: u) k) (hr : Follow r) (hu : a :: u ∈ itemKws) : Fails triplesSameSubjectPath (k ++ r) := by
  simp only [itemKws, List.mem_cons, List.not_mem_nil, or_false] at hu
  rcases hu with e | e | e | e | e | e | e <;> rw [e] at h <;>
  · have hb : Fails boolean (k ++ r) := Fails.alt_cons (Fails.map (kw_fails h (by decide))) (Fails.map (kw_fails h (by decide)))
    have hg : Fails graphTerm (k ++ r) := Fails.alt_cons (Fails.map (iri_fails_kw h (by decide) (by decide) hr))
      (Fails.alt_cons (Fails.map (kw_first h rfl)) (Fails.alt_cons (Fails.map (kw_first h rfl)) (Fails.alt_cons (Fails.map hb)
        (Fails.alt_cons (Fails.map (kw_first h rfl)) (Fails.map (kw_first h rfl))))))
    exact Fails.alt_cons (Fails.map (Fails.pair (Fails.alt_cons (Fails.map (kw_first h rfl)) (Fails.map hg)))) (Fails.map (Fails.separatedPair (kw_first h rfl)))

theorem EntryStart.item {s : Str} (h : ItemHead s) (x : Str) : EntryStart (s ++ x) := by
  rcases h with ⟨t, rfl⟩ | ⟨u, k, r, rfl, hk, hu, hr⟩
  · exact ⟨Start.cons (by decide), notStart_cons (by decide), notStart_cons (by decide), First.cons rfl, First.cons rfl, First.cons rfl, Fails.terminated (First.cons rfl)⟩
  · rw [List.append_assoc]
    have ht : Fails triplesSameSubjectPath (k ++ (r ++ x)) := by
      cases u with
      | nil => exact absurd hu (by decide)
      | cons a u => exact kw_triples hk (hr x) hu
    simp only [itemKws, List.mem_cons, List.not_mem_nil, or_false] at hu
    rcases hu with rfl | rfl | rfl | rfl | rfl | rfl | rfl <;>
    exact ⟨Start.kw hk (by decide), kw_notStart hk (by decide), kw_notStart hk (by decide), kw_first hk rfl, kw_first hk rfl, ht, Fails.terminated (kw_first hk rfl)⟩

theorem EntryStart.noUnion {w x : Str} (hw : Ws w) (h : EntryStart x) : NoUnion (w ++ x) := by
  cases w with
  | nil => exact Fails.preceded (sp1_fails h.start.1)
  | cons c w => exact Fails.preceded2 (sp1_eval ⟨hw, by simp⟩ h.start.1) h.union

theorem EntryStart.block {x : Str} (h : EntryStart x) : Fails triplesBlock x := Fails.map (Fails.sep1 h.triples)

theorem EntryStart.patternEnd {w x : Str} (hw : Ws1 w) (h : EntryStart x) : PatternEnd true (w ++ x) :=
  .of (h.start.follow hw) hw.1 h.start.1 fun c t e => not_or.mpr ⟨h.semi c t e, fun hc => h.comma c t e hc.2⟩

theorem EntryStart.noDot {w x : Str} (hw : Ws w) (h : EntryStart x) : SepStop (many1 (spEnc (char '.'))) triplesSameSubjectPath (w ++ x) :=
  .inl (Fails.many1 (Fails.delimited2 (sp_eval hw h.start.1) h.dot))

theorem pattern_start {l : List Pattern} {t : Str} (h : cPatterns l t) (x : Str) : Start (t ++ x) := by
  obtain ⟨c, t, rfl, hc⟩ := patterns_toks l t h
  exact Start.cons ⟨hc.ws, hc.ne (by simp)⟩

theorem pattern_noUnion {l : List Pattern} {w t : Str} (hw : Ws w) (h : cPatterns l t) (x : Str) : NoUnion (w ++ (t ++ x)) := by
  have hn := (pattern_start h x).1
  cases w with
  | nil => exact Fails.preceded (sp1_fails hn)
  | cons c w =>
    refine Fails.preceded2 (sp1_eval ⟨hw, by simp⟩ hn) ?_
    obtain ⟨o, a, b, rfl, ha⟩ := patterns_head h
    rw [List.append_assoc]
    exact cVarOrTerm_kw (a := 'u') (t := c!"nion") (by decide) (by decide) ha _

theorem entry_eval (hG : ∀ g s, cG g s → ReadsAs groupGraphPattern s g) {e : GraphPatternAndTriples} {s w x : Str} (h : CEntry cG e s)
    (hw : Ws1 w) (hx : EntryStart x) : groupGraphPatternAndTriplesS R₀ (s ++ (w ++ x)) = .ok (w ++ x) e := by
  unfold groupGraphPatternAndTriplesS
  cases h with
  | @plain g s h =>
    exact map_eval (a := (g, none)) (f := fun x => GraphPatternAndTriples.mk x.1 x.2) (separatedPair_eval (item_eval hG h (hx.noUnion hw.1))
      (Fails.opt (Fails.preceded2 (sp_eval hw.1 hx.start.1) hx.qmark)) (Fails.opt (Fails.preceded2 (sp_eval hw.1 hx.start.1) hx.block)))
  | @triples g s w' l t h hw' ht hq =>
    have hn := (pattern_start ht (w ++ x)).1
    have hq' : Fails (char '?') (t ++ (w ++ x)) := by
      obtain ⟨c, t, rfl, hc⟩ := patterns_toks l t ht
      exact char_fails (by rintro rfl; exact hq rfl)
    simp only [List.append_assoc]
    exact map_eval (a := (g, some (TriplesBlock.mk (l.map Pattern.ast)))) (f := fun x => GraphPatternAndTriples.mk x.1 x.2)
      (separatedPair_eval (item_eval hG h (pattern_noUnion hw' ht _)) (Fails.opt (Fails.preceded2 (sp_eval hw' hn) hq'))
        (opt_eval (preceded_eval (sp_eval hw' hn) (patterns_accept l t _ ht (by simp) (hx.patternEnd hw) (hx.noDot hw.1)))))

theorem entry_start (hG : ∀ g s, cG g s → ReadsAs groupGraphPattern s g) {e : GraphPatternAndTriples} {s : Str} (h : CEntry cG e s) :
    ∀ x, EntryStart (s ++ x) ∧ Fails subSelect (s ++ x) := by
  have key : ∀ {g s}, CItem cG g s → ∀ x, EntryStart (s ++ x) ∧ Fails subSelect (s ++ x) := by
    intro g s h x
    have hi := item_head hG h
    refine ⟨EntryStart.item hi x, ?_⟩
    refine Fails.map (Fails.tuple4 (Fails.map (Fails.tuple3 ?_)))
    rcases hi with ⟨t, rfl⟩ | ⟨u, k, r, rfl, hk, hu, hr⟩
    · exact First.cons rfl
    · rw [List.append_assoc]
      simp only [itemKws, List.mem_cons, List.not_mem_nil, or_false] at hu
      rcases hu with rfl | rfl | rfl | rfl | rfl | rfl | rfl <;> exact kw_fails hk (by decide)
  cases h with
  | plain h => exact key h
  | triples h hw' ht hq => intro x; rw [List.append_assoc]; exact key h _

/-! ## Groups -/

theorem noEntry (r : Str) : Fails (groupGraphPatternAndTriplesS R₀) ('}' :: r) := First.cons rfl

theorem entries_eval (hG : ∀ g s, cG g s → ReadsAs groupGraphPattern s g) {l : List GraphPatternAndTriples} {s r : Str} (h : WsList (CEntry cG) l s) :
    (∃ w, Ws w ∧ separatedList sp (groupGraphPatternAndTriplesS R₀) (s ++ '}' :: r) = .ok (w ++ '}' :: r) l) ∧ EntryStart (s ++ '}' :: r) ∧
      Fails subSelect (s ++ '}' :: r) := by
  obtain ⟨⟨w, hw, h1⟩, h2⟩ := ws_list (p := groupGraphPatternAndTriplesS R₀) (E := EntryStart) (fun _ _ _ _ => entry_eval hG)
    (fun _ _ x h => (entry_start hG h x).1) (fun _ h => h.start.1) (EntryStart.brace r) (noEntry r) h
  refine ⟨⟨w, hw.1, separatedList_ok.mpr (.inr (separatedNonemptyList_ok.mp h1))⟩, h2, ?_⟩
  obtain ⟨hl, h⟩ := h
  cases l with
  | nil => contradiction
  | cons a l =>
    obtain ⟨_, _, rfl, ⟨_, _, rfl, h, _⟩, _⟩ := h
    simp only [List.append_assoc]
    exact (entry_start hG h _).2

theorem braces_eval {w x w' r : Str} {g : GroupGraphPattern} (hw : Ws w) (hx : ¬ StartsWs x) (hw' : Ws w')
    (h : alt [map subSelect GroupGraphPattern.subSelect, map groupGraphPatternSub .groupGraphPatternSub] x = .ok (w' ++ '}' :: r) g) :
    groupGraphPattern ('{' :: (w ++ x)) = .ok r g := by
  rw [groupGraphPattern_eq]
  exact delimited_eval char_eval (delimited_eval (sp_eval hw hx) h (sp_eval hw' (not_startsWs_cons rfl))) char_eval

theorem sub_eval {w x w' r : Str} {o : Option TriplesBlock} {l : List GraphPatternAndTriples} (hw : Ws w) (hx : ¬ StartsWs x) (hw' : Ws w')
    (hs : Fails subSelect x) {y : Str} (h1 : opt (terminated triplesBlock sp) x = .ok y o)
    (h2 : separatedList sp (groupGraphPatternAndTriplesS R₀) y = .ok (w' ++ '}' :: r) l) :
    groupGraphPattern ('{' :: (w ++ x)) = .ok r (.groupGraphPatternSub (.mk o l)) :=
  braces_eval hw hx hw' (alt_eval2 (Fails.map hs) (map_eval (f := GroupGraphPattern.groupGraphPatternSub)
    (map_eval (a := (o, l)) (f := fun x => GroupGraphPatternSub.mk x.1 x.2) (pair_eval h1 h2))))

theorem group_eval (hG : ∀ g s, cG g s → ReadsAs groupGraphPattern s g) {g : GroupGraphPattern} {s : Str} (h : CGroup cG g s) :
    ReadsAs groupGraphPattern s g := by
  intro r
  cases h with
  | @empty w hw =>
    show groupGraphPattern ('{' :: ((w ++ ['}']) ++ r)) = _
    rw [List.append_assoc]
    exact sub_eval (x := '}' :: r) (w' := []) hw (not_startsWs_cons rfl) .nil (First.cons (c := '}') rfl)
      (Fails.opt (Fails.terminated (First.cons rfl))) (Fails.sep0 (noEntry r))
  | @patterns w l s w' hw h hw' =>
    show groupGraphPattern ('{' :: ((w ++ (s ++ (w' ++ ['}']))) ++ r)) = _
    simp only [List.append_assoc]
    exact C33_patterns_partial l w s w' r hw h hw'
  | @items w l s hw h =>
    show groupGraphPattern ('{' :: ((w ++ (s ++ ['}'])) ++ r)) = _
    simp only [List.append_assoc]
    obtain ⟨⟨w', hw', h1⟩, h2, h3⟩ := entries_eval (r := r) hG h
    exact sub_eval hw h2.start.1 hw' h3 (Fails.opt (Fails.terminated h2.block)) h1
  | @both w l s w' m t hw h hw' ht =>
    show groupGraphPattern ('{' :: ((w ++ (s ++ (w' ++ (t ++ ['}'])))) ++ r)) = _
    simp only [List.append_assoc]
    obtain ⟨⟨w2, hw2, h1⟩, h2, h3⟩ := entries_eval (r := r) hG ht
    refine sub_eval hw (pattern_start h _).1 hw2 ?_
      (opt_eval (terminated_eval (patterns_accept l s _ h (by simp) (h2.patternEnd hw') (h2.noDot hw'.1)) (sp_eval hw'.1 h2.start.1))) h1
    obtain ⟨o, a, b, rfl, ha⟩ := patterns_head h
    rw [List.append_assoc]
    exact subSelect_fails ha _
  | @select w q s hw h =>
    show groupGraphPattern ('{' :: ((w ++ (s ++ ['}'])) ++ r)) = _
    simp only [List.append_assoc]
    obtain ⟨h1, w', hw', h2⟩ := subSelect_eval hG h r
    exact braces_eval hw h1.1 hw' (alt_eval1 (map_eval (f := GroupGraphPattern.subSelect) h2))

/-- Canonical groups are read, whatever follows. -/
theorem cGroup_reads {g : GroupGraphPattern} {s : Str} (h : cGroup g s) : ReadsAs groupGraphPattern s g :=
  h (fun g s => ReadsAs groupGraphPattern s g) fun _ _ h => group_eval (fun _ _ h => h) h

theorem cExpr_reads {b : Bool} {e : Expression} {s : Str} (h : cExpr b e s) : ReadsTo expression orStops b e s :=
  expr_reads (fun _ _ h => cGroup_reads h) h

end NomSparql
