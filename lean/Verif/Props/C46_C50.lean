import Verif.Spec.CanonUpdate
import Verif.Props.C33_C37

/-!
# C46 to C50: updates
-/

namespace NomSparql

set_option maxRecDepth 8000

theorem fails_of_map {p : P α} {f : α → β} {i : Str} (h : Fails (map p f) i) : Fails p i := by
  obtain ⟨pos, k, h⟩ := h
  unfold map at h
  revert h
  cases e : p i with
  | ok r a => intro h; cases h
  | err e' => intro h; cases h; exact ⟨_, _, e⟩

theorem StmtEnd.follow {r : Str} (h : StmtEnd r) : Follow r := by
  obtain ⟨w, x, rfl, hw, rfl | ⟨t, rfl⟩⟩ := h
  · exact Follow.ws hw (.inr fun c r' e => by cases e) not_startsWs_nil (by intro c r e; cases e)
  · exact Follow.ws_close hw (by simp)

theorem StmtEnd.into {r : Str} (h : StmtEnd r) : Fails (spEnc (tagNoCase c!"into")) r := by
  obtain ⟨w, x, rfl, hw, rfl | ⟨t, rfl⟩⟩ := h
  · exact Fails.delimited2 (sp_eval hw not_startsWs_nil) First.nil
  · exact Fails.delimited2 (sp_eval hw (not_startsWs_cons rfl)) (First.cons rfl)

theorem silent_eval {b : Bool} {s x : Str} (h : cSilent b s) (hx : ¬ StartsWs x) (hf : Fails (terminated silent sp1) x) :
    optSilent (s ++ x) = .ok x b := by
  cases b with
  | false =>
    obtain rfl := h
    exact map_eval (a := none) (f := fun o : Option Bool => o.getD false) hf.opt
  | true =>
    obtain ⟨k, w, rfl, hk, hw⟩ := h
    rw [List.append_assoc]
    exact map_eval (a := some true) (f := fun o : Option Bool => o.getD false)
      (opt_eval (terminated_eval (map_eval (f := fun _ => true) (kw_eval hk)) (sp1_eval hw hx)))

theorem silent_kw {u k x : Str} (hk : CaseVariant u k) (h : (c!"silent").all (fun c => decide (KwLetter c)) = true ∧
    u.all (fun c => decide (KwLetter c)) = true ∧ clash c!"silent" u = true) : Fails (terminated silent sp1) (k ++ x) :=
  Fails.terminated (Fails.map (kw_fails hk h))

theorem silent_iri {i : Iri} {s : Str} (h : cIri i s) (x : Str) : Fails (terminated silent sp1) (s ++ x) := by
  have h0 := fails_of_map (cIri_kw_sp1 (t := c!"silent") (by decide) (by simp) h x)
  have : Soft silent := by unfold silent; infer_instance
  rcases Soft.cases (terminated silent sp1) (s ++ x) with ⟨r, a, e⟩ | e
  · obtain ⟨r1, b, e1, e2⟩ := terminated_ok.mp e
    obtain ⟨a', e3, rfl⟩ := map_ok.mp e1
    obtain ⟨_, _, e4⟩ := h0
    rw [pair_eval e3 e2] at e4; cases e4
  · exact e

theorem noDefault_fails {i : Iri} {s : Str} (h : cIri i s) (hn : NoDefault s) (r : Str) : Fails (tagNoCase c!"default") (s ++ r) := by
  refine ⟨_, _, tagNoCase_error fun a r'' e hk => ?_⟩
  obtain ⟨hk1, hk2⟩ := caseVariant_word hk (by simp) (by decide)
  cases i with
  | iri x =>
    obtain ⟨rfl, _⟩ := h
    cases a with
    | nil => contradiction
    | cons c t =>
      obtain ⟨rfl, _⟩ := List.cons.inj e
      exact absurd (hk2 '<' (by simp)) (by decide)
  | prefixedName n =>
    cases n with
    | pnameNS o => exact h.elim
    | pnameLN o l =>
      cases o with
      | none => exact h.elim
      | some p =>
        obtain ⟨rfl, _⟩ := h
        rw [List.append_assoc, List.cons_append] at e
        rcases List.append_eq_append_iff.mp e with ⟨t, rfl, e2⟩ | ⟨t, rfl, e2⟩
        · cases t with
          | nil => exact hn p (':' :: l) rfl (by simpa using hk)
          | cons c t =>
            obtain ⟨rfl, _⟩ := List.cons.inj e2
            exact absurd (hk2 ':' (by simp)) (by decide)
        · exact hn a (t ++ ':' :: l) (by simp) hk

theorem graphRef_accepts : Accepts graphRef cGraphRef := by
  rintro i _ r ⟨k, _, rfl, hk, w, s, rfl, hw, hs⟩ hr
  simp only [List.append_assoc]
  exact map_eval (f := Prod.snd) (separatedPair_eval (kw_eval hk) (sp1_eval hw ((cIri_toks i).not_startsWs hs r)) (iri_accepts i s r hs hr))

theorem graphOrDefault_accepts : Accepts graphOrDefault cGraphOrDefault := by
  intro g s r h hr
  unfold graphOrDefault
  cases g with
  | default => exact alt_eval1 (map_eval (f := fun _ => GraphOrDefault.default) (kw_eval h))
  | graph i =>
    rcases h with ⟨k, _, rfl, hk, w, s, rfl, hw, hs⟩ | ⟨h, hn⟩
    · simp only [List.append_assoc]
      refine alt_eval2 (Fails.map (kw_fails hk (by decide))) ?_
      exact map_eval (f := fun x => GraphOrDefault.graph x.2) (pair_eval (opt_eval (pair_eval (kw_eval hk)
        (sp1_eval hw ((cIri_toks i).not_startsWs hs r)))) (iri_accepts i s r hs hr))
    · refine alt_eval2 (Fails.map (noDefault_fails h hn r)) ?_
      exact map_eval (f := fun x => GraphOrDefault.graph x.2) (pair_eval (Fails.opt (fails_of_map
        (cIri_kw_sp1 (t := c!"graph") (by decide) (by simp) h r))) (iri_accepts i s r h hr))

theorem cGraphRef_toks (i : Iri) : Toks (cGraphRef i) := by
  rintro _ ⟨k, t, rfl, hk, _⟩
  obtain ⟨c, k', rfl, hc⟩ := kw_toks (t := c!"raph") (x := 'g') (by decide) k hk
  exact ⟨c, k' ++ t, rfl, hc⟩

theorem cGraphOrDefault_toks (g : GraphOrDefault) : Toks (cGraphOrDefault g) := by
  cases g with
  | default => exact kw_toks (by decide)
  | graph i =>
    rintro s (h | ⟨h, _⟩)
    · exact cGraphRef_toks i s h
    · exact cIri_toks i s h

theorem silent_graphOrDefault {g : GraphOrDefault} {s : Str} (h : cGraphOrDefault g s) (x : Str) : Fails (terminated silent sp1) (s ++ x) := by
  cases g with
  | default => exact silent_kw h (by decide)
  | graph i =>
    rcases h with ⟨k, _, rfl, hk, _⟩ | ⟨h, _⟩
    · rw [List.append_assoc]; exact silent_kw hk (by decide)
    · exact silent_iri h x

theorem fromTo_accepts {b : Bool} {g g' : GraphOrDefault} {s r : Str} (h : cFromTo b g g' s) (hr : Follow r) :
    silentFromTo (s ++ r) = .ok r (b, g, g') := by
  obtain ⟨a, _, rfl, ha, x, _, rfl, hx, w, _, rfl, hw, k, _, rfl, hk, w', y, rfl, hw', hy⟩ := h
  simp only [List.append_assoc]
  have n1 := (cGraphOrDefault_toks g).not_startsWs hx (w ++ (k ++ (w' ++ (y ++ r))))
  have n2 : ¬ StartsWs (k ++ (w' ++ (y ++ r))) := kw_not_ws hk (by decide)
  have n3 := (cGraphOrDefault_toks g').not_startsWs hy r
  exact tuple3_eval (silent_eval ha n1 (silent_graphOrDefault hx _))
    (graphOrDefault_accepts g x _ hx (Follow.ws1_tok (kw_toks (by decide)) hw hk _))
    (preceded_eval (delimited_eval (sp_eval hw.1 n2) (kw_eval hk) (sp_eval hw'.1 n3)) (graphOrDefault_accepts g' y r hy hr))

theorem graphRefAll_accepts : Accepts graphRefAll cGraphRefAll := by
  intro g s r h hr
  unfold graphRefAll
  cases g with
  | default => exact alt_eval1 (map_eval (f := fun _ => GraphRefAll.default) (kw_eval h))
  | named => exact alt_eval2 (Fails.map (kw_fails h (by decide))) (alt_eval1 (map_eval (f := fun _ => GraphRefAll.named) (kw_eval h)))
  | all =>
    refine alt_eval2 (Fails.map (kw_fails h (by decide))) (alt_eval2 (Fails.map (kw_fails h (by decide))) ?_)
    exact alt_eval1 (map_eval (f := fun _ => GraphRefAll.all) (kw_eval h))
  | graphRef i =>
    have hg := graphRef_accepts i s r h hr
    obtain ⟨k, t, rfl, hk, _⟩ := h
    simp only [List.append_assoc] at hg ⊢
    refine alt_eval2 (Fails.map (kw_fails hk (by decide))) (alt_eval2 (Fails.map (kw_fails hk (by decide)))
      (alt_eval2 (Fails.map (kw_fails hk (by decide))) ?_))
    exact alt_eval1 (map_eval (f := GraphRefAll.graphRef) hg)

theorem silentAll_accepts {b : Bool} {g : GraphRefAll} {s r : Str} (h : (cSilent b ⬝ cGraphRefAll g) s) (hr : Follow r) :
    silentGraphRefAll (s ++ r) = .ok r (b, g) := by
  obtain ⟨a, x, rfl, ha, hx⟩ := h
  rw [List.append_assoc]
  refine pair_eval (silent_eval ha ?_ ?_) (graphRefAll_accepts g x r hx hr)
  · cases g with
    | default => exact kw_not_ws hx (by decide)
    | named => exact kw_not_ws hx (by decide)
    | all => exact kw_not_ws hx (by decide)
    | graphRef i => exact (cGraphRef_toks i).not_startsWs hx r
  · cases g with
    | default => exact silent_kw hx (by decide)
    | named => exact silent_kw hx (by decide)
    | all => exact silent_kw hx (by decide)
    | graphRef i => obtain ⟨k, t, rfl, hk, _⟩ := hx; rw [List.append_assoc]; exact silent_kw hk (by decide)

/-! ## C46: graph management -/

theorem silentAll_not_ws {b : Bool} {g : GraphRefAll} {s : Str} (h : (cSilent b ⬝ cGraphRefAll g) s) (r : Str) : ¬ StartsWs (s ++ r) := by
  obtain ⟨a, x, rfl, ha, hx⟩ := h
  cases b with
  | true => obtain ⟨k, w, rfl, hk, _⟩ := ha; simp only [List.append_assoc]; exact kw_not_ws hk (by decide)
  | false =>
    obtain rfl := ha
    cases g with
    | default => exact kw_not_ws hx (by decide)
    | named => exact kw_not_ws hx (by decide)
    | all => exact kw_not_ws hx (by decide)
    | graphRef i => exact (cGraphRef_toks i).not_startsWs hx r

theorem silent_not_ws {b : Bool} {a x : Str} (ha : cSilent b a) (hx : ¬ StartsWs x) : ¬ StartsWs (a ++ x) := by
  cases b with
  | true => obtain ⟨k, w, rfl, hk, _⟩ := ha; simp only [List.append_assoc]; exact kw_not_ws hk (by decide)
  | false => obtain rfl := ha; exact hx

theorem C46_load (st : LoadStatement) (cG) (s r : Str) (h : cStatement cG (.load st) s) (hr : StmtEnd r) :
    loadStmt (s ++ r) = .ok r st := by
  obtain ⟨i, b, g⟩ := st
  obtain ⟨k, _, rfl, hk, w, _, rfl, hw, a, _, rfl, ha, x, y, rfl, hx, hy⟩ := h
  simp only [List.append_assoc]
  have nx := fun r => (cIri_toks i).not_startsWs hx r
  refine map_eval (a := (_, b, i, g)) (f := fun x => LoadStatement.mk x.2.2.1 x.2.1 x.2.2.2) (tuple4_eval
    (pair_eval (kw_eval hk) (sp1_eval hw (silent_not_ws ha (nx _)))) (silent_eval ha (nx _) (silent_iri hx _)) (r3 := y ++ r) ?_ ?_)
  · refine iri_accepts i x _ hx ?_
    cases g with
    | none => obtain rfl := hy; exact hr.follow
    | some g =>
      obtain ⟨w1, _, rfl, hw1, k1, t, rfl, hk1, _⟩ := hy
      simp only [List.append_assoc]
      exact Follow.ws1_tok (kw_toks (by decide)) hw1 hk1 _
  · cases g with
    | none => obtain rfl := hy; exact Fails.opt (Fails.preceded hr.into)
    | some g =>
      obtain ⟨w1, _, rfl, hw1, k1, _, rfl, hk1, w2, z, rfl, hw2, hz⟩ := hy
      simp only [List.append_assoc]
      exact opt_eval (preceded_eval (delimited_eval (sp_eval hw1.1 (kw_not_ws hk1 (by decide))) (kw_eval hk1)
        (sp_eval hw2.1 ((cGraphRef_toks g).not_startsWs hz r))) (graphRef_accepts g z r hz hr.follow))

theorem C46_clear (st : ClearStatement) (cG) (s r : Str) (h : cStatement cG (.clear st) s) (hr : Follow r) :
    clearStmt (s ++ r) = .ok r st := by
  obtain ⟨b, g⟩ := st
  obtain ⟨k, _, rfl, hk, w, x, rfl, hw, hx⟩ := h
  simp only [List.append_assoc]
  exact map_eval (a := (_, b, g)) (f := fun x => ClearStatement.mk x.2.1 x.2.2) (pair_eval (pair_eval (kw_eval hk) (sp1_eval hw (silentAll_not_ws hx r)))
    (silentAll_accepts hx hr))

theorem C46_drop (st : DropStatement) (cG) (s r : Str) (h : cStatement cG (.drop st) s) (hr : Follow r) :
    dropStmt (s ++ r) = .ok r st := by
  obtain ⟨b, g⟩ := st
  obtain ⟨k, _, rfl, hk, w, x, rfl, hw, hx⟩ := h
  simp only [List.append_assoc]
  exact map_eval (a := (_, b, g)) (f := fun x => DropStatement.mk x.2.1 x.2.2) (pair_eval (pair_eval (kw_eval hk) (sp1_eval hw (silentAll_not_ws hx r)))
    (silentAll_accepts hx hr))

theorem C46_create (st : CreateStatement) (cG) (s r : Str) (h : cStatement cG (.create st) s) (hr : Follow r) :
    createStmt (s ++ r) = .ok r st := by
  obtain ⟨b, g⟩ := st
  obtain ⟨k, _, rfl, hk, w, _, rfl, hw, a, x, rfl, ha, hx⟩ := h
  simp only [List.append_assoc]
  have nx := (cGraphRef_toks g).not_startsWs hx r
  refine map_eval (a := (_, b, g)) (f := fun x => CreateStatement.mk x.2.1 x.2.2) (tuple3_eval (pair_eval (kw_eval hk) (sp1_eval hw (silent_not_ws ha nx)))
    (silent_eval ha nx ?_) (graphRef_accepts g x r hx hr))
  obtain ⟨k, t, rfl, hk, _⟩ := hx
  rw [List.append_assoc]; exact silent_kw hk (by decide)

theorem fromTo_not_ws {b : Bool} {g g' : GraphOrDefault} {s : Str} (h : cFromTo b g g' s) (r : Str) : ¬ StartsWs (s ++ r) := by
  obtain ⟨a, _, rfl, ha, x, y, rfl, hx, _⟩ := h
  simp only [List.append_assoc]
  exact silent_not_ws ha ((cGraphOrDefault_toks g).not_startsWs hx _)

theorem C46_copy (st : CopyStatement) (cG) (s r : Str) (h : cStatement cG (.copy st) s) (hr : Follow r) :
    copyStmt (s ++ r) = .ok r st := by
  obtain ⟨b, g, g'⟩ := st
  obtain ⟨k, _, rfl, hk, w, x, rfl, hw, hx⟩ := h
  simp only [List.append_assoc]
  exact map_eval (a := (_, b, g, g')) (f := fun x => CopyStatement.mk x.2.1 x.2.2.1 x.2.2.2) (pair_eval (pair_eval (kw_eval hk)
    (sp1_eval hw (fromTo_not_ws hx r))) (fromTo_accepts hx hr))

/-! ## C47: ADD and MOVE -/

theorem C47_add_partial (b : Bool) (g g' : GraphOrDefault) (k w s r : Str) (hk : CaseVariant c!"add" k) (hw : Ws1 w) (h : cFromTo b g g' s)
    (hr : Follow r) : addStmt (k ++ (w ++ (s ++ r))) = .ok r ⟨b, g, g'⟩ :=
  map_eval (a := (_, b, g, g')) (f := fun x => AddStatement.mk x.2.1 x.2.2.1 x.2.2.2) (pair_eval (pair_eval (kw_eval hk)
    (sp1_eval hw (fromTo_not_ws h r))) (fromTo_accepts h hr))

theorem C47_move_partial (b : Bool) (g g' : GraphOrDefault) (k w s r : Str) (hk : CaseVariant c!"move" k) (hw : Ws1 w) (h : cFromTo b g g' s)
    (hr : Follow r) : moveStmt (k ++ (w ++ (s ++ r))) = .ok r ⟨b, g, g'⟩ :=
  map_eval (a := (_, b, g, g')) (f := fun x => MoveStatement.mk x.2.1 x.2.2.1 x.2.2.2) (pair_eval (pair_eval (kw_eval hk)
    (sp1_eval hw (fromTo_not_ws h r))) (fromTo_accepts h hr))

/-- No declaration before a statement keyword. -/
theorem noDecl_update {u k w x : Str} (hw : Ws w) (hk : CaseVariant u k)
    (hu : u ∈ [c!"load", c!"clear", c!"drop", c!"create", c!"copy", c!"add", c!"move", c!"insert", c!"delete", c!"with"]) :
    NoKeyword [c!"base", c!"prefix"] (w ++ (k ++ x)) := by
  intro w' k' r' t ht e hw'
  simp only [List.mem_cons, List.not_mem_nil, or_false] at ht hu
  rcases ht with rfl | rfl <;> rcases hu with rfl | rfl | rfl | rfl | rfl | rfl | rfl | rfl | rfl | rfl <;>
    exact noKeyword_one hw hk (by decide) (by decide) (by decide) _ _ _ e hw'

/-- A statement that is not read is left over without error. -/
theorem update_unread {u k x : Str} (hk : CaseVariant u k)
    (hu : u ∈ [c!"load", c!"clear", c!"drop", c!"create", c!"copy", c!"add", c!"move", c!"insert", c!"delete", c!"with"])
    (hf : Fails updateStmt (k ++ x)) : update (k ++ x) = .ok (k ++ x) (.mk ⟨[]⟩ none none) := by
  have hp := C24_prologue ⟨[]⟩ [] (k ++ x) rfl (noDecl_update (w := []) .nil hk hu)
  have hn : ¬ StartsWs (k ++ x) := by
    simp only [List.mem_cons, List.not_mem_nil, or_false] at hu
    rcases hu with rfl | rfl | rfl | rfl | rfl | rfl | rfl | rfl | rfl | rfl <;> exact kw_not_ws hk (by decide)
  rw [update_eq]
  unfold updateStep
  exact map_ok.mpr ⟨(⟨[]⟩, none), pair_eval hp (Fails.opt (Fails.pair (Fails.preceded2 (sp_zero hn) hf))), rfl⟩

/-- An alternative of `updateStmt` with another keyword fails. -/
macro "other_kw " hk:ident : tactic => `(tactic| first
  | exact Fails.map (Fails.map (Fails.tuple4 (Fails.pair (kw_fails $hk (by decide)))))
  | exact Fails.map (Fails.map (Fails.pair (Fails.pair (kw_fails $hk (by decide)))))
  | exact Fails.map (Fails.map (Fails.tuple3 (Fails.pair (kw_fails $hk (by decide)))))
  | exact Fails.map (Fails.preceded (Fails.terminated (kw_fails $hk (by decide)))))

/-- Whatever follows the keyword ADD or MOVE, `update` reads nothing and returns an empty update, without error. -/
theorem C47_violated (u k x : Str) (hu : u = c!"add" ∨ u = c!"move") (hk : CaseVariant u k) :
    update (k ++ x) = .ok (k ++ x) (.mk ⟨[]⟩ none none) := by
  refine update_unread hk (by rcases hu with rfl | rfl <;> simp) ?_
  rcases hu with rfl | rfl <;>
  · refine Fails.alt_cons (by other_kw hk) (Fails.alt_cons (by other_kw hk) (Fails.alt_cons (by other_kw hk) (Fails.alt_cons (by other_kw hk)
      (Fails.alt_cons (by other_kw hk) (Fails.alt_cons (by other_kw hk) (Fails.alt_cons (by other_kw hk) (Fails.alt_cons (by other_kw hk) ?_)))))))
    refine Fails.map (Fails.map (Fails.pair2 (Fails.opt (Fails.delimited (kw_fails hk (by decide)))) (Fails.pair (Fails.terminated ?_))))
    exact Fails.alt_cons (Fails.map (Fails.pair (Fails.preceded (Fails.terminated (kw_fails hk (by decide))))))
      (Fails.map (Fails.preceded (Fails.terminated (kw_fails hk (by decide)))))

/-! ## C48: data -/

theorem data_eval {u d k w k' w' s r : Str} {q : Quads} [KwTag u] [KwTag d] (hk : CaseVariant u k) (hw : Ws1 w) (hk' : CaseVariant d k')
    (hn : ∀ x, ¬ StartsWs (k' ++ x)) (hw' : Ws1 w') (h : cQuads q s) :
    precededTag1 u (precededTag1 d quadData) (k ++ (w ++ (k' ++ (w' ++ (s ++ r))))) = .ok r q := by
  have hs : ¬ StartsWs (s ++ r) := by
    obtain ⟨_, _, rfl, rfl, _⟩ := h
    exact not_startsWs_cons rfl
  exact preceded_eval (terminated_eval (kw_eval hk) (sp1_eval hw (hn _)))
    (preceded_eval (terminated_eval (kw_eval hk') (sp1_eval hw' hs)) (quads_accept q s r h))

theorem C48_insert_data_partial (q : Quads) (cG) (s r : Str) (h : cStatement cG (.insertData q) s) : insertData (s ++ r) = .ok r q := by
  obtain ⟨k, _, rfl, hk, w, _, rfl, hw, k', _, rfl, hk', w', x, rfl, hw', hx⟩ := h
  simp only [List.append_assoc]
  exact data_eval hk hw hk' (fun x => kw_not_ws hk' (by decide)) hw' hx

theorem C48_delete_data_partial (q : Quads) (cG) (s r : Str) (h : cStatement cG (.deleteData q) s) : deleteData (s ++ r) = .ok r q := by
  obtain ⟨k, _, rfl, hk, w, _, rfl, hw, k', _, rfl, hk', w', x, rfl, hw', hx⟩ := h
  simp only [List.append_assoc]
  exact data_eval hk hw hk' (fun x => kw_not_ws hk' (by decide)) hw' hx

theorem C48_delete_where_partial (q : Quads) (cG) (s r : Str) (h : cStatement cG (.deleteWhere q) s) : deleteWhereData (s ++ r) = .ok r q := by
  obtain ⟨k, _, rfl, hk, w, _, rfl, hw, k', _, rfl, hk', w', x, rfl, hw', hx⟩ := h
  simp only [List.append_assoc]
  exact data_eval hk hw hk' (fun x => kw_not_ws hk' (by decide)) hw' hx

theorem entry_fails_ws {w x : Str} (hw : Ws1 w) : Fails quadsEntry (w ++ x) := by
  obtain ⟨hw, hn⟩ := hw
  cases w with
  | nil => contradiction
  | cons c w => rcases wsStart_iff.mp (ws_first hw _ _ rfl) with rfl | rfl | rfl | rfl | rfl <;> exact First.cons rfl

/-- A block in which white space follows `GRAPH g { ... }` and then anything but the closing brace (a dot, another graph, triples) is
rejected. -/
theorem C48_space_violated (q : QuadsNotTriples) (w s w1 x : Str) (c : Char) (hw : Ws w) (h : cGraphBlock q s) (hw1 : Ws1 w1)
    (hc : wsStart c = false) (hb : c ≠ '}') (hc' : c ≠ ':') :
    ∃ pos k, quadsPattern ('{' :: (w ++ (s ++ (w1 ++ c :: x)))) = .err (.error pos k) := by
  have hx : ¬ StartsWs (c :: x) := not_startsWs_cons hc
  have hns : ¬ StartsWs (s ++ (w1 ++ c :: x)) := (graphBlock_end h _).1
  have he : quadsEntry (s ++ (w1 ++ c :: x)) = .ok (w1 ++ c :: x) ⟨q, none⟩ := by
    refine map_eval (a := (q, none)) (f := fun x => QuadsEntry.mk x.1 x.2) (separatedPair_eval (graphBlock_accept q s _ h)
      (Fails.opt ?_) (Fails.opt (Fails.terminated (Fails.sep1 (triples_fail_ws hw1.1 hw1.2 hx (notStart_cons hc'))))))
    obtain ⟨hw, hn⟩ := hw1
    cases w1 with
    | nil => contradiction
    | cons c w => rcases wsStart_iff.mp (ws_first hw _ _ rfl) with rfl | rfl | rfl | rfl | rfl <;> exact First.cons rfl
  have hq : quads (s ++ (w1 ++ c :: x)) = .ok (w1 ++ c :: x) ⟨none, [⟨q, none⟩]⟩ := by
    unfold quads
    exact map_eval (a := (none, [(⟨q, none⟩ : QuadsEntry)])) (f := fun x => Quads.mk x.1 x.2) (pair_eval
      (Fails.opt (Fails.terminated (tplEnd_template (graphBlock_end h _))))
      (many0_ok.mpr (.step he (consumes_ne he) (many0_ok.mp (Fails.many0 (entry_fails_ws hw1))))))
  exact Fails.delimited3 (terminated_eval (tag_eval (t := ['{'])) (sp_eval hw hns)) hq (Fails.terminated2 (sp_eval hw1.1 hx)
    (First.cons (by simpa using hb)))

/-- The whole update is then left unread. -/
theorem C48_insert_violated (q : QuadsNotTriples) (k w0 k' w' w s w1 x : Str) (c : Char) (hk : CaseVariant c!"insert" k) (hw0 : Ws1 w0)
    (hk' : CaseVariant c!"data" k') (hw' : Ws1 w') (hw : Ws w) (h : cGraphBlock q s) (hw1 : Ws1 w1)
    (hc : wsStart c = false) (hb : c ≠ '}') (hc' : c ≠ ':') :
    update (k ++ (w0 ++ (k' ++ (w' ++ '{' :: (w ++ (s ++ (w1 ++ c :: x))))))) =
      .ok (k ++ (w0 ++ (k' ++ (w' ++ '{' :: (w ++ (s ++ (w1 ++ c :: x))))))) (.mk ⟨[]⟩ none none) := by
  have hf := C48_space_violated q w s w1 x c hw h hw1 hc hb hc'
  have n2 : ∀ x, ¬ StartsWs (k' ++ x) := fun x => kw_not_ws hk' (by decide)
  refine update_unread hk (by simp) ?_
  refine Fails.alt_cons (by other_kw hk) (Fails.alt_cons (by other_kw hk) (Fails.alt_cons (by other_kw hk) (Fails.alt_cons (by other_kw hk)
      (Fails.alt_cons (by other_kw hk) (Fails.alt_cons ?_ (Fails.alt_cons (by other_kw hk) (Fails.alt_cons (by other_kw hk) ?_)))))))
  · exact Fails.map (Fails.preceded2 (terminated_eval (kw_eval hk) (sp1_eval hw0 (n2 _)))
      (Fails.preceded2 (terminated_eval (kw_eval hk') (sp1_eval hw' (not_startsWs_cons rfl))) hf))
  · refine Fails.map (Fails.map (Fails.pair2 (Fails.opt (Fails.delimited (kw_fails hk (by decide)))) (Fails.pair (Fails.terminated ?_))))
    exact Fails.alt_cons (Fails.map (Fails.pair (Fails.preceded (Fails.terminated (kw_fails hk (by decide))))))
      (Fails.map (Fails.preceded2 (terminated_eval (kw_eval hk) (sp1_eval hw0 (n2 _))) (kw_first hk' rfl)))

/-! ## C49: modifications -/

/-- `INSERT quads USING ... WHERE group` is returned with its parts.  Missing for the full property: everything below. -/
theorem C49_insert_using_partial (q : Quads) (l : List DefaultOrNamedIri) (G : GroupGraphPattern) (cG) (s r : Str)
    (hG : ∀ G s, cG G s → ReadsAs groupGraphPattern s G) (h : cStatement cG (.modify ⟨none, .insert q, l, G⟩) s) :
    modifyStmt (s ++ r) = .ok r ⟨none, .insert q, l, G⟩ := by
  obtain ⟨k, _, rfl, hk, w, _, rfl, hw, x, _, rfl, hx, w1, _, rfl, hw1, u, _, rfl, hu, w2, _, rfl, hw2, k', _, rfl, hk', w3, g, rfl, hw3, hg⟩ := h
  simp only [List.append_assoc]
  have hg := hG _ _ hg
  have n1 : ∀ r, ¬ StartsWs (x ++ r) := by
    obtain ⟨_, _, rfl, rfl, _⟩ := hx
    exact fun _ => not_startsWs_cons rfl
  have n3 : ¬ StartsWs (k' ++ (w3 ++ (g ++ r))) := kw_not_ws hk' (by decide)
  have n4 : ¬ StartsWs (g ++ r) := by obtain ⟨t, rfl⟩ := hg.brace; exact not_startsWs_cons rfl
  have hu0 : Sep0 Ws1 cUsingClause l u := by cases l with
    | nil => exact hu.elim
    | cons a l => exact hu
  have n2 : ∀ r, ¬ StartsWs (u ++ r) := by
    cases l with
    | nil => exact hu.elim
    | cons a l =>
      obtain ⟨y, z, rfl, hy, _⟩ := hu
      intro r
      rw [List.append_assoc]
      exact (cUsingClause_toks a).not_startsWs hy _
  have hus := C25_using_sequence_partial l u w2 (k' ++ (w3 ++ (g ++ r))) hu0 hw2 n3 (kw_notStart hk' (by decide)) (by
    intro w' k'' r' t ht e hw'
    simp only [List.mem_cons, List.not_mem_nil, or_false] at ht
    subst ht
    exact noKeyword_one hw2.1 hk' (by decide) (by decide) (by decide) _ _ _ e hw')
  refine map_eval (a := (none, .insert q, l, _, G)) (f := fun x => ModifyStatement.mk x.1 x.2.1 x.2.2.1 x.2.2.2.2)
    (tuple5_eval (Fails.opt (Fails.delimited (kw_fails (t := c!"where") hk (by decide)))) (terminated_eval ?_ (sp_eval hw1 (n2 _))) hus
      (delimited_eval (sp1_eval hw2 n3) (kw_eval hk') (sp1_eval hw3 n4)) (hg r))
  refine alt_eval2 (p := map (pair deleteClause (opt (preceded sp insertClause))) (fun x => DeleteInsert.deleteInsert x.1 x.2))
    (Fails.map (Fails.pair (Fails.preceded (Fails.terminated (kw_fails hk (by decide)))))) ?_
  refine alt_eval1 (p := map insertClause DeleteInsert.insert) ?_
  exact map_eval (f := DeleteInsert.insert) (preceded_eval (terminated_eval (kw_eval hk) (sp1_eval hw (n1 _))) (quads_accept q x _ hx))

/-- Without USING: `INSERT quads WHERE ...` is left unread, whatever follows. -/
theorem C49_insert_violated (q : Quads) (k w s w1 k' x : Str) (hk : CaseVariant c!"insert" k) (hw : Ws1 w) (h : cQuads q s) (hw1 : Ws w1)
    (hk' : CaseVariant c!"where" k') :
    update (k ++ (w ++ (s ++ (w1 ++ (k' ++ x))))) = .ok (k ++ (w ++ (s ++ (w1 ++ (k' ++ x))))) (.mk ⟨[]⟩ none none) := by
  have n1 : ∃ t, s = '{' :: t := by obtain ⟨_, _, rfl, rfl, _⟩ := h; exact ⟨_, rfl⟩
  have n3 : ¬ StartsWs (k' ++ x) := kw_not_ws hk' (by decide)
  have hq := quads_accept q s (w1 ++ (k' ++ x)) h
  obtain ⟨t, rfl⟩ := n1
  have n1 : ∀ r, ¬ StartsWs ('{' :: t ++ r) := fun _ => not_startsWs_cons rfl
  refine update_unread hk (by simp) ?_
  refine Fails.alt_cons (by other_kw hk) (Fails.alt_cons (by other_kw hk) (Fails.alt_cons (by other_kw hk) (Fails.alt_cons (by other_kw hk)
      (Fails.alt_cons (by other_kw hk) (Fails.alt_cons ?_ (Fails.alt_cons (by other_kw hk) (Fails.alt_cons (by other_kw hk) ?_)))))))
  · exact Fails.map (Fails.preceded2 (terminated_eval (kw_eval hk) (sp1_eval hw (n1 _))) (Fails.preceded (Fails.terminated (First.cons rfl))))
  · have hdi : deleteInsert (k ++ (w ++ ('{' :: t ++ (w1 ++ (k' ++ x))))) = .ok (w1 ++ (k' ++ x)) (.insert q) := by
      refine alt_eval2 (p := map (pair deleteClause (opt (preceded sp insertClause))) (fun x => DeleteInsert.deleteInsert x.1 x.2))
        (Fails.map (Fails.pair (Fails.preceded (Fails.terminated (kw_fails hk (by decide)))))) ?_
      refine alt_eval1 (p := map insertClause DeleteInsert.insert) ?_
      exact map_eval (f := DeleteInsert.insert) (preceded_eval (terminated_eval (kw_eval hk) (sp1_eval hw (n1 _))) hq)
    exact Fails.map (Fails.map (Fails.pair2 (Fails.opt (Fails.delimited (kw_fails (t := c!"where") hk (by decide)))) (Fails.pair2 (terminated_eval hdi (sp_eval hw1 n3))
      (Fails.pair2 (Fails.sep0 (Fails.preceded (Fails.terminated (kw_fails hk' (by decide))))) (Fails.pair (Fails.delimited (sp1_fails n3)))))))

/-- `DELETE { ...` is left unread, whatever follows. -/
theorem C49_delete_violated (k w x : Str) (hk : CaseVariant c!"delete" k) (hw : Ws1 w) :
    update (k ++ (w ++ '{' :: x)) = .ok (k ++ (w ++ '{' :: x)) (.mk ⟨[]⟩ none none) := by
  have n : ¬ StartsWs ('{' :: x) := not_startsWs_cons rfl
  refine update_unread hk (by simp) ?_
  refine Fails.alt_cons (by other_kw hk) (Fails.alt_cons (by other_kw hk) (Fails.alt_cons (by other_kw hk) (Fails.alt_cons (by other_kw hk)
      (Fails.alt_cons (by other_kw hk) (Fails.alt_cons (by other_kw hk) (Fails.alt_cons ?_ (Fails.alt_cons ?_ ?_)))))))
  · exact Fails.map (Fails.preceded2 (terminated_eval (kw_eval hk) (sp1_eval hw n)) (Fails.preceded (Fails.terminated (First.cons (c := '{') rfl))))
  · exact Fails.map (Fails.preceded2 (terminated_eval (kw_eval hk) (sp1_eval hw n)) (Fails.preceded (Fails.terminated (First.cons (c := '{') rfl))))
  · refine Fails.map (Fails.map (Fails.pair2 (Fails.opt (Fails.delimited (kw_fails hk (by decide)))) (Fails.pair (Fails.terminated ?_))))
    exact Fails.alt_cons (Fails.map (Fails.pair (Fails.preceded (Fails.terminated (kw_fails hk (by decide))))))
      (Fails.map (Fails.preceded (Fails.terminated (kw_fails hk (by decide)))))

/-- `WITH ...` is left unread, whatever follows. -/
theorem C49_with_violated (k x : Str) (hk : CaseVariant c!"with" k) : update (k ++ x) = .ok (k ++ x) (.mk ⟨[]⟩ none none) := by
  refine update_unread hk (by simp) ?_
  refine Fails.alt_cons (by other_kw hk) (Fails.alt_cons (by other_kw hk) (Fails.alt_cons (by other_kw hk) (Fails.alt_cons (by other_kw hk)
    (Fails.alt_cons (by other_kw hk) (Fails.alt_cons (by other_kw hk) (Fails.alt_cons (by other_kw hk) (Fails.alt_cons (by other_kw hk) ?_)))))))
  refine Fails.map (Fails.map (Fails.pair2 (Fails.opt (Fails.delimited (kw_fails hk (by decide)))) (Fails.pair (Fails.terminated ?_))))
  exact Fails.alt_cons (Fails.map (Fails.pair (Fails.preceded (Fails.terminated (kw_fails hk (by decide))))))
    (Fails.map (Fails.preceded (Fails.terminated (kw_fails hk (by decide)))))

/-! ## Statements -/

/-- Every canonical statement is read as itself. -/
theorem statement_accepts (cG : GroupGraphPattern → Lang) (hG : ∀ G s, cG G s → ReadsAs groupGraphPattern s G) (st : UpdateStatement) (s r : Str)
    (h : cStatement cG st s) (hr : StmtEnd r) : updateStmt (s ++ r) = .ok r st := by
  have hF := hr.follow
  unfold updateStmt
  cases st with
  | load st => exact alt_eval1 (map_eval (f := UpdateStatement.load) (C46_load st cG s r h hr))
  | clear st =>
    have h1 := C46_clear st cG s r h hF
    obtain ⟨k, x, rfl, hk, _⟩ := h
    rw [List.append_assoc] at h1 ⊢
    exact alt_eval2 (by other_kw hk) (alt_eval1 (map_eval (f := UpdateStatement.clear) h1))
  | drop st =>
    have h1 := C46_drop st cG s r h hF
    obtain ⟨k, x, rfl, hk, _⟩ := h
    rw [List.append_assoc] at h1 ⊢
    exact alt_eval2 (by other_kw hk) (alt_eval2 (by other_kw hk) (alt_eval1 (map_eval (f := UpdateStatement.drop) h1)))
  | create st =>
    have h1 := C46_create st cG s r h hF
    obtain ⟨k, x, rfl, hk, _⟩ := h
    rw [List.append_assoc] at h1 ⊢
    exact alt_eval2 (by other_kw hk) (alt_eval2 (by other_kw hk) (alt_eval2 (by other_kw hk) (alt_eval1 (map_eval (f := UpdateStatement.create) h1))))
  | copy st =>
    have h1 := C46_copy st cG s r h hF
    obtain ⟨k, x, rfl, hk, _⟩ := h
    rw [List.append_assoc] at h1 ⊢
    exact alt_eval2 (by other_kw hk) (alt_eval2 (by other_kw hk) (alt_eval2 (by other_kw hk) (alt_eval2 (by other_kw hk)
      (alt_eval1 (map_eval (f := UpdateStatement.copy) h1)))))
  | add st => exact h.elim
  | move st => exact h.elim
  | insertData q =>
    have h1 := C48_insert_data_partial q cG s r h
    obtain ⟨k, x, rfl, hk, _⟩ := h
    rw [List.append_assoc] at h1 ⊢
    exact alt_eval2 (by other_kw hk) (alt_eval2 (by other_kw hk) (alt_eval2 (by other_kw hk) (alt_eval2 (by other_kw hk)
      (alt_eval2 (by other_kw hk) (alt_eval1 (map_eval (f := UpdateStatement.insertData) h1))))))
  | deleteData q =>
    have h1 := C48_delete_data_partial q cG s r h
    obtain ⟨k, x, rfl, hk, _⟩ := h
    rw [List.append_assoc] at h1 ⊢
    exact alt_eval2 (by other_kw hk) (alt_eval2 (by other_kw hk) (alt_eval2 (by other_kw hk) (alt_eval2 (by other_kw hk)
      (alt_eval2 (by other_kw hk) (alt_eval2 (by other_kw hk) (alt_eval1 (map_eval (f := UpdateStatement.deleteData) h1)))))))
  | deleteWhere q =>
    have h1 := C48_delete_where_partial q cG s r h
    obtain ⟨k, _, rfl, hk, w, _, rfl, hw, k', x, rfl, hk', _⟩ := h
    simp only [List.append_assoc] at h1 ⊢
    refine alt_eval2 (by other_kw hk) (alt_eval2 (by other_kw hk) (alt_eval2 (by other_kw hk) (alt_eval2 (by other_kw hk)
      (alt_eval2 (by other_kw hk) (alt_eval2 (by other_kw hk) (alt_eval2 ?_ (alt_eval1 (map_eval (f := UpdateStatement.deleteWhere) h1))))))))
    exact Fails.map (Fails.preceded2 (terminated_eval (kw_eval hk) (sp1_eval hw (kw_not_ws hk' (by decide))))
      (Fails.preceded (Fails.terminated (kw_fails hk' (by decide)))))
  | modify m =>
    obtain ⟨i, di, l, G⟩ := m
    cases i with
    | some i => cases di <;> exact h.elim
    | none =>
      cases di with
      | deleteInsert d i => exact h.elim
      | insert q =>
        have h1 := C49_insert_using_partial q l G cG s r hG h
        obtain ⟨k, _, rfl, hk, w, _, rfl, hw, x, y, rfl, hx, _⟩ := h
        simp only [List.append_assoc] at h1 ⊢
        obtain ⟨_, t, rfl, rfl, _⟩ := hx
        refine alt_eval2 (by other_kw hk) (alt_eval2 (by other_kw hk) (alt_eval2 (by other_kw hk) (alt_eval2 (by other_kw hk)
          (alt_eval2 (by other_kw hk) (alt_eval2 ?_ (alt_eval2 (by other_kw hk) (alt_eval2 (by other_kw hk) ?_)))))))
        · exact Fails.map (Fails.preceded2 (terminated_eval (kw_eval hk) (sp1_eval (r := '{' :: (t ++ (y ++ r))) hw (not_startsWs_cons rfl)))
            (Fails.preceded (Fails.terminated (First.cons rfl))))
        · exact alt_eval1 (p := map modifyStmt UpdateStatement.modify) (map_eval (f := UpdateStatement.modify) h1)

theorem statement_kw {cG : GroupGraphPattern → Lang} {st : UpdateStatement} {s : Str} (h : cStatement cG st s) :
    ∃ u k t, u ∈ [c!"load", c!"clear", c!"drop", c!"create", c!"copy", c!"add", c!"move", c!"insert", c!"delete", c!"with"] ∧
      CaseVariant u k ∧ s = k ++ t := by
  cases st with
  | add st => exact h.elim
  | move st => exact h.elim
  | modify m =>
    obtain ⟨i, di, l, G⟩ := m
    cases i with
    | some i => cases di <;> exact h.elim
    | none =>
      cases di with
      | deleteInsert d i => exact h.elim
      | insert q => obtain ⟨k, x, rfl, hk, _⟩ := h; exact ⟨_, k, x, by simp, hk, rfl⟩
  | _ => obtain ⟨k, x, rfl, hk, _⟩ := h; exact ⟨_, k, x, by simp, hk, rfl⟩

theorem statement_not_ws {cG : GroupGraphPattern → Lang} {st : UpdateStatement} {s : Str} (h : cStatement cG st s) (r : Str) : ¬ StartsWs (s ++ r) := by
  obtain ⟨u, k, t, hu, hk, rfl⟩ := statement_kw h
  rw [List.append_assoc]
  simp only [List.mem_cons, List.not_mem_nil, or_false] at hu
  rcases hu with rfl | rfl | rfl | rfl | rfl | rfl | rfl | rfl | rfl | rfl <;> exact kw_not_ws hk (by decide)

/-- All the statements of C46 at once, as `update_stmt` reads them. -/
theorem C46_statement_partial (st : UpdateStatement) (s r : Str) (h : cStatement (fun _ _ => False) st s) (hr : StmtEnd r) :
    updateStmt (s ++ r) = .ok r st := statement_accepts _ (fun _ _ h => h.elim) st s r h hr

theorem Ws.noKeyword {r : Str} (h : Ws r) : NoKeyword [c!"base", c!"prefix"] r := by
  intro w k r' t ht e hw hk
  have n : ¬ StartsWs (k ++ r') := by
    simp only [List.mem_cons, List.not_mem_nil, or_false] at ht
    rcases ht with rfl | rfl <;> exact kw_not_ws hk (by decide)
  have h1 := sp_eval hw n
  rw [← e, ← List.append_nil r, sp_eval h not_startsWs_nil] at h1
  have h2 := (Res.ok.inj h1).1
  simp only [List.mem_cons, List.not_mem_nil, or_false] at ht
  rcases ht with rfl | rfl <;>
  · obtain ⟨y, k', rfl, _⟩ := CaseVariant.cons_iff.mp hk
    cases h2

theorem update_nothing {p : Prologue} {s r : Str} (h : cPrologue p s) (hr : Ws r) : update (s ++ r) = .ok r (.mk p none none) := by
  rw [update_eq]
  unfold updateStep
  have : sp r = .ok [] r := by
    have := sp_eval hr not_startsWs_nil
    rwa [List.append_nil] at this
  exact map_ok.mpr ⟨(p, none), pair_eval (C24_prologue p s r h hr.noKeyword) (Fails.opt (Fails.pair (Fails.preceded2 this ⟨_, _, rfl⟩))), rfl⟩

/-- White space before an update can be moved in front of it. -/
theorem cUpdate_strip {cG : GroupGraphPattern → Lang} {u : Update} {s : Str} (h : cUpdate cG u s) :
    ∃ w s', s = w ++ s' ∧ Ws w ∧ cUpdate cG u s' ∧ (s' = [] ∨ ∀ r, ¬ StartsWs (s' ++ r)) := by
  obtain ⟨p, st, i⟩ := u
  obtain ⟨d⟩ := p
  have nd : ∀ {x}, d ≠ [] → cPrologue ⟨d⟩ x → ∀ r, ¬ StartsWs (x ++ r) := by
    intro x hd hx r
    cases d with
    | nil => contradiction
    | cons a l =>
      obtain ⟨y, z, rfl, hy, _⟩ := hx
      rw [List.append_assoc]
      exact (decl_toks a).not_startsWs hy _
  by_cases hd : d = []
  · subst hd
    cases st with
    | none =>
      cases i with
      | none => obtain rfl := h; exact ⟨[], [], rfl, .nil, rfl, .inl rfl⟩
      | some u => exact h.elim
    | some st =>
      cases i with
      | none =>
        obtain ⟨_, _, rfl, rfl, w, x, rfl, hw, hx⟩ := h
        exact ⟨w, x, rfl, hw, ⟨[], x, rfl, rfl, [], x, rfl, .nil, hx⟩, .inr fun r => statement_not_ws hx r⟩
      | some u =>
        obtain ⟨_, _, rfl, rfl, w, _, rfl, hw, x, y, rfl, hx, hy⟩ := h
        refine ⟨w, x ++ y, rfl, hw, ⟨[], _, rfl, rfl, [], _, rfl, .nil, x, y, rfl, hx, hy⟩, .inr fun r => ?_⟩
        rw [List.append_assoc]
        exact statement_not_ws hx _
  · refine ⟨[], s, rfl, .nil, h, .inr ?_⟩
    cases st with
    | none =>
      cases i with
      | none => exact nd hd h
      | some u => exact h.elim
    | some st =>
      cases i with
      | none =>
        obtain ⟨x, y, rfl, hx, _⟩ := h
        intro r; rw [List.append_assoc]; exact nd hd hx _
      | some u =>
        obtain ⟨x, y, rfl, hx, _⟩ := h
        intro r; rw [List.append_assoc]; exact nd hd hx _

/-! ## C50: sequences -/

/-- The request is returned as the chain of its statements, each with its prologue, in order; only white space remains. -/
theorem C50_chain_partial (cG : GroupGraphPattern → Lang) (hG : ∀ G s, cG G s → ReadsAs groupGraphPattern s G) :
    ∀ (u : Update) (s r : Str), cUpdate cG u s → Ws r → ∃ r', Ws r' ∧ update (s ++ r) = .ok r' u
  | .mk p none none, s, r, h, hr => ⟨r, hr, update_nothing h hr⟩
  | .mk p none (some u), s, r, h, hr => h.elim
  | .mk p (some st) none, s, r, h, hr => by
    obtain ⟨x, _, rfl, hx, w, y, rfl, hw, hy⟩ := h
    simp only [List.append_assoc]
    have hst := statement_accepts cG hG st y r hy ⟨r, [], by simp, hr, .inl rfl⟩
    have n := statement_not_ws hy r
    obtain ⟨v, k, t, hv, hk, rfl⟩ := statement_kw hy
    rw [List.append_assoc] at hst n ⊢
    refine ⟨r, hr, ?_⟩
    rw [update_eq]
    unfold updateStep
    have hsp : sp r = .ok [] r := by
      have := sp_eval hr not_startsWs_nil
      rwa [List.append_nil] at this
    exact map_ok.mpr ⟨(p, some (st, none)), pair_eval (C24_prologue p x _ hx (noDecl_update hw hk hv)) (opt_eval (pair_eval
      (preceded_eval (sp_eval hw n) hst) (Fails.opt (Fails.preceded (Fails.delimited2 hsp First.nil))))), rfl⟩
  | .mk p (some st) (some u), s, r, h, hr => by
    obtain ⟨x, _, rfl, hx, w, _, rfl, hw, y, _, rfl, hy, w1, _, rfl, hw1, _, _, rfl, rfl, w2, z, rfl, hw2, hz⟩ := h
    simp only [List.append_assoc]
    obtain ⟨i', w', r', h1, hr', h2⟩ : ∃ i' w' r', sp (w2 ++ (z ++ r)) = .ok i' w' ∧ Ws r' ∧ update i' = .ok r' u := by
      obtain ⟨w0, z', rfl, hw0, hz', rfl | hn⟩ := cUpdate_strip hz
      · obtain ⟨r', hr', h2⟩ := C50_chain_partial cG hG u [] [] hz' .nil
        refine ⟨[], w2 ++ (w0 ++ r), r', ?_, hr', h2⟩
        have := sp_eval (hw2.append (hw0.append hr)) not_startsWs_nil
        simpa using this
      · obtain ⟨r', hr', h2⟩ := C50_chain_partial cG hG u z' r hz' hr
        refine ⟨_, w2 ++ w0, r', ?_, hr', h2⟩
        have := sp_eval (hw2.append hw0) (hn r)
        simpa using this
    have hst := statement_accepts cG hG st y (w1 ++ ';' :: (w2 ++ (z ++ r))) hy ⟨w1, _, rfl, hw1, .inr ⟨_, rfl⟩⟩
    have n := statement_not_ws hy (w1 ++ ';' :: (w2 ++ (z ++ r)))
    obtain ⟨v, k, t, hv, hk, rfl⟩ := statement_kw hy
    rw [List.append_assoc] at hst n ⊢
    refine ⟨r', hr', ?_⟩
    rw [update_eq]
    unfold updateStep
    exact map_ok.mpr ⟨(p, some (st, some u)), pair_eval (C24_prologue p x _ hx (noDecl_update hw hk hv)) (opt_eval (pair_eval
      (preceded_eval (sp_eval hw n) hst) (opt_eval (preceded_eval (delimited_eval (sp_eval hw1 (not_startsWs_cons rfl)) char_eval h1) h2)))), rfl⟩

/-- The texts of groups of triple patterns. -/
def cPatternGroup (G : GroupGraphPattern) : Lang := fun s => ∃ l w t w', G = .groupGraphPatternSub (.mk (some (.mk (l.map Pattern.ast))) []) ∧
  s = '{' :: (w ++ (t ++ (w' ++ c!"}"))) ∧ Ws w ∧ cPatterns l t ∧ Ws w'

theorem patternGroup_reads (G : GroupGraphPattern) (s : Str) (h : cPatternGroup G s) : ReadsAs groupGraphPattern s G := by
  obtain ⟨l, w, t, w', rfl, rfl, hw, ht, hw'⟩ := h
  intro r
  have := C33_patterns_partial l w t w' r hw ht hw'
  simpa using this

/-- With groups of triple patterns. -/
theorem C50_patterns_partial (u : Update) (s r : Str) (h : cUpdate cPatternGroup u s) (hr : Ws r) : ∃ r', Ws r' ∧ update (s ++ r) = .ok r' u :=
  C50_chain_partial cPatternGroup patternGroup_reads u s r h hr

/-- Conversely whatever is returned was written, in this order. -/
theorem C50_accepted (i r : Str) (u : Update) (h : update i = .ok r u) : ∃ s, i = s ++ r ∧ rUpdate u s := Sound.out h

/-- A following ADD or MOVE statement, and all after it, is dropped without error. -/
theorem C50_dropped_violated (cG : GroupGraphPattern → Lang) (hG : ∀ G s, cG G s → ReadsAs groupGraphPattern s G) (st : UpdateStatement)
    (s w w' v k x : Str) (h : cStatement cG st s) (hw : Ws w) (hw' : Ws w') (hv : v = c!"add" ∨ v = c!"move") (hk : CaseVariant v k) :
    update (s ++ (w ++ ';' :: (w' ++ (k ++ x)))) = .ok (k ++ x) (.mk ⟨[]⟩ (some st) (some (.mk ⟨[]⟩ none none))) := by
  have hst := statement_accepts cG hG st s (w ++ ';' :: (w' ++ (k ++ x))) h ⟨w, _, rfl, hw, .inr ⟨_, rfl⟩⟩
  have n := statement_not_ws h (w ++ ';' :: (w' ++ (k ++ x)))
  have n' : ¬ StartsWs (k ++ x) := by rcases hv with rfl | rfl <;> exact kw_not_ws hk (by decide)
  obtain ⟨v', k', t, hv', hk', rfl⟩ := statement_kw h
  rw [List.append_assoc] at hst n ⊢
  rw [update_eq]
  unfold updateStep
  exact map_ok.mpr ⟨(⟨[]⟩, some (st, some (.mk ⟨[]⟩ none none))), pair_eval (C24_prologue ⟨[]⟩ [] _ rfl (noDecl_update (w := []) .nil hk' hv'))
    (opt_eval (pair_eval (preceded_eval (sp_zero n) hst) (opt_eval (preceded_eval (delimited_eval (sp_eval hw (not_startsWs_cons rfl)) char_eval
      (sp_eval hw' n')) (C47_violated v k x hv hk))))), rfl⟩

/-! ## C46: names beginning with `default` -/

/-- `COPY default...:local ...` is left unread, whatever follows. -/
theorem C46_default_violated (k w d p l x : Str) (hk : CaseVariant c!"copy" k) (hw : Ws1 w) (hd : CaseVariant c!"default" d)
    (hp : NotStart (fun c => c ∈ ['t', 'T', ' ', '\t', '\r', '\n', '#']) p) :
    update (k ++ (w ++ (d ++ (p ++ ':' :: (l ++ x))))) = .ok (k ++ (w ++ (d ++ (p ++ ':' :: (l ++ x))))) (.mk ⟨[]⟩ none none) := by
  obtain ⟨c, t, e, hc⟩ : ∃ c t, p ++ ':' :: (l ++ x) = c :: t ∧ c ∉ ['t', 'T', ' ', '\t', '\r', '\n', '#'] := by
    cases p with
    | nil => exact ⟨':', _, rfl, by decide⟩
    | cons c t => exact ⟨c, _, rfl, hp c t rfl⟩
  rw [e]
  simp only [List.mem_cons, List.not_mem_nil, or_false, not_or] at hc
  have n1 : ¬ StartsWs (c :: t) := not_startsWs_cons (by
    cases h : wsStart c with
    | false => rfl
    | true => rcases wsStart_iff.mp h with rfl | rfl | rfl | rfl | rfl <;> simp at hc)
  have n0 : ¬ StartsWs (d ++ c :: t) := kw_not_ws hd (by decide)
  have hto : Fails (tagNoCase c!"to") (c :: t) := ⟨_, _, tagNoCase_error fun a r e hk => by
    obtain ⟨y, k', rfl, hs, _⟩ := CaseVariant.cons_iff.mp hk
    obtain ⟨rfl, _⟩ := List.cons.inj e
    rcases sameLetter_cases hs with rfl | rfl
    · simp at hc
    · exact hc.2.1 rfl⟩
  refine update_unread hk (by simp) ?_
  refine Fails.alt_cons (by other_kw hk) (Fails.alt_cons (by other_kw hk) (Fails.alt_cons (by other_kw hk) (Fails.alt_cons (by other_kw hk)
      (Fails.alt_cons ?_ (Fails.alt_cons (by other_kw hk) (Fails.alt_cons (by other_kw hk) (Fails.alt_cons (by other_kw hk) ?_)))))))
  · exact Fails.map (Fails.map (Fails.pair2 (pair_eval (kw_eval hk) (sp1_eval hw n0)) (Fails.pair2
      (silent_eval (b := false) (s := []) rfl n0 (silent_kw hd (by decide))) (Fails.pair2
        (alt_eval1 (map_eval (f := fun _ => GraphOrDefault.default) (kw_eval hd)))
        (Fails.preceded (Fails.delimited2 (sp_zero n1) hto))))))
  · refine Fails.map (Fails.map (Fails.pair2 (Fails.opt (Fails.delimited (kw_fails hk (by decide)))) (Fails.pair (Fails.terminated ?_))))
    exact Fails.alt_cons (Fails.map (Fails.pair (Fails.preceded (Fails.terminated (kw_fails hk (by decide))))))
      (Fails.map (Fails.preceded (Fails.terminated (kw_fails hk (by decide)))))

/-! Cases. -/
example : update c!"COPY SILENT <a> TO GRAPH <b> ; LOAD <x> INTO GRAPH <y> ; DROP ALL" = .ok [] (.mk ⟨[]⟩ (some (.copy ⟨true, .graph (.iri c!"a"), .graph (.iri c!"b")⟩))
    (some (.mk ⟨[]⟩ (some (.load ⟨.iri c!"x", false, some (.iri c!"y")⟩)) (some (.mk ⟨[]⟩ (some (.drop ⟨false, .all⟩)) none))))) := rfl
example : update c!"ADD <a> TO <b>" = .ok c!"ADD <a> TO <b>" (.mk ⟨[]⟩ none none) := rfl
example : update c!"COPY default:g1 TO <b>" = .ok c!"COPY default:g1 TO <b>" (.mk ⟨[]⟩ none none) := rfl
example : ∃ u, update c!"INSERT DATA { <s> <p> 1 . GRAPH <g> { <s> <p> 2 }GRAPH <h> { } }" = .ok [] (.mk ⟨[]⟩ (some (.insertData u)) none) := ⟨_, rfl⟩
example : update c!"INSERT DATA { GRAPH <g> { <s> <p> 2 } GRAPH <h> { } }" = .ok c!"INSERT DATA { GRAPH <g> { <s> <p> 2 } GRAPH <h> { } }" (.mk ⟨[]⟩ none none) := rfl
example : update c!"INSERT { } WHERE { }" = .ok c!"INSERT { } WHERE { }" (.mk ⟨[]⟩ none none) := rfl
example : ∃ q G, update c!"INSERT { } USING <g> WHERE { <s> <p> $o }" = .ok [] (.mk ⟨[]⟩ (some (.modify ⟨none, .insert q, [.default (.iri c!"g")], G⟩)) none) := ⟨_, _, rfl⟩

end NomSparql
