import Verif.Lemmas.Lists

/-!
# C24 to C29: prologue, dataset clauses, LIMIT / OFFSET, VALUES
-/

namespace NomSparql

/-! ## C24 -/

/-- After leading white space `r` does not begin with one of the keywords. -/
def NoKeyword (ts : List Str) (r : Str) : Prop := ∀ w k r' t, t ∈ ts → r = w ++ (k ++ r') → Ws w → ¬ CaseVariant t k

theorem NoKeyword.fails {ts r} (h : NoKeyword ts r) {t} [KwPlain t] (ht : t ∈ ts) {w r'} (e : r = w ++ r') (hw : Ws w) :
    Fails (tagNoCase t) r' :=
  ⟨_, _, tagNoCase_error fun a r'' e' => h w a r'' t ht (by rw [e, e']) hw⟩

theorem iriRef_not_ws {x t r : Str} (h : cIriRef x t) : ¬ StartsWs (t ++ r) := by
  obtain ⟨rfl, _⟩ := h
  exact not_startsWs_cons rfl

theorem optPrefix_not_ws {o : Option Str} {r : Str} (h : OptPrefix CommonBase CommonNameChar o) :
    ¬ StartsWs (prefixText o ++ ':' :: r) := by
  cases o with
  | none => exact not_startsWs_cons rfl
  | some p =>
    obtain ⟨c, t, rfl, hc, _⟩ := h
    exact not_startsWs_cons (base_tokHead (commonBase_coded _ hc)).ws

theorem decl_accepts (d : BaseOrPrefixDecl) (s r : Str) (h : cDecl d s) :
    alt [map baseDecl .base, map prefixDecl .prefix] (s ++ r) = .ok r d := by
  cases d with
  | base x =>
    obtain ⟨k, _, rfl, hk, w, t, rfl, hw, ht⟩ := h
    refine alt_eval1 (map_eval ?_)
    simp only [List.append_assoc]
    exact preceded_eval (terminated_eval (kw_eval hk) (sp1_eval hw (iriRef_not_ws ht))) (iriRef_accepts x t r ht)
  | «prefix» d =>
    obtain ⟨k, _, rfl, hk, w, _, rfl, hw, _, _, rfl, ⟨rfl, hp⟩, _, _, rfl, rfl, w', t, rfl, hw', ht⟩ := h
    simp only [List.append_assoc]
    refine alt_eval2 (Fails.map (Fails.preceded (Fails.terminated (kw_fails hk (by decide))))) ?_
    refine map_eval (a := d) (f := BaseOrPrefixDecl.prefix) (map_eval (a := (k, d.pnameNs, d.iriRef)) (f := fun x => PrefixDecl.mk x.2.1 x.2.2)
      (tuple3_eval (kw_eval hk) (delimited_eval (sp_eval hw ?_) (pnameNs_ok.mpr ⟨[], .nil, ?_, ?_⟩)
        (sp_eval hw' (iriRef_not_ws ht))) (iriRef_accepts _ t r ht)))
    · exact optPrefix_not_ws hp
    · rfl
    · exact hp.mono commonBase_coded commonNameChar_coded

theorem decl_toks (d : BaseOrPrefixDecl) : Toks (cDecl d) := by
  intro s h
  cases d with
  | base x =>
    obtain ⟨k, _, rfl, hk, _⟩ := h
    obtain ⟨c, t, rfl, hc⟩ := kw_toks (by decide) k hk
    exact ⟨c, _, rfl, hc⟩
  | «prefix» d =>
    obtain ⟨k, _, rfl, hk, _⟩ := h
    obtain ⟨c, t, rfl, hc⟩ := kw_toks (by decide) k hk
    exact ⟨c, _, rfl, hc⟩

theorem decl_fails {ts r} (h : NoKeyword ts r) (h1 : c!"base" ∈ ts) (h2 : c!"prefix" ∈ ts) {w r'} (e : r = w ++ r')
    (hw : Ws w) : Fails (alt [map baseDecl .base, map prefixDecl BaseOrPrefixDecl.prefix]) r' :=
  Fails.alt_cons (Fails.map (Fails.preceded (Fails.terminated (h.fails h1 e hw))))
    (Fails.map (Fails.map (Fails.tuple3 (h.fails h2 e hw))))

/-- Every list of declarations is returned as written, in order, whatever follows (but another declaration). -/
theorem C24_prologue (p : Prologue) (s r : Str) (h : cPrologue p s) (hr : NoKeyword [c!"base", c!"prefix"] r) :
    prologue (s ++ r) = .ok r p := by
  refine map_eval (a := p.decls) (f := Prologue.mk) ?_
  refine sep0_accept (E := fun _ => True) (fun a s r h _ => decl_accepts a s r h) (fun a s h => (decl_toks a).ne_nil h) ?_ ?_
    (fun _ _ _ _ _ _ => trivial) trivial ?_ h ?_
  · exact fun w a s r hw h => ⟨w, sp1_eval hw ((decl_toks a).not_startsWs h r)⟩
  · exact fun w hw => hw.2
  · exact sepStop_sp1 fun w r' e hw => decl_fails hr (by simp) (by simp) e hw
  · exact fun _ => decl_fails hr (by simp) (by simp) (w := []) rfl .nil

/-- Conversely the declarations of an accepted prologue are those of the text read. -/
theorem C24_accepted (i r : Str) (p : Prologue) (h : prologue i = .ok r p) : ∃ s, i = s ++ r ∧ rPrologue p s :=
  Sound.out h

example : prologue c!"BASE <http://a/> prefix x:<b#>\tPREFIX : <c> SELECT" =
    .ok c!" SELECT" ⟨[.base c!"http://a/", .prefix ⟨some c!"x", c!"b#"⟩, .prefix ⟨none, c!"c"⟩]⟩ := rfl

example : cPrologue ⟨[.base c!"a", .prefix ⟨some c!"x", c!"b"⟩]⟩ c!"Base <a>\nPREFIX x: <b>" :=
  ⟨c!"Base <a>", c!"\nPREFIX x: <b>", rfl, ⟨c!"Base", c!" <a>", rfl, kw_rfl rfl, c!" ", _, rfl, ws1_rfl rfl, rfl, by decide⟩,
    c!"\nPREFIX x: <b>", [], rfl, ⟨c!"\n", _, rfl, ws1_rfl rfl, c!"PREFIX", c!" x: <b>", rfl, kw_rfl rfl, c!" ", _, rfl,
      ws_rfl rfl, c!"x", _, rfl, ⟨rfl, 'x', [], rfl, by decide, by simp [NameTail]⟩, c!":", _, rfl, rfl, c!" ", _, rfl, ws_rfl rfl, rfl,
      by decide⟩, rfl⟩

/-! ## C25 -/

theorem cDefaultOrNamedIri_toks (d : DefaultOrNamedIri) : Toks (cDefaultOrNamedIri d) := by
  cases d with
  | default i => exact cIri_toks i
  | named i =>
    rintro s ⟨k, _, rfl, hk, _⟩
    obtain ⟨c, t, rfl, hc⟩ := kw_toks (by decide) k hk
    exact ⟨c, _, rfl, hc⟩

theorem defaultOrNamedIri_accepts : Accepts defaultOrNamedIri cDefaultOrNamedIri := by
  intro d s r h hr
  unfold defaultOrNamedIri
  cases d with
  | named i =>
    obtain ⟨k, _, rfl, hk, w, t, rfl, hw, ht⟩ := h
    simp only [List.append_assoc]
    refine alt_eval1 (map_eval (preceded_eval (terminated_eval (kw_eval hk) (sp1_eval hw ?_)) (iri_accepts i t r ht hr)))
    exact (cIri_toks i).not_startsWs ht r
  | default i =>
    exact alt_eval2 (Fails.map (Fails.preceded (cIri_kw_sp1 (by decide) (by decide) h r)))
      (map_eval (iri_accepts i s r h hr))

theorem precededTag1_accepts {t : Str} [KwTag t] {p : P α} {R : α → Lang} (hp : Accepts p R) (hR : ∀ a, Toks (R a)) :
    Accepts (precededTag1 t p) (fun a => kw t ⬝ Ws1 ⬝ R a) := by
  rintro a s r ⟨k, _, rfl, hk, w, x, rfl, hw, hx⟩ hr
  simp only [List.append_assoc]
  exact preceded_eval (terminated_eval (kw_eval hk) (sp1_eval hw ((hR a).not_startsWs hx r))) (hp a x r hx hr)

/-- `FROM g` is a default graph, `FROM NAMED g` a named one. -/
theorem C25_from (d : DataSetClause) (s r : Str) (h : cDataSetClause d s) (hr : Follow r) :
    dataSetClause (s ++ r) = .ok r d :=
  precededTag1_accepts defaultOrNamedIri_accepts cDefaultOrNamedIri_toks d s r h hr

/-- The same for USING. -/
theorem C25_using (d : DefaultOrNamedIri) (s r : Str) (h : cUsingClause d s) (hr : Follow r) :
    usingClause (s ++ r) = .ok r d :=
  precededTag1_accepts defaultOrNamedIri_accepts cDefaultOrNamedIri_toks d s r h hr

/-- What is returned was written. -/
theorem C25_from_accepted (i r : Str) (d : DataSetClause) (h : dataSetClause i = .ok r d) :
    ∃ s, i = s ++ r ∧ rDataSetClause d s := Sound.out h
theorem C25_using_accepted (i r : Str) (d : DefaultOrNamedIri) (h : usingClause i = .ok r d) :
    ∃ s, i = s ++ r ∧ rUsingClause d s := Sound.out h

theorem cDataSetClause_toks (d : DataSetClause) : Toks (cDataSetClause d) := by
  rintro s ⟨k, _, rfl, hk, _⟩
  obtain ⟨c, t, rfl, hc⟩ := kw_toks (by decide) k hk
  exact ⟨c, _, rfl, hc⟩

theorem cUsingClause_toks (d : DefaultOrNamedIri) : Toks (cUsingClause d) := by
  rintro s ⟨k, _, rfl, hk, _⟩
  obtain ⟨c, t, rfl, hc⟩ := kw_toks (by decide) k hk
  exact ⟨c, _, rfl, hc⟩

theorem clauses_accept {t : Str} [KwPlain t] {q : P α} [Good q] {R : α → Lang} (hp : Accepts (precededTag1 t q) R)
    (hR : ∀ a, Toks (R a)) {l : List α} {s w r : Str} (h : Sep0 Ws1 R l s) (hw : Ws1 w)
    (hr : ¬ StartsWs r) (hc : NotStart (· = ':') r) (hn : NoKeyword [t] (w ++ r)) :
    separatedList sp (precededTag1 t q) (s ++ (w ++ r)) = .ok (w ++ r) l := by
  have hf : ∀ {w' r'}, w ++ r = w' ++ r' → Ws w' → Fails (precededTag1 t q) r' := fun e hw =>
    Fails.preceded (Fails.terminated (hn.fails (by simp) e hw))
  refine sep0_accept (E := Follow) hp (fun a s h => (hR a).ne_nil h) ?_ (fun w hw => hw.2) (follow_ws1 hR)
    (Follow.ws hw.1 (.inl hw.2) hr hc) (sepStop_sp hw hr (hf rfl hw.1)) h (fun _ => hf (w' := []) rfl .nil)
  exact fun w a s r hw h => ⟨w, sp_eval hw.1 ((hR a).not_startsWs h r)⟩

/-- Sequences of dataset clauses keep their order.  Missing for the full property: white space must
follow the last clause (see `C25_end_violated`). -/
theorem C25_sequence_partial (l : List DataSetClause) (s w r : Str) (h : Sep0 Ws1 cDataSetClause l s) (hw : Ws1 w)
    (hr : ¬ StartsWs r) (hc : NotStart (· = ':') r) (hn : NoKeyword [c!"from"] (w ++ r)) :
    dataSetClauses (s ++ (w ++ r)) = .ok (w ++ r) l := clauses_accept C25_from cDataSetClause_toks h hw hr hc hn

theorem C25_using_sequence_partial (l : List DefaultOrNamedIri) (s w r : Str) (h : Sep0 Ws1 cUsingClause l s) (hw : Ws1 w)
    (hr : ¬ StartsWs r) (hc : NotStart (· = ':') r) (hn : NoKeyword [c!"using"] (w ++ r)) :
    separatedList sp usingClause (s ++ (w ++ r)) = .ok (w ++ r) l := clauses_accept C25_using cUsingClause_toks h hw hr hc hn

/-- Every non-empty sequence of dataset clauses that is not followed by white space is rejected,
for example `FROM <g>{ ... }`. -/
theorem C25_end_violated (d : DataSetClause) (l : List DataSetClause) (s r : Str) (h : Sep0 Ws1 cDataSetClause (d :: l) s)
    (hr : Follow r) (hr' : ¬ StartsWs r) (r' : Str) (l' : List DataSetClause) : dataSetClauses (s ++ r) ≠ .ok r' l' :=
  (sep_stuck (sep := sp) (p := dataSetClause) (E := Follow) (Sp := Ws1) C25_from
    (fun w a s r hw h => ⟨w, sp_eval hw.1 ((cDataSetClause_toks a).not_startsWs h r)⟩)
    (follow_ws1 cDataSetClause_toks) hr (sp_zero hr') (l := d :: l) h r' l').2

theorem C25_using_end_violated (d : DefaultOrNamedIri) (l : List DefaultOrNamedIri) (s r : Str)
    (h : Sep0 Ws1 cUsingClause (d :: l) s) (hr : Follow r) (hr' : ¬ StartsWs r) (r' : Str) (l' : List DefaultOrNamedIri) :
    separatedList sp usingClause (s ++ r) ≠ .ok r' l' :=
  (sep_stuck (sep := sp) (p := usingClause) (E := Follow) (Sp := Ws1) C25_using
    (fun w a s r hw h => ⟨w, sp_eval hw.1 ((cUsingClause_toks a).not_startsWs h r)⟩)
    (follow_ws1 cUsingClause_toks) hr (sp_zero hr') (l := d :: l) h r' l').2

/-- In a query: ASK with dataset clauses directly followed by the group is rejected, whatever the group. -/
theorem C25_ask_violated (d : DataSetClause) (l : List DataSetClause) (k w s r : Str) (hk : CaseVariant c!"ask" k) (hw : Ws1 w)
    (h : Sep0 Ws1 cDataSetClause (d :: l) s) (r' : Str) (q : AskQuery) :
    askQuery (k ++ (w ++ (s ++ '{' :: r))) ≠ .ok r' q := by
  intro e
  have hs : ¬ StartsWs (s ++ '{' :: r) := by
    obtain ⟨x, y, rfl, h1, _⟩ := h
    rw [List.append_assoc]
    exact (cDataSetClause_toks d).not_startsWs h1 _
  unfold askQuery at e
  obtain ⟨⟨a, b, c⟩, e, _⟩ := map_ok.mp e
  obtain ⟨r1, e1, e2⟩ := pair_ok_iff.mp e
  obtain ⟨r2, e3, _⟩ := pair_ok_iff.mp e2
  simp only [terminated_ok] at e1 e3
  obtain ⟨r3, w', e1, e4⟩ := e1
  rw [kw_eval hk] at e1
  cases e1
  rw [sp1_eval hw hs] at e4
  cases e4
  obtain ⟨r4, b', e3, _⟩ := e3
  exact C25_end_violated d l s ('{' :: r) h (Follow.ws_close (w := []) .nil (by simp)) (not_startsWs_cons rfl) _ _ e3

example : dataSetClauses c!"FROM <a> from named x:bc FROM <d> {" =
    .ok c!" {" [.default (.iri c!"a"), .named (.prefixedName (.pnameLN (some c!"x") c!"bc")), .default (.iri c!"d")] := rfl
example : ∃ q, askQuery c!"ASK FROM <a> {}" = .ok [] q := ⟨_, rfl⟩
example : ∃ e, askQuery c!"ASK FROM <a>{}" = .err e := ⟨_, rfl⟩
example : Sep0 Ws1 cDataSetClause [.default (.iri c!"a"), .named (.iri c!"b")] c!"FROM <a> FROM NAMED <b>" :=
  ⟨c!"FROM <a>", _, rfl, ⟨c!"FROM", _, rfl, kw_rfl rfl, c!" ", c!"<a>", rfl, ws1_rfl rfl, rfl, by decide⟩,
    c!" FROM NAMED <b>", [], rfl, ⟨c!" ", _, rfl, ws1_rfl rfl, c!"FROM", _, rfl, kw_rfl rfl, c!" ", _, rfl, ws1_rfl rfl,
      c!"NAMED", _, rfl, kw_rfl rfl, c!" ", c!"<b>", rfl, ws1_rfl rfl, rfl, by decide⟩, rfl⟩

/-! ## C26 -/

theorem parseU64_some {s : Str} {n : Nat} : parseU64 s = some n ↔ DecVal s n ∧ n < 2 ^ 64 := by
  constructor
  · exact parseU64_dec
  · rintro ⟨h, hn⟩
    obtain ⟨h1, h2, h3⟩ := decVal_iff.mp h
    unfold parseU64
    rw [if_pos ⟨h1, by simpa [isDecDigit_iff] using h2⟩, if_pos (by rw [← h3]; exact hn), h3]

theorem isDigitU8_iff' {c : Char} : isDigitU8 c = true ↔ LowByteDigit c := by
  unfold isDigitU8 isAsciiDigitCode asU8 LowByteDigit
  simp

theorem intClause_ok {t : Str} [KwTag t] {i r : Str} {n : Nat} : intClause (tagNoCase t) i = .ok r n ↔
    ∃ k w ds, i = k ++ (w ++ (ds ++ r)) ∧ CaseVariant t k ∧ Ws w ∧ DecVal ds n ∧ n < 2 ^ 64 ∧ NotStart LowByteDigit r := by
  unfold intClause
  simp only [mapRes_ok, preceded_ok, terminated_ok, tagNoCase_ok_iff, sp_ok_iff, takeWhile1_ok, parseU64_some]
  constructor
  · rintro ⟨ds, ⟨r1, k, ⟨r2, w, ⟨rfl, hk⟩, rfl, hw, hw'⟩, rfl, h1, h2, h3⟩, h4, h5⟩
    refine ⟨k, w, ds, rfl, hk, hw, h4, h5, ?_⟩
    intro c r' e hc
    have := h3 c r' e
    rw [isDigitU8_iff'.mpr hc] at this; cases this
  · rintro ⟨k, w, ds, rfl, hk, hw, h4, h5, h6⟩
    obtain ⟨a1, a2, a3⟩ := decVal_iff.mp h4
    have hlow : ∀ c ∈ ds, isDigitU8 c = true := by
      intro c hc
      have := a2 c hc
      unfold AsciiDigit at this
      exact isDigitU8_iff'.mpr (by unfold LowByteDigit; omega)
    refine ⟨ds, ⟨ds ++ r, k, ⟨w ++ (ds ++ r), w, ⟨rfl, hk⟩, rfl, hw, ?_⟩, rfl, a1, hlow, ?_⟩, h4, h5⟩
    · cases ds with
      | nil => contradiction
      | cons c ds =>
        apply not_startsWs_cons
        have := a2 c (by simp)
        cases hs : wsStart c with
        | false => rfl
        | true =>
          rcases wsStart_iff.mp hs with rfl | rfl | rfl | rfl | rfl <;> exact absurd this (by decide)
    · intro c r' e
      cases hc : isDigitU8 c with
      | false => rfl
      | true => exact absurd (isDigitU8_iff'.mp hc) (h6 c r' e)

/-- The text of `KEYWORD n`, with `n` in the range of u64. -/
def IntClauseText (t : Str) (n : Nat) : Lang := kw t ⬝ Ws ⬝ fun s => DecVal s n ∧ n < 2 ^ 64

/-- LIMIT is accepted exactly with digits in range, up to the end of the digits, and returned with their value. -/
theorem C26_limit (i r : Str) (n : Nat) : limitClause i = .ok r n ↔
    ∃ s, i = s ++ r ∧ IntClauseText c!"limit" n s ∧ NotStart LowByteDigit r := by
  unfold limitClause
  rw [intClause_ok]
  constructor
  · rintro ⟨k, w, ds, rfl, hk, hw, h1, h2, h3⟩
    exact ⟨k ++ (w ++ ds), by simp, ⟨k, _, rfl, hk, w, _, rfl, hw, h1, h2⟩, h3⟩
  · rintro ⟨_, rfl, ⟨k, _, rfl, hk, w, ds, rfl, hw, h1, h2⟩, h3⟩
    exact ⟨k, w, ds, by simp, hk, hw, h1, h2, h3⟩

theorem C26_offset (i r : Str) (n : Nat) : offsetClause i = .ok r n ↔
    ∃ s, i = s ++ r ∧ IntClauseText c!"offset" n s ∧ NotStart LowByteDigit r := by
  unfold offsetClause
  rw [intClause_ok]
  constructor
  · rintro ⟨k, w, ds, rfl, hk, hw, h1, h2, h3⟩
    exact ⟨k ++ (w ++ ds), by simp, ⟨k, _, rfl, hk, w, _, rfl, hw, h1, h2⟩, h3⟩
  · rintro ⟨_, rfl, ⟨k, _, rfl, hk, w, ds, rfl, hw, h1, h2⟩, h3⟩
    exact ⟨k, w, ds, by simp, hk, hw, h1, h2, h3⟩

instance : DecidablePred LowByteDigit := fun c => by unfold LowByteDigit; infer_instance

theorem low_ws {w r : Str} (hw : Ws w) (h : NotStart LowByteDigit r) : NotStart LowByteDigit (w ++ r) := by
  cases w with
  | nil => exact h
  | cons d w =>
    intro c r' e hc
    cases e
    rcases wsStart_iff.mp (ws_first hw _ _ rfl) with rfl | rfl | rfl | rfl | rfl <;> exact absurd hc (by decide)

theorem kw_low {x : Char} {t k r : Str} (h : CaseVariant (x :: t) k) (hx : ¬ LowByteDigit x ∧ ¬ LowByteDigit (upperOf x)) :
    NotStart LowByteDigit (k ++ r) := by
  obtain ⟨y, k', rfl, hs, _⟩ := CaseVariant.cons_iff.mp h
  rcases sameLetter_cases hs with rfl | rfl
  · exact notStart_cons hx.1
  · exact notStart_cons hx.2

theorem kw_not_ws {x : Char} {t k r : Str} (h : CaseVariant (x :: t) k) (hx : TokHead x ∧ TokHead (upperOf x)) :
    ¬ StartsWs (k ++ r) := (kw_toks (t := t) hx).not_startsWs h r

instance : Soft limitClause := by unfold limitClause intClause; infer_instance
instance : Soft offsetClause := by unfold offsetClause intClause; infer_instance

theorem limitOffset_ok {i r : Str} {l : Nat} {o : Option Nat} : limitOffsetClause i = .ok r (.limitOffset l o) ↔
    ∃ r1 r2 w, limitClause i = .ok r1 l ∧ sp r1 = .ok r2 w ∧ opt offsetClause r2 = .ok r o := by
  unfold limitOffsetClause
  rw [alt_two_ok, alt_one_ok]
  simp only [map_ok, separatedPair_ok]
  constructor
  · rintro (⟨⟨a, b⟩, ⟨r1, r2, w, h1, h2, h3⟩, h⟩ | ⟨_, _, _, h⟩)
    · cases h; exact ⟨r1, r2, w, h1, h2, h3⟩
    · cases h
  · rintro ⟨r1, r2, w, h⟩; exact .inl ⟨(l, o), ⟨r1, r2, w, h⟩, rfl⟩

theorem limit_kw {i r n} (h : offsetClause i = .ok r n) : Fails limitClause i := by
  obtain ⟨_, rfl, ⟨k, _, rfl, hk, _⟩, _⟩ := (C26_offset _ _ _).mp h
  rw [List.append_assoc]
  exact Fails.mapRes (Fails.preceded (Fails.terminated (kw_fails hk (by decide))))

theorem offsetLimit_ok {i r : Str} {o : Nat} {l : Option Nat} : limitOffsetClause i = .ok r (.offsetLimit o l) ↔
    ∃ r1 r2 w, offsetClause i = .ok r1 o ∧ sp r1 = .ok r2 w ∧ opt limitClause r2 = .ok r l := by
  constructor
  · unfold limitOffsetClause
    rw [alt_two_ok, alt_one_ok]
    simp only [map_ok, separatedPair_ok]
    rintro (⟨_, _, h⟩ | ⟨_, ⟨a, b⟩, ⟨r1, r2, w, h1, h2, h3⟩, h⟩)
    · cases h
    · cases h; exact ⟨r1, r2, w, h1, h2, h3⟩
  · rintro ⟨r1, r2, w, h1, h2, h3⟩
    exact alt_eval2 (Fails.map (Fails.separatedPair (limit_kw h1)))
      (map_eval (a := (o, l)) (f := fun x => LimitOffsetClause.offsetLimit x.1 x.2) (separatedPair_eval h1 h2 h3))

theorem intText_low {x : Char} {t s r : Str} {n : Nat} (h : IntClauseText (x :: t) n s)
    (hx : ¬ LowByteDigit x ∧ ¬ LowByteDigit (upperOf x)) (hx' : TokHead x ∧ TokHead (upperOf x)) :
    NotStart LowByteDigit (s ++ r) ∧ ¬ StartsWs (s ++ r) := by
  obtain ⟨k, _, rfl, hk, _⟩ := h
  rw [List.append_assoc]
  exact ⟨kw_low hk hx, kw_not_ws hk hx'⟩

/-- `LIMIT l OFFSET o`: accepted exactly so, with exactly these numbers. -/
theorem C26_limit_offset (i r : Str) (l o : Nat) : limitOffsetClause i = .ok r (.limitOffset l (some o)) ↔
    ∃ a w b, i = a ++ (w ++ (b ++ r)) ∧ IntClauseText c!"limit" l a ∧ Ws w ∧ IntClauseText c!"offset" o b ∧
      NotStart LowByteDigit r := by
  rw [limitOffset_ok]
  constructor
  · rintro ⟨r1, r2, w, h1, h2, h3⟩
    obtain ⟨a, rfl, ha, _⟩ := (C26_limit _ _ _).mp h1
    obtain ⟨rfl, hw, _⟩ := sp_ok_iff.mp h2
    rcases opt_ok.mp h3 with ⟨_, e, h3⟩ | ⟨e, _⟩
    · cases e
      obtain ⟨b, rfl, hb, hr⟩ := (C26_offset _ _ _).mp h3
      exact ⟨a, w, b, rfl, ha, hw, hb, hr⟩
    · cases e
  · rintro ⟨a, w, b, rfl, ha, hw, hb, hr⟩
    have := intText_low (r := r) hb (by decide) (by decide)
    exact ⟨_, _, w, (C26_limit _ _ _).mpr ⟨a, rfl, ha, low_ws hw this.1⟩, sp_eval hw this.2,
      opt_eval ((C26_offset _ _ _).mpr ⟨b, rfl, hb, hr⟩)⟩

/-- `OFFSET o LIMIT l`. -/
theorem C26_offset_limit (i r : Str) (l o : Nat) : limitOffsetClause i = .ok r (.offsetLimit o (some l)) ↔
    ∃ a w b, i = a ++ (w ++ (b ++ r)) ∧ IntClauseText c!"offset" o a ∧ Ws w ∧ IntClauseText c!"limit" l b ∧
      NotStart LowByteDigit r := by
  rw [offsetLimit_ok]
  constructor
  · rintro ⟨r1, r2, w, h1, h2, h3⟩
    obtain ⟨a, rfl, ha, _⟩ := (C26_offset _ _ _).mp h1
    obtain ⟨rfl, hw, _⟩ := sp_ok_iff.mp h2
    rcases opt_ok.mp h3 with ⟨_, e, h3⟩ | ⟨e, _⟩
    · cases e
      obtain ⟨b, rfl, hb, hr⟩ := (C26_limit _ _ _).mp h3
      exact ⟨a, w, b, rfl, ha, hw, hb, hr⟩
    · cases e
  · rintro ⟨a, w, b, rfl, ha, hw, hb, hr⟩
    have := intText_low (r := r) hb (by decide) (by decide)
    exact ⟨_, _, w, (C26_offset _ _ _).mpr ⟨a, rfl, ha, low_ws hw this.1⟩, sp_eval hw this.2,
      opt_eval ((C26_limit _ _ _).mpr ⟨b, rfl, hb, hr⟩)⟩

/-- `LIMIT l` alone: white space after it is read, and no OFFSET clause (in range) follows. -/
theorem C26_limit_only (i r : Str) (l : Nat) : limitOffsetClause i = .ok r (.limitOffset l none) ↔
    ∃ a w, i = a ++ (w ++ r) ∧ IntClauseText c!"limit" l a ∧ Ws w ∧ NotStart LowByteDigit (w ++ r) ∧ ¬ StartsWs r ∧
      ∀ b r' o, r = b ++ r' → IntClauseText c!"offset" o b → ¬ NotStart LowByteDigit r' := by
  rw [limitOffset_ok]
  constructor
  · rintro ⟨r1, r2, w, h1, h2, h3⟩
    obtain ⟨a, rfl, ha, hl⟩ := (C26_limit _ _ _).mp h1
    obtain ⟨rfl, hw, hw'⟩ := sp_ok_iff.mp h2
    rcases opt_ok.mp h3 with ⟨_, e, h3⟩ | ⟨_, rfl, pos, k, h3⟩
    · cases e
    · refine ⟨a, w, rfl, ha, hw, hl, hw', ?_⟩
      intro b r' o e hb hr'
      rw [(C26_offset _ _ _).mpr ⟨b, e, hb, hr'⟩] at h3
      cases h3
  · rintro ⟨a, w, rfl, ha, hw, hl, hw', h⟩
    refine ⟨_, _, w, (C26_limit _ _ _).mpr ⟨a, rfl, ha, hl⟩, sp_eval hw hw', ?_⟩
    rcases Soft.cases offsetClause r with ⟨r', o, e⟩ | e
    · obtain ⟨b, rfl, hb, hr'⟩ := (C26_offset _ _ _).mp e
      exact absurd hr' (h b r' o rfl hb)
    · exact Fails.opt e

/-- `OFFSET o` alone. -/
theorem C26_offset_only (i r : Str) (o : Nat) : limitOffsetClause i = .ok r (.offsetLimit o none) ↔
    ∃ a w, i = a ++ (w ++ r) ∧ IntClauseText c!"offset" o a ∧ Ws w ∧ NotStart LowByteDigit (w ++ r) ∧ ¬ StartsWs r ∧
      ∀ b r' l, r = b ++ r' → IntClauseText c!"limit" l b → ¬ NotStart LowByteDigit r' := by
  rw [offsetLimit_ok]
  constructor
  · rintro ⟨r1, r2, w, h1, h2, h3⟩
    obtain ⟨a, rfl, ha, hl⟩ := (C26_offset _ _ _).mp h1
    obtain ⟨rfl, hw, hw'⟩ := sp_ok_iff.mp h2
    rcases opt_ok.mp h3 with ⟨_, e, h3⟩ | ⟨_, rfl, pos, k, h3⟩
    · cases e
    · refine ⟨a, w, rfl, ha, hw, hl, hw', ?_⟩
      intro b r' o e hb hr'
      rw [(C26_limit _ _ _).mpr ⟨b, e, hb, hr'⟩] at h3
      cases h3
  · rintro ⟨a, w, rfl, ha, hw, hl, hw', h⟩
    refine ⟨_, _, w, (C26_offset _ _ _).mpr ⟨a, rfl, ha, hl⟩, sp_eval hw hw', ?_⟩
    rcases Soft.cases limitClause r with ⟨r', o, e⟩ | e
    · obtain ⟨b, rfl, hb, hr'⟩ := (C26_limit _ _ _).mp e
      exact absurd hr' (h b r' o rfl hb)
    · exact Fails.opt e

/-- A LIMIT or OFFSET clause with a number above `2^64 - 1` is not accepted. -/
theorem C26_overflow (t k w ds r : Str) (n : Nat) (ht : t = c!"limit" ∨ t = c!"offset") (hk : CaseVariant t k) (hw : Ws w)
    (hd : DecVal ds n) (hn : 2 ^ 64 ≤ n) (hr : NotStart AsciiDigit r) :
    ∃ pos e, limitOffsetClause (k ++ (w ++ (ds ++ r))) = .err (.error pos e) := by
  have hds : ¬ StartsWs (ds ++ r) := by
    obtain ⟨a1, a2, _⟩ := decVal_iff.mp hd
    cases ds with
    | nil => contradiction
    | cons c ds =>
      apply not_startsWs_cons
      have := a2 c (by simp)
      cases hs : wsStart c with
      | false => rfl
      | true => rcases wsStart_iff.mp hs with rfl | rfl | rfl | rfl | rfl <;> exact absurd this (by decide)
  have key : ∀ t [KwPlain t], CaseVariant t k → Soft (intClause (tagNoCase t)) →
      Fails (intClause (tagNoCase t)) (k ++ (w ++ (ds ++ r))) := by
    intro t ht hk hsoft
    have hT := ht.kwTag
    rcases Soft.cases (intClause (tagNoCase t)) (k ++ (w ++ (ds ++ r))) with ⟨r', m, e⟩ | e
    · exfalso
      unfold intClause at e
      obtain ⟨x, e, hx⟩ := mapRes_ok.mp e
      rw [preceded_cont (terminated_eval (kw_eval hk) (sp_eval hw hds))] at e
      obtain ⟨h1, h2⟩ := parseU64_some.mp hx
      obtain ⟨e1, _, _, e2⟩ := takeWhile1_ok.mp e
      obtain ⟨-, b1, b2⟩ := decVal_iff.mp hd
      obtain ⟨-, c1, c2⟩ := decVal_iff.mp h1
      have : ds = x := by
        rcases List.append_eq_append_iff.mp e1 with ⟨a, rfl, ha⟩ | ⟨a, rfl, ha⟩
        · cases a with
          | nil => simp
          | cons y a => exact absurd (c1 y (by simp)) (hr y _ ha)
        · cases a with
          | nil => simp
          | cons y a =>
            have := e2 y _ ha
            rw [isDigitU8_of_digit (b1 y (by simp))] at this
            cases this
      subst this
      omega
    · exact e
  unfold limitOffsetClause
  rcases ht with rfl | rfl
  · have h1 : Fails limitClause (k ++ (w ++ (ds ++ r))) := key c!"limit" hk (by unfold intClause; infer_instance)
    have h2 : Fails offsetClause (k ++ (w ++ (ds ++ r))) :=
      Fails.mapRes (Fails.preceded (Fails.terminated (kw_fails hk (by decide))))
    exact Fails.alt_cons (Fails.map (Fails.separatedPair h1))
      (Fails.alt_cons (Fails.map (Fails.separatedPair h2)) (Fails.alt_nil))
  · have h1 : Fails offsetClause (k ++ (w ++ (ds ++ r))) := key c!"offset" hk (by unfold intClause; infer_instance)
    have h2 : Fails limitClause (k ++ (w ++ (ds ++ r))) :=
      Fails.mapRes (Fails.preceded (Fails.terminated (kw_fails hk (by decide))))
    exact Fails.alt_cons (Fails.map (Fails.separatedPair h2))
      (Fails.alt_cons (Fails.map (Fails.separatedPair h1)) (Fails.alt_nil))

/-! Cases of C26. -/
example : limitOffsetClause c!"LIMIT 10 offset 3 x" = .ok c!" x" (.limitOffset 10 (some 3)) := rfl
example : limitOffsetClause c!"offset 3 LIMIT 010" = .ok [] (.offsetLimit 3 (some 10)) := rfl
example : limitOffsetClause c!"limit 3 VALUES" = .ok c!"VALUES" (.limitOffset 3 none) := rfl
example : limitOffsetClause c!"limit 18446744073709551615" = .ok [] (.limitOffset 18446744073709551615 none) := rfl
example : ∃ pos k, limitOffsetClause c!"limit 18446744073709551616" = .err (.error pos k) := ⟨_, _, rfl⟩

/-! ## C27 -/

theorem values_accept {l : List DataBlockValue} {s r : Str} {c : Char} (hc : c = ')' ∨ c = '}') (h : cValues l s) :
    preceded sp (many0 (spEnc datablockValue)) (s ++ c :: r) = .ok (c :: r) l := by
  obtain ⟨w0, _, rfl, hw0, s, wn, rfl, h, hwn⟩ := h
  simp only [List.append_assoc]
  have hF : ∀ w, Ws w → Follow (w ++ c :: r) := fun w hw => Follow.ws_close hw (by rcases hc with rfl | rfl <;> simp)
  refine sp_enc_accept (E := Follow) datablockValue_accepts cDataBlockValue_toks (fun w h => h.1)
    (follow_ws1 cDataBlockValue_toks) hw0 hwn (hF _ hwn) (hF [] .nil) ?_ ?_ h
  · rcases hc with rfl | rfl <;> exact not_startsWs_cons rfl
  · rcases hc with rfl | rfl <;> exact First.cons rfl

theorem cRow_toks (l : List DataBlockValue) : Toks (cRow l) := by
  rintro _ ⟨_, _, rfl, rfl, _⟩
  exact ⟨'(', _, rfl, by decide⟩

theorem row_accepts (l : List DataBlockValue) (s r : Str) (h : cRow l s) (_ : True) :
    bracketted (preceded sp (many0 (spEnc datablockValue))) (s ++ r) = .ok r l := by
  obtain ⟨_, _, rfl, rfl, s, _, rfl, h, rfl⟩ := h
  simp only [List.append_assoc]
  exact delimited_eval char_eval (values_accept (.inl rfl) h) char_eval

theorem braces_accept {α : Type} {p : P (List α)} {l : List α} {w s r : Str} (hw : Ws w)
    (h : preceded sp p (s ++ '}' :: r) = .ok ('}' :: r) l) :
    delimited (spEnc (char '{')) p (preceded sp (char '}')) (w ++ '{' :: (s ++ '}' :: r)) = .ok r l := by
  obtain ⟨r1, w', h1, h2⟩ := preceded_ok.mp h
  exact delimited_eval (delimited_eval (sp_eval hw (not_startsWs_cons rfl)) char_eval h1) h2
    (preceded_eval (sp_zero (not_startsWs_cons rfl)) char_eval)

theorem inlineDataFull_accepts (d : InlineDataFull) (s r : Str) (h : cDataBlock (.inlineDataFull d) s) :
    inlineDataFull (s ++ r) = .ok r d := by
  obtain ⟨vs, rows⟩ := d
  obtain ⟨_, _, rfl, ⟨_, _, rfl, rfl, _, _, rfl, ⟨w0, _, rfl, hw0, sv, wn, rfl, hv, hwn⟩, rfl⟩,
    w, _, rfl, hw, _, _, rfl, rfl, _, _, rfl, ⟨u0, _, rfl, hu0, sr, un, rfl, hrows, hun⟩, rfl⟩ := h
  simp only [List.append_assoc]
  refine map_eval (a := (vs, rows)) (f := fun x => ({ vars := x.1, dataBlockValues := x.2 } : InlineDataFull))
    (pair_eval (delimited_eval (r1 := w0 ++ (sv ++ (wn ++ ')' :: _))) (r2 := ')' :: _) char_eval
      (sp_enc_accept (E := Follow) var_accepts cVar_toks (fun w h => h.1)
      (follow_ws1 cVar_toks) hw0 hwn (Follow.ws_close hwn (by simp)) (Follow.ws_close (w := []) .nil (by simp))
      (not_startsWs_cons rfl) (First.cons rfl) hv) char_eval) ?_)
  have := sp_enc_accept (E := fun _ => True) (r := '}' :: r) row_accepts cRow_toks (fun _ h => h) (fun _ _ _ _ _ _ => trivial) hu0 hun
    trivial trivial (not_startsWs_cons rfl) (First.cons rfl) hrows
  simpa using braces_accept (s := u0 ++ (sr ++ un)) hw (by simpa using this)

theorem inlineDataOneVar_accepts (d : InlineDataOneVar) (s r : Str) (h : cDataBlock (.inlineDataOneVar d) s) :
    inlineDataOneVar (s ++ r) = .ok r d := by
  obtain ⟨v, l⟩ := d
  obtain ⟨sv, _, rfl, hv, w, _, rfl, hw, _, _, rfl, rfl, s, _, rfl, hs, rfl⟩ := h
  simp only [List.append_assoc]
  exact map_eval (a := (v, l)) (f := fun x => ({ var := x.1, values := x.2 } : InlineDataOneVar))
    (pair_eval (var_accepts _ _ _ hv (Follow.ws_close hw (by simp))) (braces_accept hw (values_accept (.inr rfl) hs)))

/-- Every data block in canonical form is read back exactly, in order, whatever follows. -/
theorem C27_datablock (d : DataBlock) (s r : Str) (h : cDataBlock d s) : datablock (s ++ r) = .ok r d := by
  cases d with
  | inlineDataOneVar d => exact alt_eval1 (map_eval (inlineDataOneVar_accepts d s r h))
  | inlineDataFull d =>
    refine alt_eval2 ?_ (map_eval (inlineDataFull_accepts d s r h))
    obtain ⟨_, _, rfl, ⟨_, _, rfl, rfl, _⟩, _⟩ := h
    exact First.cons rfl

/-- ... and in the other direction, every accepted data block is a rendering of the returned one. -/
theorem C27_accepted (i r : Str) (d : DataBlock) (h : datablock i = .ok r d) : ∃ s, i = s ++ r ∧ rDataBlock d s :=
  Sound.out h

/-- The same for the `VALUES` clause inside a pattern or after a query. -/
theorem C27_clause (k w s r : Str) (d : DataBlock) (hk : CaseVariant c!"values" k) (hw : Ws1 w) (h : cDataBlock d s) :
    inlineData (k ++ (w ++ (s ++ r))) = .ok r d ∧ valuesClause (k ++ (w ++ (s ++ r))) = .ok r (some d) := by
  have hs : ¬ StartsWs (s ++ r) := by
    cases d with
    | inlineDataOneVar d =>
      obtain ⟨sv, _, rfl, hv, _⟩ := h
      rw [List.append_assoc]; exact (cVar_toks _).not_startsWs hv _
    | inlineDataFull d =>
      obtain ⟨_, _, rfl, ⟨_, _, rfl, rfl, _⟩, _⟩ := h
      exact not_startsWs_cons rfl
  have : inlineData (k ++ (w ++ (s ++ r))) = .ok r d :=
    preceded_eval (terminated_eval (kw_eval hk) (sp1_eval hw hs)) (C27_datablock d s r h)
  exact ⟨this, opt_eval this⟩

example : datablock c!"(?ab ?cd) { (<x> UNDEF) (1 \"t\"@en) () }x" = .ok c!"x" (.inlineDataFull
    { vars := [.qmark c!"ab", .qmark c!"cd"], dataBlockValues :=
      [[.iri (.iri c!"x"), .undef], [.numericLiteral (.int 1), .rdfLiteral ⟨c!"t", some (.langTag c!"en")⟩], []] }) := rfl

/-! ## C28 -/

theorem sep0_exists {α : Type} {R : α → Lang} {Sp : Lang} (hSp : Sp c!" ") {l : List α} (h : ∀ a ∈ l, ∃ s, R a s) : ∃ s, Sep0 Sp R l s := by
  cases l with
  | nil => exact ⟨[], rfl⟩
  | cons a l =>
    obtain ⟨x, hx⟩ := h a (by simp)
    have : ∃ s, Many (fun b => Sp ⬝ R b) l s := by
      replace h : ∀ b ∈ l, ∃ s, R b s := fun b hb => h b (by simp [hb])
      induction l with
      | nil => exact ⟨[], rfl⟩
      | cons b l ih =>
        obtain ⟨y, hy⟩ := h b (by simp)
        obtain ⟨z, hz⟩ := ih (fun c hc => h c (by simp [hc]))
        exact ⟨_, _, _, rfl, ⟨_, _, rfl, hSp, hy⟩, hz⟩
    obtain ⟨y, hy⟩ := this
    exact ⟨_, _, _, rfl, hx, hy⟩

/-- Data blocks with any variables and any rows, of whatever lengths, are accepted. -/
theorem C28_any_rows_violated (vs : List Var) (rows : List (List DataBlockValue)) (hv : ∀ v ∈ vs, ∃ s, cVar v s)
    (hrows : ∀ row ∈ rows, ∀ x ∈ row, ∃ s, cDataBlockValue x s) :
    ∃ s, datablock s = .ok [] (.inlineDataFull { vars := vs, dataBlockValues := rows }) := by
  obtain ⟨a, ha⟩ := sep0_exists (Sp := Ws1) (ws1_rfl rfl) hv
  obtain ⟨b, hb⟩ : ∃ s, Sep0 Ws cRow rows s := sep0_exists (ws_rfl rfl) fun row hrow => by
    obtain ⟨y, hy⟩ := sep0_exists (Sp := Ws1) (ws1_rfl rfl) (hrows row hrow)
    exact ⟨_, _, _, rfl, rfl, _, _, rfl, ⟨[], _, rfl, .nil, y, [], rfl, hy, .nil⟩, rfl⟩
  refine ⟨_, (List.append_nil _).symm ▸ C27_datablock (.inlineDataFull { vars := vs, dataBlockValues := rows }) _ []
    ⟨_, _, rfl, ⟨_, _, rfl, rfl, _, _, rfl, ⟨[], _, rfl, .nil, a, [], rfl, ha, .nil⟩, rfl⟩, [], _, rfl, .nil, _, _, rfl, rfl,
      _, _, rfl, ⟨[], _, rfl, .nil, b, [], rfl, hb, .nil⟩, rfl⟩⟩

/-- For every number of variables and every list of row lengths there is an accepted block. -/
theorem C28_violated (m : Nat) (ns : List Nat) : ∃ s d, datablock s = .ok [] (.inlineDataFull d) ∧ d.vars.length = m ∧
    d.dataBlockValues.map List.length = ns := by
  obtain ⟨s, hs⟩ := C28_any_rows_violated (List.replicate m (.qmark c!"a")) (ns.map fun n => List.replicate n .undef)
    (fun v hv => ⟨c!"?a", by
      obtain ⟨-, rfl⟩ := List.mem_replicate.mp hv
      exact ⟨rfl, by decide, by decide⟩⟩)
    (fun row hrow x hx => ⟨c!"undef", by
      obtain ⟨n, -, rfl⟩ := List.mem_map.mp hrow
      obtain ⟨-, rfl⟩ := List.mem_replicate.mp hx
      exact kw_rfl rfl⟩)
  exact ⟨s, _, hs, by simp, by rw [List.map_map]; exact (List.map_congr_left fun n _ => List.length_replicate).trans (List.map_id ns)⟩

example : ∃ d, datablock c!"(?a ?b){(1)(1 2 3)()}" = .ok [] d := ⟨_, rfl⟩

/-! ## C29 -/

/-- The solution modifier whose text can end anywhere: the last part is a GROUP BY, HAVING or ORDER BY list, or a LIMIT with an
OFFSET (or the other way round). -/
def OpenEnded : SolutionModifier → Prop
  | .mk o g h none => o.isSome ∨ g.isSome ∨ h.isSome
  | .mk _ _ _ (some (.limitOffset _ o)) => o.isSome
  | .mk _ _ _ (some (.offsetLimit _ l)) => l.isSome

def queryModifier : SparqlQuery → SolutionModifier
  | .ask q => q.solutionModifier
  | .select q => q.solutionModifier
  | .describe q => q.solutionModifier
  | .construct (.subConstruct q) => q.solutionModifier
  | .construct (.subTriples q) => q.solutionModifier

theorem limitOffset_end {i r l} (h : limitOffsetClause i = .ok r l) (hr : StartsWs r) : OpenEnded (.mk none none none (some l)) := by
  cases l with
  | limitOffset l o =>
    cases o with
    | some o => rfl
    | none => obtain ⟨_, _, _, _, _, _, hn, _⟩ := (C26_limit_only _ _ _).mp h; exact absurd hr hn
  | offsetLimit l o =>
    cases o with
    | some o => rfl
    | none => obtain ⟨_, _, _, _, _, _, hn, _⟩ := (C26_offset_only _ _ _).mp h; exact absurd hr hn

theorem modifier_end {i r m} (h : solutionModifier i = .ok r m) (hi : ¬ StartsWs i) (hr : StartsWs r) : OpenEnded m := by
  unfold solutionModifier solutionModifierS at h
  obtain ⟨⟨g, ha, o, l⟩, h0, rfl⟩ := map_ok.mp h
  obtain ⟨r1, r2, r3, h1, h2, h3, h4⟩ := tuple4_ok.mp h0
  rcases opt_ok.mp h4 with ⟨x, e, h5⟩ | ⟨e, e', _⟩
  · simp only at e
    subst e
    obtain ⟨r4, w, _, h6⟩ := preceded_ok.mp h5
    have := limitOffset_end h6 hr
    cases x <;> exact this
  · simp only at e e'
    subst e e'
    refine Classical.byContradiction fun hn => ?_
    simp only [OpenEnded, not_or, Bool.not_eq_true, Option.isSome_eq_false_iff, Option.isNone_iff_eq_none] at hn
    obtain ⟨rfl, rfl, rfl⟩ := hn
    simp only [opt_ok, reduceCtorEq, false_and, exists_false, false_or, true_and] at h1 h2 h3
    obtain ⟨rfl, _⟩ := h1
    obtain ⟨rfl, _⟩ := h2
    obtain ⟨rfl, _⟩ := h3
    exact hi hr

theorem sp_end {p : P α} {i r a} (h : terminated p sp i = .ok r a) : ¬ StartsWs r := by
  obtain ⟨_, _, _, h⟩ := terminated_ok.mp h
  exact (sp_ok_iff.mp h).2.2

theorem enc_end {p : P α} {i r a} (h : spEnc p i = .ok r a) : ¬ StartsWs r := by
  obtain ⟨_, _, _, h⟩ := preceded_ok.mp h
  exact sp_end h

theorem query_end {i r q} (h : sparqlQuery i = .ok r q) (hr : StartsWs r) : OpenEnded (queryModifier q) := by
  unfold sparqlQuery at h
  simp only [alt_two_ok, alt_one_ok, map_ok] at h
  rcases h with ⟨q, h, rfl⟩ | ⟨_, ⟨q, h, rfl⟩ | ⟨_, ⟨q, h, rfl⟩ | ⟨_, q, h, rfl⟩⟩⟩
  · unfold selectQuery at h
    obtain ⟨x, h0, rfl⟩ := map_ok.mp h
    obtain ⟨r1, r2, r3, h1, h2, h3, h4⟩ := tuple4_ok.mp h0
    exact modifier_end h4 (enc_end h3) hr
  · unfold constructQuery at h
    obtain ⟨_, _, _, hc⟩ := preceded_ok.mp h
    simp only [alt_two_ok, alt_one_ok] at hc
    rcases hc with hc | ⟨_, hc⟩ <;> obtain ⟨q, hq, rfl⟩ := map_ok.mp hc
    · unfold subConstruct at hq
      obtain ⟨x, h0, rfl⟩ := map_ok.mp hq
      obtain ⟨r1, r2, r3, h1, h2, h3, h4⟩ := tuple4_ok.mp h0
      exact modifier_end h4 (sp_end h3) hr
    · unfold subTriples at hq
      obtain ⟨x, h0, rfl⟩ := map_ok.mp hq
      obtain ⟨r1, r2, r3, h1, h2, h3, h4⟩ := tuple4_ok.mp h0
      obtain ⟨_, _, h5, h6⟩ := preceded_ok.mp h4
      exact modifier_end h6 (sp_ok_iff.mp h5).2.2 hr
  · unfold describeQuery at h
    obtain ⟨x, h0, rfl⟩ := map_ok.mp h
    obtain ⟨r1, r2, r3, r4, h1, h2, h3, h4, h5⟩ := tuple5_ok.mp h0
    refine modifier_end h5 ?_ hr
    rcases opt_ok.mp h4 with ⟨_, _, h6⟩ | ⟨_, rfl, _⟩
    · exact sp_end h6
    · exact sp_end h3
  · unfold askQuery at h
    obtain ⟨x, h0, rfl⟩ := map_ok.mp h
    obtain ⟨r1, r2, r3, h1, h2, h3, h4⟩ := tuple4_ok.mp h0
    exact modifier_end h4 (sp_end h3) hr

/-- A VALUES block is attached only after a GROUP BY, HAVING or ORDER BY list or after LIMIT with OFFSET: after every other
query it is left unread - directly after the group, and after LIMIT or OFFSET alone. -/
theorem C29_only_after_modifier_violated (i r : Str) (st : SparqlQueryStatement) (d : DataBlock)
    (h : sparqlQueryStmt i = .ok r st) (hv : st.values = some d) : OpenEnded (queryModifier st.query) := by
  unfold sparqlQueryStmt at h
  obtain ⟨⟨p, q, v⟩, h0, rfl⟩ := map_ok.mp h
  obtain ⟨r1, r2, h1, h2, h3⟩ := tuple3_ok.mp h0
  simp only at hv h1 h2 h3
  subst hv
  rcases opt_ok.mp h3 with ⟨_, e, h5⟩ | ⟨e, _⟩
  · obtain ⟨r3, w, h4, _⟩ := preceded_ok.mp h5
    refine query_end h2 ?_
    obtain ⟨rfl, hw, _⟩ := sp1_ok_iff.mp h4
    exact startsWs_of_ws1 hw
  · cases e

/-- The clause is attached when the query ends before white space and VALUES. -/
theorem C29_attached_partial (i i1 w k w' s r : Str) (p : Prologue) (q : SparqlQuery) (d : DataBlock)
    (hp : terminated prologue sp i = .ok i1 p) (hq : sparqlQuery i1 = .ok (w ++ (k ++ (w' ++ (s ++ r)))) q) (hw : Ws1 w)
    (hk : CaseVariant c!"values" k) (hw' : Ws1 w') (hs : cDataBlock d s) :
    sparqlQueryStmt i = .ok r { prologue := p, query := q, values := some d } := by
  have hk' : ¬ StartsWs (k ++ (w' ++ (s ++ r))) := kw_not_ws hk (by decide)
  exact map_eval (a := (p, q, some d)) (f := fun x => ({ prologue := x.1, query := x.2.1, values := x.2.2 } : SparqlQueryStatement))
    (tuple3_eval hp hq (opt_eval (preceded_eval (sp1_eval hw hk') (C27_clause k w' s r d hk hw' hs).1)))

theorem ReadsAs.brace {g : Str} {G : GroupGraphPattern} (h : ReadsAs groupGraphPattern g G) : ∃ t, g = '{' :: t := by
  have := h []
  rw [List.append_nil] at this
  cases g with
  | nil => cases this
  | cons c t =>
    by_cases hc : c = '{'
    · exact ⟨t, by rw [hc]⟩
    · obtain ⟨_, _, e⟩ := (First.cons (by simpa using hc) : Fails groupGraphPattern (c :: t))
      rw [e] at this; cases this

theorem modifier_none {i : Str} (h0 : ¬ StartsWs i)
    (h1 : ∀ t ∈ [c!"group", c!"having", c!"order", c!"limit", c!"offset"], Fails (tagNoCase t) i) :
    solutionModifier i = .ok i (.mk none none none none) := by
  have hsp := sp_zero h0
  have f1 : Fails (groupClauseS R₀) i := Fails.map (Fails.preceded (Fails.terminated (Fails.delimited (h1 _ (by simp)))))
  have f2 : Fails (preceded sp (havingClauseS R₀)) i :=
    Fails.preceded2 hsp (Fails.map (Fails.preceded (Fails.terminated (h1 _ (by simp)))))
  have f3 : Fails (preceded sp (orderClauseS R₀)) i :=
    Fails.preceded2 hsp (Fails.map (Fails.preceded (Fails.terminated (Fails.delimited (h1 _ (by simp))))))
  have f4 : Fails (preceded sp limitOffsetClause) i :=
    Fails.preceded2 hsp (Fails.alt_cons (Fails.map (Fails.separatedPair (Fails.mapRes (Fails.preceded (Fails.terminated (h1 _ (by simp)))))))
      (Fails.alt_cons (Fails.map (Fails.separatedPair (Fails.mapRes (Fails.preceded (Fails.terminated (h1 _ (by simp))))))) Fails.alt_nil))
  exact map_eval (a := (none, none, none, none)) (f := fun x => SolutionModifier.mk x.2.2.1 x.1 x.2.1 x.2.2.2)
    (tuple4_eval f1.opt f2.opt f3.opt f4.opt)

theorem whereClause_brace {g r : Str} {G : GroupGraphPattern} (hg : ReadsAs groupGraphPattern g G) :
    whereClause (g ++ r) = .ok r G := by
  obtain ⟨t, rfl⟩ := hg.brace
  exact preceded_eval (Fails.opt (Fails.terminated (First.cons rfl))) (hg r)

theorem noKeyword_one {a b : Char} {t u k w x : Str} [KwTag (a :: t)] (hw : Ws w) (hk : CaseVariant (b :: u) k)
    (h : (a :: t).all (fun c => decide (KwLetter c)) = true ∧ (b :: u).all (fun c => decide (KwLetter c)) = true ∧
      clash (a :: t) (b :: u) = true)
    (ha : TokHead a ∧ TokHead (upperOf a)) (hb : TokHead b ∧ TokHead (upperOf b)) :
    ∀ w' k' r', w ++ (k ++ x) = w' ++ (k' ++ r') → Ws w' → ¬ CaseVariant (a :: t) k' := by
  intro w' k' r' e hw' hk'
  have h1 := sp_eval hw (kw_not_ws (r := x) hk hb)
  rw [e, sp_eval hw' (kw_not_ws (r := r') hk' ha)] at h1
  obtain ⟨_, _, h2⟩ := kw_fails (r := x) hk h
  rw [← (Res.ok.inj h1).1, kw_eval hk'] at h2
  cases h2

/-- No declaration before the query keyword. -/
theorem noDecl {u k w x : Str} (hw : Ws w) (hk : CaseVariant u k) (hu : u ∈ [c!"ask", c!"select", c!"construct", c!"describe"]) :
    NoKeyword [c!"base", c!"prefix"] (w ++ (k ++ x)) := by
  intro w' k' r' t ht e hw' 
  simp only [List.mem_cons, List.not_mem_nil, or_false] at ht hu
  rcases ht with rfl | rfl <;> rcases hu with rfl | rfl | rfl | rfl <;>
    exact noKeyword_one hw hk (by decide) (by decide) (by decide) _ _ _ e hw'

/-- After any prologue ASK with any group and then VALUES, whatever follows: the clause is left unread and no values are
returned. -/
theorem C29_ask_violated (p : Prologue) (ps w0 g k w k' w' r : Str) (G : GroupGraphPattern) (hp : cPrologue p ps) (hw0 : Ws w0)
    (hg : ReadsAs groupGraphPattern g G)
    (hk : CaseVariant c!"ask" k) (hw : Ws1 w) (hw' : Ws w') (hk' : CaseVariant c!"values" k') :
    sparqlQueryStmt (ps ++ (w0 ++ (k ++ (w ++ (g ++ (w' ++ (k' ++ r))))))) = .ok (k' ++ r) {
      prologue := p
      query := .ask { datasetClauses := [], whereClause := G, solutionModifier := .mk none none none none }
      values := none } := by
  have n1 : ¬ StartsWs (k ++ (w ++ (g ++ (w' ++ (k' ++ r))))) := kw_not_ws hk (by decide)
  have n2 : ¬ StartsWs (k' ++ r) := kw_not_ws hk' (by decide)
  obtain ⟨t, ht⟩ := hg.brace
  have n3 : ∀ x, ¬ StartsWs (g ++ x) := by rw [ht]; exact fun x => not_startsWs_cons rfl
  have hf : Fails sp1 (k' ++ r) := by
    rcases Soft.cases sp1 (k' ++ r) with ⟨r', w, e⟩ | e
    · obtain ⟨e, h1, _⟩ := sp1_ok_iff.mp e
      exact absurd (e ▸ startsWs_of_ws1 h1) n2
    · exact e
  refine map_eval (a := (p, .ask { datasetClauses := [], whereClause := G, solutionModifier := .mk none none none none }, none))
    (f := fun x => ({ prologue := x.1, query := x.2.1, values := x.2.2 } : SparqlQueryStatement))
    (tuple3_eval (r1 := k ++ (w ++ (g ++ (w' ++ (k' ++ r)))))
      (terminated_eval (C24_prologue p ps _ hp (noDecl hw0 hk (by simp))) (sp_eval hw0 n1)) ?_ (Fails.opt (Fails.preceded hf)))
  refine alt_eval2 (Fails.map (Fails.map (Fails.tuple4 (Fails.terminated (Fails.map (Fails.tuple3 (kw_fails hk (by decide)))))))) ?_
  refine alt_eval2 (Fails.map (Fails.preceded (Fails.terminated (kw_fails hk (by decide))))) ?_
  refine alt_eval2 (Fails.map (Fails.map (Fails.tuple5 (kw_fails hk (by decide))))) ?_
  refine map_eval (f := SparqlQuery.ask) (map_eval (a := (_, [], G, .mk none none none none))
    (f := fun x => ({ datasetClauses := x.2.1, whereClause := x.2.2.1, solutionModifier := x.2.2.2 } : AskQuery))
    (tuple4_eval (terminated_eval (kw_eval hk) (sp1_eval hw (n3 _))) (terminated_eval (r := g ++ (w' ++ (k' ++ r))) ?_ (sp_zero (n3 _)))
      (terminated_eval (whereClause_brace hg) (sp_eval hw' n2)) (modifier_none n2 ?_)))
  · rw [ht]; exact Fails.sep0 (First.cons rfl)
  · intro t ht
    simp only [List.mem_cons, List.not_mem_nil, or_false] at ht
    rcases ht with rfl | rfl | rfl | rfl | rfl <;> exact kw_fails hk' (by decide)

example : ReadsAs groupGraphPattern c!"{ }" (.groupGraphPatternSub (.mk none [])) := fun _ => rfl
example : ∃ q, sparqlQueryStmt c!"ASK {} VALUES ?x {1}" = .ok c!"VALUES ?x {1}" ⟨⟨[]⟩, q, none⟩ := ⟨_, rfl⟩
example : ∃ q d, sparqlQueryStmt c!"ASK {} LIMIT 1 OFFSET 2 VALUES ?x {1}" = .ok [] ⟨⟨[]⟩, q, some d⟩ := ⟨_, _, rfl⟩
example : ∃ q d, sparqlQueryStmt c!"ASK {} ORDER BY ?x VALUES ?x {1}" = .ok [] ⟨⟨[]⟩, q, some d⟩ := ⟨_, _, rfl⟩

end NomSparql
