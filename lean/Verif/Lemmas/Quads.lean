import Verif.Lemmas.Triples

/-!
# Canonical quads are accepted
-/

namespace NomSparql

theorem cGraphBlock_not_ws {q : QuadsNotTriples} {s : Str} (h : cGraphBlock q s) (r : Str) : ¬ StartsWs (s ++ r) := by
  obtain ⟨k, _, rfl, hk, _⟩ := h
  rw [List.append_assoc]
  exact (kw_toks (by decide)).not_startsWs hk _

theorem kw_notStart {x c : Char} {t k r : Str} (h : CaseVariant (x :: t) k) (hx : x ≠ c ∧ upperOf x ≠ c) : NotStart (· = c) (k ++ r) := by
  obtain ⟨y, k', rfl, hs, _⟩ := CaseVariant.cons_iff.mp h
  rcases sameLetter_cases hs with rfl | rfl
  · exact notStart_cons hx.1
  · exact notStart_cons hx.2

theorem graph_fails {k r : Str} (h : CaseVariant c!"graph" k) (hr : Follow r) : Fails triplesSameSubject (k ++ r) := by
  have hb : Fails boolean (k ++ r) := Fails.alt_cons (Fails.map (kw_fails h (by decide))) (Fails.map (kw_fails h (by decide)))
  have hg : Fails graphTerm (k ++ r) := Fails.alt_cons (Fails.map (iri_fails_kw h (by decide) (by decide) hr))
    (Fails.alt_cons (Fails.map (kw_first h rfl)) (Fails.alt_cons (Fails.map (kw_first h rfl)) (Fails.alt_cons (Fails.map hb)
      (Fails.alt_cons (Fails.map (kw_first h rfl)) (Fails.map (kw_first h rfl))))))
  exact Fails.alt_cons (Fails.map (kw_first h rfl)) (Fails.map (Fails.separatedPair
    (Fails.alt_cons (Fails.map (kw_first h rfl)) (Fails.map hg))))

theorem graphBlock_end {q : QuadsNotTriples} {s : Str} (h : cGraphBlock q s) (r : Str) : TplEnd true (s ++ r) := by
  refine ⟨cGraphBlock_not_ws h r, ?_, ?_, by simp⟩
  · obtain ⟨k, _, rfl, hk, _⟩ := h
    rw [List.append_assoc]
    exact kw_notStart hk (by decide)
  · obtain ⟨k, _, rfl, hk, w, _, rfl, hw, v, _, rfl, hv, _⟩ := h
    simp only [List.append_assoc]
    exact graph_fails hk (Follow.ws1_tok (cVarOrIri_toks _) hw hv _)

theorem graphBlock_accept (q : QuadsNotTriples) (s r : Str) (h : cGraphBlock q s) : quadsNotTriples (s ++ r) = .ok r q := by
  obtain ⟨k, _, rfl, hk, w, _, rfl, hw, v, _, rfl, hv, w', b, rfl, hw', hb⟩ := h
  simp only [List.append_assoc]
  have hb' : ∃ t, b = '{' :: t := by obtain ⟨_, _, rfl, rfl, _⟩ := hb; exact ⟨_, rfl⟩
  have hF : Follow (w' ++ (b ++ r)) := by
    obtain ⟨t, rfl⟩ := hb'
    exact Follow.ws_close hw' (by simp)
  have hn : ¬ StartsWs (b ++ r) := by
    obtain ⟨t, rfl⟩ := hb'
    exact not_startsWs_cons rfl
  exact map_eval (a := (k, q.varOrIri, q.triplesTemplate)) (f := fun x => QuadsNotTriples.mk x.2.1 x.2.2)
    (tuple3_eval (kw_eval hk) (delimited_eval (sp_eval hw.1 ((cVarOrIri_toks _).not_startsWs hv _))
      (varOrIri_accepts _ _ _ hv hF) (sp_eval hw' hn)) (block_accept _ _ _ hb))

theorem tplEnd_template {b : Bool} {x : Str} (h : TplEnd b x) : Fails triplesTemplate x := Fails.terminated (Fails.sep1 h.2.2.1)

theorem toks_not_dot {L : Lang} (h : Toks L) {s : Str} (hs : L s) (r : Str) : NotStart (· = '.') (s ++ r) := by
  obtain ⟨c, t, rfl, hc⟩ := h s hs
  exact notStart_cons (hc.ne (by simp))

/-- No IRI at white space that is not followed by a colon. -/
theorem iri_fails_ws {w x : Str} (hw : Ws w) (hne : w ≠ []) (hx : ¬ StartsWs x) (hc : NotStart (· = ':') x) : Fails iri (w ++ x) := by
  have hp : Fails pnameNs (w ++ x) := by
    refine Fails.terminated2 (a := none) (r := w ++ x) (Fails.opt ?_) (Fails.preceded2 (sp_eval hw hx) ?_)
    · cases w with
      | nil => contradiction
      | cons c w => rcases wsStart_iff.mp (ws_first hw _ _ rfl) with rfl | rfl | rfl | rfl | rfl <;> exact First.cons rfl
    · cases x with
      | nil => exact First.nil
      | cons c x => exact char_fails (hc c x rfl)
  refine Fails.alt_cons (Fails.map ?_) (Fails.map (Fails.alt_cons (Fails.map (Fails.pair hp)) (Fails.map hp)))
  cases w with
  | nil => contradiction
  | cons c w => rcases wsStart_iff.mp (ws_first hw _ _ rfl) with rfl | rfl | rfl | rfl | rfl <;> exact First.cons rfl

/-- No triples at white space that is not followed by a colon. -/
theorem triples_fail_ws {w x : Str} (hw : Ws w) (hne : w ≠ []) (hx : ¬ StartsWs x) (hc : NotStart (· = ':') x) :
    Fails triplesSameSubject (w ++ x) := by
  have hi := iri_fails_ws hw hne hx hc
  cases w with
  | nil => contradiction
  | cons c w =>
    have hg : Fails graphTerm (c :: w ++ x) := by
      refine Fails.alt_cons (Fails.map hi) ?_
      rcases wsStart_iff.mp (ws_first hw _ _ rfl) with rfl | rfl | rfl | rfl | rfl <;> exact First.cons rfl
    refine Fails.alt_cons (Fails.map ?_) (Fails.map (Fails.separatedPair
      (Fails.alt_cons (Fails.map ?_) (Fails.map hg)))) <;>
    rcases wsStart_iff.mp (ws_first hw _ _ rfl) with rfl | rfl | rfl | rfl | rfl <;> exact First.cons rfl

/-- One entry. -/
theorem entry_accept (last : Bool) (e : QuadsEntry) (s w x : Str) (h : cEntry last e s) (hw : Ws w) (hx : ∃ r, x = '}' :: r ∨
    last = false ∧ ∃ q y, cGraphBlock q y ∧ x = y ++ r) (hwl : last = false → w = []) :
    ∃ w', Ws w' ∧ (last = false → w' = []) ∧ quadsEntry (s ++ (w ++ x)) = .ok (w' ++ x) e := by
  have hend : ∀ b, (last = false → b = true) → TplEnd b x := by
    intro b hb
    obtain ⟨r, rfl | ⟨rfl, q, y, hy, rfl⟩⟩ := hx
    · exact tplEnd_brace b r
    · obtain rfl := hb rfl
      exact graphBlock_end hy r
  have hxw : ¬ StartsWs x := (hend true (fun _ => rfl)).1
  obtain ⟨g, _, rfl, hg, d, t, rfl, ⟨b, hd⟩, ht⟩ := h
  simp only [List.append_assoc]
  have hdot : ∀ y, NotStart (· = '.') y → ∃ o, opt (char '.') (d ++ y) = .ok y o := by
    intro y hy
    cases b with
    | true => obtain rfl := hd; exact ⟨_, opt_eval char_eval⟩
    | false =>
      obtain rfl := hd
      refine ⟨none, Fails.opt ?_⟩
      cases y with
      | nil => exact First.nil
      | cons c y => exact char_fails (hy c y rfl)
  have key : ∀ y w' o, NotStart (· = '.') y → opt triplesTemplate y = .ok (w' ++ x) o →
      quadsEntry (g ++ (d ++ y)) = .ok (w' ++ x) ⟨e.quadsNotTriples, o⟩ := by
    intro y w' o hy ho
    obtain ⟨od, hod⟩ := hdot y hy
    exact map_eval (a := (e.quadsNotTriples, o)) (f := fun x => QuadsEntry.mk x.1 x.2)
      (separatedPair_eval (graphBlock_accept _ _ _ hg) hod ho)
  obtain ⟨q, o⟩ := e
  cases o with
  | none =>
    obtain rfl := ht
    rw [List.nil_append]
    refine ⟨w, hw, hwl, key _ _ _ ?_ (Fails.opt ?_)⟩
    · cases w with
      | nil => exact (hend true (fun _ => rfl)).2.1
      | cons c w =>
        intro c' r' e
        obtain ⟨rfl, -⟩ := List.cons.inj e
        rintro rfl
        cases ws_first hw _ _ rfl
    · cases w with
      | nil => exact tplEnd_template (hend true (fun _ => rfl))
      | cons c w =>
        obtain ⟨r, rfl | ⟨rfl, -⟩⟩ := hx
        · exact Fails.terminated (Fails.sep1 (triples_fail_ws hw (by simp) (not_startsWs_cons rfl) (notStart_cons (by decide))))
        · cases hwl rfl
  | some l =>
    obtain ⟨t, dd, rfl, ht, b', hdd, hb'⟩ := ht
    obtain ⟨r1, h1, h2⟩ := template_accept l b' t dd w x ht hdd hw (hend b' hb')
    rw [List.append_assoc]
    rcases h1 with rfl | rfl
    · exact ⟨w, hw, hwl, key _ _ _ (toks_not_dot (triplesTemplate_toks l) ht _) (opt_eval h2)⟩
    · rw [strip_ws hw hxw] at h2
      exact ⟨[], .nil, fun _ => rfl, key _ [] _ (toks_not_dot (triplesTemplate_toks l) ht _) (opt_eval h2)⟩

theorem consumes_ne {p : P α} [Consumes p] {i r : Str} {a : α} (h : p i = .ok r a) : r ≠ i := by
  have := Consumes.out _ _ _ h
  rintro rfl; omega

theorem cEntry_block {last : Bool} {e : QuadsEntry} {s : Str} (h : cEntry last e s) :
    ∃ q y z, cGraphBlock q y ∧ s = y ++ z := by
  obtain ⟨g, t, rfl, hg, _⟩ := h
  exact ⟨_, g, t, hg, rfl⟩

theorem cEntries_block {e : QuadsEntry} {l : List QuadsEntry} {s : Str} (h : cEntries (e :: l) s) :
    ∃ q y z, cGraphBlock q y ∧ s = y ++ z := by
  cases l with
  | nil => exact cEntry_block h
  | cons e' l =>
    obtain ⟨a, b, rfl, ha, _⟩ := h
    obtain ⟨q, y, z, hq, rfl⟩ := cEntry_block ha
    exact ⟨q, y, z ++ b, hq, by simp⟩

/-- No entry at white space and a closing brace. -/
theorem entry_fails {w r : Str} (hw : Ws w) : Fails quadsEntry (w ++ '}' :: r) := by
  cases w with
  | nil => exact First.cons rfl
  | cons c w => rcases wsStart_iff.mp (ws_first hw _ _ rfl) with rfl | rfl | rfl | rfl | rfl <;> exact First.cons rfl

theorem entries_accept : ∀ (l : List QuadsEntry) (s w r : Str), cEntries l s → Ws w →
    ∃ w', Ws w' ∧ many0 quadsEntry (s ++ (w ++ '}' :: r)) = .ok (w' ++ '}' :: r) l
  | [], s, w, r, h, hw => by
    obtain rfl := h
    exact ⟨w, hw, Fails.many0 (entry_fails hw)⟩
  | [e], s, w, r, h, hw => by
    obtain ⟨w', hw', _, h1⟩ := entry_accept true e s w ('}' :: r) h hw ⟨r, .inl rfl⟩ (by simp)
    exact ⟨w', hw', many0_ok.mpr (.step h1 (consumes_ne h1) (many0_ok.mp (Fails.many0 (entry_fails hw'))))⟩
  | e :: e' :: l, s, w, r, h, hw => by
    obtain ⟨a, b, rfl, ha, hb⟩ := h
    obtain ⟨w', hw', h2⟩ := entries_accept (e' :: l) b w r hb hw
    obtain ⟨q, y, z, hq, rfl⟩ := cEntries_block hb
    obtain ⟨w1, _, e1, h1⟩ := entry_accept false e a [] (y ++ (z ++ (w ++ '}' :: r))) ha .nil ⟨_, .inr ⟨rfl, q, y, hq, rfl⟩⟩ (fun _ => rfl)
    obtain rfl := e1 rfl
    simp only [List.append_assoc, List.nil_append] at h1 h2 ⊢
    exact ⟨w', hw', many0_ok.mpr (.step h1 (consumes_ne h1) (many0_ok.mp h2))⟩

theorem quads_accept (q : Quads) (s r : Str) (h : cQuads q s) : quadsPattern (s ++ r) = .ok r q := by
  obtain ⟨f, es⟩ := q
  obtain ⟨_, _, rfl, rfl, w, _, rfl, hw, t, _, rfl, ht, x, _, rfl, hx, w', _, rfl, hw', rfl⟩ := h
  simp only [List.append_assoc]
  -- white space and what follows it after the triples
  obtain ⟨wx, X, eX, hwx, hX, w2, hw2, hm⟩ : ∃ wx X, x ++ (w' ++ '}' :: r) = wx ++ X ∧ Ws wx ∧
      (∀ b, (es ≠ [] → b = true) → TplEnd b X) ∧ ∃ w2, Ws w2 ∧ many0 quadsEntry X = .ok (w2 ++ '}' :: r) es := by
    cases es with
    | nil =>
      obtain rfl := hx
      exact ⟨w', '}' :: r, rfl, hw', fun b _ => tplEnd_brace b r, [], .nil, Fails.many0 (First.cons rfl)⟩
    | cons e es =>
      obtain ⟨w2, hw2, h2⟩ := entries_accept (e :: es) x w' r hx hw'
      obtain ⟨q, y, z, hq, rfl⟩ := cEntries_block hx
      refine ⟨[], y ++ z ++ (w' ++ '}' :: r), rfl, .nil, ?_, w2, hw2, h2⟩
      intro b hb
      obtain rfl := hb (by simp)
      rw [List.append_assoc]
      exact graphBlock_end hq _
  have hXw : ¬ StartsWs X := (hX true (fun _ => rfl)).1
  have hclose : terminated sp (tag ['}']) (w2 ++ '}' :: r) = .ok r w2 :=
    terminated_eval (sp_eval hw2 (not_startsWs_cons rfl)) (tag_eval (t := ['}']))
  have main : ∀ i0 i1 w0 f, sp i0 = .ok i1 w0 → opt (terminated triplesTemplate sp) i1 = .ok X f →
      quadsPattern ('{' :: i0) = .ok r ⟨f, es⟩ := by
    intro i0 i1 w0 f h3 h4
    exact delimited_eval (terminated_eval (tag_eval (t := ['{'])) h3)
      (map_eval (a := (f, es)) (f := fun x => Quads.mk x.1 x.2) (pair_eval h4 hm)) hclose
  show quadsPattern ('{' :: (w ++ (t ++ (x ++ (w' ++ '}' :: r))))) = _
  rw [eX]
  cases f with
  | none =>
    obtain rfl := ht
    rw [List.nil_append, ← List.append_assoc]
    exact main _ X _ none (sp_eval (hw.append hwx) hXw) (Fails.opt (Fails.terminated (tplEnd_template (hX true (fun _ => rfl)))))
  | some l =>
    obtain ⟨t, _, rfl, ht, d, w1, rfl, ⟨b, hd, hb⟩, hw1⟩ := ht
    obtain ⟨r1, h1, h2⟩ := template_accept l b t d (w1 ++ wx) X ht hd (hw1.append hwx) (hX b hb)
    obtain ⟨w3, e3, _⟩ := sp_strip r1
    rw [h1.strip, strip_ws (hw1.append hwx) hXw] at e3
    simp only [List.append_assoc] at h2 ⊢
    exact main _ _ _ (some l) (sp_eval hw ((triplesTemplate_toks l).not_startsWs ht _)) (opt_eval (terminated_eval h2 e3))

end NomSparql
