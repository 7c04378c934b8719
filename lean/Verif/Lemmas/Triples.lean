import Verif.Lemmas.Lists
import Verif.Spec.CanonTriples

/-!
# Canonical triples are accepted
-/

namespace NomSparql

/-! ## Leading white space -/

/-- `r` without its leading white space. -/
def strip (r : Str) : Str := (match sp r with | .ok r' _ => r' | .err _ => r)

theorem sp_strip (r : Str) : ∃ w, sp r = .ok (strip r) w ∧ r = w ++ strip r ∧ Ws w ∧ ¬ StartsWs (strip r) := by
  obtain ⟨r', w, e⟩ := Total.out (p := sp) r
  have : strip r = r' := by unfold strip; rw [e]
  obtain ⟨h1, h2, h3⟩ := sp_ok_iff.mp e
  rw [this]
  exact ⟨w, e, h1, h2, h3⟩

theorem strip_ws {w r : Str} (hw : Ws w) (hr : ¬ StartsWs r) : strip (w ++ r) = r := by
  unfold strip; rw [sp_eval hw hr]

theorem strip_idem (r : Str) : sp (strip r) = .ok (strip r) [] := by
  obtain ⟨w, _, _, _, h⟩ := sp_strip r
  exact sp_zero h

theorem preceded_strip {p : P α} (r : Str) : preceded sp p (strip r) = preceded sp p r := by
  obtain ⟨w, h, _⟩ := sp_strip r
  rw [preceded_cont h, preceded_cont (strip_idem r)]

theorem spEnc_strip {p : P α} (r : Str) : spEnc p (strip r) = spEnc p r := preceded_strip r

/-- Equal up to leading white space. -/
def Trim (r1 r : Str) : Prop := r1 = r ∨ r1 = strip r

theorem Trim.strip {r1 r} (h : Trim r1 r) : strip r1 = NomSparql.strip r := by
  rcases h with rfl | rfl
  · rfl
  · obtain ⟨w, _, _, _, h⟩ := sp_strip r
    exact strip_ws .nil h

theorem Trim.preceded {p : P α} {r1 r} (h : Trim r1 r) : preceded sp p r1 = preceded sp p r := by
  rw [← preceded_strip r1, ← preceded_strip r, h.strip]

theorem Trim.enc {p : P α} {r1 r} (h : Trim r1 r) : spEnc p r1 = spEnc p r := h.preceded

theorem Trim.many1_ok {p : P α} {r1 r r' l} (h : Trim r1 r) (e : many1 (spEnc p) r = .ok r' l) [Good p] : many1 (spEnc p) r1 = .ok r' l := by
  obtain ⟨a, l', r2, rfl, h1, h2⟩ := NomSparql.many1_ok.mp e
  exact NomSparql.many1_ok.mpr ⟨a, l', r2, rfl, h.enc ▸ h1, h2⟩

theorem Trim.fails_enc {p : P α} {r1 r} (h : Trim r1 r) (e : Fails (spEnc p) r) : Fails (spEnc p) r1 := by
  unfold Fails; rw [h.enc]; exact e

theorem Trim.fails_many1 {p : P α} {r1 r} (h : Trim r1 r) (e : Fails (spEnc p) r) : Fails (many1 (spEnc p)) r1 :=
  Fails.many1 (h.fails_enc e)

/-! ## Runs of a separator character -/

theorem seps_normal {c : Char} {t : Str} (h : Star (Ws ⬝ lit [c]) t) {w : Str} (hw : Ws w) :
    ∃ w0 u, t ++ w = w0 ++ u ∧ Ws w0 ∧ Star (lit [c] ⬝ Ws) u ∧ (t ≠ [] → u ≠ []) := by
  induction h with
  | nil => exact ⟨w, [], by simp, hw, .nil, by simp⟩
  | @cons a s ha _ ih =>
    obtain ⟨w1, _, rfl, h1, rfl⟩ := ha
    obtain ⟨w0, u, e, h2, h3, _⟩ := ih
    refine ⟨w1, (c :: w0) ++ u, ?_, h1, .cons ⟨[c], w0, rfl, rfl, h2⟩ h3, by simp⟩
    rw [List.append_assoc, e]; simp

theorem seps_run {c : Char} (hc : wsStart c = false) {u r : Str} (h : Star (lit [c] ⬝ Ws) u) (hr : ¬ StartsWs r)
    (hr' : NotStart (· = c) r) : ∃ l, ManyRun (spEnc (char c)) (u ++ r) r l := by
  induction h with
  | nil =>
    refine ⟨[], ?_⟩
    have : Fails (spEnc (char c)) r := Fails.delimited2 (sp_zero hr) (by
      cases r with
      | nil => exact ⟨_, _, rfl⟩
      | cons d r => exact ⟨_, _, if_neg (hr' d r rfl)⟩)
    obtain ⟨pos, k, e⟩ := this
    exact .stop e
  | @cons a s ha hs ih =>
    obtain ⟨_, w, rfl, rfl, hw⟩ := ha
    obtain ⟨l, ih⟩ := ih
    have hn : ¬ StartsWs (s ++ r) := by
      cases hs with
      | nil => exact hr
      | cons ha hs =>
        obtain ⟨_, w, rfl, rfl, hw⟩ := ha
        exact not_startsWs_cons hc
    refine ⟨c :: l, .step (j := s ++ r) ?_ ?_ ih⟩
    · simp only [List.append_assoc]
      exact delimited_eval (sp_zero (not_startsWs_cons hc)) char_eval (sp_eval hw hn)
    · rw [List.append_assoc]
      exact append_ne_self (w := [c] ++ w) (by simp)

/-- Separator characters with white space around them. -/
theorem seps_many1 {c : Char} (hc : wsStart c = false) {t w r : Str} (h : Star (Ws ⬝ lit [c]) t) (hne : t ≠ []) (hw : Ws w)
    (hr : ¬ StartsWs r) (hr' : NotStart (· = c) r) : ∃ l, many1 (spEnc (char c)) (t ++ (w ++ r)) = .ok r l := by
  obtain ⟨w0, u, e, h1, h2, h3⟩ := seps_normal h hw
  obtain ⟨l, hl⟩ := seps_run hc h2 hr hr'
  have hu := h3 hne
  have : ∃ l, many1 (spEnc (char c)) (u ++ r) = .ok r l := by
    generalize hi : u ++ r = i at hl
    cases hl with
    | stop => exact absurd hi.symm (append_ne_self hu)
    | step h1 _ h2 => exact ⟨_, many1_ok.mpr ⟨_, _, _, rfl, h1, h2⟩⟩
  obtain ⟨l, hl⟩ := this
  have hn : ¬ StartsWs (u ++ r) := by
    cases h2 with
    | nil => contradiction
    | cons ha hs =>
      obtain ⟨_, w, rfl, rfl, hw⟩ := ha
      exact not_startsWs_cons hc
  rw [← List.append_assoc, e, List.append_assoc]
  obtain ⟨a, l', r2, rfl, g1, g2⟩ := many1_ok.mp hl
  refine ⟨_, many1_ok.mpr ⟨a, l', r2, rfl, ?_, g2⟩⟩
  rw [← spEnc_strip, strip_ws h1 hn]
  exact g1

/-! ## Separated lists whose elements may read the white space after them -/

section
variable {sep : P σ} {p : P α} [Good sep] [Good p] {Sp : Lang} {R : α → Lang} {E : Str → Prop}

omit [Good sep] [Good p] in
theorem trim_run (hp : ∀ a s r, R a s → E r → ∃ r1, Trim r1 r ∧ p (s ++ r) = .ok r1 a) 
    (hs : ∀ w a s r r1, Sp w → R a s → Trim r1 (w ++ (s ++ r)) → ∃ x, sep r1 = .ok (s ++ r) x ∧ (s ++ r).length < r1.length)
    (hE : ∀ w a s r, Sp w → R a s → E (w ++ (s ++ r))) {r : Str} (hr : E r) (hstop : ∀ r1, Trim r1 r → SepStop sep p r1) :
    ∀ {l s}, Many (fun b => Sp ⬝ R b) l s → E (s ++ r) ∧ ∀ r0, Trim r0 (s ++ r) →
      ∃ r1, Trim r1 r ∧ r1.length ≤ r0.length ∧ SepRun sep p r0 r1 l := by
  intro l
  induction l with
  | nil =>
    rintro s rfl
    refine ⟨hr, fun r0 h => ⟨r0, h, Nat.le_refl _, ?_⟩⟩
    rcases hstop r0 h with ⟨pos, k, h⟩ | ⟨r1, x, h1, h2, pos, k, h3⟩
    · exact .stopSep h
    · exact .stopElem h1 h2 h3
  | cons a l ih =>
    rintro s ⟨x, y, rfl, ⟨w, t, rfl, h1, h2⟩, h3⟩
    obtain ⟨ih1, ih2⟩ := ih h3
    simp only [List.append_assoc]
    refine ⟨hE _ _ _ _ h1 h2, fun r0 h => ?_⟩
    obtain ⟨x, hx, hlen⟩ := hs w a t (y ++ r) r0 h1 h2 h
    obtain ⟨r2, h4, h5⟩ := hp a t _ h2 ih1
    obtain ⟨r1, h6, h7, h8⟩ := ih2 r2 h4
    have hl2 : r2.length ≤ (t ++ (y ++ r)).length := by
      rcases h4 with rfl | rfl
      · simp
      · obtain ⟨w', _, e, _⟩ := sp_strip (y ++ r)
        have := congrArg List.length e
        simp only [List.length_append] at this ⊢
        omega
    refine ⟨r1, h6, by omega, .step hx ?_ h5 ?_ h8⟩
    · intro e; rw [e] at hlen; omega
    · intro e; rw [e] at hl2; omega

theorem trim_sep1 (hp : ∀ a s r, R a s → E r → ∃ r1, Trim r1 r ∧ p (s ++ r) = .ok r1 a) (hne : ∀ a, Toks (R a))
    (hs : ∀ w a s r r1, Sp w → R a s → Trim r1 (w ++ (s ++ r)) → ∃ x, sep r1 = .ok (s ++ r) x ∧ (s ++ r).length < r1.length)
    (hE : ∀ w a s r, Sp w → R a s → E (w ++ (s ++ r))) {r : Str} (hr : E r) (hstop : ∀ r1, Trim r1 r → SepStop sep p r1)
    {l s} (h : Sep1 Sp R l s) : ∃ r1, Trim r1 r ∧ separatedNonemptyList sep p (s ++ r) = .ok r1 l ∧
      separatedList sep p (s ++ r) = .ok r1 l := by
  cases l with
  | nil => exact h.elim
  | cons a l =>
    obtain ⟨x, y, rfl, h1, h2⟩ := h
    obtain ⟨g1, g2⟩ := trim_run hp hs hE hr hstop h2
    obtain ⟨r2, h4, h5⟩ := hp a x _ h1 g1
    obtain ⟨r1, h6, h7, h8⟩ := g2 r2 h4
    have hl2 : r2.length ≤ (y ++ r).length := by
      rcases h4 with rfl | rfl
      · simp
      · obtain ⟨w', _, e, _⟩ := sp_strip (y ++ r)
        have := congrArg List.length e
        simp only [List.length_append] at this ⊢
        omega
    have hx := (hne a).ne_nil h1
    rw [List.append_assoc]
    have hne' : r2 ≠ x ++ (y ++ r) := by
      intro e
      rw [e] at hl2
      cases x with
      | nil => contradiction
      | cons c x => simp only [List.length_append, List.length_cons] at hl2; omega
    exact ⟨r1, h6, separatedNonemptyList_ok.mpr ⟨a, l, _, rfl, h5, hne', h8⟩,
      separatedList_ok.mpr (.inr ⟨a, l, _, rfl, h5, hne', h8⟩)⟩

end

/-! ## Ends -/

/-- White space and a closing character; some white space before a dot. -/
def EndOf (cs : List Char) (r : Str) : Prop := ∃ w c r', r = w ++ c :: r' ∧ Ws w ∧ c ∈ cs ∧ (c = '.' → w ≠ [])

theorem EndOf.follow {cs r} (h : EndOf cs r) (hcs : ∀ c ∈ cs, c ∈ [',', ';', ')', '}', ']', '.']) : Follow r := by
  obtain ⟨w, c, r', rfl, hw, hc, hd⟩ := h
  have := hcs c hc
  simp only [List.mem_cons, List.not_mem_nil, or_false] at this
  rcases this with rfl | rfl | rfl | rfl | rfl | rfl
  · exact Follow.ws_close hw (by simp)
  · exact Follow.ws_close hw (by simp)
  · exact Follow.ws_close hw (by simp)
  · exact Follow.ws_close hw (by simp)
  · exact Follow.ws_close hw (by simp)
  · exact Follow.ws hw (.inl (hd rfl)) (not_startsWs_cons rfl) (by intro c r e; cases e; decide)

theorem EndOf.mono {cs cs' r} (h : EndOf cs r) (hcs : ∀ c ∈ cs, c ∈ cs') : EndOf cs' r := by
  obtain ⟨w, c, r', e, hw, hc, hd⟩ := h
  exact ⟨w, c, r', e, hw, hcs c hc, hd⟩

theorem char_fails {c d : Char} {r : Str} (h : d ≠ c) : Fails (char c) (d :: r) := ⟨_, _, if_neg h⟩

/-- A surrounded separator character fails before another one. -/
theorem EndOf.enc_fails {cs r} (h : EndOf cs r) {d : Char} (hd : ∀ c ∈ cs, c ≠ d ∧ wsStart c = false) : Fails (preceded sp (char d)) r := by
  obtain ⟨w, c, r', rfl, hw, hc, _⟩ := h
  exact Fails.preceded2 (sp_eval hw (not_startsWs_cons (hd c hc).2)) (char_fails (hd c hc).1)

theorem fails_spEnc {p : P α} {r} (h : Fails (preceded sp p) r) : Fails (spEnc p) r := by
  rcases Soft.cases sp r with ⟨r', w, e⟩ | ⟨_, _, e⟩
  · unfold spEnc delimited
    unfold Fails at h ⊢
    rw [preceded_cont e] at h ⊢
    exact Fails.terminated h
  · exact Fails.preceded ⟨_, _, e⟩

/-! ## Triples -/

theorem graphNode_accepts : Accepts graphNode cNode := by
  intro a s r h hr
  cases a with
  | varOrTerm v => rw [graphNode_eq]; exact alt_eval1 (map_eval (varOrTerm_accepts v s r h hr))
  | triplesNode t => exact h.elim

theorem cNode_toks (a : GraphNode) : Toks (cNode a) := by
  cases a with
  | varOrTerm v => exact cVarOrTerm_toks v
  | triplesNode t => intro s h; exact h.elim

theorem comma_sep {w s r : Str} (hw : commaL w) (h : ¬ StartsWs (s ++ r)) : ∃ x, spEnc (tag c!",") (w ++ (s ++ r)) = .ok (s ++ r) x := by
  obtain ⟨w1, _, rfl, h1, _, w2, rfl, rfl, h2⟩ := hw
  simp only [List.append_assoc]
  exact ⟨_, delimited_eval (sp_eval h1 (not_startsWs_cons rfl)) tag_eval (sp_eval h2 h)⟩

theorem tag_comma {r : Str} (h : Fails (preceded sp (char ',')) r) : Fails (spEnc (tag c!",")) r := by
  refine fails_spEnc ?_
  obtain ⟨w, e, _⟩ := sp_strip r
  unfold Fails at h ⊢
  rw [preceded_cont e] at h ⊢
  cases hs : strip r with
  | nil => exact ⟨_, _, rfl⟩
  | cons c t =>
    rw [hs] at h
    by_cases hc : c = ','
    · subst hc; rw [char_eval] at h; obtain ⟨_, _, h⟩ := h; cases h
    · exact First.cons (by simpa using hc)

theorem objectList_accepts (l : List GraphNode) (s r : Str) (h : Sep1 commaL cNode l s) (hr : EndOf [';', '.', '}', ']'] r) :
    objectList (s ++ r) = .ok r l := by
  refine sep1_accept (E := Follow) graphNode_accepts (fun a s h => (cNode_toks a).ne_nil h)
    (fun w a s r hw h => comma_sep hw ((cNode_toks a).not_startsWs h r)) ?_ ?_ (hr.follow (by simp)) (.inl (tag_comma (hr.enc_fails (by decide)))) h
  · rintro w ⟨w1, _, rfl, _, _, _, rfl, rfl, _⟩; simp
  · rintro _ a s r ⟨w1, _, rfl, h1, _, w2, rfl, rfl, h2⟩ _
    simp only [List.append_assoc]
    exact Follow.ws_close h1 (by simp)

/-- One verb with its objects. -/
def verbListP : P VerbList := map (separatedPair verb sp objectList) (fun x => .mk x.1 x.2)

instance : Good verbListP := by unfold verbListP objectList objectListS; infer_instance

theorem cVerbList_toks (a : VerbList) : Toks (cVerbList a) := by
  cases a with
  | mk v l =>
    rintro _ ⟨x, y, rfl, h, _⟩
    obtain ⟨c, t, rfl, hc⟩ := cVerb_toks v x h
    exact ⟨c, _, rfl, hc⟩

theorem sep1_toks {α : Type} {R : α → Lang} {Sp : Lang} (hR : ∀ a, Toks (R a)) (l : List α) : Toks (Sep1 Sp R l) := by
  cases l with
  | nil => intro s h; exact h.elim
  | cons a l =>
    rintro _ ⟨x, y, rfl, h, _⟩
    obtain ⟨c, t, rfl, hc⟩ := hR a x h
    exact ⟨c, _, rfl, hc⟩

theorem verbList_accepts (a : VerbList) (s r : Str) (h : cVerbList a s) (hr : EndOf [';', '.', '}', ']'] r) :
    verbListP (s ++ r) = .ok r a := by
  cases a with
  | mk v l =>
    obtain ⟨x, _, rfl, h1, w, y, rfl, hw, h2⟩ := h
    simp only [List.append_assoc]
    exact map_eval (a := (v, l)) (f := fun x => VerbList.mk x.1 x.2)
      (separatedPair_eval (verb_accepts v x _ h1 (Follow.ws1_tok (sep1_toks cNode_toks l) hw h2 r))
        (sp_eval hw.1 ((sep1_toks cNode_toks l).not_startsWs h2 r)) (objectList_accepts l y r h2 hr))

theorem semis_eval {t w r : Str} (h : Star (Ws ⬝ lit c!";") t) (hne : t ≠ []) (hw : Ws w) (hr : ¬ StartsWs r)
    (hr' : NotStart (· = ';') r) : ∃ l, spEnc (many1 (spEnc (char ';'))) (t ++ (w ++ r)) = .ok r l := by
  obtain ⟨w0, e0, e1, e2, e3⟩ := sp_strip (t ++ (w ++ r))
  obtain ⟨l, hl⟩ := seps_many1 rfl h hne hw hr hr'
  exact ⟨l, delimited_eval e0 (Trim.many1_ok (.inr rfl) hl) (sp_zero hr)⟩

theorem plus_star {L : Lang} {s : Str} (h : Plus L s) : Star L s := by
  obtain ⟨a, b, rfl, h1, h2⟩ := h
  exact .cons h1 h2

theorem semi_ne {t : Str} (h : Plus (Ws ⬝ lit c!";") t) : t ≠ [] := by
  obtain ⟨_, b, rfl, ⟨w, _, rfl, _, rfl⟩, h2⟩ := h
  simp

theorem star_semi_end {t r : Str} (h : Star (Ws ⬝ lit c!";") t) {cs} (hr : EndOf cs r) : EndOf (';' :: cs) (t ++ r) := by
  cases h with
  | nil => exact hr.mono (by simp +contextual)
  | cons h1 h2 =>
    obtain ⟨w, _, rfl, hw, rfl⟩ := h1
    exact ⟨w, ';', _, by simp; rfl, hw, by simp, by simp⟩

theorem semis_many0 {t r : Str} (h : Star (Ws ⬝ lit c!";") t) (hr : Fails (preceded sp (char ';')) r) :
    ∃ l, many0 (preceded sp (char ';')) (t ++ r) = .ok r l := by
  have : ∃ l, ManyRun (preceded sp (char ';')) (t ++ r) r l := by
    induction h with
    | nil =>
      obtain ⟨pos, k, e⟩ := hr
      exact ⟨[], .stop e⟩
    | @cons a s ha _ ih =>
      obtain ⟨w, _, rfl, hw, rfl⟩ := ha
      obtain ⟨l, ih⟩ := ih
      rw [List.append_assoc]
      exact ⟨_, .step (j := s ++ r) (by
        rw [List.append_assoc]
        exact preceded_eval (sp_eval hw (not_startsWs_cons rfl)) char_eval) (append_ne_self (by simp)) ih⟩
  obtain ⟨l, h⟩ := this
  exact ⟨l, many0_ok.mpr h⟩

theorem EndOf.parts {cs r} (h : EndOf cs r) (hcs : ∀ c ∈ cs, wsStart c = false) :
    ∃ w c r', r = w ++ c :: r' ∧ Ws w ∧ c ∈ cs ∧ ¬ StartsWs (c :: r') ∧ strip r = c :: r' := by
  obtain ⟨w, c, r', rfl, hw, hc, _⟩ := h
  have := not_startsWs_cons (r := r') (hcs c hc)
  exact ⟨w, c, r', rfl, hw, hc, this, strip_ws hw this⟩

theorem verbList_fails {c : Char} {r : Str} (h : c ∈ ['.', '}', ']']) : Fails verbListP (c :: r) := by
  simp only [List.mem_cons, List.not_mem_nil, or_false] at h
  rcases h with rfl | rfl | rfl <;> exact Fails.map (Fails.separatedPair (First.cons rfl))

theorem propertyList_accepts (p : PropertyList) (s r : Str) (h : cPropertyList p s) (hr : EndOf ['.', '}', ']'] r) :
    propertyListNotEmpty (s ++ r) = .ok r p := by
  cases p with
  | mk l =>
    obtain ⟨x, t, rfl, h1, h2⟩ := h
    rw [List.append_assoc]
    obtain ⟨u, hu⟩ := semis_many0 h2 (hr.enc_fails (by decide))
    obtain ⟨w0, c, r', e0, hw0, hc, hn, _⟩ := hr.parts (by decide)
    refine map_eval (a := l) (f := PropertyList.mk) (terminated_eval (r := t ++ r) ?_ hu)
    refine sep1_accept (p := verbListP) (E := EndOf [';', '.', '}', ']']) verbList_accepts (fun a s h => (cVerbList_toks a).ne_nil h) ?_ ?_ ?_
      (star_semi_end h2 hr) ?_ h1
    · rintro _ a s r ⟨u, w, rfl, hu, hw⟩ h
      rw [List.append_assoc]
      refine semis_eval (plus_star hu) (semi_ne hu) hw ((cVerbList_toks a).not_startsWs h r) ?_
      obtain ⟨c, s', rfl, hc⟩ := cVerbList_toks a s h
      intro d r' e
      cases e
      exact hc.ne (by simp)
    · rintro _ ⟨u, w, rfl, hu, hw⟩
      have := semi_ne hu
      simp [this]
    · rintro _ a s r ⟨u, w, rfl, ⟨_, u', rfl, ⟨w', _, rfl, hw', rfl⟩, _⟩, hw⟩ _
      exact ⟨w', ';', _, by simp; rfl, hw', by simp, by simp⟩
    · by_cases ht : t = []
      · subst ht
        exact .inl (fails_spEnc (Fails.preceded2 (by rw [List.nil_append, e0]; exact sp_eval hw0 hn)
          (Fails.many1 (Fails.delimited2 (sp_zero hn) (char_fails (by rintro rfl; revert hc; decide))))))
      · have hc' : NotStart (· = ';') (c :: r') := by
          intro d r'' e; cases e; rintro rfl; revert hc; decide
        obtain ⟨y, hy⟩ := semis_eval h2 ht hw0 hn hc'
        refine .inr ⟨c :: r', y, by rw [e0]; exact hy, ?_, verbList_fails hc⟩
        rw [e0, ← List.append_assoc]
        exact append_ne_self (by simp [ht])

theorem cPropertyList_toks (p : PropertyList) : Toks (cPropertyList p) := by
  cases p with
  | mk l =>
    rintro _ ⟨x, y, rfl, h, _⟩
    obtain ⟨c, t, rfl, hc⟩ := sep1_toks cVerbList_toks l x h
    exact ⟨c, _, rfl, hc⟩

theorem triplesNode_accepts (n : TriplesNode) (s r : Str) (h : cTriplesNode n s) : triplesNode (s ++ r) = .ok r n := by
  cases n with
  | collection l =>
    obtain ⟨_, _, rfl, rfl, _, _, rfl, ⟨w0, _, rfl, hw0, x, w1, rfl, hx, hw1⟩, rfl⟩ := h
    simp only [List.append_assoc]
    refine alt_eval1 (map_eval (delimited_eval (r1 := w0 ++ (x ++ (w1 ++ ')' :: r))) (r2 := ')' :: r) char_eval ?_ char_eval))
    exact enc1_accept (E := Follow) graphNode_accepts cNode_toks (fun w h => h.1) (follow_ws1 cNode_toks) hw0 hw1
      (Follow.ws_close hw1 (by simp)) (not_startsWs_cons rfl) (First.cons rfl) hx
  | blankNodePropertyList p =>
    obtain ⟨_, _, rfl, rfl, w, _, rfl, hw, x, _, rfl, hx, w', _, rfl, hw', rfl⟩ := h
    simp only [List.append_assoc]
    refine alt_eval2 (p := map (collectionS graphNode) TriplesNode.collection) (Fails.map (Fails.delimited (char_fails (d := '[') (by decide)))) ?_
    exact map_eval (f := TriplesNode.blankNodePropertyList) (delimited_eval
      (terminated_eval (r := w ++ (x ++ (w' ++ ']' :: r))) char_eval (sp_eval hw ((cPropertyList_toks p).not_startsWs hx _)))
      (propertyList_accepts p x (w' ++ ']' :: r) hx ⟨w', ']', r, rfl, hw', by simp, by simp⟩)
      (preceded_eval (sp_eval hw' (not_startsWs_cons rfl)) char_eval))

theorem cTriplesNode_toks (n : TriplesNode) : Toks (cTriplesNode n) := by
  cases n with
  | collection l => rintro _ ⟨_, _, rfl, rfl, _⟩; exact ⟨_, _, rfl, by decide⟩
  | blankNodePropertyList p => rintro _ ⟨_, _, rfl, rfl, _⟩; exact ⟨_, _, rfl, by decide⟩

theorem cTriplesSameSubject_toks (t : TriplesSameSubject) : Toks (cTriplesSameSubject t) := by
  cases t with
  | term v p =>
    rintro _ ⟨x, y, rfl, h, _⟩
    obtain ⟨c, t, rfl, hc⟩ := cVarOrTerm_toks v x h
    exact ⟨c, _, rfl, hc⟩
  | node n o =>
    cases o with
    | none => exact cTriplesNode_toks n
    | some p =>
      rintro _ ⟨x, y, rfl, h, _⟩
      obtain ⟨c, t, rfl, hc⟩ := cTriplesNode_toks n x h
      exact ⟨c, _, rfl, hc⟩

/-- A subject that is a term is not taken for a collection or a property list. -/
theorem triplesNode_fails (v : VarOrTerm) (s r : Str) (h : cVarOrTerm v s) : Fails triplesNode (s ++ r) := by
  have key : ∀ c t, s = c :: t → c ≠ '(' → c ≠ '[' → Fails triplesNode (s ++ r) := by
    rintro c t rfl h1 h2
    exact First.cons (by simp [h1, h2])
  cases v with
  | var v =>
    obtain ⟨rfl, _⟩ := h
    cases v <;> exact key _ _ rfl (by simp [sigil]) (by simp [sigil])
  | term t =>
    cases t with
    | iri i =>
      obtain ⟨c, t, rfl, rfl | hc⟩ := cIri_head h
      · exact key _ _ rfl (by decide) (by decide)
      · refine key _ _ rfl ?_ ?_ <;> (rintro rfl; cases hc)
    | rdfLiteral l => obtain ⟨t, rfl | rfl⟩ := cRdfLiteral_head h <;> exact key _ _ rfl (by decide) (by decide)
    | numericLiteral n =>
      obtain ⟨c, t, rfl, hc⟩ := cNumericLiteral_head h
      exact key _ _ rfl (by rintro rfl; revert hc; decide) (by rintro rfl; revert hc; decide)
    | booleanLiteral b =>
      rcases rBoolean_kw h with h | h <;>
      · obtain ⟨y, k', rfl, hs, _⟩ := CaseVariant.cons_iff.mp h
        rcases sameLetter_cases hs with rfl | rfl <;> exact key _ _ rfl (by decide) (by decide)
    | blankNode b =>
      cases b with
      | anon =>
        obtain ⟨_, _, rfl, rfl, w, _, rfl, hw, rfl⟩ := h
        simp only [List.append_assoc]
        exact Fails.alt_cons (Fails.map (Fails.delimited (char_fails (by decide)))) (Fails.map (Fails.delimited2
          (terminated_eval (r := w ++ (']' :: r)) char_eval (sp_eval hw (not_startsWs_cons rfl))) (First.cons rfl)))
      | label l => obtain ⟨rfl, _⟩ := h; exact key _ _ rfl (by decide) (by decide)
    | nil =>
      obtain ⟨_, _, rfl, rfl, w, _, rfl, hw, rfl⟩ := h
      simp only [List.append_assoc]
      exact Fails.alt_cons (Fails.map (Fails.delimited2 (r := w ++ (')' :: r)) char_eval
        (Fails.many1 (Fails.delimited2 (sp_eval hw (not_startsWs_cons rfl)) (First.cons rfl)))))
        (Fails.map (Fails.delimited (Fails.terminated (char_fails (by decide)))))

theorem triplesSameSubject_accepts (t : TriplesSameSubject) (s r : Str) (h : cTriplesSameSubject t s) (hr : EndOf ['.', '}'] r) :
    ∃ r1, Trim r1 r ∧ triplesSameSubject (s ++ r) = .ok r1 t := by
  cases t with
  | term v p =>
    obtain ⟨x, _, rfl, h1, w, y, rfl, hw, h2⟩ := h
    simp only [List.append_assoc]
    refine ⟨r, .inl rfl, alt_eval2 (Fails.map (Fails.separatedPair (triplesNode_fails v x _ h1))) ?_⟩
    exact map_eval (a := (v, p)) (f := fun x => TriplesSameSubject.term x.1 x.2)
      (separatedPair_eval (varOrTerm_accepts v x _ h1 (Follow.ws1_tok (cPropertyList_toks p) hw h2 r))
        (sp1_eval hw ((cPropertyList_toks p).not_startsWs h2 r)) (propertyList_accepts p y r h2 (hr.mono (by simp +contextual))))
  | node n o =>
    cases o with
    | none =>
      obtain ⟨w, c, r', e, hw, hc, hn, hs⟩ := hr.parts (by decide)
      refine ⟨strip r, .inr rfl, alt_eval1 (map_eval (a := (n, none)) (f := fun x => TriplesSameSubject.node x.1 x.2) ?_)⟩
      obtain ⟨w', e', _⟩ := sp_strip r
      refine separatedPair_eval (triplesNode_accepts n s r h) e' (Fails.opt ?_)
      rw [hs]
      simp only [List.mem_cons, List.not_mem_nil, or_false] at hc
      rcases hc with rfl | rfl <;> exact First.cons rfl
    | some p =>
      obtain ⟨x, _, rfl, h1, w, y, rfl, hw, h2⟩ := h
      simp only [List.append_assoc]
      exact ⟨r, .inl rfl, alt_eval1 (map_eval (a := (n, some p)) (f := fun x => TriplesSameSubject.node x.1 x.2)
        (separatedPair_eval (triplesNode_accepts n x _ h1) (sp_eval hw ((cPropertyList_toks p).not_startsWs h2 r))
          (opt_eval (propertyList_accepts p y r h2 (hr.mono (by simp +contextual))))))⟩

theorem cDots_eval {w r r1 : Str} (hw : cDots w) (hr : ¬ StartsWs r) (hr' : NotStart (· = '.') r) (h : Trim r1 (w ++ r)) :
    ∃ x, many1 (spEnc (char '.')) r1 = .ok r x ∧ r.length < r1.length := by
  obtain ⟨w0, _, rfl, hw0, _, _, rfl, rfl, t, w1, rfl, ht, hw1⟩ := hw
  have h1 : Star (Ws ⬝ lit c!".") (w0 ++ (c!"." ++ t)) := by
    rw [← List.append_assoc]; exact .cons ⟨w0, _, rfl, hw0.1, rfl⟩ ht
  obtain ⟨x, hx⟩ := seps_many1 rfl h1 (by simp) hw1 hr hr'
  refine ⟨x, h.many1_ok (by simpa using hx), ?_⟩
  have : strip (w0 ++ (c!"." ++ (t ++ w1)) ++ r) = '.' :: (t ++ (w1 ++ r)) := by
    have := strip_ws (r := '.' :: (t ++ (w1 ++ r))) hw0.1 (not_startsWs_cons rfl)
    simpa using this
  rcases h with rfl | rfl
  · simp; omega
  · rw [this]; simp; omega

theorem cTriplesSameSubject_not_dot {t : TriplesSameSubject} {s r : Str} (h : cTriplesSameSubject t s) : NotStart (· = '.') (s ++ r) := by
  obtain ⟨c, x, rfl, hc⟩ := cTriplesSameSubject_toks t s h
  intro d r' e
  cases e
  exact hc.ne (by simp)

/-- What may follow triples and, if `b`, a dot: something that does not begin a triple; without a dot a closing brace. -/
def TplEnd (b : Bool) (x : Str) : Prop :=
  ¬ StartsWs x ∧ NotStart (· = '.') x ∧ Fails triplesSameSubject x ∧ (b = false → ∃ r, x = '}' :: r)

theorem tplEnd_brace (b : Bool) (r : Str) : TplEnd b ('}' :: r) :=
  ⟨not_startsWs_cons rfl, by intro c r e; cases e; decide, First.cons rfl, fun _ => ⟨r, rfl⟩⟩

/-- What follows triples, the dot included. -/
def EndTriples (r : Str) : Prop := ∃ b d w x, r = d ++ (w ++ x) ∧ cDot b d ∧ Ws w ∧ TplEnd b x

theorem EndTriples.endOf {r} (h : EndTriples r) : EndOf ['.', '}'] r := by
  obtain ⟨b, d, w, x, rfl, hd, hw, _, _, _, hx⟩ := h
  cases b with
  | false =>
    obtain rfl := hd
    obtain ⟨r', rfl⟩ := hx rfl
    exact ⟨w, '}', r', rfl, hw, by simp, by simp⟩
  | true =>
    obtain ⟨w0, _, rfl, hw0, rfl⟩ := hd
    exact ⟨w0, '.', _, by simp; rfl, hw0.1, by simp, fun _ => hw0.2⟩

theorem triples_stop {r r1 : Str} (h : EndTriples r) (h1 : Trim r1 r) : SepStop (many1 (spEnc (char '.'))) triplesSameSubject r1 := by
  obtain ⟨b, d, w, x, rfl, hd, hw, hx1, hx2, hx3, hx⟩ := h
  cases b with
  | false =>
    obtain rfl := hd
    obtain ⟨r', rfl⟩ := hx rfl
    rw [List.nil_append] at h1
    exact .inl (h1.fails_many1 (Fails.delimited2 (sp_eval hw (not_startsWs_cons rfl)) (char_fails (by decide))))
  | true =>
    obtain ⟨w0, _, rfl, hw0, rfl⟩ := hd
    obtain ⟨y, hy, hlen⟩ := cDots_eval (r := x) ⟨w0, _, rfl, hw0, c!".", w, rfl, rfl, [], w, rfl, .nil, hw⟩
      hx1 hx2 (by simpa using h1)
    exact .inr ⟨_, y, hy, by intro e; rw [e] at hlen; omega, hx3⟩

theorem triples_accept (l : List TriplesSameSubject) (s r : Str) (h : cTriples l s) (hr : EndTriples r) :
    ∃ r1, Trim r1 r ∧ separatedNonemptyList (many1 (spEnc (char '.'))) triplesSameSubject (s ++ r) = .ok r1 l ∧
      separatedList (many1 (spEnc (char '.'))) triplesSameSubject (s ++ r) = .ok r1 l := by
  refine trim_sep1 (E := EndOf ['.', '}']) triplesSameSubject_accepts cTriplesSameSubject_toks ?_ ?_ hr.endOf
    (fun r1 h1 => triples_stop hr h1) h
  · intro w a s r r1 hw ha h1
    exact cDots_eval hw ((cTriplesSameSubject_toks a).not_startsWs ha r) (cTriplesSameSubject_not_dot ha) h1
  · rintro _ a s r ⟨w0, _, rfl, hw0, _, _, rfl, rfl, _⟩ _
    exact ⟨w0, '.', _, by simp; rfl, hw0.1, by simp, fun _ => hw0.2⟩

/-- A template with or without a final dot. -/
theorem template_accept (l : List TriplesSameSubject) (b : Bool) (s d w x : Str) (h : cTriples l s) (hd : cDot b d) (hw : Ws w)
    (hx : TplEnd b x) : ∃ r1, Trim r1 (w ++ x) ∧ triplesTemplate (s ++ (d ++ (w ++ x))) = .ok r1 l := by
  obtain ⟨r1, h1, h2, _⟩ := triples_accept l s _ h ⟨b, d, w, x, rfl, hd, hw, hx⟩
  cases b with
  | false =>
    obtain rfl := hd
    obtain ⟨r, rfl⟩ := hx.2.2.2 rfl
    refine ⟨r1, h1, terminated_eval h2 (Fails.opt ?_)⟩
    unfold Fails
    rw [h1.preceded, List.nil_append]
    exact Fails.preceded2 (sp_eval hw (not_startsWs_cons rfl)) (char_fails (by decide))
  | true =>
    obtain ⟨w0, _, rfl, hw0, rfl⟩ := hd
    refine ⟨w ++ x, .inl rfl, terminated_eval h2 (opt_eval (a := '.') ?_)⟩
    rw [h1.preceded, List.append_assoc]
    exact preceded_eval (sp_eval hw0.1 (not_startsWs_cons rfl)) char_eval

theorem triplesTemplate_toks (l : List TriplesSameSubject) : Toks (cTriples l) := sep1_toks cTriplesSameSubject_toks l

/-- In braces. -/
theorem block_accept (o : Option (List TriplesSameSubject)) (s r : Str) (h : cBlock o s) :
    delimited (char '{') (spEnc (opt triplesTemplate)) (char '}') (s ++ r) = .ok r o := by
  obtain ⟨_, _, rfl, rfl, w, _, rfl, hw, x, _, rfl, hx, w', _, rfl, hw', rfl⟩ := h
  simp only [List.append_assoc]
  refine delimited_eval (r1 := w ++ (x ++ (w' ++ '}' :: r))) (r2 := '}' :: r) char_eval ?_ char_eval
  cases o with
  | none =>
    obtain rfl := hx
    rw [List.nil_append, ← List.append_assoc]
    exact delimited_eval (sp_eval (hw.append hw') (not_startsWs_cons rfl)) (Fails.opt (First.cons rfl)) (sp_zero (not_startsWs_cons rfl))
  | some l =>
    obtain ⟨s, d, rfl, hs, b, hd⟩ := hx
    obtain ⟨r1, h1, h2⟩ := template_accept l b s d w' ('}' :: r) hs hd hw' (tplEnd_brace b r)
    obtain ⟨w1, e1, _⟩ := sp_strip r1
    rw [h1.strip, strip_ws hw' (not_startsWs_cons rfl)] at e1
    rw [List.append_assoc]
    exact delimited_eval (sp_eval hw ((triplesTemplate_toks l).not_startsWs hs _)) (opt_eval h2) e1

end NomSparql
