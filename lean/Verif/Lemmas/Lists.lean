import Verif.Lemmas.Tok

/-!
# Lists of tokens are accepted
-/

namespace NomSparql

theorem append_ne_self {w r : Str} (h : w ≠ []) : r ≠ w ++ r := by
  intro e
  have := congrArg List.length e
  cases w with
  | nil => contradiction
  | cons c w => simp only [List.length_append, List.length_cons] at this; omega

theorem Toks.ne_nil {L : Lang} (h : Toks L) {s} (hs : L s) : s ≠ [] := by
  obtain ⟨c, t, rfl, _⟩ := h s hs; simp

/-- Where a separated list ends: no separator follows, or a separator that is not followed by an element. -/
def SepStop (sep : P σ) (p : P α) (r : Str) : Prop :=
  Fails sep r ∨ ∃ r1 x, sep r = .ok r1 x ∧ r1 ≠ r ∧ Fails p r1

section
variable {sep : P σ} {p : P α} [Good sep] [Good p] {Sp : Lang} {R : α → Lang} {E : Str → Prop}

theorem sep_run (hp : ∀ a s r, R a s → E r → p (s ++ r) = .ok r a) (hne : ∀ a s, R a s → s ≠ [])
    (hs : ∀ w a s r, Sp w → R a s → ∃ x, sep (w ++ (s ++ r)) = .ok (s ++ r) x) (hw : ∀ w, Sp w → w ≠ [])
    (hE : ∀ w a s r, Sp w → R a s → E (w ++ (s ++ r))) {r : Str} (hr : E r) (hstop : SepStop sep p r) :
    ∀ {l s}, Many (fun b => Sp ⬝ R b) l s → SepRun sep p (s ++ r) r l ∧ E (s ++ r) := by
  intro l
  induction l with
  | nil =>
    rintro s rfl
    refine ⟨?_, hr⟩
    rcases hstop with ⟨pos, k, h⟩ | ⟨r1, x, h1, h2, pos, k, h3⟩
    · exact .stopSep h
    · exact .stopElem h1 h2 h3
  | cons a l ih =>
    rintro s ⟨x, y, rfl, ⟨w, t, rfl, h1, h2⟩, h3⟩
    obtain ⟨ih1, ih2⟩ := ih h3
    obtain ⟨x, hx⟩ := hs w a t (y ++ r) h1 h2
    simp only [List.append_assoc]
    refine ⟨.step hx (append_ne_self (hw w h1)) (hp a t _ h2 ih2) ?_ ih1, hE _ _ _ _ h1 h2⟩
    rw [← List.append_assoc w]
    exact append_ne_self (by simp [hw w h1])

theorem sep1_accept (hp : ∀ a s r, R a s → E r → p (s ++ r) = .ok r a) (hne : ∀ a s, R a s → s ≠ [])
    (hs : ∀ w a s r, Sp w → R a s → ∃ x, sep (w ++ (s ++ r)) = .ok (s ++ r) x) (hw : ∀ w, Sp w → w ≠ [])
    (hE : ∀ w a s r, Sp w → R a s → E (w ++ (s ++ r))) {r : Str} (hr : E r) (hstop : SepStop sep p r)
    {l s} (h : Sep1 Sp R l s) : separatedNonemptyList sep p (s ++ r) = .ok r l := by
  cases l with
  | nil => exact h.elim
  | cons a l =>
    obtain ⟨x, y, rfl, h1, h2⟩ := h
    obtain ⟨g1, g2⟩ := sep_run hp hne hs hw hE hr hstop h2
    rw [List.append_assoc]
    exact separatedNonemptyList_ok.mpr ⟨a, l, _, rfl, hp _ _ _ h1 g2, append_ne_self (hne _ _ h1), g1⟩

theorem sep0_accept (hp : ∀ a s r, R a s → E r → p (s ++ r) = .ok r a) (hne : ∀ a s, R a s → s ≠ [])
    (hs : ∀ w a s r, Sp w → R a s → ∃ x, sep (w ++ (s ++ r)) = .ok (s ++ r) x) (hw : ∀ w, Sp w → w ≠ [])
    (hE : ∀ w a s r, Sp w → R a s → E (w ++ (s ++ r))) {r : Str} (hr : E r) (hstop : SepStop sep p r)
    {l s} (h : Sep0 Sp R l s) (h0 : l = [] → Fails p r) : separatedList sep p (s ++ r) = .ok r l := by
  cases l with
  | nil => obtain rfl := h; exact (h0 rfl).sep0
  | cons a l =>
    obtain ⟨x, y, rfl, h1, h2⟩ := h
    obtain ⟨g1, g2⟩ := sep_run hp hne hs hw hE hr hstop h2
    rw [List.append_assoc]
    exact separatedList_ok.mpr (.inr ⟨a, l, _, rfl, hp _ _ _ h1 g2, append_ne_self (hne _ _ h1), g1⟩)

/-- The separator matches the empty text after the last element: the whole list is rejected. -/
theorem sep_stuck_run (hp : ∀ a s r, R a s → E r → p (s ++ r) = .ok r a)
    (hs : ∀ w a s r, Sp w → R a s → ∃ x, sep (w ++ (s ++ r)) = .ok (s ++ r) x)
    (hE : ∀ w a s r, Sp w → R a s → E (w ++ (s ++ r))) {r : Str} (hr : E r) {x : σ} (hstuck : sep r = .ok r x) :
    ∀ {l s}, Many (fun b => Sp ⬝ R b) l s → (∀ r' l', ¬ SepRun sep p (s ++ r) r' l') ∧ E (s ++ r) := by
  intro l
  induction l with
  | nil =>
    rintro s rfl
    refine ⟨?_, hr⟩
    intro r' l' h
    simp only [List.nil_append] at h
    cases h with
    | stopSep h => rw [hstuck] at h; cases h
    | stopElem h hne _ => rw [hstuck] at h; cases h; exact hne rfl
    | step h hne _ _ _ => rw [hstuck] at h; cases h; exact hne rfl
  | cons a l ih =>
    rintro s ⟨x, y, rfl, ⟨w, t, rfl, h1, h2⟩, h3⟩
    obtain ⟨ih1, ih2⟩ := ih h3
    obtain ⟨x, hx⟩ := hs w a t (y ++ r) h1 h2
    have ha := hp a t _ h2 ih2
    simp only [List.append_assoc]
    refine ⟨?_, hE _ _ _ _ h1 h2⟩
    intro r' l' h
    generalize hi : w ++ (t ++ (y ++ r)) = i at h hx
    cases h with
    | stopSep h => rw [hx] at h; cases h
    | stopElem h _ h' => rw [hx] at h; cases h; rw [ha] at h'; cases h'
    | step h _ h' _ h'' => rw [hx] at h; cases h; rw [ha] at h'; cases h'; exact ih1 _ _ h''

theorem sep_stuck (hp : ∀ a s r, R a s → E r → p (s ++ r) = .ok r a)
    (hs : ∀ w a s r, Sp w → R a s → ∃ x, sep (w ++ (s ++ r)) = .ok (s ++ r) x)
    (hE : ∀ w a s r, Sp w → R a s → E (w ++ (s ++ r))) {r : Str} (hr : E r) {x : σ} (hstuck : sep r = .ok r x)
    {l s} (h : Sep1 Sp R l s) (r' l') :
    separatedNonemptyList sep p (s ++ r) ≠ .ok r' l' ∧ separatedList sep p (s ++ r) ≠ .ok r' l' := by
  cases l with
  | nil => exact h.elim
  | cons a l =>
    obtain ⟨x, y, rfl, h1, h2⟩ := h
    obtain ⟨g1, g2⟩ := sep_stuck_run hp hs hE hr hstuck h2
    have ha := hp a x _ h1 g2
    rw [List.append_assoc]
    constructor
    · intro e
      obtain ⟨_, _, _, _, h3, _, h4⟩ := separatedNonemptyList_ok.mp e
      rw [ha] at h3; cases h3; exact g1 _ _ h4
    · intro e
      rcases separatedList_ok.mp e with ⟨_, _, _, _, h3⟩ | ⟨_, _, _, _, h3, _, h4⟩
      · rw [ha] at h3; cases h3
      · rw [ha] at h3; cases h3; exact g1 _ _ h4

end

/-! ## Lists of tokens surrounded by white space -/

section
variable {p : P α} [Good p] {R : α → Lang} {E : Str → Prop} {Sp : Lang}

/-- `many0 (spEnc p)` on tokens separated by white space. -/
theorem enc_run (hp : ∀ a s r, R a s → E r → p (s ++ r) = .ok r a) (hR : ∀ a, Toks (R a))
    (hSp : ∀ w, Sp w → Ws w) (hE : ∀ w a s r, Sp w → R a s → E (w ++ (s ++ r))) {wn r : Str} (hwn : Ws wn) (hr : E (wn ++ r))
    (hr' : ¬ StartsWs r) (hf : Fails p r) :
    ∀ {a l s}, Sep0 Sp R (a :: l) s → ∀ w0, Ws w0 → ManyRun (spEnc p) (w0 ++ (s ++ (wn ++ r))) r (a :: l) := by
  intro a l
  induction l generalizing a with
  | nil =>
    rintro s ⟨x, y, rfl, h1, rfl⟩ w0 hw0
    simp only [List.append_nil]
    refine .step (delimited_eval (sp_eval hw0 ((hR a).not_startsWs h1 _)) (hp a x _ h1 hr) (sp_eval hwn hr')) ?_ ?_
    · rw [← List.append_assoc, ← List.append_assoc]
      exact append_ne_self (by simp [(hR a).ne_nil h1])
    · obtain ⟨pos, k, h⟩ := Fails.delimited2 (s := sp) (sp_zero hr') hf
      exact .stop h
  | cons b l ih =>
    rintro s ⟨x, y, rfl, h1, y1, y2, rfl, ⟨w, t, rfl, hw, h2⟩, h3⟩ w0 hw0
    have hb : Sep0 Sp R (b :: l) (t ++ y2) := ⟨t, y2, rfl, h2, h3⟩
    have := ih hb [] .nil
    simp only [List.nil_append, List.append_assoc] at this
    simp only [List.append_assoc]
    refine .step (delimited_eval (sp_eval hw0 ((hR a).not_startsWs h1 _)) (hp a x _ h1 (hE w b t _ hw h2))
      (sp_eval (hSp w hw) ((hR b).not_startsWs h2 _))) ?_ this
    intro e
    have := congrArg List.length e
    have hx := (hR a).ne_nil h1
    cases x with
    | nil => contradiction
    | cons c x => simp only [List.length_append, List.length_cons] at this; omega

/-- The same, possibly empty; white space may be left over. -/
theorem enc_accept (hp : ∀ a s r, R a s → E r → p (s ++ r) = .ok r a) (hR : ∀ a, Toks (R a))
    (hSp : ∀ w, Sp w → Ws w) (hE : ∀ w a s r, Sp w → R a s → E (w ++ (s ++ r))) {w0 wn r s : Str} {l : List α} (hw0 : Ws w0) (hwn : Ws wn)
    (hr : E (wn ++ r)) (hr' : ¬ StartsWs r) (hf : Fails p r) (h : Sep0 Sp R l s) :
    ∃ w, Ws w ∧ many0 (spEnc p) (w0 ++ (s ++ (wn ++ r))) = .ok (w ++ r) l := by
  cases l with
  | nil =>
    obtain rfl := h
    refine ⟨w0 ++ wn, hw0.append hwn, ?_⟩
    rw [List.nil_append, ← List.append_assoc]
    exact Fails.many0 (Fails.delimited2 (sp_eval (hw0.append hwn) hr') hf)
  | cons a l => exact ⟨[], .nil, many0_ok.mpr (enc_run hp hR hSp hE hwn hr hr' hf h w0 hw0)⟩

/-- At least one. -/
theorem enc1_accept (hp : ∀ a s r, R a s → E r → p (s ++ r) = .ok r a) (hR : ∀ a, Toks (R a))
    (hSp : ∀ w, Sp w → Ws w) (hE : ∀ w a s r, Sp w → R a s → E (w ++ (s ++ r))) {w0 wn r s : Str} {l : List α} (hw0 : Ws w0) (hwn : Ws wn)
    (hr : E (wn ++ r)) (hr' : ¬ StartsWs r) (hf : Fails p r) (h : Sep1 Sp R l s) :
    many1 (spEnc p) (w0 ++ (s ++ (wn ++ r))) = .ok r l := by
  cases l with
  | nil => exact h.elim
  | cons a l =>
    have := enc_run hp hR hSp hE hwn hr hr' hf (show Sep0 Sp R (a :: l) s from h) w0 hw0
    generalize w0 ++ (s ++ (wn ++ r)) = i at this ⊢
    cases this with
    | step h1 _ h2 => exact many1_ok.mpr ⟨_, _, _, rfl, h1, h2⟩

end

theorem follow_ws1 {R : α → Lang} (hR : ∀ a, Toks (R a)) (w : Str) (a : α) (s r : Str) (hw : Ws1 w) (h : R a s) :
    Follow (w ++ (s ++ r)) := Follow.ws1_tok (hR a) hw h r

theorem ws_split (r : Str) : ∃ w r', r = w ++ r' ∧ Ws w ∧ ¬ StartsWs r' := by
  obtain ⟨r', w, e⟩ := Total.out (p := sp) r
  obtain ⟨h1, h2, h3⟩ := sp_ok_iff.mp e
  exact ⟨w, r', h1, h2, h3⟩

/-- White space is a separator where an element fails. -/
theorem sepStop_sp1 {p : P α} {r : Str} (h : ∀ w r', r = w ++ r' → Ws w → Fails p r') : SepStop sp1 p r := by
  rcases Soft.cases sp1 r with ⟨r', w, e⟩ | e
  · obtain ⟨rfl, h1, _⟩ := sp1_ok_iff.mp e
    exact .inr ⟨r', w, e, append_ne_self h1.2, h w r' rfl h1.1⟩
  · exact .inl e

theorem sepStop_sp {p : P α} {w r : Str} (hw : Ws1 w) (hr : ¬ StartsWs r) (h : Fails p r) : SepStop sp p (w ++ r) :=
  .inr ⟨r, w, sp_eval hw.1 hr, append_ne_self hw.2, h⟩

/-- A keyword that must be followed by white space fails on a canonical IRI. -/
theorem cIri_kw_sp1 {t : Str} [ht0 : KwPlain t] (ht : ∀ c ∈ t, AsciiLetter c) (hn : t ≠ []) {i : Iri} {s : Str} (h : cIri i s) (r : Str) :
    Fails (terminated (tagNoCase t) sp1) (s ++ r) := by
  have := ht0.kwTag
  rcases Soft.cases (terminated (tagNoCase t) sp1) (s ++ r) with ⟨r', a, e⟩ | e
  · exfalso
    simp only [terminated_ok] at e
    obtain ⟨r1, b, e0, e2⟩ := e
    obtain ⟨e1, hk⟩ := tagNoCase_ok_iff.mp e0
    clear e0
    obtain ⟨rfl, hw, _⟩ := sp1_ok_iff.mp e2
    obtain ⟨hk1, hk2⟩ := caseVariant_word hk hn ht
    obtain ⟨hw1, hw2⟩ := hw
    have hlast : ∀ c w', b = c :: w' → wsStart c = true := ws_first hw1
    cases i with
    | iri x =>
      obtain ⟨rfl, _⟩ := h
      cases a with
      | nil => contradiction
      | cons c a =>
        simp only [List.cons_append, List.cons.injEq] at e1
        have := hk2 c (by simp)
        rw [← e1.1] at this
        revert this; decide
    | prefixedName n =>
      cases n with
      | pnameNS o => exact h.elim
      | pnameLN o l =>
        cases o with
        | none => exact h.elim
        | some p =>
          obtain ⟨rfl, ⟨c, t, rfl, hc, ht', _⟩, _⟩ := h
          -- all characters of the prefix are name characters
          have hp : ∀ d ∈ c :: t, wsStart d = false ∧ d ≠ ':' := by
            intro d hd
            have h1 : PnC d ∨ d = '.' := by
              rcases List.mem_cons.mp hd with rfl | hd
              · exact .inl (pnB_pnC (commonBase_coded _ hc))
              · rcases ht' d hd with h | h
                · exact .inl (commonNameChar_coded d h)
                · exact .inr h
            rcases h1 with h1 | rfl
            · constructor
              · cases hs : wsStart d with
                | false => rfl
                | true =>
                  rcases wsStart_iff.mp hs with rfl | rfl | rfl | rfl | rfl <;> exact absurd h1 (by decide)
              · rintro rfl; exact absurd h1 (by decide)
            · decide
          generalize c :: t = p at *
          clear hc ht' hk ht
          induction a generalizing p with
          | nil => contradiction
          | cons d a ih =>
            cases p with
            | nil =>
              simp only [List.nil_append, List.cons_append, List.cons.injEq] at e1
              have := hk2 d (by simp)
              rw [← e1.1] at this
              revert this; decide
            | cons c p =>
              simp only [List.cons_append, List.cons.injEq] at e1
              cases a with
              | nil =>
                cases b with
                | nil => contradiction
                | cons b1 b =>
                  have hb := hlast b1 b rfl
                  cases p with
                  | nil =>
                    simp only [List.nil_append, List.cons_append, List.cons.injEq] at e1
                    rw [← e1.2.1] at hb; revert hb; decide
                  | cons c' p =>
                    simp only [List.nil_append, List.cons_append, List.cons.injEq] at e1
                    rw [← e1.2.1] at hb
                    have := (hp c' (by simp)).1
                    rw [this] at hb; cases hb
              | cons a1 a => exact ih (by simp) (fun x hx => hk2 x (by simp [hx])) p e1.2 (fun x hx => hp x (by simp [hx]))
  · exact e

/-! ## Showing that concrete texts are canonical -/

theorem ws_rfl {s : Str} (h : sp s = .ok [] s) : Ws s := (sp_ok_iff.mp h).2.1
theorem ws1_rfl {s : Str} (h : sp1 s = .ok [] s) : Ws1 s := (sp1_ok_iff.mp h).2.1
theorem kw_rfl {t s : Str} [KwTag t] (h : tagNoCase t s = .ok [] s) : CaseVariant t s := (tagNoCase_ok_iff.mp h).2
instance : DecidablePred W3CIriForbidden := fun c => by unfold W3CIriForbidden; infer_instance
instance : DecidablePred CIriChar := fun c => by unfold CIriChar; infer_instance
instance : DecidablePred CommonBase := fun c => by unfold CommonBase; infer_instance
instance : DecidablePred CommonNameChar := fun c => by unfold CommonNameChar; infer_instance
instance : DecidablePred CommonLocalStart := fun c => by unfold CommonLocalStart; infer_instance
instance : DecidablePred CommonLocalChar := fun c => by unfold CommonLocalChar; infer_instance

/-! ## Tuples and bracketed lists -/

theorem tuple3_ok {p : P α} {q : P β} {s : P γ} {i r : Str} {x : α × β × γ} : tuple3 p q s i = .ok r x ↔
    ∃ r1 r2, p i = .ok r1 x.1 ∧ q r1 = .ok r2 x.2.1 ∧ s r2 = .ok r x.2.2 := by
  unfold tuple3
  simp only [pair_ok_iff]
  constructor
  · rintro ⟨r1, h1, r2, h2, h3⟩; exact ⟨r1, r2, h1, h2, h3⟩
  · rintro ⟨r1, r2, h1, h2, h3⟩; exact ⟨r1, h1, r2, h2, h3⟩

theorem tuple4_ok {p : P α} {q : P β} {s : P γ} {t : P δ} {i r : Str} {x : α × β × γ × δ} : tuple4 p q s t i = .ok r x ↔
    ∃ r1 r2 r3, p i = .ok r1 x.1 ∧ q r1 = .ok r2 x.2.1 ∧ s r2 = .ok r3 x.2.2.1 ∧ t r3 = .ok r x.2.2.2 := by
  show pair p (tuple3 q s t) i = _ ↔ _
  simp only [pair_ok_iff, tuple3_ok]
  constructor
  · rintro ⟨r1, h1, r2, r3, h2, h3, h4⟩; exact ⟨r1, r2, r3, h1, h2, h3, h4⟩
  · rintro ⟨r1, r2, r3, h1, h2, h3, h4⟩; exact ⟨r1, h1, r2, r3, h2, h3, h4⟩

theorem tuple5_ok {p : P α} {q : P β} {s : P γ} {t : P δ} {u : P ε} {i r : Str} {x : α × β × γ × δ × ε} :
    tuple5 p q s t u i = .ok r x ↔
    ∃ r1 r2 r3 r4, p i = .ok r1 x.1 ∧ q r1 = .ok r2 x.2.1 ∧ s r2 = .ok r3 x.2.2.1 ∧ t r3 = .ok r4 x.2.2.2.1 ∧
      u r4 = .ok r x.2.2.2.2 := by
  show pair p (tuple4 q s t u) i = _ ↔ _
  simp only [pair_ok_iff, tuple4_ok]
  constructor
  · rintro ⟨r1, h1, r2, r3, r4, h2, h3, h4, h5⟩; exact ⟨r1, r2, r3, r4, h1, h2, h3, h4, h5⟩
  · rintro ⟨r1, r2, r3, r4, h1, h2, h3, h4, h5⟩; exact ⟨r1, h1, r2, r3, r4, h2, h3, h4, h5⟩

/-- White space before a list: what an initial `sp` consumes. -/
theorem sp_before {α : Type} {R : α → Lang} {Sp : Lang} (hR : ∀ a, Toks (R a)) {l : List α} {w0 s wn r : Str} (hw0 : Ws w0) (hwn : Ws wn)
    (hr : ¬ StartsWs r) (h : Sep0 Sp R l s) :
    ∃ w wn', Ws wn' ∧ sp (w0 ++ (s ++ (wn ++ r))) = .ok (s ++ (wn' ++ r)) w ∧ (l ≠ [] → wn' = wn) ∧ (l = [] → wn' = []) := by
  cases l with
  | nil =>
    obtain rfl := h
    refine ⟨w0 ++ wn, [], .nil, ?_, by simp, by simp⟩
    rw [List.nil_append, ← List.append_assoc]
    exact sp_eval (hw0.append hwn) hr
  | cons a l =>
    refine ⟨w0, wn, hwn, sp_eval hw0 ?_, by simp, by simp⟩
    obtain ⟨x, y, rfl, h1, _⟩ := h
    rw [List.append_assoc]
    exact (hR a).not_startsWs h1 _

section
variable {α : Type} {p : P α} [Good p] {R : α → Lang} {Sp : Lang} {E : Str → Prop}

/-- `sp` and then a list of enclosed elements, up to a closing character. -/
theorem sp_enc_accept (hp : ∀ a s r, R a s → E r → p (s ++ r) = .ok r a) (hR : ∀ a, Toks (R a))
    (hSp : ∀ w, Sp w → Ws w) (hE : ∀ w a s r, Sp w → R a s → E (w ++ (s ++ r))) {w0 wn r s : Str} {l : List α} (hw0 : Ws w0) (hwn : Ws wn)
    (hr : E (wn ++ r)) (hr0 : E r) (hr' : ¬ StartsWs r) (hf : Fails p r) (h : Sep0 Sp R l s) :
    preceded sp (many0 (spEnc p)) (w0 ++ (s ++ (wn ++ r))) = .ok r l := by
  obtain ⟨w, wn', h1, h2, h3, h4⟩ := sp_before hR hw0 hwn hr' h
  rw [preceded_cont h2]
  cases l with
  | nil =>
    obtain rfl := h4 rfl
    obtain rfl := h
    exact Fails.many0 (Fails.delimited2 (sp_eval .nil hr') hf)
  | cons a l =>
    obtain rfl := h3 (by simp)
    exact many0_ok.mpr (enc_run hp hR hSp hE hwn hr hr' hf h [] .nil)

end

/-- The text is read by the parser whatever follows it. -/
def ReadsAs {α : Type} (p : P α) (s : Str) (a : α) : Prop := ∀ r, p (s ++ r) = .ok r a

theorem startsWs_of_ws1 {w r : Str} (h : Ws1 w) : StartsWs (w ++ r) := by
  obtain ⟨h, hne⟩ := h
  cases h with
  | nil => contradiction
  | cons h1 h2 => exact ⟨_, _, h1, List.append_assoc ..⟩

end NomSparql
