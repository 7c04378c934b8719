import Verif.Spec.EbnfFree
import Verif.Lemmas.EbnfCanonTerms
import Verif.Lemmas.EbnfManage

/-!
# Texts without liberties
-/

namespace NomSparql

open Ebnf

/-! ## Characters -/

theorem codedBase_w3c {c : Char} (h : CodedBase c) (hf : ¬ Foreign c) : W3CPnCharsBase c := by
  rcases h with h | h
  · exact h.1
  · refine Classical.byContradiction fun hn => hf ⟨?_, hn, .inl h⟩
    refine Nat.le_of_not_lt fun hl => hn ?_
    rw [LowByteLetter, Nat.mod_eq_of_lt hl] at h
    simp only [W3CPnCharsBase]; omega

theorem lowDigit_w3c {c : Char} (h : LowByteDigit c) (hf : ¬ Foreign c) : W3CPnCharsBase c ∨ AsciiDigit c := by
  refine Classical.byContradiction fun hn => hf ⟨?_, fun h => hn (.inl h), .inr h⟩
  refine Nat.le_of_not_lt fun hl => hn (.inr ?_)
  rwa [LowByteDigit, Nat.mod_eq_of_lt hl] at h

theorem codedName_w3c {c : Char} (h : CodedNameChar c) (hf : ¬ Foreign c) : W3CPnChars c := by
  rcases h with h | h | h | h
  · exact .inl (.inl (codedBase_w3c h hf))
  · exact .inl (.inr h)
  · exact .inr (.inl h)
  · exact .inr (.inr (.inl h))

theorem codedLabelStart_w3c {c : Char} (h : CodedLabelStart c) (hf : ¬ Foreign c) : W3CPnCharsU c ∨ AsciiDigit c := by
  rcases h with h | h | h
  · exact .inl (.inl (codedBase_w3c h hf))
  · exact .inl (.inr h)
  · exact (lowDigit_w3c h hf).imp .inl id

theorem codedLocalStart_w3c {c : Char} (h : CodedLocalStart c) (hf : ¬ Foreign c) : W3CPnCharsU c ∨ c = ':' ∨ AsciiDigit c := by
  rcases h with h | h | h | h
  · exact .inl (.inl (codedBase_w3c h hf))
  · exact .inl (.inr h)
  · exact .inr (.inl h)
  · exact (lowDigit_w3c h hf).elim (fun h => .inl (.inl h)) fun h => .inr (.inr h)

/-! ## Names -/

theorem nameUnit_map {f g : Char → Prop} {u : Str} (h : NameUnit f u) (hfg : ∀ c ∈ u, f c → g c) : NameUnit g u := by
  cases h with
  | ch h => exact .ch (hfg _ (by simp) h)
  | pct a b => exact .pct a b
  | esc h => exact .esc h

theorem nameUnits_map {f g : Char → Prop} {u : Str} (h : NameUnits f u) (hfg : ∀ c ∈ u, f c → g c) : NameUnits g u := by
  induction h with
  | nil => exact .nil
  | cons hu _ ih => exact .cons (nameUnit_map hu fun c hc => hfg c (by simp [hc])) (ih fun c hc => hfg c (by simp [hc]))

/-- The last unit of a sequence. -/
theorem nameUnits_snoc {f : Char → Prop} {u : Str} (h : NameUnits f u) (hne : u ≠ []) : ∃ b v, u = b ++ v ∧ NameUnits f b ∧ NameUnit f v := by
  induction h with
  | nil => exact absurd rfl hne
  | @cons u s hu hs ih =>
    by_cases h : s = []
    · subst h; exact ⟨[], u, by simp, .nil, hu⟩
    · obtain ⟨b, v, rfl, hb, hv⟩ := ih h
      exact ⟨u ++ b, v, by simp, .cons hu hb, hv⟩

/-- A tail of coded characters is one of SPARQL 1.1 or ends with a dot. -/
theorem nameTail_w3c {t : Str} (h : NameTail CodedNameChar t) (hf : ∀ c ∈ t, ¬ Foreign c) : W3CNameTail t ∨ ∃ a, t = a ++ ['.'] := by
  obtain ⟨ha, hd | ⟨t', c, rfl, hc⟩⟩ := h
  · rcases List.eq_nil_or_concat t with rfl | ⟨a, c, rfl⟩
    · exact .inl (.inl rfl)
    · exact .inr ⟨a, by simp [hd c (by simp)]⟩
  · refine .inl (.inr ⟨t', c, rfl, fun d hd => ?_, codedName_w3c hc (hf c (by simp))⟩)
    exact (ha d (by simp [hd])).imp (fun h => codedName_w3c h (hf d (by simp [hd]))) id

/-- A prefix is empty, ends with a dot, or is one of SPARQL 1.1. -/
theorem optPrefix_w3c {o : Option Str} (h : OptPrefix CodedBase CodedNameChar o) (hf : ∀ c ∈ prefixText o, ¬ Foreign c) :
    prefixText o = [] ∨ (∃ a c, prefixText o = a ++ [c, '.'] ∧ (CodedNameChar c ∨ c = '.')) ∨
      W3CPrefix (prefixText o) ∧ ∃ a c, prefixText o = a ++ [c] ∧ CodedNameChar c := by
  cases o with
  | none => exact .inl rfl
  | some x =>
    obtain ⟨c, t, rfl, hc, ht⟩ := h
    refine .inr ?_
    rcases nameTail_w3c ht fun c hc => hf c (by simp [prefixText, hc]) with h | ⟨a, rfl⟩
    · by_cases he : ∃ a, t = a ++ ['.']
      · obtain ⟨a, rfl⟩ := he
        rcases h with h | ⟨_, _, h, _, h'⟩
        · simp at h
        · have := (List.append_inj' h rfl).2
          simp at this; subst this
          exact absurd h' (by decide)
      refine .inr ⟨⟨c, t, rfl, codedBase_w3c hc (hf c (by simp [prefixText])), h⟩, ?_⟩
      rcases List.eq_nil_or_concat t with rfl | ⟨a, d, rfl⟩
      · exact ⟨[], c, rfl, .inl hc⟩
      · refine ⟨c :: a, d, by simp [prefixText], (ht.1 d (by simp)).elim id ?_⟩
        rintro rfl; exact absurd ⟨a, by simp⟩ he
    · refine .inl ?_
      rcases List.eq_nil_or_concat a with rfl | ⟨b, d, rfl⟩
      · exact ⟨[], c, rfl, .inl (.inl hc)⟩
      · exact ⟨c :: b, d, by simp [prefixText], ht.1 d (by simp)⟩

/-- The plain characters of local names and labels. -/
abbrev DottedChar (c : Char) : Prop := CodedLocalStart c ∨ CodedNameChar c ∨ c = '.'

theorem nameUnits_append {f : Char → Prop} {u v : Str} (hu : NameUnits f u) (hv : NameUnits f v) : NameUnits f (u ++ v) := by
  induction hu with
  | nil => exact hv
  | cons h _ ih => rw [List.append_assoc]; exact .cons h ih

theorem nameUnits_chars {f : Char → Prop} : ∀ {u : Str}, (∀ c ∈ u, f c) → NameUnits f u
  | [], _ => .nil
  | c :: u, h => .cons (u := [c]) (.ch (h c (by simp))) (nameUnits_chars fun d hd => h d (by simp [hd]))

/-- A local name is one of SPARQL 1.1 or ends with a dot. -/
theorem local_w3c {l : Str} (h : LocalName CodedLocalStart CodedLocalChar l) (hf : ∀ c ∈ l, ¬ Foreign c) :
    W3CLocal l ∨ ∃ a, l = a ++ ['.'] ∧ a ≠ [] ∧ NameUnits DottedChar a := by
  obtain ⟨u, t, rfl, hu, ht, x, hx, _⟩ := h
  obtain ⟨b, v, rfl, hb, hv⟩ := nameUnits_snoc ht (List.ne_nil_of_mem hx)
  have hch : ∀ c, CodedLocalChar c → ¬ Foreign c → W3CPnChars c ∨ c = ':' := fun c h hn => h.imp (fun h => codedName_w3c h hn) id
  have hu' := nameUnit_map (g := fun c => W3CPnCharsU c ∨ c = ':' ∨ AsciiDigit c) hu fun c hc h => codedLocalStart_w3c h (hf c (by simp [hc]))
  have hb' := nameUnits_map (g := fun c => W3CPnChars c ∨ c = '.' ∨ c = ':') hb fun c hc h => by
    rcases h with h | h
    · rcases hch c h (hf c (by simp [hc])) with h | h <;> simp [h]
    · simp [h]
  have fin : NameUnit (fun c => W3CPnChars c ∨ c = ':') v → W3CLocal (u ++ (b ++ v)) := fun hv => ⟨u, b ++ v, rfl, hu', .inr ⟨b, v, rfl, hb', hv⟩⟩
  cases hv with
  | @ch c h =>
    rcases h with h | rfl
    · exact .inl (fin (.ch (hch c h (hf c (by simp)))))
    · refine .inr ⟨u ++ b, by simp, ?_, .cons (nameUnit_map hu fun c _ h => .inl h) (nameUnits_map hb fun c _ h => ?_)⟩
      · cases hu <;> simp
      · rcases h with (h | h) | h
        · exact .inr (.inl h)
        · exact .inl (.inr (.inr (.inl h)))
        · exact .inr (.inr h)
  | pct a b => exact .inl (fin (.pct a b))
  | esc h => exact .inl (fin (.esc h))

/-- The first character of a local name. -/
theorem local_first {l : Str} (h : LocalName CodedLocalStart CodedLocalChar l) : ∃ c t, l = c :: t ∧ (CodedLocalStart c ∨ c = '%' ∨ c = '\\') := by
  obtain ⟨u, t, rfl, hu, _⟩ := h
  cases hu with
  | @ch c h => exact ⟨c, t, rfl, .inl h⟩
  | @pct a b => exact ⟨'%', [a, b] ++ t, rfl, .inr (.inl rfl)⟩
  | @esc c => exact ⟨'\\', [c] ++ t, rfl, .inr (.inr rfl)⟩

/-! ## Numbers -/

theorem decVal_digits {s : Str} {n : Nat} (h : DecVal s n) : W3CInteger s := by
  induction h with
  | digit h => exact ⟨by simp, by simpa using h⟩
  | snoc _ h ih => exact ⟨by simp, by intro c hc; simp at hc; exact hc.elim (ih.2 c) fun e => e ▸ h⟩

theorem expText_w3c {s : Str} {v : Int} (h : ExpText s v) : W3CExponent s := by
  obtain ⟨c, _, rfl, hc, sg, neg, ds, _, rfl, hs, hd, _⟩ := h
  refine ⟨c, sg, ds, rfl, hc, ?_, (decVal_digits hd).1, (decVal_digits hd).2⟩
  cases hs <;> simp

/-- A number is one of SPARQL 1.1 or ends with a dot after a digit. -/
theorem number_w3c {v : NumericLiteral} {s : Str} (h : rNumericLiteral v s) :
    ∃ sg x, s = sg ++ x ∧ sg ∈ [[], ['+'], ['-']] ∧ (∃ c y, x = c :: y ∧ c ≠ '+' ∧ c ≠ '-') ∧ (W3CNumber x ∨ ∃ a c, x = a ++ [c, '.'] ∧ AsciiDigit c ∧ ∀ d ∈ a, AsciiDigit d) := by
  have first : ∀ {x y : Str}, W3CInteger x → ∃ c z, x ++ y = c :: z ∧ c ≠ '+' ∧ c ≠ '-' := by
    rintro x y ⟨hn, hd⟩
    cases x with
    | nil => exact absurd rfl hn
    | cons c x =>
      have := hd c (by simp)
      exact ⟨c, x ++ y, rfl, by rintro rfl; exact absurd this (by decide), by rintro rfl; exact absurd this (by decide)⟩
  cases v with
  | int v =>
    obtain ⟨⟨sg, neg, ds, _, rfl, hs, hd, _⟩, _⟩ := h
    refine ⟨sg, ds, rfl, by cases hs <;> simp, ?_, .inl (.inl (decVal_digits hd))⟩
    simpa using first (y := []) (decVal_digits hd)
  | double d e =>
    obtain ⟨m, t, rfl, ⟨sg, neg, w, f, hs, hm, hne, hdg, -⟩, he⟩ := h
    have hw : ∀ c ∈ w, AsciiDigit c := fun c hc => hdg c (by simp [hc])
    have hf : ∀ c ∈ f, AsciiDigit c := fun c hc => hdg c (by simp [hc])
    have he' : t = [] ∨ W3CExponent t := by
      cases e with
      | none => exact .inl he
      | some v => exact .inr (expText_w3c he.1)
    have hs' : sg ∈ [[], ['+'], ['-']] := by cases hs <;> simp
    rcases hm with ⟨rfl, rfl⟩ | rfl
    · have hi : W3CInteger w := ⟨by simpa using hne, hw⟩
      refine ⟨sg, w ++ t, by simp, hs', first hi, .inl ?_⟩
      rcases he' with rfl | he'
      · simpa using .inl hi
      · exact .inr (.inr (.inr (.inr ⟨w, t, rfl, hi, he'⟩)))
    · refine ⟨sg, w ++ '.' :: (f ++ t), by simp, hs', ?_, ?_⟩
      · by_cases h0 : w = []
        · subst h0; exact ⟨'.', f ++ t, rfl, by decide, by decide⟩
        · exact first ⟨h0, hw⟩
      by_cases h0 : w = []
      · subst h0
        have hi : W3CInteger f := ⟨by simpa using hne, hf⟩
        rcases he' with rfl | he'
        · exact .inl (.inr (.inl ⟨[], f, by simp, by simp, hi⟩))
        · exact .inl (.inr (.inr (.inr (.inl ⟨f, t, rfl, hi, he'⟩))))
      · rcases he' with rfl | he'
        · by_cases h1 : f = []
          · subst h1
            rcases List.eq_nil_or_concat w with h | ⟨a, c, rfl⟩
            · exact absurd h h0
            · exact .inr ⟨a, c, by simp, hw c (by simp), fun d hd => hw d (by simp [hd])⟩
          · exact .inl (.inr (.inl ⟨w, f, by simp, hw, h1, hf⟩))
        · exact .inl (.inr (.inr (.inl ⟨w, f, t, rfl, ⟨h0, hw⟩, hf, he'⟩)))

theorem strBody_noQuote {q : Char} {y : Str} (h : StrBody q y) (hn : '\\' ∉ y) : q ∉ y := by
  induction h with
  | nil => simp
  | ord h1 _ _ ih => simp at hn ⊢; exact ⟨h1.symm, ih hn.2⟩
  | esc _ _ _ => simp at hn

/-! ## Tokens -/

/-- A token in a text is one of SPARQL 1.1 or takes a liberty that the text is not free of. -/
theorem term_free {S a b s : Str} {x : Term} (hS : S = a ++ (s ++ b)) (hN : x = .number ∨ x = .signedNumber → '{' ∈ a ∨ '(' ∈ a)
    (hQ : Unbroken S → a.count '"' % 2 = 0) (h : crateTerm x s) :
    ∃ w s', s = w ++ s' ∧ Ws w ∧ (w3cTerm x s' ∨ crateTerm x s' ∧ ∃ l, ¬ LibFree l S ∧ Liberty l x s') := by
  have legal : w3cTerm x s → ∃ w s', s = w ++ s' ∧ Ws w ∧ (w3cTerm x s' ∨ crateTerm x s' ∧ ∃ l, ¬ LibFree l S ∧ Liberty l x s') :=
    fun h => ⟨[], s, rfl, .nil, .inl h⟩
  have take : ∀ l, ¬ LibFree l S → Liberty l x s → ∃ w s', s = w ++ s' ∧ Ws w ∧ (w3cTerm x s' ∨ crateTerm x s' ∧ ∃ l, ¬ LibFree l S ∧ Liberty l x s') :=
    fun l h1 h2 => ⟨[], s, rfl, .nil, .inr ⟨h, l, h1, h2⟩⟩
  have foreign : x.isName → (∃ c ∈ s, Foreign c) → ∃ w s', s = w ++ s' ∧ Ws w ∧ (w3cTerm x s' ∨ crateTerm x s' ∧ ∃ l, ¬ LibFree l S ∧ Liberty l x s') := by
    rintro hn ⟨c, hc, hf⟩
    exact take .foreign (fun h => h c (by simp [hS, hc]) hf) ⟨hn, c, hc, hf⟩
  have opened : '{' ∈ a ∨ '(' ∈ a → ∃ g, (g = '{' ∨ g = '(') ∧ ∃ a1 a2, a = a1 ++ g :: a2 := by
    rintro (h | h)
    · exact ⟨_, .inl rfl, List.append_of_mem h⟩
    · exact ⟨_, .inr rfl, List.append_of_mem h⟩
  cases x with
  | iriRef => exact legal h
  | langTag => exact legal h
  | integer => exact legal h
  | string =>
    obtain ⟨y, q, hq, rfl, hb, _⟩ := h
    by_cases hl : ∀ c ∈ y, c ≠ '\n' ∧ c ≠ '\r'
    · exact legal ⟨q, y, hq, .inl ⟨rfl, hb, hl⟩⟩
    · have : '\n' ∈ y ∨ '\r' ∈ y := by
        refine Classical.byContradiction fun hn => hl fun c hc => ⟨?_, ?_⟩
        · rintro rfl; exact hn (.inl hc)
        · rintro rfl; exact hn (.inr hc)
      refine take .lineEnd (fun hf => ?_) ⟨rfl, by rcases this with h | h <;> simp [h]⟩
      rcases hf with hf | hf | hf
      · have := hf q (by simp [hS]); rcases hq with rfl | rfl <;> simp at this
      · rcases this with h | h
        · exact (hf '\n' (by simp [hS, h])).1 rfl
        · exact (hf '\r' (by simp [hS, h])).2 rfl
      · have hq : q = '"' := hq.resolve_left fun e => hf.1.1 (by simp [hS, e])
        subst hq
        exact hl (hf.2 a y b (by simp [hS]) (hQ hf) (strBody_noQuote hb fun hb => hf.1.2.2 (by simp [hS, hb])))
  | nil =>
    obtain ⟨_, _, rfl, rfl, w, _, rfl, hw, rfl⟩ := h
    by_cases hc : '#' ∈ w
    · exact take .comment (fun hf => hf.1 a w b hw hc (by simp [hS])) ⟨.inl rfl, by simp [hc]⟩
    · exact legal ⟨w, by simp, ws_noComment hw hc⟩
  | anon =>
    obtain ⟨_, _, rfl, rfl, w, _, rfl, hw, rfl⟩ := h
    by_cases hc : '#' ∈ w
    · exact take .comment (fun hf => hf.2 a w b hw hc (by simp [hS])) ⟨.inr rfl, by simp [hc]⟩
    · exact legal ⟨w, by simp, ws_noComment hw hc⟩
  | number =>
    obtain ⟨⟨v, hv⟩, hn⟩ := h
    obtain ⟨sg, y, rfl, hs, _, hy⟩ := number_w3c hv
    have : sg = [] := by
      simp at hs
      rcases hs with rfl | rfl | rfl
      · rfl
      · exact absurd (.inl rfl) (hn '+' y rfl)
      · exact absurd (.inr rfl) (hn '-' y rfl)
    subst this
    rcases hy with hy | ⟨d, c, rfl, hc, _⟩
    · exact legal hy
    · refine take .dotEnd (fun hf => ?_) (.inr ⟨by simp, d ++ [c], by simp⟩)
      obtain ⟨g, hg, a1, a2, rfl⟩ := opened (hN (.inl rfl))
      exact hf.2.2 a1 g (a2 ++ d) c b hg hc (by simp [hS])
  | signedNumber =>
    obtain ⟨⟨v, hv⟩, z, hz⟩ := h
    obtain ⟨sg, y, rfl, hs, ⟨k, m, rfl, hk⟩, hy⟩ := number_w3c hv
    have hsg : ∀ u, (sg ++ u = '+' :: u ∨ sg ++ u = '-' :: u) := by
      intro u
      simp at hs
      rcases hs with rfl | rfl | rfl
      · rcases hz with hz | hz
        · simp at hz; exact absurd hz.1 hk.1
        · simp at hz; exact absurd hz.1 hk.2
      · exact .inl rfl
      · exact .inr rfl
    rcases hy with hy | ⟨d, c, he, hc, _⟩
    · exact legal ⟨_, hsg _, hy⟩
    · rw [he] at hS take ⊢
      refine take .dotEnd (fun hf => ?_) (.inr ⟨by simp, sg ++ (d ++ [c]), by simp⟩)
      obtain ⟨g, hg, a1, a2, rfl⟩ := opened (hN (.inr rfl))
      exact hf.2.2 a1 g (a2 ++ (sg ++ d)) c b hg hc (by simp [hS])
  | var =>
    by_cases hF : ∃ c ∈ s, Foreign c
    · exact foreign (.inr (.inr (.inr rfl))) hF
    obtain ⟨v, g, _, rfl, rfl, w, y, rfl, hw, rfl, hne, hv⟩ := h
    have hg : sigil v = '?' ∨ sigil v = '$' := by cases v <;> simp [sigil]
    cases hy : varNameOf v with
    | nil => exact absurd hy hne
    | cons c t =>
      rw [hy] at hS hv hF take legal
      by_cases h0 : w = []
      · subst h0
        have hch : ∀ d ∈ c :: t, W3CPnCharsU d ∨ AsciiDigit d := fun d hd => by
          rcases hv d hd with h | h | h
          · exact .inl (.inl (codedBase_w3c h fun hf => hF ⟨d, by simp [hd], hf⟩))
          · exact .inl (.inr h)
          · exact .inr h
        exact legal ⟨sigil v, c, t, rfl, hg, hch c (by simp), fun d hd => (hch d (by simp [hd])).imp id .inl⟩
      · refine take .gap (fun hf => hf.1 a (sigil v) w c (t ++ b) ?_ ⟨hw, h0⟩ (by simp [hS]) (.inl ?_))
          ⟨.inr (.inr (.inr rfl)), [sigil v], w, c :: t, rfl, ⟨hw, h0⟩, by simp, by simp⟩
        · rcases hg with h | h <;> simp [h]
        · rcases hv c (by simp) with h | h | h
          · exact .inl h
          · exact .inr (.inl h)
          · refine .inr (.inr (.inr ?_))
            rw [LowByteDigit]; rw [AsciiDigit] at h; omega
  | blankNodeLabel =>
    by_cases hF : ∃ c ∈ s, Foreign c
    · exact foreign (.inr (.inr (.inl rfl))) hF
    obtain ⟨_, _, _, rfl, rfl, w, _, rfl, hw, rfl, c, t, rfl, hc, ht⟩ := h
    by_cases h0 : w = []
    · subst h0
      rcases nameTail_w3c ht fun d hd hf => hF ⟨d, by simp [hd], hf⟩ with h | ⟨y, rfl⟩
      · exact legal ⟨c, t, rfl, codedLabelStart_w3c hc fun hf => hF ⟨c, by simp, hf⟩, h⟩
      · refine take .dotEnd (fun hf => hf.1 (a ++ ['_']) [] (c :: y) b .nil (by simp) (nameUnits_chars fun d hd => ?_) (by simp [hS]))
          (.inr ⟨by simp, '_' :: ':' :: c :: y, by simp⟩)
        rcases List.mem_cons.mp hd with rfl | hd
        · exact .inl (hc.imp id fun h => h.imp id .inr)
        · exact .inr (ht.1 d (by simp [hd]))
    · refine take .gap (fun hf => hf.1 (a ++ ['_']) ':' w c (t ++ b) (by simp) ⟨hw, h0⟩ (by simp [hS]) (.inl ?_))
        ⟨.inr (.inr (.inl rfl)), c!"_:", w, c :: t, rfl, ⟨hw, h0⟩, by simp, by simp⟩
      exact hc.imp id fun h => h.imp id .inr
  | pnameNs =>
    by_cases hF : ∃ c ∈ s, Foreign c
    · exact foreign (.inl rfl) hF
    obtain ⟨o, _, _, rfl, ⟨rfl, ho⟩, w, _, rfl, hw, rfl⟩ := h
    rcases optPrefix_w3c ho fun d hd hf => hF ⟨d, by simp [hd], hf⟩ with h | ⟨y, c, hy, hc⟩ | ⟨hx, y, c, hy, hc⟩
    · exact ⟨w, c!":", by simp [h], hw, .inl (.inl rfl)⟩
    · refine take .dotEnd (fun hf => ?_) (.inl ⟨.inl rfl, y ++ [c], w, [], by simp [hy], hw⟩)
      exact hf.2.1 (a ++ y) c w b hc hw (by simp [hS, hy])
    · by_cases h0 : w = []
      · subst h0; exact legal (.inr ⟨_, rfl, hx⟩)
      · exact take .gap (fun hf => hf.2 (a ++ y) c w b ⟨hw, h0⟩ (by simp [hS, hy]) hc)
          ⟨.inl rfl, y ++ [c], w, c!":", by simp [hy], ⟨hw, h0⟩, by simp, by simp⟩
  | pnameLn =>
    by_cases hF : ∃ c ∈ s, Foreign c
    · exact foreign (.inr (.inl rfl)) hF
    obtain ⟨o, _, _, _, rfl, ⟨_, _, rfl, ⟨rfl, ho⟩, w, _, rfl, hw, rfl⟩, v, l, rfl, hv, rfl, hl⟩ := h
    obtain ⟨d, m, hd, hd'⟩ := local_first hl
    by_cases h1 : v ≠ []
    · exact take .gap (fun hf => hf.1 (a ++ (prefixText o ++ w)) ':' v d (m ++ b) (by simp) ⟨hv, h1⟩ (by simp [hS, hd]) hd')
          ⟨.inr (.inl rfl), prefixText o ++ (w ++ c!":"), v, d :: m, by simp [hd], ⟨hv, h1⟩, by simp, by simp⟩
    simp only [ne_eq, Classical.not_not] at h1
    subst h1
    rcases (local_w3c hl fun d hd hf => hF ⟨d, by simp [hd], hf⟩).symm with ⟨y, hy, hy0, hy1⟩ | hx
    · exact take .dotEnd (fun hf => hf.1 (a ++ (prefixText o ++ w)) [] y b .nil hy0 hy1 (by simp [hS, hy]))
        (.inr ⟨by simp, prefixText o ++ (w ++ (':' :: y)), by simp [hy]⟩)
    rcases optPrefix_w3c ho fun d hd hf => hF ⟨d, by simp [hd], hf⟩ with h | ⟨y, c, hy, hc⟩ | ⟨hx', y, c, hy, hc⟩
    · exact ⟨w, c!":" ++ l, by simp [h], hw, .inl ⟨c!":", l, rfl, .inl rfl, hx⟩⟩
    · refine take .dotEnd (fun hf => ?_) (.inl ⟨.inr rfl, y ++ [c], w, l, by simp [hy], hw⟩)
      exact hf.2.1 (a ++ y) c w (l ++ b) hc hw (by simp [hS, hy])
    · by_cases h0 : w = []
      · subst h0; exact legal ⟨_, l, by simp, .inr ⟨_, rfl, hx'⟩, hx⟩
      · exact take .gap (fun hf => hf.2 (a ++ y) c w (l ++ b) ⟨hw, h0⟩ (by simp [hS, hy]) hc)
          ⟨.inr (.inl rfl), y ++ [c], w, ':' :: l, by simp [hy], ⟨hw, h0⟩, by simp, by simp⟩

end NomSparql
