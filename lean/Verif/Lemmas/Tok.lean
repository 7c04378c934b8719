import Verif.Spec.Canon
import Verif.Lemmas.Accept
import Verif.Props.C11_C16
import Verif.Props.C17_C23

/-!
# Canonical tokens are accepted
-/

namespace NomSparql

/-- `p` reads every text of `R a` as `a`, whatever may follow. -/
def Accepts (p : P α) (R : α → Lang) : Prop := ∀ a s r, R a s → Follow r → p (s ++ r) = .ok r a

/-! ## Follow -/

theorem Follow.nil : Follow [] := ⟨by simp, by simp⟩

theorem Follow.delim {r} (h : Follow r) {f : Char → Prop} (hf : ∀ c, Delim c → ¬ f c) : NotStart f r :=
  fun c r' e => hf c (h.1 c r' e)

theorem delim_cases {c : Char} (h : Delim c) {f : Char → Prop}
    (hf : ∀ d ∈ [' ', '\t', '\r', '\n', '#', ',', ';', ')', '}', ']', '{', '(', '=', '!', '<', '>', '&', '|', '*', '/'], ¬ f d) : ¬ f c := hf c h

theorem Follow.notStart {r} (h : Follow r) {f : Char → Prop}
    (hf : ∀ d ∈ [' ', '\t', '\r', '\n', '#', ',', ';', ')', '}', ']', '{', '(', '=', '!', '<', '>', '&', '|', '*', '/'], ¬ f d) : NotStart f r :=
  h.delim fun _ hc => delim_cases hc hf

theorem Follow.nameStop {r} (h : Follow r) : NameStop r := h.notStart (by
  intro d hd
  simp only [List.mem_cons, List.not_mem_nil, or_false] at hd
  rcases hd with rfl | rfl | rfl | rfl | rfl | rfl | rfl | rfl | rfl | rfl | rfl | rfl | rfl | rfl | rfl | rfl | rfl | rfl | rfl | rfl <;>
    (simp [OuterLocalChar, NameChar, AsciiLetter, AsciiDigit]))

theorem not_coded {d : Char} (hd : d ∈ [' ', '\t', '\r', '\n', '#', ',', ';', ')', '}', ']', '{', '(', '=', '!', '<', '>', '&', '|', '*', '/']) :
    ¬ CodedVarChar d ∧ ¬ AsciiDigit d ∧ ¬ (isPnChar d = true) ∧ d ≠ '.' ∧ d ≠ 'e' ∧ d ≠ 'E' ∧ d ≠ '@' ∧ d ≠ '^' ∧
      ¬ AsciiLetter d ∧ d ≠ '-' ∧ d ≠ ':' := by
  simp only [List.mem_cons, List.not_mem_nil, or_false] at hd
  rcases hd with rfl | rfl | rfl | rfl | rfl | rfl | rfl | rfl | rfl | rfl | rfl | rfl | rfl | rfl | rfl | rfl | rfl | rfl | rfl | rfl <;> decide

/-- White space before something that is not white space, not a colon, and a delimiter if it follows directly. -/
theorem Follow.ws {w r : Str} (hw : Ws w) (h : w ≠ [] ∨ ∀ c r', r = c :: r' → Delim c) (hr : ¬ StartsWs r)
    (hc : NotStart (· = ':') r) : Follow (w ++ r) := by
  constructor
  · intro c r' e
    cases w with
    | nil =>
      rcases h with h | h
      · contradiction
      · exact h c r' e
    | cons d w =>
      cases e
      rcases wsStart_iff.mp (ws_first hw _ _ rfl) with rfl | rfl | rfl | rfl | rfl <;> decide
  · intro w' r' e hw'
    have h1 : sp (w ++ r) = .ok r w := sp_eval hw hr
    rw [e] at h1
    have h2 : sp (w' ++ ':' :: r') = .ok (':' :: r') w' := sp_eval hw' (not_startsWs_cons (by decide))
    rw [h2] at h1
    cases h1
    exact hc _ _ rfl rfl

/-! ## Heads -/

/-- A character no separator, closing bracket or white space starts with. -/
def TokHead (c : Char) : Prop :=
  c ∉ [' ', '\t', '\r', '\n', '#', ',', ';', ')', '}', ']', '{', '.', ':', '|', '*', '&', '=', '/', '!', '>', '^']

instance : DecidablePred TokHead := fun c => by unfold TokHead; infer_instance

/-- Texts of `L` start with a token character. -/
def Toks (L : Lang) : Prop := ∀ s, L s → ∃ c t, s = c :: t ∧ TokHead c

theorem tokHead_of {f : Char → Bool} {c : Char} (h : f c = true)
    (hf : ∀ d ∈ [' ', '\t', '\r', '\n', '#', ',', ';', ')', '}', ']', '{', '.', ':', '|', '*', '&', '=', '/', '!',
      '>', '^'], f d = false) : TokHead c := by
  intro hc; rw [hf c hc] at h; cases h

theorem tokHead_not {c : Char} (h : TokHead c) {f : Char → Bool}
    (hf : ∀ d, f d = true → d ∈ [' ', '\t', '\r', '\n', '#', ',', ';', ')', '}', ']', '{', '.', ':', '|', '*', '&',
      '=', '/', '!', '>', '^']) : f c = false := by
  cases e : f c with
  | false => rfl
  | true => exact absurd (hf c e) h

theorem TokHead.ws {c : Char} (h : TokHead c) : wsStart c = false :=
  tokHead_not h fun d hd => by
    rcases wsStart_iff.mp hd with rfl | rfl | rfl | rfl | rfl <;> simp

theorem TokHead.ne {c d : Char} (h : TokHead c)
    (hd : d ∈ [' ', '\t', '\r', '\n', '#', ',', ';', ')', '}', ']', '{', '.', ':', '|', '*', '&', '=', '/', '!', '>', '^']) :
    c ≠ d := by rintro rfl; exact h hd

theorem TokHead.not_startsWs {c : Char} (h : TokHead c) (r : Str) : ¬ StartsWs (c :: r) := not_startsWs_cons h.ws

theorem Toks.not_startsWs {L : Lang} (h : Toks L) {s} (hs : L s) (r : Str) : ¬ StartsWs (s ++ r) := by
  obtain ⟨c, t, rfl, hc⟩ := h s hs
  exact hc.not_startsWs _

theorem Follow.ws1_tok {L : Lang} (hL : Toks L) {w s : Str} (hw : Ws1 w) (hs : L s) (r : Str) :
    Follow (w ++ (s ++ r)) := by
  refine Follow.ws hw.1 (.inl hw.2) (hL.not_startsWs hs r) ?_
  obtain ⟨c, t, rfl, hc⟩ := hL s hs
  exact notStart_cons (hc.ne (by simp))

/-- White space and a closing delimiter may follow a token. -/
theorem Follow.ws_close {w r : Str} {c : Char} (hw : Ws w) (hc : c ∈ [',', ';', ')', '}', ']', '{', '(', '=', '!', '<', '>', '&', '|', '*', '/']) :
    Follow (w ++ c :: r) := by
  have h : Delim c ∧ wsStart c = false ∧ c ≠ ':' := by
    simp only [List.mem_cons, List.not_mem_nil, or_false] at hc
    rcases hc with rfl | rfl | rfl | rfl | rfl | rfl | rfl | rfl | rfl | rfl | rfl | rfl | rfl | rfl | rfl <;> decide
  exact Follow.ws hw (.inr fun d r' e => by cases e; exact h.1) (not_startsWs_cons h.2.1) (notStart_cons h.2.2)

/-! ## Tokens -/

theorem digit_cases {c : Char} (h : AsciiDigit c) : c ∈ ['0', '1', '2', '3', '4', '5', '6', '7', '8', '9'] := by
  obtain ⟨h1, h2⟩ := h
  have : c = Char.ofNat c.toNat := (Char.ofNat_toNat c).symm
  rw [this]
  generalize c.toNat = n at h1 h2
  have : n = 0x30 ∨ n = 0x31 ∨ n = 0x32 ∨ n = 0x33 ∨ n = 0x34 ∨ n = 0x35 ∨ n = 0x36 ∨ n = 0x37 ∨ n = 0x38 ∨ n = 0x39 := by
    omega
  rcases this with rfl | rfl | rfl | rfl | rfl | rfl | rfl | rfl | rfl | rfl <;> decide

theorem var_accepts : Accepts var cVar := by
  rintro v s r ⟨rfl, hn, hc⟩ hr
  exact C12_roundtrip v r hn hc (hr.notStart fun d hd => (not_coded hd).1)

theorem cVar_head {v s} (h : cVar v s) : ∃ t, s = '?' :: t ∨ s = '$' :: t := by
  obtain ⟨rfl, _⟩ := h
  cases v with
  | qmark n => exact ⟨_, .inl rfl⟩
  | dollar n => exact ⟨_, .inr rfl⟩

theorem cVar_toks (v : Var) : Toks (cVar v) := by
  intro s h
  obtain ⟨t, rfl | rfl⟩ := cVar_head h <;> exact ⟨_, _, rfl, by decide⟩

theorem iriRef_accepts (x s r : Str) (h : cIriRef x s) : iriRef (s ++ r) = .ok r x := by
  obtain ⟨rfl, h⟩ := h
  refine (C13_exact _ _ _).mpr ⟨by simp, fun c hc => ⟨fun h' => (h c hc).1 (.inl h'), (h c hc).2⟩⟩

theorem iri_accepts : Accepts iri cIri := by
  rintro a s r h hr
  cases a with
  | iri x => exact (C13_iri _ _ _).mpr (iriRef_accepts x s r h)
  | prefixedName n =>
    cases n with
    | pnameNS o => exact h.elim
    | pnameLN o l =>
      cases o with
      | none => exact h.elim
      | some p =>
        obtain ⟨rfl, h1, h2⟩ := h
        have := iri_prefixed.mpr (C14_roundtrip_partial (some p) l r h1 h2 hr.nameStop)
        simpa [prefixText] using this

theorem base_tokHead {c : Char} (h : isPnCharsBase c = true) : TokHead c :=
  tokHead_of (f := isPnCharsBase) h (by decide)

theorem cIri_head {i s} (h : cIri i s) : ∃ c t, s = c :: t ∧ (c = '<' ∨ isPnCharsBase c = true) := by
  cases i with
  | iri x => obtain ⟨rfl, _⟩ := h; exact ⟨_, _, rfl, .inl rfl⟩
  | prefixedName n =>
    cases n with
    | pnameNS o => exact h.elim
    | pnameLN o l =>
      cases o with
      | none => exact h.elim
      | some p =>
        obtain ⟨rfl, ⟨c, t, rfl, hc, _⟩, _⟩ := h
        exact ⟨c, _, rfl, .inr (isPnCharsBase_of_w3c hc.1 hc.2)⟩

theorem cIri_toks (i : Iri) : Toks (cIri i) := by
  intro s h
  obtain ⟨c, t, rfl, rfl | hc⟩ := cIri_head h
  · exact ⟨_, _, rfl, by decide⟩
  · exact ⟨_, _, rfl, base_tokHead hc⟩

theorem langTag_stop {r} (h : Follow r) : NotStart (fun c => AsciiLetter c ∨ AsciiDigit c ∨ c = '-') r :=
  h.notStart fun d hd => by
    have := not_coded hd
    rintro (h | h | h)
    · exact this.2.2.2.2.2.2.2.2.1 h
    · exact this.2.1 h
    · exact this.2.2.2.2.2.2.2.2.2.1 h

theorem rdfLiteral_accepts : Accepts rdfLiteral cRdfLiteral := by
  rintro ⟨l, d⟩ s r ⟨x, y, rfl, hx, hy⟩ hr
  cases d with
  | none =>
    simp only [rOpt, eps] at hy
    subst hy
    simp only [List.append_nil]
    exact C16_plain l x r hx (hr.notStart fun d hd => by
      have := not_coded hd
      rintro (h | h)
      · exact this.2.2.2.2.2.2.1 h
      · exact this.2.2.2.2.2.2.2.1 h)
  | some d =>
    cases d with
    | langTag t =>
      obtain ⟨rfl, ht⟩ := hy
      refine rdfLiteral_ok.mpr ⟨'@' :: t ++ r, stringLiteral_text.mpr ⟨x, hx, by simp⟩, opt_ok.mpr (.inl ⟨_, rfl,
        litDescr_lang.mpr (languageTag_append ht (langTag_stop hr))⟩)⟩
    | iriRef i =>
      obtain ⟨_, z, rfl, rfl, hz⟩ := hy
      refine rdfLiteral_ok.mpr ⟨_, stringLiteral_text.mpr ⟨x, hx, ?_⟩, opt_ok.mpr (.inl ⟨_, rfl,
        litDescr_iri.mpr ⟨z ++ r, rfl, iri_accepts i z r hz hr⟩⟩)⟩
      simp

theorem cRdfLiteral_head {l s} (h : cRdfLiteral l s) : ∃ t, s = '\'' :: t ∨ s = '"' :: t := by
  obtain ⟨x, y, rfl, ⟨q, rfl | rfl, rfl, _⟩, _⟩ := h
  · exact ⟨_, .inl rfl⟩
  · exact ⟨_, .inr rfl⟩

theorem cRdfLiteral_toks (l : RdfLiteral) : Toks (cRdfLiteral l) := by
  intro s h
  obtain ⟨t, rfl | rfl⟩ := cRdfLiteral_head h <;> exact ⟨_, _, rfl, by decide⟩

theorem numericLiteral_accepts : Accepts numericLiteral cNumericLiteral := by
  intro n s r h hr
  have hd : NotStart AsciiDigit r := hr.notStart fun d hd => (not_coded hd).2.1
  have he : NotStart (fun c => c = 'e' ∨ c = 'E') r := hr.notStart fun d hd => by
    have := not_coded hd
    rintro (h | h)
    · exact this.2.2.2.2.1 h
    · exact this.2.2.2.2.2.1 h
  have hi : IntStop r := hr.notStart fun d hd => by
    have := not_coded hd
    rintro (h | h | h | h)
    · exact this.2.1 h
    · exact this.2.2.2.1 h
    · exact this.2.2.2.2.1 h
    · exact this.2.2.2.2.2.1 h
  cases n with
  | int v => exact C17_roundtrip s r v h.1 h.2 hi
  | double d e =>
    cases e with
    | none => exact C18_decimal s r d h.1 h.2.1 hd he
    | some e =>
      obtain ⟨m, x, rfl, ⟨hm, _⟩, hx, hf⟩ := h
      rw [List.append_assoc]
      exact C18_double_partial m x r d e hm hx hf hd

/-- First characters of canonical numbers. -/
def numHeads : List Char := ['+', '-', '0', '1', '2', '3', '4', '5', '6', '7', '8', '9']

theorem digit_numHeads {c : Char} (h : AsciiDigit c) : c ∈ numHeads := List.mem_append_right ['+', '-'] (digit_cases h)

theorem intText_head {s v} (h : IntText s v) : ∃ c t, s = c :: t ∧ c ∈ numHeads := by
  obtain ⟨sg, neg, ds, n, rfl, hs, hd, _⟩ := h
  obtain ⟨h1, h2, _⟩ := decVal_iff.mp hd
  cases hs with
  | none =>
    cases ds with
    | nil => contradiction
    | cons c t => exact ⟨c, t, rfl, digit_numHeads (h2 c (by simp))⟩
  | plus => exact ⟨_, _, rfl, by decide⟩
  | minus => exact ⟨_, _, rfl, by decide⟩

theorem mantText_head {s d} (h : MantText s d) (hd : s.head? ≠ some '.') : ∃ c t, s = c :: t ∧ c ∈ numHeads := by
  obtain ⟨sg, neg, w, f, hs, h1, h2, h3, _⟩ := h
  cases hs with
  | none =>
    cases w with
    | nil =>
      rcases h1 with ⟨rfl, rfl⟩ | rfl
      · simp at h2
      · simp at hd
    | cons c w =>
      have := digit_numHeads (h3 c (by simp))
      rcases h1 with ⟨rfl, rfl⟩ | rfl <;> exact ⟨c, _, rfl, this⟩
  | plus => rcases h1 with ⟨rfl, rfl⟩ | rfl <;> exact ⟨_, _, rfl, by decide⟩
  | minus => rcases h1 with ⟨rfl, rfl⟩ | rfl <;> exact ⟨_, _, rfl, by decide⟩

theorem cNumericLiteral_head {n s} (h : cNumericLiteral n s) : ∃ c t, s = c :: t ∧ c ∈ numHeads := by
  cases n with
  | int v => exact intText_head h.1
  | double d e =>
    cases e with
    | none => exact mantText_head h.1 h.2.2
    | some e =>
      obtain ⟨m, x, rfl, ⟨hm, hm'⟩, _⟩ := h
      obtain ⟨c, t, rfl, hc⟩ := mantText_head hm hm'
      exact ⟨c, _, rfl, hc⟩

theorem numHeads_cases {c : Char} (h : c ∈ numHeads) : c = '+' ∨ c = '-' ∨ c = '0' ∨ c = '1' ∨ c = '2' ∨ c = '3' ∨
    c = '4' ∨ c = '5' ∨ c = '6' ∨ c = '7' ∨ c = '8' ∨ c = '9' := by
  simpa [numHeads] using h

theorem numHeads_false {f : Char → Bool} {c : Char} (h : c ∈ numHeads) (hf : numHeads.all (fun c => !f c) = true) :
    f c = false := by
  have := List.all_eq_true.mp hf c h
  simpa using this

theorem cNumericLiteral_toks (n : NumericLiteral) : Toks (cNumericLiteral n) := by
  intro s h
  obtain ⟨c, t, rfl, hc⟩ := cNumericLiteral_head h
  refine ⟨c, t, rfl, ?_⟩
  rcases numHeads_cases hc with rfl | rfl | rfl | rfl | rfl | rfl | rfl | rfl | rfl | rfl | rfl | rfl <;> decide

theorem boolean_accepts (b : Bool) (s r : Str) (h : rBoolean b s) : boolean (s ++ r) = .ok r b := by
  refine (C19_exact _ _ _).mpr ⟨s, rfl, ?_⟩
  cases b <;> exact h

/-! Words that are not the beginning of a prefixed name. -/

/-- A non-empty word of ASCII letters. -/
def Word (k : Str) : Prop := k ≠ [] ∧ ∀ c ∈ k, AsciiLetter c

theorem letter_base {c : Char} (h : AsciiLetter c) : isPnCharsBase c = true := by
  have h1 : c.toNat < 128 := by unfold AsciiLetter at h; omega
  have : asU8 c = c.toNat := by unfold asU8; omega
  unfold isPnCharsBase
  rw [this]
  have : isAsciiAlphaCode c.toNat = true := by
    unfold AsciiLetter at h
    unfold isAsciiAlphaCode
    simp only [Bool.or_eq_true, Bool.and_eq_true, decide_eq_true_eq]
    omega
  rw [this]; rfl

theorem pnB_pnC {c : Char} (h : isPnCharsBase c = true) : isPnChar c = true := by
  unfold isPnChar isPnCharsU; rw [h]; rfl

theorem Word.prefixName {k : Str} (h : Word k) : PrefixName PnB PnC k := by
  obtain ⟨h1, h2⟩ := h
  cases k with
  | nil => contradiction
  | cons c t =>
    refine ⟨c, t, rfl, letter_base (h2 c (by simp)), fun d hd => .inl (pnB_pnC (letter_base (h2 d (by simp [hd])))), ?_⟩
    rcases List.eq_nil_or_concat t with rfl | ⟨t', d, rfl⟩
    · exact .inl (by simp)
    · exact .inr ⟨t', d, by simp, pnB_pnC (letter_base (h2 d (by simp)))⟩

theorem sameLetter_letter {x y : Char} (h : SameLetter x y) (hx : AsciiLetter x) : AsciiLetter y := by
  rcases h with rfl | ⟨h1, h2, h3⟩
  · exact hx
  · unfold AsciiLetter at *; omega

theorem caseVariant_word {t k : Str} (hk : CaseVariant t k) (hn : t ≠ []) (ht : ∀ c ∈ t, AsciiLetter c) :
    Word k := by
  refine ⟨by cases hk <;> simp_all, ?_⟩
  clear hn
  induction hk with
  | nil => simp
  | @cons x y t s h hk ih =>
    intro c hc
    rcases List.mem_cons.mp hc with rfl | hc
    · exact sameLetter_letter h (ht x (by simp))
    · exact ih (fun d hd => ht d (by simp [hd])) c hc

/-- The other spelling of a keyword character. -/
def upperOf (x : Char) : Char := if 0x61 ≤ x.toNat ∧ x.toNat ≤ 0x7A then Char.ofNat (x.toNat - 0x20) else x

theorem sameLetter_cases {x y : Char} (h : SameLetter x y) : y = x ∨ y = upperOf x := by
  rcases h with h | ⟨h1, h2, h3⟩
  · exact .inl h
  · right
    unfold upperOf
    rw [if_pos ⟨h1, h2⟩]
    have : x.toNat - 0x20 = y.toNat := by omega
    rw [this, Char.ofNat_toNat]

/-- A parser that cannot start with the first letter of the keyword fails. -/
theorem kw_first {p : P α} {F} [First p F] {x : Char} {t k r : Str} (h : CaseVariant (x :: t) k)
    (hF : (F x || F (upperOf x)) = false) : Fails p (k ++ r) := by
  obtain ⟨y, k', rfl, hs, _⟩ := CaseVariant.cons_iff.mp h
  simp only [Bool.or_eq_false_iff] at hF
  rcases sameLetter_cases hs with rfl | rfl
  · exact First.cons hF.1
  · exact First.cons hF.2

/-- Another keyword fails. -/
theorem kw_fails {t u k r : Str} (hk : CaseVariant u k)
    (h : t.all (fun c => decide (KwLetter c)) = true ∧ u.all (fun c => decide (KwLetter c)) = true ∧ clash t u = true) :
    Fails (tagNoCase t) (k ++ r) := by
  refine ⟨_, _, tagNoCase_clash ?_ ?_ h.2.2 hk⟩
  · intro c hc; simpa using List.all_eq_true.mp h.2.1 c hc
  · intro c hc; simpa using List.all_eq_true.mp h.1 c hc

theorem kw_toks {x : Char} {t : Str} (h : TokHead x ∧ TokHead (upperOf x)) : Toks (kw (x :: t)) := by
  intro s hs
  obtain ⟨y, k', rfl, hs, _⟩ := CaseVariant.cons_iff.mp hs
  rcases sameLetter_cases hs with rfl | rfl
  · exact ⟨_, _, rfl, h.1⟩
  · exact ⟨_, _, rfl, h.2⟩

theorem pnPrefix_word {k r : Str} (h : Word k) (hr : Follow r) : pnPrefix (k ++ r) = .ok r k :=
  pnPrefix_append h.prefixName (hr.notStart fun d hd => (not_coded hd).2.2.1)
    (hr.notStart fun d hd => (not_coded hd).2.2.2.1)

theorem pnameNs_fails_word {k r : Str} (h : Word k) (hr : Follow r) : Fails pnameNs (k ++ r) := by
  unfold pnameNs
  refine Fails.terminated2 (opt_eval (pnPrefix_word h hr)) ?_
  rcases Soft.cases (preceded sp (char ':')) r with ⟨r', a, e⟩ | e
  · exfalso
    simp only [preceded_ok, sp_ok_iff, char_ok] at e
    obtain ⟨r1, w, ⟨rfl, hw, _⟩, rfl, rfl⟩ := e
    exact hr.2 _ _ rfl hw
  · exact e

theorem iri_fails_word {k r : Str} (h : Word k) (hr : Follow r) : Fails iri (k ++ r) := by
  have hp := pnameNs_fails_word h hr
  obtain ⟨h1, h2⟩ := h
  cases k with
  | nil => contradiction
  | cons c t =>
    have hc := letter_base (h2 c (by simp))
    unfold iri
    refine Fails.alt_cons (Fails.map (First.cons ?_)) (Fails.map ?_)
    · have : c ≠ '<' := by rintro rfl; cases hc
      simp [this]
    · unfold prefixedName
      refine Fails.alt_cons (Fails.map ?_) (Fails.map hp)
      unfold pnameLn
      exact Fails.pair hp

theorem iri_fails_kw {t k r : Str} (hk : CaseVariant t k) (hn : t ≠ []) (ht : ∀ c ∈ t, AsciiLetter c)
    (hr : Follow r) : Fails iri (k ++ r) := iri_fails_word (caseVariant_word hk hn ht) hr

/-! Blank nodes, terms. -/

theorem blankNode_accepts : Accepts blankNode cBlankNode := by
  intro b s r h hr
  cases b with
  | anon =>
    obtain ⟨_, _, rfl, rfl, w, _, rfl, hw, rfl⟩ := h
    exact (C20_anon _ _).mpr ⟨w, hw, by simp⟩
  | label l =>
    obtain ⟨rfl, hl⟩ := h
    exact C20_label [] l r .nil hl hr.nameStop

theorem cBlankNode_head {b s} (h : cBlankNode b s) : ∃ t, s = '_' :: t ∨ s = '[' :: t := by
  cases b with
  | anon => obtain ⟨_, _, rfl, rfl, _⟩ := h; exact ⟨_, .inr rfl⟩
  | label l => obtain ⟨rfl, _⟩ := h; exact ⟨_, .inl rfl⟩

theorem rNil_accepts {s r : Str} (h : rNil s) : ∃ w, nil (s ++ r) = .ok r w := by
  obtain ⟨_, _, rfl, rfl, w, _, rfl, hw, rfl⟩ := h
  exact ⟨w, nil_ok.mpr ⟨hw, by simp⟩⟩

theorem rNil_head {s : Str} (h : rNil s) : ∃ t, s = '(' :: t := by
  obtain ⟨_, _, rfl, rfl, _⟩ := h
  exact ⟨_, rfl⟩

theorem rBoolean_kw {b s} (h : rBoolean b s) : CaseVariant c!"true" s ∨ CaseVariant c!"false" s := by
  cases b
  · exact .inr h
  · exact .inl h

/-- Skip an alternative by its first character. -/
macro "skip1" : tactic => `(tactic| refine alt_eval2 (Fails.map (First.cons rfl)) ?_)

theorem graphTerm_accepts : Accepts graphTerm cGraphTerm := by
  intro t s r h hr
  unfold graphTerm
  cases t with
  | iri i => exact alt_eval1 (map_eval (iri_accepts i s r h hr))
  | rdfLiteral l =>
    have e := rdfLiteral_accepts l s r h hr
    obtain ⟨t, rfl | rfl⟩ := cRdfLiteral_head h
    · skip1; exact alt_eval1 (map_eval e)
    · skip1; exact alt_eval1 (map_eval e)
  | numericLiteral n =>
    have e := numericLiteral_accepts n s r h hr
    obtain ⟨c, t, rfl, hc⟩ := cNumericLiteral_head h
    refine alt_eval2 (Fails.map (First.cons (numHeads_false hc rfl))) ?_
    refine alt_eval2 (Fails.map (First.cons (numHeads_false hc rfl))) ?_
    exact alt_eval1 (map_eval e)
  | booleanLiteral b =>
    have e := boolean_accepts b s r h
    rcases rBoolean_kw h with h | h
    · refine alt_eval2 (Fails.map (iri_fails_kw h (by decide) (by decide) hr)) ?_
      refine alt_eval2 (Fails.map (kw_first h rfl)) ?_
      refine alt_eval2 (Fails.map (kw_first h rfl)) ?_
      exact alt_eval1 (map_eval e)
    · refine alt_eval2 (Fails.map (iri_fails_kw h (by decide) (by decide) hr)) ?_
      refine alt_eval2 (Fails.map (kw_first h rfl)) ?_
      refine alt_eval2 (Fails.map (kw_first h rfl)) ?_
      exact alt_eval1 (map_eval e)
  | blankNode b =>
    have e := blankNode_accepts b s r h hr
    obtain ⟨t, rfl | rfl⟩ := cBlankNode_head h
    · skip1; skip1; skip1; skip1; exact alt_eval1 (map_eval e)
    · skip1; skip1; skip1; skip1; exact alt_eval1 (map_eval e)
  | nil =>
    obtain ⟨w, e⟩ := rNil_accepts (r := r) h
    obtain ⟨t, rfl⟩ := rNil_head h
    skip1; skip1; skip1; skip1; skip1
    exact map_eval (f := fun _ => GraphTerm.nil) e

theorem cGraphTerm_toks (t : GraphTerm) : Toks (cGraphTerm t) := by
  cases t with
  | iri i => exact cIri_toks i
  | rdfLiteral l => exact cRdfLiteral_toks l
  | numericLiteral n => exact cNumericLiteral_toks n
  | booleanLiteral b =>
    intro s h
    rcases rBoolean_kw h with h | h
    · exact kw_toks (by decide) s h
    · exact kw_toks (by decide) s h
  | blankNode b =>
    intro s h
    obtain ⟨t, rfl | rfl⟩ := cBlankNode_head h <;> exact ⟨_, _, rfl, by decide⟩
  | nil =>
    intro s h
    obtain ⟨t, rfl⟩ := rNil_head h
    exact ⟨_, _, rfl, by decide⟩

/-- No canonical term starts like a variable. -/
theorem cGraphTerm_not_var {t : GraphTerm} {s : Str} (h : cGraphTerm t s) :
    ∃ c s', s = c :: s' ∧ c ≠ '?' ∧ c ≠ '$' := by
  cases t with
  | iri i =>
    obtain ⟨c, t, rfl, rfl | hc⟩ := cIri_head h
    · exact ⟨_, _, rfl, by decide⟩
    · refine ⟨_, _, rfl, ?_, ?_⟩ <;> (rintro rfl; cases hc)
  | rdfLiteral l => obtain ⟨t, rfl | rfl⟩ := cRdfLiteral_head h <;> exact ⟨_, _, rfl, by decide⟩
  | numericLiteral n =>
    obtain ⟨c, t, rfl, hc⟩ := cNumericLiteral_head h
    exact ⟨_, _, rfl, by rintro rfl; revert hc; decide, by rintro rfl; revert hc; decide⟩
  | booleanLiteral b =>
    rcases rBoolean_kw h with h | h <;>
    · obtain ⟨y, k', rfl, hs, _⟩ := CaseVariant.cons_iff.mp h
      rcases sameLetter_cases hs with rfl | rfl <;> exact ⟨_, _, rfl, by decide⟩
  | blankNode b => obtain ⟨t, rfl | rfl⟩ := cBlankNode_head h <;> exact ⟨_, _, rfl, by decide⟩
  | nil => obtain ⟨t, rfl⟩ := rNil_head h; exact ⟨_, _, rfl, by decide⟩

theorem var_fails {c : Char} {r : Str} (h : c ≠ '?') (h' : c ≠ '$') : Fails var (c :: r) :=
  First.cons (by simp [h, h'])

theorem varOrTerm_accepts : Accepts varOrTerm cVarOrTerm := by
  intro t s r h hr
  unfold varOrTerm
  cases t with
  | var v => exact alt_eval1 (map_eval (var_accepts v s r h hr))
  | term t =>
    have e := graphTerm_accepts t s r h hr
    obtain ⟨c, s', rfl, h1, h2⟩ := cGraphTerm_not_var h
    exact alt_eval2 (Fails.map (var_fails h1 h2)) (map_eval e)

theorem cVarOrTerm_toks (t : VarOrTerm) : Toks (cVarOrTerm t) := by
  cases t with
  | var v => exact cVar_toks v
  | term t => exact cGraphTerm_toks t

theorem varOrIri_accepts : Accepts varOrIri cVarOrIri := by
  intro t s r h hr
  unfold varOrIri
  cases t with
  | var v => exact alt_eval1 (map_eval (var_accepts v s r h hr))
  | iri i =>
    have e := iri_accepts i s r h hr
    obtain ⟨c, s', rfl, h1, h2⟩ := cGraphTerm_not_var (t := .iri i) h
    exact alt_eval2 (Fails.map (var_fails h1 h2)) (map_eval e)

theorem cVarOrIri_toks (t : VarOrIri) : Toks (cVarOrIri t) := by
  cases t with
  | var v => exact cVar_toks v
  | iri t => exact cIri_toks t

theorem verb_accepts : Accepts verb cVerb := by
  intro t s r h hr
  unfold verb
  cases t with
  | varOrIri v => exact alt_eval1 (map_eval (varOrIri_accepts v s r h hr))
  | a =>
    obtain rfl := h
    have hk : CaseVariant c!"a" c!"a" := .cons (.inl rfl) .nil
    refine alt_eval2 (Fails.map ?_) (map_eval (f := fun _ => Verb.a) (kw_eval hk))
    exact Fails.alt_cons (Fails.map (kw_first hk rfl)) (Fails.map (iri_fails_kw hk (by decide) (by decide) hr))

theorem cVerb_toks (v : Verb) : Toks (cVerb v) := by
  cases v with
  | varOrIri v => exact cVarOrIri_toks v
  | a => rintro s rfl; exact ⟨_, _, rfl, by decide⟩

theorem datablockValue_accepts : Accepts datablockValue cDataBlockValue := by
  intro t s r h hr
  unfold datablockValue
  cases t with
  | iri i => exact alt_eval1 (map_eval (iri_accepts i s r h hr))
  | rdfLiteral l =>
    have e := rdfLiteral_accepts l s r h hr
    obtain ⟨t, rfl | rfl⟩ := cRdfLiteral_head h
    · skip1; exact alt_eval1 (map_eval e)
    · skip1; exact alt_eval1 (map_eval e)
  | numericLiteral n =>
    have e := numericLiteral_accepts n s r h hr
    obtain ⟨c, t, rfl, hc⟩ := cNumericLiteral_head h
    refine alt_eval2 (Fails.map (First.cons (numHeads_false hc rfl))) ?_
    refine alt_eval2 (Fails.map (First.cons (numHeads_false hc rfl))) ?_
    exact alt_eval1 (map_eval e)
  | booleanLiteral b =>
    have e := boolean_accepts b s r h
    rcases rBoolean_kw h with h | h
    · refine alt_eval2 (Fails.map (iri_fails_kw h (by decide) (by decide) hr)) ?_
      refine alt_eval2 (Fails.map (kw_first h rfl)) ?_
      refine alt_eval2 (Fails.map (kw_first h rfl)) ?_
      exact alt_eval1 (map_eval e)
    · refine alt_eval2 (Fails.map (iri_fails_kw h (by decide) (by decide) hr)) ?_
      refine alt_eval2 (Fails.map (kw_first h rfl)) ?_
      refine alt_eval2 (Fails.map (kw_first h rfl)) ?_
      exact alt_eval1 (map_eval e)
  | undef =>
    refine alt_eval2 (Fails.map (iri_fails_kw h (by decide) (by decide) hr)) ?_
    refine alt_eval2 (Fails.map (kw_first h rfl)) ?_
    refine alt_eval2 (Fails.map (kw_first h rfl)) ?_
    refine alt_eval2 (Fails.map (kw_first h rfl)) ?_
    exact map_eval (f := fun _ => DataBlockValue.undef) (kw_eval h)

theorem cDataBlockValue_toks (v : DataBlockValue) : Toks (cDataBlockValue v) := by
  cases v with
  | iri i => exact cIri_toks i
  | rdfLiteral l => exact cRdfLiteral_toks l
  | numericLiteral n => exact cNumericLiteral_toks n
  | booleanLiteral b => exact cGraphTerm_toks (.booleanLiteral b)
  | undef => exact fun s h => kw_toks (by decide) s h

end NomSparql
