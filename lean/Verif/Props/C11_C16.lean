import Verif.Lemmas.Names

/-!
# C11 – C16: white space, variables, IRIs, prefixed names, strings, tagged literals
-/

namespace NomSparql

set_option maxRecDepth 8000

/-! ## C11 -/

/-- `sp` skips exactly the maximal white space prefix: it always succeeds, what it skips is white space,
and no white space unit is left. -/
theorem C11_exact (i r w : Str) : sp i = .ok r w ↔ i = w ++ r ∧ Ws w ∧ ¬ StartsWs r := sp_ok_iff

theorem C11_total (i : Str) : ∃ w r, sp i = .ok r w := by
  obtain ⟨r, w, h⟩ := Total.out (p := sp) i
  exact ⟨w, r, h⟩

/-- `sp1` is the same but needs at least one unit. -/
theorem C11_sp1_exact (i r w : Str) : sp1 i = .ok r w ↔ i = w ++ r ∧ Ws1 w ∧ ¬ StartsWs r := sp1_ok_iff

theorem C11_sp1_rejects (i : Str) : (∃ pos k, sp1 i = .err (.error pos k)) ↔ ¬ StartsWs i := sp1_err_iff

/-- White space before white space. -/
theorem sp_ws_append {w r : Str} (h : Ws w) : ∃ r' w', sp r = .ok r' w' ∧ sp (w ++ r) = .ok r' (w ++ w') := by
  obtain ⟨r', w', e⟩ := Total.out (p := sp) r
  obtain ⟨rfl, h1, h2⟩ := sp_ok_iff.mp e
  exact ⟨r', w', e, sp_ok_iff.mpr ⟨by simp, h.append h1, h2⟩⟩

/-- Whatever white space (blanks, line ends, comments in any order) precedes a token, the token parser
sees the same text and gives the same result. -/
theorem C11_interchangeable (p : P α) (w w' r : Str) (h : Ws w) (h' : Ws w') :
    preceded sp p (w ++ r) = preceded sp p (w' ++ r) := by
  suffices ∀ w, Ws w → preceded sp p (w ++ r) = preceded sp p r by rw [this w h, this w' h']
  intro w h
  obtain ⟨r', w', h1, h2⟩ := sp_ws_append (r := r) h
  unfold preceded map pair
  rw [h1, h2]
  simp only
  cases p r' <;> rfl

theorem C11_sp1_interchangeable (p : P α) (w w' r : Str) (h : Ws1 w) (h' : Ws1 w') :
    preceded sp1 p (w ++ r) = preceded sp1 p (w' ++ r) := by
  suffices ∀ w, Ws1 w → preceded sp1 p (w ++ r) = preceded sp p r by rw [this w h, this w' h']
  intro w h
  obtain ⟨r', w', h1, h2⟩ := sp_ws_append (r := r) h.1
  obtain ⟨e, h3, h4⟩ := sp_ok_iff.mp h2
  have h5 : sp1 (w ++ r) = .ok r' (w ++ w') := sp1_ok_iff.mpr ⟨e, ⟨h3, by simp [h.2]⟩, h4⟩
  unfold preceded map pair
  rw [h1, h5]
  simp only
  cases p r' <;> rfl

/-- Skipping twice equals skipping once. -/
theorem C11_twice (i r w : Str) (h : sp i = .ok r w) : sp r = .ok r [] := by
  obtain ⟨_, _, h2⟩ := sp_ok_iff.mp h
  exact sp_none h2

/-- A comment is skipped up to its line end whatever it contains. -/
theorem C11_comment (body r : Str) (c : Char) (hc : c = '\n' ∨ c = '\r')
    (hb : ∀ d ∈ body, d ≠ '\n' ∧ d ≠ '\r') (hr : ¬ StartsWs r) :
    sp ('#' :: (body ++ c :: r)) = .ok r ('#' :: (body ++ [c])) := by
  apply sp_ok_iff.mpr
  refine ⟨by simp, .item (.comment hb ?_), hr⟩
  rcases hc with rfl | rfl <;> simp

/-- Limit of the code (and of the statement): a comment that runs to the end of the input without a line
end is not skipped, whatever it contains. -/
theorem C11_comment_at_end_not_skipped (body : Str) (hb : ∀ d ∈ body, d ≠ '\n' ∧ d ≠ '\r') :
    sp ('#' :: body) = .ok ('#' :: body) [] := by
  apply sp_none
  rintro ⟨a, b, h, e⟩
  cases h with
  | char h =>
    simp only [List.cons_append, List.nil_append, List.cons.injEq] at e
    rw [← e.1] at h
    exact absurd h (by decide)
  | @comment body' c h1 h2 =>
    simp only [List.cons_append, List.cons.injEq, true_and] at e
    have := hb c (by rw [e]; simp)
    simp only [List.mem_cons, List.not_mem_nil, or_false] at h2
    rcases h2 with rfl | rfl <;> simp at this

example : sp c!" # {?x} \"\n\t ASK" = .ok c!"ASK" c!" # {?x} \"\n\t " := rfl
example : preceded sp var c!"#c\n ?x" = preceded sp var c!"?x" := rfl

/-! ## C12 -/

theorem codedBase_iff {c : Char} : isPnCharsBase c = true ↔ CodedBase c := isPnCharsBase_iff

theorem codedVarChar_iff {c : Char} : isVarChar c = true ↔ CodedVarChar c := by
  rw [isVarChar_iff, codedBase_iff]; rfl

/-- Variables, exactly: sigil, white space, the longest non-empty run of the code's name characters. -/
theorem C12_exact (i r : Str) (v : Var) : var i = .ok r v ↔
    ∃ w, Ws w ∧ i = sigil v :: (w ++ (varNameOf v ++ r)) ∧ varNameOf v ≠ [] ∧
      (∀ c ∈ varNameOf v, CodedVarChar c) ∧ NotStart CodedVarChar r := by
  rw [var_ok]
  simp only [codedVarChar_iff]

/-- Round trip: every variable with a legal name (SPARQL 1.1 VARNAME characters below U+10000) is returned
with its sigil and full name. -/
theorem C12_roundtrip (v : Var) (r : Str) (hn : varNameOf v ≠ [])
    (hc : ∀ c ∈ varNameOf v, W3CVarStart c ∧ c.toNat < 0x10000) (hr : NotStart CodedVarChar r) :
    var (sigil v :: (varNameOf v ++ r)) = .ok r v := by
  refine (C12_exact _ _ _).mpr ⟨[], .nil, rfl, hn, ?_, hr⟩
  intro c h
  obtain ⟨h1 | h1 | h1, h2⟩ := hc c h
  · exact .inl (.inl ⟨h1, h2⟩)
  · exact .inr (.inl h1)
  · exact .inr (.inr h1)

/-- An accepted variable has a non-empty name of name characters: no ASCII punctuation, blank or control
character ever ends up in it. -/
theorem C12_accepted (i r : Str) (v : Var) (h : var i = .ok r v) :
    varNameOf v ≠ [] ∧ ∀ c ∈ varNameOf v, NameChar c := by
  obtain ⟨_, _, _, h1, h2, _⟩ := var_ok.mp h
  exact ⟨h1, fun c hc => isVarChar_name (h2 c hc)⟩

/-- Within Latin-1 the accepted names are the legal ones (up to the tail character U+00B7). -/
theorem C12_latin1 (i r : Str) (v : Var) (hi : ∀ c ∈ i, c.toNat < 256) (h : var i = .ok r v) :
    ∀ c ∈ varNameOf v, W3CVarStart c := by
  obtain ⟨w, _, rfl, _, h2, _⟩ := var_ok.mp h
  intro c hc
  have hlt : c.toNat < 256 := hi c (by simp [hc])
  rcases isVarChar_iff.mp (h2 c hc) with h | h | h
  · exact .inl ((isPnCharsBase_latin1 hlt).mp h)
  · exact .inr (.inl h)
  · exact .inr (.inr h)

/-- Violation 1: every character whose low byte is an ASCII letter is accepted in a name, legal or not. -/
theorem C12_illegal_accepted_violated (c : Char) (hc : LowByteLetter c) (r : Str)
    (hr : NotStart CodedVarChar r) : var ('?' :: c :: r) = .ok r (.qmark [c]) :=
  (C12_exact _ _ _).mpr ⟨[], .nil, rfl, by simp [varNameOf], by
    intro d hd; simp only [varNameOf, List.mem_singleton] at hd; subst hd; exact .inl (.inr hc), hr⟩

/-- Violation 2: names starting with a legal character from U+10000 on are rejected (unless the low byte
happens to be an ASCII letter). -/
theorem C12_legal_rejected_violated (c : Char) (hc : 0x10000 ≤ c.toNat) (hl : ¬ LowByteLetter c) (r : Str) :
    ∃ pos k, var ('?' :: c :: r) = .err (.error pos k) := by
  rcases Soft.cases var ('?' :: c :: r) with ⟨r', v, h⟩ | h
  · exfalso
    obtain ⟨w, hw, e, h1, h2, _⟩ := (C12_exact _ _ _).mp h
    simp only [List.cons.injEq] at e
    obtain ⟨_, e⟩ := e
    cases w with
    | nil =>
      cases hn : varNameOf v with
      | nil => contradiction
      | cons d s =>
        rw [hn] at e h2
        simp only [List.nil_append, List.cons_append, List.cons.injEq] at e
        have := h2 d (by simp)
        rw [← e.1] at this
        rcases this with (⟨_, h⟩ | h) | h | h
        · omega
        · exact hl h
        · subst h; exact absurd hc (by decide)
        · have := h.2; omega
    | cons d w =>
      simp only [List.cons_append, List.cons.injEq] at e
      have := wsStart_iff.mp (ws_first hw d w rfl)
      rw [← e.1] at this
      rcases this with rfl | rfl | rfl | rfl | rfl <;> exact absurd hc (by decide)
  · exact h

example : var c!"?name }" = .ok c!" }" (.qmark c!"name") := rfl
example : var c!"$x1_é." = .ok c!"." (.dollar c!"x1_é") := rfl
/-- U+2041 CARET INSERTION POINT is not a PN_CHARS_BASE character, U+10400 is. -/
example : ¬ W3CPnCharsBase (Char.ofNat 0x2041) ∧ LowByteLetter (Char.ofNat 0x2041) := by decide
example : W3CPnCharsBase (Char.ofNat 0x10400) ∧ ¬ LowByteLetter (Char.ofNat 0x10400) := by decide

/-! ## C13 -/

/-- `<text>` is accepted exactly when the characters of `text` are not excluded and have low byte above
0x20; the IRI returned is `text`. -/
theorem C13_exact (i r s : Str) : iriRef i = .ok r s ↔ i = '<' :: (s ++ '>' :: r) ∧
    ∀ c ∈ s, c ∉ ['<', '>', '"', '{', '}', '|', '^', '\\', '`'] ∧ 0x20 < c.toNat % 256 := by
  rw [iriRef_ok]
  simp only [isIriChar_iff]

/-- Everything accepted is legal, and returned verbatim. -/
theorem C13_accepted_legal (i r s : Str) (h : iriRef i = .ok r s) :
    i = '<' :: (s ++ '>' :: r) ∧ ∀ c ∈ s, ¬ W3CIriForbidden c := by
  obtain ⟨h1, h2⟩ := iriRef_ok.mp h
  exact ⟨h1, fun c hc => isIriChar_legal (h2 c hc)⟩

/-- Within Latin-1: accepted exactly when legal. -/
theorem C13_latin1 (s r : Str) (hs : ∀ c ∈ s, c.toNat < 256) :
    iriRef ('<' :: (s ++ '>' :: r)) = .ok r s ↔ ∀ c ∈ s, ¬ W3CIriForbidden c := by
  rw [iriRef_ok]
  constructor
  · rintro ⟨_, h⟩ c hc; exact isIriChar_legal (h c hc)
  · intro h; exact ⟨rfl, fun c hc => (isIriChar_latin1 (hs c hc)).mpr (h c hc)⟩

/-- Both ways to write an IRI keep it apart: `<..>` never becomes a prefixed name. -/
theorem C13_iri (i r s : Str) : iri i = .ok r (.iri s) ↔ iriRef i = .ok r s := by
  unfold iri
  rw [alt_two_ok, alt_one_ok, map_ok, map_ok]
  constructor
  · rintro (⟨a, h, h2⟩ | ⟨_, a, _, h2⟩)
    · cases h2; exact h
    · cases h2
  · exact fun h => .inl ⟨s, h, rfl⟩

theorem gt_split {s s' r r' : Str} (h : '>' ∉ s) (h' : '>' ∉ s') (e : s ++ '>' :: r = s' ++ '>' :: r') :
    s = s' := by
  induction s generalizing s' with
  | nil =>
    cases s' with
    | nil => rfl
    | cons c s' => simp at e; simp [← e.1] at h'
  | cons c s ih =>
    cases s' with
    | nil => simp at e; simp [e.1] at h
    | cons c' s' =>
      simp only [List.cons_append, List.cons.injEq] at e
      rw [e.1, ih (by simp at h; exact h.2) (by simp at h'; exact h'.2) e.2]

/-- Violation: a legal IRI containing any character from U+0100 on with low byte at most 0x20 is rejected. -/
theorem C13_legal_rejected_violated (s r : Str) (hs : ∀ c ∈ s, ¬ W3CIriForbidden c)
    (c : Char) (hc : c ∈ s) (hlow : c.toNat % 256 ≤ 0x20) :
    ∃ pos k, iriRef ('<' :: (s ++ '>' :: r)) = .err (.error pos k) := by
  rcases Soft.cases iriRef ('<' :: (s ++ '>' :: r)) with ⟨r', s', h⟩ | h
  · exfalso
    obtain ⟨e, h2⟩ := (C13_exact _ _ _).mp h
    simp only [List.cons.injEq, true_and] at e
    have : s = s' := by
      apply gt_split _ _ e
      · intro hm; exact hs _ hm (.inl (by decide))
      · intro hm; exact (h2 _ hm).1 (by decide)
    subst this
    have := (h2 c hc).2
    omega
  · exact h

example : iriRef c!"<http://example.org/b#1> ." = .ok c!" ." c!"http://example.org/b#1" := rfl
/-- U+0101 is a legal IRI character with low byte 1. -/
example : ¬ W3CIriForbidden (Char.ofNat 0x101) ∧ (Char.ofNat 0x101).toNat % 256 ≤ 0x20 := by decide

/-! ## C14 -/

theorem OptPrefix.mono {b b' f f' : Char → Prop} (hb : ∀ c, b c → b' c) (hf : ∀ c, f c → f' c) {o}
    (h : OptPrefix b f o) : OptPrefix b' f' o := by
  cases o with
  | none => trivial
  | some p =>
    obtain ⟨c, t, rfl, h1, h2, h3⟩ := h
    refine ⟨c, t, rfl, hb c h1, fun c hc => (h2 c hc).imp (hf c) id, h3.imp id ?_⟩
    rintro ⟨t', c, rfl, hc⟩
    exact ⟨t', c, rfl, hf c hc⟩

theorem LocalName.mono {b b' f f' : Char → Prop} (hb : ∀ c, b c → b' c) (hf : ∀ c, f c → f' c) {l}
    (h : LocalName b f l) : LocalName b' f' l := by
  obtain ⟨u, t, rfl, h1, h2, h3⟩ := h
  exact ⟨u, t, rfl, h1.mono hb, h2.mono fun c hc => hc.imp (hf c) id, h3⟩

theorem commonBase_coded (c : Char) (h : CommonBase c) : PnB c := codedBase_iff.mpr (.inl h)
theorem commonNameChar_coded (c : Char) (h : CommonNameChar c) : PnC c := by
  rcases h with h | h | h | h
  · exact isPnChar_iff.mpr (.inl (codedBase_iff.mpr (.inl h)))
  · exact isPnChar_iff.mpr (.inr (.inl h))
  · exact isPnChar_iff.mpr (.inr (.inr (.inl h)))
  · exact isPnChar_iff.mpr (.inr (.inr (.inr h)))
theorem commonLocalStart_coded (c : Char) (h : CommonLocalStart c) : LocF c := by
  rcases h with h | h | h | h
  · exact .inl (isPnCharsU_iff.mpr (.inl (codedBase_iff.mpr (.inl h))))
  · exact .inl (isPnCharsU_iff.mpr (.inr h))
  · exact .inr (.inl h)
  · exact .inr (.inr (isDigitU8_of_digit h))
theorem commonLocalChar_coded (c : Char) (h : CommonLocalChar c) : LocC c := by
  have : isLocalChar c = true ↔ isPnChar c = true ∨ c = ':' := by simp [isLocalChar]
  exact this.mpr (h.imp (commonNameChar_coded c) id)

theorem pnC_outer (c : Char) (h : PnC c) : OuterNameChar c := by
  rcases isPnChar_iff.mp h with h | h | h | h
  · rcases isPnCharsBase_name h with h | h
    · exact .inl (.inl h)
    · exact .inl (.inr (.inr (.inr h)))
  · exact .inl (.inr (.inr (.inl h)))
  · exact .inr h
  · exact .inl (.inr (.inl h))
theorem pnB_outer (c : Char) (h : PnB c) : NameChar c := by
  rcases isPnCharsBase_name h with h | h
  · exact .inl h
  · exact .inr (.inr (.inr h))
theorem locC_outer (c : Char) (h : LocC c) : OuterLocalChar c := by
  have : isLocalChar c = true ↔ isPnChar c = true ∨ c = ':' := by simp [isLocalChar]
  rcases this.mp h with h | h
  · rcases pnC_outer c h with h | h
    · exact .inl h
    · exact .inr (.inl h)
  · exact .inr (.inr h)
theorem locF_outer (c : Char) (h : LocF c) : NameChar c ∨ c = ':' := by
  rcases h with h | h | h
  · rcases isPnCharsU_iff.mp h with h | h
    · exact .inl (pnB_outer c h)
    · exact .inl (.inr (.inr (.inl h)))
  · exact .inr h
  · rcases isDigitU8_name h with h | h
    · exact .inl (.inr (.inl h))
    · exact .inl (.inr (.inr (.inr h)))

theorem nameStop_unit {r} (h : NameStop r) : ¬ StartsUnit LocD r := by
  rintro ⟨u, r', hu, rfl⟩
  cases hu with
  | ch hc =>
    rcases hc with hc | hc
    · exact h _ _ rfl (.inl (locC_outer _ hc))
    · exact h _ _ rfl (.inr (.inl hc))
  | pct _ _ => exact h _ _ rfl (.inr (.inr (.inl rfl)))
  | esc _ => exact h _ _ rfl (.inr (.inr (.inr rfl)))

/-- Round trip, for prefixes and local names over the common part of the character classes; the local name
has at least two units, one of them after the first not a dot (see the violations below). -/
theorem C14_roundtrip_partial (o : Option Str) (l r : Str)
    (ho : OptPrefix CommonBase CommonNameChar o) (hl : LocalName CommonLocalStart CommonLocalChar l)
    (hr : NameStop r) :
    prefixedName (prefixText o ++ ':' :: (l ++ r)) = .ok r (.pnameLN o l) :=
  prefixedName_ln.mpr ⟨[], [], .nil, .nil, rfl, ho.mono commonBase_coded commonNameChar_coded,
    hl.mono commonLocalStart_coded commonLocalChar_coded, nameStop_unit hr⟩

/-- What is returned was written: prefix, colon, local part (white space between them is accepted too). -/
theorem C14_accepted (i r l : Str) (o : Option Str) (h : prefixedName i = .ok r (.pnameLN o l)) :
    ∃ w w', Ws w ∧ Ws w' ∧ i = prefixText o ++ (w ++ ':' :: (w' ++ (l ++ r))) ∧
      OptPrefix NameChar OuterNameChar o ∧ LocalName (fun c => NameChar c ∨ c = ':') OuterLocalChar l := by
  obtain ⟨w, w', h1, h2, h3, h4, h5, _⟩ := prefixedName_ln.mp h
  exact ⟨w, w', h1, h2, h3, h4.mono pnB_outer pnC_outer, h5.mono locF_outer locC_outer⟩

theorem C14_accepted_ns (i r : Str) (o : Option Str) (h : prefixedName i = .ok r (.pnameNS o)) :
    ∃ w, Ws w ∧ i = prefixText o ++ (w ++ ':' :: r) ∧ OptPrefix NameChar OuterNameChar o := by
  obtain ⟨⟨w, h1, h2, h3⟩, _⟩ := prefixedName_ns.mp h
  exact ⟨w, h1, h2, h3.mono pnB_outer pnC_outer⟩

/-- `prefix:` alone. -/
theorem C14_roundtrip_ns (o : Option Str) (r : Str) (ho : OptPrefix CommonBase CommonNameChar o)
    (hr : NotStart (fun c => c = ' ' ∨ c = '\t' ∨ c = '\r' ∨ c = '\n' ∨ c = '#') r) (hr' : NameStop r) :
    prefixedName (prefixText o ++ ':' :: r) = .ok r (.pnameNS o) := by
  refine prefixedName_ns.mpr ⟨⟨[], .nil, rfl, ho.mono commonBase_coded commonNameChar_coded⟩, ?_⟩
  intro w' l r' hw e hl
  exfalso
  cases w' with
  | cons c w' => exact hr c _ e (wsStart_iff.mp (ws_first hw c w' rfl))
  | nil =>
    obtain ⟨u, t, rfl, h1, _⟩ := hl
    cases h1 with
    | @ch c h =>
      rcases locF_outer c h with h | h
      · exact hr' c _ e (.inl (.inl h))
      · exact hr' c _ e (.inl (.inr (.inr h)))
    | pct _ _ => exact hr' _ _ e (.inr (.inr (.inl rfl)))
    | esc _ => exact hr' _ _ e (.inr (.inr (.inr rfl)))

/-- Violation 1: a local name of a single unit is never read; `p:a` gives the bare prefix and leaves `a`. -/
theorem C14_single_unit_violated (o : Option Str) (u r : Str)
    (ho : OptPrefix CommonBase CommonNameChar o) (hu : NameUnit CommonLocalStart u) (hr : NameStop r) :
    prefixedName (prefixText o ++ ':' :: (u ++ r)) = .ok (u ++ r) (.pnameNS o) := by
  refine prefixedName_ns.mpr ⟨⟨[], .nil, rfl, ho.mono commonBase_coded commonNameChar_coded⟩, ?_⟩
  intro w' l r' hw e hl
  exfalso
  have hu' := hu.mono commonLocalStart_coded
  cases w' with
  | cons c w' =>
    have hc := wsStart_iff.mp (ws_first hw c w' rfl)
    cases hu' with
    | ch h =>
      simp only [List.cons_append, List.nil_append, List.cons.injEq] at e
      have := locF_ws _ h
      rw [e.1, ws_first hw c w' rfl] at this; cases this
    | pct _ _ =>
      simp only [List.cons_append, List.cons.injEq] at e
      rw [← e.1] at hc; exact absurd hc (by decide)
    | esc _ =>
      simp only [List.cons_append, List.cons.injEq] at e
      rw [← e.1] at hc; exact absurd hc (by decide)
  | nil =>
    obtain ⟨v, t, rfl, h1, h2, c, hc, _⟩ := hl
    rw [List.nil_append, List.append_assoc] at e
    obtain ⟨rfl, rfl⟩ := hu'.unique plain_LocF h1 e
    apply nameStop_unit hr
    cases h2 with
    | nil => simp at hc
    | cons hx _ => exact ⟨_, _, hx, by rw [List.append_assoc]⟩

/-- Violation 2: the dot that ends a statement is swallowed into the local name, always. -/
theorem C14_dot_swallowed_violated (o : Option Str) (l r : Str)
    (ho : OptPrefix CommonBase CommonNameChar o) (hl : LocalName CommonLocalStart CommonLocalChar l)
    (hr : NameStop r) :
    prefixedName (prefixText o ++ ':' :: (l ++ '.' :: r)) = .ok r (.pnameLN o (l ++ ['.'])) := by
  refine prefixedName_ln.mpr ⟨[], [], .nil, .nil, by simp, ho.mono commonBase_coded commonNameChar_coded, ?_,
    nameStop_unit hr⟩
  obtain ⟨u, t, rfl, h1, h2, c, hc, hcd⟩ := hl.mono commonLocalStart_coded commonLocalChar_coded
  refine ⟨u, t ++ ['.'], by simp, h1, h2.append ?_, c, by simp [hc], hcd⟩
  exact NameUnits.chars (fun c hc => .inr (by simpa using hc))

/-- Violation 3: white space (and comments) around the colon is accepted and dropped, so two tokens
such as `a :Person` are read as the one name `a:Person`. -/
theorem C14_space_inside_violated (o : Option Str) (w w' l r : Str) (hw : Ws w) (hw' : Ws w')
    (ho : OptPrefix CommonBase CommonNameChar o) (hl : LocalName CommonLocalStart CommonLocalChar l)
    (hr : NameStop r) :
    prefixedName (prefixText o ++ (w ++ ':' :: (w' ++ (l ++ r)))) = .ok r (.pnameLN o l) :=
  prefixedName_ln.mpr ⟨w, w', hw, hw', rfl, ho.mono commonBase_coded commonNameChar_coded,
    hl.mono commonLocalStart_coded commonLocalChar_coded, nameStop_unit hr⟩

example : prefixedName c!"foaf:name ." = .ok c!" ." (.pnameLN (some c!"foaf") c!"name") := rfl
example : prefixedName c!"a.b-c:%41\\~x:1." = .ok [] (.pnameLN (some c!"a.b-c") c!"%41\\~x:1.") := rfl
example : prefixedName c!":a " = .ok c!"a " (.pnameNS none) := rfl
example : prefixedName c!"a :Person" = .ok [] (.pnameLN (some c!"a") c!"Person") := rfl

/-! ## C15 -/

/-- Exact acceptance: matching quotes around a non-empty body of ordinary characters and legal escapes; the
body is returned undecoded. -/
theorem C15_exact (i r s : Str) : stringLiteral i = .ok r s ↔
    ∃ q, (q = '\'' ∨ q = '"') ∧ i = q :: (s ++ q :: r) ∧ StrBody q s ∧ s ≠ [] := stringLiteral_ok

theorem C15_roundtrip (q : Char) (s r : Str) (hq : q = '\'' ∨ q = '"') (hs : StrBody q s) (hne : s ≠ []) :
    stringLiteral (q :: (s ++ q :: r)) = .ok r s := stringLiteral_ok.mpr ⟨q, hq, rfl, hs, hne⟩

/-- Violation 1: the empty string is never accepted, whatever follows. -/
theorem C15_empty_violated (q : Char) (hq : q = '\'' ∨ q = '"') (i r s : Str) :
    stringLiteral (q :: q :: i) ≠ .ok r s := by
  intro h
  obtain ⟨q', _, e, h1, h2⟩ := stringLiteral_ok.mp h
  simp only [List.cons.injEq] at e
  obtain ⟨rfl, e⟩ := e
  cases h1 with
  | nil => contradiction
  | ord h3 _ _ => simp at e; exact h3 e.1.symm
  | esc _ _ => simp at e; rcases hq with rfl | rfl <;> simp at e

/-- Violation 2: raw line ends are accepted in a literal. -/
theorem C15_newline_violated (q c : Char) (hq : q = '\'' ∨ q = '"') (hc : c = '\n' ∨ c = '\r')
    (a b r : Str) (ha : StrBody q a) (hb : StrBody q b) :
    stringLiteral (q :: ((a ++ c :: b) ++ q :: r)) = .ok r (a ++ c :: b) := by
  refine C15_roundtrip q _ r hq ?_ (by simp)
  induction ha with
  | nil =>
    refine .ord ?_ ?_ hb
    · rcases hq with rfl | rfl <;> rcases hc with rfl | rfl <;> decide
    · rcases hc with rfl | rfl <;> decide
  | ord h1 h2 _ ih => exact .ord h1 h2 ih
  | esc h1 _ ih => exact .esc h1 ih

/-- An unknown escape is rejected. -/
theorem C15_bad_escape (q c : Char) (hq : q = '\'' ∨ q = '"') (a i r s : Str) (ha : StrBody q a)
    (hc : ¬ EscChar c) : stringLiteral (q :: (a ++ '\\' :: c :: i)) ≠ .ok r s := by
  intro h
  obtain ⟨q', hq', e, h1, hne⟩ := stringLiteral_ok.mp h
  clear hne
  simp only [List.cons.injEq] at e
  obtain ⟨rfl, e⟩ := e
  have hqb : q ≠ '\\' := by rcases hq with rfl | rfl <;> decide
  clear h
  induction ha generalizing s with
  | nil =>
    cases h1 with
    | nil => simp at e; exact hqb e.1.symm
    | ord _ h _ => simp at e; exact h e.1.symm
    | esc h _ => simp at e; exact hc (e.1 ▸ h)
  | ord h2 h3 _ ih =>
    cases h1 with
    | nil => simp at e; exact h2 e.1
    | ord _ _ h => 
      simp only [List.cons_append, List.cons.injEq] at e
      exact ih _ h e.2
    | esc _ _ => simp at e; exact h3 e.1
  | esc h2 _ ih =>
    cases h1 with
    | nil => simp at e; exact hqb e.1.symm
    | ord _ h _ => simp at e; exact h e.1.symm
    | esc _ h =>
      simp only [List.cons_append, List.cons.injEq, true_and] at e
      exact ih _ h e.2

example : stringLiteral c!"\"a'b\\\"c\" ." = .ok c!" ." c!"a'b\\\"c" := rfl

/-! ## C16 -/

abbrev litDescr : P RdfLiteralDescriptor := alt [
  map languageTag .langTag, map (preceded (tag c!"^^") iri) .iriRef]

theorem rdfLiteral_ok {i r : Str} {x : RdfLiteral} : rdfLiteral i = .ok r x ↔
    ∃ r1, stringLiteral i = .ok r1 x.literal ∧ opt litDescr r1 = .ok r x.descriptor := by
  unfold rdfLiteral
  rw [map_ok]
  constructor
  · rintro ⟨⟨a, b⟩, h, rfl⟩
    exact pair_ok_iff.mp h
  · intro h
    exact ⟨(x.literal, x.descriptor), pair_ok_iff.mpr h, rfl⟩

theorem litDescr_lang {i r t} : litDescr i = .ok r (.langTag t) ↔ languageTag i = .ok r t := by
  unfold litDescr
  rw [alt_two_ok, alt_one_ok, map_ok, map_ok]
  constructor
  · rintro (⟨a, h, h2⟩ | ⟨_, a, _, h2⟩)
    · cases h2; exact h
    · cases h2
  · exact fun h => .inl ⟨t, h, rfl⟩

theorem litDescr_iri {i r d} : litDescr i = .ok r (.iriRef d) ↔ ∃ j, i = '^' :: '^' :: j ∧ iri j = .ok r d := by
  unfold litDescr
  rw [alt_two_ok, alt_one_ok, map_ok, map_ok]
  simp only [preceded_ok, tag_ok]
  constructor
  · rintro (⟨a, _, h2⟩ | ⟨_, a, ⟨j, _, ⟨_, h⟩, h3⟩, h2⟩)
    · cases h2
    · cases h2; exact ⟨j, h, h3⟩
  · rintro ⟨j, rfl, h⟩
    refine .inr ⟨?_, d, ⟨j, _, ⟨rfl, rfl⟩, h⟩, rfl⟩
    rcases Soft.cases languageTag ('^' :: '^' :: j) with ⟨r', a, e⟩ | ⟨pos, k, e⟩
    · have := (languageTag_ok.mp e).1; simp at this
    · exact ⟨pos, k, map_soft_err e⟩

theorem stringLiteral_text {i r s : Str} : stringLiteral i = .ok r s ↔ ∃ t, StringText s t ∧ i = t ++ r := by
  rw [stringLiteral_ok]
  constructor
  · rintro ⟨q, h1, rfl, h2, h3⟩
    exact ⟨_, ⟨q, h1, rfl, h2, h3⟩, by simp⟩
  · rintro ⟨_, ⟨q, h1, rfl, h2, h3⟩, rfl⟩
    exact ⟨q, h1, by simp, h2, h3⟩

/-- A language tagged literal is returned exactly when a string is directly followed by `@` and a tag, and
the tag is the longest one possible. -/
theorem C16_language (i r s t : Str) :
    rdfLiteral i = .ok r { literal := s, descriptor := some (.langTag t) } ↔
      ∃ x, StringText s x ∧ i = x ++ '@' :: (t ++ r) ∧ LangTag t ∧
        ∀ t' r', t ++ r = t' ++ r' → LangTag t' → t'.length ≤ t.length := by
  rw [rdfLiteral_ok]
  simp only [stringLiteral_text, opt_ok]
  constructor
  · rintro ⟨r1, ⟨x, hx, rfl⟩, ⟨a, ha, h⟩ | ⟨h, _⟩⟩
    · simp only [Option.some.injEq] at ha
      subst ha
      obtain ⟨rfl, h2, h3⟩ := languageTag_ok.mp (litDescr_lang.mp h)
      exact ⟨x, hx, rfl, h2, h3⟩
    · cases h
  · rintro ⟨x, hx, rfl, h2, h3⟩
    exact ⟨_, ⟨x, hx, rfl⟩, .inl ⟨_, rfl, litDescr_lang.mpr (languageTag_ok.mpr ⟨rfl, h2, h3⟩)⟩⟩

/-- A literal with datatype `<d>`. -/
theorem C16_datatype_iri (i r s d : Str) :
    rdfLiteral i = .ok r { literal := s, descriptor := some (.iriRef (.iri d)) } ↔
      ∃ x, StringText s x ∧ i = x ++ '^' :: '^' :: '<' :: (d ++ '>' :: r) ∧
        ∀ c ∈ d, c ∉ ['<', '>', '"', '{', '}', '|', '^', '\\', '`'] ∧ 0x20 < c.toNat % 256 := by
  rw [rdfLiteral_ok]
  simp only [stringLiteral_text, opt_ok]
  constructor
  · rintro ⟨r1, ⟨x, hx, rfl⟩, ⟨a, ha, h⟩ | ⟨h, _⟩⟩
    · simp only [Option.some.injEq] at ha
      subst ha
      obtain ⟨j, rfl, h2⟩ := litDescr_iri.mp h
      obtain ⟨rfl, h3⟩ := (C13_exact _ _ _).mp ((C13_iri _ _ _).mp h2)
      exact ⟨x, hx, rfl, h3⟩
    · cases h
  · rintro ⟨x, hx, rfl, h3⟩
    exact ⟨_, ⟨x, hx, rfl⟩, .inl ⟨_, rfl, litDescr_iri.mpr ⟨_, rfl,
      (C13_iri _ _ _).mpr ((C13_exact _ _ _).mpr ⟨rfl, h3⟩)⟩⟩⟩

theorem iri_prefixed {i r n} : iri i = .ok r (.prefixedName n) ↔
    prefixedName i = .ok r n := by
  unfold iri
  rw [alt_two_ok, alt_one_ok, map_ok, map_ok]
  constructor
  · rintro (⟨a, _, h2⟩ | ⟨_, a, h, h2⟩)
    · cases h2
    · cases h2; exact h
  · intro h
    refine .inr ⟨?_, n, h, rfl⟩
    rcases Soft.cases iriRef i with ⟨r', a, e⟩ | ⟨pos, k, e⟩
    · exfalso
      obtain ⟨rfl, _⟩ := iriRef_ok.mp e
      have : ∃ w o r'', Ws w ∧ '<' :: (a ++ '>' :: r') = prefixText o ++ (w ++ ':' :: r'') ∧ OptPrefix PnB PnC o := by
        cases n with
        | pnameLN o l =>
          obtain ⟨w, w', h1, _, h2, h3, _⟩ := prefixedName_ln.mp h
          exact ⟨w, o, _, h1, h2, h3⟩
        | pnameNS o =>
          obtain ⟨⟨w, h1, h2, h3⟩, _⟩ := prefixedName_ns.mp h
          exact ⟨w, o, _, h1, h2, h3⟩
      obtain ⟨w, o, r'', hw, e, ho⟩ := this
      cases o with
      | none =>
        cases w with
        | nil => simp [prefixText] at e
        | cons c w =>
          simp only [prefixText, List.nil_append, List.cons_append, List.cons.injEq] at e
          have := wsStart_iff.mp (ws_first hw c w rfl)
          rw [← e.1] at this
          exact absurd this (by decide)
      | some p =>
        obtain ⟨c, t, rfl, hc, _⟩ := ho
        simp only [prefixText, List.cons_append, List.cons.injEq] at e
        rw [← e.1] at hc
        exact absurd hc (by decide)
    · exact ⟨pos, k, map_soft_err e⟩

/-- A literal with a prefixed name as datatype carries the name written after `^^`. -/
theorem C16_datatype_prefixed (r s l x : Str) (o : Option Str) (hx : StringText s x)
    (ho : OptPrefix CommonBase CommonNameChar o) (hl : LocalName CommonLocalStart CommonLocalChar l)
    (hr : NameStop r) :
    rdfLiteral (x ++ '^' :: '^' :: (prefixText o ++ ':' :: (l ++ r))) =
      .ok r { literal := s, descriptor := some (.iriRef (.prefixedName (.pnameLN o l))) } :=
  rdfLiteral_ok.mpr ⟨_, stringLiteral_text.mpr ⟨x, hx, rfl⟩, opt_ok.mpr (.inl ⟨_, rfl,
    litDescr_iri.mpr ⟨_, rfl, iri_prefixed.mpr (C14_roundtrip_partial o l r ho hl hr)⟩⟩)⟩

/-- Conversely a prefixed datatype that is returned was written there. -/
theorem C16_datatype_prefixed_accepted (i r s l : Str) (o : Option Str)
    (h : rdfLiteral i = .ok r { literal := s, descriptor := some (.iriRef (.prefixedName (.pnameLN o l))) }) :
    ∃ x w w', StringText s x ∧ Ws w ∧ Ws w' ∧
      i = x ++ '^' :: '^' :: (prefixText o ++ (w ++ ':' :: (w' ++ (l ++ r)))) := by
  obtain ⟨r1, h1, h2⟩ := rdfLiteral_ok.mp h
  obtain ⟨x, hx, rfl⟩ := stringLiteral_text.mp h1
  rcases opt_ok.mp h2 with ⟨a, ha, h⟩ | ⟨h, _⟩
  · simp only [Option.some.injEq] at ha
    subst ha
    obtain ⟨j, rfl, h3⟩ := litDescr_iri.mp h
    obtain ⟨w, w', hw, hw', rfl, _⟩ := C14_accepted _ _ _ _ (iri_prefixed.mp h3)
    exact ⟨x, w, w', hx, hw, hw', rfl⟩
  · cases h

/-- Without tag and datatype the descriptor is absent. -/
theorem C16_plain (s x r : Str) (hx : StringText s x) (hr : NotStart (fun c => c = '@' ∨ c = '^') r) :
    rdfLiteral (x ++ r) = .ok r { literal := s, descriptor := none } := by
  refine rdfLiteral_ok.mpr ⟨_, stringLiteral_text.mpr ⟨x, hx, rfl⟩, opt_ok.mpr (.inr ⟨rfl, rfl, ?_⟩)⟩
  rcases Soft.cases litDescr r with ⟨r', a, e⟩ | e
  · exfalso
    cases a with
    | langTag t =>
      have := (languageTag_ok.mp (litDescr_lang.mp e)).1
      exact hr _ _ this (.inl rfl)
    | iriRef d =>
      obtain ⟨j, e2, _⟩ := litDescr_iri.mp e
      exact hr _ _ e2 (.inr rfl)
  · exact e

/-- An absent descriptor means that no language tag follows. -/
theorem C16_plain_accepted (i r s : Str) (h : rdfLiteral i = .ok r { literal := s, descriptor := none }) :
    ∃ x, StringText s x ∧ i = x ++ r ∧ ∀ t r', r = '@' :: (t ++ r') → ¬ LangTag t := by
  obtain ⟨r1, h1, h2⟩ := rdfLiteral_ok.mp h
  obtain ⟨x, hx, rfl⟩ := stringLiteral_text.mp h1
  rcases opt_ok.mp h2 with ⟨a, ha, _⟩ | ⟨_, rfl, pos, k, h3⟩
  · cases ha
  · refine ⟨x, hx, rfl, ?_⟩
    rintro t r' rfl ht
    unfold litDescr alt at h3
    obtain ⟨a, t', e, ha, hall, _⟩ := ht
    have : ∃ r'' u, languageTag ('@' :: (t ++ r')) = .ok r'' u := by
      rcases Soft.cases languageTag ('@' :: (t ++ r')) with h | ⟨pos, k, h4⟩
      · exact h
      · exfalso
        unfold languageTag at h4
        have hal : ∃ r2 b, alpha1 (t ++ r') = .ok r2 b := by
          rcases Soft.cases alpha1 (t ++ r') with h | ⟨pos, k, h⟩
          · exact h
          · cases a with
            | nil => contradiction
            | cons c a =>
              have := (takeWhile1K_err (k := .Alpha) h).2 c (a ++ (t' ++ r')) (by rw [e]; simp)
              rw [isAlpha_iff.mpr (hall c (by simp))] at this; cases this
        obtain ⟨r2, b, hal⟩ := hal
        obtain ⟨r3, d, hm⟩ := Total.out (p := many0 langElem) r2
        have : preceded (char '@') (recognize (pair alpha1 (many0 langElem))) ('@' :: (t ++ r')) = .ok r3 _ :=
          preceded_ok.mpr ⟨_, '@', char_cons _ _, recognize_ok.mpr ⟨(b, d), pair_ok_iff.mpr ⟨r2, hal, hm⟩, rfl⟩⟩
        rw [this] at h4; cases h4
    obtain ⟨r'', u, hu⟩ := this
    simp only [map, hu] at h3
    cases h3

example : rdfLiteral c!"'chat'@fr-be ." =
    .ok c!" ." { literal := c!"chat", descriptor := some (.langTag c!"fr-be") } := rfl
example : rdfLiteral c!"'1'^^xsd:int" = .ok []
    { literal := c!"1", descriptor := some (.iriRef (.prefixedName (.pnameLN (some c!"xsd") c!"int"))) } := rfl

end NomSparql
