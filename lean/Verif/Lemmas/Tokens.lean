import Verif.Lemmas.Chars
import Verif.Spec.Tokens

/-!
# Tokens
-/

namespace NomSparql

theorem notStart_cons {f : Char → Prop} {c s} (h : ¬ f c) : NotStart f (c :: s) := by
  intro d s' e; cases e; exact h

theorem notStart_nil {f : Char → Prop} : NotStart f [] := by intro d s' e; cases e

theorem NotStart.mono {f g : Char → Prop} {s} (h : NotStart f s) (hg : ∀ c, g c → f c) : NotStart g s :=
  fun c s' e hc => h c s' e (hg c hc)

/-! ## Variables -/

theorem varName_ok {i r s} : varName i = .ok r s ↔ i = s ++ r ∧ s ≠ [] ∧ (∀ c ∈ s, isVarChar c = true) ∧
    NotStart (fun c => isVarChar c = true) r := by
  unfold varName
  rw [recognize_ok_iff]
  constructor
  · rintro ⟨rfl, ⟨a, b⟩, h⟩
    obtain ⟨r1, h1, h2⟩ := pair_ok h
    obtain ⟨h3, h4, h5⟩ := takeWhileN_ok.mp h1
    obtain ⟨rfl, h7, h8⟩ := takeWhile_ok.mp h2
    simp only at h3 h4 h5 h7 h8
    rw [← List.append_assoc] at h3
    have := List.append_cancel_right h3
    subst this
    refine ⟨rfl, ?_, ?_, ?_⟩
    · intro h; simp at h; rw [h.1] at h4; simp at h4
    · intro c hc; rcases List.mem_append.mp hc with h | h
      · exact h5 c h
      · exact h7 c h
    · intro c s' e hc; rw [h8 c s' e] at hc; cases hc
  · rintro ⟨rfl, h1, h2, h3⟩
    refine ⟨rfl, ?_⟩
    cases s with
    | nil => contradiction
    | cons c s =>
      refine ⟨([c], s), pair_ok_iff.mpr ⟨s ++ r, ?_, ?_⟩⟩
      · exact takeWhileN_ok.mpr ⟨rfl, rfl, fun d hd => h2 d (by simp at hd; simp [hd])⟩
      · refine takeWhile_ok.mpr ⟨rfl, fun d hd => h2 d (by simp [hd]), ?_⟩
        intro d r' e
        have := h3 d r' e
        simpa using this

instance : Soft varName := by unfold varName; infer_instance
instance : Soft var := by unfold var; infer_instance

theorem map_soft_err {p : P α} {f : α → β} {i pos k} (h : p i = .err (.error pos k)) :
    map p f i = .err (.error pos k) := by unfold map; rw [h]

theorem preceded_err {p : P α} {q : P β} {i e} (h : p i = .err e) : preceded p q i = .err e := by
  unfold preceded map pair; rw [h]

theorem char_err {c d : Char} {i} (h : d ≠ c) : char c (d :: i) = .err (.error (d :: i) .Char) := by
  simp [char, h]

theorem char_cons (c : Char) (i : Input) : char c (c :: i) = .ok i c := by simp [char]

theorem var_ok {i r v} : var i = .ok r v ↔ ∃ w, Ws w ∧ i = sigil v :: (w ++ (varNameOf v ++ r)) ∧
    varNameOf v ≠ [] ∧ (∀ c ∈ varNameOf v, isVarChar c = true) ∧
    NotStart (fun c => isVarChar c = true) r := by
  have key : ∀ {c : Char} {s : Str}, preceded (char c) (preceded sp varName) i = .ok r s ↔
      ∃ w, Ws w ∧ i = c :: (w ++ (s ++ r)) ∧ s ≠ [] ∧ (∀ c ∈ s, isVarChar c = true) ∧
        NotStart (fun c => isVarChar c = true) r := by
    intro c s
    rw [preceded_ok]
    constructor
    · rintro ⟨r1, a, h1, h2⟩
      obtain ⟨rfl, rfl⟩ := char_ok.mp h1
      obtain ⟨r2, w, h3, h4⟩ := preceded_ok.mp h2
      obtain ⟨rfl, hw, _⟩ := sp_ok_iff.mp h3
      obtain ⟨rfl, h⟩ := varName_ok.mp h4
      exact ⟨w, hw, rfl, h⟩
    · rintro ⟨w, hw, rfl, h⟩
      refine ⟨_, c, char_cons _ _, preceded_ok.mpr ⟨s ++ r, w, sp_append hw ?_, varName_ok.mpr ⟨rfl, h⟩⟩⟩
      refine not_startsWs_append h.1 ?_
      rintro d r' rfl
      have := isVarChar_name (h.2.1 d (by simp))
      simp only [wsStart, decide_eq_false_iff_not, List.mem_cons, List.not_mem_nil, or_false]
      rintro (rfl | rfl | rfl | rfl | rfl) <;> exact absurd this (by decide)
  unfold var
  rw [alt_two_ok]
  simp only [alt, map_ok, key]
  constructor
  · rintro (⟨s, h, rfl⟩ | ⟨_, s, h, rfl⟩) <;> exact h
  · intro h
    cases v with
    | qmark n => exact .inl ⟨n, h, rfl⟩
    | dollar n =>
      refine .inr ⟨?_, n, h, rfl⟩
      obtain ⟨w, hw, rfl, h⟩ := h
      exact ⟨_, _, map_soft_err (preceded_err (char_err (by simp [sigil])))⟩

/-! ## IRI references -/

theorem tag_one_ok {c : Char} {i r a} : tag [c] i = .ok r a ↔ a = [c] ∧ i = c :: r := tag_ok

theorem iriRef_ok {i r s} : iriRef i = .ok r s ↔
    i = '<' :: (s ++ '>' :: r) ∧ ∀ c ∈ s, isIriChar c = true := by
  unfold iriRef
  rw [delimited_ok]
  constructor
  · rintro ⟨r1, r2, a, c, h1, h2, h3⟩
    obtain ⟨_, rfl⟩ := tag_one_ok.mp h1
    obtain ⟨_, rfl⟩ := tag_one_ok.mp h3
    obtain ⟨rfl, h4, _⟩ := takeWhile_ok.mp h2
    exact ⟨rfl, h4⟩
  · rintro ⟨rfl, h⟩
    refine ⟨s ++ '>' :: r, '>' :: r, ['<'], ['>'], tag_one_ok.mpr ⟨rfl, rfl⟩, ?_, tag_one_ok.mpr ⟨rfl, rfl⟩⟩
    refine takeWhile_ok.mpr ⟨rfl, h, ?_⟩
    intro c r' e; cases e; decide

instance : Soft iriRef := by unfold iriRef; infer_instance

/-! ## Language tags -/

theorem takeWhile1K_append {k : Kind} {f : Char → Bool} {s r : Str} (h : s ≠ [])
    (h1 : ∀ c ∈ s, f c = true) (h2 : NotStart (fun c => f c = true) r) :
    takeWhile1K k f (s ++ r) = .ok r s :=
  takeWhile1K_ok.mpr ⟨rfl, h, h1, fun c r' e => by have := h2 c r' e; simpa using this⟩

theorem prefix_takeWhile {f : Char → Bool} {s r s' r' : Str} (e : s ++ r = s' ++ r')
    (h' : ∀ c ∈ s', f c = true) (hr : ∀ c r', r = c :: r' → f c = false) : s'.length ≤ s.length := by
  induction s generalizing s' with
  | nil =>
    cases s' with
    | nil => simp
    | cons c s' =>
      have := h' c (by simp)
      rw [hr c _ e] at this; cases this
  | cons d s ih =>
    cases s' with
    | nil => simp
    | cons c s' =>
      simp only [List.cons_append, List.cons.injEq] at e
      have := ih e.2 (fun c hc => h' c (by simp [hc]))
      simp; exact this

/-- The element of the tail of a language tag. -/
abbrev langElem : P (Str × Str) := pair (tag ['-']) alphanumeric1

theorem langElem_ok {i r x} : langElem i = .ok r x ↔ i = '-' :: (x.2 ++ r) ∧ x.1 = ['-'] ∧ x.2 ≠ [] ∧
    (∀ c ∈ x.2, AsciiLetter c ∨ AsciiDigit c) ∧
    NotStart (fun c => AsciiLetter c ∨ AsciiDigit c) r := by
  unfold langElem alphanumeric1
  rw [pair_ok_iff]
  constructor
  · rintro ⟨r1, h1, h2⟩
    obtain ⟨h3, rfl⟩ := tag_one_ok.mp h1
    obtain ⟨rfl, h4, h5, h6⟩ := takeWhile1K_ok.mp h2
    refine ⟨rfl, h3, h4, fun c hc => isAlphanum_iff.mp (h5 c hc), ?_⟩
    intro c r' e hc; rw [← isAlphanum_iff, h6 c r' e] at hc; cases hc
  · rintro ⟨rfl, h3, h4, h5, h6⟩
    refine ⟨x.2 ++ r, tag_one_ok.mpr ⟨h3, rfl⟩, takeWhile1K_append h4 ?_ ?_⟩
    · exact fun c hc => isAlphanum_iff.mpr (h5 c hc)
    · exact h6.mono (fun c hc => isAlphanum_iff.mp hc)

theorem langRun {i r xs} (h : ManyRun langElem i r xs) : ∃ t, i = t ++ r ∧ LangTail t ∧
    ∀ t' r', i = t' ++ r' → LangTail t' → t'.length ≤ t.length := by
  induction h with
  | @stop i pos k e =>
    refine ⟨[], rfl, .nil, ?_⟩
    rintro t' r' rfl ht
    cases ht with
    | nil => simp
    | @cons t s ht1 ht2 _ =>
      exfalso
      have : ∃ r a, alphanumeric1 (t ++ (s ++ r')) = .ok r a := by
        rcases Soft.cases alphanumeric1 (t ++ (s ++ r')) with h | ⟨pos, k, h⟩
        · exact h
        · have := (takeWhile1K_err h).2
          cases t with
          | nil => contradiction
          | cons c t =>
            have := this c _ rfl
            rw [isAlphanum_iff.mpr (ht2 c (by simp))] at this; cases this
      obtain ⟨r, a, h⟩ := this
      have := pair_ok_iff (p := tag ['-']) (q := alphanumeric1) (ab := (['-'], a))
        (i := '-' :: (t ++ s) ++ r') (r := r) |>.mpr ⟨t ++ (s ++ r'), tag_one_ok.mpr ⟨rfl, by simp⟩, h⟩
      have e' : pair (tag ['-']) alphanumeric1 ('-' :: (t ++ s) ++ r') = _ := e
      rw [this] at e'; cases e'
  | @step i j r a as e _ _ ih =>
    obtain ⟨t, rfl, h2, h3⟩ := ih
    obtain ⟨rfl, _, h4, h5, h6⟩ := langElem_ok.mp e
    refine ⟨'-' :: (a.2 ++ t), by simp, .cons h4 h5 h2, ?_⟩
    intro t' r' e' ht'
    cases ht' with
    | nil => simp
    | @cons u s hu1 hu2 hs =>
      simp only [List.cons_append, List.cons.injEq, true_and, List.append_assoc] at e'
      have hle := prefix_takeWhile (f := isAlphanum) e' (fun c hc => isAlphanum_iff.mpr (hu2 c hc))
        (fun c r' e => by have := mt isAlphanum_iff.mp (h6 c r' e); simpa using this)
      rcases Nat.lt_or_ge u.length a.2.length with hlt | hge
      · -- `s` must be empty
        cases hs with
        | nil => simp; omega
        | @cons v s' _ _ _ =>
          exfalso
          have : a.2[u.length]'hlt = '-' := by
            have h7 := congrArg (fun l => l[u.length]?) e'
            simp [List.getElem?_append_left hlt] at h7
            have := List.getElem?_eq_getElem hlt
            rw [this] at h7; simpa using h7
          have h8 := h5 _ (List.getElem_mem hlt)
          rw [this] at h8
          exact absurd h8 (by decide)
      · have hl : u.length = a.2.length := by omega
        obtain ⟨rfl, e2⟩ := List.append_inj e' hl.symm
        have := h3 s r' e2 hs
        simp; omega

theorem languageTag_ok_imp {i r s} (h : languageTag i = .ok r s) : i = '@' :: (s ++ r) ∧ LangTag s ∧
    ∀ s' r', s ++ r = s' ++ r' → LangTag s' → s'.length ≤ s.length := by
  unfold languageTag at h
  obtain ⟨r1, a, h1, h2⟩ := preceded_ok.mp h
  obtain ⟨rfl, rfl⟩ := char_ok.mp h1
  obtain ⟨rfl, ⟨x, xs⟩, h3⟩ := recognize_ok_iff.mp h2
  obtain ⟨r2, h4, h5⟩ := pair_ok h3
  obtain ⟨e, h6, h7, h8⟩ := takeWhile1K_ok.mp h4
  obtain ⟨t, rfl, h9, h10⟩ := langRun (many0_ok.mp h5)
  simp only at e h6 h7 h8
  rw [← List.append_assoc] at e
  have := List.append_cancel_right e
  subst this
  refine ⟨rfl, ⟨x, t, rfl, h6, fun c hc => isAlpha_iff.mp (h7 c hc), h9⟩, ?_⟩
  rintro s' r' e' ⟨u, v, rfl, hu1, hu2, hv⟩
  rw [List.append_assoc, List.append_assoc] at e'
  have hle := prefix_takeWhile (f := isAlpha) e' (fun c hc => isAlpha_iff.mpr (hu2 c hc)) h8
  rcases Nat.lt_or_ge u.length x.length with hlt | hge
  · cases hv with
    | nil => simp; omega
    | @cons v s' _ _ _ =>
      exfalso
      have : x[u.length]'hlt = '-' := by
        have h7 := congrArg (fun l => l[u.length]?) e'
        simp [List.getElem?_append_left hlt] at h7
        have := List.getElem?_eq_getElem hlt
        rw [this] at h7; simpa using h7
      have h8 := h7 _ (List.getElem_mem hlt)
      rw [this] at h8
      exact absurd h8 (by decide)
  · have hl : u.length = x.length := by omega
    obtain ⟨rfl, e2⟩ := List.append_inj e' hl.symm
    have := h10 v r' e2 hv
    simp; omega

instance : Soft languageTag := by unfold languageTag; infer_instance

theorem languageTag_ok {i r s} : languageTag i = .ok r s ↔ i = '@' :: (s ++ r) ∧ LangTag s ∧
    ∀ s' r', s ++ r = s' ++ r' → LangTag s' → s'.length ≤ s.length := by
  constructor
  · exact languageTag_ok_imp
  · rintro ⟨rfl, h1, h2⟩
    have : ∃ r' s', languageTag ('@' :: (s ++ r)) = .ok r' s' := by
      obtain ⟨a, t, rfl, ha, hl, ht⟩ := h1
      have hA : ∃ r' s', alpha1 ((a ++ t) ++ r) = .ok r' s' := by
        rcases Soft.cases alpha1 ((a ++ t) ++ r) with h | ⟨pos, k, h⟩
        · exact h
        · have := (takeWhile1K_err h).2
          cases a with
          | nil => contradiction
          | cons c a =>
            have := this c _ rfl
            rw [isAlpha_iff.mpr (hl c (by simp))] at this; cases this
      obtain ⟨r', s', hA⟩ := hA
      obtain ⟨r2, l, hB⟩ := Total.out (p := many0 langElem) r'
      have hs := Good.ok (p := pair alpha1 (many0 langElem)) (pair_ok_iff (ab := (s', l)).mpr ⟨r', hA, hB⟩)
      obtain ⟨u, hu⟩ := hs
      exact ⟨r2, u, preceded_ok.mpr ⟨_, '@', char_cons _ _, recognize_ok_iff.mpr
        ⟨hu.symm, (s', l), pair_ok_iff.mpr ⟨r', hA, hB⟩⟩⟩⟩
    obtain ⟨r', s', h⟩ := this
    obtain ⟨h3, h4, h5⟩ := languageTag_ok_imp h
    simp only [List.cons.injEq, true_and] at h3
    have l1 := h2 s' r' h3 h4
    have l2 := h5 s r h3.symm h1
    obtain ⟨rfl, rfl⟩ := List.append_inj h3 (by omega)
    exact h

/-- A tag followed by something that cannot continue it. -/
theorem languageTag_append {s r} (h : LangTag s)
    (hr : NotStart (fun c => AsciiLetter c ∨ AsciiDigit c ∨ c = '-') r) :
    languageTag ('@' :: (s ++ r)) = .ok r s := by
  refine languageTag_ok.mpr ⟨rfl, h, ?_⟩
  intro s' r' e h'
  have hc : ∀ {s}, LangTag s → ∀ c ∈ s, AsciiLetter c ∨ AsciiDigit c ∨ c = '-' := by
    rintro s ⟨a, t, rfl, _, h1, h2⟩ c hc
    rcases List.mem_append.mp hc with hc | hc
    · exact .inl (h1 c hc)
    · clear h1
      induction h2 with
      | nil => cases hc
      | @cons t s _ ht _ ih =>
        rcases List.mem_cons.mp hc with rfl | hc
        · exact .inr (.inr rfl)
        · rcases List.mem_append.mp hc with hc | hc
          · rcases ht c hc with h | h
            · exact .inl h
            · exact .inr (.inl h)
          · exact ih (by simp [hc]) hc
  refine prefix_takeWhile (f := fun c => decide (AsciiLetter c ∨ AsciiDigit c ∨ c = '-')) e ?_ ?_
  · intro c hc'; simpa using hc h' c hc'
  · intro c r' e; simpa using hr c r' e

/-! ## String literals -/

theorem mem_escapeSet {c : Char} : c ∈ escapeSet ↔ EscChar c := by
  simp only [escapeSet, EscChar, List.mem_cons, List.not_mem_nil, or_false]
  constructor <;> rintro (h | h | h | h | h | h | h | h) <;> simp [h]

theorem escapedLoop_ok_imp {q : Char} {input : Input} (hq : q ≠ '\\') : ∀ {n i r s},
    i <:+ input →
    escapedLoop (noneOf [q, '\\']) '\\' (oneOf escapeSet) input n i = .ok r s →
    ∃ b, i = b ++ r ∧ StrBody q b ∧ input = s ++ r ∧
      (r ≠ [] → (∃ r', r = q :: r') ∧ s ≠ []) := by
  intro n
  induction n with
  | zero => intro i r s _ h; cases h
  | succ n ih =>
    intro i r s hsuf h
    cases i with
    | nil =>
      unfold escapedLoop at h; cases h
      exact ⟨[], rfl, .nil, by simp, by simp⟩
    | cons c cs =>
      unfold escapedLoop at h
      have hsuf' : cs <:+ input := List.IsSuffix.trans (List.suffix_cons c cs) hsuf
      split at h
      · rename_i r1 a e
        obtain ⟨h1, h2⟩ := noneOf_ok.mp e
        cases h2
        have hc : c ≠ q ∧ c ≠ '\\' := by simpa using h1
        split at h
        · rename_i hr; cases h; subst hr
          exact ⟨[c], rfl, .ord hc.1 hc.2 .nil, by simp, by simp⟩
        · obtain ⟨b, rfl, h3, h4⟩ := ih hsuf' h
          exact ⟨c :: b, rfl, .ord hc.1 hc.2 h3, h4⟩
      · rename_i pos k e
        split at h
        · rename_i hc; subst hc
          split at h
          · cases h
          · split at h
            · rename_i r1 a e2
              obtain ⟨h1, h2⟩ := oneOf_ok.mp e2
              subst h2
              have hesc := mem_escapeSet.mp h1
              split at h
              · rename_i hr; cases h; subst hr
                exact ⟨['\\', a], rfl, .esc hesc .nil, by simp, by simp⟩
              · obtain ⟨b, rfl, h3, h4⟩ := ih (List.IsSuffix.trans (List.suffix_cons a _) hsuf') h
                exact ⟨'\\' :: a :: b, rfl, .esc hesc h3, h4⟩
            · cases h
        · rename_i hc
          split at h
          · cases h
          · rename_i hlen
            cases h
            obtain ⟨t, ht⟩ := hsuf
            subst ht
            have hcq : c = q := by
              unfold noneOf at e
              split at e
              · rename_i heq; cases heq
                split at e
                · rename_i hm; simp [hc] at hm; exact hm
                · cases e
              · rename_i heq; cases heq
            subst hcq
            refine ⟨[], rfl, .nil, by simp, fun _ => ⟨⟨cs, rfl⟩, ?_⟩⟩
            intro ht
            simp at ht hlen
            rw [ht] at hlen; simp at hlen
      · cases h

theorem escapedLoop_append {q : Char} {r : Input} (hq : q ≠ '\\') {b : Str} (hb : StrBody q b) :
    ∀ (pre : Str) (n : Nat), (pre ++ b) ≠ [] → b.length < n →
    escapedLoop (noneOf [q, '\\']) '\\' (oneOf escapeSet) (pre ++ (b ++ q :: r)) n (b ++ q :: r) =
      .ok (q :: r) (pre ++ b) := by
  induction hb with
  | nil =>
    intro pre n hne hn
    obtain ⟨n, rfl⟩ : ∃ k, n = k + 1 := ⟨n - 1, by omega⟩
    simp only [List.nil_append, List.append_nil] at hne ⊢
    unfold escapedLoop
    have : noneOf [q, '\\'] (q :: r) = .err (.error (q :: r) .NoneOf) := by simp [noneOf]
    rw [this]
    simp only [if_neg hq]
    rw [if_neg]
    · simp
    · intro h
      apply hne
      simp only [List.length_append, List.length_cons] at h
      exact List.eq_nil_of_length_eq_zero (by omega)
  | @ord c s hc1 hc2 _ ih =>
    intro pre n hne hn
    obtain ⟨n, rfl⟩ : ∃ k, n = k + 1 := ⟨n - 1, by simp at hn; omega⟩
    have h := ih (pre ++ [c]) n (by simp) (by simp at hn; omega)
    simp only [List.append_assoc, List.cons_append, List.nil_append] at h ⊢
    unfold escapedLoop
    have : noneOf [q, '\\'] (c :: (s ++ q :: r)) = .ok (s ++ q :: r) c := by
      simp [noneOf, hc1, hc2]
    rw [this]
    simp only
    rw [if_neg (by simp)]
    exact h
  | @esc c s hc _ ih =>
    intro pre n hne hn
    obtain ⟨n, rfl⟩ : ∃ k, n = k + 1 := ⟨n - 1, by simp at hn; omega⟩
    have h := ih (pre ++ ['\\', c]) n (by simp) (by simp at hn; omega)
    simp only [List.append_assoc, List.cons_append, List.nil_append] at h ⊢
    unfold escapedLoop
    have : noneOf [q, '\\'] ('\\' :: c :: (s ++ q :: r)) =
        .err (.error ('\\' :: c :: (s ++ q :: r)) .NoneOf) := by
      simp [noneOf]
    rw [this]
    simp only [if_true]
    rw [if_neg (by simp)]
    have : oneOf escapeSet (c :: (s ++ q :: r)) = .ok (s ++ q :: r) c :=
      oneOf_ok.mpr ⟨mem_escapeSet.mpr hc, rfl⟩
    rw [this]
    simp only
    rw [if_neg (by simp)]
    exact h

theorem quoted_ok {q : Char} (hq : q ≠ '\\') {i r s} :
    delimited (tag [q]) (escaped (noneOf [q, '\\']) '\\' (oneOf escapeSet)) (tag [q]) i = .ok r s ↔
      i = q :: (s ++ q :: r) ∧ StrBody q s ∧ s ≠ [] := by
  rw [delimited_ok]
  constructor
  · rintro ⟨r1, r2, a, c, h1, h2, h3⟩
    obtain ⟨_, rfl⟩ := tag_one_ok.mp h1
    obtain ⟨_, rfl⟩ := tag_one_ok.mp h3
    unfold escaped at h2
    obtain ⟨b, rfl, h4, h5, h6⟩ := escapedLoop_ok_imp hq (List.suffix_refl _) h2
    have := List.append_cancel_right h5
    subst this
    exact ⟨rfl, h4, (h6 (by simp)).2⟩
  · rintro ⟨rfl, h1, h2⟩
    refine ⟨s ++ q :: r, q :: r, [q], [q], tag_one_ok.mpr ⟨rfl, rfl⟩, ?_, tag_one_ok.mpr ⟨rfl, rfl⟩⟩
    have := escapedLoop_append (r := r) hq h1 [] ((s ++ q :: r).length + 1) (by simpa using h2)
      (by simp; omega)
    simpa [escaped] using this

/-- Opening quote of an alternative that does not match. -/
theorem delimited_tag_err {q c : Char} {p : P β} {s : P γ} {i : Input} (h : c ≠ q) :
    delimited (tag [q]) p s (c :: i) = .err (.error (c :: i) .Tag) := by
  unfold delimited
  apply preceded_err
  simp [tag, stripPrefix, h]

theorem stringLiteral_ok {i r s} : stringLiteral i = .ok r s ↔
    ∃ q, (q = '\'' ∨ q = '"') ∧ i = q :: (s ++ q :: r) ∧ StrBody q s ∧ s ≠ [] := by
  unfold stringLiteral
  rw [alt_two_ok]
  simp only [alt]
  rw [quoted_ok (by decide), quoted_ok (by decide)]
  constructor
  · rintro (h | ⟨_, h⟩)
    · exact ⟨_, .inl rfl, h⟩
    · exact ⟨_, .inr rfl, h⟩
  · rintro ⟨q, rfl | rfl, h⟩
    · exact .inl h
    · refine .inr ⟨?_, h⟩
      rw [h.1]
      exact ⟨_, _, delimited_tag_err (by decide)⟩

/-! ## Numbers -/

theorem digitsVal_snoc (s : Str) (c : Char) : digitsVal (s ++ [c]) = 10 * digitsVal s + digitVal c := by
  simp [digitsVal, List.foldl_append]

theorem decVal_imp {s n} (h : DecVal s n) : s ≠ [] ∧ (∀ c ∈ s, AsciiDigit c) ∧ n = digitsVal s := by
  induction h with
  | @digit c h => exact ⟨by simp, by simpa using h, by simp [digitsVal, digitVal]⟩
  | @snoc s c n _ hc ih =>
    refine ⟨by simp, ?_, ?_⟩
    · intro d hd
      rcases List.mem_append.mp hd with h | h
      · exact ih.2.1 d h
      · simp at h; subst h; exact hc
    · rw [digitsVal_snoc, ← ih.2.2]; rfl

theorem decVal_of : ∀ {s : Str}, s ≠ [] → (∀ c ∈ s, AsciiDigit c) → DecVal s (digitsVal s) := by
  suffices ∀ (n : Nat) (s : Str), s.length = n → s ≠ [] → (∀ c ∈ s, AsciiDigit c) →
      DecVal s (digitsVal s) from fun {s} h1 h2 => this _ s rfl h1 h2
  intro n
  induction n with
  | zero => intro s h h1; exact absurd (List.eq_nil_of_length_eq_zero h) h1
  | succ n ih =>
    intro s hs h1 h2
    have : s = s.dropLast ++ [s.getLast h1] := (List.dropLast_concat_getLast h1).symm
    generalize hd : s.dropLast = d at this
    generalize hl : s.getLast h1 = l at this
    subst this
    have hc : AsciiDigit l := h2 l (by simp)
    cases d with
    | nil =>
      have := DecVal.digit hc
      simpa [digitsVal, digitVal] using this
    | cons x d =>
      rw [digitsVal_snoc]
      exact .snoc (ih (x :: d) (by simpa using hs) (by simp) (fun c hc => h2 c (List.mem_append_left _ hc))) hc

theorem decVal_iff {s n} : DecVal s n ↔ s ≠ [] ∧ (∀ c ∈ s, AsciiDigit c) ∧ n = digitsVal s :=
  ⟨decVal_imp, fun ⟨h1, h2, h3⟩ => h3 ▸ decVal_of h1 h2⟩

end NomSparql
