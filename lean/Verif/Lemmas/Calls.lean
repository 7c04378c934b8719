import Verif.Lemmas.Where
import Verif.Spec.CanonExpr

/-!
# Keyword calls

Every alternative of `builtInCall` needs a keyword followed by white space, `(` or `{`.  `Key p ts`: `p` fails where none of the keywords
`ts` begins.
-/

namespace NomSparql

/-- What may follow the keyword of a call. -/
def KDelim (c : Char) : Prop := wsStart c = true ∨ c = '(' ∨ c = '{'

/-- The keyword `t` with the Kelvin sign for its last letter `k`: the crate panics. -/
def KelvinAt (t i : Str) : Prop := ∃ b b' x, t = b ++ ['k'] ∧ CaseVariant b b' ∧ i = b' ++ '\u212A' :: x

/-- `i` begins with the keyword `t` and a delimiter. -/
def Begins (t i : Str) : Prop := (∃ k c x, i = k ++ c :: x ∧ CaseVariant t k ∧ KDelim c) ∨ KelvinAt t i

class Key (p : P α) (ts : outParam (List Str)) : Prop where
  out : ∀ i, (∀ t ∈ ts, ¬ Begins t i) → Fails p i

theorem kwTag_takeBytes' {t : List Char} (ht : KwTag t) : ∀ {i : Input}, ¬ KelvinAt t i →
    overlapNoCase i t = true → byteLen t ≤ byteLen i → takeBytes (byteLen t) i ≠ none := by
  induction ht with
  | nil => intro i _ _ _; rw [show byteLen [] = 0 from rfl, takeBytes_zero]; simp
  | k =>
    intro i hk ho hl
    cases i with
    | nil => simp [byteLen] at hl; revert hl; decide
    | cons d i =>
      have h1 : byteLen ['k'] = 1 := by decide
      rw [h1] at hl ⊢
      have hd : d.toNat < 128 := by
        simp only [overlapNoCase, Bool.and_eq_true, beq_iff_eq] at ho
        have := ho.1
        unfold lower at this
        split at this
        · omega
        · split at this
          · rename_i h
            exfalso; apply hk
            have : d = '\u212A' := by
              have : Char.ofNat d.toNat = Char.ofNat 0x212A := by rw [h]
              rw [Char.ofNat_toNat] at this; exact this
            exact ⟨[], [], i, rfl, .nil, by rw [this]; rfl⟩
          · subst this; decide
      have := takeBytes_ascii (n := 0) (i := i) hd
      simp only [takeBytes_zero] at this
      rw [show (1 : Nat) = 1 + 0 from rfl, this]
      simp
  | @cons c t hc _ ih =>
    intro i hk ho hl
    have hca := hc.ascii
    have hb : byteLen (c :: t) = 1 + byteLen t := by rw [byteLen_cons, utf8Size_ascii hca]
    rw [hb] at hl ⊢
    cases i with
    | nil => simp [byteLen] at hl
    | cons d i =>
      simp only [overlapNoCase, Bool.and_eq_true, beq_iff_eq] at ho
      have hd := (lower_eq_kw ho.1).ascii hca
      rw [takeBytes_ascii hd]
      rw [byteLen_cons, utf8Size_ascii hd] at hl
      have := ih (i := i) (by
        rintro ⟨b, b', x, rfl, h1, rfl⟩
        exact hk ⟨c :: b, d :: b', x, rfl, .cons (lower_eq_kw ho.1) h1, rfl⟩) ho.2 (by omega)
      cases e : takeBytes (byteLen t) i with
      | none => exact absurd e this
      | some x => simp

theorem tagNoCase_cases {t : List Char} [ht : KwTag t] {i : Input} (hk : ¬ KelvinAt t i) :
    (∃ r a, tagNoCase t i = .ok r a) ∨ Fails (tagNoCase t) i := by
  unfold Fails
  simp only [tagNoCase]
  split
  · rename_i ho
    simp only [Bool.and_eq_true, decide_eq_true_eq] at ho
    have := kwTag_takeBytes' ht hk ho.1 ho.2
    split
    · exact .inl ⟨_, _, rfl⟩
    · contradiction
  · exact .inr ⟨_, _, rfl⟩

instance {t} [ht : KwTag t] {p : P α} : Key (precededTag1 t p) [t] where
  out i h := by
    have h := h t (by simp)
    unfold precededTag1
    apply Fails.preceded
    rcases tagNoCase_cases (t := t) (i := i) (fun hk => h (.inr hk)) with ⟨r, a, e⟩ | e
    · refine Fails.terminated2 e ?_
      rcases Soft.cases sp1 r with ⟨r', w, e'⟩ | e'
      · exfalso; apply h; left
        obtain ⟨rfl, h2⟩ := tagNoCase_ok_iff.mp e
        obtain ⟨rfl, hw, _⟩ := sp1_ok_iff.mp e'
        obtain ⟨hw, hne⟩ := hw
        cases w with
        | nil => contradiction
        | cons c w => exact ⟨a, c, _, rfl, h2, .inl (ws_first hw _ _ rfl)⟩
      · exact e'
    · exact e.terminated

instance {t} [ht : KwTag t] {p : P α} : Key (precededBracketted t p) [t] where
  out i h := by
    have h := h t (by simp)
    unfold precededBracketted precededTag
    rcases tagNoCase_cases (t := t) (i := i) (fun hk => h (.inr hk)) with ⟨r, a, e⟩ | e
    · obtain ⟨rfl, h2⟩ := tagNoCase_ok_iff.mp e
      obtain ⟨r', w, e'⟩ := Total.out (p := sp) r
      refine Fails.preceded2 (terminated_ok.mpr ⟨r, w, e, e'⟩) ?_
      obtain ⟨rfl, hw, _⟩ := sp_ok_iff.mp e'
      unfold bracketted
      apply Fails.delimited
      rcases Soft.cases (char '(') r' with ⟨r2, c, e2⟩ | e2
      · exfalso; apply h; left
        obtain ⟨rfl, rfl⟩ := char_ok.mp e2
        cases w with
        | nil => exact ⟨a, '(', _, rfl, h2, .inr (.inl rfl)⟩
        | cons c w => exact ⟨a, c, _, rfl, h2, .inl (ws_first hw _ _ rfl)⟩
      · exact e2
    · exact (e.terminated).preceded

instance {p : P α} {f : α → β} {ts} [h : Key p ts] : Key (map p f) ts := ⟨fun i hi => (h.out i hi).map⟩
instance {p : P α} {ts} [h : Key p ts] : Key (alt [p]) ts := ⟨fun i hi => h.out i hi⟩
instance {p p' : P α} {ps ts us} [h : Key p ts] [h' : Key (alt (p' :: ps)) us] : Key (alt (p :: p' :: ps)) (ts ++ us) :=
  ⟨fun i hi => Fails.alt_cons (h.out i fun t ht => hi t (by simp [ht])) (h'.out i fun t ht => hi t (by simp [ht]))⟩
instance : Key (countS R₀) [c!"count"] := inferInstanceAs (Key (map (precededBracketted c!"count" _) _) _)
instance : Key (groupConcatS R₀) [c!"group_concat"] := inferInstanceAs (Key (map (precededBracketted c!"group_concat" _) _) _)
instance : Key (aggregateS R₀) [c!"count", c!"sum", c!"min", c!"max", c!"avg", c!"sample", c!"group_concat"] :=
  inferInstanceAs (Key (alt [_, _, _, _, _, _, _]) _)
instance : Key (regexExpressionS R₀) [c!"regex"] := inferInstanceAs (Key (map (precededTag1 c!"regex" _) _) _)
instance {p : P α} {q : P β} : Key (tuple3 (tagNoCase c!"not") (spEnc1 p) q) [c!"not"] where
  out i h := by
    have h := h c!"not" (by simp)
    rcases tagNoCase_cases (t := c!"not") (i := i) (fun hk => h (.inr hk)) with ⟨r, a, e⟩ | e
    · refine Fails.pair2 e (Fails.pair ?_)
      unfold spEnc1
      apply Fails.delimited
      rcases Soft.cases sp1 r with ⟨r', w, e'⟩ | e'
      · exfalso; apply h; left
        obtain ⟨rfl, h2⟩ := tagNoCase_ok_iff.mp e
        obtain ⟨rfl, hw, _⟩ := sp1_ok_iff.mp e'
        obtain ⟨hw, hne⟩ := hw
        cases w with
        | nil => contradiction
        | cons c w => exact ⟨a, c, _, rfl, h2, .inl (ws_first hw _ _ rfl)⟩
      · exact e'
    · exact e.tuple3

/-- The keywords of `built_in_call_1`, in order. -/
def callTags1 : List Str := [c!"count", c!"sum", c!"min", c!"max", c!"avg", c!"sample", c!"group_concat", c!"str", c!"lang", c!"langmatches",
  c!"datatype", c!"bound", c!"iri", c!"uri", c!"bnode", c!"rand", c!"abs", c!"ceil", c!"floor", c!"round", c!"concat", c!"strlen",
  c!"ucase", c!"lcase", c!"encode_for_uri", c!"strlen", c!"strstarts"]
/-- The keywords of `built_in_call_2`, in order. -/
def callTags2 : List Str := [c!"strends", c!"strbefore", c!"strafter", c!"year", c!"month", c!"day", c!"hours", c!"minutes", c!"seconds",
  c!"timezone", c!"tz", c!"now", c!"uuid", c!"struuid"]
/-- The keywords of `built_in_call`, in order. -/
def callTags : List Str := callTags1 ++ callTags2 ++ [c!"md5", c!"sha1", c!"sha256", c!"sha384", c!"sha512", c!"coalesce", c!"if",
  c!"strlang", c!"strdt", c!"sameterm", c!"isiri", c!"isuri", c!"isblank", c!"isliteral", c!"isnumeric", c!"regex", c!"exists", c!"not"]

set_option synthInstance.maxSize 4000
set_option synthInstance.maxHeartbeats 200000
instance : Key (builtInCall1S R₀) callTags1 := by
  unfold builtInCall1S
  exact ⟨fun i hi => Key.out i hi⟩
instance : Key (builtInCall2S R₀) callTags2 := by
  unfold builtInCall2S
  exact ⟨fun i hi => Key.out i hi⟩
instance : Key builtInCall callTags := by
  unfold builtInCall builtInCallS
  exact ⟨fun i hi => Key.out i hi⟩

/-! ## Which keyword begins a text -/

theorem split_conflict {c d : Char} (hcd : c ≠ d) : ∀ {a b x y : Str}, (∀ e ∈ a, e ≠ d) → (∀ e ∈ b, e ≠ c) →
    a ++ c :: x = b ++ d :: y → False
  | [], [], _, _, _, _, h => hcd (List.cons.inj h).1
  | [], _ :: _, _, _, _, hb, h => hb _ (by simp) (List.cons.inj h).1.symm
  | _ :: _, [], _, _, ha, _, h => ha _ (by simp) (List.cons.inj h).1
  | _ :: _, _ :: _, _, _, ha, hb, h =>
    split_conflict hcd (fun e he => ha e (by simp [he])) (fun e he => hb e (by simp [he])) (List.cons.inj h).2

theorem split_unique {W : Char → Prop} {c : Char} (hc : ¬ W c) : ∀ {a b x r : Str}, (∀ e ∈ a, W e) → (∀ e ∈ b, W e) →
    NotStart W r → a ++ c :: x = b ++ r → a = b
  | [], [], _, _, _, _, _, _ => rfl
  | [], _ :: _, _, _, _, hb, _, h => absurd (hb _ (by simp)) ((List.cons.inj h).1 ▸ hc)
  | _ :: _, [], _, _, ha, _, hr, h => absurd (ha _ (by simp)) (hr _ _ h.symm)
  | _ :: _, _ :: _, _, _, ha, hb, hr, h => by
    obtain ⟨h1, h2⟩ := List.cons.inj h
    rw [h1, split_unique hc (fun e he => ha e (by simp [he])) (fun e he => hb e (by simp [he])) hr h2]

/-- Characters of keywords in any spelling, and the Kelvin sign. -/
def WordC (c : Char) : Prop := AsciiLetter c ∨ c = '_' ∨ AsciiDigit c ∨ c = '\u212A'

instance : DecidablePred WordC := fun c => by unfold WordC AsciiLetter AsciiDigit; infer_instance

theorem kwLetter_wordC {x y : Char} (h : KwLetter x) (h' : SameLetter x y) : WordC y ∧ y ≠ '\u212A' := by
  rcases h' with rfl | ⟨h1, h2, h3⟩
  · refine ⟨?_, ?_⟩
    · rcases h with h | h | h
      · exact .inl (by unfold AsciiLetter; omega)
      · exact .inr (.inl h)
      · exact .inr (.inr (.inl h))
    · rintro rfl
      revert h; decide
  · refine ⟨.inl (by unfold AsciiLetter; omega), ?_⟩
    rintro rfl
    have : ('\u212A' : Char).toNat = 0x212A := by decide
    omega

theorem caseVariant_wordC {t k : Str} (hk : CaseVariant t k) (ht : ∀ c ∈ t, KwLetter c) : ∀ c ∈ k, WordC c ∧ c ≠ '\u212A' := by
  induction hk with
  | nil => simp
  | @cons x y t s h hk ih =>
    intro c hc
    rcases List.mem_cons.mp hc with rfl | hc
    · exact kwLetter_wordC (ht x (by simp)) h
    · exact ih (fun d hd => ht d (by simp [hd])) c hc

theorem sameLetter_inj {x x' y : Char} (hx : KwLetter x) (hx' : KwLetter x') (h : SameLetter x y) (h' : SameLetter x' y) : x = x' := by
  have e : ∀ {a b : Char}, a.toNat = b.toNat → a = b := fun {a b} h => by rw [← Char.ofNat_toNat a, h, Char.ofNat_toNat]
  rcases h with h | ⟨h1, h2, h3⟩ <;> rcases h' with h' | ⟨h1', h2', h3'⟩
  · rw [← h, ← h']
  · subst h
    exfalso
    rcases hx with h | h | h
    · omega
    · subst h; revert h3' h1' h2'; intros; have : ('_' : Char).toNat = 95 := by decide
      omega
    · unfold AsciiDigit at h; omega
  · subst h'
    exfalso
    rcases hx' with h | h | h
    · omega
    · subst h; have : ('_' : Char).toNat = 95 := by decide
      omega
    · unfold AsciiDigit at h; omega
  · exact e (by omega)

theorem caseVariant_inj {t k : Str} (hk : CaseVariant t k) (ht : ∀ c ∈ t, KwLetter c) : ∀ {u : Str}, CaseVariant u k → (∀ c ∈ u, KwLetter c) → t = u := by
  induction hk with
  | nil => intro u hu _; cases hu; rfl
  | @cons x y t s h hk ih =>
    intro u hu hl
    cases hu with
    | cons h' hk' =>
      rw [sameLetter_inj (ht _ (by simp)) (hl _ (by simp)) h h', ih (fun d hd => ht d (by simp [hd])) hk' (fun d hd => hl d (by simp [hd]))]

theorem kDelim_not_wordC {c : Char} (h : KDelim c) : ¬ WordC c := by
  rcases h with h | rfl | rfl
  · rcases wsStart_iff.mp h with rfl | rfl | rfl | rfl | rfl <;> decide
  · decide
  · decide

/-- A text beginning with the keyword `u` begins with no other keyword. -/
theorem begins_word {t u k r : Str} (hk : CaseVariant u k) (hu : ∀ c ∈ u, KwLetter c) (ht : ∀ c ∈ t, KwLetter c) (hr : NotStart WordC r)
    (h : Begins t (k ++ r)) : t = u := by
  have hkw := caseVariant_wordC hk hu
  rcases h with ⟨k', c, x, e, hk', hc⟩ | ⟨b, b', x, rfl, hb, e⟩
  · have := split_unique (kDelim_not_wordC hc) (fun c hc => (caseVariant_wordC hk' ht c hc).1) (fun c hc => (hkw c hc).1) hr e.symm
    subst this
    exact caseVariant_inj hk' ht hk hu
  · exfalso
    have hbw := caseVariant_wordC hb (fun c hc => ht c (by simp [hc]))
    clear hb hk hu ht
    induction b' generalizing k with
    | nil =>
      cases k with
      | nil => exact hr _ _ e (.inr (.inr (.inr rfl)))
      | cons c k => exact (hkw c (by simp)).2 (List.cons.inj e).1
    | cons c b' ih =>
      cases k with
      | nil => exact hr _ _ e (hbw c (by simp)).1
      | cons d k => exact ih (fun c hc => hkw c (by simp [hc])) (List.cons.inj e).2 (fun c hc => hbw c (by simp [hc]))

theorem Follow.notWord {r : Str} (h : Follow r) : NotStart WordC r := h.notStart (by
  intro d hd
  simp only [List.mem_cons, List.not_mem_nil, or_false] at hd
  rcases hd with rfl | rfl | rfl | rfl | rfl | rfl | rfl | rfl | rfl | rfl | rfl | rfl | rfl | rfl | rfl | rfl | rfl | rfl | rfl | rfl <;> decide)

theorem begins_iri {t : Str} (ht : ∀ c ∈ t, KwLetter c) (hn : t ≠ []) {i : Iri} {s : Str} (h : cIri i s) (hs : NoKelvin s) (r : Str) :
    ¬ Begins t (s ++ r) := by
  cases i with
  | iri x =>
    obtain ⟨rfl, _⟩ := h
    rintro (⟨k', c, x, e, hk', hc⟩ | ⟨b, b', x, rfl, hb, e⟩)
    · cases hk' with
      | nil => contradiction
      | cons h1 h2 =>
        have := (kwLetter_wordC (ht _ (by simp)) h1).1
        rw [← (List.cons.inj e).1] at this
        revert this; decide
    · cases hb with
      | nil => have := (List.cons.inj e).1; revert this; decide
      | cons h1 h2 =>
        have := (kwLetter_wordC (ht _ (by simp)) h1).1
        rw [← (List.cons.inj e).1] at this
        revert this; decide
  | prefixedName n =>
    cases n with
    | pnameNS o => exact h.elim
    | pnameLN o l =>
      cases o with
      | none => exact h.elim
      | some p =>
        obtain ⟨rfl, ⟨c0, p0, rfl, hc0, hp0, _⟩, _⟩ := h
        have hp : ∀ d ∈ c0 :: p0, PnC d ∨ d = '.' := by
          intro d hd
          rcases List.mem_cons.mp hd with rfl | hd
          · exact .inl (pnB_pnC (commonBase_coded _ hc0))
          · rcases hp0 d hd with h | h
            · exact .inl (commonNameChar_coded d h)
            · exact .inr h
        have hk0 : ∀ d ∈ c0 :: p0, d ≠ '\u212A' := by
          rintro d hd rfl
          exact hs (List.mem_append_left _ hd)
        generalize c0 :: p0 = p at *
        rw [List.append_assoc]
        rintro (⟨k', c, x, e, hk', hc⟩ | ⟨b, b', x, rfl, hb, e⟩)
        · refine split_conflict (c := c) (d := ':') ?_ ?_ ?_ e.symm
          · rintro rfl; rcases hc with h | h | h <;> revert h <;> decide
          · rintro d hd rfl
            have := (caseVariant_wordC hk' ht _ hd).1
            revert this; decide
          · rintro d hd rfl
            rcases hp d hd with h | rfl
            · rcases hc with hw | rfl | rfl
              · rcases wsStart_iff.mp hw with rfl | rfl | rfl | rfl | rfl <;> exact absurd h (by decide)
              · exact absurd h (by decide)
              · exact absurd h (by decide)
            · rcases hc with h | h | h <;> revert h <;> decide
        · refine split_conflict (c := '\u212A') (d := ':') (by decide) ?_ hk0 e.symm
          rintro d hd rfl
          have := (caseVariant_wordC hb (fun c hc => ht c (by simp [hc])) _ hd).1
          revert this; decide

theorem callTags_plain : ∀ t ∈ callTags, t ≠ [] ∧ ∀ c ∈ t, KwLetter c := by decide

/-- No built-in call where an IRI stands. -/
theorem builtIn_fails_iri {i : Iri} {s : Str} (h : cIri i s) (hs : NoKelvin s) (r : Str) : Fails builtInCall (s ++ r) :=
  Key.out _ fun t ht => begins_iri (callTags_plain t ht).2 (callTags_plain t ht).1 h hs r

/-- No built-in call where another keyword stands. -/
theorem builtIn_fails_kw {u k r : Str} (hk : CaseVariant u k) (hu : ∀ c ∈ u, KwLetter c) (hr : NotStart WordC r) (hn : u ∉ callTags) :
    Fails builtInCall (k ++ r) :=
  Key.out _ fun t ht hb => hn (begins_word hk hu (callTags_plain t ht).2 hr hb ▸ ht)

/-- A parser for other keywords fails. -/
theorem Key.other {p : P α} {ts} [h : Key p ts] {u k r : Str} (hk : CaseVariant u k) (hr : NotStart WordC r)
    (hu : (∀ c ∈ u, KwLetter c) ∧ (∀ t ∈ ts, ∀ c ∈ t, KwLetter c) ∧ u ∉ ts) : Fails p (k ++ r) :=
  h.out _ fun t ht hb => hu.2.2 (begins_word hk hu.1 (hu.2.1 t ht) hr hb ▸ ht)

end NomSparql
