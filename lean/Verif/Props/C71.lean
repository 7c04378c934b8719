import Verif.Props.C11_C16
import Verif.Lemmas.Tok

/-!
# C71: string arguments keep their kind
-/

namespace NomSparql

/-- The text `^^xsd:string`, letters in any case. -/
def XsdString (k : Str) : Prop := CaseVariant c!"^^xsd:string" k

theorem stringLiteralArg_cases {i r : Str} {l : StringLiteral} (h : stringLiteralArg i = .ok r l) : ∃ r1 s, stringLiteral i = .ok r1 s ∧
    ((∃ k, tagNoCase c!"^^xsd:string" r1 = .ok r k ∧ l = .simple s) ∨ (Fails (tagNoCase c!"^^xsd:string") r1 ∧ ∃ o, opt languageTag r1 = .ok r o ∧
      l = match o with | some t => .language s t | none => .simple s)) := by
  unfold stringLiteralArg at h
  rcases alt_two_ok.mp h with h | ⟨hf, h⟩
  · obtain ⟨s, h', rfl⟩ := map_ok.mp h
    obtain ⟨r1, k, h1, h2⟩ := terminated_ok.mp h'
    exact ⟨r1, s, h1, .inl ⟨k, h2, rfl⟩⟩
  · obtain ⟨⟨s, o⟩, h', rfl⟩ := map_ok.mp h
    obtain ⟨r1, h1, h2⟩ := pair_ok_iff.mp h'
    refine ⟨r1, s, h1, .inr ⟨?_, o, h2, by cases o <;> rfl⟩⟩
    rcases Soft.cases (tagNoCase c!"^^xsd:string") r1 with ⟨r2, k, e⟩ | e
    · exfalso
      obtain ⟨pos, kd, hf⟩ := hf
      rw [map_ok.mpr ⟨s, terminated_ok.mpr ⟨r1, k, h1, e⟩, rfl⟩] at hf
      cases hf
    · exact e

theorem stringLiteralArg_plain {i r r1 s : Str} {o : Option Str} (h1 : stringLiteral i = .ok r1 s) (h2 : Fails (tagNoCase c!"^^xsd:string") r1)
    (h3 : opt languageTag r1 = .ok r o) : stringLiteralArg i = .ok r (match o with | some t => .language s t | none => .simple s) := by
  unfold stringLiteralArg
  refine alt_eval2 (Fails.map (Fails.terminated2 h1 h2)) (map_ok.mpr ⟨(s, o), pair_ok_iff.mpr ⟨r1, h1, h3⟩, ?_⟩)
  cases o <;> rfl

theorem xsd_fails {r : Str} (h : NotStart (fun c => c = '^') r) : Fails (tagNoCase c!"^^xsd:string") r := by
  rcases Soft.cases (tagNoCase c!"^^xsd:string") r with ⟨r2, k, e⟩ | e
  · exfalso
    obtain ⟨rfl, hk⟩ := tagNoCase_ok_iff.mp e
    obtain ⟨y, k', rfl, hs, _⟩ := CaseVariant.cons_iff.mp hk
    refine h y (k' ++ r2) rfl ?_
    rcases hs with h | ⟨h, _⟩
    · exact h
    · exact absurd h (by decide)
  · exact e

/-- Violated: a literal typed `xsd:string` is returned as a simple one … -/
theorem C71_typed_violated (s x k r : Str) (hx : StringText s x) (hk : XsdString k) : stringLiteralArg (x ++ (k ++ r)) = .ok r (.simple s) := by
  unfold stringLiteralArg
  exact alt_eval1 (map_ok.mpr ⟨s, terminated_ok.mpr ⟨_, k, stringLiteral_text.mpr ⟨x, hx, rfl⟩, tagNoCase_ok_iff.mpr ⟨rfl, hk⟩⟩, rfl⟩)

/-- … and on no input is a typed literal returned. -/
theorem C71_never_typed_violated (i r s : Str) : stringLiteralArg i ≠ .ok r (.typed s) := fun h => by
  obtain ⟨_, _, _, ⟨_, _, e⟩ | ⟨_, o, _, e⟩⟩ := stringLiteralArg_cases h
  · cases e
  · cases o <;> cases e

/-- A tagged literal is returned exactly where one is written, with its longest tag. -/
theorem C71_language_partial (i r s t : Str) : stringLiteralArg i = .ok r (.language s t) ↔
    ∃ x, StringText s x ∧ i = x ++ '@' :: (t ++ r) ∧ LangTag t ∧ ∀ t' r', t ++ r = t' ++ r' → LangTag t' → t'.length ≤ t.length := by
  constructor
  · intro h
    obtain ⟨r1, s', h1, ⟨_, _, e⟩ | ⟨_, o, h2, e⟩⟩ := stringLiteralArg_cases h
    · cases e
    · cases o with
      | none => cases e
      | some t' =>
        cases e
        obtain ⟨x, hx, rfl⟩ := stringLiteral_text.mp h1
        rcases opt_ok.mp h2 with ⟨_, ha, h⟩ | ⟨h, _⟩
        · cases ha
          obtain ⟨rfl, h2, h3⟩ := languageTag_ok.mp h
          exact ⟨x, hx, rfl, h2, h3⟩
        · cases h
  · rintro ⟨x, hx, rfl, h2, h3⟩
    exact stringLiteralArg_plain (o := some t) (stringLiteral_text.mpr ⟨x, hx, rfl⟩) (xsd_fails fun c r e h => by cases e; revert h; decide)
      (opt_ok.mpr (.inl ⟨_, rfl, languageTag_ok.mpr ⟨rfl, h2, h3⟩⟩))

/-- A string with nothing behind it is a simple literal. -/
theorem C71_simple_partial (s x r : Str) (hx : StringText s x) (hr : NotStart (fun c => c = '@' ∨ c = '^') r) :
    stringLiteralArg (x ++ r) = .ok r (.simple s) := by
  refine stringLiteralArg_plain (o := none) (stringLiteral_text.mpr ⟨x, hx, rfl⟩) (xsd_fails fun c r' e h => hr c r' e (.inr h)) ?_
  refine opt_ok.mpr (.inr ⟨rfl, rfl, ?_⟩)
  rcases Soft.cases languageTag r with ⟨r', t, e⟩ | e
  · exact absurd (.inl rfl) (hr _ _ (languageTag_ok.mp e).1)
  · exact e

/-- A simple literal is returned for a string alone or typed `xsd:string`. -/
theorem C71_simple_accepted (i r s : Str) (h : stringLiteralArg i = .ok r (.simple s)) :
    ∃ x, StringText s x ∧ (i = x ++ r ∨ ∃ k, XsdString k ∧ i = x ++ (k ++ r)) := by
  obtain ⟨r1, s', h1, ⟨k, h2, e⟩ | ⟨_, o, h2, e⟩⟩ := stringLiteralArg_cases h
  · cases e
    obtain ⟨x, hx, rfl⟩ := stringLiteral_text.mp h1
    obtain ⟨rfl, hk⟩ := tagNoCase_ok_iff.mp h2
    exact ⟨x, hx, .inr ⟨k, hk, rfl⟩⟩
  · cases o with
    | some t => cases e
    | none =>
      cases e
      obtain ⟨x, hx, rfl⟩ := stringLiteral_text.mp h1
      rcases opt_ok.mp h2 with ⟨_, ha, _⟩ | ⟨_, rfl, _⟩
      · cases ha
      · exact ⟨x, hx, .inl rfl⟩

example : stringLiteralArg c!"'a'^^xsd:string ," = .ok c!" ," (.simple c!"a") := rfl
example : StringText c!"a" c!"'a'" ∧ XsdString c!"^^XSD:String" :=
  ⟨⟨'\'', .inl rfl, rfl, .ord (by decide) (by decide) .nil, by decide⟩,
    .cons (.inl rfl) (.cons (.inl rfl) (.cons (.inr (by decide)) (.cons (.inr (by decide)) (.cons (.inr (by decide)) (.cons (.inl rfl)
      (.cons (.inr (by decide)) (.cons (.inl rfl) (.cons (.inl rfl) (.cons (.inl rfl) (.cons (.inl rfl) (.cons (.inl rfl) .nil)))))))))))⟩
example : stringLiteralArg c!"'a'@en-GB)" = .ok c!")" (.language c!"a" c!"en-GB") := rfl
example : stringLiteralArg c!"'a')" = .ok c!")" (.simple c!"a") := rfl
/-- Any other datatype is left unread. -/
example : stringLiteralArg c!"'a'^^xsd:int" = .ok c!"^^xsd:int" (.simple c!"a") := rfl

end NomSparql
