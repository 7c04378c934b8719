import Verif.Props.C24_C29

/-!
# C73: public constructors build the nodes that the parser returns
-/

namespace NomSparql

/-- `Iri::iri_ref` -/
theorem C73_iri (s r : Str) (hs : ∀ c ∈ s, ¬ W3CIriForbidden c) (hl : ∀ c ∈ s, c.toNat < 256) :
    iri ('<' :: (s ++ '>' :: r)) = .ok r (Iri.newIriRef s) :=
  (C13_iri _ _ _).mpr ((C13_latin1 s r hl).mpr hs)

/-- `Iri::prefixed_name` -/
theorem C73_prefixed (o : Option Str) (l r : Str) (ho : OptPrefix CommonBase CommonNameChar o) (hl : LocalName CommonLocalStart CommonLocalChar l)
    (hr : NameStop r) : iri (prefixText o ++ ':' :: (l ++ r)) = .ok r (Iri.newPrefixedName (.pnameLN o l)) :=
  iri_prefixed.mpr (C14_roundtrip_partial o l r ho hl hr)

/-- `RdfLiteral::literal` -/
theorem C73_literal (s x r : Str) (hx : StringText s x) (hr : NotStart (fun c => c = '@' ∨ c = '^') r) :
    rdfLiteral (x ++ r) = .ok r (RdfLiteral.ofLiteral s) := C16_plain s x r hx hr

/-- `RdfLiteral::new`, with a language -/
theorem C73_tagged (s x t r : Str) (hx : StringText s x) (ht : LangTag t) (hm : ∀ t' r', t ++ r = t' ++ r' → LangTag t' → t'.length ≤ t.length) :
    rdfLiteral (x ++ '@' :: (t ++ r)) = .ok r (RdfLiteral.new s (.langTag t)) := (C16_language _ _ _ _).mpr ⟨x, hx, rfl, ht, hm⟩

/-- `RdfLiteral::new`, with a datatype -/
theorem C73_typed (s x d r : Str) (hx : StringText s x) (hd : ∀ c ∈ d, ¬ W3CIriForbidden c) (hl : ∀ c ∈ d, c.toNat < 256) :
    rdfLiteral (x ++ '^' :: '^' :: '<' :: (d ++ '>' :: r)) = .ok r (RdfLiteral.new s (.iriRef (Iri.newIriRef d))) :=
  (C16_datatype_iri _ _ _ _).mpr ⟨x, hx, rfl, ((C13_exact _ _ _).mp ((C13_latin1 d r hl).mpr hd)).2⟩

/-- `LimitOffsetClause::limit_offset` -/
theorem C73_limit_offset (a w b r : Str) (l o : Nat) (ha : IntClauseText c!"limit" l a) (hw : Ws w) (hb : IntClauseText c!"offset" o b)
    (hr : NotStart LowByteDigit r) : limitOffsetClause (a ++ (w ++ (b ++ r))) = .ok r (.newLimitOffset l (some o)) :=
  (C26_limit_offset _ _ _ _).mpr ⟨a, w, b, rfl, ha, hw, hb, hr⟩

/-- `LimitOffsetClause::offset_limit` -/
theorem C73_offset_limit (a w b r : Str) (l o : Nat) (ha : IntClauseText c!"offset" o a) (hw : Ws w) (hb : IntClauseText c!"limit" l b)
    (hr : NotStart LowByteDigit r) : limitOffsetClause (a ++ (w ++ (b ++ r))) = .ok r (.newOffsetLimit o (some l)) :=
  (C26_offset_limit _ _ _ _).mpr ⟨a, w, b, rfl, ha, hw, hb, hr⟩

theorem C73_limit (a r : Str) (l : Nat) (ha : IntClauseText c!"limit" l a) (hr : NotStart LowByteDigit r) (hw : ¬ StartsWs r)
    (hn : ∀ b r' o, r = b ++ r' → ¬ IntClauseText c!"offset" o b) : limitOffsetClause (a ++ r) = .ok r (.newLimitOffset l none) :=
  (C26_limit_only _ _ _).mpr ⟨a, [], rfl, ha, .nil, hr, hw, fun b r' o e h => absurd h (hn b r' o e)⟩

theorem C73_offset (a r : Str) (o : Nat) (ha : IntClauseText c!"offset" o a) (hr : NotStart LowByteDigit r) (hw : ¬ StartsWs r)
    (hn : ∀ b r' l, r = b ++ r' → ¬ IntClauseText c!"limit" l b) : limitOffsetClause (a ++ r) = .ok r (.newOffsetLimit o none) :=
  (C26_offset_only _ _ _).mpr ⟨a, [], rfl, ha, .nil, hr, hw, fun b r' l e h => absurd h (hn b r' l e)⟩

/-- Different arguments give different nodes. -/
theorem C73_injective : (∀ a b, Iri.newIriRef a = Iri.newIriRef b → a = b) ∧ (∀ a b, Iri.newPrefixedName a = Iri.newPrefixedName b → a = b) ∧
    (∀ a b d e, RdfLiteral.new a d = RdfLiteral.new b e → a = b ∧ d = e) ∧ (∀ a b, RdfLiteral.ofLiteral a = RdfLiteral.ofLiteral b → a = b) ∧
    (∀ l o l' o', LimitOffsetClause.newLimitOffset l o = .newLimitOffset l' o' → l = l' ∧ o = o') ∧
    (∀ o l o' l', LimitOffsetClause.newOffsetLimit o l = .newOffsetLimit o' l' → o = o' ∧ l = l') := by
  refine ⟨fun _ _ h => ?_, fun _ _ h => ?_, fun _ _ _ _ h => ?_, fun _ _ h => ?_, fun _ _ _ _ h => ?_, fun _ _ _ _ h => ?_⟩ <;> cases h <;>
    first | rfl | exact ⟨rfl, rfl⟩

example : iri c!"<http://a/b> ." = .ok c!" ." (Iri.newIriRef c!"http://a/b") := rfl
example : iri c!"a:bc ." = .ok c!" ." (Iri.newPrefixedName (.pnameLN (some c!"a") c!"bc")) := rfl
example : rdfLiteral c!"'a' ." = .ok c!" ." (RdfLiteral.ofLiteral c!"a") := rfl
example : limitOffsetClause c!"LIMIT 5 OFFSET 10" = .ok [] (.newLimitOffset 5 (some 10)) := rfl
example : limitOffsetClause c!"OFFSET 5 LIMIT 10" = .ok [] (.newOffsetLimit 5 (some 10)) := rfl

end NomSparql
