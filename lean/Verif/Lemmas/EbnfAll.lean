import Verif.Lemmas.Ebnf

/-!
# From renderings to generated texts: all relations
-/

namespace NomSparql

open Ebnf

variable {d : Dev → Prop}

/-! ## Terms -/

theorem fits_var {v : Var} : Fits d (rVar v) (.t .var) := .t fun _ h => ⟨v, h⟩
theorem fits_iriRef {x : Str} : Fits d (rIriRef x) (.t .iriRef) := .t fun _ h => ⟨x, h⟩
theorem fits_pnameNs {o : Option Str} : Fits d (rPnameNs o) (.t .pnameNs) := .t fun _ h => ⟨o, h⟩

theorem fits_iri {i : Iri} : Fits d (rIri i) (.n .iri) := by
  cases i with
  | iri x => exact .n (.left fits_iriRef)
  | prefixedName p =>
    refine .n (.right (.n ?_))
    cases p with
    | pnameLN o l => exact .left (.t fun _ h => ⟨o, l, h⟩)
    | pnameNS o => exact .right fits_pnameNs

theorem fits_string {x : Str} : Fits d (StringText x) (.t .string) := .t fun _ h => ⟨x, h⟩

theorem fits_rdfLiteral {l : RdfLiteral} : Fits d (rRdfLiteral l) (.n .rdfLiteral) :=
  .n (.seq fits_string (.rOpt fun x => by
    cases x with
    | langTag t => exact .left (.t fun _ h => ⟨t, h⟩)
    | iriRef i => exact .right (.seq .lit fits_iri)))

theorem fits_anyNumber {v : NumericLiteral} : Fits d (rNumericLiteral v) (.t .number ⫾ .t .signedNumber) := by
  intro s h
  by_cases hs : NotStart (fun c => c = '+' ∨ c = '-') s
  · exact .left (.t ⟨⟨v, h⟩, hs⟩)
  · simp only [NotStart, Classical.not_forall, Classical.not_not] at hs
    obtain ⟨c, x, rfl, hc⟩ := hs
    refine .right (.t ⟨⟨v, h⟩, x, ?_⟩)
    rcases hc with rfl | rfl
    · exact .inl rfl
    · exact .inr rfl

theorem fits_number {v : NumericLiteral} : Fits d (rNumericLiteral v) (.n .numericLiteral) := .n fits_anyNumber

theorem fits_boolean {b : Bool} : Fits d (rBoolean b) (.n .booleanLiteral) := by
  cases b with
  | true => exact .n (.left .kw)
  | false => exact .n (.right .kw)

theorem fits_nil : Fits d rNil (.t .nil) := .t fun _ h => h

theorem fits_blankNode {b : BlankNode} : Fits d (rBlankNode b) (.n .blankNode) := by
  cases b with
  | anon => exact .n (.right (.t fun _ h => h))
  | label l => exact .n (.left (.t fun _ h => ⟨l, h⟩))

theorem fits_graphTerm {t : GraphTerm} : Fits d (rGraphTerm t) (.n .graphTerm) := by
  refine .n ?_
  cases t with
  | iri i => exact .left fits_iri
  | rdfLiteral l => exact .right (.left fits_rdfLiteral)
  | numericLiteral n => exact .right (.right (.left fits_number))
  | booleanLiteral b => exact .right (.right (.right (.left fits_boolean)))
  | blankNode b => exact .right (.right (.right (.right (.left fits_blankNode))))
  | nil => exact .right (.right (.right (.right (.right fits_nil))))

theorem fits_varOrIri {v : VarOrIri} : Fits d (rVarOrIri v) (.n .varOrIri) := by
  cases v with
  | var v => exact .n (.left fits_var)
  | iri i => exact .n (.right fits_iri)

theorem fits_varOrTerm {v : VarOrTerm} : Fits d (rVarOrTerm v) (.n .varOrTerm) := by
  cases v with
  | var v => exact .n (.left fits_var)
  | term i => exact .n (.right fits_graphTerm)

theorem fits_graphRef {i : Iri} : Fits d (rGraphRef i) (.n .graphRef) := .n (.seq .kw (.ws1 fits_iri))

theorem fits_graphOrDefault {g : GraphOrDefault} : Fits d (rGraphOrDefault g) (.n .graphOrDefault) := by
  cases g with
  | default => exact .n (.left .kw)
  | graph i =>
    refine .or (.n (.right ?_)) (.n (.right (.seq (.some .kw) (.ws1 fits_iri))))
    exact fun s h => by
      have := Gen.seq (D := lax d) (Gen.right (a := .k c!"graph") .nothing) (fits_iri s h) trivial
      rwa [List.nil_append] at this

theorem fits_graphRefAll {g : GraphRefAll} : Fits d (rGraphRefAll g) (.n .graphRefAll) := by
  cases g with
  | default => exact .n (.right (.left .kw))
  | named => exact .n (.right (.right (.left .kw)))
  | all => exact .n (.right (.right (.right .kw)))
  | graphRef i => exact .n (.left fits_graphRef)

/-! ## Prologue, data, simple clauses -/

theorem fits_prologue {p : Prologue} : Fits d (rPrologue p) (.n .prologue) :=
  .n (.sep0ws1 fun x => by
    cases x with
    | base x => exact .left (.n (.seq .kw (.ws1 fits_iriRef)))
    | «prefix» x => exact .right (.n (.seq .kw (.seq (.enc fits_pnameNs) fits_iriRef))))

theorem fits_dataset {x : DataSetClause} : Fits d (rDataSetClause x) (.n .datasetClause) :=
  .n (.seq .kw (.ws1 (by
    cases x with
    | named i => exact .right (.n (.seq .kw (.ws1 (.n fits_iri))))
    | default i => exact .left (.n (.n fits_iri)))))

theorem fits_datasets {l : List DataSetClause} : Fits d (rDataSetClauses l) (.star (.n .datasetClause)) := .sep0ws fun _ => fits_dataset

theorem fits_using {x : DefaultOrNamedIri} : Fits d (rUsingClause x) (.n .usingClause) :=
  .n (.seq .kw (.ws1 (by
    cases x with
    | named i => exact .right (.seq .kw (.ws1 fits_iri))
    | default i => exact .left fits_iri)))

theorem fits_dataValue {v : DataBlockValue} : Fits d (rDataBlockValue v) (.n .dataBlockValue) := by
  refine .n ?_
  cases v with
  | iri i => exact .left fits_iri
  | rdfLiteral l => exact .right (.left fits_rdfLiteral)
  | numericLiteral n => exact .right (.right (.left fits_number))
  | booleanLiteral b => exact .right (.right (.right (.left fits_boolean)))
  | undef => exact .right (.right (.right (.right .kw)))

theorem fits_dataBlock {b : DataBlock} : Fits d (rDataBlock b) (.n .dataBlock) := by
  cases b with
  | inlineDataOneVar x =>
    exact .n (.left (.n (.seq fits_var (.seq (.enc .lit) (.seq (.many fun _ => .enc fits_dataValue) (.ws .lit))))))
  | inlineDataFull x =>
    exact .n (.right (.n (.seq (.right (.paren (.ws (.many fun _ => .enc fits_var)))) (.seq (.enc .lit)
      (.seq (.many fun _ => .enc (.left (.paren (.ws (.many fun _ => .enc fits_dataValue))))) (.ws .lit))))))

theorem fits_values {b : DataBlock} : Fits d (rValues b) (.k c!"values" ⬩ .n .dataBlock) := .seq .kw (.ws1 fits_dataBlock)

theorem DecVal.integer {s : Str} {n : Nat} (h : DecVal s n) : W3CInteger s := by
  induction h with
  | digit h => exact ⟨by simp, by simpa using h⟩
  | snoc _ h ih =>
    refine ⟨by simp, fun c hc => ?_⟩
    rcases List.mem_append.mp hc with hc | hc
    · exact ih.2 c hc
    · rw [List.mem_singleton.mp hc]; exact h

theorem fits_u64 {n : Nat} : Fits d (rU64 n) (.t .integer) := .t fun _ h => h.1.integer
theorem fits_limit {n : Nat} : Fits d (rLimit n) (.n .limitClause) := .n (.seq .kw (.ws fits_u64))
theorem fits_offset {n : Nat} : Fits d (rOffset n) (.n .offsetClause) := .n (.seq .kw (.ws fits_u64))

theorem fits_limitOffset {l : LimitOffsetClause} : Fits d (rLimitOffset l) (.n .limitOffsetClauses) := by
  cases l with
  | limitOffset l o => exact .n (.left (.seq fits_limit (.ws (.rOpt fun _ => fits_offset))))
  | offsetLimit o l => exact .n (.right (.seq fits_offset (.ws (.rOpt fun _ => fits_limit))))

/-! ## Triples templates -/

theorem fits_verb (hA : d .upperA) {v : Verb} : Fits d (rVerb v) (.n .verb) := by
  cases v with
  | varOrIri v => exact .n (.left fits_varOrIri)
  | a => exact .extra hA rfl .kw

theorem fits_semis {A : Lang} {b : Ebnf} {R : α → Lang} {l : List α} (hR : ∀ x, Fits d (R x) b)
    (hA : Fits d A (.star (.p c!";" ⬩ maybe b))) : Fits d (Many (fun x => enc (Plus (enc (lit c!";"))) ⬝ R x) l ⬝ A) (.star (.p c!";" ⬩ maybe b)) := by
  induction l with
  | nil => rintro _ ⟨_, t, rfl, rfl, h⟩; exact hA _ h
  | cons x l ih =>
    refine .assoc ?_
    rintro _ ⟨_, _, rfl, ⟨_, b, rfl, ⟨w, _, rfl, hw, m, w', rfl, hm, hw'⟩, hb⟩, ht⟩
    have := Fits.semis (S := enc (lit c!";")) (B := Ws ⬝ R x) (.enc .lit) (.ws (hR x)) ih _ ⟨m, _, rfl, hm, w' ++ b, _, rfl, ⟨w', b, rfl, hw', hb⟩, ht⟩
    have := Gen.before hw this
    simpa using this

section
variable {gn : GraphNode → Lang} (hA : d .upperA) (hg : ∀ g, Fits d (gn g) (.n .graphNode))
include hg

theorem fits_objectListS {l : List GraphNode} : Fits d (rObjectListS gn l) (.n .objectList) := .n (.sep1 .comma fun g => .n (hg g))

include hA

theorem fits_propertyListS {l : PropertyList} : Fits d (rPropertyListS gn l) (.n .propertyListNotEmpty) := by
  obtain ⟨l⟩ := l
  have hv : ∀ x, Fits d (rVerbListS gn x) (.n .verb ⬩ .n .objectList) := fun x => by
    obtain ⟨v, os⟩ := x
    exact .seq (fits_verb hA) (.ws (fits_objectListS hg))
  cases l with
  | nil => rintro _ ⟨_, _, _, ⟨⟩, _⟩
  | cons x l =>
    obtain ⟨v, os⟩ := x
    refine .n (.assoc (.assoc (.seq (fits_verb hA) (.assoc (.ws (.seq (fits_objectListS hg) ?_))))))
    refine fits_semis hv (.star ?_)
    intro s h
    have := Gen.seq (D := lax d) (Fits.ws Fits.lit s h) (Gen.right (a := .n .verb ⬩ .n .objectList) .nothing) trivial
    rwa [List.append_nil] at this

theorem fits_triplesNodeS {t : TriplesNode} : Fits d (rTriplesNodeS gn t) (.n .triplesNode) := by
  cases t with
  | collection l => exact .n (.left (.n (.paren (.many1 fun g => .enc (hg g)))))
  | blankNodePropertyList p => exact .n (.right (.n (.seq .lit (.ws (.seq (fits_propertyListS hA hg) (.ws .lit))))))

theorem fits_graphNodeS {g : GraphNode} : Fits d (rGraphNodeS gn g) (.n .graphNode) := by
  cases g with
  | varOrTerm v => exact .n (.left fits_varOrTerm)
  | triplesNode t => exact .n (.right (fits_triplesNodeS hA hg))
end

theorem fits_graphNode (hA : d .upperA) {g : GraphNode} : Fits d (rGraphNode g) (.n .graphNode) :=
  .ex fun n => by
    induction n generalizing g with
    | zero => rintro _ ⟨⟩
    | succ n ih => exact fits_graphNodeS hA fun _ => ih

theorem fits_objectList (hA : d .upperA) {l : List GraphNode} : Fits d (rObjectList l) (.n .objectList) := fits_objectListS fun _ => fits_graphNode hA
theorem fits_propertyList (hA : d .upperA) {l : PropertyList} : Fits d (rPropertyList l) (.n .propertyListNotEmpty) :=
  fits_propertyListS hA fun _ => fits_graphNode hA

theorem fits_triplesSameSubject (hA : d .upperA) {t : TriplesSameSubject} : Fits d (rTriplesSameSubject t) (.n .triplesSameSubject) := by
  cases t with
  | term t p => exact .n (.left (.seq fits_varOrTerm (.ws1 (fits_propertyList hA))))
  | node t p =>
    exact .n (.right (.seq (fits_triplesNodeS hA fun _ => fits_graphNode hA) (.ws (.n (.rOpt fun _ => fits_propertyList hA)))))

theorem fits_dots : Fits d dots (.plus (.p c!".")) := .plus (.enc .lit)

/-- Triples separated by dots, perhaps with dots at the end. -/
theorem fits_dotted {R : α → Lang} {e : Ebnf} {x : Nt} {T : Lang} (h0 : rule x = e ⬩ maybe (.p c!"." ⬩ maybe (.n x)))
    (h2 : Fits d (Gen (lax d) (e ⬩ Ebnf.plus (.p c!".") ⬩ maybe (.n x))) (.n x))
    (hR : ∀ a, Fits d (R a) e) (hT : Fits d T (maybe (.p c!"."))) {l : List α} : Fits d (Sep1 dots R l ⬝ T) (.n x) := by
  have key : ∀ (l : List α) a, Fits d (R a ⬝ Many (fun b => dots ⬝ R b) l ⬝ T) (.n x) := by
    intro l
    induction l with
    | nil =>
      rintro a _ ⟨s, _, rfl, hs, _, t, rfl, rfl, ht⟩
      refine .n ?_
      rw [h0]
      rw [List.nil_append]
      refine .seq (hR a _ hs) ?_ trivial
      have := hT _ ht
      clear ht
      generalize he : maybe (.p c!".") = e' at this
      induction this with
      | left h _ =>
        cases he
        refine .left ?_
        have := Gen.seq (D := lax d) h (Gen.right (a := .n x) .nothing) trivial
        rwa [List.append_nil] at this
      | right h _ => cases he; exact .right h
      | before hw _ ih => exact .before hw (ih he)
      | after _ hw ih => exact .after (ih he) hw
      | _ => cases he
    | cons b l ih =>
      rintro a _ ⟨s, _, rfl, hs, _, t, rfl, ⟨_, u, rfl, ⟨v, z, rfl, hv, hz⟩, hu⟩, ht⟩
      have := Gen.seq (D := lax d) (hR a _ hs) (.seq (fits_dots _ hv) (Gen.left (b := .nothing) (ih b _ ⟨z, _, rfl, hz, u, t, rfl, hu, ht⟩)) trivial) trivial
      have := h2 _ this
      simpa using this
  cases l with
  | nil => rintro _ ⟨_, _, _, ⟨⟩, _⟩
  | cons a l => exact .assoc (key l a)

theorem fits_triplesTemplate (hA : d .upperA) (hD : d .dots) {l : TriplesTemplate} : Fits d (rTriplesTemplate l) (.n .triplesTemplate) :=
  fits_dotted rfl (fun _ h => .extra hD rfl h) (fun _ => fits_triplesSameSubject hA) (.orNil (.ws .lit))

theorem fits_quads (hA : d .upperA) (hD : d .dots) {q : Quads} : Fits d (rQuads q) (.n .quads) :=
  .n (.seq (.rOpt fun _ => .tail (fits_triplesTemplate hA hD)) (.many fun _ =>
    .seq (.n (.seq .kw (.seq (.enc fits_varOrIri) (.seq .lit (.seq (.enc (.rOpt fun _ => fits_triplesTemplate hA hD)) .lit)))))
      (.seq (.orNil .lit) (.rOpt fun _ => fits_triplesTemplate hA hD))))

theorem fits_quadPattern (hA : d .upperA) (hD : d .dots) {q : Quads} : Fits d (rQuadsPattern q) (.n .quadPattern) :=
  .n (.seq .lit (.ws (.seq (fits_quads hA hD) (.ws .lit))))

theorem fits_quadData (hA : d .upperA) (hD : d .dots) {q : Quads} : Fits d (rQuadsPattern q) (.n .quadData) :=
  .n (.seq .lit (.ws (.seq (fits_quads hA hD) (.ws .lit))))

/-! ## Property paths -/

section
variable (hd : ∀ x, d x)
include hd

theorem fits_iriOrAOrCaret {x : IriOrAOrCaret} : Fits d (rIriOrAOrCaret x) (.n .pathOneInPropertySet) := by
  cases x with
  | iriOrA x =>
    cases x with
    | iri i => exact .n (.left fits_iri)
    | a => exact .extra (hd .upperA) rfl (.left .kw)
  | caret x =>
    cases x with
    | iri i => exact .n (.right (.right (.seq .lit (.left fits_iri))))
    | a => exact .extra (hd .upperA) rfl (.right (.seq .lit .kw))

theorem fits_pathAlternative {p : PathAlternative} : Fits d (rPathAlternative p) (.n .pathAlternative) :=
  .ex fun n => by
    induction n generalizing p with
    | zero => rintro _ ⟨⟩
    | succ n ih =>
      have hp : ∀ x, Fits d (rPathPrimaryS (rPathAlternativeN n) x) (.n .pathPrimary) := fun x => by
        cases x with
        | iri i => exact .n (.left fits_iri)
        | a => exact .n (.right (.left .lit))
        | pathNegatedPropertySet l =>
          exact .n (.right (.right (.left (.seq .lit (.n (.right (.seq .lit (.ws (.seq (.some (.sep1 (.enc .lit) fun _ => fits_iriOrAOrCaret hd)) (.ws .lit))))))))))
        | path p => exact .n (.right (.right (.right (.paren (.n ih)))))
      have he : ∀ x, Fits d (rPathEltS (rPathAlternativeN n) x) (.n .pathElt) := fun x => by
        obtain ⟨x, m⟩ := x
        exact .n (.seq (hp x) (.rOpt fun m => .ws1 (by
          cases m with
          | questionMark => exact .n (.left .lit)
          | asterisk => exact .n (.right (.left .lit))
          | plus => exact .n (.right (.right .lit)))))
      have hi : ∀ x, Fits d (rPathEltOrInverseS (rPathAlternativeN n) x) (.n .pathSequence) := fun x => by
        have : Fits d (rPathEltOrInverseS (rPathAlternativeN n) x) (.n .pathEltOrInverse) := by
          cases x with
          | pathElt x => exact .n (.left (he x))
          | inverse x => exact .n (.right (.seq .lit (he x)))
        refine .n fun s h => ?_
        have := Gen.seq (D := lax d) (this s h) (Gen.stop (a := .p c!"/" ⬩ .n .pathEltOrInverse)) trivial
        rwa [List.append_nil] at this
      obtain ⟨l⟩ := p
      exact .n (.join (.enc .lit) fun x => by
        obtain ⟨l⟩ := x
        exact .sep1 (.enc .lit) hi)

theorem fits_verbPath {v : VerbPathOrSimple} : Fits d (rVerbPathOrSimple v) (.n .verbPath ⫾ .n .verbSimple) := by
  cases v with
  | path p => exact .left (.n (.n (fits_pathAlternative hd)))
  | simple v => exact .right (.n fits_var)

section
variable {gn : GraphNodePath → Lang} (hg : ∀ g, Fits d (gn g) (.n .graphNodePath))
include hg

theorem fits_propertyListPathS {l : PropertyListPath} : Fits d (rPropertyListPathS gn l) (.n .propertyListPathNotEmpty) := by
  obtain ⟨v, os, es⟩ := l
  refine .n (.seq (fits_verbPath hd) (.ws1 (.seq (.extra (hd .semicolons) rfl (.sep1 (.enc .lit) fun g => .n (hg g))) ?_)))
  induction es with
  | nil => exact .stop
  | cons e es ih =>
    exact .assoc (.semis (.enc .lit) (.seq (fits_verbPath hd) (.ws1 (fits_objectList (hd .upperA)))) ih)

theorem fits_triplesNodePathS {t : TriplesNodePath} : Fits d (rTriplesNodePathS gn t) (.n .triplesNodePath) := by
  cases t with
  | collectionPath l => exact .n (.left (.n (.paren (.many1 hg))))
  | blankNodePropertyListPath p => exact .n (.right (.n (.seq .lit (.ws (.seq (fits_propertyListPathS hd hg) (.ws .lit))))))

theorem fits_graphNodePathS {g : GraphNodePath} : Fits d (rGraphNodePathS gn g) (.n .graphNodePath) := by
  cases g with
  | varOrTerm v => exact .n (.left fits_varOrTerm)
  | triplesNodePath t => exact .n (.right (fits_triplesNodePathS hd hg))
end

theorem fits_graphNodePath {g : GraphNodePath} : Fits d (rGraphNodePath g) (.n .graphNodePath) :=
  .ex fun n => by
    induction n generalizing g with
    | zero => rintro _ ⟨⟩
    | succ n ih => exact fits_graphNodePathS hd fun _ => ih

theorem fits_propertyListPath {l : PropertyListPath} : Fits d (rPropertyListPath l) (.n .propertyListPathNotEmpty) :=
  fits_propertyListPathS hd fun _ => fits_graphNodePath hd

theorem fits_triplesSameSubjectPath {t : TriplesSameSubjectPath} : Fits d (rTriplesSameSubjectPath t) (.n .triplesSameSubjectPath) := by
  cases t with
  | term t p => exact .n (.left (.seq fits_varOrTerm (.ws1 (fits_propertyListPath hd))))
  | node t p =>
    exact .n (.right (.seq (fits_triplesNodePathS hd fun _ => fits_graphNodePath hd) (.ws (.n (.rOpt fun _ => fits_propertyListPath hd)))))

theorem fits_triplesBlock {b : TriplesBlock} : Fits d (rTriplesBlock b) (.n .triplesBlock) := by
  intro s h
  have := fits_dotted (T := eps) (x := .triplesBlock) rfl (fun _ h => .extra (hd .dots) rfl h) (fun _ => fits_triplesSameSubjectPath hd) .none
    (l := b.triples) s ⟨s, [], by simp, h, rfl⟩
  exact this

/-! ## Expressions and graph patterns -/

omit hd in
theorem fits_distinct {b : Bool} : Fits d (rDistinct b) (maybe (.k c!"distinct")) := .rFlag (.tail1 .kw)
omit hd in
theorem fits_silent {b : Bool} : Fits d (rSilent b) (maybe (.k c!"silent")) := .rFlag (.tail1 .kw)

section
variable {Q : Rel} (hE : ∀ e, Fits d (Q.expr e) (.n .expression)) (hG : ∀ g, Fits d (Q.ggp g) (.n .groupGraphPattern))

section
include hE
omit hd

theorem fits_pairS {a b : Expression} : Fits d (rPairS Q a b) (.n .expression ⬩ .p c!"," ⬩ .n .expression) := .seq (hE a) (.seq .comma (hE b))
theorem fits_moreS {e : Expression} : Fits d (rMoreS Q e) (.p c!"," ⬩ .n .expression) := .seq .comma (hE e)

theorem fits_asVarS {x : ExpressionAsVar} : Fits d (rExpressionAsVarS Q x) (parens (.n .expression ⬩ .k c!"as" ⬩ .t .var)) := by
  obtain ⟨e, v⟩ := x
  exact .paren (.enc (.seq (hE e) (.seq (.enc .kw) fits_var)))

theorem fits_asVarOptS {x : ExpressionAsVarOpt} : Fits d (rExpressionAsVarOptS Q x) (parens (.n .expression ⬩ maybe (.k c!"as" ⬩ .t .var))) := by
  obtain ⟨e, v⟩ := x
  exact .paren (.enc (.seq (hE e) (.rOpt fun v => .seq (.enc1 .kw) fits_var)))

theorem fits_expressionListS {l : ExpressionList} : Fits d (rExpressionListS Q l) (.n .expressionList) := by
  cases l with
  | nil => exact .n (.left fits_nil)
  | list l => exact .n (.right (.paren (.sep1 .comma hE)))

theorem fits_distinctS {x : DistinctExpression} : Fits d (rDistinctExpressionS Q x) (maybe (.k c!"distinct") ⬩ .n .expression) := by
  obtain ⟨b, e⟩ := x
  exact .seq fits_distinct (hE e)

theorem fits_brackettedS {e : Expression} : Fits d (rBrackettedS Q e) (.n .brackettedExpression) := .n (.paren (.enc (hE e)))

theorem fits_tripleArgsS {a b : Expression} {c : Option Expression} :
    Fits d (rTripleArgsS Q a b c) (parens (.n .expression ⬩ .p c!"," ⬩ .n .expression ⬩ maybe (.p c!"," ⬩ .n .expression))) :=
  .paren (.seq (hE a) (.assoc (.seq .comma (.seq (hE b) (.rOpt fun _ => fits_moreS hE)))))

theorem fits_regexS {x : RegexExpression} : Fits d (rRegexS Q x) (.n .regexExpression) := by
  obtain ⟨a, b, c⟩ := x
  exact .n (.seq .kw (.ws1 (fits_tripleArgsS hE)))

theorem fits_substrS {x : RegexExpression} : Fits d (rSubstrS Q x) (.n .substringExpression) := by
  obtain ⟨a, b, c⟩ := x
  exact .n (.seq .kw (.ws1 (fits_tripleArgsS hE)))

theorem fits_strReplaceS {x : StrReplaceExpression} : Fits d (rStrReplaceS Q x)
    (parens (.n .expression ⬩ .p c!"," ⬩ .n .expression ⬩ .p c!"," ⬩ .n .expression ⬩ maybe (.p c!"," ⬩ .n .expression))) := by
  obtain ⟨a, b, c, e⟩ := x
  exact .paren (.seq (hE a) (.assoc (.seq .comma (.seq (hE b) (.assoc (.seq .comma (.seq (hE c) (.rOpt fun _ => fits_moreS hE))))))))

theorem fits_argListS {l : ArgList} : Fits d (rArgListS Q l) (.n .argList) := by
  cases l with
  | nil => exact .n (.left fits_nil)
  | expression b l => exact .n (.right (.seq .lit (.ws (.assoc' (.seq (.seq fits_distinct (.sep1 .comma hE)) .lit)))))

theorem fits_functionCallS {f : FunctionCall} : Fits d (rFunctionCallS Q f) (.n .functionCall) := by
  obtain ⟨i, l⟩ := f
  exact .n (.seq fits_iri (.ws (fits_argListS hE)))

theorem fits_iriOrFunctionS {f : IriOrFunction} : Fits d (rIriOrFunctionS Q f) (.n .iriOrFunction) := by
  obtain ⟨i, l⟩ := f
  exact .n (.seq fits_iri (.rOpt fun _ => .ws1 (fits_argListS hE)))

theorem fits_aggregateS {x : Aggregate} : Fits d (rAggregateS Q x) (.n .aggregate) := by
  refine .n ?_
  cases x with
  | count c =>
    obtain ⟨b, t⟩ := c
    refine .pick 0 rfl (.call (.seq fits_distinct ?_))
    cases t with
    | all => exact .left .lit
    | expr e => exact .right (hE e)
  | groupConcat g =>
    obtain ⟨⟨b, e⟩, s⟩ := g
    exact .pick 1 rfl (.call (.assoc (.seq fits_distinct (.seq (hE e) (.rOpt fun _ => .ws (.seq .lit (.seq (.enc .kw) (.seq .lit (.ws fits_string)))))))))
  | sum e => exact .pick 2 rfl (.call (fits_distinctS hE))
  | min e => exact .pick 3 rfl (.call (fits_distinctS hE))
  | max e => exact .pick 4 rfl (.call (fits_distinctS hE))
  | avg e => exact .pick 5 rfl (.call (fits_distinctS hE))
  | sample e => exact .pick 6 rfl (.call (fits_distinctS hE))

theorem fits_call1 {w : Str} (hw : w ∈ oneArgFns) {e : Expression} : Fits d (call w (Q.expr e)) (.n .builtInCall) := by
  refine .n (.mem (e := call1 w) ?_ (.call (hE e)))
  simp only [List.mem_cons, List.mem_append]
  exact .inr (.inr (.inr (.inr (.inr (.inr (.inr (.inr (.inr (.inr (.inr (.inl (.inl (List.mem_map_of_mem hw)))))))))))))

theorem fits_call2 {w : Str} (hw : w ∈ twoArgFns) {a b : Expression} : Fits d (call w (rPairS Q a b)) (.n .builtInCall) := by
  refine .n (.mem (e := call2 w) ?_ (.call (fits_pairS hE)))
  simp only [List.mem_cons, List.mem_append]
  exact .inr (.inr (.inr (.inr (.inr (.inr (.inr (.inr (.inr (.inr (.inr (.inl (.inr (List.mem_map_of_mem hw)))))))))))))
end

omit hd in
theorem fits_call0 (hC : d .calls) {w : Str} (hw : w ∈ noArgFns) : Fits d (call w rNil) (.n .builtInCall) := by
  refine .extra hC rfl (.mem (e := .k w ⬩ parens (.t .nil)) ?_ (.call fits_nil))
  simp only [List.mem_cons]
  exact .inr (.inr (.inr (.inr (List.mem_map_of_mem (f := fun w => Ebnf.k w ⬩ parens (.t .nil)) hw))))

include hE hG

theorem fits_builtInCallS {x : BuiltInCall} : Fits d (rBuiltInCallS Q x) (.n .builtInCall) := by
  have hC := hd .calls
  cases x
  case aggregate a => exact .n (.pick 0 rfl (fits_aggregateS hE))
  case bound v => exact .n (.pick 6 rfl (.call fits_var))
  case uri e =>
    rintro s ⟨k, hk, h⟩
    exact fits_call1 hE (w := k) (by revert hk; simp only [oneArgFns, List.mem_cons]; grind) s h
  case bnode o =>
    cases o with
    | some e => exact .n (.pick 7 rfl (.seq .kw (.ws (.left (.paren (hE e))))))
    | none => exact .extra hC rfl (.pick 1 rfl (.call fits_nil))
  case concat l x => exact .extra hC rfl (.pick 2 rfl (.seq .kw (.ws1 (.seq (fits_expressionListS hE) (.ws (fits_substrS hE))))))
  case strLen e x => exact .extra hC rfl (.pick 3 rfl (.seq .kw (.ws1 (.seq (fits_brackettedS hE) (.ws (fits_strReplaceS hE))))))
  case contains a b => exact .extra hC rfl (.pick 0 rfl (.call (fits_pairS hE)))
  case coalesce l => exact .n (.pick 9 rfl (.seq .kw (.ws1 (fits_expressionListS hE))))
  case «if» a b c => exact .n (.pick 10 rfl (.call (.seq (hE a) (.assoc (.seq .comma (.seq (hE b) (fits_moreS hE)))))))
  case regex r => exact .n (.pick 3 rfl (fits_regexS hE))
  case existsFunc g => exact .n (.pick 4 rfl (.n (.seq .kw (.ws1 (hG g)))))
  case notExistsFunc g => exact .n (.pick 5 rfl (.n (.seq .kw (.seq (.enc1 .kw) (hG g)))))
  all_goals first
    | exact fits_call0 hC (by decide)
    | exact fits_call1 hE (by decide)
    | exact fits_call2 hE (by decide)

theorem fits_primaryS {x : PrimaryExpression} : Fits d (rPrimaryExpressionS Q x) (.n .primaryExpression) := by
  refine .n ?_
  cases x with
  | brackettedExpression e => exact .pick 0 rfl (fits_brackettedS hE)
  | builtInCall c => exact .pick 1 rfl (fits_builtInCallS hd hE hG)
  | iriOrFunction f => exact .pick 2 rfl (fits_iriOrFunctionS hE)
  | rdfLiteral l => exact .pick 3 rfl fits_rdfLiteral
  | numericLiteral n => exact .pick 4 rfl fits_number
  | booleanLiteral b => exact .pick 5 rfl fits_boolean
  | var v => exact .pick 6 rfl fits_var

theorem fits_unaryS {x : UnaryExpression} : Fits d (rUnaryExpressionS Q x) (.n .unaryExpression) := by
  refine .n ?_
  cases x with
  | not p => exact .left (.seq .lit (.ws (fits_primaryS hd hE hG)))
  | add p => exact .right (.left (.seq .lit (.ws (fits_primaryS hd hE hG))))
  | sub p => exact .right (.right (.left (.seq .lit (.ws (fits_primaryS hd hE hG)))))
  | default p => exact .right (.right (.right (fits_primaryS hd hE hG)))

theorem fits_multS {x : MultExpression} : Fits d (rMultExpressionS Q x) ((.p c!"*" ⬩ .n .unaryExpression) ⫾ (.p c!"/" ⬩ .n .unaryExpression)) := by
  cases x with
  | mult u => exact .left (.seq .lit (.ws (fits_unaryS hd hE hG)))
  | div u => exact .right (.seq .lit (.ws (fits_unaryS hd hE hG)))

theorem fits_multiplicativeS {x : MultiplicativeExpression} : Fits d (rMultiplicativeExpressionS Q x) (.n .multiplicativeExpression) := by
  obtain ⟨u, l⟩ := x
  exact .n (.seq (fits_unaryS hd hE hG) (.ws (.sep0ws fun _ => fits_multS hd hE hG)))

theorem fits_additiveS {x : AdditiveExpression} : Fits d (rAdditiveExpressionS Q x) (.n .additiveExpression) := by
  obtain ⟨m, l⟩ := x
  refine .extra (hd .number) rfl (.seq (fits_multiplicativeS hd hE hG) (.ws (.sep0ws fun x => ?_)))
  cases x with
  | add m => exact .left (.seq .lit (.ws (fits_multiplicativeS hd hE hG)))
  | sub m => exact .right (.left (.seq .lit (.ws (fits_multiplicativeS hd hE hG))))
  | numeric v l => exact .right (.right (.seq fits_anyNumber (.ws (.sep0ws fun _ => fits_multS hd hE hG))))

theorem fits_relationalS {x : RelationalExpression} : Fits d (rRelationalExpressionS Q x) (.n .relationalExpression) := by
  obtain ⟨a, o⟩ := x
  have ha : ∀ a, Fits d (rAdditiveExpressionS Q a) (.n .numericExpression) := fun a => .n (fits_additiveS hd hE hG)
  refine .n (.seq (ha a) (.rOpt fun o => .ws ?_))
  cases o with
  | eq e => exact .pick 0 rfl (.seq .lit (.ws (ha e)))
  | ne e => exact .pick 1 rfl (.seq .lit (.ws (ha e)))
  | lt e => exact .pick 2 rfl (.seq .lit (.ws (ha e)))
  | gt e => exact .pick 3 rfl (.seq .lit (.ws (ha e)))
  | le e => exact .pick 4 rfl (.seq .lit (.ws (ha e)))
  | ge e => exact .pick 5 rfl (.seq .lit (.ws (ha e)))
  | «in» l => exact .pick 6 rfl (.seq .kw (.ws (fits_expressionListS hE)))
  | nin l => exact .pick 7 rfl (.seq .kw (.seq (.enc1 .kw) (fits_expressionListS hE)))

theorem fits_expressionS {x : Expression} : Fits d (rExpressionS Q x) (.n .expression) := by
  obtain ⟨l⟩ := x
  refine .n (.n (.sep1 (.enc .lit) fun x => ?_))
  obtain ⟨l⟩ := x
  exact .n (.sep1 (.enc .lit) fun x => .n (fits_relationalS hd hE hG))

theorem fits_constraintS {x : Constraint} : Fits d (rConstraintS Q x) (.n .constraint) := by
  cases x with
  | bracketted e => exact .n (.left (fits_brackettedS hE))
  | builtInCall c => exact .n (.right (.left (fits_builtInCallS hd hE hG)))
  | functionCall f => exact .n (.right (.right (fits_functionCallS hE)))

theorem fits_orderConditionS {x : OrderCondition} : Fits d (rOrderConditionS Q x) (.n .orderCondition) := by
  cases x with
  | order o =>
    obtain ⟨o, e⟩ := o
    refine .n (.left (.seq ?_ (.ws1 (fits_brackettedS hE))))
    cases o with
    | asc => exact .left .kw
    | desc => exact .right .kw
  | constraint c => exact .n (.right (.left (fits_constraintS hd hE hG)))
  | var v => exact .n (.right (.right fits_var))

theorem fits_groupConditionS {x : GroupCondition} : Fits d (rGroupConditionS Q x) (.n .groupCondition) := by
  cases x with
  | builtInCall c => exact .n (.left (fits_builtInCallS hd hE hG))
  | functionCall f => exact .n (.right (.left (fits_functionCallS hE)))
  | expressionAsVarOpt e => exact .n (.right (.right (.left (fits_asVarOptS hE))))
  | var v => exact .n (.right (.right (.right fits_var)))

theorem fits_solutionModifierS {x : SolutionModifier} : Fits d (rSolutionModifierS Q x) (.n .solutionModifier) := by
  obtain ⟨o, g, h, l⟩ := x
  refine .n (.seq (.rOpt fun x => ?_) (.seq (.rOpt fun x => .ws ?_) (.seq (.rOpt fun x => .ws ?_) (.rOpt fun x => .ws fits_limitOffset))))
  · obtain ⟨l⟩ := x
    exact .n (.seq .kw (.ws1 (.seq .kw (.ws1 (.sep1ws fun _ => fits_groupConditionS hd hE hG)))))
  · obtain ⟨l⟩ := x
    exact .n (.seq .kw (.ws1 (.sep1ws fun _ => .n (fits_constraintS hd hE hG))))
  · obtain ⟨l⟩ := x
    exact .n (.seq .kw (.ws1 (.seq .kw (.ws1 (.sep1ws fun _ => fits_orderConditionS hd hE hG)))))

omit hd hE in
theorem fits_whereClauseS {g : GroupGraphPattern} : Fits d (rWhereClauseS Q g) (.n .whereClause) := .n (.seq (.orNil (.tail1 .kw)) (hG g))

omit hd hG in
theorem fits_selectClauseS {x : SelectClause} : Fits d (rSelectClauseS Q x) (.n .selectClause) := by
  obtain ⟨m, v⟩ := x
  refine .n (.seq .kw (.seq (.rOpt fun m => .ws1 ?_) (.ws1 ?_)))
  · cases m with
    | distinct => exact .left .kw
    | reduced => exact .right .kw
  · cases v with
    | all => exact .right .lit
    | varOrExpressionAsVar l =>
      refine .left (.many1 fun x => ?_)
      cases x with
      | var v => exact .left fits_var
      | expressionAsVar e => exact .right (fits_asVarS hE)

theorem fits_subSelectS {x : SubSelect} : Fits d (rSubSelectS Q x) (.n .subSelect) := by
  obtain ⟨s, w, m, v⟩ := x
  exact .n (.seq (fits_selectClauseS hE) (.seq (.enc (fits_whereClauseS hG)) (.seq (fits_solutionModifierS hd hE hG)
    (.ws (.n (.rOpt fun _ => fits_values))))))

theorem fits_graphPatternNotTriplesS {x : GraphPatternNotTriples} : Fits d (rGraphPatternNotTriplesS Q x) (.n .graphPatternNotTriples) := by
  refine .n ?_
  cases x with
  | groupOrUnion l => exact .pick 0 rfl (.n (.sep1 (.enc1 .kw) hG))
  | optional g => exact .pick 1 rfl (.n (.seq .kw (.ws1 (hG g))))
  | minus g => exact .pick 2 rfl (.n (.seq .kw (.ws1 (hG g))))
  | graph g =>
    obtain ⟨v, g⟩ := g
    exact .pick 3 rfl (.n (.seq .kw (.ws1 (.seq fits_varOrIri (.ws (hG g))))))
  | service s =>
    obtain ⟨v, b, g⟩ := s
    exact .pick 4 rfl (.n (.seq .kw (.ws1 (.seq fits_silent (.seq fits_varOrIri (.ws (hG g)))))))
  | filter c => exact .pick 5 rfl (.n (.seq .kw (.ws1 (fits_constraintS hd hE hG))))
  | bind e => exact .pick 6 rfl (.n (.seq .kw (.ws1 (fits_asVarS hE))))
  | inlineData b => exact .pick 7 rfl (.n fits_values)

theorem fits_groupGraphPatternS {g : GroupGraphPattern} : Fits d (rGroupGraphPatternS Q g) (.n .groupGraphPattern) := by
  refine .n (.seq .lit (.seq (.enc ?_) .lit))
  cases g with
  | subSelect s => exact .left (fits_subSelectS hd hE hG)
  | groupGraphPatternSub s =>
    obtain ⟨t, l⟩ := s
    refine .right (.extra (hd .questionMark) rfl (.seq (.rOpt fun _ => .tail (fits_triplesBlock hd)) (.sep0ws fun x => ?_)))
    obtain ⟨g, t⟩ := x
    exact .seq (fits_graphPatternNotTriplesS hd hE hG) (.seq (.orNil (.ws .lit)) (.rOpt fun _ => .ws (fits_triplesBlock hd)))

end

theorem fits_relN (n : Nat) : (∀ e, Fits d ((relN n).expr e) (.n .expression)) ∧ ∀ g, Fits d ((relN n).ggp g) (.n .groupGraphPattern) := by
  induction n with
  | zero => exact ⟨fun _ _ h => h.elim, fun _ _ h => h.elim⟩
  | succ n ih => exact ⟨fun _ => fits_expressionS hd ih.1 ih.2, fun _ => fits_groupGraphPatternS hd ih.1 ih.2⟩

theorem fits_expression {e : Expression} : Fits d (rExpression e) (.n .expression) := .ex fun n => (fits_relN hd n).1 e
theorem fits_groupGraphPattern {g : GroupGraphPattern} : Fits d (rGroupGraphPattern g) (.n .groupGraphPattern) := .ex fun n => (fits_relN hd n).2 g

/-! ## Queries -/

theorem fits_modifier {x : SolutionModifier} : Fits d (rSolutionModifierS rel₀ x) (.n .solutionModifier) :=
  fits_solutionModifierS hd (fun _ => fits_expression hd) fun _ => fits_groupGraphPattern hd

theorem fits_where {g : GroupGraphPattern} : Fits d (rWhereClauseS rel₀ g) (.n .whereClause) := fits_whereClauseS fun _ => fits_groupGraphPattern hd

theorem fits_constructTemplate {l : List TriplesSameSubject} : Fits d (rConstructTemplate l) (.n .constructTemplate) := by
  refine .n (.seq .lit (.ws (.seq ?_ (.ws .lit))))
  cases l with
  | nil => exact .none
  | cons x l =>
    refine .some fun s h => ?_
    exact fits_dotted (R := rTriplesSameSubject) (T := eps) (x := .constructTriples) rfl (fun _ h => .extra (hd .dots) rfl h) (fun _ => fits_triplesSameSubject (hd .upperA)) .none
      (l := x :: l) s ⟨s, [], by simp, h, rfl⟩

theorem fits_query {q : SparqlQuery} : Fits d (rSparqlQuery q) (.n .selectQuery ⫾ .n .constructQuery ⫾ .n .describeQuery ⫾ .n .askQuery) := by
  cases q with
  | select q => exact .left (.n (.seq (fits_selectClauseS fun _ => fits_expression hd) (.ws1 (.seq fits_datasets (.seq (.enc (fits_where hd)) (fits_modifier hd))))))
  | construct q =>
    refine .right (.left (.n ?_))
    cases q with
    | subConstruct q =>
      exact .seq .kw (.ws1 (.left (.seq (fits_constructTemplate hd) (.ws1 (.seq fits_datasets (.ws (.seq (fits_where hd) (.ws (fits_modifier hd)))))))))
    | subTriples q =>
      exact .seq .kw (.ws1 (.right (.seq fits_datasets (.ws (.seq .kw (.ws1 (.seq .lit (.seq
        (.enc (.rOpt fun _ => fits_triplesTemplate (hd .upperA) (hd .dots))) (.seq .lit (.ws (fits_modifier hd)))))))))))
  | describe q =>
    refine .right (.right (.left (.n (.seq .kw (.seq (.enc1 ?_) (.seq fits_datasets (.ws (.seq (.rOpt fun _ => .tail (fits_where hd)) (fits_modifier hd)))))))))
    cases q.varOrIrisOrAll with
    | varIri l => exact .left (.sep1ws fun _ => fits_varOrIri)
    | all => exact .right .lit
  | ask q =>
    exact .right (.right (.right (.n (.seq .kw (.ws1 (.seq fits_datasets (.ws (.seq (fits_where hd) (.ws (fits_modifier hd))))))))))

theorem fits_statement {q : SparqlQueryStatement} : Fits d (rStatement q) (.n .query) :=
  .n (.seq fits_prologue (.ws (.seq (fits_query hd) (.n (.rOpt fun _ => .ws1 fits_values)))))

end

/-! ## Updates -/

/-- The operation is a modification. -/
def UpdateStatement.isModify : UpdateStatement → Prop
  | .modify _ => True
  | _ => False

theorem fits_fromTo {b : Bool} {x y : GraphOrDefault} :
    Fits d (rFromTo b x y) (maybe (.k c!"silent") ⬩ .n .graphOrDefault ⬩ .k c!"to" ⬩ .n .graphOrDefault) :=
  .seq fits_silent (.seq fits_graphOrDefault (.seq (.enc .kw) fits_graphOrDefault))

theorem fits_modify (hd : ∀ x, d x) {m : ModifyStatement} : Fits d (rModify m) (.n .modify) := by
  have hA := hd .upperA
  have hD := hd .dots
  have hi : ∀ q, Fits d (kw c!"insert" ⬝ Ws1 ⬝ rQuadsPattern q) (.n .insertClause) := fun q => .n (.seq .kw (.ws1 (fits_quadPattern hA hD)))
  refine .extra (hd .modify) rfl (.seq (.rOpt fun _ => .seq .kw (.tail1 fits_iri)) (.seq ?_ (.ws (.seq (.sep0ws fun _ => fits_using)
    (.seq (.enc1 .kw) (fits_groupGraphPattern hd))))))
  cases m.deleteInsert with
  | deleteInsert x i =>
    refine .left ?_
    exact Fits.regroup (.seq (.extra (hd .modify) rfl (.seq .kw (.ws1 (fits_quadPattern hA hD)))) (.rOpt fun i => .ws (hi i)))
  | insert i => exact .right (hi i)

theorem fits_updateStatement (hA : d .upperA) (hD : d .dots) {s : UpdateStatement} (hs : s.isModify → ∀ x, d x) :
    Fits d (rUpdateStatement s) (.n .update1) := by
  refine .n ?_
  cases s with
  | load s => exact .pick 0 rfl (.n (.seq .kw (.ws1 (.seq fits_silent (.seq fits_iri (.rOpt fun _ => .seq (.enc .kw) fits_graphRef))))))
  | clear s => exact .pick 1 rfl (.n (.seq .kw (.ws1 (.seq fits_silent fits_graphRefAll))))
  | drop s => exact .pick 2 rfl (.n (.seq .kw (.ws1 (.seq fits_silent fits_graphRefAll))))
  | create s => exact .pick 6 rfl (.n (.seq .kw (.ws1 (.seq fits_silent fits_graphRef))))
  | add s => exact .pick 3 rfl (.n (.seq .kw (.ws1 fits_fromTo)))
  | move s => exact .pick 4 rfl (.n (.seq .kw (.ws1 fits_fromTo)))
  | copy s => exact .pick 5 rfl (.n (.seq .kw (.ws1 fits_fromTo)))
  | insertData q => exact .pick 7 rfl (.n (.seq .kw (.ws1 (.seq .kw (.ws1 (fits_quadData hA hD))))))
  | deleteData q => exact .pick 8 rfl (.n (.seq .kw (.ws1 (.seq .kw (.ws1 (fits_quadData hA hD))))))
  | deleteWhere q => exact .pick 9 rfl (.n (.seq .kw (.ws1 (.seq .kw (.ws1 (fits_quadPattern hA hD))))))
  | modify m => exact .pick 10 rfl (fits_modify (hs trivial))

/-- The operations of a request. -/
def updateStmts : Update → List UpdateStatement
  | .mk _ s none => s.toList
  | .mk _ s (some u) => s.toList ++ updateStmts u

theorem fits_update (hA : d .upperA) (hD : d .dots) {u : Update} (hs : ∀ s ∈ updateStmts u, s.isModify → ∀ x, d x) :
    Fits d (rUpdate u) (.n .update) := by
  induction h : sizeOf u using Nat.strongRecOn generalizing u with
  | ind n ih =>
  obtain ⟨p, s, i⟩ := u
  cases s with
  | none =>
    cases i with
    | none =>
      refine .n fun s h => ?_
      have := Gen.seq (D := lax d) (fits_prologue s h) (Gen.right (a := .n .update1 ⬩ maybe (.p c!";" ⬩ .n .update)) .nothing) trivial
      rwa [List.append_nil] at this
    | some u => rintro _ ⟨⟩
  | some s =>
    cases i with
    | none =>
      refine .n (.seq fits_prologue (.ws (.some fun t h => ?_)))
      have := Gen.seq (D := lax d) (fits_updateStatement hA hD (hs s (by simp [updateStmts])) t h) (Gen.right (a := .p c!";" ⬩ .n .update) .nothing) trivial
      rwa [List.append_nil] at this
    | some u =>
      refine .n (.seq fits_prologue (.ws (.some (.seq (fits_updateStatement hA hD (hs s (by simp [updateStmts]))) (.some (.seq (.enc .lit) ?_))))))
      exact ih (sizeOf u) (by subst h; simp; omega) (fun s' hs' => hs s' (by simp [updateStmts, hs'])) rfl

end NomSparql
