import Verif.Spec.Stored
import Verif.Lemmas.Rendered
import Verif.Lemmas.Escaped
import Verif.Lemmas.Numbers

/-!
# Which characters of the text get into the tree

`Keeps c p wp`: if `wp post` holds, every answer of `p` satisfies `post a n`, where `n` is the number of times `c` stands in the consumed text outside white
space.  `wp` is computed from `p`, bottom up; for the named parsers it is `Kept c`: that number is the number of times `c` is stored in the answer.
-/

namespace NomSparql

set_option synthInstance.maxSize 4000
set_option synthInstance.maxHeartbeats 400000

/-- Characters that are in no keyword, no number and no punctuation. -/
class Quiet (c : Char) : Prop where
  out : c = '$' ∨ 128 ≤ c.toNat

/-- Characters that are not quiet. -/
class Mark (x : Char) : Prop where
  out : x.toNat < 128 ∧ x ≠ '$'
class Marks (t : Str) : Prop where
  out : ∀ x ∈ t, x.toNat < 128 ∧ x ≠ '$'
instance : Marks [] := ⟨by simp⟩
instance {x t} [h : Mark x] [h' : Marks t] : Marks (x :: t) := ⟨by simpa using ⟨h.out, h'.out⟩⟩
macro "marks! " s:str : command => do
  let cs : List (Lean.TSyntax `term) := s.getString.toList.map fun c => ⟨(Lean.Syntax.mkCharLit c).raw⟩
  let cmds ← cs.mapM fun c => `(command| instance : Mark $c := ⟨by decide⟩)
  return ⟨Lean.mkNullNode (cmds.toArray.map (·.raw))⟩
marks! "abcdefghijklmnopqrstuvwxyz0123456789_^:=!<>+-*/(){}[].,;|&@?'\"%"

theorem quiet_not {c : Char} [h : Quiet c] {s : Str} (hs : ∀ x ∈ s, x.toNat < 128 ∧ x ≠ '$') : s.count c = 0 := by
  rw [List.count_eq_zero]
  intro hc
  have := hs _ hc
  rcases h.out with rfl | h
  · exact this.2 rfl
  · omega

theorem PlainIn.suffix {c : Char} {x r : Str} (h : PlainIn c (x ++ r)) : PlainIn c r := by
  rintro a body b rfl
  exact h (x ++ a) body b (by simp)

theorem PlainIn.prefix {c : Char} {x r : Str} (h : PlainIn c (x ++ r)) : PlainIn c x := by
  rintro a body b rfl
  exact h a body (b ++ r) (by simp)

theorem ws_quiet {c : Char} [h : Quiet c] {w : Str} (hw : Ws w) : PlainIn c w → w.count c = 0 := by
  induction hw with
  | nil => simp
  | @cons a s ha _ ih =>
    intro hp
    rw [List.count_append, ih hp.suffix]
    cases ha with
    | char hc =>
      rw [quiet_not]
      intro x hx
      simp at hx hc
      subst hx
      rcases hc with rfl | rfl | rfl | rfl <;> decide
    | @comment body d hb hd =>
      have h1 : body.count c = 0 := by
        rw [List.count_eq_zero]
        intro hm
        obtain ⟨b1, b2, rfl⟩ := List.append_of_mem hm
        have := hp [] b1 (b2 ++ (d :: s)) (by simp)
        rcases this with h' | h'
        · exact (hb '\n' (by simp [h'])).1 rfl
        · exact (hb '\r' (by simp [h'])).2 rfl
      have h2 : [d].count c = 0 := by
        rw [quiet_not]
        intro x hx
        simp at hx hd
        subst hx
        rcases hd with rfl | rfl <;> decide
      have h3 : ['#'].count c = 0 := quiet_not (by simp)
      have : '#' :: (body ++ [d]) = ['#'] ++ (body ++ [d]) := rfl
      rw [this, List.count_append, List.count_append, h1, h2, h3]

class Keeps (c : Char) (p : P α) (wp : outParam ((α → Nat → Prop) → Prop)) : Prop where
  out : ∀ {post : α → Nat → Prop} {i r a}, wp post → p i = .ok r a →
    ∃ x n w, i = x ++ r ∧ x.count c = n + w ∧ (PlainIn c x → w = 0) ∧ post a n

/-- All of it is stored. -/
abbrev Kept (c : Char) [Occ α] (post : α → Nat → Prop) : Prop := ∀ a, post a (occ c a)

/-- The `$` of a variable. -/
def dollar (c : Char) : Nat := ocStr c ['$']

variable {c : Char}

section
variable {p : P α} {q : P β} {s : P γ} {t : P δ} {u : P ε} {W : (α → Nat → Prop) → Prop} {W' : (β → Nat → Prop) → Prop} {W2 : (γ → Nat → Prop) → Prop}
  {W3 : (δ → Nat → Prop) → Prop} {W4 : (ε → Nat → Prop) → Prop}

theorem Keeps.kept [Occ α] (h : Keeps c p W) (hw : W fun a n => n = occ c a) : Keeps c p (Kept c) where
  out hp e := by obtain ⟨x, n, w, h1, h2, h3, rfl⟩ := h.out hw e; exact ⟨x, _, w, h1, h2, h3, hp _⟩
/-- Nothing but marks is consumed. -/
theorem Keeps.mute [Quiet c] (h : ∀ {i r a}, p i = .ok r a → ∃ x, i = x ++ r ∧ ∀ d ∈ x, d.toNat < 128 ∧ d ≠ '$') : Keeps c p (fun post => ∀ a, post a 0) where
  out hp e := by obtain ⟨x, h1, h2⟩ := h e; exact ⟨x, 0, 0, h1, quiet_not h2, fun _ => rfl, hp _⟩

instance [h : Keeps c p W] {f : α → β} : Keeps c (map p f) (fun post => W fun a n => post (f a) n) where
  out hp e := by obtain ⟨a, h1, rfl⟩ := map_ok.mp e; exact h.out hp h1
instance [h : Keeps c p W] : Keeps c (cut p) W := ⟨fun hp e => h.out hp (cut_ok.mp e)⟩
instance [h : Keeps c p W] [h' : Keeps c q W'] : Keeps c (pair p q) (fun post => W fun a m => W' fun b n => post (a, b) (m + n)) where
  out hp e := by
    obtain ⟨j, h1, h2⟩ := pair_ok e
    obtain ⟨x, m, w, rfl, e1, p1, hm⟩ := h.out hp h1
    obtain ⟨y, n, v, rfl, e2, p2, hn⟩ := h'.out hm h2
    refine ⟨x ++ y, m + n, w + v, by simp, by rw [List.count_append]; omega, fun hpl => ?_, hn⟩
    have := p1 hpl.prefix
    have := p2 hpl.suffix
    omega
instance [Keeps c p W] [Keeps c q W'] : Keeps c (preceded p q) (fun post => W fun _ m => W' fun b n => post b (m + n)) := by
  unfold preceded; infer_instance
instance [Keeps c p W] [Keeps c q W'] : Keeps c (terminated p q) (fun post => W fun a m => W' fun _ n => post a (m + n)) := by
  unfold terminated; infer_instance
instance [Keeps c p W] [Keeps c q W'] [Keeps c s W2] : Keeps c (tuple3 p q s) (fun post => W fun a m => W' fun b n => W2 fun c k => post (a, b, c) (m + (n + k))) := by
  unfold tuple3; infer_instance
instance [Keeps c p W] [Keeps c q W'] [Keeps c s W2] [Keeps c t W3] :
    Keeps c (tuple4 p q s t) (fun post => W fun a m => W' fun b n => W2 fun c k => W3 fun d l => post (a, b, c, d) (m + (n + (k + l)))) := by
  unfold tuple4; infer_instance
instance [Keeps c p W] [Keeps c q W'] [Keeps c s W2] [Keeps c t W3] [Keeps c u W4] :
    Keeps c (tuple5 p q s t u) (fun post => W fun a m => W' fun b n => W2 fun c k => W3 fun d l => W4 fun e o => post (a, b, c, d, e) (m + (n + (k + (l + o))))) := by
  unfold tuple5; infer_instance
instance [Keeps c p W] [Keeps c q W'] [Keeps c s W2] : Keeps c (delimited p q s) (fun post => W fun _ m => W' fun b n => W2 fun _ k => post b (m + (n + k))) := by
  unfold delimited; infer_instance
instance [Keeps c p W] [Keeps c q W'] [Keeps c s W2] : Keeps c (separatedPair p s q) (fun post => W fun a m => W2 fun _ k => W' fun b n => post (a, b) (m + (k + n))) := by
  unfold separatedPair; infer_instance
instance [h : Keeps c p W] : Keeps c (opt p) (fun post => post none 0 ∧ W fun a n => post (some a) n) where
  out hp e := by
    rcases opt_ok.mp e with ⟨a, rfl, h1⟩ | ⟨rfl, rfl, _⟩
    · exact h.out hp.2 h1
    · exact ⟨[], 0, 0, rfl, rfl, fun _ => rfl, hp.1⟩
instance [h : Keeps c p W] : Keeps c (alt [p]) W := ⟨fun hp e => h.out hp e⟩
instance {p' : P α} {ps} {V : (α → Nat → Prop) → Prop} [h : Keeps c p W] [h' : Keeps c (alt (p' :: ps)) V] : Keeps c (alt (p :: p' :: ps)) (fun post => W post ∧ V post) where
  out hp e := by
    rcases alt_two_ok.mp e with e' | ⟨_, e'⟩
    · exact h.out hp.1 e'
    · exact h'.out hp.2 e'
instance [Good p] : Keeps c (recognize p) (fun post => ∀ s : Str, post s (ocStr c s)) where
  out hp e := by
    obtain ⟨h1, _⟩ := recognize_ok_iff.mp e
    exact ⟨_, _, 0, h1, rfl, fun _ => rfl, hp _⟩
instance {f : Char → Bool} : Keeps c (takeWhile f) (fun post => ∀ s : Str, post s (ocStr c s)) where
  out hp e := ⟨_, _, 0, (takeWhile_ok.mp e).1, rfl, fun _ => rfl, hp _⟩
instance [Quiet c] : Keeps c sp (fun post => ∀ s, post s 0) where
  out hp e := by
    obtain ⟨rfl, h2, _⟩ := sp_ok_iff.mp e
    exact ⟨_, 0, _, rfl, (Nat.zero_add _).symm, fun h => ws_quiet h2 h, hp _⟩
instance [Quiet c] : Keeps c sp1 (fun post => ∀ s, post s 0) where
  out hp e := by
    obtain ⟨rfl, h2, _⟩ := sp1_ok_iff.mp e
    exact ⟨_, 0, _, rfl, (Nat.zero_add _).symm, fun h => ws_quiet h2.1 h, hp _⟩
instance [Quiet c] {x} [h : Mark x] : Keeps c (char x) (fun post => ∀ a, post a 0) :=
  .mute fun e => by obtain ⟨rfl, rfl⟩ := char_ok.mp e; exact ⟨[_], rfl, by simpa using h.out⟩
instance : Keeps c (char '$') (fun post => ∀ a, post a (dollar c)) where
  out hp e := by obtain ⟨rfl, rfl⟩ := char_ok.mp e; exact ⟨['$'], _, 0, rfl, rfl, fun _ => rfl, hp _⟩
instance [Quiet c] {t} [h : Marks t] : Keeps c (tag t) (fun post => ∀ a, post a 0) :=
  .mute fun e => by obtain ⟨rfl, rfl⟩ := tag_ok.mp e; exact ⟨_, rfl, h.out⟩
theorem caseVariant_marks {t a : Str} (h : CaseVariant t a) (ht : ∀ x ∈ t, x.toNat < 128 ∧ x ≠ '$') : ∀ x ∈ a, x.toNat < 128 ∧ x ≠ '$' := by
  induction h with
  | nil => exact ht
  | @cons x y t s hs _ ih =>
    intro z hz
    rcases List.mem_cons.mp hz with rfl | hz
    · have := ht x (by simp)
      rcases hs with rfl | ⟨h1, h2, h3⟩
      · exact this
      · refine ⟨by omega, ?_⟩
        rintro rfl
        have : '$'.toNat = 36 := rfl
        omega
    · exact ih (fun x hx => ht x (by simp [hx])) z hz
instance [Quiet c] {t} [KwTag t] [h : Marks t] : Keeps c (tagNoCase t) (fun post => ∀ a, post a 0) :=
  .mute fun e => by obtain ⟨rfl, h2⟩ := tagNoCase_ok_iff.mp e; exact ⟨_, rfl, caseVariant_marks h2 h.out⟩
instance [Quiet c] {t} [KwTag t] [h : Marks t] : Keeps c (tagNoCaseStreaming t) (fun post => ∀ a, post a 0) :=
  .mute fun e => by obtain ⟨rfl, h2⟩ := tagNoCaseStreaming_ok_iff.mp e; exact ⟨_, rfl, caseVariant_marks h2 h.out⟩

theorem manyRun_keeps [Occ α] (h : Keeps c p W) (hw : W fun a n => n = occ c a) {i r as} (hr : ManyRun p i r as) :
    ∃ x w, i = x ++ r ∧ x.count c = ocList (occ c) as + w ∧ (PlainIn c x → w = 0) := by
  induction hr with
  | stop _ => exact ⟨[], 0, rfl, rfl, fun _ => rfl⟩
  | step e _ _ ih =>
    obtain ⟨x, m, w, rfl, e1, p1, rfl⟩ := h.out hw e
    obtain ⟨y, v, rfl, e2, p2⟩ := ih
    refine ⟨x ++ y, w + v, by simp, by rw [List.count_append, ocList]; omega, fun hpl => ?_⟩
    have := p1 hpl.prefix
    have := p2 hpl.suffix
    omega
theorem sepRun_keeps [Occ α] (h : Keeps c p W) (hq : Keeps c q W') (hw : W' fun _ k => W fun a n => k + n = occ c a) {i r as} (hr : SepRun q p i r as) :
    ∃ x w, i = x ++ r ∧ x.count c = ocList (occ c) as + w ∧ (PlainIn c x → w = 0) := by
  induction hr with
  | stopSep _ => exact ⟨[], 0, rfl, rfl, fun _ => rfl⟩
  | stopElem _ _ _ => exact ⟨[], 0, rfl, rfl, fun _ => rfl⟩
  | @step i j l r s a as e' _ e _ _ ih =>
    obtain ⟨z, k, o, rfl, e0, p0, h0⟩ := hq.out hw e'
    obtain ⟨x, m, w, rfl, e1, p1, h1⟩ := h.out h0 e
    obtain ⟨y, v, rfl, e2, p2⟩ := ih
    refine ⟨z ++ (x ++ y), o + (w + v), by simp, by rw [List.count_append, List.count_append, ocList]; omega, fun hpl => ?_⟩
    have := p0 hpl.prefix
    have := p1 hpl.suffix.prefix
    have := p2 hpl.suffix.suffix
    omega
instance [Occ α] [Good p] [h : Keeps c p W] : Keeps c (many0 p) (fun post => (W fun a n => n = occ c a) ∧ ∀ l, post l (ocList (occ c) l)) where
  out hp e := by
    obtain ⟨x, w, e1, e2, e3⟩ := manyRun_keeps h hp.1 (many0_ok.mp e)
    exact ⟨x, _, w, e1, e2, e3, hp.2 _⟩
instance [Occ α] [Good p] [h : Keeps c p W] : Keeps c (many1 p) (fun post => (W fun a n => n = occ c a) ∧ ∀ l, post l (ocList (occ c) l)) where
  out hp e := by
    obtain ⟨_, _, _, rfl, h1, h2⟩ := many1_ok.mp e
    obtain ⟨x, m, w, rfl, e1, p1, rfl⟩ := h.out hp.1 h1
    obtain ⟨y, v, rfl, e2, p2⟩ := manyRun_keeps h hp.1 h2
    refine ⟨x ++ y, _, w + v, by simp, ?_, fun hpl => ?_, hp.2 _⟩
    · rw [List.count_append, ocList]; omega
    have := p1 hpl.prefix
    have := p2 hpl.suffix
    omega
instance [Occ α] [Good p] [Good q] [hq : Keeps c q W'] [h : Keeps c p W] :
    Keeps c (separatedNonemptyList q p) (fun post => (W' fun _ k => W fun a n => k + n = occ c a) ∧ (W fun a n => n = occ c a) ∧ ∀ l, post l (ocList (occ c) l)) where
  out hp e := by
    obtain ⟨_, _, _, rfl, h1, _, h2⟩ := separatedNonemptyList_ok.mp e
    obtain ⟨x, m, w, rfl, e1, p1, rfl⟩ := h.out hp.2.1 h1
    obtain ⟨y, v, rfl, e2, p2⟩ := sepRun_keeps h hq hp.1 h2
    refine ⟨x ++ y, _, w + v, by simp, ?_, fun hpl => ?_, hp.2.2 _⟩
    · rw [List.count_append, ocList]; omega
    have := p1 hpl.prefix
    have := p2 hpl.suffix
    omega
instance [Occ α] [Good p] [Good q] [hq : Keeps c q W'] [h : Keeps c p W] :
    Keeps c (separatedList q p) (fun post => (W' fun _ k => W fun a n => k + n = occ c a) ∧ (W fun a n => n = occ c a) ∧ ∀ l, post l (ocList (occ c) l)) where
  out hp e := by
    rcases separatedList_ok.mp e with ⟨rfl, rfl, _⟩ | ⟨_, _, _, rfl, h1, _, h2⟩
    · exact ⟨[], _, 0, rfl, rfl, fun _ => rfl, hp.2.2 _⟩
    obtain ⟨x, m, w, rfl, e1, p1, rfl⟩ := h.out hp.2.1 h1
    obtain ⟨y, v, rfl, e2, p2⟩ := sepRun_keeps h hq hp.1 h2
    refine ⟨x ++ y, _, w + v, by simp, ?_, fun hpl => ?_, hp.2.2 _⟩
    · rw [List.count_append, ocList]; omega
    have := p1 hpl.prefix
    have := p2 hpl.suffix
    omega
instance [Quiet c] [Keeps c p W] : Keeps c (spEnc p) (fun post => Str → W fun b n => Str → post b (0 + (n + 0))) := by unfold spEnc; infer_instance
instance [Quiet c] [Keeps c p W] : Keeps c (spEnc1 p) (fun post => Str → W fun b n => Str → post b (0 + (n + 0))) := by unfold spEnc1; infer_instance
instance [Quiet c] [Keeps c p W] [Keeps c q W'] : Keeps c (spSep p q) (fun post => W fun a m => Str → W' fun b n => post (a, b) (m + (0 + n))) := by
  unfold spSep; infer_instance
instance [Quiet c] [Keeps c p W] [Keeps c q W'] : Keeps c (spSep1 p q) (fun post => W fun a m => Str → W' fun b n => post (a, b) (m + (0 + n))) := by
  unfold spSep1; infer_instance
instance [Quiet c] [Keeps c p W] : Keeps c (bracketted p) (fun post => Char → W fun b n => Char → post b (0 + (n + 0))) := by
  unfold bracketted; infer_instance
instance {t} [Quiet c] [KwTag t] [Marks t] [Keeps c p W] : Keeps c (precededTag1 t p) (fun post => Str → Str → W fun b n => post b (0 + 0 + n)) := by
  unfold precededTag1; infer_instance
instance {t} [Quiet c] [KwTag t] [Marks t] [Keeps c p W] : Keeps c (precededTag t p) (fun post => Str → Str → W fun b n => post b (0 + 0 + n)) := by
  unfold precededTag; infer_instance
instance {t} [Quiet c] [KwTag t] [Marks t] [Keeps c p W] : Keeps c (precededBracketted t p) (fun post => Str → Str → Char → W fun b n => Char → post b (0 + 0 + (0 + (n + 0)))) := by
  unfold precededBracketted; infer_instance
end

theorem ocPathMod_zero (x : PathMod) : ocPathMod c x = 0 := by cases x <;> rfl
theorem ocSelectModifier_zero (x : SelectModifier) : ocSelectModifier c x = 0 := by cases x <;> rfl
theorem ocOrder_zero (x : Order) : ocOrder c x = 0 := by cases x <;> rfl
theorem ocSign_zero (x : Sign) : ocSign c x = 0 := by cases x <;> rfl
theorem ocDecimal_zero (x : Decimal) : ocDecimal c x = 0 := rfl
theorem ocNumericLiteral_zero (x : NumericLiteral) : ocNumericLiteral c x = 0 := by cases x <;> rfl
theorem ocLimitOffsetClause_zero (x : LimitOffsetClause) : ocLimitOffsetClause c x = 0 := by cases x <;> rfl
theorem ocList_zero (l : List α) : ocList (fun _ => 0) l = 0 := by
  induction l with
  | nil => rfl
  | cons a l ih => rw [ocList, ih]
theorem ocOption_zero (l : Option α) : ocOption (fun _ => 0) l = 0 := by cases l <;> rfl
theorem ocStr_dollar (s : Str) : ocStr c ('$' :: s) = dollar c + ocStr c s := by unfold dollar ocStr; rw [← List.count_append]; rfl

/-- Takes a condition apart and counts. -/
macro "tally" : tactic => `(tactic|
  ((repeat' first | apply And.intro | intro _) <;> first | rfl | omega | (simp only [occ, ocList_zero, ocOption_zero, ocStr_dollar, ocList, ocOption, ocVar, ocPrefixedName, ocIri, ocDefaultOrNamedIri, ocRdfLiteralDescriptor, ocRdfLiteral, ocStringLiteral, ocDecimal_zero, ocNumericLiteral_zero, ocBlankNode, ocGraphTerm, ocVarOrIri, ocVarOrTerm, ocVarOrIrisOrAll, ocVerb, ocSign_zero, ocPrefixDecl, ocBaseOrPrefixDecl, ocPrologue, ocDataBlockValue, ocInlineDataOneVar, ocInlineDataFull, ocDataBlock, ocGraphNode, ocListGraphNode_eq, ocListVerbList_eq, ocTriplesNode, ocPropertyList, ocVerbList, ocTriplesSameSubject, ocQuadsNotTriples, ocQuadsEntry, ocQuads, ocIriOrA, ocIriOrAOrCaret, ocPathMod_zero, ocPathAlternative, ocListPathSequence_eq, ocListPathEltOrInverse_eq, ocPathSequence, ocPathEltOrInverse, ocPathElt, ocPathPrimary, ocVerbPathOrSimple, ocPropertyListPathEntry, ocGraphNodePath, ocListGraphNodePath_eq, ocTriplesNodePath, ocPropertyListPath, ocTriplesSameSubjectPath, ocTriplesBlock, ocOrder_zero, ocLimitOffsetClause_zero, ocSelectModifier_zero, ocExpression, ocListConditionalAndExpression_eq, ocListRelationalExpression_eq, ocOptionOpExpression_eq, ocListAddExpression_eq, ocListMultExpression_eq, ocListExpression_eq, ocOptionArgList_eq, ocOptionExpression_eq, ocListGraphPatternAndTriples_eq, ocListGroupGraphPattern_eq, ocListVarOrExpressionAsVar_eq, ocOptionOrderClause_eq, ocOptionGroupClause_eq, ocOptionHavingClause_eq, ocListConstraint_eq, ocListOrderCondition_eq, ocListGroupCondition_eq, ocConditionalAndExpression, ocRelationalExpression, ocOpExpression, ocAdditiveExpression, ocAddExpression, ocMultiplicativeExpression, ocMultExpression, ocUnaryExpression, ocPrimaryExpression, ocExpressionList, ocIriOrFunction, ocArgList, ocDistinctExpression, ocExpressionAsVar, ocExpressionAsVarOpt, ocRegexExpression, ocStrReplaceExpression, ocConstraint, ocFunctionCall, ocBuiltInCall, ocAggregate, ocCount, ocCountTarget, ocGroupConcat, ocGroupGraphPattern, ocGroupGraphPatternSub, ocGraphPatternAndTriples, ocGraphPatternNotTriples, ocGraphGraphPattern, ocServiceGraphPattern, ocSubSelect, ocSelectClause, ocSelectVars, ocVarOrExpressionAsVar, ocSolutionModifier, ocHavingClause, ocOrderClause, ocOrderCondition, ocOrderExpression, ocGroupClause, ocGroupCondition, ocSelectQuery, ocAskQuery, ocDescribeQuery, ocSubConstruct, ocSubTriples, ocConstructQuery, ocSparqlQuery, ocSparqlQueryStatement, ocGraphOrDefault, ocGraphRefAll, ocLoadStatement, ocClearStatement, ocDropStatement, ocCreateStatement, ocAddStatement, ocMoveStatement, ocCopyStatement, ocDeleteInsert, ocModifyStatement, ocUpdateStatement, ocUpdate] at * <;> omega)))

macro "kept! " n:ident : command => `(instance [Quiet c] : Keeps c $n (Kept c) := by unfold $n; exact Keeps.kept inferInstance (by tally))

/-! ## src/terminals.rs -/
theorem escaped_keeps {a b} (ha : '\\' ∈ a) : Keeps c (escaped (noneOf a) '\\' (oneOf b)) (fun post => ∀ s : Str, post s (ocStr c s)) where
  out hp e := ⟨_, _, 0, ((escaped_ok ha).mp e).1, rfl, fun _ => rfl, hp _⟩
instance {d b} : Keeps c (escaped (noneOf [d, '\\']) '\\' (oneOf b)) (fun post => ∀ s : Str, post s (ocStr c s)) := escaped_keeps (by simp)
macro "mute! " n:ident : command => `(instance [Quiet c] : Keeps c $n (fun post => ∀ a, post a 0) := ⟨fun {post i r a} hp e => by
  unfold $n at e
  exact Keeps.out (c := c) (post := post) (by (repeat' first | apply And.intro | intro _) <;> exact hp _) e⟩)
kept! stringLiteral
kept! iriRef
kept! languageTag
kept! pnLocal
kept! pnPrefix
kept! pnameNs
kept! varName
kept! pnameLn
instance [Quiet c] : Keeps c anon (fun post => ∀ s, post s 0) := ⟨fun {post i r a} hp e => by
  unfold anon at e
  exact Keeps.out (c := c) (post := post) (by (repeat' intro _); exact hp _) e⟩
instance [Quiet c] : Keeps c nil (fun post => ∀ s, post s 0) := ⟨fun {post i r a} hp e => by
  unfold nil at e
  exact Keeps.out (c := c) (post := post) (by (repeat' intro _); exact hp _) e⟩
kept! prefixedName
kept! iri
kept! namedIri
kept! defaultOrNamedIri
kept! rdfLiteral
/-! ## Prologue -/
kept! baseDecl
kept! prefixDecl
kept! prologue
/-! ## Numbers -/
theorem digit_mark {d : Char} (h : AsciiDigit d) : d.toNat < 128 ∧ d ≠ '$' := by
  unfold AsciiDigit at h
  refine ⟨by omega, ?_⟩
  rintro rfl
  revert h; decide
theorem sign_marks {s n} (h : SignText s n) : ∀ d ∈ s, d.toNat < 128 ∧ d ≠ '$' := by
  cases h <;> simp
theorem decVal_marks {s n} (h : DecVal s n) : ∀ d ∈ s, d.toNat < 128 ∧ d ≠ '$' := by
  induction h with
  | digit h => intro d hd; rw [List.mem_singleton.mp hd]; exact digit_mark h
  | snoc _ h ih =>
    intro d hd
    rcases List.mem_append.mp hd with hd | hd
    · exact ih d hd
    · rw [List.mem_singleton.mp hd]; exact digit_mark h
theorem intText_marks {s v} (h : IntText s v) : ∀ d ∈ s, d.toNat < 128 ∧ d ≠ '$' := by
  obtain ⟨sg, neg, ds, n, rfl, h1, h2, _⟩ := h
  intro d hd
  rcases List.mem_append.mp hd with hd | hd
  · exact sign_marks h1 d hd
  · exact decVal_marks h2 d hd
theorem mantText_marks {s v} (h : MantText s v) : ∀ d ∈ s, d.toNat < 128 ∧ d ≠ '$' := by
  obtain ⟨sg, neg, w, f, h1, h2, _, h4, _⟩ := h
  intro d hd
  have key : d ∈ sg ∨ d ∈ w ++ f ∨ d = '.' := by
    rcases h2 with ⟨rfl, _⟩ | rfl <;> grind
  rcases key with h | h | rfl
  · exact sign_marks h1 d h
  · exact digit_mark (h4 d h)
  · decide
instance [Quiet c] : Keeps c sparqlInt (fun post => ∀ a, post a 0) :=
  .mute fun e => by obtain ⟨s, h1, h2, _⟩ := sparqlInt_ok.mp e; exact ⟨s, h1, intText_marks h2⟩
instance [Quiet c] : Keeps c sparqlDecimal (fun post => ∀ a, post a 0) :=
  .mute fun e => by obtain ⟨s, h1, h2, _⟩ := sparqlDecimal_ok.mp e; exact ⟨s, h1, mantText_marks h2⟩
instance [Quiet c] : Keeps c exponent (fun post => ∀ a, post a 0) :=
  .mute fun e => by
    obtain ⟨s, h1, ⟨d, t, rfl, hd, h2⟩, _⟩ := exponent_ok.mp e
    refine ⟨_, h1, fun x hx => ?_⟩
    rcases List.mem_cons.mp hx with rfl | hx
    · rcases hd with rfl | rfl <;> decide
    · exact intText_marks h2 x hx
instance [Quiet c] : Keeps c sparqlDouble (fun post => ∀ a, post a 0) := ⟨fun {post i r a} hp e => by
  unfold sparqlDouble at e
  exact Keeps.out (c := c) (post := post) (by (repeat' first | apply And.intro | intro _) <;> exact hp _) e⟩
instance [Quiet c] : Keeps c boolean (fun post => ∀ a, post a 0) := ⟨fun {post i r a} hp e => by
  unfold boolean at e
  exact Keeps.out (c := c) (post := post) (by (repeat' first | apply And.intro | intro _) <;> exact hp _) e⟩
theorem parseU64_marks {s n} (h : parseU64 s = some n) : ∀ d ∈ s, d.toNat < 128 ∧ d ≠ '$' := by
  unfold parseU64 at h
  split at h
  · rename_i h'
    intro d hd
    have := List.all_eq_true.mp h'.2 d hd
    exact digit_mark (isDecDigit_iff.mp this)
  · cases h
theorem intClause_keeps [Quiet c] {t} [KwTag t] [ht : Marks t] : Keeps c (intClause (tagNoCase t)) (fun post => ∀ a, post a 0) where
  out hp e := by
    unfold intClause at e
    obtain ⟨s, e1, e2⟩ := mapRes_ok.mp e
    rw [preceded_ok] at e1
    obtain ⟨j, b, e3, e4⟩ := e1
    obtain ⟨x, n, w, rfl, h1, h2, rfl⟩ := Keeps.out (c := c) (post := fun _ n => n = 0) (by intro _ _; rfl) e3
    obtain ⟨rfl, _⟩ := takeWhile1_ok.mp e4
    refine ⟨x ++ s, 0, w, by simp, ?_, fun h => h2 h.prefix, hp _⟩
    rw [List.count_append, quiet_not (parseU64_marks e2)]
    omega
instance [Quiet c] : Keeps c limitClause (fun post => ∀ a, post a 0) := intClause_keeps
instance [Quiet c] : Keeps c offsetClause (fun post => ∀ a, post a 0) := intClause_keeps
instance [Quiet c] : Keeps c pathMod (fun post => ∀ a, post a 0) :=
  .mute fun {i r a} e => by
    unfold pathMod at e
    split at e
    · cases e
    split at e
    · cases e
    split at e
    · rename_i a' r' h1 _ m h2
      cases e
      refine ⟨a', ?_, ?_⟩
      · exact takeBytes_eq h1
      · unfold PathMod.fromStr at h2
        split at h2
        · rename_i h; subst h; decide
        split at h2
        · rename_i h; subst h; decide
        split at h2
        · rename_i h; subst h; decide
        cases h2
    · cases e
kept! numericLiteral
kept! var
kept! varOrIri
kept! verb
kept! varOrIrisOrAll
kept! blankNode
kept! graphTerm
kept! varOrTerm
kept! graphRef
kept! graphOrDefault
kept! graphRefAll
kept! dataSetClause
kept! datablockValue
kept! inlineDataFull
kept! inlineDataOneVar
kept! datablock
kept! inlineData
kept! valuesClause
kept! usingClause
kept! limitOffsetClause
section
variable {gn : P GraphNode} [Quiet c] [Good gn] [Keeps c gn (Kept c)]
instance : Keeps c (collectionS gn) (Kept c) := by unfold collectionS; exact Keeps.kept inferInstance (by tally)
instance : Keeps c (objectListS gn) (Kept c) := by unfold objectListS; exact Keeps.kept inferInstance (by tally)
instance : Keeps c (propertyListNotEmptyS gn) (Kept c) := by unfold propertyListNotEmptyS; exact Keeps.kept inferInstance (by tally)
instance : Keeps c (blankNodePropertyListS gn) (Kept c) := by unfold blankNodePropertyListS; exact Keeps.kept inferInstance (by tally)
instance : Keeps c (triplesNodeS gn) (Kept c) := by unfold triplesNodeS; exact Keeps.kept inferInstance (by tally)
instance : Keeps c (graphNodeStep gn) (Kept c) := by unfold graphNodeStep; exact Keeps.kept inferInstance (by tally)
end
theorem keeps_fuel {W : (α → Nat → Prop) → Prop} : Keeps c (fun _ => .err .fuel : P α) W := ⟨fun _ h => by cases h⟩
instance graphNodeF_keeps [Quiet c] : ∀ n, Keeps c (graphNodeF n) (Kept c)
  | 0 => keeps_fuel
  | n + 1 => by have := graphNodeF_keeps n; unfold graphNodeF; infer_instance
instance [Quiet c] : Keeps c graphNode (Kept c) := ⟨fun hp h => (graphNodeF_keeps _).out hp h⟩
kept! objectList
kept! propertyListNotEmpty
kept! triplesNode
instance [Quiet c] : Keeps c propertyList (Kept c) := by unfold propertyList propertyListS; exact Keeps.kept inferInstance (by tally)
kept! triplesSameSubject
kept! triplesTemplate
kept! quadsNotTriples
kept! quadsEntry
kept! quads
kept! quadsPattern
kept! quadData
kept! insertClause
kept! deleteClause
/-! ## Paths -/
kept! iriOrA
kept! iriOrAOrCaret
kept! pathOneInPropertySet
kept! pathNegatedPropertySet
section
variable {pa : P PathAlternative} [Quiet c] [Good pa] [Keeps c pa (Kept c)]
instance : Keeps c (pathPrimaryS pa) (Kept c) := by unfold pathPrimaryS; exact Keeps.kept inferInstance (by tally)
instance : Keeps c (pathEltS pa) (Kept c) := by unfold pathEltS; exact Keeps.kept inferInstance (by tally)
instance : Keeps c (pathEltOrInverseS pa) (Kept c) := by unfold pathEltOrInverseS; exact Keeps.kept inferInstance (by tally)
instance : Keeps c (pathSequenceS pa) (Kept c) := by unfold pathSequenceS; exact Keeps.kept inferInstance (by tally)
instance : Keeps c (pathAlternativeStep pa) (Kept c) := by unfold pathAlternativeStep; exact Keeps.kept inferInstance (by tally)
end
instance pathAlternativeF_keeps [Quiet c] : ∀ n, Keeps c (pathAlternativeF n) (Kept c)
  | 0 => keeps_fuel
  | n + 1 => by have := pathAlternativeF_keeps n; unfold pathAlternativeF; infer_instance
instance [Quiet c] : Keeps c pathAlternative (Kept c) := ⟨fun hp h => (pathAlternativeF_keeps _).out hp h⟩
kept! verbPathOrSimple
kept! propertyListPathEntry
section
variable {gn : P GraphNodePath} [Quiet c] [Good gn] [Keeps c gn (Kept c)]
instance : Keeps c (objectListPathS gn) (Kept c) := by unfold objectListPathS; exact Keeps.kept inferInstance (by tally)
instance : Keeps c (propertyListPathNotEmptyS gn) (Kept c) := by unfold propertyListPathNotEmptyS; exact Keeps.kept inferInstance (by tally)
instance : Keeps c (blankNodePropertyListPathS gn) (Kept c) := by unfold blankNodePropertyListPathS; exact Keeps.kept inferInstance (by tally)
instance : Keeps c (triplesNodePathS gn) (Kept c) := by unfold triplesNodePathS; exact Keeps.kept inferInstance (by tally)
instance : Keeps c (graphNodePathStep gn) (Kept c) := by unfold graphNodePathStep; exact Keeps.kept inferInstance (by tally)
end
instance graphNodePathF_keeps [Quiet c] : ∀ n, Keeps c (graphNodePathF n) (Kept c)
  | 0 => keeps_fuel
  | n + 1 => by have := graphNodePathF_keeps n; unfold graphNodePathF; infer_instance
instance [Quiet c] : Keeps c graphNodePath (Kept c) := ⟨fun hp h => (graphNodePathF_keeps _).out hp h⟩
kept! propertyListPathNotEmpty
kept! triplesNodePath
instance [Quiet c] : Keeps c propertyListPath (Kept c) := by unfold propertyListPath propertyListPathS; exact Keeps.kept inferInstance (by tally)
kept! triplesSameSubjectPath
kept! triplesBlock
/-! ## The expression / graph pattern nest -/
mute! comma
mute! distinct
mute! silent
mute! optSilent
mute! selectModifier
mute! optDistinct
mute! separatorEq
mute! order
class KRec (c : Char) (R : Rec) : Prop where
  expr : Keeps c R.expr (Kept c)
  ggp : Keeps c R.ggp (Kept c)
instance {R : Rec} [KRec c R] : Keeps c R.expr (Kept c) := KRec.expr
instance {R : Rec} [KRec c R] : Keeps c R.ggp (Kept c) := KRec.ggp
section
variable {R : Rec} [RecGood R] [Quiet c] [KRec c R]
instance : Keeps c (exprPairS R) (Kept c) := by unfold exprPairS; exact Keeps.kept inferInstance (by tally)
instance : Keeps c (brackettedExpr3S R) (Kept c) := by unfold brackettedExpr3S bracketted3; exact Keeps.kept inferInstance (by tally)
instance : Keeps c (expressionAsVarOptS R) (Kept c) := by unfold expressionAsVarOptS; exact Keeps.kept inferInstance (by tally)
instance : Keeps c (expressionAsVarS R) (Kept c) := by unfold expressionAsVarS; exact Keeps.kept inferInstance (by tally)
instance : Keeps c (expressionListS R) (Kept c) := by unfold expressionListS; exact Keeps.kept inferInstance (by tally)
instance : Keeps c (brackettedExpressionS R) (Kept c) := by unfold brackettedExpressionS; exact Keeps.kept inferInstance (by tally)
instance : Keeps c (bindS R) (Kept c) := by unfold bindS; exact Keeps.kept inferInstance (by tally)
instance : Keeps c (regexExpressionS R) (Kept c) := by unfold regexExpressionS; exact Keeps.kept inferInstance (by tally)
instance : Keeps c (substringExpressionS R) (Kept c) := by unfold substringExpressionS; exact Keeps.kept inferInstance (by tally)
instance : Keeps c (strReplaceExpressionS R) (Kept c) := by unfold strReplaceExpressionS; exact Keeps.kept inferInstance (by tally)
instance : Keeps c (argListS R) (Kept c) := by unfold argListS; exact Keeps.kept inferInstance (by tally)
instance : Keeps c (functionCallS R) (Kept c) := by unfold functionCallS; exact Keeps.kept inferInstance (by tally)
instance : Keeps c (iriOrFunS R) (Kept c) := by unfold iriOrFunS; exact Keeps.kept inferInstance (by tally)
instance : Keeps c (distinctExpressionS R) (Kept c) := by unfold distinctExpressionS; exact Keeps.kept inferInstance (by tally)
instance : Keeps c (countTargetS R) (Kept c) := by unfold countTargetS; exact Keeps.kept inferInstance (by tally)
instance : Keeps c (countS R) (Kept c) := by unfold countS; exact Keeps.kept inferInstance (by tally)
instance : Keeps c (groupConcatS R) (Kept c) := by unfold groupConcatS; exact Keeps.kept inferInstance (by tally)
instance : Keeps c (aggregateS R) (Kept c) := by unfold aggregateS; exact Keeps.kept inferInstance (by tally)
instance : Keeps c (builtInCall1S R) (Kept c) := by unfold builtInCall1S; exact Keeps.kept inferInstance (by tally)
instance : Keeps c (builtInCall2S R) (Kept c) := by unfold builtInCall2S; exact Keeps.kept inferInstance (by tally)
instance : Keeps c (builtInCallS R) (Kept c) := by unfold builtInCallS; exact Keeps.kept inferInstance (by tally)
instance : Keeps c (primaryExpressionS R) (Kept c) := by unfold primaryExpressionS; exact Keeps.kept inferInstance (by tally)
instance : Keeps c (unaryExpressionS R) (Kept c) := by unfold unaryExpressionS; exact Keeps.kept inferInstance (by tally)
instance : Keeps c (multExpressionS R) (Kept c) := by unfold multExpressionS; exact Keeps.kept inferInstance (by tally)
instance : Keeps c (multiplicativeExpressionS R) (Kept c) := by unfold multiplicativeExpressionS; exact Keeps.kept inferInstance (by tally)
instance : Keeps c (addExpressionS R) (Kept c) := by unfold addExpressionS; exact Keeps.kept inferInstance (by tally)
instance : Keeps c (additiveExpressionS R) (Kept c) := by unfold additiveExpressionS; exact Keeps.kept inferInstance (by tally)
instance : Keeps c (opExpressionS R) (Kept c) := by unfold opExpressionS; exact Keeps.kept inferInstance (by tally)
instance : Keeps c (relationalExpressionS R) (Kept c) := by unfold relationalExpressionS; exact Keeps.kept inferInstance (by tally)
instance : Keeps c (conditionalAndExpressionS R) (Kept c) := by unfold conditionalAndExpressionS; exact Keeps.kept inferInstance (by tally)
instance : Keeps c (expressionStep R) (Kept c) := by unfold expressionStep; exact Keeps.kept inferInstance (by tally)
instance : Keeps c (constraintS R) (Kept c) := by unfold constraintS; exact Keeps.kept inferInstance (by tally)
instance : Keeps c (filterS R) (Kept c) := by unfold filterS; exact Keeps.kept inferInstance (by tally)
instance : Keeps c (orderExpressionS R) (Kept c) := by unfold orderExpressionS; exact Keeps.kept inferInstance (by tally)
instance : Keeps c (orderConditionS R) (Kept c) := by unfold orderConditionS; exact Keeps.kept inferInstance (by tally)
instance : Keeps c (groupConditionS R) (Kept c) := by unfold groupConditionS; exact Keeps.kept inferInstance (by tally)
instance : Keeps c (groupClauseS R) (Kept c) := by unfold groupClauseS; exact Keeps.kept inferInstance (by tally)
instance : Keeps c (orderClauseS R) (Kept c) := by unfold orderClauseS; exact Keeps.kept inferInstance (by tally)
instance : Keeps c (havingClauseS R) (Kept c) := by unfold havingClauseS; exact Keeps.kept inferInstance (by tally)
instance : Keeps c (solutionModifierS R) (Kept c) := by unfold solutionModifierS; exact Keeps.kept inferInstance (by tally)
instance : Keeps c (whereClauseS R) (Kept c) := by unfold whereClauseS; exact Keeps.kept inferInstance (by tally)
instance : Keeps c (varOrExpressionAsVarS R) (Kept c) := by unfold varOrExpressionAsVarS; exact Keeps.kept inferInstance (by tally)
instance : Keeps c (selectVarsS R) (Kept c) := by unfold selectVarsS; exact Keeps.kept inferInstance (by tally)
instance : Keeps c (selectClauseS R) (Kept c) := by unfold selectClauseS; exact Keeps.kept inferInstance (by tally)
instance : Keeps c (subSelectS R) (Kept c) := by unfold subSelectS; exact Keeps.kept inferInstance (by tally)
instance : Keeps c (groupOrUnionGraphPatternS R) (Kept c) := by unfold groupOrUnionGraphPatternS; exact Keeps.kept inferInstance (by tally)
instance : Keeps c (optionalGroupGraphPatternS R) (Kept c) := by unfold optionalGroupGraphPatternS; exact Keeps.kept inferInstance (by tally)
instance : Keeps c (minusGraphPatternS R) (Kept c) := by unfold minusGraphPatternS; exact Keeps.kept inferInstance (by tally)
instance : Keeps c (graphGraphPatternS R) (Kept c) := by unfold graphGraphPatternS; exact Keeps.kept inferInstance (by tally)
instance : Keeps c (serviceGraphPatternS R) (Kept c) := by unfold serviceGraphPatternS; exact Keeps.kept inferInstance (by tally)
instance : Keeps c (graphPatternNotTriplesS R) (Kept c) := by unfold graphPatternNotTriplesS; exact Keeps.kept inferInstance (by tally)
instance : Keeps c (groupGraphPatternAndTriplesS R) (Kept c) := by unfold groupGraphPatternAndTriplesS; exact Keeps.kept inferInstance (by tally)
instance : Keeps c (groupGraphPatternSubS R) (Kept c) := by unfold groupGraphPatternSubS; exact Keeps.kept inferInstance (by tally)
instance : Keeps c (groupGraphPatternStep R) (Kept c) := by unfold groupGraphPatternStep; exact Keeps.kept inferInstance (by tally)
end

instance recF_keeps [Quiet c] : ∀ n, KRec c (recF n)
  | 0 => ⟨keeps_fuel, keeps_fuel⟩
  | n + 1 => by
    have := recF_keeps n
    exact ⟨inferInstanceAs (Keeps c (expressionStep (recF n)) (Kept c)), inferInstanceAs (Keeps c (groupGraphPatternStep (recF n)) (Kept c))⟩
instance [Quiet c] : Keeps c expression (Kept c) := ⟨fun hp h => (recF_keeps _).expr.out hp h⟩
instance [Quiet c] : Keeps c groupGraphPattern (Kept c) := ⟨fun hp h => (recF_keeps _).ggp.out hp h⟩
instance [Quiet c] : KRec c R₀ := ⟨inferInstanceAs (Keeps c expression (Kept c)), inferInstanceAs (Keeps c groupGraphPattern (Kept c))⟩
kept! solutionModifier
kept! whereClause
kept! selectClause
kept! dataSetClauses
kept! selectQuery
kept! askQuery
kept! describeQuery
kept! subTriples
kept! constructTemplate
kept! subConstruct
kept! constructQuery
kept! sparqlQuery
kept! sparqlQueryStmt
kept! silentFromTo
kept! silentGraphRefAll
kept! addStmt
kept! moveStmt
kept! copyStmt
kept! createStmt
kept! dropStmt
kept! clearStmt
kept! loadStmt
kept! insertData
kept! deleteData
kept! deleteWhereData
kept! deleteInsert
kept! modifyStmt
kept! updateStmt
instance {up : P Update} [Quiet c] [Good up] [Keeps c up (Kept c)] : Keeps c (updateStep up) (Kept c) := by
  unfold updateStep
  exact Keeps.kept inferInstance (by tally)
instance updateF_keeps [Quiet c] : ∀ n, Keeps c (updateF n) (Kept c)
  | 0 => keeps_fuel
  | n + 1 => by have := updateF_keeps n; unfold updateF; infer_instance
instance [Quiet c] : Keeps c update (Kept c) := ⟨fun hp h => (updateF_keeps _).out hp h⟩

end NomSparql
