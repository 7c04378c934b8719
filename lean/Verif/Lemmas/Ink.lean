import Verif.Spec.Ink
import Verif.Lemmas.Stored

/-!
# The order of what gets into the tree

`Inks p wp`: if `wp post` holds, every answer of `p` satisfies `post a n`, where `n` has the quiet characters of the consumed text, in order, less some of its white space.  `wp` is computed from `p`, bottom up; for the named parsers it is `Inked`: these are the quiet characters of the answer (Spec/Ink).
-/

namespace NomSparql

set_option synthInstance.maxSize 4000
set_option synthInstance.maxHeartbeats 400000

/-- No quiet character is in a comment. -/
abbrev Clear (x : Str) : Prop := ∀ c, isQuiet c = true → PlainIn c x
theorem Clear.suffix {x r : Str} (h : Clear (x ++ r)) : Clear r := fun c hc => (h c hc).suffix
theorem Clear.prefix {x r : Str} (h : Clear (x ++ r)) : Clear x := fun c hc => (h c hc).prefix

theorem inkStr_append (x y : Str) : inkStr (x ++ y) = inkStr x ++ inkStr y := by simp [inkStr]
theorem ink_marks {s : Str} (hs : ∀ x ∈ s, x.toNat < 128 ∧ x ≠ '$') : inkStr s = [] := by
  unfold inkStr
  rw [List.filter_eq_nil_iff]
  intro x hx
  have := hs x hx
  simp [isQuiet, this.2]
  omega
theorem ws_clear {w : Str} (hw : Ws w) (h : Clear w) : inkStr w = [] := by
  unfold inkStr
  rw [List.filter_eq_nil_iff]
  intro x hx hq
  have : Quiet x := ⟨by simpa [isQuiet] using hq⟩
  have := ws_quiet hw (h x hq)
  rw [List.count_eq_zero] at this
  exact this hx

theorem Shed.refl : ∀ x : Str, Shed x x
  | [] => .nil
  | _ :: x => .keep (Shed.refl x)
theorem Shed.append {x x' y y' : Str} (h : Shed x x') (h' : Shed y y') : Shed (x ++ y) (x' ++ y') := by
  induction h with
  | nil => exact h'
  | keep _ ih => exact .keep ih
  | drop hw _ ih => rw [List.append_assoc]; exact .drop hw ih
/-- If no quiet character is in a comment, none is taken out. -/
theorem Shed.clear {x y : Str} (h : Shed x y) (hc : Clear x) : inkStr y = inkStr x := by
  induction h with
  | nil => rfl
  | @keep c x y _ ih =>
    have e : ∀ z : Str, c :: z = [c] ++ z := fun _ => rfl
    rw [e y, e x, inkStr_append, inkStr_append, ih (Clear.suffix (x := [c]) hc)]
  | drop hw _ ih => rw [inkStr_append, ws_clear hw hc.prefix, ih hc.suffix]; rfl

/-- `n` has the quiet characters of the text, less some of its white space. -/
def Inky (x n : Str) : Prop := ∃ y, Shed x y ∧ inkStr y = n
theorem inky_self (x : Str) : Inky x (inkStr x) := ⟨x, .refl x, rfl⟩
theorem inky_marks {s : Str} (hs : ∀ x ∈ s, x.toNat < 128 ∧ x ≠ '$') : Inky s [] := ⟨s, .refl s, ink_marks hs⟩
theorem inky_ws {w : Str} (hw : Ws w) : Inky w [] := ⟨[], by have := Shed.drop hw .nil; rwa [List.append_nil] at this, rfl⟩

class Inks (p : P α) (wp : outParam ((α → Str → Prop) → Prop)) : Prop where
  out : ∀ {post : α → Str → Prop} {i r a}, wp post → p i = .ok r a →
    ∃ x n, i = x ++ r ∧ Inky x n ∧ post a n

/-- All of it is stored, in order. -/
abbrev Inked [Ink α] (post : α → Str → Prop) : Prop := ∀ a, post a (ink a)

section
variable {p : P α} {q : P β} {s : P γ} {t : P δ} {u : P ε} {W : (α → Str → Prop) → Prop} {W' : (β → Str → Prop) → Prop} {W2 : (γ → Str → Prop) → Prop}
  {W3 : (δ → Str → Prop) → Prop} {W4 : (ε → Str → Prop) → Prop}

theorem Inks.inked [Ink α] (h : Inks p W) (hw : W fun a n => n = ink a) : Inks p Inked where
  out hp e := by obtain ⟨x, n, h1, h2, rfl⟩ := h.out hw e; exact ⟨x, _, h1, h2, hp _⟩
/-- Nothing but marks is consumed. -/
theorem Inks.mute (h : ∀ {i r a}, p i = .ok r a → ∃ x, i = x ++ r ∧ ∀ d ∈ x, d.toNat < 128 ∧ d ≠ '$') : Inks p (fun post => ∀ a, post a []) where
  out hp e := by obtain ⟨x, h1, h2⟩ := h e; exact ⟨x, [], h1, inky_marks h2, hp _⟩

instance [h : Inks p W] {f : α → β} : Inks (map p f) (fun post => W fun a n => post (f a) n) where
  out hp e := by obtain ⟨a, h1, rfl⟩ := map_ok.mp e; exact h.out hp h1
instance [h : Inks p W] : Inks (cut p) W := ⟨fun hp e => h.out hp (cut_ok.mp e)⟩
theorem ink_two {x y : Str} {m n : Str} (h1 : Inky x m) (h2 : Inky y n) : Inky (x ++ y) (m ++ n) := by
  obtain ⟨x', a, rfl⟩ := h1
  obtain ⟨y', b, rfl⟩ := h2
  exact ⟨x' ++ y', a.append b, inkStr_append _ _⟩
instance [h : Inks p W] [h' : Inks q W'] : Inks (pair p q) (fun post => W fun a m => W' fun b n => post (a, b) (m ++ n)) where
  out hp e := by
    obtain ⟨j, h1, h2⟩ := pair_ok e
    obtain ⟨x, m, rfl, e1, hm⟩ := h.out hp h1
    obtain ⟨y, n, rfl, e2, hn⟩ := h'.out hm h2
    exact ⟨x ++ y, m ++ n, by simp, ink_two e1 e2, hn⟩
instance [Inks p W] [Inks q W'] : Inks (preceded p q) (fun post => W fun _ m => W' fun b n => post b (m ++ n)) := by
  unfold preceded; infer_instance
instance [Inks p W] [Inks q W'] : Inks (terminated p q) (fun post => W fun a m => W' fun _ n => post a (m ++ n)) := by
  unfold terminated; infer_instance
instance [Inks p W] [Inks q W'] [Inks s W2] : Inks (tuple3 p q s) (fun post => W fun a m => W' fun b n => W2 fun c k => post (a, b, c) (m ++ (n ++ k))) := by
  unfold tuple3; infer_instance
instance [Inks p W] [Inks q W'] [Inks s W2] [Inks t W3] :
    Inks (tuple4 p q s t) (fun post => W fun a m => W' fun b n => W2 fun c k => W3 fun d l => post (a, b, c, d) (m ++ (n ++ (k ++ l)))) := by
  unfold tuple4; infer_instance
instance [Inks p W] [Inks q W'] [Inks s W2] [Inks t W3] [Inks u W4] :
    Inks (tuple5 p q s t u) (fun post => W fun a m => W' fun b n => W2 fun c k => W3 fun d l => W4 fun e o => post (a, b, c, d, e) (m ++ (n ++ (k ++ (l ++ o))))) := by
  unfold tuple5; infer_instance
instance [Inks p W] [Inks q W'] [Inks s W2] : Inks (delimited p q s) (fun post => W fun _ m => W' fun b n => W2 fun _ k => post b (m ++ (n ++ k))) := by
  unfold delimited; infer_instance
instance [Inks p W] [Inks q W'] [Inks s W2] : Inks (separatedPair p s q) (fun post => W fun a m => W2 fun _ k => W' fun b n => post (a, b) (m ++ (k ++ n))) := by
  unfold separatedPair; infer_instance
instance [h : Inks p W] : Inks (opt p) (fun post => post none [] ∧ W fun a n => post (some a) n) where
  out hp e := by
    rcases opt_ok.mp e with ⟨a, rfl, h1⟩ | ⟨rfl, rfl, _⟩
    · exact h.out hp.2 h1
    · exact ⟨[], [], rfl, inky_self _, hp.1⟩
instance [h : Inks p W] : Inks (alt [p]) W := ⟨fun hp e => h.out hp e⟩
instance {p' : P α} {ps} {V : (α → Str → Prop) → Prop} [h : Inks p W] [h' : Inks (alt (p' :: ps)) V] : Inks (alt (p :: p' :: ps)) (fun post => W post ∧ V post) where
  out hp e := by
    rcases alt_two_ok.mp e with e' | ⟨_, e'⟩
    · exact h.out hp.1 e'
    · exact h'.out hp.2 e'
instance [Good p] : Inks (recognize p) (fun post => ∀ s : Str, post s (inkStr s)) where
  out hp e := by
    obtain ⟨h1, _⟩ := recognize_ok_iff.mp e
    exact ⟨_, _, h1, inky_self _, hp _⟩
instance {f : Char → Bool} : Inks (takeWhile f) (fun post => ∀ s : Str, post s (inkStr s)) where
  out hp e := ⟨_, _, (takeWhile_ok.mp e).1, inky_self _, hp _⟩
instance : Inks sp (fun post => ∀ s, post s []) where
  out hp e := by
    obtain ⟨rfl, h2, _⟩ := sp_ok_iff.mp e
    exact ⟨_, [], rfl, inky_ws h2, hp _⟩
instance : Inks sp1 (fun post => ∀ s, post s []) where
  out hp e := by
    obtain ⟨rfl, h2, _⟩ := sp1_ok_iff.mp e
    exact ⟨_, [], rfl, inky_ws h2.1, hp _⟩
instance {x} [h : Mark x] : Inks (char x) (fun post => ∀ a, post a []) :=
  .mute fun e => by obtain ⟨rfl, rfl⟩ := char_ok.mp e; exact ⟨[_], rfl, by simpa using h.out⟩
instance : Inks (char '$') (fun post => ∀ a, post a ['$']) where
  out hp e := by obtain ⟨rfl, rfl⟩ := char_ok.mp e; exact ⟨['$'], _, rfl, inky_self _, hp _⟩
instance {t} [h : Marks t] : Inks (tag t) (fun post => ∀ a, post a []) :=
  .mute fun e => by obtain ⟨rfl, rfl⟩ := tag_ok.mp e; exact ⟨_, rfl, h.out⟩
instance {t} [KwTag t] [h : Marks t] : Inks (tagNoCase t) (fun post => ∀ a, post a []) :=
  .mute fun e => by obtain ⟨rfl, h2⟩ := tagNoCase_ok_iff.mp e; exact ⟨_, rfl, caseVariant_marks h2 h.out⟩
instance {t} [KwTag t] [h : Marks t] : Inks (tagNoCaseStreaming t) (fun post => ∀ a, post a []) :=
  .mute fun e => by obtain ⟨rfl, h2⟩ := tagNoCaseStreaming_ok_iff.mp e; exact ⟨_, rfl, caseVariant_marks h2 h.out⟩

theorem manyRun_inks [Ink α] (h : Inks p W) (hw : W fun a n => n = ink a) {i r as} (hr : ManyRun p i r as) :
    ∃ x, i = x ++ r ∧ Inky x (inkList ink as) := by
  induction hr with
  | stop _ => exact ⟨[], rfl, inky_self []⟩
  | step e _ _ ih =>
    obtain ⟨x, m, rfl, e1, rfl⟩ := h.out hw e
    obtain ⟨y, rfl, e2⟩ := ih
    exact ⟨x ++ y, by simp, ink_two e1 e2⟩
theorem sepRun_inks [Ink α] (h : Inks p W) (hq : Inks q W') (hw : W' fun _ k => W fun a n => k ++ n = ink a) {i r as} (hr : SepRun q p i r as) :
    ∃ x, i = x ++ r ∧ Inky x (inkList ink as) := by
  induction hr with
  | stopSep _ => exact ⟨[], rfl, inky_self []⟩
  | stopElem _ _ _ => exact ⟨[], rfl, inky_self []⟩
  | @step i j l r s a as e' _ e _ _ ih =>
    obtain ⟨z, k, rfl, e0, h0⟩ := hq.out hw e'
    obtain ⟨x, m, rfl, e1, h1⟩ := h.out h0 e
    obtain ⟨y, rfl, e2⟩ := ih
    refine ⟨(z ++ x) ++ y, by simp, ?_⟩
    rw [inkList, ← h1]
    exact ink_two (ink_two e0 e1) e2
instance [Ink α] [Good p] [h : Inks p W] : Inks (many0 p) (fun post => (W fun a n => n = ink a) ∧ ∀ l, post l (inkList ink l)) where
  out hp e := by
    obtain ⟨x, e1, e2⟩ := manyRun_inks h hp.1 (many0_ok.mp e)
    exact ⟨x, _, e1, e2, hp.2 _⟩
instance [Ink α] [Good p] [h : Inks p W] : Inks (many1 p) (fun post => (W fun a n => n = ink a) ∧ ∀ l, post l (inkList ink l)) where
  out hp e := by
    obtain ⟨_, _, _, rfl, h1, h2⟩ := many1_ok.mp e
    obtain ⟨x, m, rfl, e1, rfl⟩ := h.out hp.1 h1
    obtain ⟨y, rfl, e2⟩ := manyRun_inks h hp.1 h2
    exact ⟨x ++ y, _, by simp, ink_two e1 e2, hp.2 _⟩
instance [Ink α] [Good p] [Good q] [hq : Inks q W'] [h : Inks p W] :
    Inks (separatedNonemptyList q p) (fun post => (W' fun _ k => W fun a n => k ++ n = ink a) ∧ (W fun a n => n = ink a) ∧ ∀ l, post l (inkList ink l)) where
  out hp e := by
    obtain ⟨_, _, _, rfl, h1, _, h2⟩ := separatedNonemptyList_ok.mp e
    obtain ⟨x, m, rfl, e1, rfl⟩ := h.out hp.2.1 h1
    obtain ⟨y, rfl, e2⟩ := sepRun_inks h hq hp.1 h2
    exact ⟨x ++ y, _, by simp, ink_two e1 e2, hp.2.2 _⟩
instance [Ink α] [Good p] [Good q] [hq : Inks q W'] [h : Inks p W] :
    Inks (separatedList q p) (fun post => (W' fun _ k => W fun a n => k ++ n = ink a) ∧ (W fun a n => n = ink a) ∧ ∀ l, post l (inkList ink l)) where
  out hp e := by
    rcases separatedList_ok.mp e with ⟨rfl, rfl, _⟩ | ⟨_, _, _, rfl, h1, _, h2⟩
    · exact ⟨[], _, rfl, inky_self _, hp.2.2 _⟩
    obtain ⟨x, m, rfl, e1, rfl⟩ := h.out hp.2.1 h1
    obtain ⟨y, rfl, e2⟩ := sepRun_inks h hq hp.1 h2
    exact ⟨x ++ y, _, by simp, ink_two e1 e2, hp.2.2 _⟩
instance [Inks p W] : Inks (spEnc p) (fun post => Str → W fun b n => Str → post b ([] ++ (n ++ []))) := by unfold spEnc; infer_instance
instance [Inks p W] : Inks (spEnc1 p) (fun post => Str → W fun b n => Str → post b ([] ++ (n ++ []))) := by unfold spEnc1; infer_instance
instance [Inks p W] [Inks q W'] : Inks (spSep p q) (fun post => W fun a m => Str → W' fun b n => post (a, b) (m ++ ([] ++ n))) := by
  unfold spSep; infer_instance
instance [Inks p W] [Inks q W'] : Inks (spSep1 p q) (fun post => W fun a m => Str → W' fun b n => post (a, b) (m ++ ([] ++ n))) := by
  unfold spSep1; infer_instance
instance [Inks p W] : Inks (bracketted p) (fun post => Char → W fun b n => Char → post b ([] ++ (n ++ []))) := by
  unfold bracketted; infer_instance
instance {t} [KwTag t] [Marks t] [Inks p W] : Inks (precededTag1 t p) (fun post => Str → Str → W fun b n => post b ([] ++ [] ++ n)) := by
  unfold precededTag1; infer_instance
instance {t} [KwTag t] [Marks t] [Inks p W] : Inks (precededTag t p) (fun post => Str → Str → W fun b n => post b ([] ++ [] ++ n)) := by
  unfold precededTag; infer_instance
instance {t} [KwTag t] [Marks t] [Inks p W] : Inks (precededBracketted t p) (fun post => Str → Str → Char → W fun b n => Char → post b ([] ++ [] ++ ([] ++ (n ++ [])))) := by
  unfold precededBracketted; infer_instance
end

theorem inkPathMod_nil (x : PathMod) : inkPathMod x = [] := by cases x <;> rfl
theorem inkSelectModifier_nil (x : SelectModifier) : inkSelectModifier x = [] := by cases x <;> rfl
theorem inkOrder_nil (x : Order) : inkOrder x = [] := by cases x <;> rfl
theorem inkSign_nil (x : Sign) : inkSign x = [] := by cases x <;> rfl
theorem inkDecimal_nil (x : Decimal) : inkDecimal x = [] := by cases x <;> rfl
theorem inkNumericLiteral_nil (x : NumericLiteral) : inkNumericLiteral x = [] := by cases x <;> rfl
theorem inkLimitOffsetClause_nil (x : LimitOffsetClause) : inkLimitOffsetClause x = [] := by cases x <;> rfl
theorem inkList_nil (l : List α) : inkList (fun _ => []) l = [] := by
  induction l with
  | nil => rfl
  | cons a l ih => rw [inkList, ih]; rfl
theorem inkOption_nil (l : Option α) : inkOption (fun _ => []) l = [] := by cases l <;> rfl
theorem inkStr_dollar (s : Str) : inkStr ('$' :: s) = '$' :: inkStr s := by rfl

/-- Takes a condition apart and compares the texts. -/
macro "blot" : tactic => `(tactic|
  ((repeat' first | apply And.intro | intro _) <;> first | rfl | (simp only [ink, List.append_assoc, List.nil_append, List.append_nil, List.cons_append, inkList_nil, inkOption_nil, inkStr_dollar, inkList, inkOption, inkVar, inkPrefixedName, inkIri, inkDefaultOrNamedIri, inkRdfLiteralDescriptor, inkRdfLiteral, inkStringLiteral, inkDecimal_nil, inkNumericLiteral_nil, inkBlankNode, inkGraphTerm, inkVarOrIri, inkVarOrTerm, inkVarOrIrisOrAll, inkVerb, inkSign_nil, inkPrefixDecl, inkBaseOrPrefixDecl, inkPrologue, inkDataBlockValue, inkInlineDataOneVar, inkInlineDataFull, inkDataBlock, inkGraphNode, inkListGraphNode_eq, inkListVerbList_eq, inkTriplesNode, inkPropertyList, inkVerbList, inkTriplesSameSubject, inkQuadsNotTriples, inkQuadsEntry, inkQuads, inkIriOrA, inkIriOrAOrCaret, inkPathMod_nil, inkPathAlternative, inkListPathSequence_eq, inkListPathEltOrInverse_eq, inkPathSequence, inkPathEltOrInverse, inkPathElt, inkPathPrimary, inkVerbPathOrSimple, inkPropertyListPathEntry, inkGraphNodePath, inkListGraphNodePath_eq, inkTriplesNodePath, inkPropertyListPath, inkTriplesSameSubjectPath, inkTriplesBlock, inkOrder_nil, inkLimitOffsetClause_nil, inkSelectModifier_nil, inkExpression, inkListConditionalAndExpression_eq, inkListRelationalExpression_eq, inkOptionOpExpression_eq, inkListAddExpression_eq, inkListMultExpression_eq, inkListExpression_eq, inkOptionArgList_eq, inkOptionExpression_eq, inkListGraphPatternAndTriples_eq, inkListGroupGraphPattern_eq, inkListVarOrExpressionAsVar_eq, inkOptionOrderClause_eq, inkOptionGroupClause_eq, inkOptionHavingClause_eq, inkListConstraint_eq, inkListOrderCondition_eq, inkListGroupCondition_eq, inkConditionalAndExpression, inkRelationalExpression, inkOpExpression, inkAdditiveExpression, inkAddExpression, inkMultiplicativeExpression, inkMultExpression, inkUnaryExpression, inkPrimaryExpression, inkExpressionList, inkIriOrFunction, inkArgList, inkDistinctExpression, inkExpressionAsVar, inkExpressionAsVarOpt, inkRegexExpression, inkStrReplaceExpression, inkConstraint, inkFunctionCall, inkBuiltInCall, inkAggregate, inkCount, inkCountTarget, inkGroupConcat, inkGroupGraphPattern, inkGroupGraphPatternSub, inkGraphPatternAndTriples, inkGraphPatternNotTriples, inkGraphGraphPattern, inkServiceGraphPattern, inkSubSelect, inkSelectClause, inkSelectVars, inkVarOrExpressionAsVar, inkSolutionModifier, inkHavingClause, inkOrderClause, inkOrderCondition, inkOrderExpression, inkGroupClause, inkGroupCondition, inkSelectQuery, inkAskQuery, inkDescribeQuery, inkSubConstruct, inkSubTriples, inkConstructQuery, inkSparqlQuery, inkSparqlQueryStatement, inkGraphOrDefault, inkGraphRefAll, inkLoadStatement, inkClearStatement, inkDropStatement, inkCreateStatement, inkAddStatement, inkMoveStatement, inkCopyStatement, inkDeleteInsert, inkModifyStatement, inkUpdateStatement, inkUpdate])))

macro "inked! " n:ident : command => `(instance : Inks $n Inked := by unfold $n; exact Inks.inked inferInstance (by blot))

/-! ## src/terminals.rs -/
theorem escaped_inks {a b} (ha : '\\' ∈ a) : Inks (escaped (noneOf a) '\\' (oneOf b)) (fun post => ∀ s : Str, post s (inkStr s)) where
  out hp e := ⟨_, _, ((escaped_ok ha).mp e).1, inky_self _, hp _⟩
instance {d b} : Inks (escaped (noneOf [d, '\\']) '\\' (oneOf b)) (fun post => ∀ s : Str, post s (inkStr s)) := escaped_inks (by simp)
macro "muted! " n:ident : command => `(instance : Inks $n (fun post => ∀ a, post a []) := ⟨fun {post i r a} hp e => by
  unfold $n at e
  exact Inks.out (post := post) (by (repeat' first | apply And.intro | intro _) <;> exact hp _) e⟩)
inked! stringLiteral
inked! iriRef
inked! languageTag
inked! pnLocal
inked! pnPrefix
inked! pnameNs
inked! varName
inked! pnameLn
instance : Inks anon (fun post => ∀ s, post s []) := ⟨fun {post i r a} hp e => by
  unfold anon at e
  exact Inks.out (post := post) (by (repeat' intro _); exact hp _) e⟩
instance : Inks nil (fun post => ∀ s, post s []) := ⟨fun {post i r a} hp e => by
  unfold nil at e
  exact Inks.out (post := post) (by (repeat' intro _); exact hp _) e⟩
inked! prefixedName
inked! iri
inked! namedIri
inked! defaultOrNamedIri
inked! rdfLiteral
/-! ## Prologue -/
inked! baseDecl
inked! prefixDecl
inked! prologue
/-! ## Numbers -/
instance : Inks sparqlInt (fun post => ∀ a, post a []) :=
  .mute fun e => by obtain ⟨s, h1, h2, _⟩ := sparqlInt_ok.mp e; exact ⟨s, h1, intText_marks h2⟩
instance : Inks sparqlDecimal (fun post => ∀ a, post a []) :=
  .mute fun e => by obtain ⟨s, h1, h2, _⟩ := sparqlDecimal_ok.mp e; exact ⟨s, h1, mantText_marks h2⟩
instance : Inks exponent (fun post => ∀ a, post a []) :=
  .mute fun e => by
    obtain ⟨s, h1, ⟨d, t, rfl, hd, h2⟩, _⟩ := exponent_ok.mp e
    refine ⟨_, h1, fun x hx => ?_⟩
    rcases List.mem_cons.mp hx with rfl | hx
    · rcases hd with rfl | rfl <;> decide
    · exact intText_marks h2 x hx
instance : Inks sparqlDouble (fun post => ∀ a, post a []) := ⟨fun {post i r a} hp e => by
  unfold sparqlDouble at e
  exact Inks.out (post := post) (by (repeat' first | apply And.intro | intro _) <;> exact hp _) e⟩
instance : Inks boolean (fun post => ∀ a, post a []) := ⟨fun {post i r a} hp e => by
  unfold boolean at e
  exact Inks.out (post := post) (by (repeat' first | apply And.intro | intro _) <;> exact hp _) e⟩
theorem intClause_inks {t} [KwTag t] [ht : Marks t] : Inks (intClause (tagNoCase t)) (fun post => ∀ a, post a []) where
  out hp e := by
    unfold intClause at e
    obtain ⟨s, e1, e2⟩ := mapRes_ok.mp e
    rw [preceded_ok] at e1
    obtain ⟨j, b, e3, e4⟩ := e1
    obtain ⟨x, n, rfl, h1, rfl⟩ := Inks.out (post := fun _ n => n = []) (by intro _ _; rfl) e3
    obtain ⟨rfl, _⟩ := takeWhile1_ok.mp e4
    exact ⟨x ++ s, [], by simp, ink_two h1 (inky_marks (parseU64_marks e2)), hp _⟩
instance : Inks limitClause (fun post => ∀ a, post a []) := intClause_inks
instance : Inks offsetClause (fun post => ∀ a, post a []) := intClause_inks
instance : Inks pathMod (fun post => ∀ a, post a []) :=
  .mute fun {i r a} e => by
    unfold pathMod at e
    split at e
    · cases e
    split at e
    · cases e
    split at e
    · rename_i a' r' h1 _ m h2
      cases e
      refine ⟨a', ?_, ?_⟩
      · exact takeBytes_eq h1
      · unfold PathMod.fromStr at h2
        split at h2
        · rename_i h; subst h; decide
        split at h2
        · rename_i h; subst h; decide
        split at h2
        · rename_i h; subst h; decide
        cases h2
    · cases e
inked! numericLiteral
inked! var
inked! varOrIri
inked! verb
inked! varOrIrisOrAll
inked! blankNode
inked! graphTerm
inked! varOrTerm
inked! graphRef
inked! graphOrDefault
inked! graphRefAll
inked! dataSetClause
inked! datablockValue
inked! inlineDataFull
inked! inlineDataOneVar
inked! datablock
inked! inlineData
inked! valuesClause
inked! usingClause
inked! limitOffsetClause
section
variable {gn : P GraphNode} [Good gn] [Inks gn Inked]
instance : Inks (collectionS gn) Inked := by unfold collectionS; exact Inks.inked inferInstance (by blot)
instance : Inks (objectListS gn) Inked := by unfold objectListS; exact Inks.inked inferInstance (by blot)
instance : Inks (propertyListNotEmptyS gn) Inked := by unfold propertyListNotEmptyS; exact Inks.inked inferInstance (by blot)
instance : Inks (blankNodePropertyListS gn) Inked := by unfold blankNodePropertyListS; exact Inks.inked inferInstance (by blot)
instance : Inks (triplesNodeS gn) Inked := by unfold triplesNodeS; exact Inks.inked inferInstance (by blot)
instance : Inks (graphNodeStep gn) Inked := by unfold graphNodeStep; exact Inks.inked inferInstance (by blot)
end
theorem inks_fuel {W : (α → Str → Prop) → Prop} : Inks (fun _ => .err .fuel : P α) W := ⟨fun _ h => by cases h⟩
instance graphNodeF_inks : ∀ n, Inks (graphNodeF n) Inked
  | 0 => inks_fuel
  | n + 1 => by have := graphNodeF_inks n; unfold graphNodeF; infer_instance
instance : Inks graphNode Inked := ⟨fun hp h => (graphNodeF_inks _).out hp h⟩
inked! objectList
inked! propertyListNotEmpty
inked! triplesNode
instance : Inks propertyList Inked := by unfold propertyList propertyListS; exact Inks.inked inferInstance (by blot)
inked! triplesSameSubject
inked! triplesTemplate
inked! quadsNotTriples
inked! quadsEntry
inked! quads
inked! quadsPattern
inked! quadData
inked! insertClause
inked! deleteClause
/-! ## Paths -/
inked! iriOrA
inked! iriOrAOrCaret
inked! pathOneInPropertySet
inked! pathNegatedPropertySet
section
variable {pa : P PathAlternative} [Good pa] [Inks pa Inked]
instance : Inks (pathPrimaryS pa) Inked := by unfold pathPrimaryS; exact Inks.inked inferInstance (by blot)
instance : Inks (pathEltS pa) Inked := by unfold pathEltS; exact Inks.inked inferInstance (by blot)
instance : Inks (pathEltOrInverseS pa) Inked := by unfold pathEltOrInverseS; exact Inks.inked inferInstance (by blot)
instance : Inks (pathSequenceS pa) Inked := by unfold pathSequenceS; exact Inks.inked inferInstance (by blot)
instance : Inks (pathAlternativeStep pa) Inked := by unfold pathAlternativeStep; exact Inks.inked inferInstance (by blot)
end
instance pathAlternativeF_inks : ∀ n, Inks (pathAlternativeF n) Inked
  | 0 => inks_fuel
  | n + 1 => by have := pathAlternativeF_inks n; unfold pathAlternativeF; infer_instance
instance : Inks pathAlternative Inked := ⟨fun hp h => (pathAlternativeF_inks _).out hp h⟩
inked! verbPathOrSimple
inked! propertyListPathEntry
section
variable {gn : P GraphNodePath} [Good gn] [Inks gn Inked]
instance : Inks (objectListPathS gn) Inked := by unfold objectListPathS; exact Inks.inked inferInstance (by blot)
instance : Inks (propertyListPathNotEmptyS gn) Inked := by unfold propertyListPathNotEmptyS; exact Inks.inked inferInstance (by blot)
instance : Inks (blankNodePropertyListPathS gn) Inked := by unfold blankNodePropertyListPathS; exact Inks.inked inferInstance (by blot)
instance : Inks (triplesNodePathS gn) Inked := by unfold triplesNodePathS; exact Inks.inked inferInstance (by blot)
instance : Inks (graphNodePathStep gn) Inked := by unfold graphNodePathStep; exact Inks.inked inferInstance (by blot)
end
instance graphNodePathF_inks : ∀ n, Inks (graphNodePathF n) Inked
  | 0 => inks_fuel
  | n + 1 => by have := graphNodePathF_inks n; unfold graphNodePathF; infer_instance
instance : Inks graphNodePath Inked := ⟨fun hp h => (graphNodePathF_inks _).out hp h⟩
inked! propertyListPathNotEmpty
inked! triplesNodePath
instance : Inks propertyListPath Inked := by unfold propertyListPath propertyListPathS; exact Inks.inked inferInstance (by blot)
inked! triplesSameSubjectPath
inked! triplesBlock
/-! ## The expression / graph pattern nest -/
muted! comma
muted! distinct
muted! silent
muted! optSilent
muted! selectModifier
muted! optDistinct
muted! separatorEq
muted! order
class IRec (R : Rec) : Prop where
  expr : Inks R.expr Inked
  ggp : Inks R.ggp Inked
instance {R : Rec} [IRec R] : Inks R.expr Inked := IRec.expr
instance {R : Rec} [IRec R] : Inks R.ggp Inked := IRec.ggp
section
variable {R : Rec} [RecGood R] [IRec R]
instance : Inks (exprPairS R) Inked := by unfold exprPairS; exact Inks.inked inferInstance (by blot)
instance : Inks (brackettedExpr3S R) Inked := by unfold brackettedExpr3S bracketted3; exact Inks.inked inferInstance (by blot)
instance : Inks (expressionAsVarOptS R) Inked := by unfold expressionAsVarOptS; exact Inks.inked inferInstance (by blot)
instance : Inks (expressionAsVarS R) Inked := by unfold expressionAsVarS; exact Inks.inked inferInstance (by blot)
instance : Inks (expressionListS R) Inked := by unfold expressionListS; exact Inks.inked inferInstance (by blot)
instance : Inks (brackettedExpressionS R) Inked := by unfold brackettedExpressionS; exact Inks.inked inferInstance (by blot)
instance : Inks (bindS R) Inked := by unfold bindS; exact Inks.inked inferInstance (by blot)
instance : Inks (regexExpressionS R) Inked := by unfold regexExpressionS; exact Inks.inked inferInstance (by blot)
instance : Inks (substringExpressionS R) Inked := by unfold substringExpressionS; exact Inks.inked inferInstance (by blot)
instance : Inks (strReplaceExpressionS R) Inked := by unfold strReplaceExpressionS; exact Inks.inked inferInstance (by blot)
instance : Inks (argListS R) Inked := by unfold argListS; exact Inks.inked inferInstance (by blot)
instance : Inks (functionCallS R) Inked := by unfold functionCallS; exact Inks.inked inferInstance (by blot)
instance : Inks (iriOrFunS R) Inked := by unfold iriOrFunS; exact Inks.inked inferInstance (by blot)
instance : Inks (distinctExpressionS R) Inked := by unfold distinctExpressionS; exact Inks.inked inferInstance (by blot)
instance : Inks (countTargetS R) Inked := by unfold countTargetS; exact Inks.inked inferInstance (by blot)
instance : Inks (countS R) Inked := by unfold countS; exact Inks.inked inferInstance (by blot)
instance : Inks (groupConcatS R) Inked := by unfold groupConcatS; exact Inks.inked inferInstance (by blot)
instance : Inks (aggregateS R) Inked := by unfold aggregateS; exact Inks.inked inferInstance (by blot)
instance : Inks (builtInCall1S R) Inked := by unfold builtInCall1S; exact Inks.inked inferInstance (by blot)
instance : Inks (builtInCall2S R) Inked := by unfold builtInCall2S; exact Inks.inked inferInstance (by blot)
instance : Inks (builtInCallS R) Inked := by unfold builtInCallS; exact Inks.inked inferInstance (by blot)
instance : Inks (primaryExpressionS R) Inked := by unfold primaryExpressionS; exact Inks.inked inferInstance (by blot)
instance : Inks (unaryExpressionS R) Inked := by unfold unaryExpressionS; exact Inks.inked inferInstance (by blot)
instance : Inks (multExpressionS R) Inked := by unfold multExpressionS; exact Inks.inked inferInstance (by blot)
instance : Inks (multiplicativeExpressionS R) Inked := by unfold multiplicativeExpressionS; exact Inks.inked inferInstance (by blot)
instance : Inks (addExpressionS R) Inked := by unfold addExpressionS; exact Inks.inked inferInstance (by blot)
instance : Inks (additiveExpressionS R) Inked := by unfold additiveExpressionS; exact Inks.inked inferInstance (by blot)
instance : Inks (opExpressionS R) Inked := by unfold opExpressionS; exact Inks.inked inferInstance (by blot)
instance : Inks (relationalExpressionS R) Inked := by unfold relationalExpressionS; exact Inks.inked inferInstance (by blot)
instance : Inks (conditionalAndExpressionS R) Inked := by unfold conditionalAndExpressionS; exact Inks.inked inferInstance (by blot)
instance : Inks (expressionStep R) Inked := by unfold expressionStep; exact Inks.inked inferInstance (by blot)
instance : Inks (constraintS R) Inked := by unfold constraintS; exact Inks.inked inferInstance (by blot)
instance : Inks (filterS R) Inked := by unfold filterS; exact Inks.inked inferInstance (by blot)
instance : Inks (orderExpressionS R) Inked := by unfold orderExpressionS; exact Inks.inked inferInstance (by blot)
instance : Inks (orderConditionS R) Inked := by unfold orderConditionS; exact Inks.inked inferInstance (by blot)
instance : Inks (groupConditionS R) Inked := by unfold groupConditionS; exact Inks.inked inferInstance (by blot)
instance : Inks (groupClauseS R) Inked := by unfold groupClauseS; exact Inks.inked inferInstance (by blot)
instance : Inks (orderClauseS R) Inked := by unfold orderClauseS; exact Inks.inked inferInstance (by blot)
instance : Inks (havingClauseS R) Inked := by unfold havingClauseS; exact Inks.inked inferInstance (by blot)
instance : Inks (solutionModifierS R) Inked := by unfold solutionModifierS; exact Inks.inked inferInstance (by blot)
instance : Inks (whereClauseS R) Inked := by unfold whereClauseS; exact Inks.inked inferInstance (by blot)
instance : Inks (varOrExpressionAsVarS R) Inked := by unfold varOrExpressionAsVarS; exact Inks.inked inferInstance (by blot)
instance : Inks (selectVarsS R) Inked := by unfold selectVarsS; exact Inks.inked inferInstance (by blot)
instance : Inks (selectClauseS R) Inked := by unfold selectClauseS; exact Inks.inked inferInstance (by blot)
instance : Inks (subSelectS R) Inked := by unfold subSelectS; exact Inks.inked inferInstance (by blot)
instance : Inks (groupOrUnionGraphPatternS R) Inked := by unfold groupOrUnionGraphPatternS; exact Inks.inked inferInstance (by blot)
instance : Inks (optionalGroupGraphPatternS R) Inked := by unfold optionalGroupGraphPatternS; exact Inks.inked inferInstance (by blot)
instance : Inks (minusGraphPatternS R) Inked := by unfold minusGraphPatternS; exact Inks.inked inferInstance (by blot)
instance : Inks (graphGraphPatternS R) Inked := by unfold graphGraphPatternS; exact Inks.inked inferInstance (by blot)
instance : Inks (serviceGraphPatternS R) Inked := by unfold serviceGraphPatternS; exact Inks.inked inferInstance (by blot)
instance : Inks (graphPatternNotTriplesS R) Inked := by unfold graphPatternNotTriplesS; exact Inks.inked inferInstance (by blot)
instance : Inks (groupGraphPatternAndTriplesS R) Inked := by unfold groupGraphPatternAndTriplesS; exact Inks.inked inferInstance (by blot)
instance : Inks (groupGraphPatternSubS R) Inked := by unfold groupGraphPatternSubS; exact Inks.inked inferInstance (by blot)
instance : Inks (groupGraphPatternStep R) Inked := by unfold groupGraphPatternStep; exact Inks.inked inferInstance (by blot)
end

instance recF_inks : ∀ n, IRec (recF n)
  | 0 => ⟨inks_fuel, inks_fuel⟩
  | n + 1 => by
    have := recF_inks n
    exact ⟨inferInstanceAs (Inks (expressionStep (recF n)) Inked), inferInstanceAs (Inks (groupGraphPatternStep (recF n)) Inked)⟩
instance : Inks expression Inked := ⟨fun hp h => (recF_inks _).expr.out hp h⟩
instance : Inks groupGraphPattern Inked := ⟨fun hp h => (recF_inks _).ggp.out hp h⟩
instance : IRec R₀ := ⟨inferInstanceAs (Inks expression Inked), inferInstanceAs (Inks groupGraphPattern Inked)⟩
inked! solutionModifier
inked! whereClause
inked! selectClause
inked! dataSetClauses
inked! selectQuery
inked! askQuery
inked! describeQuery
inked! subTriples
inked! constructTemplate
inked! subConstruct
inked! constructQuery
inked! sparqlQuery
inked! sparqlQueryStmt
inked! silentFromTo
inked! silentGraphRefAll
inked! addStmt
inked! moveStmt
inked! copyStmt
inked! createStmt
inked! dropStmt
inked! clearStmt
inked! loadStmt
inked! insertData
inked! deleteData
inked! deleteWhereData
inked! deleteInsert
inked! modifyStmt
inked! updateStmt
instance {up : P Update} [Good up] [Inks up Inked] : Inks (updateStep up) Inked := by
  unfold updateStep
  exact Inks.inked inferInstance (by blot)
instance updateF_inks : ∀ n, Inks (updateF n) Inked
  | 0 => inks_fuel
  | n + 1 => by have := updateF_inks n; unfold updateF; infer_instance
instance : Inks update Inked := ⟨fun hp h => (updateF_inks _).out hp h⟩

end NomSparql
