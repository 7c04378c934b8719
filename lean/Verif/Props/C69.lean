import Verif.Lemmas.SwapAll
import Verif.Lemmas.SwapDet

/-!
# C69: contents of strings and names of variables are opaque
-/

namespace NomSparql

set_option maxRecDepth 8000

/-- Partial: queries that differ in contents of strings, names of variables and gaps (`Swapped T`) get trees that differ in these strings and
names as the texts do, and leave remainders that do; or they fail with the same error at the same place.  If names are replaced, no `?` after
a closing bracket may be followed by the text of a term (`NoLeak`), see `C69_name_violated`.  Missing too: the empty string, see
`C69_empty_violated`. -/
theorem C69_query_partial (T : Swap) (i i' : Str) (hT : (∀ n n', T.name n n' → n = n') ∨ NoLeak i ∧ NoLeak i') (h : Swapped T i i') :
    SwAnswer T (SwSparqlQueryStatement T) (sparqlQueryStmt i) (sparqlQueryStmt i') := Sub.same inferInstance hT h

/-- Partial: the same for updates. -/
theorem C69_update_partial (T : Swap) (i i' : Str) (hT : (∀ n n', T.name n n' → n = n') ∨ NoLeak i ∧ NoLeak i') (h : Swapped T i i') :
    SwAnswer T (SwUpdate T) (update i) (update i') := Sub.same inferInstance hT h

/-- Partial: and for the parsers of the parts that users can call. -/
theorem C69_parts_partial (T : Swap) (i i' : Str) (hT : (∀ n n', T.name n n' → n = n') ∨ NoLeak i ∧ NoLeak i') (h : Swapped T i i') :
    SwAnswer T (SwSparqlQuery T) (sparqlQuery i) (sparqlQuery i') ∧
    SwAnswer T (SwUpdateStatement T) (updateStmt i) (updateStmt i') ∧
    SwAnswer T (SwGroupGraphPattern T) (groupGraphPattern i) (groupGraphPattern i') ∧
    SwAnswer T (SwTriplesBlock T) (triplesBlock i) (triplesBlock i') ∧
    SwAnswer T (SwExpression T) (expression i) (expression i') :=
  ⟨Sub.same inferInstance hT h, Sub.same inferInstance hT h, Sub.same inferInstance hT h, Sub.same inferInstance hT h,
    Sub.same inferInstance hT h⟩

/-- Partial: strings cannot inject anything.  Where a query with one string is read as a whole, so is the query with any other string that is
put between the same quotes with its quotes escaped, and the trees differ in that string only. -/
theorem C69_strings_partial (R : Str → Str → Prop) (i i' : Str) (q : SparqlQueryStatement) (h : Swapped ⟨R, Eq⟩ i i')
    (hq : sparqlQueryStmt i = .ok [] q) : ∃ q', sparqlQueryStmt i' = .ok [] q' ∧ SwSparqlQueryStatement ⟨R, Eq⟩ q q' := by
  have := C69_query_partial ⟨R, Eq⟩ i i' (.inl fun _ _ h => h) h
  rw [hq] at this
  revert this
  cases sparqlQueryStmt i' with
  | ok r v => rintro ⟨h1, h2⟩; rw [h2.nil_left]; exact ⟨v, rfl, h1⟩
  | err e => intro h; cases h

/-- Partial: renaming variables of a query that is read as a whole renames the variables of its tree. -/
theorem C69_rename_partial (f : Str → Str) (i i' : Str) (q : SparqlQueryStatement) (h : Swapped ⟨Eq, fun n n' => n' = f n⟩ i i')
    (h1 : NoLeak i) (h2 : NoLeak i') (hq : sparqlQueryStmt i = .ok [] q) :
    ∃ q', sparqlQueryStmt i' = .ok [] q' ∧ SwSparqlQueryStatement ⟨Eq, fun n n' => n' = f n⟩ q q' := by
  have := C69_query_partial _ i i' (.inr ⟨h1, h2⟩) h
  rw [hq] at this
  revert this
  cases sparqlQueryStmt i' with
  | ok r v => rintro ⟨h1, h2⟩; rw [h2.nil_left]; exact ⟨v, rfl, h1⟩
  | err e => intro h; cases h

/-- The relation between the trees leaves nothing open: if each string and each name has at most one replacement, the new tree is determined
by the old one. -/
theorem C69_tree_partial (T : Swap) (hT : T.Fun) (q q1 q2 : SparqlQueryStatement) (h1 : SwSparqlQueryStatement T q q1)
    (h2 : SwSparqlQueryStatement T q q2) : q1 = q2 := SwSparqlQueryStatement.det hT h1 _ h2

theorem C69_tree_update_partial (T : Swap) (hT : T.Fun) (u u1 u2 : Update) (h1 : SwUpdate T u u1) (h2 : SwUpdate T u u2) : u1 = u2 :=
  SwUpdate.det hT h1 _ h2

/-- Partial: replacing by a function commutes with reading: texts of the same tree become texts of the same tree. -/
theorem C69_function_partial (T : Swap) (hT : T.Fun) (i i' j j' : Str) (q q1 q2 : SparqlQueryStatement) (r r1 s s1 : Str)
    (hi : (∀ n n', T.name n n' → n = n') ∨ NoLeak i ∧ NoLeak i') (hj : (∀ n n', T.name n n' → n = n') ∨ NoLeak j ∧ NoLeak j')
    (h : Swapped T i i') (g : Swapped T j j') (e1 : sparqlQueryStmt i = .ok r q) (e2 : sparqlQueryStmt j = .ok s q)
    (e3 : sparqlQueryStmt i' = .ok r1 q1) (e4 : sparqlQueryStmt j' = .ok s1 q2) : q1 = q2 := by
  have h := C69_query_partial T i i' hi h
  have g := C69_query_partial T j j' hj g
  rw [e1, e3] at h
  rw [e2, e4] at g
  exact SwSparqlQueryStatement.det hT h.1 _ g.1

/-! ## Texts without leaks -/

/-- The next character after blanks. -/
def afterBlanks (s : Str) : Option Char := (s.dropWhile (fun c => decide (IsBlank c))).head?

/-- No `?` and no comment after a closing bracket. -/
def calm : Str → Bool
  | [] => true
  | c :: s => (decide (c ≠ ')' ∧ c ≠ '}') || decide (afterBlanks s ≠ some '?' ∧ afterBlanks s ≠ some '#')) && calm s

theorem afterBlanks_ws {w t : Str} (h : Ws w) : afterBlanks (w ++ '?' :: t) = some '?' ∨ afterBlanks (w ++ '?' :: t) = some '#' := by
  induction h with
  | nil => exact .inl rfl
  | @cons a w hx _ ih =>
    cases hx with
    | char hc => simpa [afterBlanks, List.dropWhile_cons, show IsBlank _ from hc] using ih
    | comment _ _ => exact .inr (by simp [afterBlanks, IsBlank])

theorem calm_noLeak : ∀ {i : Str}, calm i = true → NoLeak i
  | [], _ => by intro u b w t e; cases u <;> cases e
  | c :: i, h => by
    simp only [calm, Bool.and_eq_true, Bool.or_eq_true, decide_eq_true_eq] at h
    intro u b w t e hb hw
    cases u with
    | nil =>
      cases e
      rcases h.1 with h | h
      · rcases hb with rfl | rfl
        · exact absurd rfl h.1
        · exact absurd rfl h.2
      · rcases afterBlanks_ws (t := t) hw with g | g
        · exact absurd g h.1
        · exact absurd g h.2
    | cons d u =>
      injection e with _ e
      exact calm_noLeak h.2 u b w t e hb hw

/-- Partial: renaming in texts where no `?` follows a closing bracket. -/
theorem C69_calm_partial (T : Swap) (i i' : Str) (hi : calm i = true) (hi' : calm i' = true) (h : Swapped T i i') :
    SwAnswer T (SwSparqlQueryStatement T) (sparqlQueryStmt i) (sparqlQueryStmt i') ∧ SwAnswer T (SwUpdate T) (update i) (update i') :=
  ⟨C69_query_partial T i i' (.inr ⟨calm_noLeak hi, calm_noLeak hi'⟩) h, C69_update_partial T i i' (.inr ⟨calm_noLeak hi, calm_noLeak hi'⟩) h⟩

/-! ## Examples -/

theorem Swapped.word {k s s' : Str} (hk : ∀ c ∈ k, PlainChar c ∧ c ∉ ['\\', '<', '?', '$']) (h : Swapped T s s') : Swapped T (k ++ s) (k ++ s') := by
  induction k with
  | nil => exact h
  | cons c k ih =>
    obtain ⟨h1, h2⟩ := hk c (by simp)
    simp only [List.mem_cons, List.not_mem_nil, or_false, not_or] at h2
    exact .char h1 (fun e => absurd e h2.1) (fun e => absurd e h2.2.1) (fun e => absurd e (by grind)) (ih fun d hd => hk d (by simp [hd]))

theorem Swapped.blank {s s' : Str} (h : Swapped T s s') : Swapped T (' ' :: s) (' ' :: s') :=
  .gap (c := ' ') (c' := ' ') (w := []) (w' := []) (by decide) (by decide) .nil .nil h

theorem ends_blank {s : Str} : EndsName (' ' :: s) := by intro c h; cases h; decide

/-- `ASK { ?x a:bc "b" }` -/
def askString (b : Str) : Str := c!"ASK { ?x a:bc \"" ++ (b ++ c!"\" }")

theorem askString_swapped {b b' : Str} (h : QuotedText '"' b) (h' : QuotedText '"' b') :
    Swapped ⟨fun s s' => s = b ∧ s' = b', Eq⟩ (askString b) (askString b') := by
  refine .word (k := c!"ASK") (by decide) <| .blank <| .word (k := ['{']) (by decide) <| .blank ?_
  refine .var (d := '?') (n := ['x']) (n' := ['x']) (.inl rfl) rfl ?_ ?_ ends_blank ends_blank <| .blank ?_
  · exact ⟨by simp, by decide⟩
  · exact ⟨by simp, by decide⟩
  refine .word (k := c!"a:bc") (by decide) <| .blank ?_
  exact .text (q := '"') (.inl rfl) ⟨rfl, rfl⟩ h h' <| .blank <| .word (k := ['}']) (by decide) .nil

theorem quoted_z : QuotedText '"' ['z'] := ⟨by simp, .ord (by decide) (by decide) .nil⟩

/-- Partial: whatever is put into the string of `ASK { ?x a:bc "..." }`, the query is read as a whole and differs from the one with `"z"` in
that string only. -/
theorem C69_askString_partial (b : Str) (h : QuotedText '"' b) : ∃ q q', sparqlQueryStmt (askString ['z']) = .ok [] q ∧
    sparqlQueryStmt (askString b) = .ok [] q' ∧ SwSparqlQueryStatement ⟨fun s s' => s = ['z'] ∧ s' = b, Eq⟩ q q' := by
  have e : ∃ q, sparqlQueryStmt (askString ['z']) = .ok [] q := ⟨_, rfl⟩
  obtain ⟨q, e⟩ := e
  obtain ⟨q', e', g⟩ := C69_strings_partial _ _ _ q (askString_swapped quoted_z h) e
  exact ⟨q, q', e, e', g⟩

/-- Such a string: it looks like the end of the query and an update. -/
example : QuotedText '"' c!"\\\" } ; DROP ALL #" := by
  refine ⟨by simp, show StrBody '"' ('\\' :: '"' :: _) from .esc (by simp [EscChar]) ?_⟩
  repeat' first | exact .nil | refine .ord (by decide) (by decide) ?_

/-- Renaming three variables at once. -/
def exNames : Str → Str → Prop := fun n n' => (n, n') ∈ [(c!"s", c!"person"), (c!"p", c!"s"), (c!"max", c!"select")]
def exOld : Str := c!"SELECT ?s WHERE { ?s a:bc \"x\" . ?s ?p ?s FILTER (?s < ?max ) } ORDER BY ?s LIMIT 5"
def exNew : Str := c!"SELECT ?person WHERE { ?person a:bc \"x\" . ?person ?s ?person FILTER (?person < ?select ) } ORDER BY ?person LIMIT 5"

theorem Swapped.rename {n n' s s' : Str} (h : T.name n n' ∧ VarText n ∧ VarText n') (h3 : Swapped T s s') :
    Swapped T ('?' :: (n ++ ' ' :: s)) ('?' :: (n' ++ ' ' :: s')) := .var (.inl rfl) h.1 h.2.1 h.2.2 ends_blank ends_blank h3.blank

instance : DecidablePred VarText := fun n => by unfold VarText; infer_instance
instance : ∀ n n', Decidable (exNames n n') := fun n n' => by unfold exNames; infer_instance

theorem exSwapped : Swapped ⟨Eq, exNames⟩ exOld exNew := by
  have s : ∀ {u u'}, Swapped ⟨Eq, exNames⟩ u u' → Swapped ⟨Eq, exNames⟩ ('?' :: (c!"s" ++ ' ' :: u)) ('?' :: (c!"person" ++ ' ' :: u')) :=
    .rename (T := ⟨Eq, exNames⟩) (show exNames c!"s" c!"person" ∧ VarText c!"s" ∧ VarText c!"person" by decide)
  have p : ∀ {u u'}, Swapped ⟨Eq, exNames⟩ u u' → Swapped ⟨Eq, exNames⟩ ('?' :: (c!"p" ++ ' ' :: u)) ('?' :: (c!"s" ++ ' ' :: u')) :=
    .rename (T := ⟨Eq, exNames⟩) (show exNames c!"p" c!"s" ∧ VarText c!"p" ∧ VarText c!"s" by decide)
  have m : ∀ {u u'}, Swapped ⟨Eq, exNames⟩ u u' → Swapped ⟨Eq, exNames⟩ ('?' :: (c!"max" ++ ' ' :: u)) ('?' :: (c!"select" ++ ' ' :: u')) :=
    .rename (T := ⟨Eq, exNames⟩) (show exNames c!"max" c!"select" ∧ VarText c!"max" ∧ VarText c!"select" by decide)
  refine .word (k := c!"SELECT") (by decide) <| .blank <| s <| .word (k := c!"WHERE") (by decide) <| .blank <|
    .word (k := ['{']) (by decide) <| .blank <| s <| .word (k := c!"a:bc") (by decide) <| .blank <|
    .str (q := '"') (b := ['x']) (.inl rfl) (.ord (by decide) (by decide) .nil) rfl <| .blank <| .word (k := ['.']) (by decide) <| .blank <|
    s <| p <| s <|
    .word (k := c!"FILTER") (by decide) <| .blank <| .word (k := ['(']) (by decide) <| s <|
    .char (c := '<') (by decide) (fun e => by cases e) (fun _ => ⟨[], _, rfl, by simp, by simp [CIriChar, W3CIriForbidden]⟩)
      (fun e => by rcases e with e | e <;> cases e) <| .blank <| m <|
    .word (k := [')']) (by decide) <| .blank <| .word (k := ['}']) (by decide) <| .blank <| .word (k := c!"ORDER") (by decide) <| .blank <|
    .word (k := c!"BY") (by decide) <| .blank <| s <| .word (k := c!"LIMIT") (by decide) <| .blank <|
    .word (k := ['5']) (by decide) .nil

example : ∃ q q', sparqlQueryStmt exOld = .ok [] q ∧ sparqlQueryStmt exNew = .ok [] q' ∧ SwSparqlQueryStatement ⟨Eq, exNames⟩ q q' := by
  have e : ∃ q, sparqlQueryStmt exOld = .ok [] q := ⟨_, rfl⟩
  obtain ⟨q, e⟩ := e
  have e' : ∃ q, sparqlQueryStmt exNew = .ok [] q := ⟨_, rfl⟩
  obtain ⟨q', e'⟩ := e'
  have h := (C69_calm_partial _ _ _ (by decide +kernel) (by decide +kernel) exSwapped).1
  rw [e, e'] at h
  exact ⟨q, q', e, e', h.1⟩

/-- A replacement by at most one: the relation of the example. -/
example : (⟨Eq, exNames⟩ : Swap).Fun := by
  refine ⟨fun h g => h.symm.trans g, fun h g => ?_⟩
  simp only [exNames, List.mem_cons, List.not_mem_nil, or_false, Prod.mk.injEq] at h g
  grind

/-! ## Violated: names of variables read as terms; the empty string -/

/-- `ASK { {} ?n <p> 1 }` -/
def askAfter (n : Str) : Str := c!"ASK { {} ?" ++ (n ++ c!" <p> 1 }")

theorem askAfter_swapped {n n' : Str} (h : VarText n) (h' : VarText n') : Swapped ⟨Eq, fun m m' => m = n ∧ m' = n'⟩ (askAfter n) (askAfter n') := by
  refine .word (k := c!"ASK") (by decide) <| .blank <| .word (k := ['{']) (by decide) <| .blank <| .word (k := c!"{}") (by decide) <| .blank ?_
  refine .var (d := '?') (n := n) (n' := n') (s := c!" <p> 1 }") (s' := c!" <p> 1 }") (.inl rfl) ⟨rfl, rfl⟩ h h' ends_blank ends_blank <| .blank ?_
  refine .iri (m := ['p']) (by decide) (by simp) <| .blank <| .word (k := ['1']) (by decide) <| .blank <| .word (k := ['}']) (by decide) .nil

theorem NoLeak.plain {c : Char} {s : Str} (hc : c ≠ ')' ∧ c ≠ '}') (h : NoLeak s) : NoLeak (c :: s) := by
  intro u b w t e hb
  cases u with
  | nil => cases e; exact absurd hb (by simp [hc.1, hc.2])
  | cons d u => injection e with _ e; exact h u b w t e hb

theorem NoLeak.plains {k s : Str} (hk : ∀ c ∈ k, c ≠ ')' ∧ c ≠ '}') (h : NoLeak s) : NoLeak (k ++ s) := by
  induction k with
  | nil => exact h
  | cons c k ih => exact (ih fun d hd => hk d (List.mem_cons_of_mem _ hd)).plain (hk c (List.mem_cons_self ..))

theorem askAfter_noLeak {n : Str} (h : VarText n) (hn : NoTerm (n ++ c!" <p> 1 }")) : NoLeak (askAfter n) := by
  refine .plains (k := c!"ASK { {") (by decide) ?_
  have hv : ∀ c ∈ n, c ≠ ')' ∧ c ≠ '}' := by
    intro c hc
    have := varText_char (h.2 c hc)
    constructor <;> (rintro rfl; revert this; decide)
  have h1 : NoLeak (c!" ?" ++ (n ++ c!" <p> 1 }")) := .plains (by decide) (.plains hv (calm_noLeak (by decide)))
  intro u b w t e hb hw
  cases u with
  | nil =>
    injection e with _ e
    have e1 := sp_append hw (not_startsWs_cons (c := '?') (r := t) (by decide))
    have e2 := sp_append (w := [' ']) (Ws.cons (a := [' ']) (.char (by decide)) .nil) (not_startsWs_cons (c := '?') (r := n ++ c!" <p> 1 }") (by decide))
    rw [← e] at e1
    have := e1.symm.trans e2
    injection this with this
    injection this with _ this
    rw [this]; exact hn
  | cons d u => injection e with _ e; exact h1 u b w t e hb hw

/-- Violated: after a closing bracket `?` is taken for punctuation and the name of a variable is read as a term.  The query
`ASK { {} ?true <p> 1 }` is accepted and says that the boolean `true`, not a variable, has the property; the same query with almost any other
name is rejected. -/
theorem C69_name_violated (n : Str) (h : VarText n) (hn : NoTerm (n ++ c!" <p> 1 }")) :
    (∃ g p o l m, sparqlQueryStmt (askAfter c!"true") =
      .ok [] ⟨⟨[]⟩, .ask ⟨[], .groupGraphPatternSub (.mk none [.mk g (some ⟨[.term (.term (.booleanLiteral true)) (.mk p o l)]⟩)]), m⟩, none⟩) ∧
    ∃ p k, sparqlQueryStmt (askAfter n) = .err (.error p k) := by
  refine ⟨⟨_, _, _, _, _, rfl⟩, ?_⟩
  have hx : VarText ['x'] := by decide
  have h0 : NoTerm (['x'] ++ c!" <p> 1 }") := by
    refine ⟨by simp [AsciiDigit], ?_, ?_⟩
    · intro k r e
      constructor
      · intro hk
        cases hk with
        | cons h1 _ => injection e with e1 _; subst e1; revert h1; simp [SameLetter]
      · intro hk
        cases hk with
        | cons h1 _ => injection e with e1 _; subst e1; revert h1; simp [SameLetter]
    · rintro ⟨p, w, r, e, _⟩
      have : ':' ∈ (['x'] ++ c!" <p> 1 }" : Str) := by rw [e]; simp
      revert this; decide
  have g := C69_query_partial _ _ _ (.inr ⟨askAfter_noLeak hx h0, askAfter_noLeak h hn⟩) (askAfter_swapped hx h)
  have e : ∃ p k, sparqlQueryStmt (askAfter ['x']) = .err (.error p k) := ⟨_, _, rfl⟩
  obtain ⟨p, k, e⟩ := e
  rw [e] at g
  revert g
  cases sparqlQueryStmt (askAfter n) with
  | ok r v => intro h; cases h
  | err e => cases e <;> intro h <;> first | exact ⟨_, _, rfl⟩ | cases h

/-- With a colon after the name the variable and the colon become a prefixed name. -/
theorem C69_prefix_violated : ∃ g p o l m, sparqlQueryStmt c!"ASK { {} ?xy :pq <q> 1 }" =
    .ok [] ⟨⟨[]⟩, .ask ⟨[], .groupGraphPatternSub (.mk none
      [.mk g (some ⟨[.term (.term (.iri (.prefixedName (.pnameLN (some c!"xy") c!"pq")))) (.mk p o l)]⟩)]), m⟩, none⟩ :=
  ⟨_, _, _, _, _, rfl⟩

/-- Violated: every string is accepted in `ASK { ?x a:bc "..." }` but the empty one. -/
theorem C69_empty_violated (b : Str) (h : QuotedText '"' b) :
    (∃ q, sparqlQueryStmt (askString b) = .ok [] q) ∧ ∃ e, sparqlQueryStmt (askString []) = .err e := by
  obtain ⟨_, q', _, e, _⟩ := C69_askString_partial b h
  exact ⟨⟨q', e⟩, _, rfl⟩

end NomSparql
