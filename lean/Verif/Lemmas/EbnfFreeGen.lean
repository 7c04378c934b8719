import Verif.Lemmas.EbnfGuard

/-!
# Derivations without liberties
-/

namespace NomSparql

open Ebnf

/-- The text is a part of `S`. -/
def PartOf (S s : Str) : Prop := ∃ a b, S = a ++ (s ++ b)

theorem PartOf.left {S x y : Str} : PartOf S (x ++ y) → PartOf S x := fun ⟨a, b, h⟩ => ⟨a, y ++ b, by simp [h]⟩
theorem PartOf.right {S x y : Str} : PartOf S (x ++ y) → PartOf S y := fun ⟨a, b, h⟩ => ⟨a ++ x, b, by simp [h]⟩
theorem PartOf.mid {S x y z : Str} (h : PartOf S (x ++ (y ++ z))) : PartOf S y := h.right.left
theorem PartOf.mem {S s : Str} (h : PartOf S s) {c : Char} (hc : c ∈ s) : c ∈ S := by obtain ⟨a, b, rfl⟩ := h; simp [hc]

variable {S : Str} {D : Dialect} {a b e f : Ebnf}

/-- In `S`, what `e` generates is also generated by `f`. -/
def Conv (S : Str) (D : Dialect) (e f : Ebnf) : Prop := ∀ s, PartOf S s → Gen D e s → Gen D f s

/-- In `S`, nothing is generated by `e`. -/
def Never (S : Str) (D : Dialect) (e : Ebnf) : Prop := ∀ s, PartOf S s → ¬ Gen D e s

theorem Never.of (h : ∀ s, PartOf S s → ¬ CoreIn D e s) : Never S D e := by
  rintro s hs hg
  obtain ⟨w, t, w', rfl, _, h2, _⟩ := gen_coreIn hg
  exact h t hs.mid h2

theorem Conv.of (h : ∀ s, PartOf S s → CoreIn D e s → Gen D f s) : Conv S D e f := by
  rintro s hs hg
  obtain ⟨w, t, w', rfl, h1, h2, h3⟩ := gen_coreIn hg
  exact .before h1 (.after (h t hs.mid h2) h3)

theorem Never.conv (h : Never S D e) : Conv S D e f := fun s hs hg => absurd hg (h s hs)
theorem Conv.refl : Conv S D e e := fun _ _ h => h
theorem Conv.seq {a' b' : Ebnf} (ht : ∀ s t, D.touch s t) (ha : Conv S D a a') (hb : Conv S D b b') : Conv S D (a ⬩ b) (a' ⬩ b') :=
  .of fun _ hs ⟨_, _, he, hx, hy⟩ => by subst he; exact .seq (ha _ hs.left hx) (hb _ hs.right hy) (ht _ _)
theorem Conv.alt (ha : Conv S D a f) (hb : Conv S D b f) : Conv S D (a ⫾ b) f :=
  .of fun s hs h => h.elim (ha s hs) (hb s hs)
theorem Conv.inl (h : Conv S D a e) : Conv S D a (e ⫾ f) := fun s hs hg => .left (h s hs hg)
theorem Conv.inr (h : Conv S D a f) : Conv S D a (e ⫾ f) := fun s hs hg => .right (h s hs hg)
theorem Conv.maybe (h : Conv S D a b) : Conv S D (maybe a) (maybe b) := .alt (.inl h) (.inr .refl)

theorem Conv.star (ht : ∀ s t, D.touch s t) (h : Conv S D a b) : Conv S D (.star a) (.star b) := by
  intro s hs hg
  generalize he : Ebnf.star a = e at hg
  induction hg with
  | stop => exact .stop
  | more h1 h2 _ _ ih => cases he; exact .more (h _ hs.left h1) (ih hs.right rfl) (ht _ _)
  | before hw _ ih => exact .before hw (ih hs.right he)
  | after _ hw ih => exact .after (ih hs.left he) hw
  | _ => cases he

theorem Never.seqL (h : Never S D a) : Never S D (a ⬩ b) := .of fun _ hs ⟨_, _, he, hx, _⟩ => by subst he; exact h _ hs.left hx
theorem Never.choice {l : List Ebnf} (hne : l ≠ []) (h : ∀ e ∈ l, Never S D e) : Never S D (choice l) := by
  induction l with
  | nil => exact absurd rfl hne
  | cons a l ih =>
    cases l with
    | nil => exact h a (by simp)
    | cons b l =>
      refine .of fun s hs hg => ?_
      rcases hg with hg | hg
      · exact h a (by simp) s hs hg
      · exact ih (by simp) (fun e he => h e (by simp [he])) s hs hg

/-! ## The additional productions -/

theorem caseVariant_a {s : Str} (h : CaseVariant c!"a" s) : s = c!"a" ∨ s = c!"A" := by
  cases h with
  | @cons _ y _ _ h h' =>
    cases h'
    rcases h with rfl | ⟨_, _, h⟩
    · exact .inl rfl
    · refine .inr (congrArg (fun c => [c]) (Char.ext (UInt32.toNat_inj.mp ?_)))
      have h4 : ('a' : Char).toNat = 97 := rfl
      have h5 : ('A' : Char).val.toNat = 65 := rfl
      have : y.val.toNat = y.toNat := rfl
      omega

theorem conv_a (h : 'A' ∉ S) : Conv S D (.k c!"a") (.p c!"a") := .of fun s hs hk => by
  rcases caseVariant_a hk with rfl | rfl
  · exact .p
  · exact absurd (hs.mem (by simp)) h

theorem conv_dots (h : DevFree .dots S) : Conv S D (plus (.p c!".")) (.p c!".") := .of fun s hs hk => by
  obtain ⟨x, y, rfl, hx, hy⟩ := hk
  obtain ⟨w, _, w', rfl, h1, rfl, h2⟩ := gen_coreIn hx
  obtain ⟨v, z, v', rfl, h3, h4, h5⟩ := gen_coreIn hy
  rcases h4 with rfl | ⟨y, z, rfl, hy, hz⟩
  · have : Gen D (.p c!".") (w ++ (c!"." ++ w' ++ (v ++ ([] ++ v')))) := .before h1 (.after (.after .p h2) (h3.append (by simpa using h5)))
    simpa using this
  · obtain ⟨u, _, u', rfl, h6, rfl, h7⟩ := gen_coreIn hy
    obtain ⟨a, b, rfl⟩ := hs
    exact absurd (by simp) (h (a ++ w) (w' ++ (v ++ u)) (u' ++ (z ++ (v' ++ b))) (h2.append (h3.append h6)))

/-- Several dots after a triple. -/
theorem conv_triples {m : Ebnf} (ht : ∀ s t, D.touch s t) (h : DevFree .dots S) :
    Conv S D (e ⬩ plus (.p c!".") ⬩ maybe m) (e ⬩ maybe (.p c!"." ⬩ maybe m)) :=
  .seq ht .refl (.inl (.seq ht (conv_dots h) .refl))

/-- The terminals of the dialect with liberties contain a digit where they are numbers. -/
theorem numberText_digit {s : Str} (h : w3cTerm .number s ∨ crateTerm .number s) : ∃ c ∈ s, AsciiDigit c := by
  have int : ∀ {s}, W3CInteger s → ∃ c ∈ s, AsciiDigit c := by
    rintro s ⟨hn, hd⟩
    cases s with
    | nil => exact absurd rfl hn
    | cons c s => exact ⟨c, by simp, hd c (by simp)⟩
  have num : ∀ {s}, W3CNumber s → ∃ c ∈ s, AsciiDigit c := by
    rintro s (h | ⟨a, b, rfl, _, h⟩ | ⟨a, b, e, rfl, h, _⟩ | ⟨b, e, rfl, h, _⟩ | ⟨a, e, rfl, h, _⟩) <;>
      obtain ⟨c, hc, hd⟩ := int h <;> exact ⟨c, by simp [hc], hd⟩
  rcases h with h | ⟨⟨v, h⟩, _⟩
  · exact num h
  · obtain ⟨sg, x, rfl, _, _, h' | ⟨a, c, rfl, h', _⟩⟩ := number_w3c h
    · obtain ⟨c, hc, hd⟩ := num h'
      exact ⟨c, by simp [hc], hd⟩
    · exact ⟨c, by simp, h'⟩

/-- The dialect in which the text `S` is written. -/
abbrev nearIn (S : Str) (dev : Dev → Prop) : Dialect := near (fun l => ¬ LibFree l S) (fun d => dev d ∧ ¬ DevFree d S)

/-! What can begin and end the parts of a triple or a group. -/

theorem nameHead_append {o : Str} {w t : Str} (hn : ∀ c ∈ o, CodedNameChar c ∨ W3CPnChars c ∨ c = '.') (hw : Ws w) : NameHead (o ++ (w ++ ':' :: t)) :=
  ⟨o, w, t, rfl, hn, hw⟩

theorem pnameNs_head {s u : Str} (h : w3cTerm .pnameNs s ∨ crateTerm .pnameNs s) : NameHead (s ++ u) := by
  rcases h with (rfl | ⟨x, rfl, c, t, rfl, hc, ht⟩) | ⟨o, _, _, rfl, ⟨rfl, ho⟩, w, _, rfl, hw, rfl⟩
  · exact nameHead_append (o := []) (w := []) (by simp) .nil
  · have : NameHead ((c :: t) ++ ([] ++ ':' :: u)) := nameHead_append (fun d hd => .inr ?_) .nil
    · simpa using this
    · rcases List.mem_cons.mp hd with rfl | hd
      · exact .inl (.inl (.inl hc))
      · rcases ht with rfl | ⟨a, e, rfl, ha, he⟩
        · cases hd
        · rcases List.mem_append.mp hd with hd | hd
          · exact ha d hd
          · simp at hd; subst hd; exact .inl he
  · have : NameHead (prefixText o ++ (w ++ ':' :: u)) := nameHead_append (fun d hd => ?_) hw
    · simpa using this
    · cases o with
      | none => cases hd
      | some x =>
        obtain ⟨c, t, rfl, hc, ht⟩ := ho
        rcases List.mem_cons.mp hd with rfl | hd
        · exact .inl (.inl hc)
        · exact (ht.1 d hd).imp id .inr

theorem iri_heads {dev : Dev → Prop} : Heads (nearIn S dev) (.n .iri) IriHead := by
  refine .n (.alt (.t ?_) (.n (.alt (.t ?_) (.t ?_)) fun d => by cases d <;> rfl)) fun d => by cases d <;> rfl
  · intro s u h
    obtain ⟨x, rfl, _⟩ : w3cTerm .iriRef s := h.elim id And.left
    exact ⟨[], _, rfl, .nil, .inl ⟨_, rfl⟩⟩
  · intro s u h
    refine ⟨[], s ++ u, rfl, .nil, .inr ?_⟩
    rcases h with ⟨x, y, rfl, hx, _⟩ | ⟨⟨o, l, x, y, rfl, hx, _⟩, _⟩ <;> rw [List.append_assoc]
    · exact pnameNs_head (.inl hx)
    · exact pnameNs_head (.inr ⟨o, hx⟩)
  · exact fun s u h => ⟨[], _, rfl, .nil, .inr (pnameNs_head (h.imp id And.left))⟩

theorem object_heads {dev : Dev → Prop} : Heads (nearIn S dev) (.n .objectPath) ObjectHead := by
  have one : ∀ {c : Char} {t : Str}, (c ∈ ['?', '$', '"', '\'', '+', '-', '.', '(', '['] ∨ AsciiDigit c) → ∃ w x, c :: t = w ++ x ∧ Ws w ∧ ObjectHead x :=
    fun h => ⟨[], _, rfl, .nil, .inl ⟨_, _, rfl, h⟩⟩
  have int : ∀ {s u : Str}, W3CInteger s → ∃ c t, s ++ u = c :: t ∧ AsciiDigit c := by
    rintro s u ⟨hn, hd⟩
    cases s with
    | nil => exact absurd rfl hn
    | cons c s => exact ⟨c, s ++ u, rfl, hd c (by simp)⟩
  have num : ∀ {s u : Str}, W3CNumber s → ∃ c t, s ++ u = c :: t ∧ (c = '.' ∨ AsciiDigit c) := by
    have lift : ∀ {s u : Str}, W3CInteger s → ∃ c t, s ++ u = c :: t ∧ (c = '.' ∨ AsciiDigit c) := fun h =>
      (int h).imp fun _ h => h.imp fun _ h => ⟨h.1, .inr h.2⟩
    rintro s u (h | ⟨a, b, rfl, ha, _⟩ | ⟨a, b, e, rfl, h, _⟩ | ⟨b, e, rfl, h, _⟩ | ⟨a, e, rfl, h, _⟩)
    · exact lift h
    · cases a with
      | nil => exact ⟨'.', b ++ u, rfl, .inl rfl⟩
      | cons c a => exact ⟨c, _, rfl, .inr (ha c (by simp))⟩
    · rw [List.append_assoc]; exact lift h
    · exact ⟨'.', _, rfl, .inl rfl⟩
    · rw [List.append_assoc]; exact lift h
  have numeric : ∀ {v : NumericLiteral} {s u : Str}, rNumericLiteral v s → ∃ w x, s ++ u = w ++ x ∧ Ws w ∧ ObjectHead x := by
    intro v s u h
    obtain ⟨sg, x, rfl, hs, _, hx⟩ := number_w3c h
    simp at hs
    rcases hs with rfl | rfl | rfl
    · rcases hx with hx | ⟨a, c, rfl, hc, ha⟩
      · obtain ⟨c, t, he, hc⟩ := num (u := u) hx
        rw [List.nil_append, he]
        exact one (hc.imp (by rintro rfl; simp) id)
      · cases a with
        | nil => exact one (.inr hc)
        | cons d a => exact one (.inr (ha d (by simp)))
    · exact one (.inl (by simp))
    · exact one (.inl (by simp))
  have number : ∀ x, x = .number ∨ x = .signedNumber → Heads (nearIn S dev) (.t x) ObjectHead := by
    rintro x (rfl | rfl) <;> refine .t fun s u h => ?_
    · rcases h with h | ⟨⟨⟨v, h⟩, _⟩, _⟩
      · obtain ⟨c, t, he, hc⟩ := num (u := u) h
        rw [he]
        exact one (hc.imp (by rintro rfl; simp) id)
      · exact numeric h
    · rcases h with ⟨x, rfl | rfl, _⟩ | ⟨⟨⟨v, h⟩, _⟩, _⟩
      · exact one (.inl (by simp))
      · exact one (.inl (by simp))
      · exact numeric h
  have word : ∀ w, w = c!"true" ∨ w = c!"false" → Heads (nearIn S dev) (.k w) ObjectHead := by
    rintro w (rfl | rfl) <;> refine .k fun v t h => .inr (.inr ⟨v, t, rfl, ?_⟩)
    · exact .inl h
    · exact .inr h
  have nil : Heads (nearIn S dev) (.t .nil) ObjectHead := .t fun s u h => by
    rcases h with ⟨w, rfl, _⟩ | ⟨⟨_, _, rfl, rfl, w, _, rfl, _⟩, _⟩
    · exact one (.inl (by simp))
    · exact one (.inl (by simp))
  have anon : Heads (nearIn S dev) (.t .anon) ObjectHead := .t fun s u h => by
    rcases h with ⟨w, rfl, _⟩ | ⟨⟨_, _, rfl, rfl, w, _, rfl, _⟩, _⟩
    · exact one (.inl (by simp))
    · exact one (.inl (by simp))
  have label : Heads (nearIn S dev) (.t .blankNodeLabel) ObjectHead := .t fun s u h => by
    have : ∃ t, s = '_' :: ':' :: t := by
      rcases h with ⟨c, t, rfl, _⟩ | ⟨⟨_, _, _, rfl, rfl, w, _, rfl, _⟩, _⟩
      · exact ⟨_, rfl⟩
      · exact ⟨_, rfl⟩
    obtain ⟨t, rfl⟩ := this
    exact ⟨[], _, rfl, .nil, .inr (.inl (.inr ⟨['_'], [], t ++ u, rfl, by simp [CodedNameChar], .nil⟩))⟩
  have string : Heads (nearIn S dev) (.t .string) ObjectHead := .t fun s u h => by
    rcases h with ⟨q, x, hq, ⟨rfl, _⟩ | ⟨rfl, _⟩⟩ | ⟨⟨x, q, hq, rfl, _⟩, _⟩ <;> rcases hq with rfl | rfl <;> exact one (.inl (by simp))
  have var : Heads (nearIn S dev) (.t .var) ObjectHead := .t fun s u h => by
    rcases h with ⟨g, c, a, rfl, hg, _⟩ | ⟨⟨v, _, _, rfl, rfl, _⟩, _⟩
    · rcases hg with rfl | rfl <;> exact one (.inl (by simp))
    · cases v <;> exact one (.inl (by simp [sigil]))
  have iri : Heads (nearIn S dev) (.n .iri) ObjectHead := iri_heads.imp fun _ h => .inr (.inl h)
  have open' : ∀ w e, w = c!"(" ∨ w = c!"[" → Heads (nearIn S dev) (.p w ⬩ e) ObjectHead := by
    rintro w e (rfl | rfl) <;> exact .seq (.p fun t => .inl ⟨_, _, rfl, .inl (by simp)⟩)
  have term : Heads (nearIn S dev) (.n .graphTerm) ObjectHead :=
    .n (.alt iri (.alt (.n (.seq string) fun d => by cases d <;> rfl) (.alt (.n (.alt (number _ (.inl rfl)) (number _ (.inr rfl))) fun d => by cases d <;> rfl)
      (.alt (.n (.alt (word _ (.inl rfl)) (word _ (.inr rfl))) fun d => by cases d <;> rfl) (.alt (.n (.alt label anon) fun d => by cases d <;> rfl) nil))))) fun d => by cases d <;> rfl
  exact .n (.n (.alt (.n (.alt var term) fun d => by cases d <;> rfl) (.n (.alt (.n (open' _ _ (.inl rfl)) fun d => by cases d <;> rfl)
    (.n (open' _ _ (.inr rfl)) fun d => by cases d <;> rfl)) fun d => by cases d <;> rfl)) fun d => by cases d <;> rfl) fun d => by cases d <;> rfl

/-- An expression that can only begin in a way excluded by the text. -/
theorem Never.head {q : Str → Prop} (hq : Heads D e q) (h : ∀ x w b, Ws w → S = x ++ (w ++ b) → ¬ q b) : Never S D e := by
  rintro s ⟨x, y, hs⟩ hg
  obtain ⟨w, t, he, hw, ht⟩ := hq s y hg
  exact h x w t hw (by rw [hs, he]) ht

/-- A fixed text, then something that cannot follow it. -/
theorem Never.pThen {v : Str} {q : Str → Prop} (hq : Heads D b q) (h : ∀ x w t, Ws w → S = x ++ (v ++ (w ++ t)) → ¬ q t) : Never S D (.p v ⬩ b) :=
  .of fun s ⟨x, y, hs⟩ ⟨c, d, he, hc, hd⟩ => by
    subst he
    obtain ⟨u, _, u', rfl, h1, rfl, h2⟩ := gen_coreIn hc
    obtain ⟨w, t, he, hw, ht⟩ := hq d y hd
    exact h (x ++ u) (u' ++ w) t (h2.append hw) (by simp [hs, he]) ht

/-- A keyword, then something that cannot follow it. -/
theorem Never.kThen {f : Str} {q : Str → Prop} (hq : Heads D b q) (h : NotBefore f S q) : Never S D (.k f ⬩ b) :=
  .of fun s ⟨x, y, hs⟩ ⟨c, d, he, hc, hd⟩ => by
    subst he
    obtain ⟨u, v, u', rfl, h1, hv, h2⟩ := gen_coreIn hc
    obtain ⟨w, t, he, hw, ht⟩ := hq d y hd
    exact h (x ++ u) v (u' ++ w) t hv (h2.append hw) (by simp [hs, he]) ht

theorem nil_closed {dev : Dev → Prop} : EndsClosed (nearIn S dev) (.t .nil) := .of fun s h => by
  rcases h with ⟨w, rfl, _⟩ | ⟨⟨_, _, rfl, rfl, w, _, rfl, _, rfl⟩, _⟩
  · exact ⟨'(' :: w, ')', [], by simp, .inr rfl, .nil⟩
  · exact ⟨'(' :: w, ')', [], by simp, .inr rfl, .nil⟩

theorem nil_heads {dev : Dev → Prop} : Heads (nearIn S dev) (.t .nil) fun b => ∃ t, b = '(' :: t := .t fun s u h => by
  rcases h with ⟨w, rfl, _⟩ | ⟨⟨_, _, rfl, rfl, w, _, rfl, _⟩, _⟩
  · exact ⟨[], _, rfl, .nil, _, rfl⟩
  · exact ⟨[], _, rfl, .nil, _, rfl⟩

theorem parens_heads : Heads D (parens e) fun b => ∃ t, b = '(' :: t := .seq (.p fun t => ⟨t, rfl⟩)

theorem parens2_heads (h : Heads D e fun b => ∃ t, b = '(' :: t) : Heads D (parens e) fun b => ∃ w t, Ws w ∧ b = '(' :: (w ++ '(' :: t) := .of fun s u hg => by
  obtain ⟨x, y, rfl, hx, hy⟩ := hg
  obtain ⟨w, _, w', rfl, h1, rfl, h2⟩ := gen_coreIn hx
  obtain ⟨y, z, w'', rfl, h3, ⟨y', z', he, hy', _⟩, _⟩ := gen_coreIn hy
  subst he
  obtain ⟨v, t, he, hv, t', rfl⟩ := h y' (z' ++ (w'' ++ u)) hy'
  exact ⟨w, '(' :: ((w' ++ (y ++ v)) ++ '(' :: t'), by simp [← he], h1, _, _, h2.append (h3.append hv), rfl⟩

theorem group_closed {dev : Dev → Prop} : EndsClosed (nearIn S dev) (.n .groupGraphPattern) := .n .braces fun d _ he => by cases d <;> cases he

theorem argList_closed {dev : Dev → Prop} : EndsClosed (nearIn S dev) (.n .argList) := .n (.alt nil_closed .parens) fun d _ he => by cases d <;> cases he
theorem expressionList_closed {dev : Dev → Prop} : EndsClosed (nearIn S dev) (.n .expressionList) := .n (.alt nil_closed .parens) fun d _ he => by cases d <;> cases he
theorem substring_closed {dev : Dev → Prop} : EndsClosed (nearIn S dev) (.n .substringExpression) := .n (.seq .parens) fun d _ he => by cases d <;> cases he

theorem builtIn_closed {dev : Dev → Prop} : EndsClosed (nearIn S dev) (.n .builtInCall) := by
  refine .n (.choice (by simp) fun e he => ?_) fun d e he => ?_
  · simp only [List.mem_cons, List.mem_append, List.mem_map] at he
    rcases he with rfl | rfl | rfl | rfl | rfl | rfl | rfl | rfl | rfl | rfl | rfl | (⟨w, _, rfl⟩ | ⟨w, _, rfl⟩) | ⟨w, _, rfl⟩
    · refine .n (.choice (by simp) fun e he => ?_) fun d _ he => by cases d <;> cases he
      simp only [List.mem_cons, List.mem_map] at he
      rcases he with rfl | rfl | ⟨w, _, rfl⟩ <;> exact .seq .parens
    · exact substring_closed
    · exact .n (.seq .parens) fun d _ he => by cases d <;> cases he
    · exact .n (.seq .parens) fun d _ he => by cases d <;> cases he
    · exact .n (.seq group_closed) fun d _ he => by cases d <;> cases he
    · exact .n (.seq (.seq group_closed)) fun d _ he => by cases d <;> cases he
    · exact .seq .parens
    · exact .seq (.alt .parens nil_closed)
    · exact .seq expressionList_closed
    · exact .seq expressionList_closed
    · exact .seq .parens
    · exact .seq .parens
    · exact .seq .parens
    · exact .seq nil_closed
  · cases d <;> cases he
    refine .choice (by simp) fun e he => ?_
    simp only [List.mem_cons, List.mem_map] at he
    rcases he with rfl | rfl | rfl | rfl | ⟨w, _, rfl⟩
    · exact .seq .parens
    · exact .seq .parens
    · exact .seq (.seq substring_closed)
    · exact .seq (.seq .parens)
    · exact .seq .parens

/-- A part of a group that is not a block of triples ends with a closing bracket. -/
theorem part_closed {dev : Dev → Prop} : EndsClosed (nearIn S dev) (.n .graphPatternNotTriples) := by
  refine .n (.choice (by simp) fun e he => ?_) fun d _ he => by cases d <;> cases he
  simp only [List.mem_cons, List.not_mem_nil, or_false] at he
  rcases he with rfl | rfl | rfl | rfl | rfl | rfl | rfl | rfl <;> refine .n ?_ fun d _ he => by cases d <;> cases he
  · exact .star group_closed (.seq group_closed)
  · exact .seq group_closed
  · exact .seq group_closed
  · exact .seq (.seq group_closed)
  · exact .seq (.seq (.seq group_closed))
  · exact .seq (.n (.alt (.n .parens fun d _ he => by cases d <;> cases he) (.alt builtIn_closed
      (.n (.seq argList_closed) fun d _ he => by cases d <;> cases he))) fun d _ he => by cases d <;> cases he)
  · exact .seq .parens
  · exact .seq (.n (.alt (.n (.seq .braces) fun d _ he => by cases d <;> cases he) (.n (.seq .braces) fun d _ he => by cases d <;> cases he))
      fun d _ he => by cases d <;> cases he)

/-- The question mark is not needed. -/
theorem conv_mark {dev : Dev → Prop} {m : Ebnf} (h : DevFree .questionMark S) :
    Conv S (nearIn S dev) (.n .graphPatternNotTriples ⬩ maybe (.p c!"?") ⬩ m) (.n .graphPatternNotTriples ⬩ maybe (.p c!".") ⬩ m) :=
  .of fun s hs ⟨x, y, he, hx, hy⟩ => by
    subst he
    refine .seq hx ?_ trivial
    obtain ⟨v, t, v', rfl, h1, ⟨z, u, rfl, hz, hu⟩, h2⟩ := gen_coreIn hy
    refine .before h1 (.after (.seq ?_ hu trivial) h2)
    obtain ⟨w, t, w', rfl, h3, h4 | h4, h5⟩ := gen_coreIn (e := .p c!"?" ⫾ .nothing) hz
    · obtain ⟨w1, _, w2, rfl, h6, rfl, h7⟩ := gen_coreIn h4
      obtain ⟨x, c, w0, rfl, hc, hw0⟩ := part_closed x hx
      obtain ⟨a, b, hs⟩ := hs
      exact absurd (by simp [hs]) (h (a ++ x) c (w0 ++ (v ++ (w ++ w1))) (w2 ++ (w' ++ (u ++ (v' ++ b)))) hc (hw0.append (h1.append (h3.append h6))))
    · exact .before h3 (.after (.right h4) h5)

/-- Where an expression stands: between the brackets it needs, and behind an even number of quotation marks. -/
structure Stands (S : Str) (e : Ebnf) (a b : Str) : Prop where
  verb : verbBehind.At e a
  sum : sumBehind.At e a
  number : numberBehind.At e a
  closed : trails e = true → ')' ∈ b
  quiet : quiet e = true
  even : Unbroken S → a.count '"' % 2 = 0

theorem Stands.brace {x : Nt} {a b : Str} (h : Stands S (.n x) a b) (hx : verbBehind.nt x = true) : ∃ a1 a2, a = a1 ++ '{' :: a2 := by
  obtain ⟨g, hg, a1, a2, rfl⟩ := h.verb hx
  simp [verbBehind] at hg
  subst hg
  exact ⟨a1, a2, rfl⟩

/-- In a text that is free of an additional production, the production is not needed. -/
theorem conv_extra {dev : Dev → Prop} {d : Dev} {x : Nt} {a s b : Str} (he : extra d x = some e) (h : DevFree d S) (hs : S = a ++ (s ++ b))
    (hst : Stands S (.n x) a b) (hg : Gen (nearIn S dev) e s) : Gen (nearIn S dev) (rule x) s := by
  have ht : ∀ s t, (nearIn S dev).touch s t := fun _ _ => trivial
  have part : PartOf S s := ⟨a, b, hs⟩
  cases d with
  | upperA =>
    have hA : verbBehind.nt x = true → ∃ T, 'A' ∉ T ∧ PartOf T s := by
      intro hx
      obtain ⟨a1, a2, rfl⟩ := hst.brace hx
      exact ⟨a2 ++ (s ++ b), h a1 _ (by simp [hs]), a2, b, rfl⟩
    cases x <;> cases he
    · obtain ⟨T, hT, hp⟩ := hA rfl
      exact (Conv.inr (conv_a hT)) s hp hg
    · obtain ⟨T, hT, hp⟩ := hA rfl
      exact (Conv.alt (.inr (.inl (conv_a hT))) (.inr (.inr (.seq ht .refl (.inr (conv_a hT)))))) s hp hg
  | dots => cases x <;> cases he <;> exact conv_triples ht h s part hg
  | semicolons =>
    cases x <;> cases he
    refine (Conv.seq ht .refl (.star ht (Never.pThen object_heads fun x w t hw e => ?_).conv)) s part hg
    exact h x w t hw e
  | questionMark =>
    cases x <;> cases he
    exact (Conv.seq ht .refl (.star ht (conv_mark h))) s part hg
  | number =>
    cases x <;> cases he
    obtain ⟨g, hg', a1, a2, rfl⟩ := hst.sum rfl
    simp [sumBehind] at hg'
    subst hg'
    obtain ⟨b1, b2, rfl⟩ := List.append_of_mem (hst.closed rfl)
    have hN : Never s (nearIn S dev) (.t .number) := .of fun s' hs' hn => by
      obtain ⟨c, hc, hd⟩ := numberText_digit (s := s') (hn.imp id And.left)
      obtain ⟨x, y, hx⟩ := List.append_of_mem (hs'.mem hc)
      exact h a1 (a2 ++ x) c (y ++ b1) b2 hd (by simp [hs, hx])
    exact (Conv.seq (S := s) ht .refl (.star ht (.alt (.inl .refl) (.inr (.alt (.inl .refl) (.inr (.seq ht (.alt hN.conv .refl) .refl)))))))
      s ⟨[], [], by simp⟩ hg
  | calls =>
    cases x <;> cases he
    refine (Never.choice (by simp) fun e he => ?_).conv s part hg
    simp only [List.mem_cons, List.mem_map] at he
    rcases he with rfl | rfl | rfl | rfl | ⟨w, hw, rfl⟩
    · exact .kThen parens_heads (h.1 _ (by simp))
    · exact .kThen (parens2_heads nil_heads) (h.2 _ (by simp))
    · exact .kThen (.seq (.n (.alt nil_heads parens_heads) fun d => by cases d <;> rfl)) (h.1 _ (by simp))
    · exact .kThen (.seq (.n parens_heads fun d => by cases d <;> rfl)) (h.1 _ (by simp))
    · exact .kThen (parens2_heads nil_heads) (h.2 _ (by simp [hw]))
  | modify =>
    cases x <;> cases he
    · exact (Conv.seq ht (.maybe (Never.kThen iri_heads h.2).conv) .refl) s part hg
    · exact (Never.kThen (.n (.seq (.p fun t => ⟨t, rfl⟩)) fun d => by cases d <;> rfl) h.1).conv s part hg

/-- A text that the crate's grammar generates is generated by SPARQL 1.1 with the liberties the text is not free of. -/
theorem gen_near {dev : Dev → Prop} {e : Ebnf} {s : Str} (h : Gen (lax dev) e s) : ∀ {a b : Str}, S = a ++ (s ++ b) → Stands S e a b → Gen (nearIn S dev) e s := by
  have keep : ∀ {a s t b : Str} {e f : Ebnf}, S = a ++ ((s ++ t) ++ b) → (Unbroken S → a.count '"' % 2 = 0) → Gen (lax dev) f s → quiet f = true →
      Unbroken S → (a ++ s).count '"' % 2 = 0 := by
    intro a s t b e f hs he hg hq hu
    have := gen_quotes hg hq (by have := hu.1; rw [hs] at this; simp at this; exact ⟨this.1.2.1, this.2.1.2.1, this.2.2.2.1⟩)
    have := he hu
    rw [List.count_append]; omega
  induction h with
  | @t x s h =>
    intro a b hs hst
    obtain ⟨w, s', rfl, hw, h⟩ := term_free hs (fun hx => by
      obtain ⟨g, hg, a1, a2, rfl⟩ := hst.number (by rcases hx with rfl | rfl <;> rfl)
      simp [numberBehind] at hg
      rcases hg with rfl | rfl <;> simp) hst.even h
    exact .before hw (.t (h.imp id fun ⟨h, l, h1, h2⟩ => ⟨h, l, h1, h2⟩))
  | k h => exact fun _ _ => .k h
  | p => exact fun _ _ => .p
  | n _ ih => exact fun hs h => .n (ih hs ⟨h.verb.rule verbBehind_closed, h.sum.rule sumBehind_closed, h.number.rule numberBehind_closed, fun ho => h.closed (trails_rule _ ho), quiet_rule _, h.even⟩)
  | @extra d x e s h1 h2 _ ih =>
    intro a b hs h
    have ih := ih hs ⟨h.verb.extra verbBehind_closed h2, h.sum.extra sumBehind_closed h2, h.number.extra numberBehind_closed h2, fun ho => h.closed (trails_extra h2 ho), quiet_extra h2, h.even⟩
    by_cases hd : DevFree d S
    · exact .n (conv_extra h2 hd hs h ih)
    · exact .extra ⟨h1, hd⟩ h2 ih
  | nothing => exact fun _ _ => .nothing
  | @seq e f s t h1 h2 _ iha ihb =>
    intro a b hs h
    have hq : quiet e = true ∧ quiet f = true := by simpa [quiet] using h.quiet
    refine .seq (iha (b := t ++ b) (by simp [hs]) ⟨h.verb.seqL, h.sum.seqL, h.number.seqL, fun ho => ?_, hq.1, h.even⟩)
      (ihb (a := a ++ s) (b := b) (by simp [hs]) ⟨h.verb.seqR h1, h.sum.seqR h1, h.number.seqR h1, fun ho => h.closed (by simp [trails, ho]), hq.2, keep (e := e) hs h.even h1 hq.1⟩) trivial
    cases hc : closes f with
    | true => simp [gen_closes h2 hc]
    | false => exact List.mem_append.mpr (.inr (h.closed (by simp [trails, ho, hc])))
  | left _ ih => exact fun hs h => .left (ih hs ⟨h.verb.altL, h.sum.altL, h.number.altL, fun ho => h.closed (by simp [trails, ho]), (by simpa [quiet] using h.quiet : _ ∧ _).1, h.even⟩)
  | right _ ih => exact fun hs h => .right (ih hs ⟨h.verb.altR, h.sum.altR, h.number.altR, fun ho => h.closed (by simp [trails, ho]), (by simpa [quiet] using h.quiet : _ ∧ _).2, h.even⟩)
  | stop => exact fun _ _ => .stop
  | @more e s t h1 h2 _ iha ihb =>
    intro a b hs h
    exact .more (iha (b := t ++ b) (by simp [hs]) ⟨h.verb.star, h.sum.star, h.number.star, fun ho => List.mem_append.mpr (.inr (h.closed (by simp [trails, ho]))), by simpa [quiet] using h.quiet, h.even⟩)
      (ihb (a := a ++ s) (b := b) (by simp [hs]) ⟨h.verb.more, h.sum.more, h.number.more, h.closed, h.quiet, keep (e := e) hs h.even h1 (by simpa [quiet] using h.quiet)⟩) trivial
  | @before e w s hw _ ih =>
    intro a b hs h
    refine .before hw (ih (a := a ++ w) (b := b) (by simp [hs]) ⟨h.verb.more, h.sum.more, h.number.more, h.closed, h.quiet, keep (e := e) hs h.even (f := .nothing) ?_ rfl⟩)
    simpa using Gen.before hw (.nothing (D := lax dev))
  | @after e w s _ hw ih => exact fun {a b} hs h => .after (ih (a := a) (b := w ++ b) (by rw [hs, List.append_assoc])
      { h with closed := fun ho => List.mem_append.mpr (.inr (h.closed ho)) }) hw

theorem gen_near_top {dev : Dev → Prop} {x : Nt} {s : Str} (h : Gen (lax dev) (.n x) s) (hx : x = .query ∨ x = .update) : Gen (nearIn s dev) (.n x) s :=
  gen_near h (a := []) (b := []) (by simp) (by rcases hx with rfl | rfl <;> exact ⟨fun h => (by cases h), fun h => (by cases h), fun h => (by cases h), fun h => (by cases h), rfl, fun _ => rfl⟩)

/-- Without liberties it is SPARQL 1.1. -/
theorem gen_wide {lib : Lib → Prop} {dev : Dev → Prop} {e : Ebnf} {s : Str} (hl : ∀ l, ¬ lib l) (hd : ∀ d, ¬ dev d) (h : Gen (near lib dev) e s) : Gen sparqlWide e s := by
  induction h with
  | t h => exact .t (h.elim id fun ⟨_, l, h1, _⟩ => absurd h1 (hl l))
  | k h => exact .k h
  | p => exact .p
  | n _ ih => exact .n ih
  | extra h _ _ _ => exact absurd h (hd _)
  | nothing => exact .nothing
  | seq _ _ _ iha ihb => exact .seq iha ihb trivial
  | left _ ih => exact .left ih
  | right _ ih => exact .right ih
  | stop => exact .stop
  | more _ _ _ iha ihb => exact .more iha ihb trivial
  | before hw _ ih => exact .before hw ih
  | after _ hw ih => exact .after ih hw

end NomSparql
