import Verif.Spec.EbnfPlain
import Verif.Lemmas.Lex
import Verif.Lemmas.Names
import Verif.Lemmas.EbnfScan

/-!
# Requests of graph management operations, from the grammar to canonical texts
-/

namespace NomSparql

open Ebnf

/-! ## The part is a part -/

theorem spaced_apart {s t : Str} (h : Spaced s t) : Apart s t := by
  have key : ∀ c, WordChar c → ¬ (IsBlank c ∨ c = '#') := by
    rintro c hw (hb | rfl)
    · simp only [IsBlank, List.mem_cons, List.not_mem_nil, or_false] at hb
      rcases hb with rfl | rfl | rfl | rfl <;> revert hw <;> simp [WordChar, W3CPnChars, W3CPnCharsU, W3CPnCharsBase, AsciiDigit, W3CCombining]
    · revert hw; simp [WordChar, W3CPnChars, W3CPnCharsU, W3CPnCharsBase, AsciiDigit, W3CCombining]
  refine .inr ?_
  rintro a c d b ha hb ⟨hc, hd⟩
  rcases h a c d b ha hb with h | h
  · exact key c hc (.inl h)
  · exact key d hd h

theorem plain_legal {e : Ebnf} {s : Str} (h : Gen plain e s) : Gen sparql e s := by
  induction h with
  | @t x s h =>
    refine .t ?_
    cases x <;> first | exact h.1 | exact h.elim
  | k h => exact .k h
  | p => exact .p
  | n _ ih => exact .n ih
  | extra h => exact h.elim
  | nothing => exact .nothing
  | seq _ _ h iha ihb => exact .seq iha ihb (spaced_apart h)
  | left _ ih => exact .left ih
  | right _ ih => exact .right ih
  | stop => exact .stop
  | more _ _ h iha ihb => exact .more iha ihb (spaced_apart h)
  | before hw _ ih => exact .before hw ih
  | after _ hw ih => exact .after ih hw

/-! ## Reading a derivation -/

/-- White space around. -/
def Pad (L : Lang) : Lang := fun s => ∃ w t w', s = w ++ (t ++ w') ∧ Ws w ∧ L t ∧ Ws w'

theorem Pad.mono {L M : Lang} (h : ∀ s, L s → M s) {s : Str} : Pad L s → Pad M s := by
  rintro ⟨w, t, w', rfl, h1, h2, h3⟩; exact ⟨w, t, w', rfl, h1, h _ h2, h3⟩

theorem Pad.idem {L : Lang} {s : Str} : Pad (Pad L) s → Pad L s := by
  rintro ⟨w, _, w', rfl, h1, ⟨v, t, v', rfl, h2, h3, h4⟩, h5⟩
  exact ⟨w ++ v, t, v' ++ w', by simp, h1.append h2, h3, h4.append h5⟩

theorem Pad.eps {s : Str} : Pad eps s → Ws s := by
  rintro ⟨w, _, w', rfl, h1, rfl, h3⟩; exact h1.append h3

theorem Pad.wsL {L : Lang} {w s : Str} (hw : Ws w) : Pad L s → Pad L (w ++ s) := by
  rintro ⟨v, t, v', rfl, h1, h2, h3⟩; exact ⟨w ++ v, t, v', by simp, hw.append h1, h2, h3⟩

theorem Pad.wsR {L : Lang} {w s : Str} (hw : Ws w) : Pad L s → Pad L (s ++ w) := by
  rintro ⟨v, t, v', rfl, h1, h2, h3⟩; exact ⟨v, t, v' ++ w, by simp, h1, h2, h3.append hw⟩

/-- The last step of a derivation that is not white space. -/
def Core : Ebnf → Lang
  | .t x => plain.term x
  | .k w => kw w
  | .p w => fun s => s = w
  | .n x => Gen plain (rule x)
  | .nothing => eps
  | .seq a b => fun s => ∃ x y, s = x ++ y ∧ Gen plain a x ∧ Gen plain b y ∧ Spaced x y
  | .alt a b => fun s => Gen plain a s ∨ Gen plain b s
  | .star a => fun s => s = [] ∨ ∃ x y, s = x ++ y ∧ Gen plain a x ∧ Gen plain (.star a) y ∧ Spaced x y

theorem gen_core {e : Ebnf} {s : Str} (h : Gen plain e s) : Pad (Core e) s := by
  have one : ∀ {e s}, Core e s → Pad (Core e) s := fun h => ⟨[], _, [], by simp, .nil, h, .nil⟩
  induction h with
  | t h => exact one h
  | k h => exact one h
  | p => exact one rfl
  | n h _ => exact one h
  | extra h => exact h.elim
  | nothing => exact one rfl
  | seq h1 h2 h => exact one ⟨_, _, rfl, h1, h2, h⟩
  | left h => exact one (.inl h)
  | right h => exact one (.inr h)
  | stop => exact one (.inl rfl)
  | more h1 h2 h => exact one (.inr ⟨_, _, rfl, h1, h2, h⟩)
  | before hw _ ih => exact ih.wsL hw
  | after _ hw ih => exact ih.wsR hw

/-- Neither braces nor one of the operations that are not read. -/
def Manage (s : Str) : Prop := '{' ∉ s ∧ ¬ HasUnread s

theorem ws_last {w : Str} (h : Ws w) (hne : w ≠ []) : ∃ u c, w = u ++ [c] ∧ IsBlank c := by
  induction h with
  | nil => exact absurd rfl hne
  | @cons a s ha hs ih =>
    by_cases h0 : s = []
    · subst h0
      cases ha with
      | char hc => exact ⟨[], _, by simp, hc⟩
      | comment _ hc =>
        refine ⟨_, _, by rw [List.append_nil, List.cons_append.symm], ?_⟩
        simp only [IsBlank, List.mem_cons, List.not_mem_nil, or_false] at hc ⊢
        rcases hc with rfl | rfl <;> simp
    · obtain ⟨u, c, rfl, hc⟩ := ih h0
      exact ⟨a ++ u, c, by simp, hc⟩

theorem spaced_ws_right {x w : Str} (h : Ws w) : Spaced x w := by
  intro a c d b _ hd
  cases h with
  | nil => cases hd
  | cons ha _ =>
    cases ha with
    | char hc => cases hd; exact .inr (.inl hc)
    | comment _ _ => cases hd; exact .inr (.inr rfl)

theorem spaced_ws_left {x w : Str} (h : Ws w) : Spaced w x := by
  intro a c d b hw _
  obtain ⟨u, e, hu, he⟩ := ws_last h (by rw [hw]; simp)
  obtain ⟨_, h2⟩ := List.append_inj' (hw.symm.trans hu) rfl
  cases h2
  exact .inl he

theorem Spaced.extend {m b q : Str} (h : Spaced m b) (h' : b = [] → Spaced m q) : Spaced m (b ++ q) := by
  cases b with
  | nil => exact h' rfl
  | cons d b => intro a c e r hm hb; cases hb; exact h a c d b hm rfl

theorem Spaced.extendL {a m q : Str} (h : Spaced a m) (h' : a = [] → Spaced q m) : Spaced (q ++ a) m := by
  rcases List.eq_nil_or_concat a with rfl | ⟨a, c, rfl⟩
  · simpa using h' rfl
  · intro x e d b hx hm
    obtain ⟨_, h2⟩ := List.append_inj' (s₁ := q ++ a) (t₁ := [c]) (s₂ := x) (t₂ := [e]) (by simpa using hx) rfl
    cases h2
    exact h a c d b (by simp) hm

theorem Spaced.lastPart {x m q : Str} (h : Spaced (x ++ m) q) : Spaced m q := fun a c d b hm hq => h (x ++ a) c d b (by simp [hm]) hq
theorem Spaced.firstPart {x m q : Str} (h : Spaced q (m ++ x)) : Spaced q m := fun a c d b hq hm => h a c d (b ++ x) hq (by simp [hm])

theorem Manage.part {p s q : Str} (h1 : Spaced p s) (h2 : Spaced s q) (h : Manage (p ++ (s ++ q))) : Manage s := by
  refine ⟨fun hc => h.1 (by simp [hc]), ?_⟩
  rintro ⟨x, m, y, rfl, ha, hb, hg⟩
  refine h.2 ⟨p ++ x, m, y ++ q, by simp, ha.extendL ?_, hb.extend ?_, hg⟩
  · rintro rfl; exact Spaced.firstPart (x := y) h1
  · rintro rfl; exact Spaced.lastPart (x := x ++ []) (by simpa using h2)

theorem Manage.pad {w s w' : Str} (h1 : Ws w) (h2 : Ws w') (h : Manage (w ++ (s ++ w'))) : Manage s := h.part (spaced_ws_left h1) (spaced_ws_right h2)
theorem spaced_nil_left {s : Str} : Spaced [] s := spaced_ws_left .nil
theorem spaced_nil_right {s : Str} : Spaced s [] := spaced_ws_right .nil
theorem Manage.left {s b : Str} (hj : Spaced s b) (h : Manage (s ++ b)) : Manage s := Manage.part (p := []) spaced_nil_left hj h
theorem Manage.right {a s : Str} (hj : Spaced a s) (h : Manage (a ++ s)) : Manage s := Manage.part (p := a) (q := []) hj spaced_nil_right (by simpa using h)

/-- The texts of `e` are those of `L`, with white space around. -/
def GenIn (e : Ebnf) (L : Lang) : Prop := ∀ s, Gen plain e s → Manage s → Pad L s

/-- The texts neither begin nor end with white space. -/
def Solid (L : Lang) : Prop := ∀ s, L s → (∃ c t, s = c :: t ∧ ¬ (IsBlank c ∨ c = '#')) ∧ ∃ t c, s = t ++ [c] ∧ ¬ IsBlank c

variable {A B L : Lang} {a b e : Ebnf}

/-- The same, with the derivation of the core. -/
theorem GenIn.of (h : ∀ s, Core e s → Manage s → Pad L s) : GenIn e L := by
  intro s hs hm
  obtain ⟨w, t, w', rfl, h1, h2, h3⟩ := gen_core hs
  exact (((h t h2 (hm.pad h1 h3)).wsR h3).wsL h1)

theorem Pad.one {s : Str} (h : L s) : Pad L s := ⟨[], s, [], by simp, .nil, h, .nil⟩

theorem GenIn.k {w : Str} : GenIn (.k w) (kw w) := .of fun _ h _ => .one h
theorem GenIn.p {w : Str} : GenIn (.p w) (lit w) := .of fun _ h _ => .one h
theorem GenIn.t {x : Term} (h : ∀ s, plain.term x s → L s) : GenIn (.t x) L := .of fun _ hs _ => .one (h _ hs)
theorem GenIn.n {x : Nt} (h : GenIn (rule x) L) : GenIn (.n x) L := .of fun s hs hm => h s hs hm
theorem GenIn.alt (ha : GenIn a L) (hb : GenIn b L) : GenIn (a ⫾ b) L := .of fun s hs hm => hs.elim (fun h => ha s h hm) fun h => hb s h hm
theorem GenIn.mono (h : GenIn e A) (hl : ∀ s, A s → L s) : GenIn e L := fun s hs hm => (h s hs hm).mono hl
theorem GenIn.opt (h : GenIn a A) : GenIn (maybe a) (fun s => A s ∨ eps s) :=
  .alt (h.mono fun _ => .inl) (.of fun _ h _ => .one (.inr h))

/-- Two parts with white space between them. -/
theorem pad_pair (hA : Solid A) (hB : Solid B) {x y : Str} (hx : Pad A x) (hy : Pad B y) (h : Spaced x y) : Pad (A ⬝ Ws1 ⬝ B) (x ++ y) := by
  obtain ⟨w, t, w', rfl, h1, ht, h2⟩ := hx
  obtain ⟨v, u, v', rfl, h3, hu, h4⟩ := hy
  refine ⟨w, t ++ ((w' ++ v) ++ u), v', by simp, h1, ⟨t, _, rfl, ht, w' ++ v, u, rfl, ⟨h2.append h3, ?_⟩, hu⟩, h4⟩
  intro h0
  obtain ⟨rfl, rfl⟩ := List.append_eq_nil_iff.mp h0
  obtain ⟨t', c, rfl, hc⟩ := (hA t ht).2
  obtain ⟨d, u', rfl, hd⟩ := (hB u hu).1
  rcases h (w ++ t') c d (u' ++ v') (by simp) (by simp) with h | h
  · exact hc h
  · exact hd h

theorem GenIn.seq (ha : GenIn a A) (hb : GenIn b B) (hA : Solid A) (hB : Solid B) : GenIn (a ⬩ b) (A ⬝ Ws1 ⬝ B) := by
  refine .of fun s hs hm => ?_
  obtain ⟨x, y, rfl, hx, hy, h⟩ := hs
  exact pad_pair hA hB (ha x hx (hm.left h)) (hb y hy (hm.right h)) h

theorem GenIn.optL (ha : GenIn a A) (hb : GenIn b B) (hA : Solid A) (hB : Solid B) : GenIn (maybe a ⬩ b) (fun s => (A ⬝ Ws1 ⬝ B) s ∨ B s) := by
  refine .of fun s hs hm => ?_
  obtain ⟨x, y, rfl, hx, hy, h⟩ := hs
  have hy := hb y hy (hm.right h)
  obtain ⟨w, t, w', rfl, h1, ht, h2⟩ := ha.opt x hx (hm.left h)
  rcases ht with ht | rfl
  · exact (pad_pair hA hB ⟨w, t, w', rfl, h1, ht, h2⟩ hy h).mono fun _ => .inl
  · simpa using ((hy.wsL h2).wsL h1).mono fun _ => .inr

theorem GenIn.optR (ha : GenIn a A) (hb : GenIn b B) (hA : Solid A) (hB : Solid B) : GenIn (a ⬩ maybe b) (fun s => (A ⬝ Ws1 ⬝ B) s ∨ A s) := by
  refine .of fun s hs hm => ?_
  obtain ⟨x, y, rfl, hx, hy, h⟩ := hs
  have hx := ha x hx (hm.left h)
  obtain ⟨w, t, w', rfl, h1, ht, h2⟩ := hb.opt y hy (hm.right h)
  rcases ht with ht | rfl
  · exact (pad_pair hA hB hx ⟨w, t, w', rfl, h1, ht, h2⟩ h).mono fun _ => .inl
  · simpa using ((hx.wsR h1).wsR h2).mono fun _ => .inr

theorem Solid.or (hA : Solid A) (hB : Solid B) : Solid (fun s => A s ∨ B s) := fun s h => h.elim (hA s) (hB s)

theorem Solid.seq (hA : Solid A) (hB : Solid B) {C : Lang} : Solid (A ⬝ C ⬝ B) := by
  rintro _ ⟨s, _, rfl, hs, m, t, rfl, _, ht⟩
  obtain ⟨c, s', rfl, hc⟩ := (hA s hs).1
  obtain ⟨t', d, rfl, hd⟩ := (hB t ht).2
  exact ⟨⟨c, _, rfl, hc⟩, ⟨c :: (s' ++ (m ++ t')), d, by simp, hd⟩⟩

theorem sameLetter_ne {x c d : Char} (hx : 0x61 ≤ x.toNat ∧ x.toNat ≤ 0x7A) (h : SameLetter x c) (hd : d ∈ [' ', '\t', '\r', '\n', '#']) : c ≠ d := by
  rintro rfl
  have : c.toNat ≤ 0x23 := by
    simp only [List.mem_cons, List.not_mem_nil, or_false] at hd
    rcases hd with rfl | rfl | rfl | rfl | rfl <;> decide
  rcases h with rfl | ⟨_, _, h⟩ <;> omega

theorem solid_kw {w : Str} (h : w ≠ []) (hw : ∀ c ∈ w, 0x61 ≤ c.toNat ∧ c.toNat ≤ 0x7A) : Solid (kw w) := by
  intro s hs
  have key : ∀ c ∈ s, ∀ d ∈ [' ', '\t', '\r', '\n', '#'], c ≠ d := by
    clear h
    induction hs with
    | nil => simp
    | cons hc _ ih =>
      intro c hm
      rcases List.mem_cons.mp hm with rfl | hm
      · exact fun d hd => sameLetter_ne (hw _ (by simp)) hc hd
      · exact ih (fun c hc => hw c (by simp [hc])) c hm
  have hb : ∀ c ∈ s, ¬ (IsBlank c ∨ c = '#') := by
    rintro c hc (hb | rfl)
    · exact key c hc c (by simp only [IsBlank, List.mem_cons, List.not_mem_nil, or_false] at hb ⊢; rcases hb with h | h | h | h <;> simp [h]) rfl
    · exact key _ hc '#' (by simp) rfl
  have hne : s ≠ [] := by rintro rfl; cases hs; exact h rfl
  constructor
  · cases s with
    | nil => exact absurd rfl hne
    | cons c s => exact ⟨c, s, rfl, hb c (by simp)⟩
  · rcases List.eq_nil_or_concat s with rfl | ⟨t, c, rfl⟩
    · exact absurd rfl hne
    · exact ⟨t, c, by simp, fun h => hb c (by simp) (.inl h)⟩

/-! ## IRIs -/

/-- A text of an IRI. -/
def IriText : Lang := fun s => ∃ i, cIri i s ∧ NoDefault s

theorem solid_iriRef {x s : Str} (h : cIriRef x s) : (∃ c t, s = c :: t ∧ ¬ (IsBlank c ∨ c = '#')) ∧ ∃ t c, s = t ++ [c] ∧ ¬ IsBlank c := by
  obtain ⟨rfl, _⟩ := h
  exact ⟨⟨'<', _, rfl, by decide⟩, ⟨'<' :: x, '>', by simp, by decide⟩⟩

theorem commonNameChar_solid {c : Char} (h : CommonNameChar c ∨ c = ':' ∨ c = '.') : ¬ (IsBlank c ∨ c = '#') := by
  rintro hb
  have : c ∈ [' ', '\t', '\r', '\n', '#'] := by
    rcases hb with hb | rfl
    · simp only [IsBlank, List.mem_cons, List.not_mem_nil, or_false] at hb ⊢; rcases hb with h | h | h | h <;> simp [h]
    · simp
  clear hb
  simp only [List.mem_cons, List.not_mem_nil, or_false] at this
  rcases this with rfl | rfl | rfl | rfl | rfl <;> revert h <;> simp [CommonNameChar, W3CPnCharsBase, AsciiDigit]

theorem commonBase_solid {c : Char} (h : CommonBase c) : ¬ (IsBlank c ∨ c = '#') := commonNameChar_solid (.inl (.inl h))


theorem nameUnit_last {f : Char → Prop} (hf : ∀ c, f c → ¬ IsBlank c) {u : Str} (h : NameUnit f u) : ∃ a c, u = a ++ [c] ∧ ¬ IsBlank c := by
  cases h with
  | @ch c h => exact ⟨[], c, rfl, hf c h⟩
  | @pct a b _ hb =>
    refine ⟨['%', a], b, rfl, ?_⟩
    intro h
    simp only [IsBlank, List.mem_cons, List.not_mem_nil, or_false] at h
    rcases h with rfl | rfl | rfl | rfl <;> revert hb <;> simp [HexDigit, AsciiDigit]
  | @esc c hc =>
    refine ⟨['\\'], c, rfl, ?_⟩
    intro h
    simp only [IsBlank, List.mem_cons, List.not_mem_nil, or_false] at h
    rcases h with rfl | rfl | rfl | rfl <;> revert hc <;> simp [LocalEscChar]

theorem nameUnits_last {f : Char → Prop} (hf : ∀ c, f c → ¬ IsBlank c) {u : Str} (h : NameUnits f u) : u = [] ∨ ∃ a c, u = a ++ [c] ∧ ¬ IsBlank c := by
  induction h with
  | nil => exact .inl rfl
  | @cons u s hu _ ih =>
    rcases ih with rfl | ⟨a, c, rfl, hc⟩
    · obtain ⟨a, c, rfl, hc⟩ := nameUnit_last hf hu
      exact .inr ⟨a, c, by simp, hc⟩
    · exact .inr ⟨u ++ a, c, by simp, hc⟩

theorem solid_iri {i : Iri} {s : Str} (h : cIri i s) : (∃ c m, s = c :: m ∧ ¬ (IsBlank c ∨ c = '#')) ∧ ∃ m c, s = m ++ [c] ∧ ¬ IsBlank c := by
  match i, h with
  | .iri x, h => exact solid_iriRef h
  | .prefixedName (.pnameLN (some q) l), ⟨hs, hp, hl⟩ =>
    subst hs
    obtain ⟨c, r, rfl, hc, _⟩ := hp
    obtain ⟨u, v, rfl, _, hv, d, hd, _⟩ := hl
    refine ⟨⟨c, _, rfl, commonBase_solid hc⟩, ?_⟩
    rcases nameUnits_last (fun c h hb => commonNameChar_solid (c := c) (by
      rcases h with (h | h) | h
      · exact .inl h
      · exact .inr (.inl h)
      · exact .inr (.inr h)) (.inl hb)) hv with rfl | ⟨a, e, rfl, he⟩
    · cases hd
    · exact ⟨c :: (r ++ ':' :: (u ++ a)), e, by simp, he⟩

theorem solid_iriText : Solid IriText := fun _ ⟨_, h, _⟩ => solid_iri h

/-- A text of `<...>`. -/
def RefText : Lang := fun s => ∃ x, cIriRef x s
theorem solid_refText : Solid RefText := fun _ ⟨_, h⟩ => solid_iriRef h

/-- A prefix with its colon. -/
def NsText : Lang := fun s => ∃ o, s = prefixText o ++ c!":" ∧ OptPrefix CommonBase CommonNameChar o
theorem solid_nsText : Solid NsText := by
  rintro _ ⟨o, rfl, ho⟩
  refine ⟨?_, prefixText o, ':', rfl, by decide⟩
  cases o with
  | none => exact ⟨':', [], rfl, by decide⟩
  | some q =>
    obtain ⟨c, r, rfl, hc, _⟩ := ho
    exact ⟨c, _, rfl, commonBase_solid hc⟩

theorem noDefault_ref {x s : Str} (h : cIriRef x s) : NoDefault s := by
  obtain ⟨rfl, _⟩ := h
  intro q r hs hq
  cases hq with
  | cons hc _ =>
    obtain ⟨rfl, _⟩ := List.cons.inj (by simpa using hs)
    revert hc; simp [SameLetter]

/-! ## The first word of an operation -/

theorem legal_first {e f : Ebnf} {s : Str} (h : Gen sparql e s) {v : Str} {x : Nt} (he : e = .n x ∨ e = .k v ⬩ f ∨ e = .k v) (hr : rule x = .k v ⬩ f) :
    ∃ w q r, s = w ++ (q ++ r) ∧ Ws w ∧ CaseVariant v q := by
  induction h with
  | @k w q hq => rcases he with he | he | he <;> cases he; exact ⟨[], q, [], by simp, .nil, hq⟩
  | n _ ih => rcases he with he | he | he <;> cases he; exact ih (.inr (.inl hr))
  | extra h => exact h.elim
  | seq _ _ _ iha _ =>
    rcases he with he | he | he <;> cases he
    obtain ⟨w, q, r, rfl, hw, hq⟩ := iha (.inr (.inr rfl))
    exact ⟨w, q, _, by rw [List.append_assoc, List.append_assoc], hw, hq⟩
  | before hw _ ih =>
    obtain ⟨w, q, r, rfl, hw', hq⟩ := ih he
    exact ⟨_ ++ w, q, r, by simp, hw.append hw', hq⟩
  | after _ _ ih =>
    obtain ⟨w, q, r, rfl, hw', hq⟩ := ih he
    exact ⟨w, q, _, by rw [List.append_assoc, List.append_assoc], hw', hq⟩
  | _ => rcases he with he | he | he <;> cases he

/-! ## Splitting off what is not read -/

/-- The texts of `e` are texts of `g` or of `u`. -/
def Split (e g u : Ebnf) : Prop := ∀ s, Gen plain e s → Gen plain g s ∨ Gen plain u s

theorem Gen.pad {e : Ebnf} {w s w' : Str} (h1 : Ws w) (h : Gen plain e s) (h2 : Ws w') : Gen plain e (w ++ (s ++ w')) := .before h1 (.after h h2)

theorem Split.of {g u : Ebnf} (h : ∀ s, Core e s → Gen plain g s ∨ Gen plain u s) : Split e g u := by
  intro s hs
  obtain ⟨w, m, w', rfl, h1, h2, h3⟩ := gen_core hs
  exact (h m h2).imp (fun h => .pad h1 h h3) fun h => .pad h1 h h3

theorem Split.n {x : Nt} {g u : Ebnf} (h : Split (rule x) g u) : Split (.n x) g u := .of fun s hs => h s hs
theorem Split.seqR {g u : Ebnf} (h : Split b g u) : Split (a ⬩ b) (a ⬩ g) (a ⬩ u) := .of fun s ⟨x, y, hs, hx, hy, hj⟩ => by
  subst hs; exact (h y hy).imp (fun h => .seq hx h hj) fun h => .seq hx h hj
theorem Split.seqL {g u : Ebnf} (h : Split a g u) : Split (a ⬩ b) (g ⬩ b) (u ⬩ b) := .of fun s ⟨x, y, hs, hx, hy, hj⟩ => by
  subst hs; exact (h x hx).imp (fun h => .seq h hy hj) fun h => .seq h hy hj
theorem Split.altR {g u : Ebnf} (h : Split b g u) : Split (a ⫾ b) (a ⫾ g) u := .of fun s hs => by
  rcases hs with hs | hs
  · exact .inl (.left hs)
  · exact (h s hs).imp .right id

theorem GenIn.split {g u : Ebnf} (hs : Split e g u) (hu : ∀ s, Gen plain u s → Gen plain unread s) (h : GenIn g L) : GenIn e L := by
  intro s he hm
  rcases hs s he with hg | hg
  · exact h s hg hm
  · exact (hm.2 ⟨[], s, [], by simp, spaced_nil_left, spaced_nil_right, hu s hg⟩).elim

/-- IRIs that are read. -/
def goodIri : Ebnf := .t .iriRef ⫾ .t .pnameLn

theorem split_iri : Split (.n .iri) goodIri (.t .pnameNs) := by
  refine .n (.of fun s hs => ?_)
  rcases hs with hs | hs
  · exact .inl (.left hs)
  · have : Split (.n .prefixedName) (.t .pnameLn) (.t .pnameNs) := .n (.of fun s hs => hs)
    exact (this s hs).imp .right id

theorem genIn_goodIri : GenIn goodIri IriText :=
  .alt (.t fun _ ⟨_, x, h⟩ => ⟨.iri x, h, noDefault_ref h⟩) (.t fun _ ⟨_, ⟨x, h⟩, hd⟩ => ⟨.prefixedName x, h, hd⟩)

theorem genIn_ref : GenIn (.t .iriRef) RefText := .t fun _ ⟨_, h⟩ => h
theorem genIn_ns : GenIn (.t .pnameNs) NsText := .t fun _ ⟨_, h⟩ => h

theorem solid_k {w : Str} (h : (w ≠ [] ∧ ∀ c ∈ w, 0x61 ≤ c.toNat ∧ c.toNat ≤ 0x7A) := by decide) : Solid (kw w) := solid_kw h.1 h.2

/-! ## Operations -/

/-- A text of a statement. -/
def StText : Lang := fun s => ∃ st, cStatement (fun _ _ => False) st s

theorem genIn_graphRef : GenIn (.n .graphRef) (fun s => ∃ i, cGraphRef i s) := by
  refine .n (.split (.seqR split_iri) (fun s h => .right (.right (.left h))) ((GenIn.seq .k genIn_goodIri solid_k solid_iriText).mono ?_))
  rintro _ ⟨x, _, rfl, hx, w, y, rfl, hw, i, hi, _⟩
  exact ⟨i, x, _, rfl, hx, w, y, rfl, hw, hi⟩

theorem solid_graphRef : Solid (fun s => ∃ i, cGraphRef i s) := by
  rintro _ ⟨i, x, _, rfl, hx, w, y, rfl, hw, hi⟩
  exact Solid.seq (A := kw c!"graph") (C := Ws1) (B := fun s => ∃ i, cIri i s) solid_k (fun _ ⟨_, h⟩ => solid_iri h) _
    ⟨x, _, rfl, hx, w, y, rfl, hw, i, hi⟩

theorem genIn_graphRefAll : GenIn (.n .graphRefAll) (fun s => ∃ g, cGraphRefAll g s) :=
  .n (.alt (genIn_graphRef.mono fun _ ⟨i, h⟩ => ⟨.graphRef i, h⟩) (.alt (GenIn.k.mono fun _ h => ⟨.default, h⟩)
    (.alt (GenIn.k.mono fun _ h => ⟨.named, h⟩) (GenIn.k.mono fun _ h => ⟨.all, h⟩))))

theorem solid_graphRefAll : Solid (fun s => ∃ g, cGraphRefAll g s) := by
  rintro s ⟨g, h⟩
  cases g with
  | default => exact (solid_k : Solid (kw c!"default")) s h
  | named => exact (solid_k : Solid (kw c!"named")) s h
  | all => exact (solid_k : Solid (kw c!"all")) s h
  | graphRef i => exact solid_graphRef s ⟨i, h⟩

/-- `g`, with SILENT before it or not. -/
def Sil (A : Lang) : Lang := fun s => ∃ f, (cSilent f ⬝ A) s

theorem genIn_sil (h : GenIn a A) (hA : Solid A) : GenIn (maybe (.k c!"silent") ⬩ a) (Sil A) := by
  refine (GenIn.optL .k h solid_k hA).mono ?_
  rintro s (⟨x, _, rfl, hx, w, y, rfl, hw, hy⟩ | hs)
  · exact ⟨true, x ++ w, y, by simp, ⟨x, w, rfl, hx, hw⟩, hy⟩
  · exact ⟨false, [], s, rfl, rfl, hs⟩

theorem solid_sil (hA : Solid A) : Solid (Sil A) := by
  rintro _ ⟨f, x, y, rfl, hx, hy⟩
  cases f with
  | false => cases hx; exact hA _ hy
  | true =>
    obtain ⟨x, w, rfl, hx, hw⟩ := hx
    rw [List.append_assoc]
    exact Solid.seq (A := kw c!"silent") (C := Ws1) solid_k hA _ ⟨x, _, rfl, hx, w, y, rfl, hw, hy⟩

/-- DEFAULT or a graph. -/
def GodText : Lang := fun s => ∃ g, cGraphOrDefault g s

/-- The same, from the grammar. -/
def goodGod : Ebnf := .k c!"default" ⫾ (maybe (.k c!"graph") ⬩ goodIri)

theorem split_god : Split (.n .graphOrDefault) goodGod (maybe (.k c!"graph") ⬩ .t .pnameNs) := .n (.altR (.seqR split_iri))

theorem genIn_goodGod : GenIn goodGod GodText := by
  refine .alt (GenIn.k.mono fun _ h => ⟨.default, h⟩) ((GenIn.optL .k genIn_goodIri solid_k solid_iriText).mono ?_)
  rintro s (⟨x, _, rfl, hx, w, y, rfl, hw, i, hi, _⟩ | ⟨i, hi, hd⟩)
  · exact ⟨.graph i, .inl ⟨x, _, rfl, hx, w, y, rfl, hw, hi⟩⟩
  · exact ⟨.graph i, .inr ⟨hi, hd⟩⟩

theorem solid_god : Solid GodText := by
  rintro s ⟨g, h⟩
  cases g with
  | default => exact (solid_k : Solid (kw c!"default")) s h
  | graph i =>
    rcases h with h | h
    · exact solid_graphRef s ⟨i, h⟩
    · exact solid_iri h.1

theorem genIn_clear : GenIn (.n .clear) StText := by
  refine .n ((GenIn.seq .k (genIn_sil genIn_graphRefAll solid_graphRefAll) solid_k (solid_sil solid_graphRefAll)).mono ?_)
  rintro _ ⟨x, _, rfl, hx, w, _, rfl, hw, f, y, z, rfl, hy, g, hg⟩
  exact ⟨.clear ⟨f, g⟩, x, _, rfl, hx, w, _, rfl, hw, y, z, rfl, hy, hg⟩

theorem genIn_drop : GenIn (.n .drop) StText := by
  refine .n ((GenIn.seq .k (genIn_sil genIn_graphRefAll solid_graphRefAll) solid_k (solid_sil solid_graphRefAll)).mono ?_)
  rintro _ ⟨x, _, rfl, hx, w, _, rfl, hw, f, y, z, rfl, hy, g, hg⟩
  exact ⟨.drop ⟨f, g⟩, x, _, rfl, hx, w, _, rfl, hw, y, z, rfl, hy, hg⟩

theorem genIn_create : GenIn (.n .create) StText := by
  refine .n ((GenIn.seq .k (genIn_sil genIn_graphRef solid_graphRef) solid_k (solid_sil solid_graphRef)).mono ?_)
  rintro _ ⟨x, _, rfl, hx, w, _, rfl, hw, f, y, z, rfl, hy, g, hg⟩
  exact ⟨.create ⟨f, g⟩, x, _, rfl, hx, w, _, rfl, hw, y, z, rfl, hy, hg⟩

theorem genIn_load : GenIn (.n .load) StText := by
  have hi := GenIn.seq (.k (w := c!"into")) genIn_graphRef solid_k solid_graphRef
  have si : Solid (kw c!"into" ⬝ Ws1 ⬝ fun s => ∃ i, cGraphRef i s) := Solid.seq solid_k solid_graphRef
  have ho := GenIn.optR genIn_goodIri hi solid_iriText si
  have so := (solid_iriText.seq (C := Ws1) si).or solid_iriText
  refine .n (.split (.seqR (.seqR (.seqL split_iri))) (fun s h => .right (.right (.right (.left h)))) ((GenIn.seq .k (genIn_sil ho so) solid_k (solid_sil so)).mono ?_))
  rintro _ ⟨x, _, rfl, hx, w, _, rfl, hw, f, y, _, rfl, hy,
    ⟨z, _, rfl, ⟨i, hz, _⟩, v, _, rfl, hv, m, _, rfl, hm, v', q, rfl, hv', g, hg⟩ | ⟨i, hz, _⟩⟩
  · exact ⟨.load ⟨i, f, some g⟩, x, _, rfl, hx, w, _, rfl, hw, y, _, rfl, hy, z, _, rfl, hz, v, _, rfl, hv, m, _, rfl, hm, v', q, rfl, hv', hg⟩
  · exact ⟨.load ⟨i, f, none⟩, x, _, rfl, hx, w, _, rfl, hw, y, _, rfl, hy, _, [], by simp, hz, rfl⟩

theorem genIn_copy : GenIn (.n .copy) StText := by
  have h2 := GenIn.seq (.k (w := c!"to")) genIn_goodGod solid_k solid_god
  have s2 : Solid (kw c!"to" ⬝ Ws1 ⬝ GodText) := Solid.seq solid_k solid_god
  have h1 := GenIn.seq genIn_goodGod h2 solid_god s2
  have s1 := solid_god.seq (C := Ws1) s2
  refine .n (.split (.seqR (.seqR (.seqL split_god))) (fun s h => .right (.right (.right (.right (.left h))))) ?_)
  refine .split (.seqR (.seqR (.seqR (.seqR split_god)))) (fun s h => .right (.right (.right (.right (.right ?_))))) ((GenIn.seq .k (genIn_sil h1 s1) solid_k (solid_sil s1)).mono ?_)
  · have back : ∀ s, Gen plain goodGod s → Gen plain (.n .graphOrDefault) s := by
      have gi : ∀ s, Gen plain goodIri s → Gen plain (.n .iri) s := by
        intro s hs
        obtain ⟨w, m, w', rfl, h1, h2, h3⟩ := gen_core hs
        refine .pad h1 (.n ?_) h3
        rcases h2 with h2 | h2
        · exact .left h2
        · exact .right (.n (.left h2))
      have : Split goodGod (.n .graphOrDefault) (.n .graphOrDefault) := by
        refine .of fun s hs => .inl (.n ?_)
        rcases hs with hs | hs
        · exact .left hs
        · have hs : Gen plain (maybe (.k c!"graph") ⬩ .n .iri) s :=
            ((Split.seqR (a := maybe (.k c!"graph")) (g := .n .iri) (u := .n .iri) fun s h => .inl (gi s h)) s hs).elim id id
          exact .right hs
      exact fun s hs => (this s hs).elim id id
    exact ((Split.seqR (.seqR (.seqL (g := .n .graphOrDefault) (u := .n .graphOrDefault) fun s h => .inl (back s h)))) s h).elim id id
  · rintro _ ⟨x, _, rfl, hx, w, _, rfl, hw, f, y, _, rfl, hy, z, _, rfl, ⟨g, hz⟩, v, _, rfl, hv, m, _, rfl, hm, v', q, rfl, hv', g', hg⟩
    exact ⟨.copy ⟨f, g, g'⟩, x, _, rfl, hx, w, _, rfl, hw, y, _, rfl, hy, z, _, rfl, hz, v, _, rfl, hv, m, _, rfl, hm, v', q, rfl, hv', hg⟩

/-! ## The rest have braces -/

/-- Every text has a brace. -/
def Braced (e : Ebnf) : Prop := ∀ s, Gen plain e s → '{' ∈ s

theorem Braced.of (h : ∀ s, Core e s → '{' ∈ s) : Braced e := by
  intro s hs
  obtain ⟨w, m, w', rfl, _, h2, _⟩ := gen_core hs
  simp [h m h2]
theorem Braced.n {x : Nt} (h : Braced (rule x)) : Braced (.n x) := .of h
theorem Braced.braces : Braced (braces a) := .of fun s ⟨x, y, hs, hx, _, _⟩ => by
  subst hs
  have : Braced (.p c!"{") := .of fun s hs => by cases hs; simp
  simp [this x hx]
theorem Braced.seqR (h : Braced b) : Braced (a ⬩ b) := .of fun s ⟨x, y, hs, _, hy, _⟩ => by subst hs; simp [h y hy]
theorem Braced.genIn (h : Braced e) : GenIn e L := fun s hs hm => (hm.1 (h s hs)).elim

theorem GenIn.unread {x : Nt} (h : x = .add ∨ x = .move) : GenIn (.n x) L := by
  intro s hs hm
  refine (hm.2 ⟨[], s, [], by simp, spaced_nil_left, spaced_nil_right, ?_⟩).elim
  rcases h with rfl | rfl
  · exact .left hs
  · exact .right (.left hs)

theorem genIn_update1 : GenIn (.n .update1) StText := by
  refine .n (.alt genIn_load (.alt genIn_clear (.alt genIn_drop (.alt (.unread (.inl rfl)) (.alt (.unread (.inr rfl)) (.alt genIn_copy (.alt genIn_create
    (.alt ?_ (.alt ?_ (.alt ?_ ?_))))))))))
  · exact (Braced.n (x := .insertData) (.seqR (.seqR (.n (x := .quadData) .braces)))).genIn
  · exact (Braced.n (x := .deleteData) (.seqR (.seqR (.n (x := .quadData) .braces)))).genIn
  · exact (Braced.n (x := .deleteWhere) (.seqR (.seqR (.n (x := .quadPattern) .braces)))).genIn
  · exact (Braced.n (x := .modify) (.seqR (.seqR (.seqR (.seqR (.n (x := .groupGraphPattern) .braces)))))).genIn

/-! ## Declarations -/

/-- A text of a declaration. -/
def DeclText : Lang := fun s => ∃ d, cDecl d s

theorem genIn_decl : GenIn (.n .baseDecl ⫾ .n .prefixDecl) DeclText := by
  refine .alt (.n ((GenIn.seq .k genIn_ref solid_k solid_refText).mono ?_))
    (.n ((GenIn.seq .k (.seq genIn_ns genIn_ref solid_nsText solid_refText) solid_k (solid_nsText.seq solid_refText)).mono ?_))
  · rintro _ ⟨x, _, rfl, hx, w, y, rfl, hw, i, hi⟩
    exact ⟨.base i, x, _, rfl, hx, w, y, rfl, hw, hi⟩
  · rintro _ ⟨x, _, rfl, hx, w, _, rfl, hw, _, _, rfl, ⟨o, rfl, ho⟩, v, y, rfl, hv, i, hi⟩
    exact ⟨.prefix ⟨o, i⟩, x, _, rfl, hx, w, _, rfl, hw.1, prefixText o, _, by rw [List.append_assoc], ⟨rfl, ho⟩, c!":", _, rfl, rfl, v, y, rfl, hv.1, hi⟩

theorem solid_decl : Solid DeclText := by
  rintro _ ⟨d, h⟩
  cases d with
  | base i => exact Solid.seq (A := kw c!"base") (C := Ws1) solid_k solid_refText _ (by
      obtain ⟨x, _, rfl, hx, w, y, rfl, hw, hi⟩ := h; exact ⟨x, _, rfl, hx, w, y, rfl, hw, i, hi⟩)
  | «prefix» d =>
    obtain ⟨x, _, rfl, hx, w, _, rfl, hw, q, _, rfl, hq, l, _, rfl, hl, v, y, rfl, hv, hi⟩ := h
    obtain ⟨c, x', rfl, hc⟩ := ((solid_k : Solid (kw c!"prefix")) x hx).1
    obtain ⟨y', e, rfl, he⟩ := (solid_iriRef hi).2
    exact ⟨⟨c, _, rfl, hc⟩, ⟨c :: (x' ++ (w ++ (q ++ (l ++ (v ++ y'))))), e, by simp, he⟩⟩

/-- A text of some declarations. -/
def DeclsText : Lang := fun s => ∃ l, Sep0 Ws1 cDecl l s

theorem solid_sep {l : List BaseOrPrefixDecl} (hne : l ≠ []) : Solid (Sep0 Ws1 cDecl l) := by
  match l, hne with
  | [d], _ =>
    rintro _ ⟨x, _, rfl, hx, rfl⟩
    simpa using solid_decl x ⟨d, hx⟩
  | d :: d' :: l, _ =>
    rintro _ ⟨x, _, rfl, hx, _, y, rfl, ⟨w, z, rfl, hw, hz⟩, hy⟩
    have := solid_sep (l := d' :: l) (by simp) (z ++ y) ⟨z, y, rfl, hz, hy⟩
    have := Solid.seq (A := DeclText) (C := Ws1) (B := Sep0 Ws1 cDecl (d' :: l)) solid_decl (solid_sep (by simp)) (x ++ (w ++ (z ++ y)))
      ⟨x, _, rfl, ⟨d, hx⟩, w, _, rfl, hw, z, y, rfl, hz, hy⟩
    simpa using this

theorem genIn_decls_aux (N : Nat) : ∀ s, s.length ≤ N → Gen plain (.star (.n .baseDecl ⫾ .n .prefixDecl)) s → Manage s → Pad DeclsText s := by
  induction N with
  | zero =>
    intro s hl _ _
    cases s with
    | nil => exact .one ⟨[], rfl⟩
    | cons c s => simp at hl
  | succ N ih =>
    intro s hl hs hm
    obtain ⟨w, m, w', rfl, h1, h2, h3⟩ := gen_core hs
    refine Pad.wsL h1 (Pad.wsR h3 ?_)
    have hm := hm.pad h1 h3
    rcases h2 with rfl | ⟨x, y, rfl, hx, hy, hj⟩
    · exact .one ⟨[], rfl⟩
    · have hx := genIn_decl x hx (hm.left hj)
      have : 0 < x.length := by
        obtain ⟨_, d, _, rfl, _, hd, _⟩ := hx
        obtain ⟨c, d', rfl, _⟩ := (solid_decl d hd).1
        simp; omega
      obtain ⟨v, y', v', rfl, h4, ⟨l, hl'⟩, h5⟩ := ih y (by simp only [List.length_append] at hl; omega) hy (hm.right hj)
      cases l with
      | nil =>
        cases hl'
        have : Pad DeclsText x := hx.mono fun z ⟨d, hd⟩ => ⟨[d], z, [], by simp, hd, rfl⟩
        simpa using (this.wsR h4).wsR h5
      | cons d l =>
        refine (pad_pair solid_decl (solid_sep (by simp)) hx ⟨v, y', v', rfl, h4, hl', h5⟩ hj).mono ?_
        rintro _ ⟨x, _, rfl, ⟨d', hd'⟩, w, _, rfl, hw, z, y, rfl, hz, hy⟩
        exact ⟨d' :: d :: l, x, _, rfl, hd', w ++ z, y, by simp, ⟨w, z, rfl, hw, hz⟩, hy⟩

theorem genIn_prologue : GenIn (.n .prologue) DeclsText := .n fun s => genIn_decls_aux s.length s (Nat.le_refl _)

/-! ## Requests -/

theorem gen_maybe {s : Str} (h : Gen plain (maybe a) s) : Ws s ∨ Pad (Gen plain a) s := by
  obtain ⟨w, m, w', rfl, h1, h2, h3⟩ := gen_core h
  rcases h2 with h2 | h2
  · exact .inr ⟨w, m, w', rfl, h1, h2, h3⟩
  · have := (gen_core h2 : Pad eps m).eps
    exact .inl (h1.append (this.append h3))

theorem manage_update (N : Nat) : ∀ s, s.length ≤ N → Gen plain (.n .update) s → Manage s → ∃ u, Pad (cUpdate (fun _ _ => False) u) s := by
  induction N with
  | zero =>
    intro s hl _ _
    cases s with
    | nil => exact ⟨.mk ⟨[]⟩ none none, .one rfl⟩
    | cons c s => simp at hl
  | succ N ih =>
    intro s hl hs hm
    obtain ⟨w, m, w', rfl, h1, h2, h3⟩ := gen_core hs
    obtain ⟨w1, m, w1', rfl, h4, h5, h6⟩ := gen_core (show Gen plain (rule .update) m from h2)
    suffices h : ∃ u, Pad (cUpdate (fun _ _ => False) u) m by
      obtain ⟨u, h⟩ := h
      exact ⟨u, Pad.wsL h1 (Pad.wsR h3 (Pad.wsL h4 (Pad.wsR h6 h)))⟩
    have hm := (hm.pad h1 h3).pad h4 h6
    have hl : m.length ≤ N + 1 := by simp only [List.length_append] at hl; omega
    clear hs h2 h1 h3 h4 h6
    obtain ⟨x, y, rfl, hx, hy, hj⟩ := h5
    obtain ⟨v, d, v', rfl, g1, ⟨l, hd⟩, g2⟩ := genIn_prologue x hx (hm.left hj)
    rcases gen_maybe hy with hy | ⟨w, y, w', rfl, h1, hy, h3⟩
    · exact ⟨.mk ⟨l⟩ none none, v, d, v' ++ y, by simp, g1, hd, g2.append hy⟩
    have hm := (hm.right hj).pad h1 h3
    obtain ⟨w2, y, w2', rfl, h4, ⟨x, z, rfl, hx, hz, hj2⟩, h6⟩ := gen_core hy
    have hm := hm.pad h4 h6
    obtain ⟨v1, q, v1', rfl, g3, ⟨st, hq⟩, g4⟩ := genIn_update1 x hx (hm.left hj2)
    rcases gen_maybe hz with hz | ⟨w3, z, w3', rfl, g5, hz, g6⟩
    · exact ⟨.mk ⟨l⟩ (some st) none, v, d ++ ((v' ++ (w ++ (w2 ++ v1))) ++ q), v1' ++ (z ++ (w2' ++ w')), by simp, g1,
        ⟨d, _, rfl, hd, _, q, rfl, g2.append (h1.append (h4.append g3)), hq⟩, g4.append (hz.append (h6.append h3))⟩
    have hm := (hm.right hj2).pad g5 g6
    obtain ⟨w4, z, w4', rfl, g7, ⟨x, z, rfl, hx, hz', hj3⟩, g8⟩ := gen_core hz
    have hm := hm.pad g7 g8
    obtain ⟨v2, _, v2', rfl, g9, rfl, g10⟩ := GenIn.p x hx (hm.left hj3)
    obtain ⟨u, v3, r, v3', rfl, g11, hr, g12⟩ := ih z (by simp only [List.length_append, List.length_cons] at hl; omega) hz' (hm.right hj3)
    refine ⟨.mk ⟨l⟩ (some st) (some u), v, d ++ ((v' ++ (w ++ (w2 ++ v1))) ++ (q ++ ((v1' ++ (w3 ++ (w4 ++ v2))) ++ (c!";" ++ ((v2' ++ v3) ++ r))))),
      v3' ++ (w4' ++ (w3' ++ (w2' ++ w'))), by simp, g1, ?_, g12.append (g8.append (g6.append (h6.append h3)))⟩
    exact ⟨d, _, rfl, hd, _, _, rfl, g2.append (h1.append (h4.append g3)), q, _, rfl, hq, _, _, rfl, g4.append (g5.append (g7.append g9)),
      c!";", _, rfl, rfl, _, r, rfl, g10.append g11, hr⟩

/-! ## A check that nothing is unread -/

/-- A colon at the end or before white space. -/
def BareColon (s : Str) : Prop := ∃ x y, s = x ++ ':' :: y ∧ Spaced c!":" y

theorem BareColon.right {s b : Str} (h : BareColon s) (hj : Spaced s b) : BareColon (s ++ b) := by
  obtain ⟨x, y, rfl, hy⟩ := h
  refine ⟨x, y ++ b, by simp, hy.extend ?_⟩
  rintro rfl
  exact hj.lastPart
theorem BareColon.left {a s : Str} (h : BareColon s) : BareColon (a ++ s) := by
  obtain ⟨x, y, rfl, hy⟩ := h
  exact ⟨a ++ x, y, by simp, hy⟩

/-- Every text has one. -/
def Colon (e : Ebnf) : Prop := ∀ s, Gen plain e s → BareColon s

theorem Colon.of (h : ∀ s, Core e s → BareColon s) : Colon e := by
  intro s hs
  obtain ⟨w, m, w', rfl, _, h2, h3⟩ := gen_core hs
  exact ((h m h2).right (spaced_ws_right h3)).left
theorem Colon.ns : Colon (.t .pnameNs) := .of fun s ⟨_, o, hs, _⟩ => by subst hs; exact ⟨prefixText o, [], rfl, spaced_nil_right⟩
theorem Colon.seqR (h : Colon b) : Colon (a ⬩ b) := .of fun s ⟨x, y, hs, _, hy, _⟩ => by subst hs; exact (h y hy).left
theorem Colon.seqL (h : Colon a) : Colon (a ⬩ b) := .of fun s ⟨x, y, hs, hx, _, hj⟩ => by subst hs; exact (h x hx).right hj

/-- The text has the word ADD or MOVE, or one of GRAPH, LOAD and COPY and after it a bare colon. -/
def MayUnread (s : Str) : Prop := ∃ a v q b, s = a ++ (q ++ b) ∧ CaseVariant v q ∧
  (v ∈ [c!"add", c!"move"] ∨ v ∈ [c!"graph", c!"load", c!"copy"] ∧ BareColon (q ++ b))

theorem plain_first {f : Ebnf} {s v : Str} (h : Gen plain (.k v ⬩ f) s) : ∃ w q r, s = w ++ (q ++ r) ∧ Ws w ∧ CaseVariant v q := by
  obtain ⟨w, m, w', rfl, h1, ⟨x, y, rfl, hx, _, _⟩, _⟩ := gen_core h
  obtain ⟨v1, q, v2, rfl, h2, hq, _⟩ := gen_core hx
  exact ⟨w ++ v1, q, v2 ++ (y ++ w'), by simp, h1.append h2, hq⟩

theorem ws_no_colon {w x y s : Str} (hw : Ws w) (hc : '#' ∉ w) (h : w ++ s = x ++ ':' :: y) : ∃ x', s = x' ++ ':' :: y := by
  rcases List.append_eq_append_iff.mp h with ⟨z, rfl, hs⟩ | ⟨z, rfl, hs⟩
  · exact ⟨z, hs⟩
  · cases z with
    | nil => exact ⟨[], hs.symm⟩
    | cons d z =>
      simp only [List.cons_append, List.cons.injEq] at hs
      obtain ⟨rfl, _⟩ := hs
      have := dense_ws hw hc
      have : ':' ∈ dense (x ++ ':' :: z) := by
        unfold dense
        exact List.mem_filter.mpr ⟨by simp, by decide⟩
      simp_all

theorem mayUnread {s : Str} (hc : '#' ∉ s) (h : HasUnread s) : MayUnread s := by
  obtain ⟨a, m, b, rfl, _, hj, hg⟩ := h
  have key : ∀ {v f}, v ∈ [c!"add", c!"move"] → Gen plain (.k v ⬩ f) m → MayUnread (a ++ (m ++ b)) := by
    intro v f hv hg
    obtain ⟨w, q, r, rfl, _, hq⟩ := plain_first hg
    exact ⟨a ++ w, v, q, r ++ b, by simp, hq, .inl hv⟩
  have key2 : ∀ {v f}, v ∈ [c!"graph", c!"load", c!"copy"] → Colon f → Gen plain (.k v ⬩ f) m → MayUnread (a ++ (m ++ b)) := by
    intro v f hv hf hg
    obtain ⟨x, y, hxy, hy⟩ := (Colon.seqR hf m hg).right hj
    obtain ⟨w, q, r, rfl, hw, hq⟩ := plain_first hg
    obtain ⟨x', hx'⟩ := ws_no_colon (s := q ++ (r ++ b)) hw (fun h => hc (by simp [h])) (by simpa using hxy)
    exact ⟨a ++ w, v, q, r ++ b, by simp, hq, .inr ⟨hv, x', y, hx', hy⟩⟩
  have alt : ∀ {e f}, Gen plain (e ⫾ f) m → Gen plain e m ∨ Gen plain f m := by
    intro e f h
    obtain ⟨w, m', w', rfl, h1, h2, h3⟩ := gen_core h
    exact h2.imp (fun h => .pad h1 h h3) fun h => .pad h1 h h3
  have nt : ∀ {x}, Gen plain (.n x) m → Gen plain (rule x) m := by
    intro x h
    obtain ⟨w, m', w', rfl, h1, h2, h3⟩ := gen_core h
    exact .pad h1 h2 h3
  rcases alt hg with h | h
  · exact key (by simp) (nt h)
  rcases alt h with h | h
  · exact key (by simp) (nt h)
  rcases alt h with h | h
  · exact key2 (by simp) .ns h
  rcases alt h with h | h
  · exact key2 (by simp) (.seqR (.seqL .ns)) h
  rcases alt h with h | h
  · exact key2 (by simp) (.seqR (.seqL (.seqR .ns))) h
  · exact key2 (by simp) (.seqR (.seqR (.seqR (.seqR .ns)))) h

/-- The ends of a text. -/
def sufs : Str → List Str
  | [] => [[]]
  | c :: s => (c :: s) :: sufs s

theorem mem_sufs (a b : Str) : b ∈ sufs (a ++ b) := by
  induction a with
  | nil => cases b <;> simp [sufs]
  | cons c a ih => simp [sufs, ih]

/-- `MayUnread`, decided. -/
def mayB (s : Str) : Bool :=
  let word (v m : Str) : Bool := match tagNoCase v m with | .ok _ _ => true | .err _ => false
  let bare (m : Str) : Bool := (sufs m).any fun
    | ':' :: [] => true
    | ':' :: c :: _ => decide (IsBlank c) || c == '#'
    | _ => false
  (sufs s).any fun m => word c!"add" m || word c!"move" m || ((word c!"graph" m || word c!"load" m || word c!"copy" m) && bare m)

theorem mayB_complete {s : Str} (h : MayUnread s) : mayB s = true := by
  obtain ⟨a, v, q, b, rfl, hq, hv⟩ := h
  refine List.any_eq_true.mpr ⟨q ++ b, mem_sufs _ _, ?_⟩
  simp only [Bool.or_eq_true, Bool.and_eq_true]
  rcases hv with hv | ⟨hv, x, y, hxy, hy⟩
  · simp only [List.mem_cons, List.not_mem_nil, or_false] at hv
    rcases hv with rfl | rfl
    · exact .inl (.inl (by rw [tagNoCase_append hq b]))
    · exact .inl (.inr (by rw [tagNoCase_append hq b]))
  · refine .inr ⟨?_, ?_⟩
    · simp only [List.mem_cons, List.not_mem_nil, or_false] at hv
      rcases hv with rfl | rfl | rfl
      · exact .inl (.inl (by rw [tagNoCase_append hq b]))
      · exact .inl (.inr (by rw [tagNoCase_append hq b]))
      · exact .inr (by rw [tagNoCase_append hq b])
    · rw [hxy]
      refine List.any_eq_true.mpr ⟨':' :: y, mem_sufs _ _, ?_⟩
      cases y with
      | nil => rfl
      | cons c y =>
        have := hy [] ':' c y rfl rfl
        rcases this with h | h | h
        · exact absurd h (by decide)
        · simp [h]
        · simp [h]

/-- A text without comments for which the check is negative has no unread part. -/
theorem not_hasUnread {s : Str} (h : '#' ∉ s ∧ mayB s = false) : ¬ HasUnread s := fun hu => by
  have := mayB_complete (mayUnread h.1 hu)
  rw [h.2] at this
  cases this

/-- Two texts with a blank between them. -/
theorem Gen.spaced {x y : Str} (hx : Gen plain a x) (hy : Gen plain b y) : Gen plain (a ⬩ b) (x ++ ' ' :: y) :=
  .seq hx (.before (w := [' ']) (.cons (a := [' ']) (s := []) (.char (by decide)) .nil) hy) fun _ _ _ _ _ h => by cases h; exact .inr (.inl (by decide))

theorem Gen.skipL {y : Str} (hy : Gen plain b y) : Gen plain (maybe a ⬩ b) y := .seq (s := []) (.right .nothing) hy spaced_nil_left
theorem Gen.skipR {x : Str} (hx : Gen plain a x) : Gen plain (a ⬩ maybe b) x := by
  have h : Gen plain (maybe b) [] := .right .nothing
  simpa using Gen.seq hx h spaced_nil_right

end NomSparql
