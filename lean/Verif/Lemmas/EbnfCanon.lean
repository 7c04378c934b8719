import Verif.Spec.EbnfTidy
import Verif.Spec.CanonQuery
import Verif.Lemmas.EbnfRecog

/-!
# Canonical texts are generated by the grammar of SPARQL 1.1
-/

namespace NomSparql

open Ebnf

/-! ## Ends of texts -/

/-- The text does not begin with a word character. -/
def NW (s : Str) : Prop := ∀ c r, s = c :: r → ¬ WordChar c
/-- The text begins, and not with a word character. -/
def Op (s : Str) : Prop := ∃ c r, s = c :: r ∧ ¬ WordChar c
/-- The text does not end with a word character. -/
def Cl (s : Str) : Prop := ∀ a c, s = a ++ [c] → ¬ WordChar c

theorem Op.nw {s : Str} (h : Op s) : NW s := by
  obtain ⟨c, r, rfl, h⟩ := h
  rintro _ _ ⟨⟩
  exact h

theorem NW.nil : NW [] := by rintro _ _ ⟨⟩
theorem Op.cons {c : Char} {s : Str} (h : ¬ WordChar c) : Op (c :: s) := ⟨c, s, rfl, h⟩
theorem Op.append {s t : Str} (h : Op s) : Op (s ++ t) := by
  obtain ⟨c, r, rfl, h⟩ := h
  exact .cons h
theorem NW.append {s t : Str} (h : NW s) (h' : NW t) : NW (s ++ t) := by
  cases s with
  | nil => exact h'
  | cons c s => rintro _ _ ⟨⟩; exact h _ _ rfl
theorem NW.op {s t : Str} (h : NW s) (h' : Op t) : Op (s ++ t) := by
  cases s with
  | nil => exact h'
  | cons c s => exact .cons (h _ _ rfl)

theorem Cl.nil : Cl [] := by
  intro a c h
  cases a <;> cases h
theorem Cl.snoc {s : Str} {c : Char} (h : ¬ WordChar c) : Cl (s ++ [c]) := by
  intro a d e
  have := List.append_inj' e rfl
  cases this.2
  exact h
theorem Cl.append {s t : Str} (h : Cl t) (h' : t ≠ []) : Cl (s ++ t) := by
  intro a d e
  obtain ⟨t', c, rfl⟩ : ∃ t' c, t = t' ++ [c] := ⟨t.dropLast, t.getLast h', (List.dropLast_concat_getLast h').symm⟩
  rw [← List.append_assoc] at e
  have := List.append_inj' e rfl
  cases this.2
  exact h _ _ rfl
theorem Cl.append' {s t : Str} (h : Cl s) (h' : Cl t) : Cl (s ++ t) := by
  cases t with
  | nil => rwa [List.append_nil]
  | cons c t => exact .append h' (by simp)
theorem Cl.cons {c : Char} {t : Str} (h : Cl t) (h' : t ≠ []) : Cl (c :: t) := .append (s := [c]) h h'

theorem blank_not_word {c : Char} (h : c ∈ [' ', '\t', '\r', '\n']) : ¬ WordChar c := by
  simp only [List.mem_cons, List.not_mem_nil, or_false] at h
  rcases h with rfl | rfl | rfl | rfl <;> decide

theorem Ws.nw {w : Str} (h : Ws w) : NW w := by
  cases h with
  | nil => exact .nil
  | cons ha _ =>
    cases ha with
    | char hc => rintro _ _ ⟨⟩; exact blank_not_word hc
    | comment => rintro _ _ ⟨⟩; decide

theorem Ws1.op {w t : Str} (h : Ws1 w) : Op (w ++ t) := by
  obtain ⟨h, hn⟩ := h
  cases w with
  | nil => exact (hn rfl).elim
  | cons c w => exact .cons (h.nw _ _ rfl)

theorem Ws.cl {w : Str} (h : Ws w) : Cl w := by
  induction h with
  | nil => exact .nil
  | cons ha _ ih =>
    refine .append' ?_ ih
    cases ha with
    | char hc => exact .snoc (s := []) (blank_not_word hc)
    | @comment body c _ hc =>
      refine .snoc (s := '#' :: body) (blank_not_word ?_)
      simp only [List.mem_cons, List.not_mem_nil, or_false] at hc ⊢
      rcases hc with rfl | rfl <;> simp

theorem Apart.right {s t : Str} (h : NW t) : Apart s t := .inr fun _ _ _ _ _ e hw => h _ _ e hw.2
theorem Apart.left {s t : Str} (h : Cl s) : Apart s t := .inr fun _ _ _ _ e _ hw => h _ _ e hw.1

/-! ## Generated within a text -/

/-- Wherever `s` stands in `S`, if need be not before a word character, it is generated by `e`. -/
def Leg (S : Str) (x : Bool) (e : Ebnf) (s : Str) : Prop := ∀ a b, S = a ++ (s ++ b) → (x = true → NW b) → Gen sparql e s

variable {S : Str} {x : Bool} {a b e : Ebnf} {s t w : Str}

theorem Leg.of (h : Gen sparql e s) : Leg S x e s := fun _ _ _ _ => h
theorem Leg.up (h : Leg S false e s) : Leg S x e s := fun a b hS _ => h a b hS (by rintro ⟨⟩)

/-- Two texts, the second not beginning with a word character. -/
theorem Leg.seq (h : Leg S true a s) (h' : Leg S x b t) (o : Op t) : Leg S x (a ⬩ b) (s ++ t) := fun p q hS hn =>
  .seq (h p (t ++ q) (by simp [hS]) fun _ => o.append.nw) (h' (p ++ s) q (by simp [hS]) hn) (.right o.nw)
theorem Leg.seq0 (h : Leg S true a s) (h' : Leg S true b t) (o : NW t) : Leg S true (a ⬩ b) (s ++ t) := fun p q hS hn =>
  .seq (h p (t ++ q) (by simp [hS]) fun _ => o.append (hn rfl)) (h' (p ++ s) q (by simp [hS]) hn) (.right o)
/-- Two texts, the first not ending with a word character. -/
theorem Leg.seqC (h : Leg S false a s) (h' : Leg S x b t) (c : Cl s) : Leg S x (a ⬩ b) (s ++ t) := fun p q hS hn =>
  .seq (h p (t ++ q) (by simp [hS]) (by rintro ⟨⟩)) (h' (p ++ s) q (by simp [hS]) hn) (.left c)

theorem Leg.more (h : Leg S true a s) (h' : Leg S x (.star a) t) (o : Op t) : Leg S x (.star a) (s ++ t) := fun p q hS hn =>
  .more (h p (t ++ q) (by simp [hS]) fun _ => o.append.nw) (h' (p ++ s) q (by simp [hS]) hn) (.right o.nw)
theorem Leg.more0 (h : Leg S true a s) (h' : Leg S true (.star a) t) (o : NW t) : Leg S true (.star a) (s ++ t) := fun p q hS hn =>
  .more (h p (t ++ q) (by simp [hS]) fun _ => o.append (hn rfl)) (h' (p ++ s) q (by simp [hS]) hn) (.right o)
theorem Leg.moreC (h : Leg S false a s) (h' : Leg S x (.star a) t) (c : Cl s) : Leg S x (.star a) (s ++ t) := fun p q hS hn =>
  .more (h p (t ++ q) (by simp [hS]) (by rintro ⟨⟩)) (h' (p ++ s) q (by simp [hS]) hn) (.left c)
theorem Leg.stop : Leg S x (.star a) [] := .of .stop

theorem Leg.ws (hw : Ws w) (h : Leg S x e s) : Leg S x e (w ++ s) := fun p q hS hn =>
  .before hw (h (p ++ w) q (by simp [hS]) hn)
theorem Leg.tail (h : Leg S x e s) (hw : Ws w) : Leg S x e (s ++ w) := fun p q hS hn =>
  .after (h p (w ++ q) (by simp [hS]) fun hx => hw.nw.append (hn hx)) hw
theorem Leg.tail1 (h : Leg S true e s) (hw : Ws1 w) : Leg S x e (s ++ w) := fun p q hS _ =>
  .after (h p (w ++ q) (by simp [hS]) fun _ => hw.op.nw) hw.1

theorem Leg.k (h : kw w s) : Leg S x (.k w) s := .of (.k h)
theorem Leg.p : Leg S x (.p w) w := .of .p
theorem Leg.n {y : Nt} (h : Leg S x (rule y) s) : Leg S x (.n y) s := fun p q hS hn => .n (h p q hS hn)
theorem Leg.left (h : Leg S x a s) : Leg S x (a ⫾ b) s := fun p q hS hn => .left (h p q hS hn)
theorem Leg.right (h : Leg S x b s) : Leg S x (a ⫾ b) s := fun p q hS hn => .right (h p q hS hn)
theorem Leg.none : Leg S x (maybe a) [] := .of (.right .nothing)

/-- An optional first part left out. -/
theorem Leg.skip (h : Leg S x b t) (h0 : Gen sparql a []) : Leg S x (a ⬩ b) t := Leg.seqC (s := []) (.of h0) h .nil
theorem Leg.skipM (h : Leg S x b t) : Leg S x (maybe a ⬩ b) t := h.skip (.right .nothing)
theorem Leg.skipS (h : Leg S x b t) : Leg S x (.star a ⬩ b) t := h.skip .stop
/-- A last part left out. -/
theorem Leg.endR (h : Leg S x a s) (h0 : Gen sparql b []) : Leg S x (a ⬩ b) s := fun p q hS hn => by
  have := Gen.seq (D := sparql) (h p q hS hn) h0 (.right .nil)
  rwa [List.append_nil] at this
theorem Leg.endM (h : Leg S x a s) : Leg S x (a ⬩ maybe b) s := h.endR (.right .nothing)
theorem Leg.endS (h : Leg S x a s) : Leg S x (a ⬩ .star b) s := h.endR .stop

/-- A sign and a text. -/
theorem Leg.pc {c : Char} (h : Leg S x b t) (hc : ¬ WordChar c) : Leg S x (.p [c] ⬩ b) (c :: t) :=
  Leg.seqC (s := [c]) .p h (.snoc (s := []) hc)

/-- A minus sign and a text. -/
theorem Leg.minus (h : Leg S x b t) : Leg S x (.p c!"-" ⬩ b) ('-' :: t) := fun m q hS hn =>
  Gen.seq (s := c!"-") .p (h (m ++ c!"-") q (by simp [hS]) hn) (.inl rfl)

/-- Two signs and a text. -/
theorem Leg.pc2 {c d : Char} (h : Leg S x b t) (hd : ¬ WordChar d) : Leg S x (.p [c, d] ⬩ b) (c :: d :: t) :=
  Leg.seqC (s := [c, d]) .p h (.snoc (s := [c]) hd)

theorem Leg.cast (h : Leg S x e s) (hs : s = t) : Leg S x e t := hs ▸ h

theorem Leg.mem {l : List Ebnf} (hm : e ∈ l) (h : Leg S x e s) : Leg S x (choice l) s := by
  induction l with
  | nil => cases hm
  | cons a l ih =>
    cases l with
    | nil =>
      rcases List.mem_cons.mp hm with rfl | hm
      · exact h
      · cases hm
    | cons b l =>
      rcases List.mem_cons.mp hm with rfl | hm
      · exact .left h
      · exact .right (ih hm)

/-- The alternative number `i`. -/
theorem Leg.pick {l : List Ebnf} (i : Nat) (hi : l[i]? = .some e := by rfl) (h : Leg S x e s) : Leg S x (choice l) s :=
  .mem (List.mem_of_getElem? hi) h

/-- In brackets. -/
theorem Leg.close {c : Char} (h : Leg S true a s) (hc : ¬ WordChar c) : Leg S x (a ⬩ .p [c]) (s ++ [c]) := .seq h .p (.cons hc)
theorem Leg.parens (h : Leg S true a s) : Leg S x (parens a) ('(' :: (s ++ [')'])) := .pc (.close h (by decide)) (by decide)
theorem Leg.braces (h : Leg S true a s) : Leg S x (braces a) ('{' :: (s ++ ['}'])) := .pc (.close h (by decide)) (by decide)
theorem cl_close {c d : Char} (h : ¬ WordChar d) : Cl (c :: (s ++ [d])) := .snoc (s := c :: s) h

/-! ## Lists -/

/-- Members that do not end with a word character. -/
theorem Leg.manyC {α : Type} {R : α → Lang} {l : List α} (h : ∀ y t, R y t → Leg S false a t ∧ Cl t) (hs : Many R l s) :
    Leg S false (.star a) s ∧ Cl s := by
  induction l generalizing s with
  | nil => cases hs; exact ⟨.stop, .nil⟩
  | cons y l ih =>
    obtain ⟨u, v, rfl, hu, hv⟩ := hs
    exact ⟨.moreC (h _ _ hu).1 (ih hv).1 (h _ _ hu).2, .append' (h _ _ hu).2 (ih hv).2⟩

/-- Members that do not begin with a word character. -/
theorem Leg.manyO {α : Type} {R : α → Lang} {l : List α} (h : ∀ y t, R y t → Leg S true a t ∧ NW t) (hs : Many R l s) :
    Leg S true (.star a) s ∧ NW s := by
  induction l generalizing s with
  | nil => cases hs; exact ⟨.stop, .nil⟩
  | cons y l ih =>
    obtain ⟨u, v, rfl, hu, hv⟩ := hs
    exact ⟨.more0 (h _ _ hu).1 (ih hv).1 (ih hv).2, .append (h _ _ hu).2 (ih hv).2⟩

theorem Leg.opt {α : Type} {R : α → Lang} {o : Option α} (h : ∀ y t, R y t → Leg S x a t) (hs : rOpt R o s) : Leg S x (maybe a) s := by
  cases o with
  | none => cases hs; exact .none
  | some y => exact .left (h _ _ hs)

theorem opt_nw {α : Type} {R : α → Lang} {o : Option α} (h : ∀ y t, R y t → NW t) (hs : rOpt R o s) : NW s := by
  cases o with
  | none => cases hs; exact .nil
  | some y => exact h _ _ hs

theorem opt_cl {α : Type} {R : α → Lang} {o : Option α} (h : ∀ y t, R y t → Cl t) (hs : rOpt R o s) : Cl s := by
  cases o with
  | none => cases hs; exact .nil
  | some y => exact h _ _ hs

/-- Members separated by white space. -/
theorem Leg.sepWs {α : Type} {R : α → Lang} {l : List α} (h : ∀ y t, R y t → Leg S true a t) (hs : Sep1 Ws1 R l s) : Leg S true (plus a) s := by
  cases l with
  | nil => cases hs
  | cons y l =>
    obtain ⟨u, v, rfl, hu, hv⟩ := hs
    have := Leg.manyO (a := a) (S := S) (fun y t ⟨w, u, e, hw, hu⟩ => e ▸ ⟨Leg.ws hw.1 (h _ _ hu), hw.op.nw⟩) hv
    exact .seq0 (h _ _ hu) this.1 this.2

theorem Leg.sepWs0 {α : Type} {R : α → Lang} {l : List α} (h : ∀ y t, R y t → Leg S true a t) (hs : Sep0 Ws1 R l s) : Leg S true (.star a) s := by
  cases l with
  | nil => cases hs; exact .stop
  | cons y l =>
    obtain ⟨u, v, rfl, hu, hv⟩ := hs
    have := Leg.manyO (a := a) (S := S) (fun y t ⟨w, u, e, hw, hu⟩ => e ▸ ⟨Leg.ws hw.1 (h _ _ hu), hw.op.nw⟩) hv
    exact .more0 (h _ _ hu) this.1 this.2

/-- Members separated by a sign. -/
theorem Leg.sep {α : Type} {B : Lang} {R : α → Lang} {l : List α} (hB : ∀ t, B t → Leg S false b t ∧ Op t ∧ Cl t) (h : ∀ y t, R y t → Leg S true a t)
    (hs : Sep1 B R l s) : Leg S true (sepBy a b) s := by
  cases l with
  | nil => cases hs
  | cons y l =>
    obtain ⟨u, v, rfl, hu, hv⟩ := hs
    have := Leg.manyO (a := b ⬩ a) (S := S) (fun y t ⟨m, u, e, hm, hu⟩ => e ▸ ⟨Leg.seqC (hB _ hm).1 (h _ _ hu) (hB _ hm).2.2, (hB _ hm).2.1.append.nw⟩) hv
    exact .seq0 (h _ _ hu) this.1 this.2

/-- White space after every member. -/
theorem Leg.wsList {α : Type} {R : α → Lang} {l : List α} (h : ∀ y t, R y t → Leg S true a t) (hs : WsList R l s) : Leg S false (plus a) s ∧ Cl s := by
  obtain ⟨hn, hs⟩ := hs
  cases l with
  | nil => exact (hn rfl).elim
  | cons y l =>
    obtain ⟨_, v, rfl, ⟨u, w, rfl, hu, hw⟩, hv⟩ := hs
    have := Leg.manyC (a := a) (S := S) (fun y t ⟨u, w, e, hu, hw⟩ => e ▸ ⟨Leg.tail1 (h _ _ hu) hw, Cl.append hw.1.cl hw.2⟩) hv
    have hc : Cl (u ++ w) := .append hw.1.cl hw.2
    exact ⟨.seqC (.tail1 (h _ _ hu) hw) this.1 hc, .append' hc this.2⟩

theorem Leg.comma (h : commaL s) : Leg S false (.p c!",") s ∧ Op s ∧ Cl s := by
  obtain ⟨w, _, rfl, hw, m, w', rfl, rfl, hw'⟩ := h
  exact ⟨.ws hw (.tail .p hw'), hw.nw.op (.cons (by decide)), .append (.append' (s := c!",") (.snoc (s := []) (by decide)) hw'.cl) (by simp)⟩

end NomSparql
