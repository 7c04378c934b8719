import Verif.Spec.Ebnf
import Verif.Lemmas.Rendered

/-!
# From renderings to generated texts: combinators
-/

namespace NomSparql

open Ebnf

variable {d : Dev → Prop}

/-- Every text of `L` is generated by `e` in the lax dialect with the additional productions `d`. -/
def Fits (d : Dev → Prop) (L : Lang) (e : Ebnf) : Prop := ∀ s, L s → Gen (lax d) e s

variable {A B C : Lang} {a b c e : Ebnf} {w : Str} {x : Nt}

theorem Fits.seq (h : Fits d A a) (h' : Fits d B b) : Fits d (A ⬝ B) (a ⬩ b) := by
  rintro _ ⟨s, t, rfl, hs, ht⟩; exact .seq (h _ hs) (h' _ ht) trivial

theorem Fits.ws (h : Fits d B b) : Fits d (Ws ⬝ B) b := by
  rintro _ ⟨s, t, rfl, hs, ht⟩; exact .before hs (h _ ht)

theorem Fits.ws1 (h : Fits d B b) : Fits d (Ws1 ⬝ B) b := by
  rintro _ ⟨s, t, rfl, hs, ht⟩; exact .before hs.1 (h _ ht)

theorem Fits.tail (h : Fits d A a) : Fits d (A ⬝ Ws) a := by
  rintro _ ⟨s, t, rfl, hs, ht⟩; exact .after (h _ hs) ht

theorem Fits.tail1 (h : Fits d A a) : Fits d (A ⬝ Ws1) a := by
  rintro _ ⟨s, t, rfl, hs, ht⟩; exact .after (h _ hs) ht.1

theorem Fits.enc (h : Fits d A a) : Fits d (enc A) a := .ws (.tail h)
theorem Fits.enc1 (h : Fits d A a) : Fits d (enc1 A) a := .ws1 (.tail1 h)

theorem Fits.kw : Fits d (kw w) (.k w) := fun _ h => .k h
theorem Fits.lit : Fits d (lit w) (.p w) := by rintro _ rfl; exact .p
theorem Fits.t {x : Term} (h : ∀ s, A s → crateTerm x s) : Fits d A (.t x) := fun s hs => .t (h s hs)
theorem Fits.n (h : Fits d A (rule x)) : Fits d A (.n x) := fun s hs => .n (h s hs)
theorem Fits.extra {v : Dev} (hv : d v) (he : extra v x = some e) (h : Fits d A e) : Fits d A (.n x) := fun s hs => .extra hv he (h s hs)
theorem Fits.left (h : Fits d A a) : Fits d A (a ⫾ b) := fun s hs => .left (h s hs)
theorem Fits.right (h : Fits d A b) : Fits d A (a ⫾ b) := fun s hs => .right (h s hs)
theorem Fits.nothing : Fits d eps .nothing := by rintro _ rfl; exact .nothing
theorem Fits.none : Fits d eps (maybe a) := .right .nothing
theorem Fits.some (h : Fits d A a) : Fits d A (maybe a) := .left h
theorem Fits.ex {ι : Sort _} {L : ι → Lang} (h : ∀ i, Fits d (L i) a) : Fits d (fun s => ∃ i, L i s) a := by
  rintro s ⟨i, hs⟩; exact h i s hs
theorem Fits.or (h : Fits d A a) (h' : Fits d B a) : Fits d (fun s => A s ∨ B s) a := by
  rintro s (hs | hs)
  · exact h s hs
  · exact h' s hs
theorem Fits.orNil (h : Fits d A a) : Fits d (fun s => s = [] ∨ A s) (maybe a) := .or .none h.some

theorem Fits.mem {l : List Ebnf} (hm : e ∈ l) (h : Fits d A e) : Fits d A (choice l) := by
  induction l with
  | nil => cases hm
  | cons a l ih =>
    cases l with
    | nil =>
      rcases List.mem_cons.mp hm with rfl | hm
      · exact h
      · cases hm
    | cons b l =>
      rcases List.mem_cons.mp hm with rfl | hm
      · exact .left h
      · exact .right (ih hm)

/-- The alternative number `i`. -/
theorem Fits.pick {l : List Ebnf} (i : Nat) (hi : l[i]? = .some e := by rfl) (h : Fits d A e) : Fits d A (choice l) :=
  .mem (List.mem_of_getElem? hi) h

theorem Fits.rOpt {R : α → Lang} {o : Option α} (h : ∀ x, Fits d (R x) a) : Fits d (rOpt R o) (maybe a) := by
  cases o with
  | none => exact .none
  | some x => exact (h x).some

theorem Fits.rFlag {o : Bool} (h : Fits d A a) : Fits d (rFlag A o) (maybe a) := by
  cases o with
  | false => exact .none
  | true => exact h.some

theorem Fits.stop : Fits d eps (star a) := by rintro _ rfl; exact .stop
theorem Fits.more (h : Fits d A a) (h' : Fits d B (star a)) : Fits d (A ⬝ B) (star a) := by
  rintro _ ⟨s, t, rfl, hs, ht⟩; exact .more (h _ hs) (h' _ ht) trivial

theorem Fits.many {R : α → Lang} {l : List α} (h : ∀ x, Fits d (R x) a) : Fits d (Many R l) (star a) := by
  induction l with
  | nil => exact .stop
  | cons x l ih => exact .more (h x) ih

theorem Fits.many1 {R : α → Lang} {l : List α} (h : ∀ x, Fits d (R x) a) : Fits d (Many1 R l) (plus a) := by
  cases l with
  | nil => rintro _ ⟨⟩
  | cons x l => exact .seq (h x) (.many h)

theorem Fits.sep1 {R : α → Lang} {l : List α} (hB : Fits d B b) (h : ∀ x, Fits d (R x) a) : Fits d (Sep1 B R l) (sepBy a b) := by
  cases l with
  | nil => rintro _ ⟨⟩
  | cons x l => exact .seq (h x) (.many fun y => .seq hB (h y))

theorem Fits.sep1ws {R : α → Lang} {l : List α} (h : ∀ x, Fits d (R x) a) : Fits d (Sep1 Ws R l) (plus a) := by
  cases l with
  | nil => rintro _ ⟨⟩
  | cons x l => exact .seq (h x) (.many fun y => .ws (h y))

theorem Fits.sep0ws {R : α → Lang} {l : List α} (h : ∀ x, Fits d (R x) a) : Fits d (Sep0 Ws R l) (star a) := by
  cases l with
  | nil => exact .stop
  | cons x l => exact .more (h x) (.many fun y => .ws (h y))

theorem Fits.sep0ws1 {R : α → Lang} {l : List α} (h : ∀ x, Fits d (R x) a) : Fits d (Sep0 Ws1 R l) (star a) := by
  cases l with
  | nil => exact .stop
  | cons x l => exact .more (h x) (.many fun y => .ws1 (h y))

theorem Fits.star (h : Fits d A a) : Fits d (Star A) (star a) := by
  intro s hs
  induction hs with
  | nil => exact .stop
  | cons h1 _ ih => exact .more (h _ h1) ih trivial

theorem Fits.plus (h : Fits d A a) : Fits d (Plus A) (plus a) := .seq h (.star h)

theorem Fits.paren (h : Fits d A a) : Fits d (paren A) (parens a) := .seq .lit (.seq h .lit)
theorem Fits.call (h : Fits d A a) : Fits d (call w A) (.k w ⬩ parens a) := .seq .kw (.ws h.paren)
theorem Fits.comma : Fits d commaL (.p c!",") := .enc .lit

theorem Fits.mono (h : ∀ s, A s → B s) (hB : Fits d B b) : Fits d A b := fun s hs => hB s (h s hs)

/-- Regrouping. -/
theorem Fits.assoc (h : Fits d (A ⬝ B ⬝ C) e) : Fits d ((A ⬝ B) ⬝ C) e := by
  rw [Lang.seq_assoc]; exact h

theorem Fits.assoc' (h : Fits d ((A ⬝ B) ⬝ C) e) : Fits d (A ⬝ B ⬝ C) e := by
  rw [Lang.seq_assoc] at h; exact h

theorem Fits.regroup {E : Lang} (h : Fits d ((A ⬝ B ⬝ C) ⬝ E) e) : Fits d (A ⬝ B ⬝ C ⬝ E) e := by
  rw [Lang.seq_assoc, Lang.seq_assoc] at h; exact h

theorem gen_stars {s t : Str} (h : Gen (lax d) (.star a) s) (h' : Gen (lax d) (.star a) t) : Gen (lax d) (.star a) (s ++ t) := by
  generalize he : Ebnf.star a = e at h
  induction h generalizing t with
  | stop => cases he; exact h'
  | more h1 _ _ _ ih =>
    cases he
    rw [List.append_assoc]
    exact .more h1 (ih h' rfl) trivial
  | before hw _ ih => subst he; rw [List.append_assoc]; exact .before hw (ih h' rfl)
  | after _ hw ih => subst he; rw [List.append_assoc]; exact ih (.before hw h') rfl
  | _ => cases he

theorem gen_sep_more {t u : Str} (ht : Gen (lax d) b t) (hu : Gen (lax d) (sepBy a b) u) : Gen (lax d) (.star (b ⬩ a)) (t ++ u) := by
  generalize he : sepBy a b = e at hu
  induction hu generalizing t with
  | seq h1 h2 _ _ _ =>
    cases he
    rw [← List.append_assoc]
    exact .more (.seq ht h1 trivial) h2 trivial
  | before hw _ ih => subst he; rw [← List.append_assoc]; exact ih (.after ht hw) rfl
  | after _ hw ih => subst he; rw [← List.append_assoc]; exact .after (ih ht rfl) hw
  | _ => cases he

theorem gen_sep_stars {s v : Str} (h : Gen (lax d) (sepBy a b) s) (hv : Gen (lax d) (.star (b ⬩ a)) v) : Gen (lax d) (sepBy a b) (s ++ v) := by
  generalize he : sepBy a b = e at h
  induction h generalizing v with
  | seq h1 h2 _ _ _ =>
    cases he
    rw [List.append_assoc]
    exact .seq h1 (gen_stars h2 hv) trivial
  | before hw _ ih => subst he; rw [List.append_assoc]; exact .before hw (ih hv rfl)
  | after _ hw ih => subst he; rw [List.append_assoc]; exact ih (.before hw hv) rfl
  | _ => cases he

/-- A list with separators followed by others. -/
theorem Fits.join {R : α → Lang} {l : List α} (hB : Fits d B b) (h : ∀ x, Fits d (R x) (sepBy a b)) : Fits d (Sep1 B R l) (sepBy a b) := by
  cases l with
  | nil => rintro _ ⟨⟩
  | cons x l =>
    rintro _ ⟨s, t, rfl, hs, ht⟩
    refine gen_sep_stars (h x _ hs) ?_
    clear hs
    induction l generalizing t with
    | nil => cases ht; exact .stop
    | cons y l ih =>
      obtain ⟨_, v, rfl, ⟨u1, u2, rfl, h1, h2⟩, hv⟩ := ht
      exact gen_stars (gen_sep_more (hB _ h1) (h y _ h2)) (ih _ hv)

/-- Semicolons, some of them followed by an entry. -/
theorem Fits.semis {S : Lang} (hS : Fits d S (.p c!";")) (hB : Fits d B b) (hC : Fits d C (.star (.p c!";" ⬩ maybe b))) :
    Fits d (Plus S ⬝ B ⬝ C) (.star (.p c!";" ⬩ maybe b)) := by
  rintro _ ⟨_, _, rfl, ⟨s, m, rfl, hs, hm⟩, y, z, rfl, hy, hz⟩
  rw [List.append_assoc]
  induction hm generalizing s with
  | nil =>
    rw [List.nil_append, ← List.append_assoc]
    exact .more (.seq (hS _ hs) (.left (hB _ hy)) trivial) (hC _ hz) trivial
  | @cons s' m hs' _ ih =>
    have := ih s' hs'
    rw [List.append_assoc]
    refine .more ?_ this trivial
    have := Gen.seq (D := lax d) (hS _ hs) (Gen.right (a := b) .nothing) trivial
    rwa [List.append_nil] at this

end NomSparql
