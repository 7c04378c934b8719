import Verif.Spec.Ebnf
import Verif.Lemmas.Lists

/-!
# A recogniser for SPARQL 1.1

`recog` tries all ways to read a text by the grammar.  It knows only some of the texts of the terminals and no comments, but what it
accepts is legal.  It serves to show by evaluation that a given text is legal.
-/

namespace NomSparql

open Ebnf

instance : DecidablePred W3CPnCharsU := fun c => by unfold W3CPnCharsU; infer_instance
instance : DecidablePred W3CCombining := fun c => by unfold W3CCombining; infer_instance
instance : DecidablePred W3CPnChars := fun c => by unfold W3CPnChars; infer_instance
instance : DecidablePred WordChar := fun c => by unfold WordChar; infer_instance

/-- `Apart`, decided. -/
def apartB (s t : Str) : Bool :=
  match s.getLast?, t.head? with
  | some c, some d => !(decide (WordChar c) && decide (WordChar d))
  | _, _ => true

theorem apartB_sound {s t : Str} (h : apartB s t) : Apart s t := by
  refine .inr ?_
  rintro a c d b rfl rfl ⟨hc, hd⟩
  simp [apartB, hc, hd] at h

/-- Ways to read a part of the text: what is read and what is left. -/
abbrev Cuts := List (Str × Str)

/-- The longest part of characters of a class. -/
def run (f : Char → Bool) (s : Str) : Str × Str := (s.takeWhile f, s.dropWhile f)

theorem run_eq (f : Char → Bool) (s : Str) : s = (run f s).1 ++ (run f s).2 := List.takeWhile_append_dropWhile.symm

theorem run_all {f : Char → Bool} {s : Str} {c : Char} (h : c ∈ (run f s).1) : f c = true := by
  simp only [run] at h
  induction s with
  | nil => cases h
  | cons d s ih =>
    rw [List.takeWhile_cons] at h
    split at h
    · rcases List.mem_cons.mp h with rfl | h
      · assumption
      · exact ih h
    · cases h

/-- A letter. -/
def letterB (c : Char) : Bool := decide ((0x41 ≤ c.toNat ∧ c.toNat ≤ 0x5A) ∨ (0x61 ≤ c.toNat ∧ c.toNat ≤ 0x7A))

theorem letterB_base {c : Char} (h : letterB c) : W3CPnCharsBase c := by
  simp only [letterB, decide_eq_true_eq] at h
  rcases h with h | h
  · exact .inl h
  · exact .inr (.inl h)

def digitB (c : Char) : Bool := decide (AsciiDigit c)
def blankB (c : Char) : Bool := [' ', '\t', '\r', '\n'].contains c

/-- A text between two others. -/
def between (a b : Str) (f : Char → Bool) (s : Str) : Cuts :=
  if a.isPrefixOf s then
    let x := run f (s.drop a.length)
    if b.isPrefixOf x.2 then [(a ++ (x.1 ++ b), x.2.drop b.length)] else []
  else []

theorem between_sound {a b : Str} {f : Char → Bool} {s t r : Str} (h : (t, r) ∈ between a b f s) :
    s = t ++ r ∧ ∃ x, t = a ++ (x ++ b) ∧ ∀ c ∈ x, f c = true := by
  simp only [between] at h
  split at h
  · rename_i ha
    obtain ⟨s', rfl⟩ := List.isPrefixOf_iff_prefix.mp ha
    rw [List.drop_left] at h
    split at h
    · rename_i hb
      obtain ⟨u, hu⟩ := List.isPrefixOf_iff_prefix.mp hb
      simp only [List.mem_singleton, Prod.mk.injEq] at h
      obtain ⟨rfl, rfl⟩ := h
      refine ⟨?_, _, rfl, fun c hc => run_all hc⟩
      conv => lhs; rw [run_eq f s', ← hu]
      rw [← hu, List.drop_left]
      simp
    · cases h
  · cases h

/-- A non-empty run. -/
def run1 (f : Char → Bool) (s : Str) : Cuts := if (run f s).1 = [] then [] else [run f s]

theorem run1_sound {f : Char → Bool} {s t r : Str} (h : (t, r) ∈ run1 f s) : s = t ++ r ∧ t ≠ [] ∧ ∀ c ∈ t, f c = true := by
  simp only [run1] at h
  split at h
  · cases h
  · rename_i hn
    simp only [List.mem_singleton] at h
    obtain ⟨rfl, rfl⟩ := Prod.mk.injEq .. ▸ h
    exact ⟨run_eq f s, hn, fun c hc => run_all hc⟩

/-- One reading after the other. -/
def andThen (f g : Str → Cuts) (ok : Str → Str → Bool) (s : Str) : Cuts :=
  (f s).flatMap fun x => ((g x.2).filter fun y => ok x.1 y.1).map fun y => (x.1 ++ y.1, y.2)

theorem andThen_sound {f g : Str → Cuts} {ok : Str → Str → Bool} {s t r : Str} (h : (t, r) ∈ andThen f g ok s) :
    ∃ a m b, t = a ++ b ∧ (a, m) ∈ f s ∧ (b, r) ∈ g m ∧ ok a b := by
  simp only [andThen, List.mem_flatMap, List.mem_map, List.mem_filter, Prod.mk.injEq] at h
  obtain ⟨⟨a, m⟩, h1, ⟨b, r'⟩, ⟨h2, h3⟩, rfl, rfl⟩ := h
  exact ⟨a, m, b, rfl, h1, h2, h3⟩

/-- A name before a colon. -/
def nsCuts (s : Str) : Cuts := between [] c!":" letterB s

theorem nsCuts_sound {s t r : Str} (h : (t, r) ∈ nsCuts s) : s = t ++ r ∧ W3CPnameNs t := by
  obtain ⟨h1, x, rfl, hx⟩ := between_sound h
  refine ⟨h1, ?_⟩
  cases x with
  | nil => exact .inl rfl
  | cons c x =>
    refine .inr ⟨c :: x, rfl, c, x, rfl, letterB_base (hx c (by simp)), ?_⟩
    rcases List.eq_nil_or_concat x with rfl | ⟨y, d, rfl⟩
    · exact .inl rfl
    · exact .inr ⟨y, d, by simp, fun e he => .inl (.inl (.inl (letterB_base (hx e (by simp [he]))))), .inl (.inl (letterB_base (hx d (by simp))))⟩

theorem local_letters {s : Str} (h : s ≠ []) (h' : ∀ c ∈ s, letterB c = true) : W3CLocal s := by
  cases s with
  | nil => exact absurd rfl h
  | cons c x =>
    refine ⟨[c], x, rfl, .ch (.inl (.inl (letterB_base (h' c (by simp))))), ?_⟩
    rcases List.eq_nil_or_concat x with rfl | ⟨y, d, rfl⟩
    · exact .inl rfl
    · refine .inr ⟨y, [d], by simp, ?_, .ch (.inl (.inl (.inl (letterB_base (h' d (by simp))))))⟩
      have : ∀ e ∈ y, letterB e = true := fun e he => h' e (by simp [he])
      clear h h'
      induction y with
      | nil => exact .nil
      | cons e y ih =>
        exact NameUnits.cons (u := [e]) (.ch (.inl (.inl (.inl (letterB_base (this e (by simp))))))) (ih fun e' he' => this e' (by simp [he']))

/-- Some texts of the terminals. -/
def tok : Term → Str → Cuts
  | .iriRef, s => between c!"<" c!">" (fun c => !decide (W3CIriForbidden c)) s
  | .pnameNs, s => nsCuts s
  | .pnameLn, s => andThen nsCuts (run1 letterB) (fun _ _ => true) s
  | .blankNodeLabel, s => between c!"_:" [] letterB s |>.filter fun x => x.1.length != 2
  | .var, s => (between c!"?" [] letterB s ++ between c!"$" [] letterB s).filter fun x => x.1.length != 1
  | .langTag, _ => []
  | .integer, s => run1 digitB s
  | .number, s => run1 digitB s
  | .signedNumber, s => (between c!"+" [] digitB s ++ between c!"-" [] digitB s).filter fun x => x.1.length != 1
  | .string, s => between c!"\"" c!"\"" (fun c => ![ '"', '\\', '\n', '\r'].contains c) s ++
      between c!"'" c!"'" (fun c => !['\'', '\\', '\n', '\r'].contains c) s ++
      between c!"\"\"\"" c!"\"\"\"" (fun c => !['"', '\\'].contains c) s
  | .nil, s => between c!"(" c!")" blankB s
  | .anon, s => between c!"[" c!"]" blankB s

theorem strBody_of {q : Char} {x : Str} (h : ∀ c ∈ x, c ≠ q ∧ c ≠ '\\') : StrBody q x := by
  induction x with
  | nil => exact .nil
  | cons c x ih => exact .ord (h c (by simp)).1 (h c (by simp)).2 (ih fun d hd => h d (by simp [hd]))

theorem longBody_of {q : Char} {x : Str} (h : ∀ c ∈ x, c ≠ q ∧ c ≠ '\\') : LongBody q x := by
  induction x with
  | nil => exact .nil
  | cons c x ih => exact LongBody.ord (m := []) (by simp) (h c (by simp)).1 (h c (by simp)).2 (ih fun d hd => h d (by simp [hd]))

theorem tok_sound {t : Term} {s x r : Str} (h : (x, r) ∈ tok t s) : s = x ++ r ∧ w3cTerm t x := by
  have hblank : ∀ {w : Str}, (∀ c ∈ w, blankB c = true) → ∀ c ∈ w, w3cTerm.IsWs c := fun h c hc => by
    have := h c hc
    simpa [blankB, w3cTerm.IsWs] using this
  have hdig : ∀ {w : Str}, (∀ c ∈ w, digitB c = true) → ∀ c ∈ w, AsciiDigit c := fun h c hc => by simpa [digitB] using h c hc
  cases t with
  | iriRef =>
    obtain ⟨h1, y, rfl, hy⟩ := between_sound h
    exact ⟨h1, y, rfl, fun c hc => by simpa using hy c hc⟩
  | pnameNs => exact nsCuts_sound h
  | pnameLn =>
    obtain ⟨a, m, b, rfl, h1, h2, _⟩ := andThen_sound (show (x, r) ∈ andThen nsCuts (run1 letterB) (fun _ _ => true) s from h)
    obtain ⟨rfl, ha⟩ := nsCuts_sound h1
    obtain ⟨rfl, hb, hb'⟩ := run1_sound h2
    exact ⟨by simp, a, b, rfl, ha, local_letters hb hb'⟩
  | blankNodeLabel =>
    obtain ⟨h, hl⟩ := List.mem_filter.mp h
    obtain ⟨h1, y, rfl, hy⟩ := between_sound h
    refine ⟨h1, ?_⟩
    cases y with
    | nil => simp at hl
    | cons c y =>
      refine ⟨c, y, by simp, .inl (.inl (letterB_base (hy c (by simp)))), ?_⟩
      rcases List.eq_nil_or_concat y with rfl | ⟨z, d, rfl⟩
      · exact .inl rfl
      · exact .inr ⟨z, d, by simp, fun e he => .inl (.inl (.inl (letterB_base (hy e (by simp [he]))))), .inl (.inl (letterB_base (hy d (by simp))))⟩
  | var =>
    obtain ⟨h, hl⟩ := List.mem_filter.mp h
    have key : ∀ g, (g = '?' ∨ g = '$') → (x, r) ∈ between [g] [] letterB s → s = x ++ r ∧ w3cTerm .var x := by
      intro g hg h
      obtain ⟨h1, y, rfl, hy⟩ := between_sound h
      refine ⟨h1, ?_⟩
      cases y with
      | nil => simp at hl
      | cons c y =>
        exact ⟨g, c, y, by simp, hg, .inl (.inl (letterB_base (hy c (by simp)))), fun d hd => .inl (.inl (letterB_base (hy d (by simp [hd]))))⟩
    rcases List.mem_append.mp h with h | h
    · exact key _ (.inl rfl) h
    · exact key _ (.inr rfl) h
  | langTag => cases h
  | integer =>
    obtain ⟨h1, h2, h3⟩ := run1_sound h
    exact ⟨h1, h2, hdig h3⟩
  | number =>
    obtain ⟨h1, h2, h3⟩ := run1_sound h
    exact ⟨h1, .inl ⟨h2, hdig h3⟩⟩
  | signedNumber =>
    obtain ⟨h, hl⟩ := List.mem_filter.mp h
    have key : ∀ g, (g = '+' ∨ g = '-') → (x, r) ∈ between [g] [] digitB s → s = x ++ r ∧ w3cTerm .signedNumber x := by
      intro g hg h
      obtain ⟨h1, y, rfl, hy⟩ := between_sound h
      refine ⟨h1, y, ?_, .inl ⟨?_, hdig hy⟩⟩
      · rcases hg with rfl | rfl <;> simp
      · rintro rfl; simp at hl
    rcases List.mem_append.mp h with h | h
    · exact key _ (.inl rfl) h
    · exact key _ (.inr rfl) h
  | string =>
    simp only [tok, List.mem_append] at h
    rcases h with (h | h) | h
    · obtain ⟨h1, y, rfl, hy⟩ := between_sound h
      refine ⟨h1, '"', y, .inr rfl, .inl ⟨by simp, strBody_of fun c hc => ?_, fun c hc => ?_⟩⟩ <;>
        (have := hy c hc; simp at this; simp [this])
    · obtain ⟨h1, y, rfl, hy⟩ := between_sound h
      refine ⟨h1, '\'', y, .inl rfl, .inl ⟨by simp, strBody_of fun c hc => ?_, fun c hc => ?_⟩⟩ <;>
        (have := hy c hc; simp at this; simp [this])
    · obtain ⟨h1, y, rfl, hy⟩ := between_sound h
      refine ⟨h1, '"', y, .inr rfl, .inr ⟨by simp, longBody_of fun c hc => ?_⟩⟩
      have := hy c hc
      simp at this
      simp [this]
  | nil =>
    obtain ⟨h1, y, rfl, hy⟩ := between_sound h
    exact ⟨h1, y, by simp, hblank hy⟩
  | anon =>
    obtain ⟨h1, y, rfl, hy⟩ := between_sound h
    exact ⟨h1, y, by simp, hblank hy⟩

/-- A keyword. -/
def kwCuts : Str → Str → Cuts
  | [], s => [([], s)]
  | c :: w, d :: s => if d = c ∨ (0x61 ≤ c.toNat ∧ c.toNat ≤ 0x7A ∧ d.toNat + 0x20 = c.toNat) then (kwCuts w s).map fun x => (d :: x.1, x.2) else []
  | _ :: _, [] => []

theorem kwCuts_sound {w s t r : Str} (h : (t, r) ∈ kwCuts w s) : s = t ++ r ∧ kw w t := by
  induction w generalizing s t with
  | nil => simp only [kwCuts, List.mem_singleton, Prod.mk.injEq] at h; obtain ⟨rfl, rfl⟩ := h; exact ⟨rfl, .nil⟩
  | cons c w ih =>
    cases s with
    | nil => cases h
    | cons d s =>
      simp only [kwCuts] at h
      split at h
      · rename_i hc
        simp only [List.mem_map, Prod.mk.injEq] at h
        obtain ⟨⟨a, b⟩, h, rfl, rfl⟩ := h
        obtain ⟨rfl, h2⟩ := ih h
        exact ⟨rfl, .cons hc h2⟩
      · cases h

/-- Blanks before a reading. -/
def skip (f : Str → Cuts) (s : Str) : Cuts := (f (run blankB s).2).map fun x => ((run blankB s).1 ++ x.1, x.2)

theorem ws_blanks {w : Str} (h : ∀ c ∈ w, blankB c = true) : Ws w := by
  induction w with
  | nil => exact .nil
  | cons c w ih => exact Ws.cons (a := [c]) (.char (by simpa [blankB] using h c (by simp))) (ih fun d hd => h d (by simp [hd]))

theorem skip_sound {f : Str → Cuts} {e : Ebnf} (hf : ∀ s t r, (t, r) ∈ f s → s = t ++ r ∧ Gen sparql e t) {s t r : Str} (h : (t, r) ∈ skip f s) :
    s = t ++ r ∧ Gen sparql e t := by
  simp only [skip, List.mem_map, Prod.mk.injEq] at h
  obtain ⟨⟨a, b⟩, h, rfl, rfl⟩ := h
  obtain ⟨h1, h2⟩ := hf _ _ _ h
  refine ⟨?_, .before (ws_blanks fun c hc => run_all hc) h2⟩
  conv => lhs; rw [run_eq blankB s, h1]
  simp

/-- All ways to read a part of the text by the grammar. -/
def cuts : Nat → Ebnf → Str → Cuts
  | 0, _, _ => []
  | _ + 1, .t x, s => skip (tok x) s
  | _ + 1, .k w, s => skip (kwCuts w) s
  | _ + 1, .p w, s => skip (between w [] fun _ => false) s
  | m + 1, .n x, s => cuts m (rule x) s
  | _ + 1, .nothing, s => [([], s)]
  | m + 1, .seq a b, s => (andThen (cuts m a) (cuts m b) apartB s).eraseDups
  | m + 1, .alt a b, s => (cuts m a s ++ cuts m b s).eraseDups
  | m + 1, .star a, s => ([], s) :: andThen (fun s => (cuts m a s).filter fun x => x.1 != []) (cuts m (.star a)) apartB s

theorem cuts_sound {m : Nat} {e : Ebnf} {s t r : Str} (h : (t, r) ∈ cuts m e s) : s = t ++ r ∧ Gen sparql e t := by
  induction m generalizing e s t r with
  | zero => cases h
  | succ m ih =>
    cases e with
    | t x => exact skip_sound (fun s t r h => ⟨(tok_sound h).1, .t (tok_sound h).2⟩) h
    | k w => exact skip_sound (fun s t r h => ⟨(kwCuts_sound h).1, .k (kwCuts_sound h).2⟩) h
    | p w =>
      refine skip_sound (fun s t r h => ?_) h
      obtain ⟨h1, x, rfl, hx⟩ := between_sound h
      cases x with
      | nil => exact ⟨h1, by simpa using Gen.p⟩
      | cons c x => cases hx c (by simp)
    | n x => exact ⟨(ih h).1, .n (ih h).2⟩
    | nothing =>
      simp only [cuts, List.mem_singleton, Prod.mk.injEq] at h
      obtain ⟨rfl, rfl⟩ := h
      exact ⟨rfl, .nothing⟩
    | seq a b =>
      obtain ⟨x, z, y, rfl, h1, h2, h3⟩ := andThen_sound (List.mem_eraseDups.mp h)
      obtain ⟨rfl, g1⟩ := ih h1
      obtain ⟨rfl, g2⟩ := ih h2
      exact ⟨by simp, .seq g1 g2 (apartB_sound h3)⟩
    | alt a b =>
      rcases List.mem_append.mp (List.mem_eraseDups.mp h) with h | h
      · exact ⟨(ih h).1, .left (ih h).2⟩
      · exact ⟨(ih h).1, .right (ih h).2⟩
    | star a =>
      simp only [cuts, List.mem_cons, Prod.mk.injEq] at h
      rcases h with ⟨rfl, rfl⟩ | h
      · exact ⟨rfl, .stop⟩
      · obtain ⟨x, z, y, rfl, h1, h2, h3⟩ := andThen_sound h
        obtain ⟨rfl, g1⟩ := ih (List.mem_filter.mp h1).1
        obtain ⟨rfl, g2⟩ := ih h2
        exact ⟨by simp, .more g1 g2 (apartB_sound h3)⟩

/-- The text is read by the grammar to its end. -/
def recog (x : Nt) (s : Str) : Bool := (cuts 200 (.n x) s).any fun y => y.2.all blankB

theorem recog_sound {x : Nt} {s : Str} (h : recog x s = true) : Gen sparql (.n x) s := by
  simp only [recog, List.any_eq_true, List.all_eq_true] at h
  obtain ⟨⟨t, r⟩, h1, hr⟩ := h
  obtain ⟨rfl, h2⟩ := cuts_sound h1
  exact .after h2 (ws_blanks hr)

end NomSparql
