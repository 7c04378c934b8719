import Verif.Lemmas.EbnfFreeGen
import Verif.Lemmas.EbnfTidyCheck

/-!
# A check for careful texts
-/

namespace NomSparql

/-- The rest after blanks. -/
def restAfter (s : Str) : Str := s.dropWhile fun c => decide (IsBlank c)

theorem restAfter_blanks {w b : Str} (h : ∀ c ∈ w, IsBlank c) : restAfter (w ++ b) = restAfter b := by
  induction w with
  | nil => rfl
  | cons d w ih =>
    rw [restAfter, List.cons_append, List.dropWhile_cons_of_pos (by simpa using h d (by simp))]
    exact ih fun c hc => h c (by simp [hc])

theorem restAfter_cons {c : Char} {b : Str} (hc : ¬ IsBlank c) : restAfter (c :: b) = c :: b := by
  rw [restAfter, List.dropWhile_cons_of_neg (by simpa using hc)]

theorem restAfter_ws {w b : Str} {c : Char} (h : ∀ c ∈ w, IsBlank c) (hc : ¬ IsBlank c) : restAfter (w ++ c :: b) = c :: b := by
  rw [restAfter_blanks h, restAfter_cons hc]

/-- The text from the first of certain characters on. -/
def fromFirst (f : Char → Bool) (s : Str) : Str := s.dropWhile fun c => !f c

theorem fromFirst_split {f : Char → Bool} {g : Char} (hg : f g = true) (b : Str) : ∀ a : Str, ∃ a', fromFirst f (a ++ g :: b) = a' ++ g :: b
  | [] => ⟨[], by simp [fromFirst, hg]⟩
  | c :: a => by
    cases hc : f c with
    | true => exact ⟨c :: a, by simp [fromFirst, hc]⟩
    | false =>
      obtain ⟨a', h⟩ := fromFirst_split hg b a
      exact ⟨a', by rw [← h]; simp [fromFirst, hc]⟩

def nameB (c : Char) : Bool := decide (CodedBase c) || c == '_' || c == '-' || decide (AsciiDigit c)
theorem nameB_of {c : Char} (h : CodedNameChar c) : nameB c = true := by rcases h with h | h | h | h <;> simp [nameB, h]

instance decHexDigit : DecidablePred HexDigit := fun c => by unfold HexDigit; infer_instance

/-- The characters of local names with dots. -/
def dottedB (c : Char) : Bool := nameB c || c == ':' || decide (LowByteDigit c) || c == '.' || c == '%' || decide (HexDigit c)

theorem dottedB_units {l : Str} (h : NameUnits DottedChar l) (hb : '\\' ∉ l) : ∀ c ∈ l, dottedB c = true := by
  induction h with
  | nil => simp
  | cons hu _ ih =>
    intro c hc
    rcases List.mem_append.mp hc with hc | hc
    · cases hu with
      | ch h =>
        simp at hc; subst hc
        rcases h with (h | h | h | h) | h | h
        · simp [dottedB, nameB, h]
        · simp [dottedB, nameB, h]
        · simp [dottedB, h]
        · simp [dottedB, h]
        · simp [dottedB, nameB_of h]
        · simp [dottedB, h]
      | pct a b => simp at hc; rcases hc with rfl | rfl | rfl <;> simp [dottedB, a, b]
      | esc => simp at hb
    · exact ih (fun h => hb (by simp [h])) c hc

/-- What freedom from liberties asks of the text from here on. -/
def freeHere : Str → Bool
  | c :: b =>
    let r := restAfter b
    (!decide (c ∈ ['?', '$', ':']) || r == b || (match r with
      | d :: _ => !(decide (CodedBase d) || d == '_' || d == ':' || decide (LowByteDigit d) || d == '%' || d == '\\')
      | [] => true)) &&
    (r == b || r.head? != some ':' || !(decide (CodedBase c) || c == '_' || c == '-' || decide (AsciiDigit c))) &&
    (c != ':' || !((r.takeWhile dottedB).drop 1).contains '.') &&
    (b.head? != some '.' || !(nameB c || c == '.') || (restAfter b.tail).head? != some ':')
  | [] => true

def digitDot : Str → Bool
  | c :: '.' :: _ => !decide (AsciiDigit c)
  | _ => true

/-- No line ends between quotation marks; `q`: inside. -/
def unbrokenB : Bool → Str → Bool
  | q, c :: s => if c = '"' then unbrokenB (!q) s else !(q && (c == '\n' || c == '\r')) && unbrokenB q s
  | _, [] => true

theorem unbrokenB_skip : ∀ {a b : Str} {q : Bool}, unbrokenB q (a ++ b) = true → unbrokenB (if a.count '"' % 2 = 0 then q else !q) b = true
  | [], b, q, h => by simpa using h
  | c :: a, b, q, h => by
    rw [List.cons_append, unbrokenB] at h
    split at h
    · rename_i hc
      subst hc
      have := unbrokenB_skip h
      rw [List.count_cons_self]
      by_cases hp : a.count '"' % 2 = 0
      · rw [if_pos hp] at this
        rwa [if_neg (by omega)]
      · rw [if_neg hp] at this
        rw [if_pos (by omega)]
        simpa using this
    · rename_i hc
      simp only [Bool.and_eq_true] at h
      rw [List.count_cons_of_ne hc]
      exact unbrokenB_skip h.2

theorem unbrokenB_inside : ∀ {y b : Str}, unbrokenB true (y ++ b) = true → '"' ∉ y → ∀ c ∈ y, c ≠ '\n' ∧ c ≠ '\r'
  | [], _, _, _ => by simp
  | d :: y, b, h, hq => by
    simp only [List.mem_cons, not_or] at hq
    rw [List.cons_append, unbrokenB, if_neg fun e => hq.1 e.symm] at h
    simp only [Bool.and_eq_true] at h
    intro c hc
    rcases List.mem_cons.mp hc with rfl | hc
    · simpa using h.1
    · exact unbrokenB_inside h.2 hq.2 c hc

/-- A check that is enough for texts without comments and backslashes. -/
def freeB (s : Str) : Bool :=
  s.all (fun c => c != '#' && c != '\\' && !decide (Foreign c)) && allTails freeHere s && allTails digitDot (fromFirst (fun c => c == '{' || c == '(') s) &&
    (s.all (fun c => c != '\n' && c != '\r') || s.all (fun c => c != '\'') && unbrokenB false s)

theorem freeB_sound {s : Str} (h : freeB s = true) : ∀ l, LibFree l s := by
  simp only [freeB, Bool.and_eq_true, Bool.or_eq_true, List.all_eq_true, bne_iff_ne, Bool.not_eq_true', decide_eq_false_iff_not] at h
  obtain ⟨⟨⟨hc, ht⟩, hd⟩, hl⟩ := h
  have hn : ∀ {a w b : Str}, s = a ++ (w ++ b) → Ws w → ∀ c ∈ w, IsBlank c := by
    rintro a w b rfl hw
    exact ws_blank hw fun hh => (hc '#' (by simp [hh])).1.1 rfl
  have len : ∀ {w : Str} {c : Char} {b : Str}, w ≠ [] → (c :: b == w ++ c :: b) = false := by
    intro w c b hw
    refine beq_false_of_ne fun he => hw ?_
    have := congrArg List.length he
    simp at this
    exact this
  intro l
  cases l with
  | foreign => exact fun c h => (hc c h).2
  | gap =>
    refine ⟨?_, ?_⟩
    · rintro a g w c b hg ⟨hw, h0⟩ rfl hcs
      have := allTails_at ht
      have hb : ¬ IsBlank c := by
        intro hb
        simp only [IsBlank, List.mem_cons, List.not_mem_nil, or_false] at hb
        rcases hb with rfl | rfl | rfl | rfl <;> revert hcs <;> simp [CodedLocalStart, CodedBase, W3CPnCharsBase, LowByteLetter, LowByteDigit]
      rw [freeHere] at this
      simp only [restAfter_ws (hn (a := a ++ [g]) (by simp; rfl) hw) hb, len h0, Bool.and_eq_true, hg] at this
      have := this.1.1.1
      simp at this
      rcases hcs with (h | h | h | h) | h | h <;> simp_all
    · rintro a c w b ⟨hw, h0⟩ rfl hcs
      have := allTails_at ht
      rw [freeHere] at this
      simp only [restAfter_ws (hn (a := a ++ [c]) (by simp; rfl) hw) (show ¬ IsBlank ':' by decide), len h0, Bool.and_eq_true] at this
      have := this.1.1.2
      simp at this
      rcases hcs with h | h | h | h <;> simp_all
  | dotEnd =>
    refine ⟨?_, ?_, ?_⟩
    · rintro a w l b hw h0 hu rfl
      have := allTails_at ht
      have hl : ∀ c ∈ l ++ ['.'], dottedB c = true := by
        intro c h
        rcases List.mem_append.mp h with h | h
        · exact dottedB_units hu (fun hb => (hc '\\' (by simp [hb])).1.2 rfl) c h
        · simp at h; subst h; decide
      obtain ⟨d, l', rfl⟩ : ∃ d l', l = d :: l' := by cases l with | nil => exact absurd rfl h0 | cons d l => exact ⟨d, l, rfl⟩
      have hb : ¬ IsBlank d := by
        intro hb
        have := hl d (by simp)
        simp only [IsBlank, List.mem_cons, List.not_mem_nil, or_false] at hb
        rcases hb with rfl | rfl | rfl | rfl <;> revert this <;> decide
      rw [freeHere, List.cons_append, restAfter_ws (hn (a := a ++ [':']) (by simp; rfl) hw) hb] at this
      simp only [Bool.and_eq_true] at this
      have := this.1.2
      have e : d :: (l' ++ '.' :: b) = (d :: l' ++ ['.']) ++ b := by simp
      rw [e, List.takeWhile_append_of_pos hl] at this
      simp at this
    · rintro a c w b hcs hw rfl
      have := allTails_at ht
      simp only [freeHere, Bool.and_eq_true] at this
      have := this.2
      simp [restAfter_ws (hn (a := a ++ [c, '.']) (by simp; rfl) hw) (show ¬ IsBlank ':' by decide)] at this
      rcases hcs with h | h
      · rw [nameB_of h] at this; simp at this
      · exact this.2 h
    · rintro a g b c d hg hdg rfl
      obtain ⟨a', ha⟩ := fromFirst_split (f := fun c => c == '{' || c == '(') (g := g) (by rcases hg with rfl | rfl <;> rfl) (b ++ c :: '.' :: d) a
      rw [ha, ← List.cons_append, ← List.append_assoc] at hd
      have := allTails_at hd
      simp [digitDot] at this
      exact this hdg
  | lineEnd =>
    rcases hl with hl | ⟨h1, h2⟩
    · exact .inr (.inl hl)
    · refine .inr (.inr ⟨⟨fun h => h1 _ h rfl, fun h => (hc _ h).1.1 rfl, fun h => (hc _ h).1.2 rfl⟩, ?_⟩)
      rintro a y b rfl he hy
      have := unbrokenB_skip h2
      rw [if_pos he, unbrokenB, if_pos rfl] at this
      exact unbrokenB_inside this hy
  | comment =>
    refine ⟨?_, ?_⟩
    · rintro a w b _ hh rfl
      exact (hc '#' (by simp [hh])).1.1 rfl
    · rintro a w b _ hh rfl
      exact (hc '#' (by simp [hh])).1.1 rfl

/-! ## Additional productions -/

def headNameB (c : Char) : Bool := nameB c || decide (W3CPnChars c) || c == '.'

def iriHeadB (b : Str) : Bool := b.head? == some '<' || (restAfter (b.dropWhile headNameB)).head? == some ':'

theorem headNameB_blank {c : Char} (h : CodedNameChar c ∨ W3CPnChars c ∨ c = '.') : ¬ IsBlank c := by
  have hb : headNameB c = true := by rcases h with h | h | h <;> simp [headNameB, nameB_of, h]
  intro hc
  simp only [IsBlank, List.mem_cons, List.not_mem_nil, or_false] at hc
  rcases hc with rfl | rfl | rfl | rfl <;> revert hb <;> decide

/-- The word begins here. -/
def hasWord (w s : Str) : Bool := match tagNoCase w s with
  | .ok _ _ => true
  | _ => false

theorem hasWord_of {w v b : Str} [KwTag w] (h : CaseVariant w v) : hasWord w (v ++ b) = true := by
  rw [hasWord, tagNoCase_append h b]

section
variable {s : Str} (hh : '#' ∉ s)
include hh

theorem iriHeadB_of {a b : Str} (hs : s = a ++ b) (h : IriHead b) : iriHeadB (restAfter b) = true := by
  rcases h with ⟨t, rfl⟩ | ⟨n, w, t, rfl, hn, hw⟩
  · rw [restAfter_cons (by decide)]; rfl
  · have hw := ws_blank hw fun hc => hh (by simp [hs, hc])
    have key : ∀ n : Str, (∀ c ∈ n, CodedNameChar c ∨ W3CPnChars c ∨ c = '.') → (restAfter ((n ++ (w ++ ':' :: t)).dropWhile headNameB)).head? = some ':' := by
      intro n hn
      rw [List.dropWhile_append_of_pos fun c hc => by rcases hn c hc with h | h | h <;> simp [headNameB, nameB_of, h]]
      cases w with
      | nil => rw [List.nil_append, List.dropWhile_cons_of_neg (by decide), restAfter_cons (by decide)]; rfl
      | cons d w =>
        rw [List.cons_append, List.dropWhile_cons_of_neg, ← List.cons_append, restAfter_ws hw (by decide)]
        · rfl
        · have := hw d (by simp)
          simp only [IsBlank, List.mem_cons, List.not_mem_nil, or_false] at this
          rcases this with rfl | rfl | rfl | rfl <;> decide
    cases n with
    | nil =>
      rw [List.nil_append, restAfter_ws hw (by decide)]
      rfl
    | cons d n =>
      rw [List.cons_append, restAfter_cons (headNameB_blank (hn d (by simp))), iriHeadB, ← List.cons_append, key _ hn]
      simp

def objectHeadB (b : Str) : Bool :=
  (match b with | c :: _ => decide (c ∈ ['?', '$', '"', '\'', '+', '-', '.', '(', '[']) || decide (AsciiDigit c) | [] => false) ||
    iriHeadB b || hasWord c!"true" b || hasWord c!"false" b

theorem objectHeadB_of {a b : Str} (hs : s = a ++ b) (h : ObjectHead b) : objectHeadB (restAfter b) = true := by
  rcases h with ⟨c, t, rfl, hc⟩ | h | ⟨v, t, rfl, h⟩
  · rw [restAfter_cons]
    · rcases hc with hc | hc <;> simp [objectHeadB, hc]
    · intro hb
      simp only [IsBlank, List.mem_cons, List.not_mem_nil, or_false] at hb
      rcases hb with rfl | rfl | rfl | rfl <;> revert hc <;> decide
  · simp [objectHeadB, iriHeadB_of hh hs h]
  · have hv : ∃ c v', v = c :: v' ∧ ¬ IsBlank c := by
      rcases h with h | h <;> cases h <;> rename_i hc _ <;> refine ⟨_, _, rfl, fun hb => ?_⟩ <;>
        simp only [IsBlank, List.mem_cons, List.not_mem_nil, or_false] at hb <;>
        rcases hb with rfl | rfl | rfl | rfl <;> rcases hc with hc | ⟨_, _, hc⟩ <;> revert hc <;> decide
    obtain ⟨c, v', rfl, hc⟩ := hv
    rw [List.cons_append, restAfter_cons hc, ← List.cons_append]
    rcases h with h | h <;> simp only [objectHeadB, hasWord_of h, Bool.or_true, Bool.true_or]

def notBeforeB (f : Str) (q : Str → Bool) (s : Str) : Bool := match tagNoCase f s with
  | .ok r _ => !q (restAfter r)
  | _ => true

theorem notBeforeB_sound {f : Str} [KwTag f] {q : Str → Prop} {qB : Str → Bool} (hf : f ≠ []) (hq : ∀ a b, s = a ++ b → q b → qB (restAfter b) = true)
    (h : allTails (notBeforeB f qB) s = true) : NotBefore f s q := by
  intro a v w b hv hw hs hb
  cases v with
  | nil => cases hv; exact hf rfl
  | cons c v =>
    have h := h
    rw [hs] at h
    have := allTails_at (b := v ++ (w ++ b)) h
    rw [notBeforeB, ← List.cons_append, tagNoCase_append hv (w ++ b)] at this
    simp only [restAfter_blanks (ws_blank hw fun hc => hh (by simp [hs, hc])), hq (a ++ (c :: v ++ w)) b (by simp [hs]) hb] at this
    cases this
end

def parenB (b : Str) : Bool := b.head? == some '('
def braceB (b : Str) : Bool := b.head? == some '{'
def paren2B : Str → Bool
  | '(' :: b => (restAfter b).head? == some '('
  | _ => false

/-- What freedom from additional productions asks of the text from here on. -/
def devHere : Str → Bool
  | c :: b => (c != ';' || !objectHeadB (restAfter b)) && (!(c == '}' || c == ')') || (restAfter b).head? != some '?')
  | [] => true

/-- Not a digit, or no closing parenthesis follows. -/
def noDigit : Str → Bool
  | c :: b => !decide (AsciiDigit c) || !b.contains ')'
  | [] => true

/-- A check that is enough for texts without comments. -/
def devB (s : Str) : Bool :=
  s.all (fun c => c != '#') && !(fromFirst (fun c => c == '{') s).contains 'A' && allTails noDigit (fromFirst (fun c => c == '(') s) &&
    allTails tidyHere s && allTails devHere s &&
    [c!"strlen", c!"concat"].all (fun f => allTails (notBeforeB f parenB) s) &&
    (c!"bnode" :: noArgFns).all (fun f => allTails (notBeforeB f paren2B) s) &&
    allTails (notBeforeB c!"offset" braceB) s && allTails (notBeforeB c!"where" iriHeadB) s

theorem dots_sound {s : Str} (hh : '#' ∉ s) (h : allTails tidyHere s = true) : DevFree .dots s := by
  rintro a w b hw rfl
  have := allTails_at h
  rw [tidyHere, dropWhile_blanks (ws_blank hw fun hc => hh (by simp [hc]))] at this
  simp at this

theorem upperA_sound {s : Str} (h : (fromFirst (fun c => c == '{') s).contains 'A' = false) : DevFree .upperA s := by
  rintro a b rfl hb
  obtain ⟨a', ha⟩ := fromFirst_split (f := fun c => c == '{') (g := '{') rfl b a
  rw [ha] at h
  simp [hb] at h

theorem devB_sound {s : Str} (h : devB s = true) : ∀ d, DevFree d s := by
  simp only [devB, Bool.and_eq_true, List.all_eq_true, bne_iff_ne, Bool.not_eq_true', decide_eq_false_iff_not] at h
  obtain ⟨⟨⟨⟨⟨⟨⟨⟨hc, hA⟩, hN⟩, hd⟩, hw⟩, h1⟩, h2⟩, h3⟩, h4⟩ := h
  have hh : '#' ∉ s := fun h => hc _ h rfl
  have par : ∀ a b : Str, s = a ++ b → (∃ t, b = '(' :: t) → parenB (restAfter b) = true := by
    rintro a b _ ⟨t, rfl⟩; rw [restAfter_cons (by decide)]; rfl
  have bra : ∀ a b : Str, s = a ++ b → (∃ t, b = '{' :: t) → braceB (restAfter b) = true := by
    rintro a b _ ⟨t, rfl⟩; rw [restAfter_cons (by decide)]; rfl
  have par2 : ∀ a b : Str, s = a ++ b → (∃ w t, Ws w ∧ b = '(' :: (w ++ '(' :: t)) → paren2B (restAfter b) = true := by
    rintro a b hs ⟨w, t, hw, rfl⟩
    rw [restAfter_cons (by decide), paren2B, restAfter_ws (ws_blank hw fun hc => hh (by simp [hs, hc])) (by decide)]
    rfl
  intro d
  cases d with
  | upperA => exact upperA_sound hA
  | dots => exact dots_sound hh hd
  | semicolons =>
    rintro a w b hw' rfl ho
    have := allTails_at hw
    rw [devHere, restAfter_blanks (ws_blank hw' fun hc => hh (by simp [hc])), objectHeadB_of hh (a := a ++ ';' :: w) (by simp) ho] at this
    simp at this
  | questionMark =>
    rintro a c w b hcs hw' rfl
    have := allTails_at hw
    rw [devHere, restAfter_ws (ws_blank hw' fun hc => hh (by simp [hc])) (by decide)] at this
    rcases hcs with rfl | rfl <;> simp at this
  | number =>
    rintro a b c d e hdg rfl
    obtain ⟨a', ha⟩ := fromFirst_split (f := fun c => c == '(') (g := '(') rfl (b ++ c :: (d ++ ')' :: e)) a
    rw [ha, ← List.cons_append, ← List.append_assoc] at hN
    have := allTails_at hN
    simp [noDigit, hdg] at this
  | calls =>
    refine ⟨fun f hf => ?_, fun f hf => ?_⟩
    · have := h1 f hf
      simp only [List.mem_cons, List.not_mem_nil, or_false] at hf
      rcases hf with rfl | rfl <;> exact notBeforeB_sound hh (by simp) par this
    · have := h2 f hf
      simp only [noArgFns, List.mem_cons, List.not_mem_nil, or_false] at hf
      rcases hf with rfl | rfl | rfl | rfl | rfl <;> exact notBeforeB_sound hh (by simp) par2 this
  | modify => exact ⟨notBeforeB_sound hh (by simp) bra h3, notBeforeB_sound hh (by simp) (fun _ _ => iriHeadB_of hh) h4⟩

end NomSparql
