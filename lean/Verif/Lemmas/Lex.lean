import Verif.Lemmas.Instances
import Verif.Spec.Lex

/-!
# Keywords, white space, repetition
-/

namespace NomSparql

/-! ## Characters -/

theorem Char.toNat_inj' {c d : Char} (h : c.toNat = d.toNat) : c = d := by
  apply Char.ext; apply UInt32.toNat_inj.mp; exact h

theorem utf8Size_ascii {c : Char} (h : c.toNat < 128) : c.utf8Size = 1 := by
  unfold Char.utf8Size
  have : c.val ≤ 0x7f := by
    rw [UInt32.le_iff_toNat_le]; show c.toNat ≤ 127; omega
  simp [this]

theorem utf8Size_ge {c : Char} (h : 128 ≤ c.toNat) : 2 ≤ c.utf8Size := by
  unfold Char.utf8Size
  have : ¬ c.val ≤ 0x7f := by
    rw [UInt32.le_iff_toNat_le]; show ¬ c.toNat ≤ 127; omega
  simp only
  repeat' split
  all_goals first | omega | contradiction

theorem utf8Size_eq_one {c : Char} : c.utf8Size = 1 ↔ c.toNat < 128 := by
  constructor
  · intro h
    rcases Nat.lt_or_ge c.toNat 128 with h' | h'
    · exact h'
    · have := utf8Size_ge h'; omega
  · exact utf8Size_ascii

/-! ## Keywords -/

/-- Characters of keyword tags other than `k`. -/
class KwChar (c : Char) : Prop where
  ascii : c.toNat < 128
  notUpper : ¬ (0x41 ≤ c.toNat ∧ c.toNat ≤ 0x5A)
  notK : c ≠ 'k'

/-- The tags of the crate: lower-case ASCII, `k` only at the end. -/
class inductive KwTag : List Char → Prop
  | nil : KwTag []
  | k : KwTag ['k']
  | cons {c t} : KwChar c → KwTag t → KwTag (c :: t)

instance : KwTag [] := .nil
instance : KwTag ['k'] := .k
instance {c t} [h : KwChar c] [h' : KwTag t] : KwTag (c :: t) := .cons h h'

macro "kwchars! " s:str : command => do
  let cs : List (Lean.TSyntax `term) := s.getString.toList.map fun c => ⟨(Lean.Syntax.mkCharLit c).raw⟩
  let cmds ← cs.mapM fun c => `(command| instance : KwChar $c := ⟨by decide, by decide, by decide⟩)
  return ⟨Lean.mkNullNode (cmds.toArray.map (·.raw))⟩

kwchars! "abcdefghijlmnopqrstuvwxyz0123456789_^:=!<>+-*/"

theorem lower_kw {x : Char} [KwChar x] : lower x = x := by
  have h1 := KwChar.notUpper (c := x)
  have h2 := KwChar.ascii (c := x)
  unfold lower
  rw [if_neg h1, if_neg (by omega)]

theorem toNat_ofNat_small {n : Nat} (h : n < 256) : (Char.ofNat n).toNat = n := by
  have hv : n.isValidChar := Or.inl (by omega)
  unfold Char.ofNat
  rw [dif_pos hv]
  rfl

theorem lower_eq_kw {x y : Char} [KwChar x] (h : lower y = lower x) : SameLetter x y := by
  rw [lower_kw (x := x)] at h
  have h2 := KwChar.ascii (c := x)
  unfold lower at h
  split at h
  · rename_i hu
    right
    have h' : (Char.ofNat (y.toNat + 32)).toNat = x.toNat := by rw [h]
    rw [toNat_ofNat_small (by omega)] at h'
    omega
  · split at h
    · exact absurd h.symm (KwChar.notK (c := x))
    · exact Or.inl h

theorem lower_eq_k {y : Char} (h : lower y = lower 'k') : SameLetter 'k' y ∨ y.toNat = 0x212A := by
  have : lower 'k' = 'k' := rfl
  rw [this] at h
  unfold lower at h
  split at h
  · rename_i hu
    left; right
    have h' : (Char.ofNat (y.toNat + 32)).toNat = 'k'.toNat := by rw [h]
    rw [toNat_ofNat_small (by omega)] at h'
    have : 'k'.toNat = 107 := rfl
    omega
  · split at h
    · right; assumption
    · left; exact Or.inl h

theorem lower_of_same {x y : Char} (hx : x.toNat < 128) (hu : ¬ (0x41 ≤ x.toNat ∧ x.toNat ≤ 0x5A))
    (h : SameLetter x y) : lower y = lower x := by
  rcases h with rfl | ⟨h1, h2, h3⟩
  · rfl
  · have hl : lower x = x := by
      unfold lower; rw [if_neg hu, if_neg (by omega)]
    rw [hl]
    unfold lower
    rw [if_pos (by omega)]
    apply Char.toNat_inj'
    rw [toNat_ofNat_small (by omega)]; exact h3

theorem SameLetter.ascii {x y : Char} (hx : x.toNat < 128) (h : SameLetter x y) : y.toNat < 128 := by
  rcases h with rfl | ⟨h1, h2, h3⟩ <;> omega

theorem takeBytes_zero (i : Input) : takeBytes 0 i = some ([], i) := by
  cases i <;> simp [takeBytes]

theorem takeBytes_ascii {d : Char} (hd : d.toNat < 128) (n : Nat) (i : Input) :
    takeBytes (1 + n) (d :: i) = (takeBytes n i).map (fun x => (d :: x.1, x.2)) := by
  rw [takeBytes]
  rw [if_neg (by omega), utf8Size_ascii hd, if_pos (by omega)]
  rw [show 1 + n - 1 = n by omega]
  cases takeBytes n i <;> rfl

theorem kwTag_takeBytes {t : List Char} (ht : KwTag t) : ∀ {i a r},
    overlapNoCase i t = true → takeBytes (byteLen t) i = some (a, r) → CaseVariant t a := by
  induction ht with
  | nil =>
    intro i a r _ h
    rw [show byteLen [] = 0 from rfl, takeBytes_zero] at h
    cases h; exact .nil
  | k =>
    intro i a r ho h
    cases i with
    | nil =>
      rw [show byteLen ['k'] = 1 from rfl] at h
      simp [takeBytes] at h
    | cons d i =>
      simp only [overlapNoCase, Bool.and_eq_true, beq_iff_eq] at ho
      rcases lower_eq_k ho.1 with hs | hk
      · have hd : d.toNat < 128 := hs.ascii (by decide)
        rw [show byteLen ['k'] = 1 + 0 from rfl, takeBytes_ascii hd, takeBytes_zero] at h
        cases h
        exact .cons hs .nil
      · exfalso
        rw [show byteLen ['k'] = 1 from rfl, takeBytes] at h
        have := utf8Size_ge (c := d) (by omega)
        rw [if_neg (by omega), if_neg (by omega)] at h
        cases h
  | @cons c t hc _ ih =>
    intro i a r ho h
    have hca := hc.ascii
    have hb : byteLen (c :: t) = 1 + byteLen t := by rw [byteLen_cons, utf8Size_ascii hca]
    rw [hb] at h
    cases i with
    | nil => simp [takeBytes] at h
    | cons d i =>
      simp only [overlapNoCase, Bool.and_eq_true, beq_iff_eq] at ho
      have hs := lower_eq_kw ho.1
      rw [takeBytes_ascii (hs.ascii hca)] at h
      cases e : takeBytes (byteLen t) i with
      | none => rw [e] at h; cases h
      | some x =>
        obtain ⟨a', r'⟩ := x
        rw [e] at h; cases h
        exact .cons hs (ih ho.2 e)

theorem kwTag_chars {t : List Char} (ht : KwTag t) :
    ∀ c ∈ t, c.toNat < 128 ∧ ¬ (0x41 ≤ c.toNat ∧ c.toNat ≤ 0x5A) := by
  induction ht with
  | nil => simp
  | k => intro c hc; simp at hc; subst hc; decide
  | cons hc _ ih =>
    intro c' h
    rcases List.mem_cons.mp h with rfl | h
    · exact ⟨hc.ascii, hc.notUpper⟩
    · exact ih _ h

theorem caseVariant_tagNoCase {t a : List Char} (ht : KwTag t) (h : CaseVariant t a) (r : Input) :
    overlapNoCase (a ++ r) t = true ∧ takeBytes (byteLen t) (a ++ r) = some (a, r) ∧
      byteLen t ≤ byteLen (a ++ r) := by
  have hc := kwTag_chars ht
  clear ht
  induction h with
  | nil => refine ⟨by cases r <;> rfl, takeBytes_zero r, by simp [byteLen]⟩
  | @cons x y t s hs _ ih =>
    have ⟨h1, h2⟩ := hc x (by simp)
    have ⟨i1, i2, i3⟩ := ih (fun c h => hc c (by simp [h]))
    have hy := hs.ascii h1
    have hb : byteLen (x :: t) = 1 + byteLen t := by rw [byteLen_cons, utf8Size_ascii h1]
    refine ⟨?_, ?_, ?_⟩
    · simp only [List.cons_append, overlapNoCase, Bool.and_eq_true, beq_iff_eq]
      exact ⟨lower_of_same h1 h2 hs, i1⟩
    · rw [hb, List.cons_append, takeBytes_ascii hy, i2]; rfl
    · rw [hb, List.cons_append, byteLen_cons, utf8Size_ascii hy]; omega

/-- A keyword tag accepts exactly the case variants of the keyword. -/
theorem tagNoCase_ok_iff {t : List Char} [ht : KwTag t] {i r a} :
    tagNoCase t i = .ok r a ↔ i = a ++ r ∧ CaseVariant t a := by
  constructor
  · intro h
    unfold tagNoCase at h
    split at h
    · rename_i ho
      simp only [Bool.and_eq_true, decide_eq_true_eq] at ho
      split at h
      · rename_i e; cases h
        exact ⟨takeBytes_eq e, kwTag_takeBytes ht ho.1 e⟩
      · cases h
    · cases h
  · rintro ⟨rfl, h⟩
    have ⟨h1, h2, h3⟩ := caseVariant_tagNoCase ht h r
    unfold tagNoCase
    rw [if_pos (by simp [h1, h3]), h2]

theorem tagNoCase_append {t a : List Char} [KwTag t] (h : CaseVariant t a) (r : Input) :
    tagNoCase t (a ++ r) = .ok r a := tagNoCase_ok_iff.mpr ⟨rfl, h⟩

theorem tagNoCaseStreaming_ok_iff {t : List Char} [ht : KwTag t] {i r a} :
    tagNoCaseStreaming t i = .ok r a ↔ i = a ++ r ∧ CaseVariant t a := by
  constructor
  · intro h
    unfold tagNoCaseStreaming at h
    split at h
    · rename_i ho
      split at h
      · split at h
        · rename_i e; cases h
          exact ⟨takeBytes_eq e, kwTag_takeBytes ht ho e⟩
        · cases h
      · cases h
    · cases h
  · rintro ⟨rfl, h⟩
    have ⟨h1, h2, h3⟩ := caseVariant_tagNoCase ht h r
    unfold tagNoCaseStreaming
    rw [if_pos h1, if_pos h3, h2]

/-- The keyword in lower case is a variant of itself. -/
theorem CaseVariant.refl : ∀ t : Str, CaseVariant t t
  | [] => .nil
  | _ :: t => .cons (.inl rfl) (CaseVariant.refl t)

theorem CaseVariant.length {t s : Str} (h : CaseVariant t s) : s.length = t.length := by
  induction h with
  | nil => rfl
  | cons _ _ ih => simp [ih]

/-- A keyword tag that does not accept fails at the input, or (only with a KELVIN SIGN in the
input) panics. -/
theorem tagNoCase_err {t : List Char} {i e} (h : tagNoCase t i = .err e) :
    e = .error i .Tag ∨ e = .panic := by
  unfold tagNoCase at h
  split at h
  · split at h <;> cases h
    exact Or.inr rfl
  · cases h; exact Or.inl rfl

theorem kwTag_takeBytes_some {t : List Char} (ht : KwTag t) : ∀ {i : Input},
    Char.ofNat 0x212A ∉ i → overlapNoCase i t = true → byteLen t ≤ byteLen i →
    takeBytes (byteLen t) i ≠ none := by
  induction ht with
  | nil => intro i _ _ _; rw [show byteLen [] = 0 from rfl, takeBytes_zero]; simp
  | k =>
    intro i hk ho hl
    cases i with
    | nil => exact absurd hl (by decide)
    | cons d i =>
      simp only [overlapNoCase, Bool.and_eq_true, beq_iff_eq] at ho
      rcases lower_eq_k ho.1 with hs | hk'
      · rw [show byteLen ['k'] = 1 + 0 from rfl, takeBytes_ascii (hs.ascii (by decide)), takeBytes_zero]
        simp
      · exfalso; apply hk
        have : d = Char.ofNat 0x212A := Char.toNat_inj' (by rw [hk']; rfl)
        rw [this]; simp
  | @cons c t hc _ ih =>
    intro i hk ho hl
    have hca := hc.ascii
    have hb : byteLen (c :: t) = 1 + byteLen t := by rw [byteLen_cons, utf8Size_ascii hca]
    rw [hb] at hl ⊢
    cases i with
    | nil => simp [byteLen] at hl
    | cons d i =>
      simp only [overlapNoCase, Bool.and_eq_true, beq_iff_eq] at ho
      have hd := (lower_eq_kw ho.1).ascii hca
      rw [takeBytes_ascii hd]
      rw [byteLen_cons, utf8Size_ascii hd] at hl
      have := ih (i := i) (fun h => hk (by simp [h])) ho.2 (by omega)
      cases e : takeBytes (byteLen t) i with
      | none => exact absurd e this
      | some x => simp

theorem tagNoCase_noPanic {t : List Char} [ht : KwTag t] {i : Input} (hk : Char.ofNat 0x212A ∉ i) :
    tagNoCase t i ≠ .err .panic := by
  unfold tagNoCase
  split
  · rename_i ho
    simp only [Bool.and_eq_true, decide_eq_true_eq] at ho
    have := kwTag_takeBytes_some ht hk ho.1 ho.2
    split
    · simp
    · contradiction
  · simp

theorem tagNoCaseStreaming_noPanic {t : List Char} [ht : KwTag t] {i : Input}
    (hk : Char.ofNat 0x212A ∉ i) : tagNoCaseStreaming t i ≠ .err .panic := by
  unfold tagNoCaseStreaming
  split
  · rename_i ho
    split
    · rename_i hl
      have := kwTag_takeBytes_some ht hk ho hl
      split
      · simp
      · contradiction
    · simp
  · simp

/-! ## Inversion of the combinators -/

section
variable {p : P α} {q : P β} {i r : Input}

theorem map_ok {f : α → β} {b : β} : map p f i = .ok r b ↔ ∃ a, p i = .ok r a ∧ f a = b := by
  unfold map; split
  · rename_i e
    simp only [e, Res.ok.injEq]
    constructor
    · rintro ⟨rfl, rfl⟩; exact ⟨_, ⟨rfl, rfl⟩, rfl⟩
    · rintro ⟨_, ⟨rfl, rfl⟩, rfl⟩; exact ⟨rfl, rfl⟩
  · rename_i e; simp [e]

theorem pair_ok_iff {ab : α × β} :
    pair p q i = .ok r ab ↔ ∃ r1, p i = .ok r1 ab.1 ∧ q r1 = .ok r ab.2 := by
  constructor
  · exact pair_ok
  · rintro ⟨r1, h1, h2⟩; unfold pair; rw [h1]; simp only; rw [h2]

theorem preceded_ok {b : β} : preceded p q i = .ok r b ↔ ∃ r1 a, p i = .ok r1 a ∧ q r1 = .ok r b := by
  unfold preceded; rw [map_ok]
  constructor
  · rintro ⟨ab, h, rfl⟩; obtain ⟨r1, h1, h2⟩ := pair_ok h; exact ⟨r1, _, h1, h2⟩
  · rintro ⟨r1, a, h1, h2⟩; exact ⟨(a, b), pair_ok_iff.mpr ⟨r1, h1, h2⟩, rfl⟩

theorem terminated_ok {a : α} :
    terminated p q i = .ok r a ↔ ∃ r1 b, p i = .ok r1 a ∧ q r1 = .ok r b := by
  unfold terminated; rw [map_ok]
  constructor
  · rintro ⟨ab, h, rfl⟩; obtain ⟨r1, h1, h2⟩ := pair_ok h; exact ⟨r1, _, h1, h2⟩
  · rintro ⟨r1, b, h1, h2⟩; exact ⟨(a, b), pair_ok_iff.mpr ⟨r1, h1, h2⟩, rfl⟩

theorem delimited_ok {s : P γ} {b : β} : delimited p q s i = .ok r b ↔
    ∃ r1 r2 a c, p i = .ok r1 a ∧ q r1 = .ok r2 b ∧ s r2 = .ok r c := by
  unfold delimited; rw [preceded_ok]
  constructor
  · rintro ⟨r1, a, h1, h2⟩; obtain ⟨r2, c, h2, h3⟩ := terminated_ok.mp h2
    exact ⟨r1, r2, a, c, h1, h2, h3⟩
  · rintro ⟨r1, r2, a, c, h1, h2, h3⟩; exact ⟨r1, a, h1, terminated_ok.mpr ⟨r2, c, h2, h3⟩⟩

theorem separatedPair_ok {s : P γ} {ab : α × β} : separatedPair p s q i = .ok r ab ↔
    ∃ r1 r2 c, p i = .ok r1 ab.1 ∧ s r1 = .ok r2 c ∧ q r2 = .ok r ab.2 := by
  unfold separatedPair; rw [pair_ok_iff]
  constructor
  · rintro ⟨r1, h1, h2⟩; obtain ⟨r2, c, h2, h3⟩ := preceded_ok.mp h2; exact ⟨r1, r2, c, h1, h2, h3⟩
  · rintro ⟨r1, r2, c, h1, h2, h3⟩; exact ⟨r1, h1, preceded_ok.mpr ⟨r2, c, h2, h3⟩⟩

theorem opt_ok {o : Option α} : opt p i = .ok r o ↔
    (∃ a, o = some a ∧ p i = .ok r a) ∨ (o = none ∧ r = i ∧ ∃ pos k, p i = .err (.error pos k)) := by
  unfold opt; split
  · rename_i r' a e
    simp only [e, Res.ok.injEq, reduceCtorEq, exists_false, and_false, or_false]
    constructor
    · rintro ⟨rfl, rfl⟩; exact ⟨a, rfl, rfl, rfl⟩
    · rintro ⟨a', rfl, rfl, rfl⟩; exact ⟨rfl, rfl⟩
  · rename_i pos k e
    simp only [e, Res.ok.injEq, reduceCtorEq, and_false, exists_false, false_or, Res.err.injEq]
    constructor
    · rintro ⟨rfl, rfl⟩; exact ⟨rfl, rfl, pos, k, rfl⟩
    · rintro ⟨rfl, rfl, _⟩; exact ⟨rfl, rfl⟩
  · rename_i e he hne
    simp only [hne, reduceCtorEq, and_false, exists_false, false_or, Res.err.injEq, false_iff,
      not_and, not_exists]
    intro _ _ pos k h; exact he pos k h

theorem recognize_ok {s : Input} : recognize p i = .ok r s ↔
    ∃ a, p i = .ok r a ∧ s = i.take (i.length - r.length) := by
  unfold recognize; split
  · rename_i e; simp only [e, Res.ok.injEq]
    constructor
    · rintro ⟨rfl, rfl⟩; exact ⟨_, ⟨rfl, rfl⟩, rfl⟩
    · rintro ⟨_, ⟨rfl, _⟩, rfl⟩; exact ⟨rfl, rfl⟩
  · rename_i e; simp [e]

theorem recognize_ok_iff [Good p] {s : Input} : recognize p i = .ok r s ↔
    i = s ++ r ∧ ∃ a, p i = .ok r a := by
  rw [recognize_ok]
  constructor
  · rintro ⟨a, h, rfl⟩
    refine ⟨?_, a, h⟩
    obtain ⟨t, rfl⟩ := Good.ok h
    simp
  · rintro ⟨rfl, a, h⟩
    exact ⟨a, h, by simp⟩

theorem mapRes_ok {f : α → Option β} {b : β} :
    mapRes p f i = .ok r b ↔ ∃ a, p i = .ok r a ∧ f a = some b := by
  unfold mapRes; split
  · rename_i r' a e
    simp only [e]
    split
    · rename_i b' h
      constructor
      · intro h'; cases h'; exact ⟨a, rfl, h⟩
      · rintro ⟨a', h', h2⟩; cases h'; rw [h] at h2; cases h2; rfl
    · rename_i h
      constructor
      · intro h'; cases h'
      · rintro ⟨a', h', h2⟩; cases h'; rw [h] at h2; cases h2
  · rename_i e; simp [e]

theorem cut_ok {a : α} : cut p i = .ok r a ↔ p i = .ok r a := by
  unfold cut; split <;> simp_all

theorem alt_two_ok {p' : P α} {ps : List (P α)} {a : α} : alt (p :: p' :: ps) i = .ok r a ↔
    p i = .ok r a ∨ ((∃ pos k, p i = .err (.error pos k)) ∧ alt (p' :: ps) i = .ok r a) := by
  rw [alt]; split
  · rename_i pos k e
    simp [e]
  · rename_i he
    constructor
    · exact Or.inl
    · rintro (h | ⟨⟨pos, k, h⟩, _⟩)
      · exact h
      · exact absurd h (he pos k)

end

/-! ## `char`, `tag`, `one_of`, `none_of` -/

theorem char_ok {c : Char} {i r a} : char c i = .ok r a ↔ a = c ∧ i = c :: r := by
  cases i with
  | nil => simp [char]
  | cons d i =>
    simp only [char]
    split
    · rename_i h; subst h; simp only [Res.ok.injEq, List.cons.injEq, true_and]
      constructor <;> (rintro ⟨rfl, rfl⟩; exact ⟨rfl, rfl⟩)
    · rename_i h; simp only [reduceCtorEq, List.cons.injEq, false_iff, not_and]
      intro _ h'; exact absurd h' h

theorem tag_ok {t i r a} : tag t i = .ok r a ↔ a = t ∧ i = t ++ r := by
  unfold tag; split
  · rename_i r' e
    have := stripPrefix_eq e
    subst this
    simp only [Res.ok.injEq, List.append_cancel_left_eq]
    constructor <;> (rintro ⟨rfl, rfl⟩; exact ⟨rfl, rfl⟩)
  · rename_i e
    simp only [reduceCtorEq, false_iff, not_and]
    rintro rfl rfl
    rw [stripPrefix_append] at e; cases e

theorem tag_append (t r : List Char) : tag t (t ++ r) = .ok r t := tag_ok.mpr ⟨rfl, rfl⟩

theorem oneOf_ok {cs i r a} : oneOf cs i = .ok r a ↔ a ∈ cs ∧ i = a :: r := by
  cases i with
  | nil => simp [oneOf]
  | cons d i =>
    simp only [oneOf]
    split
    · rename_i h; simp only [Res.ok.injEq, List.cons.injEq]
      constructor
      · rintro ⟨rfl, rfl⟩; exact ⟨h, rfl, rfl⟩
      · rintro ⟨_, rfl, rfl⟩; exact ⟨rfl, rfl⟩
    · rename_i h; simp only [reduceCtorEq, List.cons.injEq, false_iff, not_and]
      rintro h' rfl; exact absurd h' h

theorem noneOf_ok {cs i r a} : noneOf cs i = .ok r a ↔ a ∉ cs ∧ i = a :: r := by
  cases i with
  | nil => simp [noneOf]
  | cons d i =>
    simp only [noneOf]
    split
    · rename_i h; simp only [reduceCtorEq, List.cons.injEq, false_iff, not_and]
      rintro h' rfl; exact absurd h h'
    · rename_i h; simp only [Res.ok.injEq, List.cons.injEq]
      constructor
      · rintro ⟨rfl, rfl⟩; exact ⟨h, rfl, rfl⟩
      · rintro ⟨_, rfl, rfl⟩; exact ⟨rfl, rfl⟩

/-! ## Repetition -/

/-- Runs of `many0`. -/
inductive ManyRun (p : P α) : Input → Input → List α → Prop
  | stop {i pos k} : p i = .err (.error pos k) → ManyRun p i i []
  | step {i j r a as} : p i = .ok j a → j ≠ i → ManyRun p j r as → ManyRun p i r (a :: as)

theorem manyLoop_run {p : P α} {kind : Kind} : ∀ {n i r as},
    manyLoop kind p n i = .ok r as → ManyRun p i r as := by
  intro n
  induction n with
  | zero => intro i r as h; cases h
  | succ n ih =>
    intro i r as h
    unfold manyLoop at h
    split at h
    · rename_i e; cases h; exact .stop e
    · cases h
    · rename_i j a e
      split at h
      · cases h
      · rename_i hne
        split at h
        · rename_i e2; cases h; exact .step e hne (ih e2)
        · cases h

theorem manyRun_loop {p : P α} [Good p] {kind : Kind} {i r as} (h : ManyRun p i r as) :
    ∀ n, i.length < n → manyLoop kind p n i = .ok r as := by
  induction h with
  | stop e =>
    intro n hn
    obtain ⟨n, rfl⟩ : ∃ k, n = k + 1 := ⟨n - 1, by omega⟩
    unfold manyLoop; rw [e]
  | @step i j r a as e hne _ ih =>
    intro n hn
    obtain ⟨n, rfl⟩ : ∃ k, n = k + 1 := ⟨n - 1, by omega⟩
    have := suffix_lt (Good.ok e) hne
    unfold manyLoop; rw [e]; simp only [if_neg hne]
    rw [ih n (by omega)]

theorem many0_ok {p : P α} [Good p] {i r as} : many0 p i = .ok r as ↔ ManyRun p i r as :=
  ⟨manyLoop_run, fun h => manyRun_loop h _ (by omega)⟩

theorem many1_ok {p : P α} [Good p] {i r as} : many1 p i = .ok r as ↔
    ∃ a as' j, as = a :: as' ∧ p i = .ok j a ∧ ManyRun p j r as' := by
  unfold many1
  split
  · rename_i e; simp [e]
  · rename_i j a e
    simp only [e]
    split
    · rename_i r' as' e2
      constructor
      · intro h; cases h; exact ⟨a, as', j, rfl, rfl, manyLoop_run e2⟩
      · rintro ⟨a, as', j, rfl, h, h2⟩; cases h
        rw [manyRun_loop h2 _ (by omega)] at e2; cases e2; rfl
    · rename_i e' e2
      simp only [reduceCtorEq, false_iff, not_exists, not_and]
      rintro a as' j rfl h h2; cases h
      rw [manyRun_loop h2 _ (by omega)] at e2; cases e2

/-- Runs of the separator loop. -/
inductive SepRun (sep : P σ) (p : P α) : Input → Input → List α → Prop
  | stopSep {i pos k} : sep i = .err (.error pos k) → SepRun sep p i i []
  | stopElem {i j s pos k} : sep i = .ok j s → j ≠ i → p j = .err (.error pos k) → SepRun sep p i i []
  | step {i j l r s a as} : sep i = .ok j s → j ≠ i → p j = .ok l a → l ≠ i →
      SepRun sep p l r as → SepRun sep p i r (a :: as)

theorem sepLoop_run {sep : P σ} {p : P α} : ∀ {n i r as},
    sepLoop sep p n i = .ok r as → SepRun sep p i r as := by
  intro n
  induction n with
  | zero => intro i r as h; cases h
  | succ n ih =>
    intro i r as h
    unfold sepLoop at h
    split at h
    · rename_i e; cases h; exact .stopSep e
    · cases h
    · rename_i j s e
      split at h
      · cases h
      · rename_i hne
        split at h
        · rename_i e2; cases h; exact .stopElem e hne e2
        · cases h
        · rename_i l a e2
          split at h
          · cases h
          · rename_i hne2
            split at h
            · rename_i e3; cases h; exact .step e hne e2 hne2 (ih e3)
            · cases h

theorem sepRun_loop {sep : P σ} {p : P α} [Good sep] [Good p] {i r as} (h : SepRun sep p i r as) :
    ∀ n, i.length < n → sepLoop sep p n i = .ok r as := by
  induction h with
  | stopSep e =>
    intro n hn
    obtain ⟨n, rfl⟩ : ∃ k, n = k + 1 := ⟨n - 1, by omega⟩
    unfold sepLoop; rw [e]
  | stopElem e hne e2 =>
    intro n hn
    obtain ⟨n, rfl⟩ : ∃ k, n = k + 1 := ⟨n - 1, by omega⟩
    unfold sepLoop; rw [e]; simp only [if_neg hne]; rw [e2]
  | @step i j l r s a as e hne e2 hne2 _ ih =>
    intro n hn
    obtain ⟨n, rfl⟩ : ∃ k, n = k + 1 := ⟨n - 1, by omega⟩
    have := suffix_lt ((Good.ok e2).trans (Good.ok e)) hne2
    unfold sepLoop; rw [e]; simp only [if_neg hne]; rw [e2]; simp only [if_neg hne2]
    rw [ih n (by omega)]

theorem separatedNonemptyList_ok {sep : P σ} {p : P α} [Good sep] [Good p] {i r as} :
    separatedNonemptyList sep p i = .ok r as ↔
    ∃ a as' j, as = a :: as' ∧ p i = .ok j a ∧ j ≠ i ∧ SepRun sep p j r as' := by
  unfold separatedNonemptyList
  split
  · rename_i e; simp [e]
  · rename_i j a e
    simp only [e]
    split
    · rename_i hne
      simp only [reduceCtorEq, false_iff, not_exists, not_and]
      rintro a as' j rfl h h2; cases h; exact absurd hne h2
    · rename_i hne
      split
      · rename_i r' as' e2
        constructor
        · intro h; cases h; exact ⟨a, as', j, rfl, rfl, hne, sepLoop_run e2⟩
        · rintro ⟨a, as', j, rfl, h, _, h2⟩; cases h
          rw [sepRun_loop h2 _ (by omega)] at e2; cases e2; rfl
      · rename_i e' e2
        simp only [reduceCtorEq, false_iff, not_exists, not_and]
        rintro a as' j rfl h _ h2; cases h
        rw [sepRun_loop h2 _ (by omega)] at e2; cases e2

theorem separatedList_ok {sep : P σ} {p : P α} [Good sep] [Good p] {i r as} :
    separatedList sep p i = .ok r as ↔
    (as = [] ∧ r = i ∧ ∃ pos k, p i = .err (.error pos k)) ∨
    ∃ a as' j, as = a :: as' ∧ p i = .ok j a ∧ j ≠ i ∧ SepRun sep p j r as' := by
  unfold separatedList
  split
  · rename_i pos k e
    simp only [e, Res.ok.injEq, Res.err.injEq, Err.error.injEq, reduceCtorEq, false_and, and_false,
      exists_false, or_false]
    constructor
    · rintro ⟨rfl, rfl⟩; exact ⟨rfl, rfl, _, _, rfl, rfl⟩
    · rintro ⟨rfl, rfl, _⟩; exact ⟨rfl, rfl⟩
  · rename_i e he hne
    simp only [hne, reduceCtorEq, Res.err.injEq, false_and, and_false, exists_false, or_false,
      false_iff, not_and, not_exists]
    intro _ _ pos k h; exact he pos k h
  · rename_i j a e
    simp only [e, reduceCtorEq, exists_false, and_false, false_or]
    split
    · rename_i hne
      simp only [reduceCtorEq, false_iff, not_exists, not_and]
      rintro a as' j rfl h h2; cases h; exact absurd hne h2
    · rename_i hne
      split
      · rename_i r' as' e2
        constructor
        · intro h; cases h; exact ⟨a, as', j, rfl, rfl, hne, sepLoop_run e2⟩
        · rintro ⟨a, as', j, rfl, h, _, h2⟩; cases h
          rw [sepRun_loop h2 _ (by omega)] at e2; cases e2; rfl
      · rename_i e' e2
        simp only [reduceCtorEq, false_iff, not_exists, not_and]
        rintro a as' j rfl h _ h2; cases h
        rw [sepRun_loop h2 _ (by omega)] at e2; cases e2

/-! ## `take_while` -/

theorem takeWhile_ok {f : Char → Bool} {i r s} : takeWhile f i = .ok r s ↔
    i = s ++ r ∧ (∀ c ∈ s, f c = true) ∧ (∀ c r', r = c :: r' → f c = false) := by
  unfold takeWhile
  simp only [Res.ok.injEq]
  constructor
  · rintro ⟨rfl, rfl⟩
    refine ⟨(List.takeWhile_append_dropWhile).symm, ?_, ?_⟩
    · exact fun c hc => List.all_eq_true.mp (List.all_takeWhile (p := f) (l := i)) c hc
    · intro c r' h
      have := List.head?_dropWhile_not f i
      rw [h] at this; simpa using this
  · rintro ⟨rfl, h1, h2⟩
    have hr : List.dropWhile f r = r ∧ List.takeWhile f r = [] := by
      cases r with
      | nil => simp
      | cons c r' => have := h2 c r' rfl; simp [this]
    rw [List.dropWhile_append_of_pos h1, List.takeWhile_append_of_pos h1, hr.1, hr.2]
    simp

theorem takeWhile1K_ok {k : Kind} {f : Char → Bool} {i r s} : takeWhile1K k f i = .ok r s ↔
    i = s ++ r ∧ s ≠ [] ∧ (∀ c ∈ s, f c = true) ∧ (∀ c r', r = c :: r' → f c = false) := by
  have h := @takeWhile_ok f i r s
  unfold takeWhile at h
  unfold takeWhile1K
  split
  · rename_i e
    rw [e] at h
    simp only [reduceCtorEq, false_iff, not_and]
    intro h1 h2 h3 h4
    have := h.mpr ⟨h1, h3, h4⟩
    simp only [Res.ok.injEq] at this
    exact h2 this.2.symm
  · rename_i c cs e
    rw [e] at h
    rw [h]
    constructor
    · rintro ⟨h1, h3, h4⟩
      refine ⟨h1, ?_, h3, h4⟩
      have := h.mpr ⟨h1, h3, h4⟩
      simp only [Res.ok.injEq] at this
      rw [← this.2]; simp
    · rintro ⟨h1, _, h3, h4⟩; exact ⟨h1, h3, h4⟩

theorem takeWhile1_ok {f : Char → Bool} {i r s} : takeWhile1 f i = .ok r s ↔
    i = s ++ r ∧ s ≠ [] ∧ (∀ c ∈ s, f c = true) ∧ (∀ c r', r = c :: r' → f c = false) :=
  takeWhile1K_ok

theorem takeWhile1K_err {k : Kind} {f : Char → Bool} {i e} (h : takeWhile1K k f i = .err e) :
    e = .error i k ∧ ∀ c r', i = c :: r' → f c = false := by
  unfold takeWhile1K at h
  split at h
  · rename_i e; cases h
    refine ⟨rfl, ?_⟩
    rintro c r' rfl
    simp only [List.takeWhile_cons] at e
    split at e
    · cases e
    · rename_i hf; simpa using hf
  · cases h

theorem takeWhileN_ok {n : Nat} {f : Char → Bool} {i r s} : takeWhileN n f i = .ok r s ↔
    i = s ++ r ∧ s.length = n ∧ ∀ c ∈ s, f c = true := by
  unfold takeWhileN
  split
  · rename_i h
    simp only [Res.ok.injEq]
    constructor
    · rintro ⟨rfl, rfl⟩
      exact ⟨(List.take_append_drop n i).symm, h.1, by simpa using h.2⟩
    · rintro ⟨rfl, h1, h2⟩
      subst h1
      simp
  · rename_i h
    simp only [reduceCtorEq, false_iff, not_and]
    rintro rfl h1 h2
    apply h
    subst h1
    simpa using h2

theorem takeWhileN_err {n : Nat} {f : Char → Bool} {i e} (h : takeWhileN n f i = .err e) :
    e = .error i .TakeWhileMN := by
  unfold takeWhileN at h
  split at h <;> cases h
  rfl

theorem takeWhileN_one_cons {f : Char → Bool} {c : Char} {i : Input} (h : f c = true) :
    takeWhileN 1 f (c :: i) = .ok i [c] := takeWhileN_ok.mpr ⟨rfl, rfl, by simpa using h⟩

/-! ## White space -/

theorem many0_noneOf (cs : List Char) (i : Input) : ∃ r s, many0 (noneOf cs) i = .ok r s ∧ i = s ++ r ∧
    (∀ c ∈ s, c ∉ cs) ∧ (∀ c r', r = c :: r' → c ∈ cs) := by
  induction i with
  | nil => exact ⟨[], [], many0_ok.mpr (.stop rfl), rfl, by simp, by simp⟩
  | cons d i ih =>
    by_cases h : d ∈ cs
    · refine ⟨d :: i, [], many0_ok.mpr (.stop (pos := d :: i) (k := .NoneOf) ?_), rfl, by simp, ?_⟩
      · simp [noneOf, h]
      · intro c r' e; cases e; exact h
    · obtain ⟨r, s, h1, h2, h3, h4⟩ := ih
      refine ⟨r, d :: s, many0_ok.mpr (.step (j := i) ?_ (by simp) (many0_ok.mp h1)), ?_, ?_, h4⟩
      · simp [noneOf, h]
      · rw [h2]; rfl
      · intro c hc
        rcases List.mem_cons.mp hc with rfl | hc
        · exact h
        · exact h3 c hc

theorem newLine_ok_iff {i r a} : newLine i = .ok r a ↔ i = a ++ r ∧ WsItem a ∧
    ∀ c, a = [c] → c ∉ [' ', '\t'] := by
  unfold newLine
  rw [recognize_ok_iff]
  constructor
  · rintro ⟨rfl, ⟨o, e⟩, h⟩
    refine ⟨rfl, ?_⟩
    obtain ⟨r1, h1, h2⟩ := pair_ok h
    obtain ⟨h3, h4⟩ := oneOf_ok.mp h2
    simp only at h1 h3 h4
    rcases opt_ok.mp h1 with ⟨x, _, h5⟩ | ⟨_, h5, _⟩
    · obtain ⟨r2, c, h6, h7⟩ := preceded_ok.mp h5
      obtain ⟨rfl, h8⟩ := char_ok.mp h6
      obtain ⟨r', s, h9, h10, h11, h12⟩ := many0_noneOf ['\n', '\r'] r2
      rw [h7] at h9; cases h9
      rw [h10, h4, show '#' :: (x ++ e :: r) = ('#' :: (x ++ [e])) ++ r by simp] at h8
      have := List.append_cancel_right h8
      subst this
      refine ⟨.comment ?_ h3, by simp⟩
      intro d hd; have := h11 d hd; simpa using this
    · subst h5
      rw [show e :: r = [e] ++ r from rfl] at h4
      have := List.append_cancel_right h4
      subst this
      refine ⟨.char ?_, ?_⟩
      · simp only [List.mem_cons, List.not_mem_nil, or_false] at h3 ⊢
        rcases h3 with rfl | rfl <;> simp
      · intro c hc; cases hc
        simp only [List.mem_cons, List.not_mem_nil, or_false] at h3 ⊢
        rcases h3 with rfl | rfl <;> decide
  · rintro ⟨rfl, hw, hnb⟩
    refine ⟨rfl, ?_⟩
    cases hw with
    | @char c hc =>
      have hcc := hnb c rfl
      have hc' : c ∈ ['\r', '\n'] := by
        simp only [List.mem_cons, List.not_mem_nil, or_false, not_or] at hc hcc ⊢
        rcases hc with h | h | h | h
        · exact absurd h hcc.1
        · exact absurd h hcc.2
        · exact Or.inl h
        · exact Or.inr h
      have hne : c ≠ '#' := by
        simp only [List.mem_cons, List.not_mem_nil, or_false] at hc'
        rcases hc' with rfl | rfl <;> decide
      refine ⟨(none, c), pair_ok_iff.mpr ⟨[c] ++ r, ?_, oneOf_ok.mpr ⟨hc', rfl⟩⟩⟩
      refine opt_ok.mpr (.inr ⟨rfl, rfl, [c] ++ r, .Char, ?_⟩)
      unfold preceded map pair
      simp [char, hne]
    | @comment body c hb hc =>
      obtain ⟨r', s, h1, h2, h3, h4⟩ := many0_noneOf ['\n', '\r'] (body ++ [c] ++ r)
      have hbody : many0 (noneOf ['\n', '\r']) (body ++ c :: r) = .ok (c :: r) body := by
        clear h1 h2 h3 h4
        induction body with
        | nil =>
          refine many0_ok.mpr (.stop (pos := c :: r) (k := .NoneOf) ?_)
          have : c ∈ ['\n', '\r'] := by
            simp only [List.mem_cons, List.not_mem_nil, or_false] at hc ⊢; exact hc.symm
          show noneOf _ (c :: r) = _
          rw [noneOf, if_pos this]
        | cons d body ih =>
          have hd := hb d (by simp)
          refine many0_ok.mpr (.step (j := body ++ c :: r) ?_ ?_
            (many0_ok.mp (ih (fun x hx => hb x (by simp [hx])) (by simp))))
          · simp [noneOf, hd.1, hd.2]
          · intro h; have := congrArg List.length h; simp at this
      refine ⟨(some body, c), pair_ok_iff.mpr ⟨c :: r, ?_, oneOf_ok.mpr ⟨hc, rfl⟩⟩⟩
      refine opt_ok.mpr (.inl ⟨body, rfl, preceded_ok.mpr ⟨body ++ c :: r, '#', ?_, hbody⟩⟩)
      exact char_ok.mpr ⟨rfl, by simp⟩


/-! ## Parsers whose only error is `Error` -/

/-- Every non-`Ok` answer is a recoverable `Error`. -/
class Soft (p : P α) : Prop where
  out : ∀ i e, p i = .err e → ∃ pos k, e = .error pos k

theorem Soft.cases (p : P α) [h : Soft p] (i : Input) :
    (∃ r a, p i = .ok r a) ∨ ∃ pos k, p i = .err (.error pos k) := by
  cases e : p i with
  | ok r a => exact .inl ⟨r, a, rfl⟩
  | err e' => obtain ⟨pos, k, rfl⟩ := h.out _ _ e; exact .inr ⟨pos, k, rfl⟩

/-- Every answer is `Ok`. -/
class Total (p : P α) : Prop where
  out : ∀ i, ∃ r a, p i = .ok r a

instance (priority := low) {p : P α} [h : Total p] : Soft p where
  out i e he := by obtain ⟨r, a, h⟩ := h.out i; rw [h] at he; cases he

instance {p : P α} {f : α → β} [h : Soft p] : Soft (map p f) where
  out i e he := by
    unfold map at he; split at he
    · cases he
    · rename_i e' h'; cases he; exact h.out _ _ h'

instance {p : P α} {q : P β} [h : Soft p] [h' : Soft q] : Soft (pair p q) where
  out i e he := by
    unfold pair at he; split at he
    · split at he
      · cases he
      · rename_i e2; cases he; exact h'.out _ _ e2
    · rename_i e2; cases he; exact h.out _ _ e2

instance {p : P α} {q : P β} [Soft p] [Soft q] : Soft (preceded p q) := by
  unfold preceded; infer_instance
instance {p : P α} {q : P β} [Soft p] [Soft q] : Soft (terminated p q) := by
  unfold terminated; infer_instance
instance {p : P α} {q : P β} {s : P γ} [Soft p] [Soft q] [Soft s] : Soft (delimited p q s) := by
  unfold delimited; infer_instance
instance {p : P α} {q : P β} {s : P γ} [Soft p] [Soft q] [Soft s] : Soft (tuple3 p q s) := by
  unfold tuple3; infer_instance
instance {p : P α} {q : P β} {s : P γ} {t : P δ} [Soft p] [Soft q] [Soft s] [Soft t] :
    Soft (tuple4 p q s t) := by
  unfold tuple4; infer_instance
instance {p : P α} {q : P β} {s : P γ} [Soft p] [Soft q] [Soft s] : Soft (separatedPair p s q) := by
  unfold separatedPair; infer_instance

instance {p : P α} [h : Soft p] : Total (opt p) where
  out i := by
    unfold opt
    rcases Soft.cases p i with ⟨r, a, e⟩ | ⟨pos, k, e⟩ <;> rw [e] <;> exact ⟨_, _, rfl⟩

instance {p : P α} [h : Soft p] : Soft (recognize p) where
  out i e he := by
    unfold recognize at he; split at he
    · cases he
    · rename_i e2; cases he; exact h.out _ _ e2

instance {p : P α} {f : α → Option β} [h : Soft p] : Soft (mapRes p f) where
  out i e he := by
    unfold mapRes at he; split at he
    · split at he
      · cases he
      · cases he; exact ⟨_, _, rfl⟩
    · rename_i e2; cases he; exact h.out _ _ e2

instance : Soft (alt ([] : List (P α))) := ⟨fun i e h => by cases h; exact ⟨_, _, rfl⟩⟩
instance {p : P α} {ps : List (P α)} [h : Soft p] [h' : Soft (alt ps)] : Soft (alt (p :: ps)) where
  out i e he := by
    cases ps with
    | nil => exact h.out _ _ he
    | cons q ps =>
      rw [alt] at he
      split at he
      · exact h'.out _ _ he
      · exact h.out _ _ he

instance {c} : Soft (char c) where
  out i e h := by unfold char at h; repeat' split at h
                  all_goals cases h <;> exact ⟨_, _, rfl⟩
instance {c} : Soft (oneOf c) where
  out i e h := by unfold oneOf at h; repeat' split at h
                  all_goals cases h <;> exact ⟨_, _, rfl⟩
instance {c} : Soft (noneOf c) where
  out i e h := by unfold noneOf at h; repeat' split at h
                  all_goals cases h <;> exact ⟨_, _, rfl⟩
instance {t} : Soft (tag t) where
  out i e h := by unfold tag at h; repeat' split at h
                  all_goals cases h <;> exact ⟨_, _, rfl⟩
instance {f} : Total (takeWhile f) where
  out _ := ⟨_, _, rfl⟩
instance {k f} : Soft (takeWhile1K k f) where
  out i e h := by unfold takeWhile1K at h; repeat' split at h
                  all_goals cases h <;> exact ⟨_, _, rfl⟩
instance {f} : Soft (takeWhile1 f) := by unfold takeWhile1; infer_instance
instance : Soft digit1 := by unfold digit1; infer_instance
instance : Soft alpha1 := by unfold alpha1; infer_instance
instance : Soft alphanumeric1 := by unfold alphanumeric1; infer_instance
instance {n f} : Soft (takeWhileN n f) where
  out _ _ h := ⟨_, _, takeWhileN_err h⟩

theorem manyLoop_soft {p : P α} [Good p] [h : Soft p] {kind : Kind} : ∀ {n i e}, i.length < n →
    manyLoop kind p n i = .err e → ∃ pos k, e = .error pos k := by
  intro n
  induction n with
  | zero => intro i e hn; omega
  | succ n ih =>
    intro i e hn h'
    unfold manyLoop at h'
    split at h'
    · cases h'
    · rename_i e2; cases h'; exact h.out _ _ e2
    · rename_i r a e2
      split at h'
      · cases h'; exact ⟨_, _, rfl⟩
      · rename_i hne
        have := suffix_lt (Good.ok e2) hne
        split at h'
        · cases h'
        · rename_i e3; cases h'; exact ih (by omega) e3

instance {p : P α} [Good p] [Soft p] : Soft (many0 p) where
  out _ _ he := manyLoop_soft (by omega) he

theorem manyLoop_total {p : P α} [Good p] [h : Soft p] [Consumes p] {kind : Kind} : ∀ {n i},
    i.length < n → ∃ r as, manyLoop kind p n i = .ok r as := by
  intro n
  induction n with
  | zero => intro i hn; omega
  | succ n ih =>
    intro i hn
    unfold manyLoop
    rcases Soft.cases p i with ⟨r, a, e⟩ | ⟨pos, k, e⟩ <;> rw [e]
    · have hlt := Consumes.out (p := p) _ _ _ e
      have hne : r ≠ i := by rintro rfl; omega
      simp only [if_neg hne]
      obtain ⟨r', as, h'⟩ := ih (i := r) (by omega)
      rw [h']; exact ⟨_, _, rfl⟩
    · exact ⟨_, _, rfl⟩

instance {p : P α} [Good p] [Soft p] [Consumes p] : Total (many0 p) where
  out _ := manyLoop_total (by omega)

instance {p : P α} [Good p] [h : Soft p] : Soft (many1 p) where
  out i e he := by
    unfold many1 at he
    split at he
    · rename_i e2; cases he; exact h.out _ _ e2
    · split at he
      · cases he
      · rename_i e2; cases he; exact manyLoop_soft (by omega) e2

theorem sepLoop_soft {sep : P σ} {p : P α} [Good sep] [Good p] [hs : Soft sep] [h : Soft p] :
    ∀ {n i e}, i.length < n → sepLoop sep p n i = .err e → ∃ pos k, e = .error pos k := by
  intro n
  induction n with
  | zero => intro i e hn; omega
  | succ n ih =>
    intro i e hn h'
    unfold sepLoop at h'
    split at h'
    · cases h'
    · rename_i e2; cases h'; exact hs.out _ _ e2
    · rename_i r a e2
      split at h'
      · cases h'; exact ⟨_, _, rfl⟩
      · split at h'
        · cases h'
        · rename_i e3; cases h'; exact h.out _ _ e3
        · rename_i r2 a2 e3
          split at h'
          · cases h'; exact ⟨_, _, rfl⟩
          · rename_i hne
            have := suffix_lt ((Good.ok e3).trans (Good.ok e2)) hne
            split at h'
            · cases h'
            · rename_i e4; cases h'; exact ih (by omega) e4

instance {sep : P σ} {p : P α} [Good sep] [Good p] [hs : Soft sep] [h : Soft p] :
    Soft (separatedList sep p) where
  out i e he := by
    unfold separatedList at he
    repeat' split at he
    all_goals first
      | cases he; exact ⟨_, _, rfl⟩
      | (rename_i e2; cases he; exact sepLoop_soft (by omega) e2)
      | (rename_i e2; cases he; exact h.out _ _ e2)
      | cases he

instance {sep : P σ} {p : P α} [Good sep] [Good p] [hs : Soft sep] [h : Soft p] :
    Soft (separatedNonemptyList sep p) where
  out i e he := by
    unfold separatedNonemptyList at he
    repeat' split at he
    all_goals first
      | cases he; exact ⟨_, _, rfl⟩
      | (rename_i e2; cases he; exact sepLoop_soft (by omega) e2)
      | (rename_i e2; cases he; exact h.out _ _ e2)
      | cases he

/-! ## White space: exact characterisation -/

instance : Soft newLine := by unfold newLine; infer_instance
instance : Soft spItem := by unfold spItem; infer_instance
instance : Total sp where
  out i := by
    obtain ⟨r, a, h⟩ := Total.out (p := many0 spItem) i
    exact ⟨r, i.take (i.length - r.length), recognize_ok.mpr ⟨a, h, rfl⟩⟩
instance : Soft sp1 := by unfold sp1; infer_instance

theorem WsItem.ne_nil {a} (h : WsItem a) : a ≠ [] := by cases h <;> simp

theorem spItem_ok_iff {i r a} : spItem i = .ok r a ↔ i = a ++ r ∧ WsItem a := by
  unfold spItem
  rw [alt_two_ok]
  simp only [alt]
  constructor
  · rintro (h | ⟨_, h⟩)
    · obtain ⟨rfl, c, h⟩ := recognize_ok_iff.mp h
      obtain ⟨h1, h2⟩ := oneOf_ok.mp h
      rw [show c :: r = [c] ++ r from rfl] at h2
      have := List.append_cancel_right h2
      subst this
      refine ⟨rfl, .char ?_⟩
      simp only [List.mem_cons, List.not_mem_nil, or_false] at h1 ⊢
      rcases h1 with h1 | h1 <;> simp [h1]
    · have h := newLine_ok_iff.mp h; exact ⟨h.1, h.2.1⟩
  · rintro ⟨rfl, h⟩
    by_cases hb : ∃ c, a = [c] ∧ c ∈ [' ', '\t']
    · obtain ⟨c, rfl, hc⟩ := hb
      exact .inl (recognize_ok_iff.mpr ⟨rfl, c, oneOf_ok.mpr ⟨hc, rfl⟩⟩)
    · refine .inr ⟨?_, newLine_ok_iff.mpr ⟨rfl, h, fun c hc hm => hb ⟨c, hc, hm⟩⟩⟩
      rcases Soft.cases (recognize (oneOf [' ', '\t'])) (a ++ r) with ⟨r', x, e⟩ | h'
      · exfalso
        obtain ⟨h1, c, h2⟩ := recognize_ok_iff.mp e
        obtain ⟨h3, h4⟩ := oneOf_ok.mp h2
        cases h with
        | @char d hd =>
          cases h4
          exact hb ⟨_, rfl, h3⟩
        | comment _ _ =>
          cases h4
          exact absurd h3 (by decide)
      · exact h'

theorem spItem_err_iff {i} : (∃ pos k, spItem i = .err (.error pos k)) ↔ ¬ StartsWs i := by
  constructor
  · rintro ⟨pos, k, h⟩ ⟨a, b, h1, rfl⟩
    rw [spItem_ok_iff.mpr ⟨rfl, h1⟩] at h; cases h
  · intro h
    rcases Soft.cases spItem i with ⟨r, a, e⟩ | h'
    · have := spItem_ok_iff.mp e
      exact absurd ⟨a, r, this.2, this.1⟩ h
    · exact h'

theorem manyRun_sp {i r as} (h : ManyRun spItem i r as) : ∃ w, i = w ++ r ∧ Ws w ∧ ¬ StartsWs r := by
  induction h with
  | stop e => exact ⟨[], rfl, .nil, spItem_err_iff.mp ⟨_, _, e⟩⟩
  | step e _ _ ih =>
    obtain ⟨w, rfl, h2, h3⟩ := ih
    obtain ⟨rfl, h4⟩ := spItem_ok_iff.mp e
    exact ⟨_ ++ w, by simp, .cons h4 h2, h3⟩

theorem ws_manyRun {w r} (h : Ws w) (hr : ¬ StartsWs r) : ∃ as, ManyRun spItem (w ++ r) r as := by
  induction h with
  | nil => obtain ⟨pos, k, h⟩ := spItem_err_iff.mpr hr; exact ⟨[], .stop h⟩
  | @cons a s ha _ ih =>
    obtain ⟨as, ih⟩ := ih
    refine ⟨a :: as, .step (j := s ++ r) (spItem_ok_iff.mpr ⟨by simp, ha⟩) ?_ ih⟩
    intro h
    have := congrArg List.length h
    have := ha.ne_nil
    cases a with
    | nil => contradiction
    | cons c a => simp at *; omega

theorem sp_ok_iff {i r w} : sp i = .ok r w ↔ i = w ++ r ∧ Ws w ∧ ¬ StartsWs r := by
  unfold sp
  rw [recognize_ok_iff]
  constructor
  · rintro ⟨rfl, as, h⟩
    obtain ⟨w', h1, h2, h3⟩ := manyRun_sp (many0_ok.mp h)
    have := List.append_cancel_right h1
    subst this
    exact ⟨rfl, h2, h3⟩
  · rintro ⟨rfl, h2, h3⟩
    obtain ⟨as, h⟩ := ws_manyRun h2 h3
    exact ⟨rfl, as, many0_ok.mpr h⟩

theorem sp1_ok_iff {i r w} : sp1 i = .ok r w ↔ i = w ++ r ∧ Ws1 w ∧ ¬ StartsWs r := by
  unfold sp1
  rw [recognize_ok_iff]
  constructor
  · rintro ⟨rfl, as, h⟩
    obtain ⟨a, as', j, rfl, h1, h2⟩ := many1_ok.mp h
    obtain ⟨h3, h4⟩ := spItem_ok_iff.mp h1
    obtain ⟨w', rfl, h6, h7⟩ := manyRun_sp h2
    rw [← List.append_assoc] at h3
    have := List.append_cancel_right h3
    subst this
    exact ⟨rfl, ⟨.cons h4 h6, by have := h4.ne_nil; simp [this]⟩, h7⟩
  · rintro ⟨rfl, ⟨h1, h2⟩, h3⟩
    refine ⟨rfl, ?_⟩
    cases h1 with
    | nil => contradiction
    | @cons a s ha hs =>
      obtain ⟨as, h⟩ := ws_manyRun hs h3
      exact ⟨a :: as, many1_ok.mpr ⟨a, as, s ++ r, rfl, spItem_ok_iff.mpr ⟨by simp, ha⟩, h⟩⟩

theorem sp_append {w r} (h : Ws w) (hr : ¬ StartsWs r) : sp (w ++ r) = .ok r w :=
  sp_ok_iff.mpr ⟨rfl, h, hr⟩

theorem sp1_append {w r} (h : Ws1 w) (hr : ¬ StartsWs r) : sp1 (w ++ r) = .ok r w :=
  sp1_ok_iff.mpr ⟨rfl, h, hr⟩

theorem sp_none {r} (hr : ¬ StartsWs r) : sp r = .ok r [] := sp_append .nil hr

theorem sp1_err_iff {i} : (∃ pos k, sp1 i = .err (.error pos k)) ↔ ¬ StartsWs i := by
  constructor
  · rintro ⟨pos, k, h⟩ ⟨a, b, h1, rfl⟩
    obtain ⟨r, w, h2⟩ := Total.out (p := sp) b
    obtain ⟨rfl, h3, h4⟩ := sp_ok_iff.mp h2
    have := sp1_append (w := a ++ w) (r := r) ⟨.cons h1 h3, by have := h1.ne_nil; simp [this]⟩ h4
    rw [List.append_assoc] at this
    rw [this] at h; cases h
  · intro h
    rcases Soft.cases sp1 i with ⟨r, w, e⟩ | h'
    · obtain ⟨rfl, ⟨h1, h2⟩, _⟩ := sp1_ok_iff.mp e
      exfalso; apply h
      cases h1 with
      | nil => contradiction
      | @cons a s ha hs => exact ⟨a, s ++ r, ha, by simp⟩
    · exact h'

theorem Ws.append {a b} (h : Ws a) (h' : Ws b) : Ws (a ++ b) := by
  induction h with
  | nil => exact h'
  | cons h _ ih => rw [List.append_assoc]; exact .cons h ih

theorem Ws.item {a} (h : WsItem a) : Ws a := by
  have := Ws.cons h .nil; simpa using this

theorem Ws1.blank : Ws1 [' '] := ⟨.item (.char (by simp)), by simp⟩

/-- Characters that can begin white space. -/
def wsStart (c : Char) : Bool := c ∈ [' ', '\t', '\r', '\n', '#']

theorem not_startsWs {r : Str} (h : ∀ c r', r = c :: r' → wsStart c = false) : ¬ StartsWs r := by
  rintro ⟨a, b, h1, rfl⟩
  cases h1 with
  | @char c hc =>
    have := h c b rfl
    simp only [wsStart, decide_eq_false_iff_not, List.mem_cons, List.not_mem_nil, or_false] at this hc
    apply this
    rcases hc with h | h | h | h <;> simp [h]
  | @comment body c hb hc =>
    have := h '#' _ rfl
    simp [wsStart] at this

theorem not_startsWs_cons {c : Char} {r : Str} (h : wsStart c = false) : ¬ StartsWs (c :: r) :=
  not_startsWs (fun _ _ e => by cases e; exact h)

theorem not_startsWs_nil : ¬ StartsWs [] := not_startsWs (fun _ _ e => by cases e)

theorem not_startsWs_append {a r : Str} (hne : a ≠ [])
    (h : ∀ c r', a = c :: r' → wsStart c = false) : ¬ StartsWs (a ++ r) := by
  cases a with
  | nil => contradiction
  | cons c a => exact not_startsWs_cons (h c a rfl)

/-- The last character of non-empty white space is a blank, tab or line end. -/
theorem Ws1.last {w} (h : Ws1 w) : ∃ w' c, w = w' ++ [c] ∧ c ∈ [' ', '\t', '\r', '\n'] := by
  obtain ⟨h, hne⟩ := h
  induction h with
  | nil => contradiction
  | @cons a s ha _ ih =>
    by_cases hs : s = []
    · subst hs
      cases ha with
      | @char c hc => exact ⟨[], c, by simp, hc⟩
      | @comment body c hb hc =>
        refine ⟨'#' :: body, c, by simp, ?_⟩
        simp only [List.mem_cons, List.not_mem_nil, or_false] at hc ⊢
        rcases hc with h | h <;> simp [h]
    · obtain ⟨w', c, rfl, hc⟩ := ih hs
      exact ⟨a ++ w', c, by simp, hc⟩

end NomSparql
