import Verif.Lemmas.Numbers
import Verif.Spec.Names

/-!
# Names
-/

namespace NomSparql

theorem alt_one_ok {p : P α} {i r a} : alt [p] i = .ok r a ↔ p i = .ok r a := Iff.rfl

/-! ## Units -/

theorem NameUnit.ne_nil {f u} (h : NameUnit f u) : u ≠ [] := by cases h <;> simp

theorem NameUnits.append {f a b} (ha : NameUnits f a) (hb : NameUnits f b) : NameUnits f (a ++ b) := by
  induction ha with
  | nil => exact hb
  | cons h _ ih => rw [List.append_assoc]; exact .cons h ih

theorem NameUnits.chars {f : Char → Prop} : ∀ {s : Str}, (∀ c ∈ s, f c) → NameUnits f s
  | [], _ => .nil
  | c :: s, h => .cons (u := [c]) (.ch (h c (by simp))) (NameUnits.chars fun d hd => h d (by simp [hd]))

theorem NameUnit.mono {f g : Char → Prop} (h : ∀ c, f c → g c) {u} (hu : NameUnit f u) : NameUnit g u := by
  cases hu with
  | ch h1 => exact .ch (h _ h1)
  | pct h1 h2 => exact .pct h1 h2
  | esc h1 => exact .esc h1

theorem NameUnits.mono {f g : Char → Prop} (h : ∀ c, f c → g c) {u} (hu : NameUnits f u) :
    NameUnits g u := by
  induction hu with
  | nil => exact .nil
  | cons h1 _ ih => exact .cons (h1.mono h) ih

/-- Classes of plain characters: not the two unit introducers. -/
def PlainClass (f : Char → Prop) : Prop := ¬ f '%' ∧ ¬ f '\\'

theorem NameUnit.unique {f} (hf : PlainClass f) {u v r r'} (hu : NameUnit f u) (hv : NameUnit f v)
    (e : u ++ r = v ++ r') : u = v ∧ r = r' := by
  cases hu with
  | ch h =>
    cases hv with
    | ch h' => simp_all
    | pct _ _ => simp at e; exact absurd (e.1 ▸ h) hf.1
    | esc _ => simp at e; exact absurd (e.1 ▸ h) hf.2
  | pct _ _ =>
    cases hv with
    | ch h' => simp at e; exact absurd (e.1 ▸ h') hf.1
    | pct _ _ => simp at e; simp_all
    | esc _ => simp at e
  | esc _ =>
    cases hv with
    | ch h' => simp at e; exact absurd (e.1 ▸ h') hf.2
    | pct _ _ => simp at e
    | esc _ => simp at e; simp_all

/-- The maximal sequence of units is unique. -/
theorem NameUnits.unique {f} (hf : PlainClass f) {s r s' r'} (h : NameUnits f s) (h' : NameUnits f s')
    (hr : ¬ StartsUnit f r) (hr' : ¬ StartsUnit f r') (e : s ++ r = s' ++ r') : s = s' ∧ r = r' := by
  induction h generalizing s' with
  | nil =>
    cases h' with
    | nil => exact ⟨rfl, e⟩
    | cons hu hs =>
      exact absurd ⟨_, _, hu, by rw [List.nil_append] at e; rw [e, List.append_assoc]⟩ hr
  | cons hu hs ih =>
    cases h' with
    | nil => exact absurd ⟨_, _, hu, by rw [List.nil_append] at e; rw [← e, List.append_assoc]⟩ hr'
    | cons hv ht =>
      rw [List.append_assoc, List.append_assoc] at e
      obtain ⟨rfl, e2⟩ := hu.unique hf hv e
      obtain ⟨rfl, h3⟩ := ih ht e2
      exact ⟨rfl, h3⟩

/-! ## plx -/

theorem mem_pnLocalEsc {c : Char} : c ∈ pnLocalEsc ↔ LocalEscChar c := Iff.rfl

theorem isHexDigit_spec {c : Char} : isHexDigit c = true ↔ HexDigit c := isHexDigit_iff

instance : Soft plx := by unfold plx hexPrimary; infer_instance

theorem plx_ok {i r s} : plx i = .ok r s ↔ i = s ++ r ∧ NameUnit (fun _ => False) s := by
  unfold plx
  rw [recognize_ok_iff]
  constructor
  · rintro ⟨rfl, x, h⟩
    refine ⟨rfl, ?_⟩
    rw [alt_two_ok] at h
    simp only [alt] at h
    rcases h with h | ⟨_, h⟩
    · obtain ⟨r1, h1, h2⟩ := pair_ok h
      obtain ⟨_, e⟩ := tag_one_ok.mp h1
      unfold hexPrimary at h2
      obtain ⟨rfl, h3, h4⟩ := takeWhileN_ok.mp h2
      rw [← List.cons_append] at e
      have := List.append_cancel_right e
      subst this
      match hx : x.2, h3 with
      | [a, b], _ =>
        rw [hx] at h4
        exact .pct (isHexDigit_spec.mp (h4 a (by simp))) (isHexDigit_spec.mp (h4 b (by simp)))
    · obtain ⟨r1, h1, h2⟩ := pair_ok h
      obtain ⟨_, e⟩ := tag_one_ok.mp h1
      obtain ⟨rfl, c, h3⟩ := recognize_ok_iff.mp h2
      obtain ⟨h4, h5⟩ := oneOf_ok.mp h3
      have : x.2 = [c] := List.append_cancel_right (bs := r) (by simpa using h5)
      rw [this] at e
      have : s = ['\\', c] := List.append_cancel_right (bs := r) (by simpa using e)
      subst this
      exact .esc h4
  · rintro ⟨rfl, h⟩
    refine ⟨rfl, ?_⟩
    cases h with
    | ch h => exact absurd h id
    | @pct a b h1 h2 =>
      refine ⟨(['%'], [a, b]), alt_two_ok.mpr (.inl (pair_ok_iff.mpr ⟨a :: b :: r, tag_one_ok.mpr ⟨rfl, rfl⟩, ?_⟩))⟩
      unfold hexPrimary
      refine takeWhileN_ok.mpr ⟨rfl, rfl, ?_⟩
      intro c hc
      simp only [List.mem_cons, List.not_mem_nil, or_false] at hc
      rcases hc with rfl | rfl
      · exact isHexDigit_spec.mpr h1
      · exact isHexDigit_spec.mpr h2
    | @esc c h1 =>
      refine ⟨(['\\'], [c]), alt_two_ok.mpr (.inr ⟨⟨_, _, rfl⟩, ?_⟩)⟩
      simp only [alt]
      refine pair_ok_iff.mpr ⟨c :: r, tag_one_ok.mpr ⟨rfl, rfl⟩, recognize_ok_iff.mpr ⟨rfl, c, oneOf_ok.mpr ⟨h1, rfl⟩⟩⟩

/-! ## pn_local -/

/-- The code's class of plain local-name characters. -/
abbrev LocC : Char → Prop := fun c => isLocalChar c = true
/-- The same with dots. -/
abbrev LocD : Char → Prop := fun c => isLocalChar c = true ∨ c = '.'
/-- The code's class of first characters of a local name. -/
abbrev LocF : Char → Prop := fun c => isPnCharsU c = true ∨ c = ':' ∨ isDigitU8 c = true

theorem plain_LocC : PlainClass LocC := by constructor <;> decide
theorem plain_LocD : PlainClass LocD := by constructor <;> decide
theorem plain_LocF : PlainClass LocF := by constructor <;> decide
theorem locC_dot : ¬ LocC '.' := by decide

instance : Total pnLocalChunk := by unfold pnLocalChunk; infer_instance
instance : Soft pnCharsUOne := by unfold pnCharsUOne pnCharsBaseOne; infer_instance
instance : Soft pnLocalFirst := by unfold pnLocalFirst; infer_instance
instance : Soft pnLocal := by unfold pnLocal; infer_instance
instance : Soft pnChars1 := by unfold pnChars1; infer_instance
instance : Soft pnCharsTail := by unfold pnCharsTail; infer_instance
instance : Soft pnPrefix := by unfold pnPrefix pnCharsBaseOne; infer_instance
instance : Soft pnameNs := by unfold pnameNs; infer_instance
instance : Soft pnameLn := by unfold pnameLn; infer_instance
instance : Soft prefixedName := by unfold prefixedName; infer_instance
instance : Soft iri := by unfold iri; infer_instance

abbrev chunkElem : P Str := alt [takeWhile1 isLocalChar, plx]

theorem chunkElem_ok {i r s} (h : chunkElem i = .ok r s) : i = s ++ r ∧ NameUnits LocC s ∧ s ≠ [] := by
  unfold chunkElem at h
  rw [alt_two_ok] at h
  simp only [alt] at h
  rcases h with h | ⟨_, h⟩
  · obtain ⟨h1, h2, h3, _⟩ := takeWhile1_ok.mp h
    exact ⟨h1, .chars h3, h2⟩
  · obtain ⟨h1, h2⟩ := plx_ok.mp h
    refine ⟨h1, ?_, h2.ne_nil⟩
    have := NameUnits.cons (h2.mono (g := LocC) (fun _ h => h.elim)) NameUnits.nil
    simpa using this

theorem chunkElem_err {i pos k} (h : chunkElem i = .err (.error pos k)) : ¬ StartsUnit LocC i := by
  rintro ⟨u, r', hu, rfl⟩
  unfold chunkElem alt at h
  cases hu with
  | ch h1 =>
    rcases Soft.cases (takeWhile1 isLocalChar) ([_] ++ r') with ⟨r, a, e⟩ | ⟨pos', k', e⟩
    · rw [e] at h; cases h
    · have := (takeWhile1K_err (k := .TakeWhile1) e).2 _ _ rfl
      rw [h1] at this; cases this
  | pct h1 h2 =>
    have : plx (['%', _, _] ++ r') = .ok r' _ := plx_ok.mpr ⟨rfl, .pct h1 h2⟩
    split at h
    · unfold alt at h; rw [this] at h; cases h
    · rename_i hne; 
      rcases Soft.cases (takeWhile1 isLocalChar) (['%', _, _] ++ r') with ⟨r, a, e⟩ | ⟨pos', k', e⟩
      · rw [e] at h; cases h
      · exact hne _ _ e
  | esc h1 =>
    have : plx (['\\', _] ++ r') = .ok r' _ := plx_ok.mpr ⟨rfl, .esc h1⟩
    split at h
    · unfold alt at h; rw [this] at h; cases h
    · rename_i hne; 
      rcases Soft.cases (takeWhile1 isLocalChar) (['\\', _] ++ r') with ⟨r, a, e⟩ | ⟨pos', k', e⟩
      · rw [e] at h; cases h
      · exact hne _ _ e

theorem chunkRun {i r as} (h : ManyRun chunkElem i r as) :
    ∃ t, i = t ++ r ∧ NameUnits LocC t ∧ ¬ StartsUnit LocC r := by
  induction h with
  | stop h => exact ⟨[], rfl, .nil, chunkElem_err h⟩
  | step h _ _ ih =>
    obtain ⟨rfl, h1, _⟩ := chunkElem_ok h
    obtain ⟨t, rfl, h2, h3⟩ := ih
    exact ⟨_, (List.append_assoc ..).symm, h1.append h2, h3⟩

theorem pnLocalChunk_ok {i r as} (h : pnLocalChunk i = .ok r as) :
    ∃ t, i = t ++ r ∧ NameUnits LocC t ∧ ¬ StartsUnit LocC r := by
  unfold pnLocalChunk at h
  exact chunkRun (many0_ok.mp h)

theorem dots_ok {i r s} : takeWhile1 isDot i = .ok r s ↔ i = s ++ r ∧ s ≠ [] ∧ (∀ c ∈ s, c = '.') ∧
    NotStart (· = '.') r := by
  rw [takeWhile1_ok]
  simp only [isDot, beq_iff_eq]
  refine and_congr_right fun _ => and_congr_right fun _ => and_congr_right fun _ => ?_
  constructor
  · intro h c r' e hc; have := h c r' e; subst hc; simp at this
  · intro h c r' e; have := h c r' e; simpa using this

theorem dots_err {i pos k} (h : takeWhile1 isDot i = .err (.error pos k)) : NotStart (· = '.') i := by
  intro c r' e hc
  have := (takeWhile1K_err (k := .TakeWhile1) h).2 c r' e
  subst hc; simp [isDot] at this

theorem startsUnit_locD {r} (h1 : ¬ StartsUnit LocC r) (h2 : NotStart (· = '.') r) : ¬ StartsUnit LocD r := by
  rintro ⟨u, r', hu, rfl⟩
  cases hu with
  | ch h =>
    rcases h with h | rfl
    · exact h1 ⟨_, _, .ch h, rfl⟩
    · exact h2 _ _ rfl rfl
  | pct a b => exact h1 ⟨_, _, .pct a b, rfl⟩
  | esc a => exact h1 ⟨_, _, .esc a, rfl⟩

theorem locUnits_dots {s : Str} (h : ∀ c ∈ s, c = '.') : NameUnits LocD s :=
  .chars fun c hc => .inr (h c hc)

theorem localSepRun {i r as} (h : SepRun (takeWhile1 isDot) pnLocalChunk i r as)
    (hi : ¬ StartsUnit LocC i) : ∃ t, i = t ++ r ∧ NameUnits LocD t ∧ ¬ StartsUnit LocD r := by
  induction h with
  | stopSep h => exact ⟨[], rfl, .nil, startsUnit_locD hi (dots_err h)⟩
  | stopElem _ _ h =>
    obtain ⟨r, a, e⟩ := Total.out (p := pnLocalChunk) _
    rw [e] at h; cases h
  | step h _ h1 _ _ ih =>
    obtain ⟨rfl, h2, h3, h4⟩ := dots_ok.mp h
    obtain ⟨t, rfl, h5, h6⟩ := pnLocalChunk_ok h1
    obtain ⟨t', rfl, h7, h8⟩ := ih h6
    exact ⟨_ ++ (t ++ t'), by simp, (locUnits_dots h3).append ((h5.mono fun _ => .inl).append h7), h8⟩

/-- A separator that consumes and a soft element: the loop does not fail. -/
theorem sepLoop_total {sep : P σ} {p : P α} [Good sep] [Good p] [Consumes sep] [Soft sep] [Soft p] :
    ∀ {n i}, i.length < n → ∃ r as, sepLoop sep p n i = .ok r as := by
  intro n
  induction n with
  | zero => intro i h; omega
  | succ n ih =>
    intro i h
    unfold sepLoop
    rcases Soft.cases sep i with ⟨r, s, e⟩ | ⟨pos, k, e⟩
    · rw [e]
      have hl := Consumes.out _ _ _ e
      simp only
      rw [if_neg (by rintro rfl; omega)]
      rcases Soft.cases p r with ⟨r2, a, e2⟩ | ⟨pos, k, e2⟩
      · rw [e2]
        have hl2 := Good.len e2
        simp only
        rw [if_neg (by rintro rfl; omega)]
        obtain ⟨r', as, e3⟩ := ih (i := r2) (by omega)
        rw [e3]; exact ⟨_, _, rfl⟩
      · rw [e2]; exact ⟨_, _, rfl⟩
    · rw [e]; exact ⟨_, _, rfl⟩

abbrev localTail : P Str :=
  recognize (pair (opt (takeWhile1 isDot)) (separatedList (takeWhile1 isDot) pnLocalChunk))

theorem localTail_imp {i r s} (h : localTail i = .ok r s) : i = s ++ r ∧ NameUnits LocD s ∧
    (∃ c ∈ s, c ≠ '.') ∧ ¬ StartsUnit LocD r := by
  unfold localTail at h
  obtain ⟨rfl, ⟨o, xs⟩, h⟩ := recognize_ok_iff.mp h
  obtain ⟨r1, h1, h2⟩ := pair_ok h
  obtain ⟨d, hd, e⟩ : ∃ d : Str, (∀ c ∈ d, c = '.') ∧ s ++ r = d ++ r1 := by
    rcases opt_ok.mp h1 with ⟨d, _, h3⟩ | ⟨_, rfl, _⟩
    · obtain ⟨e, _, h4, _⟩ := dots_ok.mp h3
      exact ⟨d, h4, e⟩
    · exact ⟨[], by simp, rfl⟩
  simp only at h2
  rcases separatedList_ok.mp h2 with ⟨_, _, pos, k, h3⟩ | ⟨a, as', j, _, h3, h4, h5⟩
  · obtain ⟨r, a, e⟩ := Total.out (p := pnLocalChunk) r1
    rw [e] at h3; cases h3
  · obtain ⟨t, rfl, h6, h7⟩ := pnLocalChunk_ok h3
    obtain ⟨t', rfl, h8, h9⟩ := localSepRun h5 h7
    have : s = d ++ (t ++ t') := List.append_cancel_right (bs := r) (by rw [e]; simp)
    subst this
    refine ⟨rfl, (locUnits_dots hd).append ((h6.mono fun _ => .inl).append h8), ?_, h9⟩
    cases h6 with
    | nil => exact absurd rfl h4
    | cons hu _ =>
      cases hu with
      | @ch c hc => exact ⟨c, by simp, fun e => locC_dot (e ▸ hc)⟩
      | pct _ _ => exact ⟨'%', by simp, by decide⟩
      | esc _ => exact ⟨'\\', by simp, by decide⟩

/-- Strip the leading dots. -/
theorem strip_dots (s : Str) : ∃ d s', s = d ++ s' ∧ (∀ c ∈ d, c = '.') ∧ NotStart (· = '.') s' := by
  induction s with
  | nil => exact ⟨[], [], rfl, by simp, notStart_nil⟩
  | cons c s ih =>
    by_cases h : c = '.'
    · obtain ⟨d, s', rfl, h1, h2⟩ := ih
      exact ⟨c :: d, s', rfl, by simpa [h] using h1, h2⟩
    · exact ⟨[], c :: s, rfl, by simp, notStart_cons h⟩

theorem units_strip {d s : Str} (hd : ∀ c ∈ d, c = '.') (h : NameUnits LocD (d ++ s)) : NameUnits LocD s := by
  induction d with
  | nil => exact h
  | cons c d ih =>
    have hc : c = '.' := hd c (by simp)
    subst hc
    apply ih (fun c hc => hd c (by simp [hc]))
    generalize e : '.' :: d ++ s = x at h
    cases h with
    | nil => cases e
    | cons hu hs =>
      cases hu with
      | ch _ => simp at e; rw [e.2]; exact hs
      | pct _ _ => simp at e
      | esc _ => simp at e

theorem localTail_ok {i r s} : localTail i = .ok r s ↔ i = s ++ r ∧ NameUnits LocD s ∧
    (∃ c ∈ s, c ≠ '.') ∧ ¬ StartsUnit LocD r := by
  refine ⟨localTail_imp, ?_⟩
  rintro ⟨rfl, h1, ⟨c, hc, hcd⟩, h3⟩
  suffices h : ∃ r' s', localTail (s ++ r) = .ok r' s' by
    obtain ⟨r', s', h⟩ := h
    obtain ⟨e, h4, _, h5⟩ := localTail_imp h
    obtain ⟨rfl, rfl⟩ := NameUnits.unique plain_LocD h1 h4 h3 h5 e
    exact h
  obtain ⟨d, s', rfl, hd, hs'⟩ := strip_dots s
  have hu := units_strip hd h1
  have hst : StartsUnit LocC (s' ++ r) := by
    cases hu with
    | nil => simp at hc; exact absurd (hd c hc) hcd
    | @cons u s h _ =>
      rw [List.append_assoc]
      refine ⟨u, _, ?_, rfl⟩
      cases h with
      | ch h =>
        rcases h with h | rfl
        · exact .ch h
        · exact absurd rfl (hs' _ _ rfl)
      | pct a b => exact .pct a b
      | esc a => exact .esc a
  have hnd : NotStart (· = '.') (s' ++ r) := by
    obtain ⟨u, r', h, e⟩ := hst
    rw [e]
    cases h with
    | ch h => exact notStart_cons (by rintro rfl; exact locC_dot h)
    | pct a b => exact notStart_cons (by decide)
    | esc a => exact notStart_cons (by decide)
  have hopt : ∃ o, opt (takeWhile1 isDot) (d ++ (s' ++ r)) = .ok (s' ++ r) o := by
    by_cases hd0 : d = []
    · subst hd0
      refine ⟨none, opt_ok.mpr (.inr ⟨rfl, rfl, ?_⟩)⟩
      rcases Soft.cases (takeWhile1 isDot) ([] ++ (s' ++ r)) with ⟨r, a, e⟩ | h
      · obtain ⟨e1, e2, e3, _⟩ := dots_ok.mp e
        cases a with
        | nil => contradiction
        | cons x a => exact absurd (e3 x (by simp)) (hnd x _ e1)
      · exact h
    · exact ⟨some d, opt_ok.mpr (.inl ⟨d, rfl, dots_ok.mpr ⟨rfl, hd0, hd, hnd⟩⟩)⟩
  obtain ⟨o, ho⟩ := hopt
  obtain ⟨r1, a, hch⟩ := Total.out (p := pnLocalChunk) (s' ++ r)
  obtain ⟨t, e, h6, h7⟩ := pnLocalChunk_ok hch
  have hne : r1 ≠ s' ++ r := by
    intro h; rw [h] at h7; exact h7 hst
  obtain ⟨r2, as, hl⟩ := sepLoop_total (sep := takeWhile1 isDot) (p := pnLocalChunk)
    (n := r1.length + 1) (i := r1) (by omega)
  have hlist : separatedList (takeWhile1 isDot) pnLocalChunk (s' ++ r) = .ok r2 (a :: as) := by
    unfold separatedList
    rw [hch]; simp only
    rw [if_neg hne, hl]
  have hpair : pair (opt (takeWhile1 isDot)) (separatedList (takeWhile1 isDot) pnLocalChunk)
      ((d ++ s') ++ r) = .ok r2 (o, a :: as) := by
    rw [List.append_assoc]; exact pair_ok_iff.mpr ⟨_, ho, hlist⟩
  exact ⟨r2, _, recognize_ok.mpr ⟨_, hpair, rfl⟩⟩

theorem pnCharsUOne_ok {i r s} : pnCharsUOne i = .ok r s ↔ ∃ c, s = [c] ∧ i = c :: r ∧ isPnCharsU c = true := by
  unfold pnCharsUOne pnCharsBaseOne
  rw [alt_two_ok]
  simp only [alt, tag_one_ok, takeWhileN_ok]
  constructor
  · rintro (⟨rfl, h1, h2⟩ | ⟨_, rfl, rfl⟩)
    · match s, h1 with
      | [c], _ => exact ⟨c, rfl, rfl, isPnCharsU_iff.mpr (.inl (h2 c (by simp)))⟩
    · exact ⟨'_', rfl, rfl, by decide⟩
  · rintro ⟨c, rfl, rfl, h⟩
    by_cases hb : isPnCharsBase c = true
    · exact .inl ⟨rfl, rfl, by simpa using hb⟩
    · rcases isPnCharsU_iff.mp h with h | rfl
      · contradiction
      · exact .inr ⟨⟨_, _, rfl⟩, rfl, rfl⟩

theorem one_ok {f : Char → Bool} {i r s} : takeWhileN 1 f i = .ok r s ↔
    ∃ c, s = [c] ∧ i = c :: r ∧ f c = true := by
  rw [takeWhileN_ok]
  constructor
  · rintro ⟨rfl, h1, h2⟩
    match s, h1 with
    | [c], _ => exact ⟨c, rfl, rfl, h2 c (by simp)⟩
  · rintro ⟨c, rfl, rfl, h⟩
    exact ⟨rfl, rfl, by simpa using h⟩

theorem pnLocalFirst_ok {i r s} : pnLocalFirst i = .ok r s ↔ i = s ++ r ∧ NameUnit LocF s := by
  unfold pnLocalFirst
  simp only [alt_two_ok, alt_one_ok, pnCharsUOne_ok, one_ok, tag_one_ok, plx_ok]
  constructor
  · rintro (⟨c, rfl, rfl, h⟩ | ⟨_, ⟨rfl, rfl⟩ | ⟨_, ⟨c, rfl, rfl, h⟩ | ⟨_, rfl, h⟩⟩⟩)
    · exact ⟨rfl, .ch (.inl h)⟩
    · exact ⟨rfl, .ch (.inr (.inl rfl))⟩
    · exact ⟨rfl, .ch (.inr (.inr h))⟩
    · exact ⟨rfl, h.mono fun _ h => h.elim⟩
  · rintro ⟨rfl, h⟩
    -- each alternative either succeeds or fails softly
    by_cases h1 : ∃ c, s = [c] ∧ isPnCharsU c = true
    · obtain ⟨c, rfl, hc⟩ := h1
      exact .inl ⟨c, rfl, rfl, hc⟩
    · refine .inr ⟨?_, ?_⟩
      · rcases Soft.cases pnCharsUOne (s ++ r) with ⟨r', a, e⟩ | e
        · obtain ⟨c, rfl, e2, hc⟩ := pnCharsUOne_ok.mp e
          cases h with
          | ch h => simp at e2; obtain ⟨rfl, rfl⟩ := e2; exact absurd ⟨_, rfl, hc⟩ h1
          | pct _ _ => simp at e2; rw [← e2.1] at hc; exact absurd hc (by decide)
          | esc _ => simp at e2; rw [← e2.1] at hc; exact absurd hc (by decide)
        · exact e
      · by_cases h2 : s = [':']
        · subst h2; exact .inl ⟨rfl, rfl⟩
        · refine .inr ⟨?_, ?_⟩
          · rcases Soft.cases (tag [':']) (s ++ r) with ⟨r', a, e⟩ | e
            · obtain ⟨_, e2⟩ := tag_one_ok.mp e
              cases h with
              | ch h => simp at e2; obtain ⟨rfl, rfl⟩ := e2; exact absurd rfl h2
              | pct _ _ => simp at e2
              | esc _ => simp at e2
            · exact e
          · by_cases h3 : ∃ c, s = [c] ∧ isDigitU8 c = true
            · obtain ⟨c, rfl, hc⟩ := h3
              exact .inl ⟨c, rfl, rfl, hc⟩
            · refine .inr ⟨?_, rfl, ?_⟩
              · rcases Soft.cases (takeWhileN 1 isDigitU8) (s ++ r) with ⟨r', a, e⟩ | e
                · obtain ⟨c, rfl, e2, hc⟩ := one_ok.mp e
                  cases h with
                  | ch h => simp at e2; obtain ⟨rfl, rfl⟩ := e2; exact absurd ⟨_, rfl, hc⟩ h3
                  | pct _ _ => simp at e2; rw [← e2.1] at hc; exact absurd hc (by decide)
                  | esc _ => simp at e2; rw [← e2.1] at hc; exact absurd hc (by decide)
                · exact e
              · cases h with
                | @ch c h =>
                  rcases h with h | rfl | h
                  · exact absurd ⟨c, rfl, h⟩ h1
                  · exact absurd rfl h2
                  · exact absurd ⟨c, rfl, h⟩ h3
                | pct a b => exact .pct a b
                | esc a => exact .esc a

/-- `pn_local`, exactly. -/
theorem pnLocal_ok {i r s} : pnLocal i = .ok r s ↔ i = s ++ r ∧ LocalName LocF LocC s ∧
    ¬ StartsUnit LocD r := by
  unfold pnLocal
  rw [recognize_ok_iff]
  constructor
  · rintro ⟨rfl, ⟨a, b⟩, h⟩
    obtain ⟨r1, h1, h2⟩ := pair_ok h
    obtain ⟨e, h3⟩ := pnLocalFirst_ok.mp h1
    obtain ⟨rfl, h4, h5, h6⟩ := localTail_ok.mp h2
    have : s = a ++ b := List.append_cancel_right (bs := r) (by rw [e]; simp)
    exact ⟨rfl, ⟨a, b, this, h3, h4, h5⟩, h6⟩
  · rintro ⟨rfl, ⟨a, b, rfl, h3, h4, h5⟩, h6⟩
    refine ⟨rfl, (a, b), pair_ok_iff.mpr ⟨b ++ r, pnLocalFirst_ok.mpr ⟨by simp, h3⟩, ?_⟩⟩
    exact localTail_ok.mpr ⟨rfl, h4, h5, h6⟩

/-! ## Prefixes -/

/-- The code's class of name characters. -/
abbrev PnC : Char → Prop := fun c => isPnChar c = true
/-- The code's class of first characters of a prefix. -/
abbrev PnB : Char → Prop := fun c => isPnCharsBase c = true

theorem pnC_dot : ¬ PnC '.' := by decide

instance : Total pnCharsTail where
  out i := by
    unfold pnCharsTail
    suffices h : ∃ r a, pair (opt (takeWhile1 isDot)) (separatedList (takeWhile1 isDot) pnChars1) i = .ok r a by
      obtain ⟨r, a, h⟩ := h
      exact ⟨r, _, recognize_ok.mpr ⟨a, h, rfl⟩⟩
    obtain ⟨r1, o, h1⟩ := Total.out (p := opt (takeWhile1 isDot)) i
    suffices h : ∃ r a, separatedList (takeWhile1 isDot) pnChars1 r1 = .ok r a by
      obtain ⟨r, a, h⟩ := h
      exact ⟨r, (o, a), pair_ok_iff.mpr ⟨r1, h1, h⟩⟩
    unfold separatedList
    rcases Soft.cases pnChars1 r1 with ⟨r, a, e⟩ | ⟨pos, k, e⟩
    · rw [e]
      have hl := Consumes.out _ _ _ e
      simp only
      rw [if_neg (by rintro rfl; omega)]
      obtain ⟨r2, as, hl⟩ := sepLoop_total (sep := takeWhile1 isDot) (p := pnChars1)
        (n := r.length + 1) (i := r) (by omega)
      rw [hl]; exact ⟨_, _, rfl⟩
    · rw [e]; exact ⟨_, _, rfl⟩

theorem pnChars1_ok {i r s} : pnChars1 i = .ok r s ↔ i = s ++ r ∧ s ≠ [] ∧ (∀ c ∈ s, PnC c) ∧
    NotStart PnC r := by
  unfold pnChars1
  rw [takeWhile1_ok]
  simp [NotStart]

theorem pnChars1_err {i pos k} (h : pnChars1 i = .err (.error pos k)) : NotStart PnC i := by
  intro c r' e hc
  unfold pnChars1 at h
  have := (takeWhile1K_err (k := .TakeWhile1) h).2 c r' e
  rw [hc] at this; cases this

/-- What follows a tail: no name character, and dots only if no name character follows them. -/
def TailStop (r : Str) : Prop :=
  NotStart PnC r ∧ ∀ d r', (∀ c ∈ d, c = '.') → r = d ++ r' → NotStart PnC r'

theorem tailStop_of {r} (h : NotStart PnC r) (h' : NotStart (· = '.') r) : TailStop r := by
  refine ⟨h, fun d r' hd e => ?_⟩
  cases d with
  | nil => rw [List.nil_append] at e; exact e ▸ h
  | cons c d => exact absurd (hd c (by simp)) (h' c _ e)

theorem dots_unique {d d' r r' : Str} (hd : ∀ c ∈ d, c = '.') (hd' : ∀ c ∈ d', c = '.')
    (hr : NotStart (· = '.') r) (e : d ++ r = d' ++ r') : ∃ x : Str, (∀ c ∈ x, c = '.') ∧ r' = x ++ r := by
  induction d' generalizing d with
  | nil => exact ⟨d, hd, by simpa using e.symm⟩
  | cons c d' ih =>
    cases d with
    | nil => exact absurd (hd' c (by simp)) (hr c _ e)
    | cons c2 d => 
      simp only [List.cons_append, List.cons.injEq] at e
      exact ih (d := d) (fun c hc => hd c (by simp [hc])) (fun c hc => hd' c (by simp [hc])) e.2

theorem tailRun {i r as} (h : SepRun (takeWhile1 isDot) pnChars1 i r as) (hi : NotStart PnC i) :
    ∃ t, i = t ++ r ∧ (∀ c ∈ t, PnC c ∨ c = '.') ∧ (t = [] ∨ ∃ t' c, t = t' ++ [c] ∧ PnC c) ∧ TailStop r := by
  induction h with
  | stopSep h => exact ⟨[], rfl, by simp, .inl rfl, tailStop_of hi (dots_err h)⟩
  | stopElem h _ h1 =>
    refine ⟨[], rfl, by simp, .inl rfl, hi, ?_⟩
    intro d r' hd e
    obtain ⟨rfl, h2, h3, h4⟩ := dots_ok.mp h
    obtain ⟨x, hx, rfl⟩ := dots_unique h3 hd h4 e
    cases x with
    | nil => exact pnChars1_err h1
    | cons c x => exact notStart_cons (by rw [hx c (by simp)]; exact pnC_dot)
  | step h _ h1 _ _ ih =>
    obtain ⟨rfl, h2, h3, h4⟩ := dots_ok.mp h
    obtain ⟨rfl, h5, h6, h7⟩ := pnChars1_ok.mp h1
    obtain ⟨t, rfl, h8, h9, h10⟩ := ih h7
    rename_i d cs _ _ _ _
    refine ⟨d ++ (cs ++ t), by simp, ?_, .inr ?_, h10⟩
    · intro c hc
      simp only [List.mem_append] at hc
      rcases hc with hc | hc | hc
      · exact .inr (h3 c hc)
      · exact .inl (h6 c hc)
      · exact h8 c hc
    · rcases h9 with rfl | ⟨t', c, rfl, hc⟩
      · refine ⟨d ++ cs.dropLast, cs.getLast h5, ?_, h6 _ (List.getLast_mem h5)⟩
        simp [List.dropLast_concat_getLast]
      · exact ⟨d ++ (cs ++ t'), c, by simp, hc⟩

theorem pnCharsTail_imp {i r s} (h : pnCharsTail i = .ok r s) : i = s ++ r ∧ NameTail PnC s ∧
    TailStop r ∧ ((∀ c ∈ s, c = '.') → NotStart (· = '.') r) := by
  unfold pnCharsTail at h
  obtain ⟨rfl, ⟨o, xs⟩, h⟩ := recognize_ok_iff.mp h
  obtain ⟨r1, h1, h2⟩ := pair_ok h
  obtain ⟨d, hd, e, hr1⟩ : ∃ d : Str, (∀ c ∈ d, c = '.') ∧ s ++ r = d ++ r1 ∧ NotStart (· = '.') r1 := by
    rcases opt_ok.mp h1 with ⟨d, _, h3⟩ | ⟨_, rfl, _, _, h3⟩
    · obtain ⟨e, _, h4, h5⟩ := dots_ok.mp h3
      exact ⟨d, h4, e, h5⟩
    · exact ⟨[], by simp, rfl, dots_err h3⟩
  simp only at h2
  rcases separatedList_ok.mp h2 with ⟨_, rfl, pos, k, h3⟩ | ⟨a, as', j, _, h3, h4, h5⟩
  · have : s = d := List.append_cancel_right e
    subst this
    exact ⟨rfl, ⟨fun c hc => .inr (hd c hc), .inl hd⟩, tailStop_of (pnChars1_err h3) hr1, fun _ => hr1⟩
  · obtain ⟨rfl, h6, h7, h8⟩ := pnChars1_ok.mp h3
    obtain ⟨t, rfl, h9, h10, h11⟩ := tailRun h5 h8
    have : s = d ++ (a ++ t) := List.append_cancel_right (bs := r) (by rw [e]; simp)
    subst this
    refine ⟨rfl, ⟨?_, .inr ?_⟩, h11, ?_⟩
    · intro c hc
      simp only [List.mem_append] at hc
      rcases hc with hc | hc | hc
      · exact .inr (hd c hc)
      · exact .inl (h7 c hc)
      · exact h9 c hc
    · rcases h10 with rfl | ⟨t', c, rfl, hc⟩
      · refine ⟨d ++ a.dropLast, a.getLast h6, ?_, h7 _ (List.getLast_mem h6)⟩
        simp [List.dropLast_concat_getLast]
      · exact ⟨d ++ (a ++ t'), c, by simp, hc⟩
    · intro hall
      exfalso
      cases a with
      | nil => contradiction
      | cons c a =>
        have := hall c (by simp)
        subst this
        exact pnC_dot (h7 '.' (by simp))

/-- Round trip of tails when followed by neither a name character nor a dot. -/
theorem pnCharsTail_append {s r} (h : NameTail PnC s) (h1 : NotStart PnC r) (h2 : NotStart (· = '.') r) :
    pnCharsTail (s ++ r) = .ok r s := by
  obtain ⟨r', s', e⟩ := Total.out (p := pnCharsTail) (s ++ r)
  obtain ⟨e1, ⟨h3, h4⟩, ⟨h5, h6⟩, h7⟩ := pnCharsTail_imp e
  suffices hs : s = s' by
    subst hs; rw [List.append_cancel_left e1]; rw [List.append_cancel_left e1] at e; exact e
  rcases List.append_eq_append_iff.mp e1 with ⟨x, rfl, e2⟩ | ⟨x, rfl, e2⟩
  · -- s' is longer: r starts with a character of s'
    cases x with
    | nil => simp
    | cons c x =>
      rcases h3 c (by simp) with hc | hc
      · exact absurd hc (h1 c _ e2)
      · exact absurd hc (h2 c _ e2)
  · -- s' is shorter
    cases x with
    | nil => simp
    | cons c x =>
      exfalso
      rcases h.1 c (by simp) with hc | rfl
      · exact h5 c _ e2 hc
      · by_cases hall : ∀ c ∈ '.' :: x, c = '.'
        · rcases h.2 with hd | ⟨t', c, e3, hc⟩
          · exact h7 (fun c hc => hd c (by simp [hc])) '.' _ e2 rfl
          · have : c ∈ '.' :: x := by
              have h9 : (s' ++ '.' :: x).getLast? = some c := by rw [e3]; simp
              rw [List.getLast?_append] at h9
              obtain ⟨y, hy⟩ : ∃ y, ('.' :: x).getLast? = some y := ⟨_, List.getLast?_eq_some_getLast (by simp)⟩
              rw [hy] at h9
              simp at h9
              subst h9
              exact List.mem_of_getLast? hy
            rw [hall c this] at hc
            exact pnC_dot hc
        · obtain ⟨d, x', e3, hd, hx⟩ := strip_dots ('.' :: x)
          cases x' with
          | nil => 
            apply hall; rw [e3]; simpa using hd
          | cons y x' =>
            have hy : y ∈ s' ++ '.' :: x := by rw [e3]; simp
            rcases h.1 y hy with hy | hy
            · exact h6 d (y :: (x' ++ r)) hd (by rw [e2, e3]; simp) y _ rfl hy
            · exact hx y _ rfl hy

theorem pnPrefix_imp {i r s} (h : pnPrefix i = .ok r s) : i = s ++ r ∧ PrefixName PnB PnC s := by
  unfold pnPrefix pnCharsBaseOne at h
  obtain ⟨rfl, ⟨a, b⟩, h⟩ := recognize_ok_iff.mp h
  obtain ⟨r1, h1, h2⟩ := pair_ok h
  obtain ⟨c, rfl, e, hc⟩ := one_ok.mp h1
  obtain ⟨rfl, h3, _⟩ := pnCharsTail_imp h2
  have : s = c :: b := List.append_cancel_right (bs := r) (by rw [e]; simp)
  subst this
  exact ⟨rfl, c, b, rfl, hc, h3⟩

theorem pnPrefix_append {s r} (h : PrefixName PnB PnC s) (h1 : NotStart PnC r)
    (h2 : NotStart (· = '.') r) : pnPrefix (s ++ r) = .ok r s := by
  obtain ⟨c, t, rfl, hc, ht⟩ := h
  unfold pnPrefix pnCharsBaseOne
  exact recognize_ok_iff.mpr ⟨rfl, ([c], t), pair_ok_iff.mpr ⟨t ++ r, one_ok.mpr ⟨c, rfl, rfl, hc⟩,
    pnCharsTail_append ht h1 h2⟩⟩

theorem pnPrefix_err {i} (h : NotStart PnB i) : ∃ pos k, pnPrefix i = .err (.error pos k) := by
  rcases Soft.cases pnPrefix i with ⟨r, a, e⟩ | h'
  · obtain ⟨rfl, c, t, rfl, hc, _⟩ := pnPrefix_imp e
    exact absurd hc (h c _ rfl)
  · exact h'

theorem ws_first {w : Str} (h : Ws w) : ∀ c w', w = c :: w' → wsStart c = true := by
  cases h with
  | nil => intro c w' e; cases e
  | cons h _ =>
    intro c w' e
    cases h with
    | char h =>
      simp at e; obtain ⟨rfl, _⟩ := e
      simp only [List.mem_cons, List.not_mem_nil, or_false] at h
      rcases h with rfl | rfl | rfl | rfl <;> rfl
    | comment _ _ => simp at e; obtain ⟨rfl, _⟩ := e; rfl

theorem wsStart_iff {c : Char} : wsStart c = true ↔ c = ' ' ∨ c = '\t' ∨ c = '\r' ∨ c = '\n' ∨ c = '#' := by
  simp [wsStart]

/-- White space followed by `d` starts with a white space character or `d`. -/
theorem notStart_ws {f : Char → Prop} {w r : Str} {d : Char} (h : Ws w) (hd : ¬ f d)
    (hf : ¬ f ' ' ∧ ¬ f '\t' ∧ ¬ f '\r' ∧ ¬ f '\n' ∧ ¬ f '#') : NotStart f (w ++ d :: r) := by
  cases w with
  | nil => exact notStart_cons hd
  | cons c w =>
    apply notStart_cons
    obtain ⟨h1, h2, h3, h4, h5⟩ := hf
    rcases wsStart_iff.mp (ws_first h c w rfl) with rfl | rfl | rfl | rfl | rfl <;> assumption

theorem pnameNs_ok {i r o} : pnameNs i = .ok r o ↔
    ∃ w, Ws w ∧ i = prefixText o ++ (w ++ ':' :: r) ∧ OptPrefix PnB PnC o := by
  unfold pnameNs
  simp only [terminated_ok, preceded_ok, sp_ok_iff, char_ok]
  constructor
  · rintro ⟨r1, c, h1, r2, w, ⟨rfl, h2, _⟩, rfl, rfl⟩
    rcases opt_ok.mp h1 with ⟨p, rfl, h⟩ | ⟨rfl, h, _⟩
    · obtain ⟨rfl, h4⟩ := pnPrefix_imp h
      exact ⟨w, h2, rfl, h4⟩
    · exact ⟨w, h2, h.symm, trivial⟩
  · rintro ⟨w, h1, rfl, h2⟩
    refine ⟨w ++ ':' :: r, ':', ?_, ':' :: r, w, ⟨rfl, h1, not_startsWs_cons rfl⟩, rfl, rfl⟩
    have n1 : NotStart PnC (w ++ ':' :: r) := notStart_ws h1 (by decide) (by decide)
    have n2 : NotStart (· = '.') (w ++ ':' :: r) := notStart_ws h1 (by decide) (by decide)
    have n3 : NotStart PnB (w ++ ':' :: r) := notStart_ws h1 (by decide) (by decide)
    cases o with
    | none => exact opt_ok.mpr (.inr ⟨rfl, rfl, pnPrefix_err n3⟩)
    | some p => exact opt_ok.mpr (.inl ⟨p, rfl, pnPrefix_append h2 n1 n2⟩)

theorem localName_not_startsWs {b f l r} (h : LocalName b f l) (hb : ∀ c, b c → wsStart c = false) :
    ¬ StartsWs (l ++ r) := by
  obtain ⟨u, t, rfl, h1, _⟩ := h
  cases h1 with
  | ch h1 => exact not_startsWs_cons (hb _ h1)
  | pct _ _ => exact not_startsWs_cons rfl
  | esc _ => exact not_startsWs_cons rfl

theorem locF_ws (c : Char) (h : LocF c) : wsStart c = false := by
  cases hw : wsStart c with
  | false => rfl
  | true =>
    rcases wsStart_iff.mp hw with rfl | rfl | rfl | rfl | rfl <;> exact absurd h (by decide)

theorem pnameLn_ok {i r x} : pnameLn i = .ok r x ↔ ∃ w w', Ws w ∧ Ws w' ∧
    i = prefixText x.1 ++ (w ++ ':' :: (w' ++ (x.2 ++ r))) ∧ OptPrefix PnB PnC x.1 ∧
    LocalName LocF LocC x.2 ∧ ¬ StartsUnit LocD r := by
  unfold pnameLn
  simp only [pair_ok_iff, preceded_ok, sp_ok_iff, pnameNs_ok, pnLocal_ok]
  constructor
  · rintro ⟨r1, ⟨w, h1, rfl, h2⟩, r2, w', ⟨rfl, h3, _⟩, rfl, h4, h5⟩
    exact ⟨w, w', h1, h3, rfl, h2, h4, h5⟩
  · rintro ⟨w, w', h1, h3, rfl, h2, h4, h5⟩
    exact ⟨_, ⟨w, h1, rfl, h2⟩, _, w', ⟨rfl, h3, localName_not_startsWs h4 locF_ws⟩, rfl, h4, h5⟩

theorem prefixedName_ln {i r o l} : prefixedName i = .ok r (.pnameLN o l) ↔ ∃ w w', Ws w ∧ Ws w' ∧
    i = prefixText o ++ (w ++ ':' :: (w' ++ (l ++ r))) ∧ OptPrefix PnB PnC o ∧
    LocalName LocF LocC l ∧ ¬ StartsUnit LocD r := by
  unfold prefixedName
  rw [alt_two_ok]
  simp only [alt, map_ok]
  constructor
  · rintro (⟨⟨a, b⟩, h, h2⟩ | ⟨_, a, h, h2⟩)
    · cases h2; exact pnameLn_ok.mp h
    · cases h2
  · intro h; exact .inl ⟨(o, l), pnameLn_ok.mpr h, rfl⟩

/-- The name without local part is returned when no local name can be read. -/
theorem prefixedName_ns {i r o} : prefixedName i = .ok r (.pnameNS o) ↔
    (∃ w, Ws w ∧ i = prefixText o ++ (w ++ ':' :: r) ∧ OptPrefix PnB PnC o) ∧
    ∀ w' l r', Ws w' → r = w' ++ (l ++ r') → LocalName LocF LocC l → StartsUnit LocD r' := by
  unfold prefixedName
  rw [alt_two_ok]
  simp only [alt, map_ok]
  constructor
  · rintro (⟨⟨a, b⟩, h, h2⟩ | ⟨⟨pos, k, h3⟩, a, h, h2⟩)
    · cases h2
    · cases h2
      obtain ⟨w, hw, e, ho⟩ := pnameNs_ok.mp h
      refine ⟨⟨w, hw, e, ho⟩, ?_⟩
      intro w' l r' hw' hr hl
      refine Classical.byContradiction fun hst => ?_
      have : pnameLn i = .ok r' (o, l) := pnameLn_ok.mpr ⟨w, w', hw, hw', by rw [e, hr], ho, hl, hst⟩
      unfold map at h3; rw [this] at h3; cases h3
  · rintro ⟨⟨w, hw, e, ho⟩, h⟩
    refine .inr ⟨?_, o, pnameNs_ok.mpr ⟨w, hw, e, ho⟩, rfl⟩
    rcases Soft.cases pnameLn i with ⟨r', x, e2⟩ | ⟨pos, k, e2⟩
    · exfalso
      unfold pnameLn at e2
      obtain ⟨r1, h1, h2⟩ := pair_ok_iff.mp e2
      have h3 := pnameNs_ok.mpr ⟨w, hw, e, ho⟩
      rw [h1] at h3
      cases h3
      obtain ⟨r2, w', h4, h5⟩ := preceded_ok.mp h2
      obtain ⟨rfl, h6, _⟩ := sp_ok_iff.mp h4
      obtain ⟨rfl, h7, h8⟩ := pnLocal_ok.mp h5
      exact h8 (h w' _ _ h6 rfl h7)
    · exact ⟨pos, k, map_soft_err e2⟩

/-! ## Blank nodes -/

/-- The code's class of first characters of a blank node label. -/
abbrev LabF : Char → Prop := fun c => isPnCharsU c = true ∨ isDigitU8 c = true

/-- A label: first character and tail. -/
abbrev LabelName (s : Str) : Prop := PrefixName LabF PnC s

abbrev labelP : P Str := recognize (pair (alt [pnCharsUOne, takeWhileN 1 isDigitU8]) pnCharsTail)

theorem labelFirst_ok {i r s} : alt [pnCharsUOne, takeWhileN 1 isDigitU8] i = .ok r s ↔
    ∃ c, s = [c] ∧ i = c :: r ∧ LabF c := by
  rw [alt_two_ok]
  simp only [alt, pnCharsUOne_ok, one_ok]
  constructor
  · rintro (⟨c, rfl, rfl, h⟩ | ⟨_, c, rfl, rfl, h⟩)
    · exact ⟨c, rfl, rfl, .inl h⟩
    · exact ⟨c, rfl, rfl, .inr h⟩
  · rintro ⟨c, rfl, rfl, h⟩
    by_cases hc : isPnCharsU c = true
    · exact .inl ⟨c, rfl, rfl, hc⟩
    · refine .inr ⟨?_, c, rfl, rfl, h.resolve_left hc⟩
      rcases Soft.cases pnCharsUOne (c :: r) with ⟨r', a, e⟩ | e
      · obtain ⟨c', _, e2, hc'⟩ := pnCharsUOne_ok.mp e
        cases e2; exact absurd hc' hc
      · exact e

theorem label_imp {i r s} (h : labelP i = .ok r s) : i = s ++ r ∧ LabelName s ∧ TailStop r := by
  unfold labelP at h
  obtain ⟨rfl, ⟨a, b⟩, h⟩ := recognize_ok_iff.mp h
  obtain ⟨r1, h1, h2⟩ := pair_ok h
  obtain ⟨c, rfl, e, hc⟩ := labelFirst_ok.mp h1
  obtain ⟨rfl, h3, h4, _⟩ := pnCharsTail_imp h2
  have : s = c :: b := List.append_cancel_right (bs := r) (by rw [e]; simp)
  subst this
  exact ⟨rfl, ⟨c, b, rfl, hc, h3⟩, h4⟩

theorem label_append {s r} (h : LabelName s) (h1 : NotStart PnC r)
    (h2 : NotStart (· = '.') r) : labelP (s ++ r) = .ok r s := by
  obtain ⟨c, t, rfl, hc, ht⟩ := h
  exact recognize_ok_iff.mpr ⟨rfl, ([c], t), pair_ok_iff.mpr ⟨t ++ r, labelFirst_ok.mpr ⟨c, rfl, rfl, hc⟩,
    pnCharsTail_append ht h1 h2⟩⟩

theorem anon_ok {i r s} : anon i = .ok r s ↔ Ws s ∧ i = '[' :: (s ++ ']' :: r) := by
  unfold anon
  simp only [preceded_ok, cut_ok, terminated_ok, sp_ok_iff, char_ok]
  constructor
  · rintro ⟨r1, a, ⟨rfl, rfl⟩, r2, b, ⟨rfl, h, _⟩, rfl, rfl⟩
    exact ⟨h, rfl⟩
  · rintro ⟨h, rfl⟩
    exact ⟨_, '[', ⟨rfl, rfl⟩, ']' :: r, ']', ⟨rfl, h, not_startsWs_cons rfl⟩, rfl, rfl⟩

theorem nil_ok {i r s} : nil i = .ok r s ↔ Ws s ∧ i = '(' :: (s ++ ')' :: r) := by
  unfold nil
  simp only [preceded_ok, cut_ok, terminated_ok, sp_ok_iff, char_ok]
  constructor
  · rintro ⟨r1, a, ⟨rfl, rfl⟩, r2, b, ⟨rfl, h, _⟩, rfl, rfl⟩
    exact ⟨h, rfl⟩
  · rintro ⟨h, rfl⟩
    exact ⟨_, '(', ⟨rfl, rfl⟩, ')' :: r, ')', ⟨rfl, h, not_startsWs_cons rfl⟩, rfl, rfl⟩

/-- `[` is a hard commitment in `anon`. -/
theorem anon_bracket (i : Input) : (∃ r s, anon ('[' :: i) = .ok r s) ∨
    ∃ pos k, anon ('[' :: i) = .err (.failure pos k) := by
  have e : anon ('[' :: i) = cut (terminated sp (char ']')) i := by
    unfold anon preceded map pair
    rw [char_cons]
    simp only
    split <;> rename_i h <;> (split at h <;> cases h) <;> rename_i h2 <;> rw [h2]
  rw [e]
  rcases Soft.cases (terminated sp (char ']')) i with ⟨r, a, h⟩ | ⟨pos, k, h⟩
  · exact .inl ⟨r, a, cut_ok.mpr h⟩
  · exact .inr ⟨pos, k, by unfold cut; rw [h]⟩

theorem nil_bracket (i : Input) : (∃ r s, nil ('(' :: i) = .ok r s) ∨
    ∃ pos k, nil ('(' :: i) = .err (.failure pos k) := by
  have e : nil ('(' :: i) = cut (terminated sp (char ')')) i := by
    unfold nil preceded map pair
    rw [char_cons]
    simp only
    split <;> rename_i h <;> (split at h <;> cases h) <;> rename_i h2 <;> rw [h2]
  rw [e]
  rcases Soft.cases (terminated sp (char ')')) i with ⟨r, a, h⟩ | ⟨pos, k, h⟩
  · exact .inl ⟨r, a, cut_ok.mpr h⟩
  · exact .inr ⟨pos, k, by unfold cut; rw [h]⟩

theorem anon_err {i : Input} (h : NotStart (· = '[') i) : anon i = .err (.error i .Char) := by
  unfold anon
  apply preceded_err
  cases i with
  | nil => rfl
  | cons c i => exact char_err (h c i rfl)

theorem nil_err {i : Input} (h : NotStart (· = '(') i) : nil i = .err (.error i .Char) := by
  unfold nil
  apply preceded_err
  cases i with
  | nil => rfl
  | cons c i => exact char_err (h c i rfl)

theorem blankNode_label {i r s} : blankNode i = .ok r (.label s) ↔
    ∃ r1 w, i = '_' :: ':' :: (w ++ r1) ∧ Ws w ∧ ¬ StartsWs r1 ∧ labelP r1 = .ok r s := by
  unfold blankNode
  rw [alt_two_ok]
  simp only [alt, map_ok, spSep, separatedPair_ok, sp_ok_iff, tag_ok]
  constructor
  · rintro (⟨⟨a, b⟩, ⟨r1, r2, c, ⟨h1, h2⟩, ⟨rfl, h3, h4⟩, h5⟩, h6⟩ | ⟨_, a, _, h⟩)
    · simp only [BlankNode.label.injEq] at h6
      subst h6
      exact ⟨r2, c, h2, h3, h4, h5⟩
    · cases h
  · rintro ⟨r1, w, rfl, h3, h4, h5⟩
    exact .inl ⟨(c!"_:", s), ⟨_, r1, w, ⟨rfl, rfl⟩, ⟨rfl, h3, h4⟩, h5⟩, rfl⟩

theorem blankNode_anon {i r} : blankNode i = .ok r .anon ↔ ∃ w, Ws w ∧ i = '[' :: (w ++ ']' :: r) := by
  unfold blankNode
  rw [alt_two_ok]
  simp only [alt, map_ok]
  constructor
  · rintro (⟨a, _, h⟩ | ⟨_, w, h, _⟩)
    · cases h
    · obtain ⟨h1, h2⟩ := anon_ok.mp h; exact ⟨w, h1, h2⟩
  · rintro ⟨w, h1, rfl⟩
    exact .inr ⟨⟨_, _, rfl⟩, w, anon_ok.mpr ⟨h1, rfl⟩, trivial⟩

end NomSparql
