import Verif.Lemmas.Rendered
import Verif.Spec.Layout

/-!
# Parsers do not look at the layout

`Lay strict vals p`: on texts that are the same up to layout `p` answers alike; with `strict` it reads the same text, with `vals` it
gives the same value.
-/

namespace NomSparql

theorem PlainChar.ne {c : Char} (h : PlainChar c) {d : Char} (hd : ¬ PlainChar d) : c ≠ d := by rintro rfl; exact hd h

theorem plain_ws {c : Char} (h : PlainChar c) : wsStart c = false := by
  simp only [PlainChar, List.mem_cons, List.not_mem_nil, or_false, not_or] at h
  simp [wsStart, h]

theorem Relaid.refl_nil {i : Str} (h : Relaid [] i) : i = [] := by cases h; rfl

theorem Relaid.symm {i i' : Str} (h : Relaid i i') : Relaid i' i ∧ (i'.head? = some '\'' → i.head? = some '\'') := by
  induction h with
  | nil => exact ⟨.nil, by simp⟩
  | char h1 h2 _ ih => exact ⟨.char h1 (fun e he => h2 e (ih.2 he)) ih.1, fun h => h⟩
  | gap h1 h2 h3 h4 _ ih =>
    refine ⟨.gap h2 h1 h4 h3 ih.1, ?_⟩
    intro h
    simp only [List.head?_cons, Option.some.injEq] at h
    subst h
    exact absurd h2 (by decide)
  | str h1 h2 h3 _ ih => exact ⟨.str h1 h2 h3 ih.1, fun h => h⟩

theorem Relaid.same {i i' : Str} (h : Relaid i i') : SamePlace i i' := ⟨[], i, i', rfl, rfl, h⟩

/-- Texts that are the same up to layout end together, or start with the same plain character, with gaps, or with the same
string. -/
theorem Relaid.head {i i' : Str} (h : Relaid i i') :
    (i = [] ∧ i' = []) ∨
    (∃ c s s', i = c :: s ∧ i' = c :: s' ∧ PlainChar c ∧ Relaid s s' ∧ (c = '\\' → s.head? ≠ some '\'')) ∨
    (∃ c w s c' w' s', i = c :: (w ++ s) ∧ i' = c' :: (w' ++ s') ∧ IsBlank c ∧ IsBlank c' ∧ Ws w ∧ Ws w' ∧ Relaid s s') ∨
    (∃ q b s s', i = q :: (b ++ q :: s) ∧ i' = q :: (b ++ q :: s') ∧ (q = '"' ∨ q = '\'') ∧ StrBody q b ∧ (q = '\'' → '>' ∉ b) ∧
      Relaid s s') := by
  cases h with
  | nil => exact .inl ⟨rfl, rfl⟩
  | char h1 h2 h3 => exact .inr (.inl ⟨_, _, _, rfl, rfl, h1, h3, h2⟩)
  | gap h1 h2 h3 h4 h5 => exact .inr (.inr (.inl ⟨_, _, _, _, _, _, rfl, rfl, h1, h2, h3, h4, h5⟩))
  | str h1 h2 h3 h4 => exact .inr (.inr (.inr ⟨_, _, _, _, rfl, rfl, h1, h2, h3, h4⟩))

/-- First characters: both absent, both the same plain character, or both not plain. -/
theorem Relaid.first {i i' : Str} (h : Relaid i i') :
    (i = [] ∧ i' = []) ∨ (∃ c s s', i = c :: s ∧ i' = c :: s' ∧ PlainChar c ∧ Relaid s s') ∨
    (∃ c s c' s', i = c :: s ∧ i' = c' :: s' ∧ c ∈ [' ', '\t', '\r', '\n', '"', '\''] ∧ c' ∈ [' ', '\t', '\r', '\n', '"', '\'']) := by
  rcases h.head with h | ⟨c, s, s', h1, h2, h3, h4, _⟩ | ⟨c, w, s, c', w', s', h1, h2, h3, h4, _⟩ | ⟨q, b, s, s', h1, h2, h3, _⟩
  · exact .inl h
  · exact .inr (.inl ⟨c, s, s', h1, h2, h3, h4⟩)
  · refine .inr (.inr ⟨_, _, _, _, h1, h2, ?_, ?_⟩)
    · unfold IsBlank at h3; simp only [List.mem_cons, List.not_mem_nil, or_false] at h3 ⊢; grind
    · unfold IsBlank at h4; simp only [List.mem_cons, List.not_mem_nil, or_false] at h4 ⊢; grind
  · refine .inr (.inr ⟨_, _, _, _, h1, h2, ?_, ?_⟩) <;> (simp only [List.mem_cons, List.not_mem_nil, or_false]; grind)

theorem odd_not_plain {c : Char} (h : c ∈ [' ', '\t', '\r', '\n', '"', '\'']) : ¬ PlainChar c := by
  unfold PlainChar
  simp only [List.mem_cons, List.not_mem_nil, or_false] at h ⊢
  grind

/-- White space at the front. -/
theorem Relaid.space {i i' : Str} (h : Relaid i i') :
    ∃ w w' s s', i = w ++ s ∧ i' = w' ++ s' ∧ Ws w ∧ Ws w' ∧ (w = [] ↔ w' = []) ∧ ¬ StartsWs s ∧ ¬ StartsWs s' ∧ Relaid s s' := by
  induction h with
  | nil => exact ⟨[], [], [], [], rfl, rfl, .nil, .nil, by simp, not_startsWs_nil, not_startsWs_nil, .nil⟩
  | @char c s s' h1 h2 h3 _ =>
    exact ⟨[], [], _, _, rfl, rfl, .nil, .nil, by simp, not_startsWs_cons (plain_ws h1), not_startsWs_cons (plain_ws h1), .char h1 h2 h3⟩
  | @gap c c' w w' s s' h1 h2 h3 h4 h5 ih =>
    obtain ⟨v, v', t, t', rfl, rfl, g1, g2, _, g4, g5, g6⟩ := ih
    refine ⟨c :: (w ++ v), c' :: (w' ++ v'), t, t', by simp, by simp, ?_, ?_, by simp, g4, g5, g6⟩
    · exact Ws.cons (.char h1) (h3.append g1)
    · exact Ws.cons (.char h2) (h4.append g2)
  | @str q b s s' h1 h2 h3 h4 _ =>
    have : wsStart q = false := by rcases h1 with rfl | rfl <;> decide
    exact ⟨[], [], _, _, rfl, rfl, .nil, .nil, by simp, not_startsWs_cons this, not_startsWs_cons this, .str h1 h2 h3 h4⟩

/-- The outcomes on `i` and `i'`. -/
def LayRes (strict vals : Bool) (i i' : Str) : Res α → Res α → Prop
  | .ok r v, .ok r' v' => Relaid r r' ∧ (∃ m m', i = m ++ r ∧ i' = m' ++ r' ∧ (m = [] ↔ m' = []) ∧ (strict = true → m = m')) ∧
      (vals = true → v = v')
  | .err (.error p k), .err (.error p' k') => SamePlace p p' ∧ k = k'
  | .err (.failure p k), .err (.failure p' k') => SamePlace p p' ∧ k = k'
  | .err e, .err e' => e = e'
  | _, _ => False

class Lay (strict vals : Bool) (p : P α) : Prop where
  out : ∀ i i', Relaid i i' → LayRes strict vals i i' (p i) (p i')

/-- The three kinds of pairs of related answers. -/
theorem LayRes.elim {s v} {i i' : Str} {x y : Res α} (h : LayRes s v i i' x y) :
    (∃ r a r' a' m m', x = .ok r a ∧ y = .ok r' a' ∧ Relaid r r' ∧ i = m ++ r ∧ i' = m' ++ r' ∧ (m = [] ↔ m' = []) ∧
      (s = true → m = m') ∧ (v = true → a = a')) ∨
    (∃ p p' k, x = .err (.error p k) ∧ y = .err (.error p' k) ∧ SamePlace p p') ∨
    (∃ e e', x = .err e ∧ y = .err e' ∧ (∀ p k, e ≠ .error p k) ∧ (∀ p k, e' ≠ .error p k) ∧
      (∀ {γ : Type} (s v : Bool) (i i' : Str), LayRes s v i i' (.err e : Res γ) (.err e'))) := by
  cases x with
  | ok r a => cases y with
    | ok r' a' =>
      obtain ⟨h1, ⟨m, m', h2, h3, h4, h5⟩, h6⟩ := h
      exact .inl ⟨_, _, _, _, m, m', rfl, rfl, h1, h2, h3, h4, h5, h6⟩
    | err e' => cases h
  | err e => cases y with
    | ok r' a' => cases e <;> cases h
    | err e' =>
      cases e <;> cases e' <;> first
        | (obtain ⟨h1, h2⟩ := h; subst h2; exact .inr (.inl ⟨_, _, _, rfl, rfl, h1⟩))
        | (obtain ⟨h1, h2⟩ := h; subst h2
           exact .inr (.inr ⟨_, _, rfl, rfl, by simp, by simp, fun _ _ _ _ => ⟨h1, rfl⟩⟩))
        | (cases h; done)
        | (cases h; exact .inr (.inr ⟨_, _, rfl, rfl, by simp, by simp, fun _ _ _ _ => rfl⟩))

theorem LayRes.ok {s v} {i i' r r' m m' : Str} {a a' : α} (h : Relaid r r') (h1 : i = m ++ r) (h2 : i' = m' ++ r') (h3 : m = [] ↔ m' = [])
    (h4 : s = true → m = m') (h5 : v = true → a = a') : LayRes s v i i' (.ok r a) (.ok r' a') := ⟨h, ⟨m, m', h1, h2, h3, h4⟩, h5⟩

/-- Reading the same text. -/
theorem LayRes.read {s v} {r r' m : Str} {a : α} (h : Relaid r r') : LayRes s v (m ++ r) (m ++ r') (.ok r a) (.ok r' a) :=
  .ok h rfl rfl Iff.rfl (fun _ => rfl) (fun _ => rfl)

theorem LayRes.error {s v} {i i' p p' : Str} {k} (h : Relaid p p') : LayRes s v i i' (.err (.error p k) : Res α) (.err (.error p' k)) :=
  ⟨h.same, rfl⟩

theorem Lay.same {p : P α} (h : Lay false true p) {i i' : Str} (hi : Relaid i i') : SameAnswer (p i) (p i') := by
  have := h.out i i' hi
  revert this
  cases p i with
  | ok r a => cases p i' with
    | ok r' a' => rintro ⟨h1, _, h3⟩; exact ⟨h3 rfl, h1⟩
    | err e' => intro h; cases h
  | err e => cases p i' with
    | ok r' a' => intro h; cases e <;> cases h
    | err e' => intro h; cases e <;> cases e' <;> first | exact ⟨h.2, h.1⟩ | exact h

section
variable {p : P α} {q : P β} {s v : Bool}

theorem Lay.drop (h : Lay s true p) : Lay s false p where
  out i i' t := by
    have := h.out i i' t
    revert this
    cases p i with
    | ok r a => cases p i' with
      | ok r' a' => rintro ⟨h1, h2, h3⟩; exact ⟨h1, h2, by simp⟩
      | err e' => intro h; cases h
    | err e => cases p i' with
      | ok r' a' => intro h; cases e <;> cases h
      | err e' => intro h; cases e <;> cases e' <;> exact h

theorem Lay.pair (h : Lay s v p) (h' : Lay s v q) : Lay s v (pair p q) where
  out i i' t := by
    rcases (h.out i i' t).elim with ⟨r, a, r', a', m, m', e, e', h1, rfl, rfl, h2, h3, h4⟩ | ⟨x, x', k, e, e', h1⟩ |
      ⟨x, x', e, e', _, _, h1⟩
    · rcases (h'.out r r' h1).elim with ⟨r2, b, r2', b', n, n', f, f', g1, rfl, rfl, g2, g3, g4⟩ | ⟨x, x', k, f, f', g1⟩ |
        ⟨x, x', f, f', _, _, g1⟩
      · rw [pair_eval e f, pair_eval e' f']
        refine .ok (m := m ++ n) (m' := m' ++ n') g1 (by simp) (by simp) ?_ (fun hs => by rw [h3 hs, g3 hs]) (fun hv => by rw [h4 hv, g4 hv])
        simp only [List.append_eq_nil_iff]
        exact and_congr h2 g2
      · rw [pair_stop2 e f, pair_stop2 e' f']; exact ⟨g1, rfl⟩
      · rw [pair_stop2 e f, pair_stop2 e' f']; exact g1 _ _ _ _
    · rw [pair_stop e, pair_stop e']; exact ⟨h1, rfl⟩
    · rw [pair_stop e, pair_stop e']; exact h1 _ _ _ _

theorem Lay.map (h : Lay s v p) (f : α → β) : Lay s v (map p f) where
  out i i' t := by
    rcases (h.out i i' t).elim with ⟨r, a, r', a', m, m', e, e', h1, h2, h3, h4, h5, h6⟩ | ⟨x, x', k, e, e', h1⟩ |
      ⟨x, x', e, e', _, _, h1⟩
    · rw [map_eval e, map_eval e']; exact .ok h1 h2 h3 h4 h5 (fun hv => by rw [h6 hv])
    · rw [map_stop e, map_stop e']; exact ⟨h1, rfl⟩
    · rw [map_stop e, map_stop e']; exact h1 _ _ _ _

/-- `map p` with a function that does not look at what may differ. -/
theorem Lay.map_of (h : Lay s false p) {f : α → β} {g : α → γ} (h' : Lay s true (NomSparql.map p g)) (hf : ∀ a a', g a = g a' → f a = f a') :
    Lay s v (NomSparql.map p f) where
  out i i' t := by
    rcases (h.out i i' t).elim with ⟨r, a, r', a', m, m', e, e', h1, h2, h3, h4, h5, _⟩ | ⟨x, x', k, e, e', h1⟩ |
      ⟨x, x', e, e', _, _, h1⟩
    · have := h'.out i i' t
      rw [map_eval e, map_eval e'] at this
      rw [map_eval e, map_eval e']; exact .ok h1 h2 h3 h4 h5 (fun _ => hf _ _ (this.2.2 rfl))
    · rw [map_stop e, map_stop e']; exact ⟨h1, rfl⟩
    · rw [map_stop e, map_stop e']; exact h1 _ _ _ _

theorem Lay.const (h : Lay s false p) (c : β) : Lay s v (NomSparql.map p (fun _ => c)) where
  out i i' t := by
    rcases (h.out i i' t).elim with ⟨r, a, r', a', m, m', e, e', h1, h2, h3, h4, h5, _⟩ | ⟨x, x', k, e, e', h1⟩ |
      ⟨x, x', e, e', _, _, h1⟩
    · rw [map_eval e, map_eval e']; exact .ok h1 h2 h3 h4 h5 (fun _ => rfl)
    · rw [map_stop e, map_stop e']; exact ⟨h1, rfl⟩
    · rw [map_stop e, map_stop e']; exact h1 _ _ _ _

theorem Lay.preceded (h : Lay s false p) (h' : Lay s v q) : Lay s v (preceded p q) where
  out i i' t := by
    rcases (h.out i i' t).elim with ⟨r, a, r', a', m, m', e, e', h1, rfl, rfl, h2, h3, h4⟩ | ⟨x, x', k, e, e', h1⟩ |
      ⟨x, x', e, e', _, _, h1⟩
    · rw [preceded_cont e, preceded_cont e']
      rcases (h'.out r r' h1).elim with ⟨r2, b, r2', b', n, n', f, f', g1, rfl, rfl, g2, g3, g4⟩ | ⟨x, x', k, f, f', g1⟩ |
        ⟨x, x', f, f', _, _, g1⟩
      · rw [f, f']
        refine .ok (m := m ++ n) (m' := m' ++ n') g1 (by simp) (by simp) ?_ (fun hs => by rw [h3 hs, g3 hs]) g4
        simp only [List.append_eq_nil_iff]
        exact and_congr h2 g2
      · rw [f, f']; exact ⟨g1, rfl⟩
      · rw [f, f']; exact g1 _ _ _ _
    · rw [preceded_stop e, preceded_stop e']; exact ⟨h1, rfl⟩
    · rw [preceded_stop e, preceded_stop e']; exact h1 _ _ _ _

theorem Lay.terminated (h : Lay s v p) (h' : Lay s false q) : Lay s v (terminated p q) where
  out i i' t := by
    rcases (h.out i i' t).elim with ⟨r, a, r', a', m, m', e, e', h1, rfl, rfl, h2, h3, h4⟩ | ⟨x, x', k, e, e', h1⟩ |
      ⟨x, x', e, e', _, _, h1⟩
    · rcases (h'.out r r' h1).elim with ⟨r2, b, r2', b', n, n', f, f', g1, rfl, rfl, g2, g3, g4⟩ | ⟨x, x', k, f, f', g1⟩ |
        ⟨x, x', f, f', _, _, g1⟩
      · rw [terminated_eval e f, terminated_eval e' f']
        refine .ok (m := m ++ n) (m' := m' ++ n') g1 (by simp) (by simp) ?_ (fun hs => by rw [h3 hs, g3 hs]) h4
        simp only [List.append_eq_nil_iff]
        exact and_congr h2 g2
      · rw [terminated_stop2 e f, terminated_stop2 e' f']; exact ⟨g1, rfl⟩
      · rw [terminated_stop2 e f, terminated_stop2 e' f']; exact g1 _ _ _ _
    · rw [terminated_stop e, terminated_stop e']; exact ⟨h1, rfl⟩
    · rw [terminated_stop e, terminated_stop e']; exact h1 _ _ _ _

theorem Lay.alt_cons {p' : P α} {ps : List (P α)} (h : Lay s v p) (h' : Lay s v (alt (p' :: ps))) :
    Lay s v (alt (p :: p' :: ps)) where
  out i i' t := by
    rcases (h.out i i' t).elim with ⟨r, a, r', a', m, m', e, e', h1, h2, h3, h4, h5, h6⟩ | ⟨x, x', k, e, e', h1⟩ |
      ⟨x, x', e, e', g1, g2, h1⟩
    · rw [alt_take e, alt_take e']; exact .ok h1 h2 h3 h4 h5 h6
    · rw [alt_skip e, alt_skip e']; exact h'.out _ _ t
    · rw [alt_hard e g1, alt_hard e' g2]; exact h1 _ _ _ _

theorem Lay.opt (h : Lay s v p) : Lay s v (opt p) where
  out i i' t := by
    rcases (h.out i i' t).elim with ⟨r, a, r', a', m, m', e, e', h1, h2, h3, h4, h5, h6⟩ | ⟨x, x', k, e, e', h1⟩ |
      ⟨x, x', e, e', g1, g2, h1⟩
    · rw [opt_eval e, opt_eval e']; exact .ok h1 h2 h3 h4 h5 (fun hv => by rw [h6 hv])
    · rw [opt_soft e, opt_soft e']; exact .read (m := []) t
    · rw [opt_hard e g1, opt_hard e' g2]; exact h1 _ _ _ _

theorem Lay.cut (h : Lay s v p) : Lay s v (cut p) where
  out i i' t := by
    have := h.out i i' t
    revert this
    unfold NomSparql.cut
    cases p i with
    | ok r a => cases p i' with
      | ok r' a' => exact fun h => h
      | err e' => intro h; cases h
    | err e => cases p i' with
      | ok r' a' => intro h; cases e <;> cases h
      | err e' => intro h; cases e <;> cases e' <;> first | exact h | cases h

theorem Lay.recognize (h : Lay true false p) : Lay s v (recognize p) where
  out i i' t := by
    have h := h.out i i' t
    revert h
    unfold NomSparql.recognize
    cases p i with
    | ok r a => cases p i' with
      | ok r' a' =>
        rintro ⟨h1, ⟨m, m', rfl, rfl, _, h5⟩, _⟩
        have := h5 rfl
        subst this
        refine .ok h1 rfl rfl Iff.rfl (fun _ => rfl) (fun _ => ?_)
        simp
      | err e' => intro h; cases h
    | err e => cases p i' with
      | ok r' a' => intro h; cases e <;> cases h
      | err e' => intro h; cases e <;> cases e' <;> exact h

theorem Lay.mapRes {f : α → Option β} (h : Lay s true p) : Lay s v (mapRes p f) where
  out i i' t := by
    have h := h.out i i' t
    revert h
    unfold NomSparql.mapRes
    cases p i with
    | ok r a => cases p i' with
      | ok r' a' =>
        rintro ⟨h1, h2, h3⟩
        have := h3 rfl
        subst this
        simp only
        cases f a with
        | some b => exact ⟨h1, h2, fun _ => rfl⟩
        | none => exact .error t
      | err e' => intro h; cases h
    | err e => cases p i' with
      | ok r' a' => intro h; cases e <;> cases h
      | err e' => intro h; cases e <;> cases e' <;> exact h

theorem app_self {m r : Str} : r = m ++ r ↔ m = [] := by
  constructor
  · intro h
    have := congrArg List.length h
    simp only [List.length_append] at this
    exact List.eq_nil_of_length_eq_zero (by omega)
  · rintro rfl; rfl

theorem Lay.manyLoop (h : Lay s v p) (kind : Kind) : ∀ n n' i i', Relaid i i' → i.length < n → i'.length < n' →
    LayRes s v i i' (manyLoop kind p n i) (manyLoop kind p n' i')
  | 0, _, _, _, _, hn, _ => by omega
  | _ + 1, 0, _, _, _, _, hn => by omega
  | n + 1, n' + 1, i, i', t, hn, hn' => by
    unfold NomSparql.manyLoop
    rcases (h.out i i' t).elim with ⟨r, a, r', a', m, m', e, e', h1, rfl, rfl, h2, h3, h4⟩ | ⟨x, x', k, e, e', h1⟩ |
      ⟨x, x', e, e', g1, g2, h1⟩
    · rw [e, e']
      simp only [app_self]
      by_cases hm : m = []
      · rw [if_pos hm, if_pos (h2.mp hm)]; exact .error t
      · have hm' : m' ≠ [] := fun e => hm (h2.mpr e)
        rw [if_neg hm, if_neg hm']
        have l1 := List.length_pos_iff.mpr hm
        have l2 := List.length_pos_iff.mpr hm'
        simp only [List.length_append] at hn hn'
        rcases (Lay.manyLoop h kind n n' r r' h1 (by omega) (by omega)).elim with
          ⟨r2, b, r2', b', k, k', f, f', g1, rfl, rfl, g2, g3, g4⟩ | ⟨x, x', k, f, f', g1⟩ | ⟨x, x', f, f', _, _, g1⟩
        · rw [f, f']
          refine .ok (m := m ++ k) (m' := m' ++ k') g1 (by simp) (by simp) (by simp [hm, hm']) (fun hs => by rw [h3 hs, g3 hs])
            (fun hv => by rw [h4 hv, g4 hv])
        · rw [f, f']; exact ⟨g1, rfl⟩
        · rw [f, f']; exact g1 _ _ _ _
    · rw [e, e']; exact .read (m := []) t
    · rw [e, e']
      cases x with
      | error p k => exact absurd rfl (g1 p k)
      | _ =>
        cases x' with
        | error p k => exact absurd rfl (g2 p k)
        | _ => exact h1 _ _ _ _

theorem Lay.many0 (h : Lay s v p) : Lay s v (many0 p) where
  out i i' t := h.manyLoop .Many0 _ _ i i' t (by omega) (by omega)

theorem Lay.many1 (h : Lay s v p) : Lay s v (many1 p) where
  out i i' t := by
    unfold NomSparql.many1
    rcases (h.out i i' t).elim with ⟨r, a, r', a', m, m', e, e', h1, rfl, rfl, h2, h3, h4⟩ | ⟨x, x', k, e, e', h1⟩ |
      ⟨x, x', e, e', _, _, h1⟩
    · rw [e, e']
      simp only
      rcases (h.manyLoop .Many1 (r.length + 1) (r'.length + 1) r r' h1 (by omega) (by omega)).elim with
          ⟨r2, b, r2', b', k, k', f, f', g1, rfl, rfl, g2, g3, g4⟩ | ⟨x, x', k, f, f', g1⟩ | ⟨x, x', f, f', _, _, g1⟩
      · rw [f, f']
        refine .ok (m := m ++ k) (m' := m' ++ k') g1 (by simp) (by simp) ?_ (fun hs => by rw [h3 hs, g3 hs])
            (fun hv => by rw [h4 hv, g4 hv])
        simp only [List.append_eq_nil_iff]
        exact and_congr h2 g2
      · rw [f, f']; exact ⟨g1, rfl⟩
      · rw [f, f']; exact g1 _ _ _ _
    · rw [e, e']; exact ⟨h1, rfl⟩
    · rw [e, e']; exact h1 _ _ _ _

theorem Lay.sepLoop {sep : P γ} (h0 : Lay s false sep) (h : Lay s v p) : ∀ n n' i i', Relaid i i' → i.length < n → i'.length < n' →
    LayRes s v i i' (sepLoop sep p n i) (sepLoop sep p n' i')
  | 0, _, _, _, _, hn, _ => by omega
  | _ + 1, 0, _, _, _, _, hn => by omega
  | n + 1, n' + 1, i, i', t, hn, hn' => by
    unfold NomSparql.sepLoop
    rcases (h0.out i i' t).elim with ⟨r, a, r', a', m, m', e, e', h1, rfl, rfl, h2, h3, _⟩ | ⟨x, x', k, e, e', h1⟩ |
      ⟨x, x', e, e', g1, g2, h1⟩
    · rw [e, e']
      simp only [app_self]
      by_cases hm : m = []
      · rw [if_pos hm, if_pos (h2.mp hm)]; exact .error h1
      · have hm' : m' ≠ [] := fun e => hm (h2.mpr e)
        rw [if_neg hm, if_neg hm']
        have l1 := List.length_pos_iff.mpr hm
        have l2 := List.length_pos_iff.mpr hm'
        simp only [List.length_append] at hn hn'
        rcases (h.out r r' h1).elim with ⟨r2, b, r2', b', k, k', f, f', g1, rfl, rfl, g2, g3, g4⟩ | ⟨x, x', k, f, f', g1⟩ |
          ⟨x, x', f, f', y1, y2, g1⟩
        · rw [f, f']
          simp only [List.length_append] at hn hn'
          have n1 : r2 ≠ m ++ (k ++ r2) := by
            intro h
            have := congrArg List.length h
            simp only [List.length_append] at this
            omega
          have n2 : r2' ≠ m' ++ (k' ++ r2') := by
            intro h
            have := congrArg List.length h
            simp only [List.length_append] at this
            omega
          simp only
          rw [if_neg n1, if_neg n2]
          rcases (Lay.sepLoop h0 h n n' r2 r2' g1 (by omega) (by omega)).elim with
            ⟨r3, c, r3', c', j, j', u, u', w1, rfl, rfl, w2, w3, w4⟩ | ⟨x, x', k, u, u', w1⟩ | ⟨x, x', u, u', _, _, w1⟩
          · rw [u, u']
            refine .ok (m := m ++ k ++ j) (m' := m' ++ k' ++ j') w1 (by simp) (by simp) (by simp [hm, hm'])
              (fun hs => by rw [h3 hs, g3 hs, w3 hs]) (fun hv => by rw [g4 hv, w4 hv])
          · rw [u, u']; exact ⟨w1, rfl⟩
          · rw [u, u']; exact w1 _ _ _ _
        · rw [f, f']; exact .read (m := []) t
        · rw [f, f']
          cases x with
          | error p k => exact absurd rfl (y1 p k)
          | _ =>
            cases x' with
            | error p k => exact absurd rfl (y2 p k)
            | _ => exact g1 _ _ _ _
    · rw [e, e']; exact .read (m := []) t
    · rw [e, e']
      cases x with
      | error p k => exact absurd rfl (g1 p k)
      | _ =>
        cases x' with
        | error p k => exact absurd rfl (g2 p k)
        | _ => exact h1 _ _ _ _

theorem Lay.separatedNonemptyList {sep : P γ} (h0 : Lay s false sep) (h : Lay s v p) : Lay s v (separatedNonemptyList sep p) where
  out i i' t := by
    unfold NomSparql.separatedNonemptyList
    rcases (h.out i i' t).elim with ⟨r, a, r', a', m, m', e, e', h1, rfl, rfl, h2, h3, h4⟩ | ⟨x, x', k, e, e', h1⟩ |
      ⟨x, x', e, e', _, _, h1⟩
    · rw [e, e']
      simp only [app_self]
      by_cases hm : m = []
      · rw [if_pos hm, if_pos (h2.mp hm)]; exact .error h1
      · have hm' : m' ≠ [] := fun e => hm (h2.mpr e)
        rw [if_neg hm, if_neg hm']
        rcases (Lay.sepLoop h0 h (r.length + 1) (r'.length + 1) r r' h1 (by omega) (by omega)).elim with
          ⟨r2, b, r2', b', k, k', f, f', g1, rfl, rfl, g2, g3, g4⟩ | ⟨x, x', k, f, f', g1⟩ | ⟨x, x', f, f', _, _, g1⟩
        · rw [f, f']
          refine .ok (m := m ++ k) (m' := m' ++ k') g1 (by simp) (by simp) (by simp [hm, hm']) (fun hs => by rw [h3 hs, g3 hs])
            (fun hv => by rw [h4 hv, g4 hv])
        · rw [f, f']; exact ⟨g1, rfl⟩
        · rw [f, f']; exact g1 _ _ _ _
    · rw [e, e']; exact ⟨h1, rfl⟩
    · rw [e, e']; exact h1 _ _ _ _

theorem Lay.separatedList {sep : P γ} (h0 : Lay s false sep) (h : Lay s v p) : Lay s v (separatedList sep p) where
  out i i' t := by
    unfold NomSparql.separatedList
    rcases (h.out i i' t).elim with ⟨r, a, r', a', m, m', e, e', h1, rfl, rfl, h2, h3, h4⟩ | ⟨x, x', k, e, e', h1⟩ |
      ⟨x, x', e, e', y1, y2, h1⟩
    · rw [e, e']
      simp only [app_self]
      by_cases hm : m = []
      · rw [if_pos hm, if_pos (h2.mp hm)]; exact .error h1
      · have hm' : m' ≠ [] := fun e => hm (h2.mpr e)
        rw [if_neg hm, if_neg hm']
        rcases (Lay.sepLoop h0 h (r.length + 1) (r'.length + 1) r r' h1 (by omega) (by omega)).elim with
          ⟨r2, b, r2', b', k, k', f, f', g1, rfl, rfl, g2, g3, g4⟩ | ⟨x, x', k, f, f', g1⟩ | ⟨x, x', f, f', _, _, g1⟩
        · rw [f, f']
          refine .ok (m := m ++ k) (m' := m' ++ k') g1 (by simp) (by simp) (by simp [hm, hm']) (fun hs => by rw [h3 hs, g3 hs])
            (fun hv => by rw [h4 hv, g4 hv])
        · rw [f, f']; exact ⟨g1, rfl⟩
        · rw [f, f']; exact g1 _ _ _ _
    · rw [e, e']; exact .read (m := []) t
    · rw [e, e']
      cases x with
      | error p k => exact absurd rfl (y1 p k)
      | _ =>
        cases x' with
        | error p k => exact absurd rfl (y2 p k)
        | _ => exact h1 _ _ _ _

end

/-! ## Combinators -/

section
variable {p : P α} {q : P β} {s v : Bool}

instance (priority := 30) [h : Lay s true p] : Lay s false p := h.drop
instance [h : Lay s v p] [h' : Lay s v q] : Lay s v (pair p q) := h.pair h'
instance (priority := 900) {f : α → β} [h : Lay s v p] : Lay s v (map p f) := h.map f
instance {c : β} [h : Lay s false p] : Lay s v (map p (fun _ => c)) := h.const c
instance [h : Lay s false p] [h' : Lay s v q] : Lay s v (preceded p q) := h.preceded h'
instance [h : Lay s v p] [h' : Lay s false q] : Lay s v (terminated p q) := h.terminated h'
instance [h : Lay s v p] : Lay s v (alt [p]) := h
instance {p' : P α} {ps : List (P α)} [h : Lay s v p] [h' : Lay s v (alt (p' :: ps))] : Lay s v (alt (p :: p' :: ps)) := h.alt_cons h'
instance [h : Lay s v p] : Lay s v (opt p) := h.opt
instance [h : Lay s v p] : Lay s v (cut p) := h.cut
instance [h : Lay true false p] : Lay s v (recognize p) := h.recognize
instance {f : α → Option β} [h : Lay s true p] : Lay s v (mapRes p f) := h.mapRes
instance [h : Lay s v p] : Lay s v (many0 p) := h.many0
instance [h : Lay s v p] : Lay s v (many1 p) := h.many1
instance {sep : P γ} [h0 : Lay s false sep] [h : Lay s v p] : Lay s v (separatedList sep p) := h0.separatedList h
instance {sep : P γ} [h0 : Lay s false sep] [h : Lay s v p] : Lay s v (separatedNonemptyList sep p) := h0.separatedNonemptyList h
instance {r : P γ} [h : Lay s v (preceded p (terminated q r))] : Lay s v (delimited p q r) := h
instance {r : P γ} [h : Lay s v (pair p (pair q r))] : Lay s v (tuple3 p q r) := h
instance {r : P γ} {u : P δ} [h : Lay s v (pair p (pair q (pair r u)))] : Lay s v (tuple4 p q r u) := h
instance {r : P γ} {u : P δ} {w : P ε} [h : Lay s v (pair p (pair q (pair r (pair u w))))] : Lay s v (tuple5 p q r u w) := h
instance {r : P γ} [h : Lay s v (pair p (preceded r q))] : Lay s v (separatedPair p r q) := h

end

end NomSparql
