import Verif.Spec.Render
import Verif.Props.C17_C23

/-!
# What an accepted text looks like

`Sound p R`: whenever `p` accepts, the consumed text `c` spells the returned value: `R a c`.
`SoundL p L` is the same for parsers whose value is thrown away.
-/

namespace NomSparql

class Sound (p : P α) (R : outParam (α → Lang)) : Prop where
  out : ∀ {i r a}, p i = .ok r a → ∃ c, i = c ++ r ∧ R a c

class SoundL (p : P α) (L : outParam Lang) : Prop where
  out : ∀ {i r a}, p i = .ok r a → ∃ c, i = c ++ r ∧ L c

theorem Sound.mono {p : P α} {R R' : α → Lang} (h : Sound p R) (hm : ∀ a s, R a s → R' a s) : Sound p R' where
  out e := by obtain ⟨c, h1, h2⟩ := h.out e; exact ⟨c, h1, hm _ _ h2⟩

theorem mono_alt {R S T : α → Lang} (h : ∀ a s, R a s → T a s) (h' : ∀ a s, S a s → T a s) :
    ∀ a s, (R a s ∨ S a s) → T a s := fun a s => fun | .inl x => h a s x | .inr x => h' a s x

theorem mono_map {R : α → Lang} {f : α → β} {T : β → Lang} (h : ∀ a s, R a s → T (f a) s) :
    ∀ b s, (∃ a, f a = b ∧ R a s) → T b s := by
  rintro _ s ⟨a, rfl, x⟩; exact h a s x

theorem Lang.seq_assoc (A B C : Lang) : (A ⬝ B) ⬝ C = A ⬝ B ⬝ C := by
  funext s; apply propext
  constructor
  · rintro ⟨_, c, rfl, ⟨a, b, rfl, ha, hb⟩, hc⟩
    exact ⟨a, b ++ c, by simp, ha, b, c, rfl, hb, hc⟩
  · rintro ⟨a, _, rfl, ha, b, c, rfl, hb, hc⟩
    exact ⟨a ++ b, c, by simp, ⟨a, b, rfl, ha, hb⟩, hc⟩

theorem Lang.eps_seq (A : Lang) : eps ⬝ A = A := by
  funext s; apply propext
  constructor
  · rintro ⟨_, b, rfl, rfl, h⟩; exact h
  · intro h; exact ⟨[], s, rfl, rfl, h⟩

theorem Lang.seq_eps (A : Lang) : A ⬝ eps = A := by
  funext s; apply propext
  constructor
  · rintro ⟨a, _, rfl, h, rfl⟩; simpa using h
  · intro h; exact ⟨s, [], by simp, h, rfl⟩

theorem Lang.seq_mono {A A' B B' : Lang} (h : ∀ s, A s → A' s) (h' : ∀ s, B s → B' s) :
    ∀ s, (A ⬝ B) s → (A' ⬝ B') s := by
  rintro _ ⟨a, b, rfl, ha, hb⟩; exact ⟨a, b, rfl, h _ ha, h' _ hb⟩

/-- `rsound [defs]`: reduces a claim about alternatives and `map`s to its leaves and closes those up to
associativity, unfolding `defs`. -/
syntax "rsound" (" [" Lean.Parser.Tactic.simpLemma,* "]")? : tactic
macro_rules
  | `(tactic| rsound) => `(tactic| rsound [id])
  | `(tactic| rsound [$ts,*]) => `(tactic| (
      repeat' (first | with_reducible refine mono_alt ?_ ?_ | with_reducible refine mono_map ?_)
      all_goals first
        | exact fun _ _ h => h
        | exact fun _ _ h => ⟨_, by simp, h⟩
        | (intro _ _ h; simp only [Lang.seq_assoc, commaL, enc, enc1, paren, call] at h; exact h)
        | (intro _ _ h; simpa only [Lang.seq_assoc, commaL, enc, enc1, paren, call, $ts,*] using h)))

/-! ## Combinators -/

section
variable {p : P α} {q : P β} {R : α → Lang} {Q : β → Lang} {L M N : Lang}

instance {f : α → β} [h : Sound p R] : Sound (map p f) (fun b s => ∃ a, f a = b ∧ R a s) where
  out e := by
    obtain ⟨a, e', rfl⟩ := map_ok.mp e
    obtain ⟨c, h1, h2⟩ := h.out e'
    exact ⟨c, h1, a, rfl, h2⟩

instance [h : Sound p R] [h' : Sound q Q] : Sound (pair p q) (fun x => R x.1 ⬝ Q x.2) where
  out e := by
    obtain ⟨r1, e1, e2⟩ := pair_ok e
    obtain ⟨c, rfl, h1⟩ := h.out e1
    obtain ⟨d, rfl, h2⟩ := h'.out e2
    exact ⟨c ++ d, by simp, c, d, rfl, h1, h2⟩

instance [h : SoundL p L] [h' : Sound q Q] : Sound (preceded p q) (fun x => L ⬝ Q x) where
  out e := by
    obtain ⟨r1, a, e1, e2⟩ := preceded_ok.mp e
    obtain ⟨c, rfl, h1⟩ := h.out e1
    obtain ⟨d, rfl, h2⟩ := h'.out e2
    exact ⟨c ++ d, by simp, c, d, rfl, h1, h2⟩

instance [h : Sound p R] [h' : SoundL q L] : Sound (terminated p q) (fun x => R x ⬝ L) where
  out e := by
    obtain ⟨r1, a, e1, e2⟩ := terminated_ok.mp e
    obtain ⟨c, rfl, h1⟩ := h.out e1
    obtain ⟨d, rfl, h2⟩ := h'.out e2
    exact ⟨c ++ d, by simp, c, d, rfl, h1, h2⟩

instance {s : P γ} [SoundL p L] [Sound q Q] [SoundL s M] :
    Sound (delimited p q s) (fun x => L ⬝ Q x ⬝ M) := by unfold delimited; infer_instance

instance {s : P γ} [Sound p R] [SoundL s M] [Sound q Q] :
    Sound (separatedPair p s q) (fun x => R x.1 ⬝ M ⬝ Q x.2) := by unfold separatedPair; infer_instance

instance {s : P γ} {S : γ → Lang} [Sound p R] [Sound q Q] [Sound s S] :
    Sound (tuple3 p q s) (fun x => R x.1 ⬝ Q x.2.1 ⬝ S x.2.2) := by unfold tuple3; infer_instance

instance {s : P γ} {t : P δ} {S : γ → Lang} {T : δ → Lang} [Sound p R] [Sound q Q] [Sound s S]
    [Sound t T] : Sound (tuple4 p q s t) (fun x => R x.1 ⬝ Q x.2.1 ⬝ S x.2.2.1 ⬝ T x.2.2.2) := by
  unfold tuple4; infer_instance

instance {s : P γ} {t : P δ} {u : P ε} {S : γ → Lang} {T : δ → Lang} {U : ε → Lang}
    [Sound p R] [Sound q Q] [Sound s S] [Sound t T] [Sound u U] :
    Sound (tuple5 p q s t u)
      (fun x => R x.1 ⬝ Q x.2.1 ⬝ S x.2.2.1 ⬝ T x.2.2.2.1 ⬝ U x.2.2.2.2) := by
  unfold tuple5; infer_instance

instance [h : Sound p R] : Sound (opt p) (rOpt R) where
  out e := by
    rcases opt_ok.mp e with ⟨a, rfl, e'⟩ | ⟨rfl, rfl, _⟩
    · exact h.out e'
    · exact ⟨[], rfl, rfl⟩

instance [h : Sound p R] : Sound (cut p) R where
  out e := h.out (cut_ok.mp e)

instance [h : Sound p R] : Sound (alt [p]) R where
  out e := h.out e

instance {S : α → Lang} {p' : P α} {ps : List (P α)} [h : Sound p R] [h' : Sound (alt (p' :: ps)) S] :
    Sound (alt (p :: p' :: ps)) (fun a s => R a s ∨ S a s) where
  out e := by
    rcases alt_two_ok.mp e with e' | ⟨_, e'⟩
    · obtain ⟨c, h1, h2⟩ := h.out e'; exact ⟨c, h1, .inl h2⟩
    · obtain ⟨c, h1, h2⟩ := h'.out e'; exact ⟨c, h1, .inr h2⟩

theorem manyRun_sound [h : Sound p R] {i r as} (hr : ManyRun p i r as) : ∃ c, i = c ++ r ∧ Many R as c := by
  induction hr with
  | stop _ => exact ⟨[], rfl, rfl⟩
  | step e _ _ ih =>
    obtain ⟨c, h1, h2⟩ := h.out e
    obtain ⟨d, rfl, h3⟩ := ih
    exact ⟨c ++ d, by rw [h1]; simp, c, d, rfl, h2, h3⟩

instance [Sound p R] : Sound (many0 p) (Many R) where
  out e := manyRun_sound (manyLoop_run e)

theorem many1_run {i r as} (e : many1 p i = .ok r as) : ∃ a as' j, as = a :: as' ∧ p i = .ok j a ∧ ManyRun p j r as' := by
  unfold many1 at e
  split at e
  · cases e
  · rename_i j a e1
    split at e
    · rename_i e2; cases e; exact ⟨_, _, _, rfl, e1, manyLoop_run e2⟩
    · cases e

instance [h : Sound p R] : Sound (many1 p) (Many1 R) where
  out e := by
    obtain ⟨a, as', j, rfl, e1, e2⟩ := many1_run e
    obtain ⟨c, rfl, h1⟩ := h.out e1
    obtain ⟨d, rfl, h2⟩ := manyRun_sound e2
    exact ⟨c ++ d, by simp, c, d, rfl, h1, h2⟩

theorem sepRun_sound {sep : P σ} [hs : SoundL sep L] [h : Sound p R] {i r as} (hr : SepRun sep p i r as) :
    ∃ c, i = c ++ r ∧ Many (fun b => L ⬝ R b) as c := by
  induction hr with
  | stopSep _ => exact ⟨[], rfl, rfl⟩
  | stopElem _ _ _ => exact ⟨[], rfl, rfl⟩
  | step e1 _ e2 _ _ ih =>
    obtain ⟨b, h1, h2⟩ := hs.out e1
    obtain ⟨c, rfl, h4⟩ := h.out e2
    obtain ⟨d, rfl, h5⟩ := ih
    exact ⟨(b ++ c) ++ d, by rw [h1]; simp, b ++ c, d, rfl, ⟨b, c, rfl, h2, h4⟩, h5⟩

theorem separatedNonemptyList_run {sep : P σ} {i r as} (e : separatedNonemptyList sep p i = .ok r as) :
    ∃ a as' j, as = a :: as' ∧ p i = .ok j a ∧ SepRun sep p j r as' := by
  unfold separatedNonemptyList at e
  split at e
  · cases e
  · rename_i j a e1
    split at e
    · cases e
    · split at e
      · rename_i e2; cases e; exact ⟨_, _, _, rfl, e1, sepLoop_run e2⟩
      · cases e

theorem separatedList_run {sep : P σ} {i r as} (e : separatedList sep p i = .ok r as) :
    (as = [] ∧ r = i) ∨ ∃ a as' j, as = a :: as' ∧ p i = .ok j a ∧ SepRun sep p j r as' := by
  unfold separatedList at e
  split at e
  · cases e; exact .inl ⟨rfl, rfl⟩
  · cases e
  · rename_i j a e1
    split at e
    · cases e
    · split at e
      · rename_i e2; cases e; exact .inr ⟨_, _, _, rfl, e1, sepLoop_run e2⟩
      · cases e

instance {sep : P σ} [SoundL sep L] [h : Sound p R] : Sound (separatedNonemptyList sep p) (Sep1 L R) where
  out e := by
    obtain ⟨a, as', j, rfl, e1, e2⟩ := separatedNonemptyList_run e
    obtain ⟨c, rfl, h1⟩ := h.out e1
    obtain ⟨d, rfl, h2⟩ := sepRun_sound e2
    exact ⟨c ++ d, by simp, c, d, rfl, h1, h2⟩

instance {sep : P σ} [SoundL sep L] [h : Sound p R] : Sound (separatedList sep p) (Sep0 L R) where
  out e := by
    rcases separatedList_run e with ⟨rfl, rfl⟩ | ⟨a, as', j, rfl, e1, e2⟩
    · exact ⟨[], rfl, rfl⟩
    obtain ⟨c, rfl, h1⟩ := h.out e1
    obtain ⟨d, rfl, h2⟩ := sepRun_sound e2
    exact ⟨c ++ d, by simp, c, d, rfl, h1, h2⟩

/-! ## Value-ignoring versions -/

instance [h : SoundL p L] [h' : SoundL q M] : SoundL (pair p q) (L ⬝ M) where
  out e := by
    obtain ⟨r1, e1, e2⟩ := pair_ok e
    obtain ⟨c, rfl, h1⟩ := h.out e1
    obtain ⟨d, rfl, h2⟩ := h'.out e2
    exact ⟨c ++ d, by simp, c, d, rfl, h1, h2⟩

instance {f : α → β} [h : SoundL p L] : SoundL (map p f) L where
  out e := by obtain ⟨a, e', rfl⟩ := map_ok.mp e; exact h.out e'

instance [SoundL p L] [SoundL q M] : SoundL (preceded p q) (L ⬝ M) := by unfold preceded; infer_instance
instance [SoundL p L] [SoundL q M] : SoundL (terminated p q) (L ⬝ M) := by unfold terminated; infer_instance
instance {s : P γ} [SoundL p L] [SoundL q M] [SoundL s N] : SoundL (delimited p q s) (L ⬝ M ⬝ N) := by
  unfold delimited; infer_instance
instance {s : P γ} [SoundL p L] [SoundL q M] [SoundL s N] : SoundL (tuple3 p q s) (L ⬝ M ⬝ N) := by
  unfold tuple3; infer_instance

instance [h : SoundL p L] : SoundL (opt p) (fun s => s = [] ∨ L s) where
  out e := by
    rcases opt_ok.mp e with ⟨a, rfl, e'⟩ | ⟨rfl, rfl, _⟩
    · obtain ⟨c, h1, h2⟩ := h.out e'; exact ⟨c, h1, .inr h2⟩
    · exact ⟨[], rfl, .inl rfl⟩

theorem manyRun_soundL [h : SoundL p L] {i r as} (hr : ManyRun p i r as) : ∃ c, i = c ++ r ∧ Star L c := by
  induction hr with
  | stop _ => exact ⟨[], rfl, .nil⟩
  | step e _ _ ih =>
    obtain ⟨c, h1, h2⟩ := h.out e
    obtain ⟨d, rfl, h3⟩ := ih
    exact ⟨c ++ d, by rw [h1]; simp, .cons h2 h3⟩

instance [SoundL p L] : SoundL (many0 p) (Star L) where
  out e := manyRun_soundL (manyLoop_run e)

instance [h : SoundL p L] : SoundL (many1 p) (Plus L) where
  out e := by
    obtain ⟨a, as', j, rfl, e1, e2⟩ := many1_run e
    obtain ⟨c, rfl, h1⟩ := h.out e1
    obtain ⟨d, rfl, h2⟩ := manyRun_soundL e2
    exact ⟨c ++ d, by simp, c, d, rfl, h1, h2⟩

instance : SoundL sp Ws where
  out e := by obtain ⟨h1, h2, _⟩ := sp_ok_iff.mp e; exact ⟨_, h1, h2⟩
instance : SoundL sp1 Ws1 where
  out e := by obtain ⟨h1, h2, _⟩ := sp1_ok_iff.mp e; exact ⟨_, h1, h2⟩
instance {c} : SoundL (char c) (lit [c]) where
  out e := by obtain ⟨_, h⟩ := char_ok.mp e; exact ⟨[c], h, rfl⟩
instance {t} : SoundL (tag t) (lit t) where
  out e := by obtain ⟨_, h⟩ := tag_ok.mp e; exact ⟨t, h, rfl⟩
instance {t} [KwTag t] : SoundL (tagNoCase t) (kw t) where
  out e := by obtain ⟨h, h'⟩ := tagNoCase_ok_iff.mp e; exact ⟨_, h, h'⟩
instance {t} [KwTag t] : SoundL (tagNoCaseStreaming t) (kw t) where
  out e := by obtain ⟨h, h'⟩ := tagNoCaseStreaming_ok_iff.mp e; exact ⟨_, h, h'⟩

instance [SoundL p L] : SoundL (spEnc p) (enc L) := by
  unfold spEnc enc; infer_instance
instance [SoundL p L] : SoundL (spEnc1 p) (enc1 L) := by
  unfold spEnc1 enc1; infer_instance

instance : Sound sp (fun _ => Ws) := ⟨SoundL.out⟩
instance : Sound sp1 (fun _ => Ws1) := ⟨SoundL.out⟩
instance {c} : Sound (char c) (fun _ => lit [c]) := ⟨SoundL.out⟩
instance {t} : Sound (tag t) (fun _ => lit t) := ⟨SoundL.out⟩
instance {t} [KwTag t] : Sound (tagNoCase t) (fun _ => kw t) := ⟨SoundL.out⟩

/-! ## The crate's own combinators -/

instance [Sound p R] : Sound (bracketted p) (fun a => paren (R a)) := by
  unfold bracketted paren; infer_instance
instance {t} [KwTag t] [h : Sound p R] : Sound (precededTag1 t p) (fun a => kw t ⬝ Ws1 ⬝ R a) := by
  unfold precededTag1
  refine Sound.mono inferInstance ?_
  rsound
instance {t} [KwTag t] [h : Sound p R] : Sound (precededTag t p) (fun a => kw t ⬝ Ws ⬝ R a) := by
  unfold precededTag
  refine Sound.mono inferInstance ?_
  rsound
instance {t} [KwTag t] [h : Sound p R] : Sound (precededBracketted t p) (fun a => call t (R a)) := by
  unfold precededBracketted call; infer_instance
instance [Sound p R] : Sound (spEnc p) (fun a => enc (R a)) := by
  unfold spEnc enc; infer_instance
instance [Sound p R] : Sound (spEnc1 p) (fun a => enc1 (R a)) := by
  unfold spEnc1 enc1; infer_instance
instance [Sound p R] [Sound q Q] : Sound (spSep p q) (fun x => R x.1 ⬝ Ws ⬝ Q x.2) := by
  unfold spSep; infer_instance
instance [Sound p R] [Sound q Q] : Sound (spSep1 p q) (fun x => R x.1 ⬝ Ws1 ⬝ Q x.2) := by
  unfold spSep1; infer_instance

instance : SoundL comma commaL := by unfold comma commaL; infer_instance

end

end NomSparql
