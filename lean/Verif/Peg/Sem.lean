import Verif.Peg.Meta

/-!
# A relational reading of parser expressions

`sem I p sk t a r` over-approximates "`p`, with the skipper active iff `sk`, consumes the text `t` in
front of the rest `r` and yields `a`", where `I` is assumed of the recursive rules.  Priorities of
choices, greediness and negative look-ahead are forgotten, except that what is inside a lexeme is also
known to be what the parser did with some meaning of the recursive rules; everything else is kept.  Invariants of
the grammar are proved by showing that `I` is inherited from the calls of a rule to the rule.
-/

namespace Adql

variable {N : Type} {A : N → Type}

/-- `b` is what a pre-skip may consume. -/
def Blank (sk : Bool) (b : Str) : Prop := (∀ c ∈ b, isSpace c = true) ∧ (sk = false → b = [])

/-- The text `t` is accepted by the literal `w`. -/
def LitOK (ci : Bool) (w t : Str) : Prop :=
  if ci then t.map lowerC = w.map lowerC else t = w

/-- Repetition of a relation. -/
inductive SemStar {α : Type} (R : Str → α → Str → Prop) : Str → List α → Str → Prop
  | nil {r} : SemStar R [] [] r
  | cons {t a u as r} : R t a (u ++ r) → SemStar R u as r → SemStar R (t ++ u) (a :: as) r

/-- The relational reading. -/
def sem (I : (n : N) → Bool → Str → A n → Str → Prop) :
    {α : Type} → P A α → Bool → Str → α → Str → Prop
  | _, .pure a, _, t, x, _ => t = [] ∧ x = a
  | _, .chr f, sk, t, c, _ => ∃ b, t = b ++ [c] ∧ Blank sk b ∧ f c = true
  | _, .lit ci w, sk, t, x, _ => ∃ b, t = b ++ x ∧ Blank sk b ∧ LitOK ci w x
  | _, .seq p q, sk, t, x, r =>
    ∃ t₁ t₂, t = t₁ ++ t₂ ∧ sem I p sk t₁ x.1 (t₂ ++ r) ∧ sem I q sk t₂ x.2 r
  | _, .alt p q, sk, t, x, r => sem I p sk t x r ∨ sem I q sk t x r
  | _, .star p, sk, t, x, r => SemStar (fun t a r => sem I p sk t a r) t x r
  | _, .notP _, _, t, _, _ => t = []
  | _, .andP p, sk, t, x, r => t = [] ∧ ∃ t' r', r = t' ++ r' ∧ sem I p sk t' x r'
  | _, .expect _ p, sk, t, x, r => sem I p sk t x r
  | _, .map f p, sk, t, x, r => ∃ a, x = f a ∧ sem I p sk t a r
  | _, .act f p, sk, t, x, r => ∃ a, f a = .ok x ∧ sem I p sk t a r
  | _, .lexeme p, sk, t, x, r => ∃ b t', t = b ++ t' ∧ Blank sk b ∧ sem I p false t' x r ∧
      ∃ rec, step rec p false (t' ++ r) = .ok x r
  | _, .noskip p, _, t, x, r => sem I p false t x r
  | _, .nt n, sk, t, x, r => I n sk t x r

theorem blank_nil (sk : Bool) : Blank sk [] := ⟨by simp, fun _ => rfl⟩

@[simp] theorem blank_false {b : Str} : Blank false b ↔ b = [] :=
  ⟨fun h => h.2 rfl, fun h => h ▸ blank_nil _⟩

theorem Blank.append {sk : Bool} {a b : Str} (h : Blank sk a) (h' : Blank sk b) :
    Blank sk (a ++ b) := by
  refine ⟨fun c hc => ?_, fun hs => by simp [h.2 hs, h'.2 hs]⟩
  rcases List.mem_append.1 hc with hc | hc
  · exact h.1 c hc
  · exact h'.1 c hc

theorem takeWhile_all (f : Char → Bool) : ∀ (s : Str), ∀ c ∈ s.takeWhile f, f c = true
  | [], c, h => by simp at h
  | d :: s, c, h => by
    rw [List.takeWhile_cons] at h
    split at h
    · rcases List.mem_cons.1 h with rfl | h
      · assumption
      · exact takeWhile_all f s c h
    · simp at h

theorem skip_blank (sk : Bool) (s : Str) : ∃ b, s = b ++ skip sk s ∧ Blank sk b := by
  cases sk with
  | false => exact ⟨[], rfl, blank_nil _⟩
  | true =>
    refine ⟨s.takeWhile isSpace, ?_, ?_, by simp⟩
    · simp only [skip, if_true]; exact List.takeWhile_append_dropWhile.symm
    · exact takeWhile_all isSpace s

theorem matchLit_ok {ci : Bool} : ∀ {w s t r : Str},
    matchLit ci w s = some (t, r) → s = t ++ r ∧ LitOK ci w t
  | [], s, t, r, h => by simp [matchLit] at h; obtain ⟨rfl, rfl⟩ := h; simp [LitOK]
  | c :: w, [], t, r, h => by simp [matchLit] at h
  | c :: w, d :: s, t, r, h => by
    simp only [matchLit] at h
    split at h
    · rename_i hc
      split at h
      · rename_i t' r' h'
        simp at h; obtain ⟨rfl, rfl⟩ := h
        obtain ⟨h1, h2⟩ := matchLit_ok h'
        refine ⟨by rw [h1]; rfl, ?_⟩
        cases ci with
        | false => simp at hc; simp [LitOK] at h2 ⊢; exact ⟨hc.symm, h2⟩
        | true =>
          simp [LitOK] at h2 ⊢
          refine ⟨?_, h2⟩
          simp at hc
          rcases hc with hc | hc
          · rw [hc]
          · exact hc.symm
      · simp at h
    · simp at h

theorem Iter.semStar {α : Type} {f : Str → Res α} {R : Str → α → Str → Prop}
    (hf : ∀ s a r, f s = .ok a r → ∃ t, s = t ++ r ∧ R t a r) {s r : Str} {as : List α}
    (h : Iter f s as r) : ∃ t, s = t ++ r ∧ SemStar R t as r := by
  induction h with
  | nil _ => exact ⟨[], rfl, .nil⟩
  | cons h _ _ ih =>
    obtain ⟨u, rfl, h2⟩ := ih
    obtain ⟨t, rfl, h1⟩ := hf _ _ _ h
    exact ⟨t ++ u, by simp, .cons h1 h2⟩

/-- Soundness of the relational reading. -/
theorem step_sem {rec : (n : N) → Bool → Str → Res (A n)}
    {I : (n : N) → Bool → Str → A n → Str → Prop}
    (hrec : ∀ n sk s a r, rec n sk s = .ok a r → ∃ t, s = t ++ r ∧ I n sk t a r)
    {α : Type} (p : P A α) :
    ∀ sk s a r, step rec p sk s = .ok a r → ∃ t, s = t ++ r ∧ sem I p sk t a r := by
  induction p with
  | pure a =>
    intro sk s x r h; rw [step_pure_ok] at h; exact ⟨[], by simp [h.2], rfl, h.1⟩
  | chr f =>
    intro sk s a r h
    rw [step_chr_ok] at h
    obtain ⟨b, h1, h2⟩ := skip_blank sk s
    exact ⟨b ++ [a], by rw [h1, h.1]; simp, b, rfl, h2, h.2⟩
  | lit ci w =>
    intro sk s t r h
    rw [step_lit_ok] at h
    obtain ⟨b, h1, h2⟩ := skip_blank sk s
    obtain ⟨h3, h4⟩ := matchLit_ok h
    exact ⟨b ++ t, by rw [h1, h3]; simp, b, rfl, h2, h4⟩
  | seq p q ihp ihq =>
    intro sk s a r h
    rw [step_seq_ok] at h
    obtain ⟨t, h1, h2⟩ := h
    obtain ⟨u, rfl, hu⟩ := ihq _ _ _ _ h2
    obtain ⟨v, rfl, hv⟩ := ihp _ _ _ _ h1
    exact ⟨v ++ u, by simp, v, u, rfl, hv, hu⟩
  | alt p q ihp ihq =>
    intro sk s a r h
    rw [step_alt_ok] at h
    rcases h with h | ⟨-, h⟩
    · obtain ⟨t, h1, h2⟩ := ihp _ _ _ _ h; exact ⟨t, h1, .inl h2⟩
    · obtain ⟨t, h1, h2⟩ := ihq _ _ _ _ h; exact ⟨t, h1, .inr h2⟩
  | star p ih =>
    intro sk s a r h
    rw [step_star_ok] at h
    exact h.semStar (fun s a r h => ih sk s a r h)
  | notP p ih =>
    intro sk s a r h; rw [step_notP_ok] at h; exact ⟨[], by simp [h.2], rfl⟩
  | andP p ih =>
    intro sk s a r h; rw [step_andP_ok] at h
    obtain ⟨⟨r', h⟩, rfl⟩ := h
    obtain ⟨t', h1, h2⟩ := ih _ _ _ _ h
    exact ⟨[], rfl, rfl, t', r', h1, h2⟩
  | expect w p ih => intro sk s a r h; rw [step_expect_ok] at h; exact ih _ _ _ _ h
  | map f p ih =>
    intro sk s a r h; rw [step_map_ok] at h
    obtain ⟨x, h, rfl⟩ := h
    obtain ⟨t, h1, h2⟩ := ih _ _ _ _ h
    exact ⟨t, h1, x, rfl, h2⟩
  | act f p ih =>
    intro sk s a r h; rw [step_act_ok] at h
    obtain ⟨x, h, hf⟩ := h
    obtain ⟨t, h1, h2⟩ := ih _ _ _ _ h
    exact ⟨t, h1, x, hf, h2⟩
  | lexeme p ih =>
    intro sk s a r h
    obtain ⟨b, h1, h2⟩ := skip_blank sk s
    obtain ⟨t, h3, h4⟩ := ih false (skip sk s) a r h
    exact ⟨b ++ t, by rw [h1, h3]; simp, b, t, rfl, h2, h4, rec, by rw [← h3]; exact h⟩
  | noskip p ih => intro sk s a r h; exact ih false s a r h
  | nt n => intro sk s a r h; exact hrec n sk s a r h

/-- The induction principle: a property of the rules that is inherited holds of every run. -/
theorem run_sem {g : (n : N) → P A (A n)} {I : (n : N) → Bool → Str → A n → Str → Prop}
    (hI : ∀ n sk t a r, sem I (g n) sk t a r → I n sk t a r) :
    ∀ f n sk s a r, run g f n sk s = .ok a r → ∃ t, s = t ++ r ∧ I n sk t a r
  | 0, _, _, _, _, _, h => by simp [run] at h
  | f + 1, n, sk, s, a, r, h => by
    obtain ⟨t, h1, h2⟩ := step_sem (run_sem hI f) (g n) sk s a r h
    exact ⟨t, h1, hI n sk t a r h2⟩

theorem den_sem {g : (n : N) → P A (A n)} {k : Nat} {I : (n : N) → Bool → Str → A n → Str → Prop}
    (hI : ∀ n sk t a r, sem I (g n) sk t a r → I n sk t a r) (n : N) (sk : Bool) (s : Str)
    (a : A n) (r : Str) (h : den g k n sk s = .ok a r) : ∃ t, s = t ++ r ∧ I n sk t a r :=
  run_sem hI _ n sk s a r h

end Adql
