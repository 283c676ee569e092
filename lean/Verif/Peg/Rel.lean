import Verif.Peg.Meta

/-!
# Comparing two runs, and where errors come from
-/

namespace Adql

variable {N : Type} {A : N → Type}

/-! ### Two interpretations of the recursive rules -/

/-- `x` and `y` are the same result, or `x` is an excused error. -/
def Agree (X : Err → Prop) {α : Type} (x y : Res α) : Prop :=
  x = y ∨ ∃ e, X e ∧ x = .err e

theorem starLoop_agree {X : Err → Prop} {S : Str → Prop} (hS : ∀ s t, t <:+ s → S s → S t)
    {α : Type} {f f' : Str → Res α} (hsuf : ∀ s a r, f s = .ok a r → r <:+ s)
    (h : ∀ s, S s → Agree X (f s) (f' s)) :
    ∀ n s, S s → Agree X (starLoop f n s) (starLoop f' n s)
  | 0, s, _ => .inl rfl
  | n + 1, s, hs => by
    unfold starLoop
    rcases h s hs with h1 | ⟨e, he, h1⟩
    · rw [← h1]
      cases hfs : f s with
      | ok a r =>
        simp only
        split
        · rcases starLoop_agree hS hsuf h n r (hS s r (hsuf s a r hfs) hs) with h2 | ⟨e, he, h2⟩
          · rw [h2]; exact .inl rfl
          · rw [h2]; exact .inr ⟨e, he, rfl⟩
        · exact .inl rfl
      | _ => exact .inl rfl
    · rw [h1]; exact .inr ⟨e, he, rfl⟩

/-- Agreement of two ways of running the rules, on the texts of a class `S` closed under suffixes,
is inherited by expressions. -/
theorem step_agree {X : Err → Prop} {S : Str → Prop} (hS : ∀ s t, t <:+ s → S s → S t)
    {rec rec' : (n : N) → Bool → Str → Res (A n)}
    (hsuf : ∀ n sk s a r, rec n sk s = .ok a r → r <:+ s)
    (h : ∀ n sk s, S s → Agree X (rec n sk s) (rec' n sk s)) {α : Type} (p : P A α) :
    ∀ sk s, S s → Agree X (step rec p sk s) (step rec' p sk s) := by
  induction p with
  | pure a => intro sk s _; exact .inl rfl
  | chr f => intro sk s _; exact .inl rfl
  | lit ci w => intro sk s _; exact .inl rfl
  | seq p q ihp ihq =>
    intro sk s hs
    simp only [step]
    rcases ihp sk s hs with h1 | ⟨e, he, h1⟩
    · rw [← h1]
      cases hp : step rec p sk s with
      | ok a r =>
        simp only
        rcases ihq sk r (hS s r (step_suffix hsuf p sk s a r hp) hs) with h2 | ⟨e, he, h2⟩
        · rw [h2]; exact .inl rfl
        · rw [h2]; exact .inr ⟨e, he, rfl⟩
      | _ => exact .inl rfl
    · rw [h1]; exact .inr ⟨e, he, rfl⟩
  | alt p q ihp ihq =>
    intro sk s hs
    simp only [step]
    rcases ihp sk s hs with h1 | ⟨e, he, h1⟩
    · rw [← h1]
      cases hp : step rec p sk s with
      | fail => simp only; exact ihq sk s hs
      | _ => exact .inl rfl
    · rw [h1]; exact .inr ⟨e, he, rfl⟩
  | star p ih =>
    intro sk s hs
    exact starLoop_agree hS (fun s a r => step_suffix hsuf p sk s a r) (fun t ht => ih sk t ht) _ s hs
  | notP p ih =>
    intro sk s hs
    simp only [step]
    rcases ih sk s hs with h1 | ⟨e, he, h1⟩
    · rw [h1]; exact .inl rfl
    · rw [h1]; exact .inr ⟨e, he, rfl⟩
  | andP p ih =>
    intro sk s hs
    simp only [step]
    rcases ih sk s hs with h1 | ⟨e, he, h1⟩
    · rw [h1]; exact .inl rfl
    · rw [h1]; exact .inr ⟨e, he, rfl⟩
  | expect w p ih =>
    intro sk s hs
    simp only [step]
    rcases ih sk s hs with h1 | ⟨e, he, h1⟩
    · rw [h1]; exact .inl rfl
    · rw [h1]; exact .inr ⟨e, he, rfl⟩
  | map f p ih =>
    intro sk s hs
    simp only [step]
    rcases ih sk s hs with h1 | ⟨e, he, h1⟩
    · rw [h1]; exact .inl rfl
    · rw [h1]; exact .inr ⟨e, he, rfl⟩
  | act f p ih =>
    intro sk s hs
    simp only [step]
    rcases ih sk s hs with h1 | ⟨e, he, h1⟩
    · rw [h1]; exact .inl rfl
    · rw [h1]; exact .inr ⟨e, he, rfl⟩
  | lexeme p ih => intro sk s hs; exact ih false _ (hS s _ (skip_suffix sk s) hs)
  | noskip p ih => intro sk s hs; exact ih false s hs
  | nt n => intro sk s hs; exact h n sk s hs

/-- Two grammars whose rules agree. -/
theorem run_agree {X : Err → Prop} {S : Str → Prop} (hS : ∀ s t, t <:+ s → S s → S t)
    {g g' : (n : N) → P A (A n)}
    (h : ∀ n, g n = g' n ∨ ∀ f sk s, S s →
      Agree X (step (run g f) (g n) sk s) (step (run g' f) (g' n) sk s)) :
    ∀ f n sk s, S s → Agree X (run g f n sk s) (run g' f n sk s)
  | 0, _, _, _, _ => .inl rfl
  | f + 1, n, sk, s, hs => by
    rcases h n with hn | hn
    · have := step_agree hS (run_suffix g f) (run_agree hS h f) (g n) sk s hs
      simp only [run]
      rw [← hn]; exact this
    · exact hn f sk s hs

/-! ### Where `noTable` errors come from -/

/-- No semantic check inside `p` throws. -/
def P.noThrow : {α : Type} → P A α → Prop
  | _, .pure _ => True
  | _, .chr _ => True
  | _, .lit _ _ => True
  | _, .seq p q => p.noThrow ∧ q.noThrow
  | _, .alt p q => p.noThrow ∧ q.noThrow
  | _, .star p => p.noThrow
  | _, .notP p => p.noThrow
  | _, .andP p => p.noThrow
  | _, .expect _ p => p.noThrow
  | _, .map _ p => p.noThrow
  | _, .act f p => (∀ a n, f a ≠ .throw n) ∧ p.noThrow
  | _, .lexeme p => p.noThrow
  | _, .noskip p => p.noThrow
  | _, .nt _ => True

/-- If `p` itself does not throw, its `noTable` errors come from the rules it calls. -/
theorem step_noTable {rec : (n : N) → Bool → Str → Res (A n)} {K : Str → Str → Prop}
    (hK : ∀ s t m, t <:+ s → K t m → K s m)
    (hsuf : ∀ n sk s a r, rec n sk s = .ok a r → r <:+ s)
    (hrec : ∀ n sk s m, rec n sk s = .err (.noTable m) → K s m) {α : Type} (p : P A α) :
    p.noThrow → ∀ sk s m, step rec p sk s = .err (.noTable m) → K s m := by
  induction p with
  | pure a => intro _ sk s m h; exact absurd h step_pure_err
  | chr f => intro _ sk s m h; exact absurd h step_chr_err
  | lit ci w => intro _ sk s m h; exact absurd h step_lit_err
  | seq p q ihp ihq =>
    intro hn sk s m h
    rw [step_seq_err] at h
    rcases h with h | ⟨a, t, h1, h2⟩
    · exact ihp hn.1 _ _ _ h
    · exact hK _ _ _ (step_suffix hsuf _ _ _ _ _ h1) (ihq hn.2 _ _ _ h2)
  | alt p q ihp ihq =>
    intro hn sk s m h
    rw [step_alt_err] at h
    rcases h with h | ⟨-, h⟩
    · exact ihp hn.1 _ _ _ h
    · exact ihq hn.2 _ _ _ h
  | star p ih =>
    intro hn sk s m h
    obtain ⟨t, h1, h2⟩ := step_star_err h
    exact hK _ _ _ (h1.suffix (fun s a r => step_suffix hsuf p sk s a r)) (ih hn _ _ _ h2)
  | notP p ih => intro hn sk s m h; rw [step_notP_err] at h; exact ih hn _ _ _ h
  | andP p ih => intro hn sk s m h; rw [step_andP_err] at h; exact ih hn _ _ _ h
  | expect w p ih =>
    intro hn sk s m h; rw [step_expect_err] at h
    rcases h with h | ⟨-, h⟩
    · exact ih hn _ _ _ h
    · cases h
  | map f p ih => intro hn sk s m h; rw [step_map_err] at h; exact ih hn _ _ _ h
  | act f p ih =>
    intro hn sk s m h; rw [step_act_err] at h
    rcases h with h | ⟨a, _, n, _, h, _⟩
    · exact ih hn.2 _ _ _ h
    · exact absurd h (hn.1 a n)
  | lexeme p ih => intro hn sk s m h; exact hK _ _ _ (skip_suffix sk s) (ih hn _ _ _ h)
  | noskip p ih => intro hn sk s m h; exact ih hn _ _ _ h
  | nt n => intro _ sk s m h; exact hrec n sk s m h

theorem run_noTable {g : (n : N) → P A (A n)} {K : Str → Str → Prop}
    (hK : ∀ s t m, t <:+ s → K t m → K s m)
    (h : ∀ n, (g n).noThrow ∨
      ∀ f sk s m, step (run g f) (g n) sk s = .err (.noTable m) → K s m) :
    ∀ f n sk s m, run g f n sk s = .err (.noTable m) → K s m
  | 0, _, _, _, _, h => by simp [run] at h
  | f + 1, n, sk, s, m, hr => by
    rcases h n with hn | hn
    · exact step_noTable hK (run_suffix g f) (run_noTable hK h f) (g n) hn sk s m hr
    · exact hn f sk s m hr

end Adql
