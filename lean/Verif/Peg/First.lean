import Verif.Peg.Meta

/-!
# What an expression can start with

`P.idle F p o`: when the text, after the pre-skip, starts with the character `o` (`none`: it is
empty), `p` neither consumes a character nor throws, if the same is known for the rules in `F`.
-/

namespace Adql

variable {N : Type} {A : N → Type}

/-- see the head of the file -/
def P.idle (F : N → Option Char → Bool) : {α : Type} → P A α → Option Char → Bool
  | _, .pure _, _ => true
  | _, .chr f, o => match o with
    | none => true
    | some c => !f c
  | _, .lit ci w, o => match w, o with
    | [], _ => true
    | _ :: _, none => true
    | c :: _, some d => !(c == d || (ci && lowerC c == lowerC d))
  | _, .seq p q, o => p.idle F o && (p.consumes || q.idle F o)
  | _, .alt p q, o => p.idle F o && q.idle F o
  | _, .star p, o => p.idle F o && p.consumes
  | _, .notP p, o => p.idle F o
  | _, .andP p, o => p.idle F o
  | _, .expect _ _, _ => false
  | _, .map _ p, o => p.idle F o
  | _, .act _ p, o => p.idle F o && p.consumes
  | _, .lexeme p, o => p.idle F o
  | _, .noskip _, _ => false
  | _, .nt n, o => F n o

/-- Nothing is consumed, nothing thrown. -/
def Idle (sk : Bool) (s : Str) {α : Type} (c : Bool) (x : Res α) : Prop :=
  x = .fail ∨ x = .oof ∨ ∃ a r, x = .ok a r ∧ skip sk r = skip sk s ∧ c = false

theorem skip_skip_idle (sk : Bool) (s : Str) : skip sk (skip sk s) = skip sk s := by
  cases sk with
  | false => rfl
  | true =>
    simp only [skip, if_true]
    induction s with
    | nil => rfl
    | cons c s ih =>
      rw [List.dropWhile_cons]
      split
      · exact ih
      · rename_i h; rw [List.dropWhile_cons, if_neg h]

theorem step_idle {F : N → Option Char → Bool} {rec : (n : N) → Bool → Str → Res (A n)}
    (hrec : ∀ n sk s, F n (skip sk s).head? = true → rec n sk s = .fail ∨ rec n sk s = .oof)
    {α : Type} (p : P A α) : ∀ sk s, p.idle F (skip sk s).head? = true →
      Idle sk s p.consumes (step rec p sk s) := by
  induction p with
  | pure a => intro sk s _; exact .inr (.inr ⟨a, s, rfl, rfl, rfl⟩)
  | chr f =>
    intro sk s h
    left
    simp only [step]
    cases hs : skip sk s with
    | nil => rfl
    | cons c r =>
      simp only [hs, List.head?_cons, P.idle, Bool.not_eq_true'] at h
      simp [h]
  | lit ci w =>
    intro sk s h
    simp only [step]
    cases w with
    | nil =>
      right; right
      exact ⟨[], skip sk s, by simp [matchLit], skip_skip_idle sk s, rfl⟩
    | cons c w =>
      left
      cases hs : skip sk s with
      | nil => rfl
      | cons d r =>
        simp only [hs, List.head?_cons, P.idle, Bool.not_eq_true'] at h
        simp [matchLit, h]
  | seq p q ihp ihq =>
    intro sk s h
    simp only [P.idle, Bool.and_eq_true, Bool.or_eq_true] at h
    simp only [step]
    rcases ihp sk s h.1 with h1 | h1 | ⟨a, r, h1, h2, h3⟩
    · rw [h1]; exact .inl rfl
    · rw [h1]; exact .inr (.inl rfl)
    · rw [h1]
      have hq : q.idle F (skip sk r).head? = true := by
        rcases h.2 with hc | hc
        · rw [h3] at hc; cases hc
        · rw [h2]; exact hc
      simp only
      rcases ihq sk r hq with h4 | h4 | ⟨b, r', h4, h5, h6⟩
      · rw [h4]; exact .inl rfl
      · rw [h4]; exact .inr (.inl rfl)
      · rw [h4]; exact .inr (.inr ⟨_, _, rfl, h5.trans h2, by simp [P.consumes, h3, h6]⟩)
  | alt p q ihp ihq =>
    intro sk s h
    simp only [P.idle, Bool.and_eq_true] at h
    simp only [step]
    rcases ihp sk s h.1 with h1 | h1 | ⟨a, r, h1, h2, h3⟩
    · rw [h1]
      simp only
      rcases ihq sk s h.2 with h4 | h4 | ⟨b, r', h4, h5, h6⟩
      · exact .inl h4
      · exact .inr (.inl h4)
      · exact .inr (.inr ⟨b, r', h4, h5, by simp [P.consumes, h6]⟩)
    · rw [h1]; exact .inr (.inl rfl)
    · rw [h1]; exact .inr (.inr ⟨a, r, rfl, h2, by simp [P.consumes, h3]⟩)
  | star p ih =>
    intro sk s h
    simp only [P.idle, Bool.and_eq_true] at h
    simp only [step]
    unfold starLoop
    rcases ih sk s h.1 with h1 | h1 | ⟨a, r, h1, h2, h3⟩
    · rw [h1]; exact .inr (.inr ⟨[], s, rfl, rfl, rfl⟩)
    · rw [h1]; exact .inr (.inl rfl)
    · rw [h3] at h; simp at h
  | notP p ih =>
    intro sk s h
    simp only [step]
    rcases ih sk s h with h1 | h1 | ⟨a, r, h1, h2, h3⟩
    · rw [h1]; exact .inr (.inr ⟨(), s, rfl, rfl, rfl⟩)
    · rw [h1]; exact .inr (.inl rfl)
    · rw [h1]; exact .inl rfl
  | andP p ih =>
    intro sk s h
    simp only [step]
    rcases ih sk s h with h1 | h1 | ⟨a, r, h1, h2, h3⟩
    · rw [h1]; exact .inl rfl
    · rw [h1]; exact .inr (.inl rfl)
    · rw [h1]; exact .inr (.inr ⟨a, s, rfl, rfl, rfl⟩)
  | expect w p ih => intro sk s h; simp [P.idle] at h
  | map f p ih =>
    intro sk s h
    simp only [step]
    rcases ih sk s h with h1 | h1 | ⟨a, r, h1, h2, h3⟩
    · rw [h1]; exact .inl rfl
    · rw [h1]; exact .inr (.inl rfl)
    · rw [h1]; exact .inr (.inr ⟨f a, r, rfl, h2, h3⟩)
  | act f p ih =>
    intro sk s h
    simp only [P.idle, Bool.and_eq_true] at h
    simp only [step]
    rcases ih sk s h.1 with h1 | h1 | ⟨a, r, h1, h2, h3⟩
    · rw [h1]; exact .inl rfl
    · rw [h1]; exact .inr (.inl rfl)
    · rw [h3] at h; simp at h
  | lexeme p ih =>
    intro sk s h
    simp only [step]
    rcases ih false (skip sk s) h with h1 | h1 | ⟨a, r, h1, h2, h3⟩
    · exact .inl h1
    · exact .inr (.inl h1)
    · refine .inr (.inr ⟨a, r, h1, ?_, h3⟩)
      have : r = skip sk s := h2
      rw [this]; exact skip_skip_idle sk s
  | noskip p ih => intro sk s h; simp [P.idle] at h
  | nt n =>
    intro sk s h
    rcases hrec n sk s h with h1 | h1
    · exact .inl h1
    · exact .inr (.inl h1)

/-- The rules fail where `F` says that they are idle. -/
theorem run_idle {F : N → Option Char → Bool} {g : (n : N) → P A (A n)}
    (hc : ∀ n, (g n).consumes = true)
    (hg : ∀ n o, F n o = true → (g n).idle F o = true) :
    ∀ f n sk s, F n (skip sk s).head? = true → run g f n sk s = .fail ∨ run g f n sk s = .oof
  | 0, _, _, _, _ => .inr rfl
  | f + 1, n, sk, s, h => by
    rcases step_idle (run_idle hc hg f) (g n) sk s (hg n _ h) with h1 | h1 | ⟨a, r, _, _, h3⟩
    · exact .inl h1
    · exact .inr h1
    · rw [hc n] at h3; cases h3

end Adql
