import Verif.Peg.Meta

/-!
# Expressions that cannot throw

An expression without expectation points, checked actions and rule calls never throws.
-/

namespace Adql

variable {N : Type} {A : N → Type}

/-- no expectation point, no checked action, no rule call -/
def P.calm : {α : Type} → P A α → Bool
  | _, .pure _ => true
  | _, .chr _ => true
  | _, .lit _ _ => true
  | _, .seq p q => p.calm && q.calm
  | _, .alt p q => p.calm && q.calm
  | _, .star p => p.calm
  | _, .notP p => p.calm
  | _, .andP p => p.calm
  | _, .expect _ _ => false
  | _, .map _ p => p.calm
  | _, .act _ _ => false
  | _, .lexeme p => p.calm
  | _, .noskip p => p.calm
  | _, .nt _ => false

theorem step_calm {rec : (n : N) → Bool → Str → Res (A n)} :
    ∀ {α : Type} (p : P A α), p.calm = true → ∀ sk s e, step rec p sk s ≠ .err e := by
  intro α p
  induction p with
  | pure a => intro _ sk s e; exact step_pure_err
  | chr f => intro _ sk s e; exact step_chr_err
  | lit ci w => intro _ sk s e; exact step_lit_err
  | seq p q ihp ihq =>
    intro h sk s e he
    simp only [P.calm, Bool.and_eq_true] at h
    rcases step_seq_err.1 he with h1 | ⟨a, r, -, h1⟩
    · exact ihp h.1 _ _ _ h1
    · exact ihq h.2 _ _ _ h1
  | alt p q ihp ihq =>
    intro h sk s e he
    simp only [P.calm, Bool.and_eq_true] at h
    rcases step_alt_err.1 he with h1 | ⟨-, h1⟩
    · exact ihp h.1 _ _ _ h1
    · exact ihq h.2 _ _ _ h1
  | star p ih =>
    intro h sk s e he
    simp only [P.calm] at h
    obtain ⟨t, -, ht⟩ := step_star_err he
    exact ih h _ _ _ ht
  | notP p ih => intro h sk s e he; exact ih h _ _ _ (step_notP_err.1 he)
  | andP p ih => intro h sk s e he; exact ih h _ _ _ (step_andP_err.1 he)
  | expect w p ih => intro h; cases h
  | map f p ih => intro h sk s e he; exact ih h _ _ _ (step_map_err.1 he)
  | act f p ih => intro h; cases h
  | lexeme p ih => intro h sk s e he; exact ih h _ _ _ he
  | noskip p ih => intro h sk s e he; exact ih h _ _ _ he
  | nt n => intro h; cases h

end Adql
