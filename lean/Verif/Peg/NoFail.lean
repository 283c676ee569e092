import Verif.Peg.Meta

/-!
# Expressions that cannot fail

Such expressions succeed or throw.
-/

namespace Adql

variable {N : Type} {A : N → Type}

/-- cannot fail (may throw) -/
def P.noFail : {α : Type} → P A α → Bool
  | _, .pure _ => true
  | _, .chr _ => false
  | _, .lit _ _ => false
  | _, .seq p q => p.noFail && q.noFail
  | _, .alt p q => p.noFail || q.noFail
  | _, .star _ => true
  | _, .notP _ => false
  | _, .andP p => p.noFail
  | _, .expect _ _ => true
  | _, .map _ p => p.noFail
  | _, .act _ _ => false
  | _, .lexeme p => p.noFail
  | _, .noskip p => p.noFail
  | _, .nt _ => false

theorem step_noFail {rec : (n : N) → Bool → Str → Res (A n)} :
    ∀ {α : Type} (p : P A α), p.noFail = true → ∀ sk s, step rec p sk s ≠ .fail := by
  intro α p
  induction p with
  | pure a => intro _ sk s; exact step_pure_fail
  | chr f => intro h; cases h
  | lit ci w => intro h; cases h
  | seq p q ihp ihq =>
    intro h sk s he
    simp only [P.noFail, Bool.and_eq_true] at h
    rcases step_seq_fail.1 he with h1 | ⟨a, r, -, h1⟩
    · exact ihp h.1 _ _ h1
    · exact ihq h.2 _ _ h1
  | alt p q ihp ihq =>
    intro h sk s he
    simp only [P.noFail, Bool.or_eq_true] at h
    obtain ⟨h1, h2⟩ := step_alt_fail.1 he
    rcases h with h | h
    · exact ihp h _ _ h1
    · exact ihq h _ _ h2
  | star p ih => intro _ sk s; exact step_star_fail
  | notP p ih => intro h; cases h
  | andP p ih => intro h sk s he; exact ih h _ _ (step_andP_fail.1 he)
  | expect w p ih => intro _ sk s; exact step_expect_fail
  | map f p ih => intro h sk s he; exact ih h _ _ (step_map_fail.1 he)
  | act f p ih => intro h; cases h
  | lexeme p ih => intro h sk s he; exact ih h _ _ he
  | noskip p ih => intro h sk s he; exact ih h _ _ he
  | nt n => intro h; cases h

end Adql
