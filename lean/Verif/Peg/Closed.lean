import Verif.Peg.Meta

/-!
# Parser expressions that call no rule
-/

namespace Adql

variable {N : Type} {A : N → Type}

/-- no rule is called -/
def P.closed : {α : Type} → P A α → Bool
  | _, .pure _ => true
  | _, .chr _ => true
  | _, .lit _ _ => true
  | _, .seq p q => p.closed && q.closed
  | _, .alt p q => p.closed && q.closed
  | _, .star p => p.closed
  | _, .notP p => p.closed
  | _, .andP p => p.closed
  | _, .expect _ p => p.closed
  | _, .map _ p => p.closed
  | _, .act _ p => p.closed
  | _, .lexeme p => p.closed
  | _, .noskip p => p.closed
  | _, .nt _ => false

/-- Such an expression does not depend on the meaning of the rules. -/
theorem step_closed {rec rec' : (n : N) → Bool → Str → Res (A n)} {α : Type} (p : P A α) :
    p.closed = true → ∀ sk s, step rec p sk s = step rec' p sk s := by
  induction p with
  | pure a => intro _ sk s; rfl
  | chr f => intro _ sk s; rfl
  | lit ci w => intro _ sk s; rfl
  | seq p q ihp ihq =>
    intro h sk s
    simp only [P.closed, Bool.and_eq_true] at h
    simp only [step, ihp h.1, ihq h.2]
  | alt p q ihp ihq =>
    intro h sk s
    simp only [P.closed, Bool.and_eq_true] at h
    simp only [step, ihp h.1, ihq h.2]
  | star p ih => intro h sk s; simp only [step, ih h]
  | notP p ih => intro h sk s; simp only [step, ih h]
  | andP p ih => intro h sk s; simp only [step, ih h]
  | expect w p ih => intro h sk s; simp only [step, ih h]
  | map f p ih => intro h sk s; simp only [step, ih h]
  | act f p ih => intro h sk s; simp only [step, ih h]
  | lexeme p ih => intro h sk s; simp only [step, ih h]
  | noskip p ih => intro h sk s; simp only [step, ih h]
  | nt n => intro h; cases h

end Adql
