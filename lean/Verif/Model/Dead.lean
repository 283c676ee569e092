import Verif.Model.WF
import Verif.Peg.First

/-!
# Characters at which no rule of the grammar can start
-/

namespace Adql

/-- No rule can start at the end of the text or at one of these characters. -/
def dead : List (Option Char) :=
  [none, some ')', some ']', some ',', some '=', some '<', some '>', some '!', some '*', some '/',
   some '|', some ';']

/-- the rules fail at `dead` -/
def deadF (_ : Rule) (o : Option Char) : Bool := dead.contains o

theorem grammar_dead (cfg : Config) (n : Rule) :
    (dead.all fun o => (grammar cfg n).idle deadF o) = true := by
  obtain ⟨m, r⟩ := cfg
  cases r <;> cases n <;> kernel_rfl

theorem D_dead (cfg : Config) (n : Rule) (sk : Bool) (s : Str)
    (h : deadF n (skip sk s).head? = true) : D cfg n sk s = .fail := by
  have hg : ∀ n o, deadF n o = true → (grammar cfg n).idle deadF o = true := by
    intro n o ho
    have h1 := grammar_dead cfg n
    rw [List.all_eq_true] at h1
    exact h1 o (List.contains_iff_mem.1 ho)
  rcases run_idle (grammar_wf cfg).consumes hg _ n sk s h with h1 | h1
  · exact h1
  · exact absurd h1 (den_not_oof (grammar_wf cfg) n sk s)

/-- An expression that cannot start at the next character fails. -/
theorem parse_idle {cfg : Config} {α : Type} {p : G α} (hc : p.consumes = true)
    (hw : P.wf rank 4 4 p = true) {sk : Bool} {s : Str}
    (h : p.idle deadF (skip sk s).head? = true) : parse cfg p sk s = .fail := by
  rcases step_idle (fun n sk s h => .inl (D_dead cfg n sk s h)) p sk s h with h1 | h1 | ⟨a, r, _, _, h3⟩
  · exact h1
  · exact absurd h1 (parse_not_oof hw)
  · rw [hc] at h3; cases h3

end Adql
