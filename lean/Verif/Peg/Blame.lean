import Verif.Peg.Meta

/-!
# Where expectation errors come from

Every expectation error names a component of the grammar that fails at the quoted text.
-/

namespace Adql

variable {N : Type} {A : N → Type}

/-- Every expected component of `p`, with its name and with whether blanks are skipped there, satisfies `J`; the rules
are only called in the ways `ok` allows. -/
def P.Said (ok : N → Bool → Prop) (J : {α : Type} → String → P A α → Bool → Prop) : {α : Type} → P A α → Bool → Prop
  | _, .pure _, _ => True
  | _, .chr _, _ => True
  | _, .lit _ _, _ => True
  | _, .seq p q, sk => p.Said ok J sk ∧ q.Said ok J sk
  | _, .alt p q, sk => p.Said ok J sk ∧ q.Said ok J sk
  | _, .star p, sk => p.Said ok J sk
  | _, .notP p, sk => p.Said ok J sk
  | _, .andP p, sk => p.Said ok J sk
  | _, .expect w p, sk => J w p sk ∧ p.Said ok J sk
  | _, .map _ p, sk => p.Said ok J sk
  | _, .act _ p, sk => p.Said ok J sk
  | _, .lexeme p, _ => p.Said ok J false
  | _, .noskip p, _ => p.Said ok J false
  | _, .nt n, sk => ok n sk

/-- An expectation error of `p` comes from a component of `p` or from a rule that `p` calls. -/
theorem step_said {rec : (n : N) → Bool → Str → Res (A n)} {ok : N → Bool → Prop}
    {J : {α : Type} → String → P A α → Bool → Prop} {K : String → Str → Prop}
    (hJ : ∀ {α : Type} {w : String} {p : P A α} {sk : Bool} {s : Str}, J w p sk → step rec p sk s = .fail → K w s)
    (hrec : ∀ n sk s w r, ok n sk → rec n sk s = .err (.expect w r) → K w r) {α : Type} (p : P A α) :
    ∀ sk s w r, p.Said ok J sk → step rec p sk s = .err (.expect w r) → K w r := by
  induction p with
  | pure a => intro sk s w r _ h; exact absurd h step_pure_err
  | chr f => intro sk s w r _ h; exact absurd h step_chr_err
  | lit ci w => intro sk s w r _ h; exact absurd h step_lit_err
  | seq p q ihp ihq =>
    intro sk s w r hn h
    rw [step_seq_err] at h
    rcases h with h | ⟨a, t, -, h⟩
    · exact ihp _ _ _ _ hn.1 h
    · exact ihq _ _ _ _ hn.2 h
  | alt p q ihp ihq =>
    intro sk s w r hn h
    rw [step_alt_err] at h
    rcases h with h | ⟨-, h⟩
    · exact ihp _ _ _ _ hn.1 h
    · exact ihq _ _ _ _ hn.2 h
  | star p ih =>
    intro sk s w r hn h
    obtain ⟨t, -, h⟩ := step_star_err h
    exact ih _ _ _ _ hn h
  | notP p ih => intro sk s w r hn h; rw [step_notP_err] at h; exact ih _ _ _ _ hn h
  | andP p ih => intro sk s w r hn h; rw [step_andP_err] at h; exact ih _ _ _ _ hn h
  | expect v p ih =>
    intro sk s w r hn h; rw [step_expect_err] at h
    rcases h with h | ⟨h, e⟩
    · exact ih _ _ _ _ hn.2 h
    · cases e
      exact hJ hn.1 h
  | map f p ih => intro sk s w r hn h; rw [step_map_err] at h; exact ih _ _ _ _ hn h
  | act f p ih =>
    intro sk s w r hn h; rw [step_act_err] at h
    rcases h with h | ⟨a, _, n, _, _, h⟩
    · exact ih _ _ _ _ hn h
    · cases h
  | lexeme p ih => intro sk s w r hn h; exact ih _ _ _ _ hn h
  | noskip p ih => intro sk s w r hn h; exact ih _ _ _ _ hn h
  | nt n => intro sk s w r hn h; exact hrec n sk s w r hn h

theorem run_said {g : (n : N) → P A (A n)} {rank : N → Nat} {k : Nat} (hg : WellFormed g rank k) {ok : N → Bool → Prop}
    {J : {α : Type} → String → P A α → Bool → Prop} {K : String → Str → Prop}
    (hJ : ∀ {α : Type} {w : String} {p : P A α} {sk : Bool} {s : Str}, J w p sk → step (den g k) p sk s = .fail → K w s)
    (h : ∀ n sk, ok n sk → (g n).Said ok J sk) :
    ∀ f n sk s w r, ok n sk → run g f n sk s = .err (.expect w r) → K w r
  | 0, _, _, _, _, _, _, h => by simp [run] at h
  | f + 1, n, sk, s, w, r, hn, hr => by
    have hj : ∀ {α : Type} {w : String} {p : P A α} {sk : Bool} {s : Str}, J w p sk → step (run g f) p sk s = .fail → K w s := by
      intro α w p sk s hj hf
      refine hJ hj ?_
      rw [← step_run_eq_den hg p (by rw [hf]; nofun), hf]
    exact step_said (J := J) hj (run_said hg (J := J) hJ h f) (g n) sk s w r (h n sk hn) hr

end Adql
