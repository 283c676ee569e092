import Verif.Peg.Meta

/-!
# How deep the rule calls of a run are nested

`nest` follows the control flow of `step` (Peg/Core.lean) and takes the maximum over the calls of recursive rules.  A call
of a Qi rule is a C++ function call, so the number is a lower bound for the number of frames on the machine stack.
-/

namespace Adql

variable {N : Type} {A : N → Type}

/-- The nesting in the loop of `*p`: `f` runs the body, `c` gives the nesting of one run. -/
def starNest {α : Type} (f : Str → Res α) (c : Str → Nat) : Nat → Str → Nat
  | 0, _ => 0
  | n + 1, s => max (c s) (match f s with
    | .ok _ r => if r.length < s.length then starNest f c n r else 0
    | _ => 0)

/-- The nesting of the calls of recursive rules made by one level of parsing; `rec` runs the recursive rules, `crec`
gives the nesting inside of them. -/
def nest (rec : (n : N) → Bool → Str → Res (A n)) (crec : N → Bool → Str → Nat) :
    {α : Type} → P A α → Bool → Str → Nat
  | _, .pure _, _, _ => 0
  | _, .chr _, _, _ => 0
  | _, .lit _ _, _, _ => 0
  | _, .seq p q, sk, s => max (nest rec crec p sk s) (match step rec p sk s with
    | .ok _ r => nest rec crec q sk r
    | _ => 0)
  | _, .alt p q, sk, s => max (nest rec crec p sk s) (match step rec p sk s with
    | .fail => nest rec crec q sk s
    | _ => 0)
  | _, .star p, sk, s => starNest (fun t => step rec p sk t) (fun t => nest rec crec p sk t) (s.length + 1) s
  | _, .notP p, sk, s => nest rec crec p sk s
  | _, .andP p, sk, s => nest rec crec p sk s
  | _, .expect _ p, sk, s => nest rec crec p sk s
  | _, .map _ p, sk, s => nest rec crec p sk s
  | _, .act _ p, sk, s => nest rec crec p sk s
  | _, .lexeme p, sk, s => nest rec crec p false (skip sk s)
  | _, .noskip p, _, s => nest rec crec p false s
  | _, .nt n, sk, s => 1 + crec n sk s

/-- The nesting inside of rule `n`, with a bound on the depth of calls. -/
def runNest (g : (n : N) → P A (A n)) : Nat → N → Bool → Str → Nat
  | 0, _, _, _ => 0
  | f + 1, n, sk, s => nest (run g f) (runNest g f) (g n) sk s

/-! ### More fuel changes nothing -/

theorem starNest_eq {α : Type} {f f' : Str → Res α} {c c' : Str → Nat} (h : ∀ s, f s ≠ .oof → f' s = f s ∧ c' s = c s) :
    ∀ n s, starLoop f n s ≠ .oof → starNest f' c' n s = starNest f c n s
  | 0, _, _ => rfl
  | n + 1, s, hs => by
    have hf : f s ≠ .oof := by intro h'; apply hs; simp [starLoop, h']
    unfold starNest
    rw [(h s hf).1, (h s hf).2]
    cases hfs : f s with
    | ok a r =>
      simp only
      split
      · rename_i hl
        have : starLoop f n r ≠ .oof := by
          intro h'; apply hs; simp [starLoop, hfs, h']
        rw [starNest_eq h n r this]
      · rfl
    | _ => rfl

theorem nest_eq {rec rec' : (n : N) → Bool → Str → Res (A n)} {crec crec' : N → Bool → Str → Nat}
    (h : ∀ n sk s, rec n sk s ≠ .oof → rec' n sk s = rec n sk s)
    (hc : ∀ n sk s, rec n sk s ≠ .oof → crec' n sk s = crec n sk s) {α : Type} (p : P A α) :
    ∀ sk s, step rec p sk s ≠ .oof → nest rec' crec' p sk s = nest rec crec p sk s := by
  induction p with
  | pure a => intro sk s _; rfl
  | chr f => intro sk s _; rfl
  | lit ci w => intro sk s _; rfl
  | seq p q ihp ihq =>
    intro sk s hs
    have hp : step rec p sk s ≠ .oof := by intro h'; apply hs; rw [step_seq_oof]; exact .inl h'
    simp only [nest, ihp sk s hp, step_mono h p sk s hp]
    cases h1 : step rec p sk s with
    | ok a t =>
      simp only
      have hq : step rec q sk t ≠ .oof := by intro h'; apply hs; simp [step, h1, h']
      rw [ihq sk t hq]
    | _ => rfl
  | alt p q ihp ihq =>
    intro sk s hs
    have hp : step rec p sk s ≠ .oof := by intro h'; apply hs; rw [step_alt_oof]; exact .inl h'
    simp only [nest, ihp sk s hp, step_mono h p sk s hp]
    cases h1 : step rec p sk s with
    | fail =>
      simp only
      rw [ihq sk s (by intro h'; apply hs; simp [step, h1, h'])]
    | _ => rfl
  | star p ih =>
    intro sk s hs
    exact starNest_eq (fun t ht => ⟨step_mono h p sk t ht, ih sk t ht⟩) _ s hs
  | notP p ih =>
    intro sk s hs
    exact ih sk s (by intro h'; apply hs; rw [step_notP_oof]; exact h')
  | andP p ih =>
    intro sk s hs
    exact ih sk s (by intro h'; apply hs; rw [step_andP_oof]; exact h')
  | expect w p ih =>
    intro sk s hs
    exact ih sk s (by intro h'; apply hs; rw [step_expect_oof]; exact h')
  | map f p ih =>
    intro sk s hs
    exact ih sk s (by intro h'; apply hs; rw [step_map_oof]; exact h')
  | act f p ih =>
    intro sk s hs
    exact ih sk s (by intro h'; apply hs; rw [step_act_oof]; exact h')
  | lexeme p ih => intro sk s hs; exact ih false (skip sk s) hs
  | noskip p ih => intro sk s hs; exact ih false s hs
  | nt n => intro sk s hs; exact congrArg (1 + ·) (hc n sk s hs)

theorem runNest_eq (g : (n : N) → P A (A n)) : ∀ f f' n sk s, f ≤ f' →
    run g f n sk s ≠ .oof → runNest g f' n sk s = runNest g f n sk s
  | 0, _, _, _, _, _, h => by simp [run] at h
  | f + 1, 0, _, _, _, h, _ => by omega
  | f + 1, f' + 1, n, sk, s, hl, h =>
    nest_eq (fun n sk s => run_mono g f f' n sk s (by omega)) (fun n sk s => runNest_eq g f f' n sk s (by omega)) (g n) sk s h

/-- The nesting inside of rule `n`, with enough fuel. -/
def denNest (g : (n : N) → P A (A n)) (k : Nat) (n : N) (sk : Bool) (s : Str) : Nat :=
  runNest g (k * (s.length + 1)) n sk s

theorem runNest_eq_den {g : (n : N) → P A (A n)} {rank : N → Nat} {k : Nat}
    (hg : WellFormed g rank k) {f : Nat} {n : N} {sk : Bool} {s : Str}
    (h : run g f n sk s ≠ .oof) : denNest g k n sk s = runNest g f n sk s := by
  have h1 : den g k n sk s ≠ .oof := den_not_oof hg n sk s
  rcases Nat.le_total f (k * (s.length + 1)) with hl | hl
  · exact runNest_eq g _ _ n sk s hl h
  · exact (runNest_eq g _ _ n sk s hl h1).symm

/-- The depths satisfy the equation of the rule. -/
theorem denNest_eq {g : (n : N) → P A (A n)} {rank : N → Nat} {k : Nat}
    (hg : WellFormed g rank k) (n : N) (sk : Bool) (s : Str) :
    denNest g k n sk s = nest (den g k) (denNest g k) (g n) sk s := by
  have h0 := den_not_oof hg n sk s
  have hk := hg.rank_lt n
  have : ∃ f, k * (s.length + 1) = f + 1 :=
    ⟨k * (s.length + 1) - 1, by
      have : 0 < k * (s.length + 1) := Nat.mul_pos (by omega) (by omega)
      omega⟩
  obtain ⟨f, hf⟩ := this
  have h1 : den g k n sk s = step (run g f) (g n) sk s := by
    unfold den; rw [hf]; rfl
  have h2 : denNest g k n sk s = nest (run g f) (runNest g f) (g n) sk s := by
    unfold denNest; rw [hf]; rfl
  rw [h2]
  symm
  apply nest_eq
  · intro m sk' t ht; exact (run_eq_den hg ht).symm
  · intro m sk' t ht; exact runNest_eq_den hg ht
  · rw [← h1]; exact h0

/-- An expression run with any sufficient fuel. -/
theorem nest_run_eq_den {g : (n : N) → P A (A n)} {rank : N → Nat} {k : Nat}
    (hg : WellFormed g rank k) {f : Nat} {α : Type} (p : P A α) {sk : Bool} {s : Str}
    (h : step (run g f) p sk s ≠ .oof) : nest (run g f) (runNest g f) p sk s = nest (den g k) (denNest g k) p sk s := by
  symm
  apply nest_eq (rec := run g f)
  · intro m sk' t ht; exact (run_eq_den hg ht).symm
  · intro m sk' t ht; exact runNest_eq_den hg ht
  · exact h

/-! ### The bound of `run` is a bound on the nesting -/

theorem starNest_le {α : Type} {f : Str → Res α} {c : Str → Nat} {B : Nat} (h : ∀ s, f s ≠ .oof → c s ≤ B) :
    ∀ n s, starLoop f n s ≠ .oof → starNest f c n s ≤ B
  | 0, _, _ => Nat.zero_le _
  | n + 1, s, hs => by
    have hf : f s ≠ .oof := by intro h'; apply hs; simp [starLoop, h']
    unfold starNest
    refine Nat.max_le.2 ⟨h s hf, ?_⟩
    cases hfs : f s with
    | ok a r =>
      simp only
      split
      · have : starLoop f n r ≠ .oof := by
          intro h'; apply hs; simp [starLoop, hfs, h']
        exact starNest_le h n r this
      · exact Nat.zero_le _
    | _ => exact Nat.zero_le _

theorem nest_le {rec : (n : N) → Bool → Str → Res (A n)} {crec : N → Bool → Str → Nat} {B : Nat}
    (h : ∀ n sk s, rec n sk s ≠ .oof → 1 + crec n sk s ≤ B) {α : Type} (p : P A α) :
    ∀ sk s, step rec p sk s ≠ .oof → nest rec crec p sk s ≤ B := by
  induction p with
  | pure a => intro sk s _; exact Nat.zero_le _
  | chr f => intro sk s _; exact Nat.zero_le _
  | lit ci w => intro sk s _; exact Nat.zero_le _
  | seq p q ihp ihq =>
    intro sk s hs
    have hp : step rec p sk s ≠ .oof := by intro h'; apply hs; rw [step_seq_oof]; exact .inl h'
    simp only [nest]
    refine Nat.max_le.2 ⟨ihp sk s hp, ?_⟩
    cases h1 : step rec p sk s with
    | ok a t => exact ihq sk t (by intro h'; apply hs; simp [step, h1, h'])
    | _ => exact Nat.zero_le _
  | alt p q ihp ihq =>
    intro sk s hs
    have hp : step rec p sk s ≠ .oof := by intro h'; apply hs; rw [step_alt_oof]; exact .inl h'
    simp only [nest]
    refine Nat.max_le.2 ⟨ihp sk s hp, ?_⟩
    cases h1 : step rec p sk s with
    | fail => exact ihq sk s (by intro h'; apply hs; simp [step, h1, h'])
    | _ => exact Nat.zero_le _
  | star p ih =>
    intro sk s hs
    exact starNest_le (fun t ht => ih sk t ht) _ s hs
  | notP p ih =>
    intro sk s hs
    exact ih sk s (by intro h'; apply hs; rw [step_notP_oof]; exact h')
  | andP p ih =>
    intro sk s hs
    exact ih sk s (by intro h'; apply hs; rw [step_andP_oof]; exact h')
  | expect w p ih =>
    intro sk s hs
    exact ih sk s (by intro h'; apply hs; rw [step_expect_oof]; exact h')
  | map f p ih =>
    intro sk s hs
    exact ih sk s (by intro h'; apply hs; rw [step_map_oof]; exact h')
  | act f p ih =>
    intro sk s hs
    exact ih sk s (by intro h'; apply hs; rw [step_act_oof]; exact h')
  | lexeme p ih => intro sk s hs; exact ih false (skip sk s) hs
  | noskip p ih => intro sk s hs; exact ih false s hs
  | nt n => intro sk s hs; exact h n sk s hs

theorem runNest_lt (g : (n : N) → P A (A n)) : ∀ f n sk s, run g f n sk s ≠ .oof → 1 + runNest g f n sk s ≤ f
  | 0, _, _, _, h => absurd rfl h
  | f + 1, n, sk, s, h => by
    have := nest_le (B := f) (fun n sk s h => runNest_lt g f n sk s h) (g n) sk s h
    show 1 + nest _ _ _ _ _ ≤ _
    omega

theorem starLoop_same {α : Type} {f f' : Str → Res α} {c : Str → Nat} {B : Nat} (h : ∀ s, c s ≤ B → f' s = f s) :
    ∀ n s, starNest f c n s ≤ B → starLoop f' n s = starLoop f n s
  | 0, _, _ => rfl
  | n + 1, s, hs => by
    unfold starNest at hs
    rw [Nat.max_le] at hs
    unfold starLoop
    rw [h s hs.1]
    cases hf : f s with
    | ok a r =>
      simp only [hf] at hs ⊢
      split
      · rename_i hl
        rw [if_pos hl] at hs
        rw [starLoop_same h n r hs.2]
      · rfl
    | _ => rfl

/-- A run in which only the calls nested too deep are cut off is the same when there are none. -/
theorem step_same {rec rec' : (n : N) → Bool → Str → Res (A n)} {crec : N → Bool → Str → Nat} {B : Nat}
    (h : ∀ n sk s, 1 + crec n sk s ≤ B → rec' n sk s = rec n sk s) {α : Type} (p : P A α) :
    ∀ sk s, nest rec crec p sk s ≤ B → step rec' p sk s = step rec p sk s := by
  induction p with
  | pure a => intro sk s _; rfl
  | chr f => intro sk s _; rfl
  | lit ci w => intro sk s _; rfl
  | seq p q ihp ihq =>
    intro sk s hs
    simp only [nest, Nat.max_le] at hs
    simp only [step, ihp sk s hs.1]
    cases h1 : step rec p sk s with
    | ok a t => simp only [h1] at hs; simp only [ihq sk t hs.2]
    | _ => rfl
  | alt p q ihp ihq =>
    intro sk s hs
    simp only [nest, Nat.max_le] at hs
    simp only [step, ihp sk s hs.1]
    cases h1 : step rec p sk s with
    | fail => simp only [h1] at hs; simp only [ihq sk s hs.2]
    | _ => rfl
  | star p ih => intro sk s hs; exact starLoop_same (fun t ht => ih sk t ht) _ s hs
  | notP p ih => intro sk s hs; simp only [step, ih sk s hs]
  | andP p ih => intro sk s hs; simp only [step, ih sk s hs]
  | expect w p ih => intro sk s hs; simp only [step, ih sk s hs]
  | map f p ih => intro sk s hs; simp only [step, ih sk s hs]
  | act f p ih => intro sk s hs; simp only [step, ih sk s hs]
  | lexeme p ih => intro sk s hs; exact ih false (skip sk s) hs
  | noskip p ih => intro sk s hs; exact ih false s hs
  | nt n => intro sk s hs; exact h n sk s hs

theorem run_same {g : (n : N) → P A (A n)} {rank : N → Nat} {k : Nat} (hg : WellFormed g rank k) :
    ∀ f n sk s, 1 + denNest g k n sk s ≤ f → run g f n sk s = den g k n sk s
  | 0, _, _, _, h => by omega
  | f + 1, n, sk, s, h => by
    rw [den_eq hg]
    refine step_same (fun n sk s => run_same hg f n sk s) (g n) sk s ?_
    rw [← denNest_eq hg]
    omega

/-- **The meaning of the number.** A bound on the depth of rule calls is sufficient exactly when it is at least the
nesting. -/
theorem run_enough {g : (n : N) → P A (A n)} {rank : N → Nat} {k : Nat} (hg : WellFormed g rank k) {α : Type} {p : P A α}
    {sk : Bool} {s : Str} (hp : step (den g k) p sk s ≠ .oof) (f : Nat) :
    step (run g f) p sk s ≠ .oof ↔ nest (den g k) (denNest g k) p sk s ≤ f := by
  constructor
  · intro h
    rw [← nest_run_eq_den hg p h]
    exact nest_le (fun n sk s => runNest_lt g f n sk s) p sk s h
  · intro h
    rw [step_same (fun n sk s => run_same hg f n sk s) p sk s h]
    exact hp

end Adql
