import Verif.Peg.Meta

/-!
# How many rule calls a run makes

`cost` follows the control flow of `step` (Peg/Core.lean) and adds up the calls of recursive rules.  The rules that
are inlined in the model are not counted, so the number is a lower bound for the work of the Qi parser, which does not
remember results: a rule that is called twice at one place is run twice.
-/

namespace Adql

variable {N : Type} {A : N → Type}

/-- The calls made by the loop of `*p`: `f` runs the body, `c` counts its calls. -/
def starCost {α : Type} (f : Str → Res α) (c : Str → Nat) : Nat → Str → Nat
  | 0, _ => 0
  | n + 1, s => c s + match f s with
    | .ok _ r => if r.length < s.length then starCost f c n r else 0
    | _ => 0

/-- The calls of recursive rules made by one level of parsing; `rec` runs the recursive rules, `crec` counts the calls
made inside of them. -/
def cost (rec : (n : N) → Bool → Str → Res (A n)) (crec : N → Bool → Str → Nat) :
    {α : Type} → P A α → Bool → Str → Nat
  | _, .pure _, _, _ => 0
  | _, .chr _, _, _ => 0
  | _, .lit _ _, _, _ => 0
  | _, .seq p q, sk, s => cost rec crec p sk s + match step rec p sk s with
    | .ok _ r => cost rec crec q sk r
    | _ => 0
  | _, .alt p q, sk, s => cost rec crec p sk s + match step rec p sk s with
    | .fail => cost rec crec q sk s
    | _ => 0
  | _, .star p, sk, s => starCost (fun t => step rec p sk t) (fun t => cost rec crec p sk t) (s.length + 1) s
  | _, .notP p, sk, s => cost rec crec p sk s
  | _, .andP p, sk, s => cost rec crec p sk s
  | _, .expect _ p, sk, s => cost rec crec p sk s
  | _, .map _ p, sk, s => cost rec crec p sk s
  | _, .act _ p, sk, s => cost rec crec p sk s
  | _, .lexeme p, sk, s => cost rec crec p false (skip sk s)
  | _, .noskip p, _, s => cost rec crec p false s
  | _, .nt n, sk, s => 1 + crec n sk s

/-- The calls made inside of rule `n`, with a bound on the depth of calls. -/
def runCost (g : (n : N) → P A (A n)) : Nat → N → Bool → Str → Nat
  | 0, _, _, _ => 0
  | f + 1, n, sk, s => cost (run g f) (runCost g f) (g n) sk s

/-! ### More fuel changes nothing -/

theorem starCost_eq {α : Type} {f f' : Str → Res α} {c c' : Str → Nat} (h : ∀ s, f s ≠ .oof → f' s = f s ∧ c' s = c s) :
    ∀ n s, starLoop f n s ≠ .oof → starCost f' c' n s = starCost f c n s
  | 0, _, _ => rfl
  | n + 1, s, hs => by
    have hf : f s ≠ .oof := by intro h'; apply hs; simp [starLoop, h']
    unfold starCost
    rw [(h s hf).1, (h s hf).2]
    cases hfs : f s with
    | ok a r =>
      simp only
      split
      · rename_i hl
        have : starLoop f n r ≠ .oof := by
          intro h'; apply hs; simp [starLoop, hfs, h']
        rw [starCost_eq h n r this]
      · rfl
    | _ => rfl

theorem cost_eq {rec rec' : (n : N) → Bool → Str → Res (A n)} {crec crec' : N → Bool → Str → Nat}
    (h : ∀ n sk s, rec n sk s ≠ .oof → rec' n sk s = rec n sk s)
    (hc : ∀ n sk s, rec n sk s ≠ .oof → crec' n sk s = crec n sk s) {α : Type} (p : P A α) :
    ∀ sk s, step rec p sk s ≠ .oof → cost rec' crec' p sk s = cost rec crec p sk s := by
  induction p with
  | pure a => intro sk s _; rfl
  | chr f => intro sk s _; rfl
  | lit ci w => intro sk s _; rfl
  | seq p q ihp ihq =>
    intro sk s hs
    have hp : step rec p sk s ≠ .oof := by intro h'; apply hs; rw [step_seq_oof]; exact .inl h'
    simp only [cost, ihp sk s hp, step_mono h p sk s hp]
    cases h1 : step rec p sk s with
    | ok a t =>
      simp only
      have hq : step rec q sk t ≠ .oof := by intro h'; apply hs; simp [step, h1, h']
      rw [ihq sk t hq]
    | _ => rfl
  | alt p q ihp ihq =>
    intro sk s hs
    have hp : step rec p sk s ≠ .oof := by intro h'; apply hs; rw [step_alt_oof]; exact .inl h'
    simp only [cost, ihp sk s hp, step_mono h p sk s hp]
    cases h1 : step rec p sk s with
    | fail =>
      simp only
      rw [ihq sk s (by intro h'; apply hs; simp [step, h1, h'])]
    | _ => rfl
  | star p ih =>
    intro sk s hs
    exact starCost_eq (fun t ht => ⟨step_mono h p sk t ht, ih sk t ht⟩) _ s hs
  | notP p ih =>
    intro sk s hs
    exact ih sk s (by intro h'; apply hs; rw [step_notP_oof]; exact h')
  | andP p ih =>
    intro sk s hs
    exact ih sk s (by intro h'; apply hs; rw [step_andP_oof]; exact h')
  | expect w p ih =>
    intro sk s hs
    exact ih sk s (by intro h'; apply hs; rw [step_expect_oof]; exact h')
  | map f p ih =>
    intro sk s hs
    exact ih sk s (by intro h'; apply hs; rw [step_map_oof]; exact h')
  | act f p ih =>
    intro sk s hs
    exact ih sk s (by intro h'; apply hs; rw [step_act_oof]; exact h')
  | lexeme p ih => intro sk s hs; exact ih false (skip sk s) hs
  | noskip p ih => intro sk s hs; exact ih false s hs
  | nt n => intro sk s hs; exact congrArg (1 + ·) (hc n sk s hs)

theorem runCost_eq (g : (n : N) → P A (A n)) : ∀ f f' n sk s, f ≤ f' →
    run g f n sk s ≠ .oof → runCost g f' n sk s = runCost g f n sk s
  | 0, _, _, _, _, _, h => by simp [run] at h
  | f + 1, 0, _, _, _, h, _ => by omega
  | f + 1, f' + 1, n, sk, s, hl, h =>
    cost_eq (fun n sk s => run_mono g f f' n sk s (by omega)) (fun n sk s => runCost_eq g f f' n sk s (by omega)) (g n) sk s h

/-- The calls made inside of rule `n`, with enough fuel. -/
def denCost (g : (n : N) → P A (A n)) (k : Nat) (n : N) (sk : Bool) (s : Str) : Nat :=
  runCost g (k * (s.length + 1)) n sk s

theorem runCost_eq_den {g : (n : N) → P A (A n)} {rank : N → Nat} {k : Nat}
    (hg : WellFormed g rank k) {f : Nat} {n : N} {sk : Bool} {s : Str}
    (h : run g f n sk s ≠ .oof) : denCost g k n sk s = runCost g f n sk s := by
  have h1 : den g k n sk s ≠ .oof := den_not_oof hg n sk s
  rcases Nat.le_total f (k * (s.length + 1)) with hl | hl
  · exact runCost_eq g _ _ n sk s hl h
  · exact (runCost_eq g _ _ n sk s hl h1).symm

/-- The counts satisfy the equation of the rule. -/
theorem denCost_eq {g : (n : N) → P A (A n)} {rank : N → Nat} {k : Nat}
    (hg : WellFormed g rank k) (n : N) (sk : Bool) (s : Str) :
    denCost g k n sk s = cost (den g k) (denCost g k) (g n) sk s := by
  have h0 := den_not_oof hg n sk s
  have hk := hg.rank_lt n
  have : ∃ f, k * (s.length + 1) = f + 1 :=
    ⟨k * (s.length + 1) - 1, by
      have : 0 < k * (s.length + 1) := Nat.mul_pos (by omega) (by omega)
      omega⟩
  obtain ⟨f, hf⟩ := this
  have h1 : den g k n sk s = step (run g f) (g n) sk s := by
    unfold den; rw [hf]; rfl
  have h2 : denCost g k n sk s = cost (run g f) (runCost g f) (g n) sk s := by
    unfold denCost; rw [hf]; rfl
  rw [h2]
  symm
  apply cost_eq
  · intro m sk' t ht; exact (run_eq_den hg ht).symm
  · intro m sk' t ht; exact runCost_eq_den hg ht
  · rw [← h1]; exact h0

/-- An expression run with any sufficient fuel. -/
theorem cost_run_eq_den {g : (n : N) → P A (A n)} {rank : N → Nat} {k : Nat}
    (hg : WellFormed g rank k) {f : Nat} {α : Type} (p : P A α) {sk : Bool} {s : Str}
    (h : step (run g f) p sk s ≠ .oof) : cost (run g f) (runCost g f) p sk s = cost (den g k) (denCost g k) p sk s := by
  symm
  apply cost_eq (rec := run g f)
  · intro m sk' t ht; exact (run_eq_den hg ht).symm
  · intro m sk' t ht; exact runCost_eq_den hg ht
  · exact h

/-! ### An upper bound -/

/-- How many calls of recursive rules an expression makes itself, counted in the iterations of its loops: at most
`size · (length + 2) ^ depth`. -/
def P.size : {α : Type} → P A α → Nat
  | _, .pure _ => 0
  | _, .chr _ => 0
  | _, .lit _ _ => 0
  | _, .seq p q => p.size + q.size
  | _, .alt p q => p.size + q.size
  | _, .star p => p.size
  | _, .notP p => p.size
  | _, .andP p => p.size
  | _, .expect _ p => p.size
  | _, .map _ p => p.size
  | _, .act _ p => p.size
  | _, .lexeme p => p.size
  | _, .noskip p => p.size
  | _, .nt _ => 1

@[inherit_doc P.size]
def P.depth : {α : Type} → P A α → Nat
  | _, .pure _ => 0
  | _, .chr _ => 0
  | _, .lit _ _ => 0
  | _, .seq p q => max p.depth q.depth
  | _, .alt p q => max p.depth q.depth
  | _, .star p => p.depth + 1
  | _, .notP p => p.depth
  | _, .andP p => p.depth
  | _, .expect _ p => p.depth
  | _, .map _ p => p.depth
  | _, .act _ p => p.depth
  | _, .lexeme p => p.depth
  | _, .noskip p => p.depth
  | _, .nt _ => 0

theorem starCost_le {α : Type} {f : Str → Res α} {c : Str → Nat} {B m : Nat}
    (hc : ∀ s : Str, s.length ≤ m → c s ≤ B) : ∀ n (s : Str), s.length ≤ m → starCost f c n s ≤ n * B
  | 0, _, _ => by simp [starCost]
  | n + 1, s, hs => by
    unfold starCost
    have h1 := hc s hs
    have h2 : (match f s with
      | .ok _ r => if r.length < s.length then starCost f c n r else 0
      | _ => 0) ≤ n * B := by
      cases f s with
      | ok a r =>
        simp only
        split
        · exact starCost_le hc n r (by omega)
        · omega
      | _ => simp
    rw [Nat.add_mul]
    omega

theorem cost_le {rec : (n : N) → Bool → Str → Res (A n)} {crec : N → Bool → Str → Nat}
    (hr : ∀ n sk s a r, rec n sk s = .ok a r → r <:+ s) {m B : Nat}
    (hB : ∀ n sk s, s.length ≤ m → 1 + crec n sk s ≤ B) {α : Type} (p : P A α) :
    ∀ sk (s : Str), s.length ≤ m → cost rec crec p sk s ≤ p.size * (m + 2) ^ p.depth * B := by
  have mono : ∀ a d e : Nat, d ≤ e → a * (m + 2) ^ d * B ≤ a * (m + 2) ^ e * B := fun a d e h =>
    Nat.mul_le_mul_right _ (Nat.mul_le_mul_left _ (Nat.pow_le_pow_right (by omega) h))
  induction p with
  | pure a => intro sk s _; simp [cost]
  | chr f => intro sk s _; simp [cost]
  | lit ci w => intro sk s _; simp [cost]
  | seq p q ihp ihq =>
    intro sk s hs
    simp only [cost, P.size, P.depth, Nat.add_mul]
    refine Nat.add_le_add (Nat.le_trans (ihp sk s hs) (mono _ _ _ (Nat.le_max_left ..))) ?_
    cases h1 : step rec p sk s with
    | ok a t =>
      have ht : t.length ≤ m := Nat.le_trans (step_suffix hr p sk s a t h1).length_le hs
      exact Nat.le_trans (ihq sk t ht) (mono _ _ _ (Nat.le_max_right ..))
    | _ => simp
  | alt p q ihp ihq =>
    intro sk s hs
    simp only [cost, P.size, P.depth, Nat.add_mul]
    refine Nat.add_le_add (Nat.le_trans (ihp sk s hs) (mono _ _ _ (Nat.le_max_left ..))) ?_
    cases h1 : step rec p sk s with
    | fail => exact Nat.le_trans (ihq sk s hs) (mono _ _ _ (Nat.le_max_right ..))
    | _ => simp
  | star p ih =>
    intro sk s hs
    simp only [cost, P.size, P.depth]
    have := starCost_le (f := fun t => step rec p sk t) (fun t ht => ih sk t ht) (s.length + 1) s hs
    refine Nat.le_trans this ?_
    calc (s.length + 1) * (p.size * (m + 2) ^ p.depth * B) ≤ (m + 2) * (p.size * (m + 2) ^ p.depth * B) :=
          Nat.mul_le_mul_right _ (by omega)
      _ = p.size * (m + 2) ^ (p.depth + 1) * B := by
        rw [Nat.pow_succ]; simp only [Nat.mul_assoc, Nat.mul_left_comm, Nat.mul_comm]
  | notP p ih => exact ih
  | andP p ih => exact ih
  | expect w p ih => exact ih
  | map f p ih => exact ih
  | act f p ih => exact ih
  | lexeme p ih => intro sk s hs; exact ih false _ (Nat.le_trans (skip_length sk s) hs)
  | noskip p ih => intro sk s hs; exact ih false s hs
  | nt n =>
    intro sk s hs
    simpa [cost, P.size, P.depth] using hB n sk s hs

theorem runCost_le {g : (n : N) → P A (A n)} {K d : Nat} (hK : ∀ n, (g n).size ≤ K) (hd : ∀ n, (g n).depth ≤ d) {m : Nat} :
    ∀ f n sk (s : Str), s.length ≤ m → 1 + runCost g f n sk s ≤ (1 + K * (m + 2) ^ d) ^ f
  | 0, n, sk, s, _ => by simp [runCost]
  | f + 1, n, sk, s, hs => by
    have ih := runCost_le hK hd (m := m) f
    have h1 := cost_le (rec := run g f) (crec := runCost g f) (run_suffix g f) (m := m) ih (g n) sk s hs
    have h2 : (g n).size * (m + 2) ^ (g n).depth ≤ K * (m + 2) ^ d :=
      Nat.mul_le_mul (hK n) (Nat.pow_le_pow_right (by omega) (hd n))
    have h3 := Nat.mul_le_mul_right ((1 + K * (m + 2) ^ d) ^ f) h2
    have h4 : 1 ≤ (1 + K * (m + 2) ^ d) ^ f := Nat.one_le_pow _ _ (by omega)
    simp only [runCost]
    rw [Nat.pow_succ, Nat.mul_comm, Nat.add_mul]
    omega

end Adql
