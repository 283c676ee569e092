import Verif.Peg.Inv

/-!
# Metatheory of parser expressions

Remainders are suffixes of the input, a purely syntactic check guarantees termination, and enough
fuel is as good as any larger amount.
-/

namespace Adql

variable {N : Type} {A : N → Type}

/-! ### Remainders are suffixes -/

theorem skip_suffix (sk : Bool) (s : Str) : skip sk s <:+ s := by
  unfold skip; split
  · exact List.dropWhile_suffix _
  · exact List.suffix_refl _

theorem matchLit_append {ci : Bool} : ∀ {w s t r : Str},
    matchLit ci w s = some (t, r) → s = t ++ r ∧ t.length = w.length
  | [], s, t, r, h => by simp [matchLit] at h; obtain ⟨rfl, rfl⟩ := h; simp
  | c :: w, [], t, r, h => by simp [matchLit] at h
  | c :: w, d :: s, t, r, h => by
    simp only [matchLit] at h
    split at h
    · split at h
      · rename_i t' r' h'
        simp at h; obtain ⟨rfl, rfl⟩ := h
        obtain ⟨h1, h2⟩ := matchLit_append h'
        exact ⟨by rw [h1]; rfl, by simp [h2]⟩
      · simp at h
    · simp at h

theorem Iter.suffix {α : Type} {f : Str → Res α} (hf : ∀ s a r, f s = .ok a r → r <:+ s)
    {s r : Str} {as : List α} (h : Iter f s as r) : r <:+ s := by
  induction h with
  | nil _ => exact List.suffix_refl _
  | cons h _ _ ih => exact ih.trans (hf _ _ _ h)

theorem IterStop.suffix {α : Type} {f : Str → Res α} (hf : ∀ s a r, f s = .ok a r → r <:+ s)
    {s r : Str} (h : IterStop f s r) : r <:+ s := by
  induction h with
  | here => exact List.suffix_refl _
  | cons h _ _ ih => exact ih.trans (hf _ _ _ h)

/-- Every remainder is a suffix of the input. -/
theorem step_suffix {rec : (n : N) → Bool → Str → Res (A n)}
    (hrec : ∀ n sk s a r, rec n sk s = .ok a r → r <:+ s) {α : Type} (p : P A α) :
    ∀ sk s a r, step rec p sk s = .ok a r → r <:+ s := by
  induction p with
  | pure a => intro sk s a r h; rw [step_pure_ok] at h; rw [h.2]; exact List.suffix_refl _
  | chr f =>
    intro sk s a r h
    rw [step_chr_ok] at h
    exact (List.suffix_cons a r).trans (h.1 ▸ skip_suffix sk s)
  | lit ci w =>
    intro sk s t r h
    rw [step_lit_ok] at h
    exact List.IsSuffix.trans ⟨t, (matchLit_append h).1.symm⟩ (skip_suffix sk s)
  | seq p q ihp ihq =>
    intro sk s a r h
    rw [step_seq_ok] at h
    obtain ⟨t, h1, h2⟩ := h
    exact (ihq _ _ _ _ h2).trans (ihp _ _ _ _ h1)
  | alt p q ihp ihq =>
    intro sk s a r h
    rw [step_alt_ok] at h
    rcases h with h | ⟨-, h⟩
    · exact ihp _ _ _ _ h
    · exact ihq _ _ _ _ h
  | star p ih =>
    intro sk s a r h
    rw [step_star_ok] at h
    exact h.suffix (fun s a r => ih sk s a r)
  | notP p ih => intro sk s a r h; rw [step_notP_ok] at h; rw [h.2]; exact List.suffix_refl _
  | andP p ih => intro sk s a r h; rw [step_andP_ok] at h; rw [h.2]; exact List.suffix_refl _
  | expect w p ih => intro sk s a r h; rw [step_expect_ok] at h; exact ih _ _ _ _ h
  | map f p ih =>
    intro sk s a r h; rw [step_map_ok] at h
    obtain ⟨x, h, -⟩ := h; exact ih _ _ _ _ h
  | act f p ih =>
    intro sk s a r h; rw [step_act_ok] at h
    obtain ⟨x, h, -⟩ := h; exact ih _ _ _ _ h
  | lexeme p ih =>
    intro sk s a r h
    exact (ih false (skip sk s) a r h).trans (skip_suffix sk s)
  | noskip p ih => intro sk s a r h; exact ih false s a r h
  | nt n => intro sk s a r h; exact hrec n sk s a r h

theorem run_suffix (g : (n : N) → P A (A n)) : ∀ f n sk s a r,
    run g f n sk s = .ok a r → r <:+ s
  | 0, _, _, _, _, _, h => by simp [run] at h
  | f + 1, n, sk, s, a, r, h => step_suffix (run_suffix g f) (g n) sk s a r h

/-- The rest quoted in an expectation error is a suffix of the input. -/
theorem step_err_suffix {rec : (n : N) → Bool → Str → Res (A n)}
    (hok : ∀ n sk s a r, rec n sk s = .ok a r → r <:+ s)
    (hrec : ∀ n sk s w r, rec n sk s = .err (.expect w r) → r <:+ s) {α : Type} (p : P A α) :
    ∀ sk s w r, step rec p sk s = .err (.expect w r) → r <:+ s := by
  induction p with
  | pure a => intro sk s w r h; exact absurd h step_pure_err
  | chr f => intro sk s w r h; exact absurd h step_chr_err
  | lit ci w => intro sk s w r h; exact absurd h step_lit_err
  | seq p q ihp ihq =>
    intro sk s w r h
    rw [step_seq_err] at h
    rcases h with h | ⟨a, t, h1, h2⟩
    · exact ihp _ _ _ _ h
    · exact (ihq _ _ _ _ h2).trans (step_suffix hok _ _ _ _ _ h1)
  | alt p q ihp ihq =>
    intro sk s w r h
    rw [step_alt_err] at h
    rcases h with h | ⟨-, h⟩
    · exact ihp _ _ _ _ h
    · exact ihq _ _ _ _ h
  | star p ih =>
    intro sk s w r h
    obtain ⟨t, h1, h2⟩ := step_star_err h
    exact (ih _ _ _ _ h2).trans (h1.suffix (fun s a r => step_suffix hok p sk s a r))
  | notP p ih => intro sk s w r h; rw [step_notP_err] at h; exact ih _ _ _ _ h
  | andP p ih => intro sk s w r h; rw [step_andP_err] at h; exact ih _ _ _ _ h
  | expect w p ih =>
    intro sk s w r h; rw [step_expect_err] at h
    rcases h with h | ⟨-, h⟩
    · exact ih _ _ _ _ h
    · cases h; exact List.suffix_refl _
  | map f p ih => intro sk s w r h; rw [step_map_err] at h; exact ih _ _ _ _ h
  | act f p ih =>
    intro sk s w r h; rw [step_act_err] at h
    rcases h with h | ⟨_, _, _, _, _, h⟩
    · exact ih _ _ _ _ h
    · cases h
  | lexeme p ih =>
    intro sk s w r h
    exact (ih false (skip sk s) w r h).trans (skip_suffix sk s)
  | noskip p ih => intro sk s w r h; exact ih false s w r h
  | nt n => intro sk s w r h; exact hrec n sk s w r h

theorem run_err_suffix (g : (n : N) → P A (A n)) : ∀ f n sk s w r,
    run g f n sk s = .err (.expect w r) → r <:+ s
  | 0, _, _, _, _, _, h => by simp [run] at h
  | f + 1, n, sk, s, w, r, h =>
    step_err_suffix (run_suffix g f) (run_err_suffix g f) (g n) sk s w r h

/-! ### Consumption -/

/-- A syntactic check: success of `p` consumes at least one character (assuming that success of
a recursive rule does). -/
def P.consumes : {α : Type} → P A α → Bool
  | _, .pure _ => false
  | _, .chr _ => true
  | _, .lit _ w => !w.isEmpty
  | _, .seq p q => p.consumes || q.consumes
  | _, .alt p q => p.consumes && q.consumes
  | _, .star _ => false
  | _, .notP _ => false
  | _, .andP _ => false
  | _, .expect _ p => p.consumes
  | _, .map _ p => p.consumes
  | _, .act _ p => p.consumes
  | _, .lexeme p => p.consumes
  | _, .noskip p => p.consumes
  | _, .nt _ => true

theorem skip_length (sk : Bool) (s : Str) : (skip sk s).length ≤ s.length :=
  (skip_suffix sk s).length_le

/-- Soundness of `P.consumes`. -/
theorem step_consumes {rec : (n : N) → Bool → Str → Res (A n)}
    (hsuf : ∀ n sk s a r, rec n sk s = .ok a r → r <:+ s)
    (hrec : ∀ n sk s a r, rec n sk s = .ok a r → r.length < s.length) {α : Type} (p : P A α) :
    p.consumes = true → ∀ sk s a r, step rec p sk s = .ok a r → r.length < s.length := by
  induction p with
  | pure a => intro hc; simp [P.consumes] at hc
  | chr f =>
    intro _ sk s a r h
    rw [step_chr_ok] at h
    have := skip_length sk s
    rw [h.1] at this; simp at this; omega
  | lit ci w =>
    intro hc sk s t r h
    rw [step_lit_ok] at h
    obtain ⟨h1, h2⟩ := matchLit_append h
    have := skip_length sk s
    rw [h1] at this
    simp [P.consumes] at hc
    have : 0 < w.length := by cases w with | nil => exact absurd rfl hc | cons _ _ => simp
    simp at *; omega
  | seq p q ihp ihq =>
    intro hc sk s a r h
    rw [step_seq_ok] at h
    obtain ⟨t, h1, h2⟩ := h
    have l1 := (step_suffix hsuf _ _ _ _ _ h1).length_le
    have l2 := (step_suffix hsuf _ _ _ _ _ h2).length_le
    simp only [P.consumes, Bool.or_eq_true] at hc
    rcases hc with hc | hc
    · have := ihp hc _ _ _ _ h1; omega
    · have := ihq hc _ _ _ _ h2; omega
  | alt p q ihp ihq =>
    intro hc sk s a r h
    rw [step_alt_ok] at h
    simp only [P.consumes, Bool.and_eq_true] at hc
    rcases h with h | ⟨-, h⟩
    · exact ihp hc.1 _ _ _ _ h
    · exact ihq hc.2 _ _ _ _ h
  | star p ih => intro hc; simp [P.consumes] at hc
  | notP p ih => intro hc; simp [P.consumes] at hc
  | andP p ih => intro hc; simp [P.consumes] at hc
  | expect w p ih => intro hc sk s a r h; rw [step_expect_ok] at h; exact ih hc _ _ _ _ h
  | map f p ih =>
    intro hc sk s a r h; rw [step_map_ok] at h
    obtain ⟨x, h, -⟩ := h; exact ih hc _ _ _ _ h
  | act f p ih =>
    intro hc sk s a r h; rw [step_act_ok] at h
    obtain ⟨x, h, -⟩ := h; exact ih hc _ _ _ _ h
  | lexeme p ih =>
    intro hc sk s a r h
    have := ih hc false (skip sk s) a r h
    have := skip_length sk s
    omega
  | noskip p ih => intro hc sk s a r h; exact ih hc false s a r h
  | nt n => intro _ sk s a r h; exact hrec n sk s a r h

theorem run_consumes {g : (n : N) → P A (A n)} (hg : ∀ n, (g n).consumes = true) :
    ∀ f n sk s a r, run g f n sk s = .ok a r → r.length < s.length
  | 0, _, _, _, _, _, h => by simp [run] at h
  | f + 1, n, sk, s, a, r, h =>
    step_consumes (run_suffix g f) (run_consumes hg f) (g n) (hg n) sk s a r h

/-! ### Termination -/

/-- The static check.  Every rule has a rank below `k`; `wf rank k b p` says that the rules `p`
can call before consuming anything have rank below `b` (so there is no left recursion) and that
the body of every star consumes. -/
def P.wf (rank : N → Nat) (k : Nat) : Nat → {α : Type} → P A α → Bool
  | _, _, .pure _ => true
  | _, _, .chr _ => true
  | _, _, .lit _ _ => true
  | b, _, .seq p q => P.wf rank k b p && P.wf rank k (if p.consumes then k else b) q
  | b, _, .alt p q => P.wf rank k b p && P.wf rank k b q
  | b, _, .star p => p.consumes && P.wf rank k b p
  | b, _, .notP p => P.wf rank k b p
  | b, _, .andP p => P.wf rank k b p
  | b, _, .expect _ p => P.wf rank k b p
  | b, _, .map _ p => P.wf rank k b p
  | b, _, .act _ p => P.wf rank k b p
  | b, _, .lexeme p => P.wf rank k b p
  | b, _, .noskip p => P.wf rank k b p
  | b, _, .nt n => rank n < b

/-- Soundness of `P.wf`: if the rules end on shorter inputs, and on inputs of the same length when
their rank is below `b`, then `p` ends. -/
theorem step_not_oof {rec : (n : N) → Bool → Str → Res (A n)} {rank : N → Nat} {k : Nat}
    (hsuf : ∀ n sk s a r, rec n sk s = .ok a r → r <:+ s)
    (hrec : ∀ n sk s a r, rec n sk s = .ok a r → r.length < s.length) {α : Type} (p : P A α) :
    ∀ b, P.wf rank k b p = true → ∀ sk s,
      (∀ n sk' t, (t.length < s.length ∨ (t.length ≤ s.length ∧ rank n < b)) →
        rec n sk' t ≠ .oof) →
      step rec p sk s ≠ .oof := by
  induction p with
  | pure a => intro b _ sk s _; exact step_pure_oof
  | chr f => intro b _ sk s _; exact step_chr_oof
  | lit ci w => intro b _ sk s _; exact step_lit_oof
  | seq p q ihp ihq =>
    intro b hw sk s H h
    simp only [P.wf, Bool.and_eq_true] at hw
    rw [step_seq_oof] at h
    rcases h with h | ⟨a, t, h1, h2⟩
    · exact ihp b hw.1 sk s H h
    · by_cases hc : p.consumes = true
      · have hl := step_consumes hsuf hrec p hc _ _ _ _ h1
        simp only [hc, if_true] at hw
        exact ihq k hw.2 sk t (fun n sk' u hu => H n sk' u (.inl (by omega))) h2
      · have hl := (step_suffix hsuf _ _ _ _ _ h1).length_le
        simp only [hc] at hw
        refine ihq b hw.2 sk t (fun n sk' u hu => H n sk' u ?_) h2
        rcases hu with hu | ⟨hu, hr⟩
        · left; omega
        · right; exact ⟨by omega, hr⟩
  | alt p q ihp ihq =>
    intro b hw sk s H h
    simp only [P.wf, Bool.and_eq_true] at hw
    rw [step_alt_oof] at h
    rcases h with h | ⟨-, h⟩
    · exact ihp b hw.1 sk s H h
    · exact ihq b hw.2 sk s H h
  | star p ih =>
    intro b hw sk s H h
    simp only [P.wf, Bool.and_eq_true] at hw
    obtain ⟨t, h1, h2⟩ := step_star_oof h
    have hl := (h1.suffix (fun s a r => step_suffix hsuf p sk s a r)).length_le
    rcases h2 with h2 | ⟨a, r, h2, h3⟩
    · refine ih b hw.2 sk t (fun n sk' u hu => H n sk' u ?_) h2
      rcases hu with hu | ⟨hu, hr⟩
      · left; omega
      · right; exact ⟨by omega, hr⟩
    · exact h3 (step_consumes hsuf hrec p hw.1 _ _ _ _ h2)
  | notP p ih => intro b hw sk s H h; rw [step_notP_oof] at h; exact ih b hw sk s H h
  | andP p ih => intro b hw sk s H h; rw [step_andP_oof] at h; exact ih b hw sk s H h
  | expect w p ih => intro b hw sk s H h; rw [step_expect_oof] at h; exact ih b hw sk s H h
  | map f p ih => intro b hw sk s H h; rw [step_map_oof] at h; exact ih b hw sk s H h
  | act f p ih => intro b hw sk s H h; rw [step_act_oof] at h; exact ih b hw sk s H h
  | lexeme p ih =>
    intro b hw sk s H h
    have := skip_length sk s
    refine ih b hw false (skip sk s) (fun n sk' u hu => H n sk' u ?_) h
    rcases hu with hu | ⟨hu, hr⟩
    · left; omega
    · right; exact ⟨by omega, hr⟩
  | noskip p ih => intro b hw sk s H h; exact ih b hw false s H h
  | nt n =>
    intro b hw sk s H h
    simp only [P.wf, decide_eq_true_eq] at hw
    exact H n sk s (.inr ⟨Nat.le_refl _, hw⟩) h

/-- The static check of a whole grammar. -/
structure WellFormed (g : (n : N) → P A (A n)) (rank : N → Nat) (k : Nat) : Prop where
  consumes : ∀ n, (g n).consumes = true
  wf : ∀ n, P.wf rank k (rank n) (g n) = true
  rank_lt : ∀ n, rank n < k

/-- Parsing with a well-formed grammar ends. -/
theorem run_not_oof {g : (n : N) → P A (A n)} {rank : N → Nat} {k : Nat}
    (hg : WellFormed g rank k) : ∀ f n sk s, k * s.length + rank n < f → run g f n sk s ≠ .oof
  | 0, n, sk, s, h => by omega
  | f + 1, n, sk, s, h => by
    refine step_not_oof (run_suffix g f) (run_consumes hg.consumes f) (g n) (rank n) (hg.wf n) sk s
      (fun m sk' t ht => run_not_oof hg f m sk' t ?_)
    have := hg.rank_lt m
    rcases ht with ht | ⟨ht, hr⟩
    · have : k * (t.length + 1) ≤ k * s.length := Nat.mul_le_mul_left k ht
      rw [Nat.mul_add] at this; omega
    · have : k * t.length ≤ k * s.length := Nat.mul_le_mul_left k ht
      omega

/-! ### More fuel changes nothing -/

theorem starLoop_mono {α : Type} {f f' : Str → Res α} (h : ∀ s, f s ≠ .oof → f' s = f s) :
    ∀ n s, starLoop f n s ≠ .oof → starLoop f' n s = starLoop f n s
  | 0, s, hs => by simp [starLoop] at hs
  | n + 1, s, hs => by
    have hf : f s ≠ .oof := by intro h'; apply hs; simp [starLoop, h']
    unfold starLoop at hs ⊢
    rw [h s hf]
    cases hfs : f s with
    | ok a r =>
      simp only
      split
      · rename_i hl
        have : starLoop f n r ≠ .oof := by
          intro h'; apply hs; simp [hfs, h']
        rw [starLoop_mono h n r this]
      · rfl
    | _ => rfl

/-- Agreement of two ways of running the rules is inherited by expressions. -/
theorem step_mono {rec rec' : (n : N) → Bool → Str → Res (A n)}
    (h : ∀ n sk s, rec n sk s ≠ .oof → rec' n sk s = rec n sk s) {α : Type} (p : P A α) :
    ∀ sk s, step rec p sk s ≠ .oof → step rec' p sk s = step rec p sk s := by
  induction p with
  | pure a => intro sk s _; rfl
  | chr f => intro sk s _; rfl
  | lit ci w => intro sk s _; rfl
  | seq p q ihp ihq =>
    intro sk s hs
    have hp : step rec p sk s ≠ .oof := by intro h'; apply hs; rw [step_seq_oof]; exact .inl h'
    simp only [step] at hs ⊢
    rw [ihp sk s hp]
    cases h1 : step rec p sk s with
    | ok a t =>
      simp only
      have hq : step rec q sk t ≠ .oof := by intro h'; apply hs; simp [h1, h']
      rw [ihq sk t hq]
    | _ => rfl
  | alt p q ihp ihq =>
    intro sk s hs
    have hp : step rec p sk s ≠ .oof := by intro h'; apply hs; rw [step_alt_oof]; exact .inl h'
    simp only [step] at hs ⊢
    rw [ihp sk s hp]
    cases h1 : step rec p sk s with
    | fail =>
      simp only
      exact ihq sk s (by intro h'; apply hs; simp [h1, h'])
    | _ => rfl
  | star p ih => intro sk s hs; exact starLoop_mono (fun t => ih sk t) _ s hs
  | notP p ih =>
    intro sk s hs
    have hp : step rec p sk s ≠ .oof := by intro h'; apply hs; rw [step_notP_oof]; exact h'
    simp only [step]; rw [ih sk s hp]
  | andP p ih =>
    intro sk s hs
    have hp : step rec p sk s ≠ .oof := by intro h'; apply hs; rw [step_andP_oof]; exact h'
    simp only [step]; rw [ih sk s hp]
  | expect w p ih =>
    intro sk s hs
    have hp : step rec p sk s ≠ .oof := by intro h'; apply hs; rw [step_expect_oof]; exact h'
    simp only [step]; rw [ih sk s hp]
  | map f p ih =>
    intro sk s hs
    have hp : step rec p sk s ≠ .oof := by intro h'; apply hs; rw [step_map_oof]; exact h'
    simp only [step]; rw [ih sk s hp]
  | act f p ih =>
    intro sk s hs
    have hp : step rec p sk s ≠ .oof := by intro h'; apply hs; rw [step_act_oof]; exact h'
    simp only [step]; rw [ih sk s hp]
  | lexeme p ih => intro sk s hs; exact ih false (skip sk s) hs
  | noskip p ih => intro sk s hs; exact ih false s hs
  | nt n => intro sk s hs; exact h n sk s hs

theorem run_mono (g : (n : N) → P A (A n)) : ∀ f f' n sk s, f ≤ f' →
    run g f n sk s ≠ .oof → run g f' n sk s = run g f n sk s
  | 0, _, _, _, _, _, h => by simp [run] at h
  | f + 1, 0, _, _, _, h, _ => by omega
  | f + 1, f' + 1, n, sk, s, hl, h =>
    step_mono (fun n sk s => run_mono g f f' n sk s (by omega)) (g n) sk s h

/-! ### The meaning of a rule, without fuel -/

/-- The meaning of rule `n`: the result of running it with enough fuel. -/
def den (g : (n : N) → P A (A n)) (k : Nat) (n : N) (sk : Bool) (s : Str) : Res (A n) :=
  run g (k * (s.length + 1)) n sk s

theorem run_eq_den {g : (n : N) → P A (A n)} {rank : N → Nat} {k : Nat}
    (hg : WellFormed g rank k) {f : Nat} {n : N} {sk : Bool} {s : Str}
    (h : run g f n sk s ≠ .oof) : run g f n sk s = den g k n sk s := by
  have h1 : den g k n sk s ≠ .oof :=
    run_not_oof hg _ n sk s (by have := hg.rank_lt n; rw [Nat.mul_add]; omega)
  rcases Nat.le_total f (k * (s.length + 1)) with hl | hl
  · exact (run_mono g _ _ n sk s hl h).symm
  · exact run_mono g _ _ n sk s hl h1

theorem den_not_oof {g : (n : N) → P A (A n)} {rank : N → Nat} {k : Nat}
    (hg : WellFormed g rank k) (n : N) (sk : Bool) (s : Str) : den g k n sk s ≠ .oof :=
  run_not_oof hg _ n sk s (by have := hg.rank_lt n; rw [Nat.mul_add]; omega)

/-- The rules satisfy their defining equations. -/
theorem den_eq {g : (n : N) → P A (A n)} {rank : N → Nat} {k : Nat}
    (hg : WellFormed g rank k) (n : N) (sk : Bool) (s : Str) :
    den g k n sk s = step (den g k) (g n) sk s := by
  have h0 := den_not_oof hg n sk s
  have hk := hg.rank_lt n
  have : ∃ f, k * (s.length + 1) = f + 1 :=
    ⟨k * (s.length + 1) - 1, by
      have : 0 < k * (s.length + 1) := Nat.mul_pos (by omega) (by omega)
      omega⟩
  obtain ⟨f, hf⟩ := this
  have h1 : den g k n sk s = step (run g f) (g n) sk s := by
    unfold den; rw [hf]; rfl
  rw [h1]
  symm
  apply step_mono
  · intro m sk' t ht; exact (run_eq_den hg ht).symm
  · rw [← h1]; exact h0

/-- An expression run with any sufficient fuel has its meaning. -/
theorem step_run_eq_den {g : (n : N) → P A (A n)} {rank : N → Nat} {k : Nat}
    (hg : WellFormed g rank k) {f : Nat} {α : Type} (p : P A α) {sk : Bool} {s : Str}
    (h : step (run g f) p sk s ≠ .oof) : step (run g f) p sk s = step (den g k) p sk s := by
  symm
  apply step_mono (rec := run g f)
  · intro m sk' t ht; exact (run_eq_den hg ht).symm
  · exact h

theorem den_suffix {g : (n : N) → P A (A n)} {k : Nat} (n : N) (sk : Bool) (s : Str) (a : A n)
    (r : Str) (h : den g k n sk s = .ok a r) : r <:+ s := run_suffix g _ n sk s a r h

theorem den_err_suffix {g : (n : N) → P A (A n)} {k : Nat} (n : N) (sk : Bool) (s : Str)
    (w : String) (r : Str) (h : den g k n sk s = .err (.expect w r)) : r <:+ s :=
  run_err_suffix g _ n sk s w r h

end Adql
