import Verif.Peg.Core

/-!
# Inversion of the interpreter

For every operator: when does a run succeed, fail, throw or run out of fuel.
-/

namespace Adql

variable {N : Type} {A : N → Type} {rec : (n : N) → Bool → Str → Res (A n)}
variable {α β : Type} {sk : Bool} {s : Str}

section ok

theorem step_pure_ok {a b : α} {r : Str} :
    step rec (.pure a) sk s = .ok b r ↔ b = a ∧ r = s := by
  simp [step, eq_comm]

theorem step_chr_ok {f : Char → Bool} {c : Char} {r : Str} :
    step rec (.chr f) sk s = .ok c r ↔ skip sk s = c :: r ∧ f c = true := by
  simp only [step]
  cases h : skip sk s with
  | nil => simp
  | cons d t =>
    by_cases hf : f d = true
    · simp only [hf, if_true, Res.ok.injEq, List.cons.injEq]
      constructor
      · rintro ⟨rfl, rfl⟩; exact ⟨⟨rfl, rfl⟩, hf⟩
      · rintro ⟨⟨rfl, rfl⟩, -⟩; exact ⟨rfl, rfl⟩
    · simp only [hf]
      constructor
      · intro h; simp at h
      · rintro ⟨h1, h2⟩; simp at h1; rw [h1.1] at hf; exact absurd h2 hf

theorem step_lit_ok {ci : Bool} {w t r : Str} :
    step rec (.lit ci w) sk s = .ok t r ↔ matchLit ci w (skip sk s) = some (t, r) := by
  simp only [step]
  cases h : matchLit ci w (skip sk s) with
  | none => simp
  | some x => obtain ⟨t', r'⟩ := x; simp

theorem step_seq_ok {p : P A α} {q : P A β} {x : α × β} {r : Str} :
    step rec (.seq p q) sk s = .ok x r ↔
      ∃ t, step rec p sk s = .ok x.1 t ∧ step rec q sk t = .ok x.2 r := by
  simp only [step]
  cases h : step rec p sk s with
  | ok a t =>
    simp only
    cases h' : step rec q sk t with
    | ok b u =>
      simp only [Res.ok.injEq]
      constructor
      · rintro ⟨rfl, rfl⟩; exact ⟨t, ⟨rfl, rfl⟩, h'⟩
      · rintro ⟨t', ⟨h1, rfl⟩, h2⟩
        rw [h'] at h2; cases h2; exact ⟨by rw [h1], rfl⟩
    | _ =>
      simp only [reduceCtorEq, false_iff, not_exists, Res.ok.injEq]
      rintro t' ⟨⟨-, rfl⟩, h2⟩; rw [h'] at h2; cases h2
  | _ => simp

theorem step_alt_ok {p q : P A α} {x : α} {r : Str} :
    step rec (.alt p q) sk s = .ok x r ↔
      step rec p sk s = .ok x r ∨ (step rec p sk s = .fail ∧ step rec q sk s = .ok x r) := by
  simp only [step]
  cases h : step rec p sk s <;> simp

theorem step_notP_ok {p : P A α} {x : Unit} {r : Str} :
    step rec (.notP p) sk s = .ok x r ↔ step rec p sk s = .fail ∧ r = s := by
  simp only [step]
  cases h : step rec p sk s <;> simp [eq_comm]

theorem step_andP_ok {p : P A α} {x : α} {r : Str} :
    step rec (.andP p) sk s = .ok x r ↔ (∃ t, step rec p sk s = .ok x t) ∧ r = s := by
  simp only [step]
  cases h : step rec p sk s <;> simp [eq_comm]

theorem step_expect_ok {w : String} {p : P A α} {x : α} {r : Str} :
    step rec (.expect w p) sk s = .ok x r ↔ step rec p sk s = .ok x r := by
  simp only [step]
  cases h : step rec p sk s <;> simp

theorem step_map_ok {f : α → β} {p : P A α} {y : β} {r : Str} :
    step rec (.map f p) sk s = .ok y r ↔ ∃ x, step rec p sk s = .ok x r ∧ f x = y := by
  simp only [step]
  cases h : step rec p sk s with
  | ok a t =>
    simp only [Res.ok.injEq]
    constructor
    · rintro ⟨rfl, rfl⟩; exact ⟨a, ⟨rfl, rfl⟩, rfl⟩
    · rintro ⟨x, ⟨rfl, rfl⟩, rfl⟩; exact ⟨rfl, rfl⟩
  | _ => simp

theorem step_act_ok {f : α → Out β} {p : P A α} {y : β} {r : Str} :
    step rec (.act f p) sk s = .ok y r ↔ ∃ x, step rec p sk s = .ok x r ∧ f x = .ok y := by
  simp only [step]
  cases h : step rec p sk s with
  | ok a t =>
    simp only [Res.ok.injEq]
    cases hf : f a with
    | ok b =>
      simp only [Res.ok.injEq]
      constructor
      · rintro ⟨rfl, rfl⟩; exact ⟨a, ⟨rfl, rfl⟩, hf⟩
      · rintro ⟨x, ⟨rfl, rfl⟩, h⟩; rw [hf] at h; cases h; exact ⟨rfl, rfl⟩
    | _ =>
      simp only [reduceCtorEq, false_iff, not_exists]
      rintro x ⟨⟨rfl, rfl⟩, h⟩; rw [hf] at h; cases h
  | _ => simp

theorem step_lexeme {p : P A α} :
    step rec (.lexeme p) sk s = step rec p false (skip sk s) := rfl

theorem step_noskip {p : P A α} : step rec (.noskip p) sk s = step rec p false s := rfl

theorem step_nt {n : N} : step rec (.nt n) sk s = rec n sk s := rfl

end ok

section err

theorem step_pure_err {a : α} {e : Err} : step rec (.pure a) sk s ≠ .err e := by simp [step]

theorem step_chr_err {f : Char → Bool} {e : Err} : step rec (.chr f) sk s ≠ .err e := by
  simp only [step]
  cases h : skip sk s with
  | nil => simp
  | cons d t => by_cases hf : f d = true <;> simp [hf]

theorem step_lit_err {ci : Bool} {w : Str} {e : Err} : step rec (.lit ci w) sk s ≠ .err e := by
  simp only [step]
  cases h : matchLit ci w (skip sk s) <;> simp

theorem step_seq_err {p : P A α} {q : P A β} {e : Err} :
    step rec (.seq p q) sk s = .err e ↔
      step rec p sk s = .err e ∨ ∃ a t, step rec p sk s = .ok a t ∧ step rec q sk t = .err e := by
  simp only [step]
  cases h : step rec p sk s with
  | ok a t =>
    simp only
    cases h' : step rec q sk t with
    | err e' =>
      simp only [Res.err.injEq, reduceCtorEq, Res.ok.injEq, false_or]
      constructor
      · rintro rfl; exact ⟨a, t, ⟨rfl, rfl⟩, h'⟩
      · rintro ⟨a', t', ⟨rfl, rfl⟩, h2⟩; rw [h'] at h2; cases h2; rfl
    | _ =>
      simp only [reduceCtorEq, Res.ok.injEq, false_or, false_iff, not_exists]
      rintro a' t' ⟨⟨rfl, rfl⟩, h2⟩; rw [h'] at h2; cases h2
  | _ => simp

theorem step_alt_err {p q : P A α} {e : Err} :
    step rec (.alt p q) sk s = .err e ↔
      step rec p sk s = .err e ∨ (step rec p sk s = .fail ∧ step rec q sk s = .err e) := by
  simp only [step]
  cases h : step rec p sk s <;> simp

theorem step_notP_err {p : P A α} {e : Err} :
    step rec (.notP p) sk s = .err e ↔ step rec p sk s = .err e := by
  simp only [step]
  cases h : step rec p sk s <;> simp

theorem step_andP_err {p : P A α} {e : Err} :
    step rec (.andP p) sk s = .err e ↔ step rec p sk s = .err e := by
  simp only [step]
  cases h : step rec p sk s <;> simp

theorem step_expect_err {w : String} {p : P A α} {e : Err} :
    step rec (.expect w p) sk s = .err e ↔
      step rec p sk s = .err e ∨ (step rec p sk s = .fail ∧ e = .expect w s) := by
  simp only [step]
  cases h : step rec p sk s <;> simp [eq_comm]

theorem step_map_err {f : α → β} {p : P A α} {e : Err} :
    step rec (.map f p) sk s = .err e ↔ step rec p sk s = .err e := by
  simp only [step]
  cases h : step rec p sk s <;> simp

theorem step_act_err {f : α → Out β} {p : P A α} {e : Err} :
    step rec (.act f p) sk s = .err e ↔
      step rec p sk s = .err e ∨
        ∃ x r n, step rec p sk s = .ok x r ∧ f x = .throw n ∧ e = .noTable n := by
  simp only [step]
  cases h : step rec p sk s with
  | ok a t =>
    simp only
    cases hf : f a with
    | throw n =>
      simp only [Res.err.injEq, reduceCtorEq, Res.ok.injEq, false_or]
      constructor
      · rintro rfl; exact ⟨a, t, n, ⟨rfl, rfl⟩, hf, rfl⟩
      · rintro ⟨a', t', n', ⟨rfl, rfl⟩, h2, rfl⟩; rw [hf] at h2; cases h2; rfl
    | _ =>
      simp only [reduceCtorEq, Res.ok.injEq, false_or, false_iff, not_exists]
      rintro a' t' n' ⟨⟨rfl, rfl⟩, h2, -⟩; rw [hf] at h2; cases h2
  | _ => simp

end err

section oof

theorem step_pure_oof {a : α} : step rec (.pure a) sk s ≠ .oof := by simp [step]

theorem step_chr_oof {f : Char → Bool} : step rec (.chr f) sk s ≠ .oof := by
  simp only [step]
  cases h : skip sk s with
  | nil => simp
  | cons d t => by_cases hf : f d = true <;> simp [hf]

theorem step_lit_oof {ci : Bool} {w : Str} : step rec (.lit ci w) sk s ≠ .oof := by
  simp only [step]
  cases h : matchLit ci w (skip sk s) <;> simp

theorem step_seq_oof {p : P A α} {q : P A β} :
    step rec (.seq p q) sk s = .oof ↔
      step rec p sk s = .oof ∨ ∃ a t, step rec p sk s = .ok a t ∧ step rec q sk t = .oof := by
  simp only [step]
  cases h : step rec p sk s with
  | ok a t =>
    simp only
    cases h' : step rec q sk t with
    | oof =>
      simp only [reduceCtorEq, Res.ok.injEq, false_or, true_iff]
      exact ⟨a, t, ⟨rfl, rfl⟩, h'⟩
    | _ =>
      simp only [reduceCtorEq, Res.ok.injEq, false_or, false_iff, not_exists]
      rintro a' t' ⟨⟨rfl, rfl⟩, h2⟩; rw [h'] at h2; cases h2
  | _ => simp

theorem step_alt_oof {p q : P A α} :
    step rec (.alt p q) sk s = .oof ↔
      step rec p sk s = .oof ∨ (step rec p sk s = .fail ∧ step rec q sk s = .oof) := by
  simp only [step]
  cases h : step rec p sk s <;> simp

theorem step_notP_oof {p : P A α} :
    step rec (.notP p) sk s = .oof ↔ step rec p sk s = .oof := by
  simp only [step]
  cases h : step rec p sk s <;> simp

theorem step_andP_oof {p : P A α} :
    step rec (.andP p) sk s = .oof ↔ step rec p sk s = .oof := by
  simp only [step]
  cases h : step rec p sk s <;> simp

theorem step_expect_oof {w : String} {p : P A α} :
    step rec (.expect w p) sk s = .oof ↔ step rec p sk s = .oof := by
  simp only [step]
  cases h : step rec p sk s <;> simp

theorem step_map_oof {f : α → β} {p : P A α} :
    step rec (.map f p) sk s = .oof ↔ step rec p sk s = .oof := by
  simp only [step]
  cases h : step rec p sk s <;> simp

theorem step_act_oof {f : α → Out β} {p : P A α} :
    step rec (.act f p) sk s = .oof ↔ step rec p sk s = .oof := by
  simp only [step]
  cases h : step rec p sk s with
  | ok a t => cases hf : f a <;> simp [hf]
  | _ => simp

end oof

section fail

theorem step_pure_fail {a : α} : step rec (.pure a) sk s ≠ .fail := by simp [step]

theorem step_chr_fail {f : Char → Bool} :
    step rec (.chr f) sk s = .fail ↔ ∀ c r, skip sk s = c :: r → f c = false := by
  simp only [step]
  cases h : skip sk s with
  | nil => simp
  | cons d t =>
    by_cases hf : f d = true
    · simp [hf]
    · simp [hf]

theorem step_lit_fail {ci : Bool} {w : Str} :
    step rec (.lit ci w) sk s = .fail ↔ matchLit ci w (skip sk s) = none := by
  simp only [step]
  cases h : matchLit ci w (skip sk s) <;> simp

theorem step_seq_fail {p : P A α} {q : P A β} :
    step rec (.seq p q) sk s = .fail ↔
      step rec p sk s = .fail ∨ ∃ a t, step rec p sk s = .ok a t ∧ step rec q sk t = .fail := by
  simp only [step]
  cases h : step rec p sk s with
  | ok a t =>
    simp only
    cases h' : step rec q sk t with
    | fail =>
      simp only [reduceCtorEq, Res.ok.injEq, false_or, true_iff]
      exact ⟨a, t, ⟨rfl, rfl⟩, h'⟩
    | _ =>
      simp only [reduceCtorEq, Res.ok.injEq, false_or, false_iff, not_exists]
      rintro a' t' ⟨⟨rfl, rfl⟩, h2⟩; rw [h'] at h2; cases h2
  | _ => simp

theorem step_alt_fail {p q : P A α} :
    step rec (.alt p q) sk s = .fail ↔ step rec p sk s = .fail ∧ step rec q sk s = .fail := by
  simp only [step]
  cases h : step rec p sk s <;> simp

theorem step_notP_fail {p : P A α} :
    step rec (.notP p) sk s = .fail ↔ ∃ a r, step rec p sk s = .ok a r := by
  simp only [step]
  cases h : step rec p sk s <;> simp

theorem step_andP_fail {p : P A α} :
    step rec (.andP p) sk s = .fail ↔ step rec p sk s = .fail := by
  simp only [step]
  cases h : step rec p sk s <;> simp

theorem step_expect_fail {w : String} {p : P A α} : step rec (.expect w p) sk s ≠ .fail := by
  simp only [step]
  cases h : step rec p sk s <;> simp

theorem step_map_fail {f : α → β} {p : P A α} :
    step rec (.map f p) sk s = .fail ↔ step rec p sk s = .fail := by
  simp only [step]
  cases h : step rec p sk s <;> simp

theorem step_act_fail {f : α → Out β} {p : P A α} :
    step rec (.act f p) sk s = .fail ↔
      step rec p sk s = .fail ∨ ∃ x r, step rec p sk s = .ok x r ∧ f x = .fail := by
  simp only [step]
  cases h : step rec p sk s with
  | ok a t =>
    simp only
    cases hf : f a with
    | fail =>
      simp only [reduceCtorEq, Res.ok.injEq, false_or, true_iff]
      exact ⟨a, t, ⟨rfl, rfl⟩, hf⟩
    | _ =>
      simp only [reduceCtorEq, Res.ok.injEq, false_or, false_iff, not_exists]
      rintro a' t' ⟨⟨rfl, rfl⟩, h2⟩; rw [hf] at h2; cases h2
  | _ => simp

end fail

/-! ### Kleene star -/

/-- Successful iterations: `Iter f s as r` says that `f` succeeded repeatedly from `s`, with
attributes `as`, consuming each time, and then failed at `r`. -/
inductive Iter (f : Str → Res α) : Str → List α → Str → Prop
  | nil {s : Str} : f s = .fail → Iter f s [] s
  | cons {s r t : Str} {a : α} {as : List α} :
      f s = .ok a r → r.length < s.length → Iter f r as t → Iter f s (a :: as) t

theorem starLoop_ok {f : Str → Res α} : ∀ {n : Nat} {s : Str} {as : List α} {r : Str},
    starLoop f n s = .ok as r → Iter f s as r
  | 0, s, as, r, h => by simp [starLoop] at h
  | n + 1, s, as, r, h => by
    unfold starLoop at h
    cases hf : f s with
    | ok a t =>
      rw [hf] at h; simp only at h
      split at h
      · rename_i hl
        cases h' : starLoop f n t with
        | ok as' r' =>
          rw [h'] at h; cases h
          exact .cons hf hl (starLoop_ok h')
        | _ => rw [h'] at h; cases h
      · cases h
    | fail => rw [hf] at h; cases h; exact .nil hf
    | err e => rw [hf] at h; cases h
    | oof => rw [hf] at h; cases h

theorem Iter.starLoop {f : Str → Res α} {s : Str} {as : List α} {r : Str} (h : Iter f s as r) :
    ∀ n, s.length < n → starLoop f n s = .ok as r := by
  induction h with
  | nil hf =>
    intro n hn
    cases n with
    | zero => omega
    | succ n => simp [Adql.starLoop, hf]
  | cons hf hl _ ih =>
    intro n hn
    cases n with
    | zero => omega
    | succ n =>
      have := ih n (by omega)
      simp [Adql.starLoop, hf, hl, this]

theorem step_star_ok {p : P A α} {as : List α} {r : Str} :
    step rec (.star p) sk s = .ok as r ↔ Iter (step rec p sk) s as r := by
  constructor
  · intro h; exact starLoop_ok h
  · intro h; exact h.starLoop _ (Nat.lt_succ_self _)

theorem starLoop_not_fail {f : Str → Res α} : ∀ {n : Nat} {s : Str}, starLoop f n s ≠ .fail
  | 0, s => by simp [starLoop]
  | n + 1, s => by
    unfold starLoop
    cases hf : f s with
    | ok a t =>
      simp only
      split
      · cases h' : starLoop f n t with
        | fail => exact absurd h' starLoop_not_fail
        | _ => simp
      · simp
    | _ => simp

theorem step_star_fail {p : P A α} : step rec (.star p) sk s ≠ .fail := starLoop_not_fail

/-- Iterations that end at `r` with a result that is neither success nor failure. -/
inductive IterStop (f : Str → Res α) : Str → Str → Prop
  | here {s : Str} : IterStop f s s
  | cons {s r t : Str} {a : α} :
      f s = .ok a r → r.length < s.length → IterStop f r t → IterStop f s t

theorem starLoop_err {f : Str → Res α} {e : Err} : ∀ {n : Nat} {s : Str},
    starLoop f n s = .err e → ∃ t, IterStop f s t ∧ f t = .err e
  | 0, s, h => by simp [starLoop] at h
  | n + 1, s, h => by
    unfold starLoop at h
    cases hf : f s with
    | ok a t =>
      rw [hf] at h; simp only at h
      split at h
      · rename_i hl
        cases h' : starLoop f n t with
        | err e' =>
          rw [h'] at h; cases h
          obtain ⟨u, h1, h2⟩ := starLoop_err h'
          exact ⟨u, .cons hf hl h1, h2⟩
        | _ => rw [h'] at h; cases h
      · cases h
    | fail => rw [hf] at h; cases h
    | err e' => rw [hf] at h; cases h; exact ⟨s, .here, hf⟩
    | oof => rw [hf] at h; cases h

theorem step_star_err {p : P A α} {e : Err} (h : step rec (.star p) sk s = .err e) :
    ∃ t, IterStop (step rec p sk) s t ∧ step rec p sk t = .err e := starLoop_err h

theorem starLoop_oof {f : Str → Res α} : ∀ {n : Nat} {s : Str}, s.length < n →
    starLoop f n s = .oof →
    ∃ t, IterStop f s t ∧ (f t = .oof ∨ ∃ a r, f t = .ok a r ∧ ¬ r.length < t.length)
  | 0, s, hn, h => by omega
  | n + 1, s, hn, h => by
    unfold starLoop at h
    cases hf : f s with
    | ok a t =>
      rw [hf] at h; simp only at h
      split at h
      · rename_i hl
        cases h' : starLoop f n t with
        | oof =>
          obtain ⟨u, h1, h2⟩ := starLoop_oof (by omega) h'
          exact ⟨u, .cons hf hl h1, h2⟩
        | _ => rw [h'] at h; cases h
      · rename_i hl
        exact ⟨s, .here, .inr ⟨a, t, hf, hl⟩⟩
    | fail => rw [hf] at h; cases h
    | err e' => rw [hf] at h; cases h
    | oof => exact ⟨s, .here, .inl hf⟩

theorem step_star_oof {p : P A α} (h : step rec (.star p) sk s = .oof) :
    ∃ t, IterStop (step rec p sk) s t ∧
      (step rec p sk t = .oof ∨ ∃ a r, step rec p sk t = .ok a r ∧ ¬ r.length < t.length) :=
  starLoop_oof (Nat.lt_succ_self _) h

end Adql
