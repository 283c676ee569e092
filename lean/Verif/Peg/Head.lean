import Verif.Peg.Meta

/-!
# Leading blanks

A syntactic check (`P.headOK`) under which blanks in front of the input make no difference.
-/

namespace Adql

variable {N : Type} {A : N → Type}

/-- The same result, or success without consuming anything on both inputs. -/
def SameHead (b s : Str) {α : Type} (x y : Res α) : Prop :=
  x = y ∨ ∃ a, x = .ok a (b ++ s) ∧ y = .ok a s

/-- Before consuming anything `p` only runs primitives under the skipper, and no expectation
point. -/
def P.headOK : {α : Type} → P A α → Bool
  | _, .pure _ => true
  | _, .chr _ => true
  | _, .lit _ w => !w.isEmpty
  | _, .seq p q => p.headOK && (p.consumes || q.headOK)
  | _, .alt p q => p.headOK && q.headOK
  | _, .star p => p.headOK && p.consumes
  | _, .notP p => p.headOK
  | _, .andP p => p.headOK
  | _, .expect _ _ => false
  | _, .map _ p => p.headOK
  | _, .act _ p => p.headOK
  | _, .lexeme p => p.consumes
  | _, .noskip _ => false
  | _, .nt _ => true

theorem dropWhile_blanks {b : Str} (hb : ∀ c ∈ b, isSpace c = true) (s : Str) :
    (b ++ s).dropWhile isSpace = s.dropWhile isSpace := by
  induction b with
  | nil => rfl
  | cons c b ih =>
    simp only [List.cons_append, List.dropWhile_cons, hb c (by simp), if_true]
    exact ih (fun d hd => hb d (by simp [hd]))

theorem starLoop_fuel {α : Type} {f : Str → Res α} : ∀ n m s, s.length < n → s.length < m →
    starLoop f n s = starLoop f m s
  | 0, _, _, h, _ => by omega
  | _ + 1, 0, _, _, h => by omega
  | n + 1, m + 1, s, h1, h2 => by
    unfold starLoop
    cases f s with
    | ok a r =>
      simp only
      split
      · rw [starLoop_fuel n m r (by omega) (by omega)]
      · rfl
    | _ => rfl

theorem step_head {b : Str} (hb : ∀ c ∈ b, isSpace c = true)
    {rec : (n : N) → Bool → Str → Res (A n)}
    (hsuf : ∀ n sk s a r, rec n sk s = .ok a r → r <:+ s)
    (hcon : ∀ n sk s a r, rec n sk s = .ok a r → r.length < s.length)
    (hrec : ∀ n s, SameHead b s (rec n true (b ++ s)) (rec n true s)) {α : Type} (p : P A α) :
    p.headOK = true → ∀ s, SameHead b s (step rec p true (b ++ s)) (step rec p true s) := by
  have hsk : ∀ s, skip true (b ++ s) = skip true s := fun s => dropWhile_blanks hb s
  induction p with
  | pure a => intro _ s; exact .inr ⟨a, rfl, rfl⟩
  | chr f => intro _ s; left; simp only [step, hsk]
  | lit ci w => intro _ s; left; simp only [step, hsk]
  | seq p q ihp ihq =>
    intro h s
    simp only [P.headOK, Bool.and_eq_true, Bool.or_eq_true] at h
    simp only [step]
    rcases ihp h.1 s with h1 | ⟨a, h1, h2⟩
    · rw [h1]; exact .inl rfl
    · rcases h.2 with hc | hq
      · have := step_consumes hsuf hcon p hc _ _ _ _ h2; omega
      · rw [h1, h2]; simp only
        rcases ihq hq s with h3 | ⟨a', h3, h4⟩
        · rw [h3]; exact .inl rfl
        · rw [h3, h4]; exact .inr ⟨_, rfl, rfl⟩
  | alt p q ihp ihq =>
    intro h s
    simp only [P.headOK, Bool.and_eq_true] at h
    simp only [step]
    rcases ihp h.1 s with h1 | ⟨a, h1, h2⟩
    · rw [h1]
      cases step rec p true s with
      | fail => exact ihq h.2 s
      | _ => exact .inl rfl
    · rw [h1, h2]; exact .inr ⟨_, rfl, rfl⟩
  | star p ih =>
    intro h s
    simp only [P.headOK, Bool.and_eq_true] at h
    have hl : ∀ s a r, step rec p true s = .ok a r → r.length < s.length :=
      fun s a r => step_consumes hsuf hcon p h.2 true s a r
    simp only [step]
    unfold starLoop
    rcases ih h.1 s with h1 | ⟨a, h1, h2⟩
    · rw [h1]
      cases h2 : step rec p true s with
      | ok a r =>
        have l1 := hl _ _ _ h2
        have l2 : r.length < (b ++ s).length := by simp; omega
        simp only [l1, l2, if_true]
        rw [starLoop_fuel (b ++ s).length s.length r l2 l1]; exact .inl rfl
      | fail => exact .inr ⟨_, rfl, rfl⟩
      | _ => exact .inl rfl
    · have := hl _ _ _ h2; omega
  | notP p ih =>
    intro h s
    simp only [step]
    rcases ih h s with h1 | ⟨a, h1, h2⟩
    · rw [h1]
      cases step rec p true s with
      | fail => exact .inr ⟨_, rfl, rfl⟩
      | _ => exact .inl rfl
    · rw [h1, h2]; exact .inl rfl
  | andP p ih =>
    intro h s
    simp only [step]
    rcases ih h s with h1 | ⟨a, h1, h2⟩
    · rw [h1]
      cases step rec p true s with
      | ok a r => exact .inr ⟨_, rfl, rfl⟩
      | _ => exact .inl rfl
    · rw [h1, h2]; exact .inr ⟨_, rfl, rfl⟩
  | expect w p ih => intro h; simp [P.headOK] at h
  | map f p ih =>
    intro h s
    simp only [step]
    rcases ih h s with h1 | ⟨a, h1, h2⟩
    · rw [h1]; exact .inl rfl
    · rw [h1, h2]; exact .inr ⟨_, rfl, rfl⟩
  | act f p ih =>
    intro h s
    simp only [step]
    rcases ih h s with h1 | ⟨a, h1, h2⟩
    · rw [h1]; exact .inl rfl
    · rw [h1, h2]; simp only
      cases f a with
      | ok c => exact .inr ⟨_, rfl, rfl⟩
      | _ => exact .inl rfl
  | lexeme p ih => intro _ s; left; simp only [step, hsk]
  | noskip p ih => intro h; simp [P.headOK] at h
  | nt n => intro _ s; exact hrec n s

theorem run_head {b : Str} (hb : ∀ c ∈ b, isSpace c = true) {g : (n : N) → P A (A n)}
    (hg : ∀ n, (g n).consumes = true) (hh : ∀ n, (g n).headOK = true) :
    ∀ f n s, SameHead b s (run g f n true (b ++ s)) (run g f n true s)
  | 0, _, _ => .inl rfl
  | f + 1, n, s =>
    step_head hb (run_suffix g f) (run_consumes hg f) (run_head hb hg hh f) (g n) (hh n) s

end Adql
