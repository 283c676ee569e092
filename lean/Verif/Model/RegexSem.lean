import Verif.Model.Query
import Verif.Model.Lex

/-!
# Soundness and completeness of the regex matcher

`Re.sem p s c s' c'`: the expression `p` can match a prefix of `s` leaving `s'`, with captures `c`
before and `c'` after, regardless of priorities.
-/

namespace Adql

/-- The possible matches of an expression. -/
def Re.sem : Re → Str → Caps → Str → Caps → Prop
  | .eps, s, c, s', c' => s' = s ∧ c' = c
  | .chr f, s, c, s', c' => (∃ d, s = d :: s' ∧ f d = true) ∧ c' = c
  | .seq p q, s, c, s', c' => ∃ s1 c1, p.sem s c s1 c1 ∧ q.sem s1 c1 s' c'
  | .alt p q, s, c, s', c' => p.sem s c s' c' ∨ q.sem s c s' c'
  | .many f, s, c, s', c' => (∃ t, s = t ++ s' ∧ ∀ d ∈ t, f d = true) ∧ c' = c
  | .manyLazy f, s, c, s', c' => (∃ t, s = t ++ s' ∧ ∀ d ∈ t, f d = true) ∧ c' = c
  | .grp i p, s, c, s', c' =>
    ∃ c1, p.sem s c s' c1 ∧ c' = (i, s.take (s.length - s'.length)) :: c1
  | .look p, s, c, s', c' => (s' = s ∧ c' = c) ∧ ∃ s1 c1, p.sem s c s1 c1
  | .eoi, s, c, s', c' => s = [] ∧ s' = [] ∧ c' = c

section
variable {R : Type}

theorem loopG_sound {f : Char → Bool} {k : Str → Option R} : ∀ {s : Str} {r : R},
    loopG f k s = some r → ∃ t s', s = t ++ s' ∧ (∀ d ∈ t, f d = true) ∧ k s' = some r
  | [], r, h => ⟨[], [], rfl, by simp, h⟩
  | c :: s, r, h => by
    unfold loopG at h
    split at h
    · rename_i hc
      split at h
      · rename_i r' hr
        cases h
        obtain ⟨t, s', rfl, h1, h2⟩ := loopG_sound hr
        exact ⟨c :: t, s', rfl, by simpa [hc] using h1, h2⟩
      · exact ⟨[], c :: s, rfl, by simp, h⟩
    · exact ⟨[], c :: s, rfl, by simp, h⟩

theorem loopL_sound {f : Char → Bool} {k : Str → Option R} : ∀ {s : Str} {r : R},
    loopL f k s = some r → ∃ t s', s = t ++ s' ∧ (∀ d ∈ t, f d = true) ∧ k s' = some r
  | [], r, h => ⟨[], [], rfl, by simp, h⟩
  | c :: s, r, h => by
    unfold loopL at h
    split at h
    · rename_i r' hr
      cases h
      exact ⟨[], c :: s, rfl, by simp, hr⟩
    · split at h
      · rename_i hc
        obtain ⟨t, s', rfl, h1, h2⟩ := loopL_sound h
        exact ⟨c :: t, s', rfl, by simpa [hc] using h1, h2⟩
      · cases h

theorem loopG_complete {f : Char → Bool} {k : Str → Option R} : ∀ {t s' : Str},
    (∀ d ∈ t, f d = true) → k s' ≠ none → loopG f k (t ++ s') ≠ none
  | [], [], _, h => by simpa [loopG] using h
  | [], c :: s', _, h => by
    simp only [List.nil_append]
    unfold loopG
    split
    · split
      · simp
      · exact h
    · exact h
  | c :: t, s', ht, h => by
    rw [List.cons_append]
    unfold loopG
    rw [if_pos (ht c (by simp))]
    have := loopG_complete (t := t) (s' := s') (fun d hd => ht d (by simp [hd])) h
    split
    · simp
    · rename_i hn; exact absurd hn this

theorem loopL_complete {f : Char → Bool} {k : Str → Option R} : ∀ {t s' : Str},
    (∀ d ∈ t, f d = true) → k s' ≠ none → loopL f k (t ++ s') ≠ none
  | [], [], _, h => by simpa [loopL] using h
  | [], c :: s', _, h => by
    simp only [List.nil_append]
    unfold loopL
    split
    · simp
    · rename_i hn; exact absurd hn h
  | c :: t, s', ht, h => by
    rw [List.cons_append]
    unfold loopL
    have := loopL_complete (t := t) (s' := s') (fun d hd => ht d (by simp [hd])) h
    split
    · simp
    · rw [if_pos (ht c (by simp))]; exact this

end

/-- What the matcher finds is a possible match. -/
theorem Re.run_sound {R : Type} (p : Re) : ∀ {s c} {k : Str → Caps → Option R} {r : R},
    p.run s c k = some r → ∃ s' c', p.sem s c s' c' ∧ k s' c' = some r := by
  induction p generalizing R with
  | eps => intro s c k r h; exact ⟨s, c, ⟨rfl, rfl⟩, h⟩
  | chr f =>
    intro s c k r h
    unfold Re.run at h
    split at h
    · cases h
    · split at h
      · rename_i d t hd; exact ⟨t, c, ⟨⟨d, rfl, hd⟩, rfl⟩, h⟩
      · cases h
  | seq p q ihp ihq =>
    intro s c k r h
    unfold Re.run at h
    obtain ⟨s1, c1, h1, h2⟩ := ihp h
    obtain ⟨s', c', h3, h4⟩ := ihq h2
    exact ⟨s', c', ⟨s1, c1, h1, h3⟩, h4⟩
  | alt p q ihp ihq =>
    intro s c k r h
    unfold Re.run at h
    split at h
    · rename_i r' hr
      cases h
      obtain ⟨s', c', h1, h2⟩ := ihp hr
      exact ⟨s', c', .inl h1, h2⟩
    · obtain ⟨s', c', h1, h2⟩ := ihq h
      exact ⟨s', c', .inr h1, h2⟩
  | many f =>
    intro s c k r h
    unfold Re.run at h
    obtain ⟨t, s', h1, h2, h3⟩ := loopG_sound h
    exact ⟨s', c, ⟨⟨t, h1, h2⟩, rfl⟩, h3⟩
  | manyLazy f =>
    intro s c k r h
    unfold Re.run at h
    obtain ⟨t, s', h1, h2, h3⟩ := loopL_sound h
    exact ⟨s', c, ⟨⟨t, h1, h2⟩, rfl⟩, h3⟩
  | grp i p ih =>
    intro s c k r h
    unfold Re.run at h
    obtain ⟨s', c1, h1, h2⟩ := ih h
    exact ⟨s', _, ⟨c1, h1, rfl⟩, h2⟩
  | look p ih =>
    intro s c k r h
    unfold Re.run at h
    split at h
    · rename_i u hu
      obtain ⟨s1, c1, h1, -⟩ := ih hu
      exact ⟨s, c, ⟨⟨rfl, rfl⟩, s1, c1, h1⟩, h⟩
    · cases h
  | eoi =>
    intro s c k r h
    unfold Re.run at h
    split at h
    · exact ⟨[], c, ⟨rfl, rfl, rfl⟩, h⟩
    · cases h

/-- If there is a possible match that the continuation accepts, the matcher finds one. -/
theorem Re.run_complete {R : Type} (p : Re) : ∀ {s c s' c'} {k : Str → Caps → Option R},
    p.sem s c s' c' → k s' c' ≠ none → p.run s c k ≠ none := by
  induction p generalizing R with
  | eps => rintro s c s' c' k ⟨rfl, rfl⟩ h; exact h
  | chr f =>
    rintro s c s' c' k ⟨⟨d, rfl, hd⟩, rfl⟩ h
    unfold Re.run
    simpa [hd] using h
  | seq p q ihp ihq =>
    rintro s c s' c' k ⟨s1, c1, h1, h2⟩ h
    unfold Re.run
    exact ihp h1 (ihq h2 h)
  | alt p q ihp ihq =>
    rintro s c s' c' k (h1 | h1) h
    · unfold Re.run
      split
      · simp
      · rename_i hn; exact absurd hn (ihp h1 h)
    · unfold Re.run
      split
      · simp
      · exact ihq h1 h
  | many f =>
    rintro s c s' c' k ⟨⟨t, rfl, ht⟩, rfl⟩ h
    unfold Re.run
    exact loopG_complete ht h
  | manyLazy f =>
    rintro s c s' c' k ⟨⟨t, rfl, ht⟩, rfl⟩ h
    unfold Re.run
    exact loopL_complete ht h
  | grp i p ih =>
    rintro s c s' c' k ⟨c1, h1, rfl⟩ h
    unfold Re.run
    exact ih h1 h
  | look p ih =>
    rintro s c s' c' k ⟨⟨rfl, rfl⟩, s1, c1, h1⟩ h
    unfold Re.run
    have : p.run s' c' (fun _ _ => some ()) ≠ none := ih h1 (by simp)
    split
    · exact h
    · rename_i hn; exact absurd hn this
  | eoi =>
    rintro s c s' c' k ⟨rfl, rfl, rfl⟩ h
    unfold Re.run
    exact h

/-- A match leaves a suffix. -/
theorem Re.sem_suffix (p : Re) : ∀ {s c s' c'}, p.sem s c s' c' → s' <:+ s := by
  induction p with
  | eps => rintro s c s' c' ⟨rfl, rfl⟩; exact List.suffix_refl _
  | chr f => rintro s c s' c' ⟨⟨d, rfl, -⟩, -⟩; exact ⟨[d], rfl⟩
  | seq p q ihp ihq => rintro s c s' c' ⟨s1, c1, h1, h2⟩; exact (ihq h2).trans (ihp h1)
  | alt p q ihp ihq =>
    rintro s c s' c' (h | h)
    · exact ihp h
    · exact ihq h
  | many f => rintro s c s' c' ⟨⟨t, rfl, -⟩, -⟩; exact ⟨t, rfl⟩
  | manyLazy f => rintro s c s' c' ⟨⟨t, rfl, -⟩, -⟩; exact ⟨t, rfl⟩
  | grp i p ih => rintro s c s' c' ⟨c1, h1, -⟩; exact ih h1
  | look p ih => rintro s c s' c' ⟨⟨rfl, -⟩, -⟩; exact List.suffix_refl _
  | eoi => rintro s c s' c' ⟨rfl, rfl, -⟩; exact List.suffix_refl _

theorem take_suffix {t s' : Str} : (t ++ s').take ((t ++ s').length - s'.length) = t := by
  have : (t ++ s').length - s'.length = t.length := by simp
  rw [this]; simp

/-- The result of a search: the first position where a match is possible, and a possible match
there. -/
theorem Re.search_sound {p : Re} : ∀ {s pre : Str} {m : Match}, p.search pre s = some m →
    ∃ u v, s = u ++ (v ++ m.post) ∧ m.pre = pre ++ u ∧ m.whole = v ∧
      p.sem (v ++ m.post) [] m.post m.caps ∧
      ∀ u1 u2, u = u1 ++ u2 → u2 ≠ [] → ∀ s' c', ¬ p.sem (u2 ++ (v ++ m.post)) [] s' c'
  | [], pre, m, h => by
    unfold Re.search at h
    cases h1 : p.run [] [] fun r c => some (r, c) with
    | none => rw [h1] at h; cases h
    | some x =>
      rw [h1] at h
      cases h
      obtain ⟨s', c', h2, h3⟩ := Re.run_sound p h1
      cases h3
      have := (Re.sem_suffix p h2)
      have h4 : s' = [] := by simpa using this
      subst h4
      exact ⟨[], [], rfl, by simp, rfl, h2, by simp⟩
  | d :: s, pre, m, h => by
    unfold Re.search at h
    split at h
    · rename_i r c h1
      cases h
      obtain ⟨s', c', h2, h3⟩ := Re.run_sound p h1
      cases h3
      obtain ⟨t, ht⟩ := Re.sem_suffix p h2
      refine ⟨[], t, ht.symm, by simp, ?_, ?_, by simp⟩
      · rw [← ht]; exact take_suffix
      · rw [ht]; exact h2
    · rename_i h1
      obtain ⟨u, v, h2, h3, h4, h5, h6⟩ := Re.search_sound h
      refine ⟨d :: u, v, by rw [h2]; rfl, by rw [h3]; simp, h4, h5, ?_⟩
      intro u1 u2 hu hne s' c' hsem
      cases u1 with
      | nil =>
        simp only [List.nil_append] at hu
        subst hu
        refine Re.run_complete p (k := fun r c => some (r, c)) hsem (by simp) ?_
        rw [List.cons_append, ← h2]
        exact h1
      | cons x u1 =>
        simp only [List.cons_append, List.cons.injEq] at hu
        exact h6 u1 u2 hu.2 hne s' c' hsem

/-- No match is found exactly when no match is possible at any position. -/
theorem Re.search_none {p : Re} : ∀ {s pre : Str}, p.search pre s = none ↔
    ∀ u v s' c', s = u ++ v → ¬ p.sem v [] s' c'
  | [], pre => by
    unfold Re.search
    constructor
    · intro h u v s' c' hs hsem
      have hv : v = [] := by
        have := congrArg List.length hs; simp at this
        exact List.eq_nil_of_length_eq_zero (by omega)
      subst hv
      refine Re.run_complete p (k := fun r c => some (r, c)) hsem (by simp) ?_
      simpa using h
    · intro h
      cases h1 : p.run [] [] fun r c => some (r, c) with
      | none => rfl
      | some x =>
        obtain ⟨s', c', h2, -⟩ := Re.run_sound p h1
        exact absurd h2 (h [] [] s' c' rfl)
  | d :: s, pre => by
    unfold Re.search
    constructor
    · intro h u v s' c' hs hsem
      split at h
      · cases h
      · rename_i h1
        cases u with
        | nil =>
          simp only [List.nil_append] at hs
          subst hs
          exact Re.run_complete p (k := fun r c => some (r, c)) hsem (by simp) h1
        | cons x u =>
          simp only [List.cons_append, List.cons.injEq] at hs
          exact (Re.search_none.1 h) u v s' c' hs.2 hsem
    · intro h
      split
      · rename_i h1
        obtain ⟨s', c', h2, -⟩ := Re.run_sound p h1
        exact absurd h2 (h [] (d :: s) s' c' rfl)
      · apply Re.search_none.2
        intro u v s' c' hs
        exact h (d :: u) v s' c' (by rw [hs]; rfl)

/-! ### Building blocks -/

theorem Re.sem_ci {x : Char} {s c s' c'} : (Re.ci x).sem s c s' c' ↔
    (∃ d, s = d :: s' ∧ lowerC d = lowerC x) ∧ c' = c := by
  simp only [Re.ci, Re.sem, beq_iff_eq]

theorem Re.sem_word : ∀ {w : Str} {s c s' c'}, (Re.word w).sem s c s' c' ↔
    (∃ t, s = t ++ s' ∧ t.map lowerC = w.map lowerC) ∧ c' = c
  | [], s, c, s', c' => by
    simp only [Re.word, Re.sem]
    constructor
    · rintro ⟨rfl, rfl⟩; exact ⟨⟨[], rfl, rfl⟩, rfl⟩
    · rintro ⟨⟨t, rfl, ht⟩, rfl⟩
      have : t = [] := by simpa using ht
      subst this; exact ⟨rfl, rfl⟩
  | x :: w, s, c, s', c' => by
    simp only [Re.word, Re.sem, Re.sem_ci, Re.sem_word]
    constructor
    · rintro ⟨s1, c1, ⟨⟨d, rfl, hd⟩, rfl⟩, ⟨t, rfl, ht⟩, rfl⟩
      exact ⟨⟨d :: t, rfl, by simp [hd, ht]⟩, rfl⟩
    · rintro ⟨⟨t, rfl, ht⟩, rfl⟩
      cases t with
      | nil => simp at ht
      | cons d t =>
        simp only [List.map_cons, List.cons.injEq] at ht
        exact ⟨_, _, ⟨⟨d, rfl, ht.1⟩, rfl⟩, ⟨t, rfl, ht.2⟩, rfl⟩

theorem Re.sem_blanks {s c s' c'} : Re.blanks.sem s c s' c' ↔
    (∃ t, s = t ++ s' ∧ ∀ d ∈ t, d = ' ') ∧ c' = c := by
  simp only [Re.blanks, Re.sem, beq_iff_eq]

end Adql
