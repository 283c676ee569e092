import Verif.Model.RegexGeom

/-!
# Which match the regex of Query.cxx finds

`RegexSem.lean` says which matches are possible; this file says which of them a backtracking matcher
returns.
-/

namespace Adql

open Spec

section
variable {R : Type}

theorem loopG_first {f : Char → Bool} {k : Str → Option R} : ∀ {s : Str} {r : R}, loopG f k s = some r →
    ∃ t s', s = t ++ s' ∧ (∀ d ∈ t, f d = true) ∧ k s' = some r ∧
      ∀ t' s'', s = t' ++ s'' → (∀ d ∈ t', f d = true) → t.length < t'.length → k s'' = none
  | [], r, h => ⟨[], [], rfl, by simp, h, by
      rintro (_ | ⟨c, t'⟩) s'' e _ hl
      · simp at hl
      · cases e⟩
  | c :: s, r, h => by
    unfold loopG at h
    split at h
    · rename_i hc
      split at h
      · rename_i r' hr
        cases h
        obtain ⟨t, s', rfl, h1, h2, h3⟩ := loopG_first hr
        refine ⟨c :: t, s', rfl, by simpa [hc] using h1, h2, ?_⟩
        rintro (_ | ⟨d, t'⟩) s'' e hf hl
        · simp at hl
        · injection e with _ e
          exact h3 t' s'' e (fun x hx => hf x (by simp [hx])) (by simpa using hl)
      · rename_i hn
        refine ⟨[], c :: s, rfl, by simp, h, ?_⟩
        rintro (_ | ⟨d, t'⟩) s'' e hf hl
        · simp at hl
        · injection e with _ e
          by_cases hk : k s'' = none
          · exact hk
          · exact absurd hn (e ▸ loopG_complete (fun x hx => hf x (by simp [hx])) hk)
    · rename_i hc
      refine ⟨[], c :: s, rfl, by simp, h, ?_⟩
      rintro (_ | ⟨d, t'⟩) s'' e hf hl
      · simp at hl
      · injection e with e _
        exact absurd (e ▸ hf d (by simp)) hc

theorem loopL_first {f : Char → Bool} {k : Str → Option R} : ∀ {s : Str} {r : R}, loopL f k s = some r →
    ∃ t s', s = t ++ s' ∧ (∀ d ∈ t, f d = true) ∧ k s' = some r ∧
      ∀ t' s'', s = t' ++ s'' → t'.length < t.length → k s'' = none
  | [], r, h => ⟨[], [], rfl, by simp, h, by simp⟩
  | c :: s, r, h => by
    unfold loopL at h
    split at h
    · rename_i r' hr
      cases h
      exact ⟨[], c :: s, rfl, by simp, hr, by simp⟩
    · rename_i hn
      split at h
      · rename_i hc
        obtain ⟨t, s', rfl, h1, h2, h3⟩ := loopL_first h
        refine ⟨c :: t, s', rfl, by simpa [hc] using h1, h2, ?_⟩
        rintro (_ | ⟨d, t'⟩) s'' e hl
        · rw [← show _ = s'' from e]; exact hn
        · injection e with _ e
          exact h3 t' s'' e (by simpa using hl)
      · cases h

theorem Re.run_none {p : Re} {s c} {k : Str → Caps → Option R} (h : p.run s c k = none) {s' c'}
    (hs : p.sem s c s' c') : k s' c' = none := by
  by_cases hk : k s' c' = none
  · exact hk
  · exact absurd h (Re.run_complete p hs hk)

theorem word_run {w s : Str} {c : Caps} {k : Str → Caps → Option R} {r : R} (h : (Re.word w).run s c k = some r) :
    ∃ t s', s = t ++ s' ∧ SameCI t w ∧ k s' c = some r := by
  obtain ⟨s', c', hs, h'⟩ := Re.run_sound _ h
  obtain ⟨⟨t, e, ht⟩, rfl⟩ := Re.sem_word.1 hs
  exact ⟨t, s', e, ht, h'⟩

theorem blanks_run {s : Str} {c : Caps} {k : Str → Caps → Option R} {r : R} (h : Re.blanks.run s c k = some r) :
    ∃ t s', s = t ++ s' ∧ Bl t ∧ k s' c = some r := by
  obtain ⟨s', c', hs, h'⟩ := Re.run_sound _ h
  obtain ⟨⟨t, e, ht⟩, rfl⟩ := Re.sem_blanks.1 hs
  exact ⟨t, s', e, ht, h'⟩

theorem chr_run {f : Char → Bool} {s : Str} {c : Caps} {k : Str → Caps → Option R} {r : R} (h : (Re.chr f).run s c k = some r) :
    ∃ x s', s = x :: s' ∧ f x = true ∧ k s' c = some r := by
  obtain ⟨s', c', ⟨⟨x, e, hx⟩, rfl⟩, h'⟩ := Re.run_sound _ h
  exact ⟨x, s', e, hx, h'⟩

/-- The condition on the left is the longest that lets the rest match. -/
theorem left_first {s : Str} {c : Caps} {k : Str → Caps → Option R} {r : R} (h : reLeft.run s c k = some r) :
    ∃ L s', s = L ++ s' ∧ LeftPart L ∧ k s' ((1, L) :: c) = some r ∧
      ∀ L' s'', s = L' ++ s'' → LeftPart L' → L.length < L'.length → k s'' ((1, L') :: c) = none := by
  unfold reLeft at h
  simp only [Re.cat, Re.run] at h
  split at h
  · cases h
  rename_i x s1
  split at h
  case isFalse => cases h
  rename_i hx
  split at h
  · cases h
  rename_i y s2
  split at h
  case isFalse => cases h
  rename_i hy
  obtain ⟨m, s3, rfl, hm, h, hmin⟩ := loopG_first h
  cases s3 with
  | nil => cases h
  | cons z s' =>
  simp only at h
  split at h
  case isFalse => cases h
  rename_i hz
  have key : ∀ (m : List Char) (z : Char) (s' : List Char), x :: y :: (m ++ z :: s') = (x :: y :: (m ++ [z])) ++ s' := by simp
  refine ⟨x :: y :: (m ++ [z]), s', key .., ⟨x, y :: m, z, rfl, by simpa [reNonBlank] using hx,
    by simpa [reNonBlank] using hz, by simp, ?_⟩, ?_, ?_⟩
  · intro d hd
    rcases List.mem_cons.1 hd with rfl | hd
    · exact reDot_iff.1 hy
    · exact reDot_iff.1 (hm d hd)
  · rw [key, take_suffix] at h; exact h
  · rintro L' s'' e ⟨x', m', z', rfl, hx', hz', hm', ho⟩ hl
    cases m' with
    | nil => exact absurd rfl hm'
    | cons y' m' =>
      simp only [List.cons_append, List.append_assoc, List.nil_append, List.cons.injEq] at e
      obtain ⟨rfl, rfl, e⟩ := e
      have := hmin m' (z' :: s'') e (fun d hd => reDot_iff.2 (ho d (by simp [hd]))) (by simpa using hl)
      simp only [show reNonBlank z' = true by simpa [reNonBlank] using hz', if_true] at this
      rw [e, key, take_suffix] at this
      exact this

/-- The first possibility of a lookahead. -/
theorem look_run {p : Re} {s : Str} {c : Caps} {k : Str → Caps → Option R} (h : ∃ s' c', (Re.look p).sem s c s' c') :
    (Re.look p).run s c k = k s c := by
  obtain ⟨s', c', ⟨rfl, rfl⟩, s1, c1, h⟩ := h
  have := Re.run_complete p (k := fun _ _ => some ()) h (by simp)
  simp only [Re.run]
  split
  · rfl
  · rename_i hn; exact absurd hn this

/-! ### Determinism of the pieces -/

theorem bl_unique {b b' x x' : Str} (hb : Bl b) (hb' : Bl b') (hx : ∀ c t, x = c :: t → c ≠ ' ')
    (hx' : ∀ c t, x' = c :: t → c ≠ ' ') (e : b ++ x = b' ++ x') : b = b' ∧ x = x' := by
  induction b generalizing b' with
  | nil =>
    cases b' with
    | nil => exact ⟨rfl, e⟩
    | cons c b' => exact absurd (hb' c (by simp)) (hx c _ e)
  | cons c b ih =>
    cases b' with
    | nil => exact absurd (hb c (by simp)) (hx' c _ e.symm)
    | cons c' b' =>
      injection e with e1 e2
      obtain ⟨rfl, rfl⟩ := ih (fun d hd => hb d (by simp [hd])) (b' := b') (fun d hd => hb' d (by simp [hd])) e2
      exact ⟨by rw [e1], rfl⟩

theorem sameCI_unique {w a a' x x' : Str} (h : SameCI a w) (h' : SameCI a' w) (e : a ++ x = a' ++ x') : a = a' ∧ x = x' := by
  refine List.append_inj e ?_
  have h1 := congrArg List.length (show a.map lowerC = _ from h)
  have h2 := congrArg List.length (show a'.map lowerC = _ from h')
  simp only [List.length_map] at h1 h2
  rw [h1, h2]

/-- the first character of a word -/
theorem sameCI_first {w a x : Str} {d : Char} (h : SameCI a (d :: w)) :
    ∀ c t, a ++ x = c :: t → lowerC c = lowerC d := by
  intro c t e
  cases a with
  | nil => cases h
  | cons y a =>
    cases e
    exact (List.cons.inj h).1

theorem lowerC_blank {c d : Char} (h : lowerC c = lowerC d) (hd : 65 ≤ d.toNat ∧ d.toNat ≤ 90) : c ≠ ' ' := by
  rintro rfl
  have := congrArg Char.toNat h
  rw [lowerC_toNat, lowerC_toNat] at this
  have h1 : ' '.toNat = 32 := rfl
  rw [h1] at this
  rw [if_pos hd] at this
  split at this <;> omega

/-- blanks and the word AND -/
theorem and_unique {b b' a a' x x' : Str} (hb : Bl b) (hb' : Bl b') (ha : SameCI a cs!"AND") (ha' : SameCI a' cs!"AND")
    (e : b ++ (a ++ x) = b' ++ (a' ++ x')) : b = b' ∧ a = a' ∧ x = x' := by
  have hd : 65 ≤ 'A'.toNat ∧ 'A'.toNat ≤ 90 := by decide
  obtain ⟨h1, h2⟩ := bl_unique hb hb' (fun c t e => lowerC_blank (sameCI_first ha c t e) hd)
    (fun c t e => lowerC_blank (sameCI_first ha' c t e) hd) e
  obtain ⟨h2, h3⟩ := sameCI_unique ha ha' h2
  exact ⟨h1, h2, h3⟩

/-- a geometry does not begin with a blank -/
theorem geomPart_first {G x : Str} (h : GeomPart G) : ∀ c t, G ++ x = c :: t → c ≠ ' ' := by
  intro c t e
  obtain ⟨f, k, m, rfl, hf, hk, -⟩ := h
  rcases hf with rfl | ⟨d, b, b', rfl, hd, -⟩
  · simp only [List.nil_append, List.append_assoc] at e
    rcases hk with hk | hk
    · exact lowerC_blank (sameCI_first hk c t e) (by decide)
    · exact lowerC_blank (sameCI_first hk c t e) (by decide)
  · cases e
    rcases hd with rfl | rfl <;> decide

/-- the optional flag and the word are determined by the text -/
theorem geom_unique {f f' k k' x x' : Str}
    (hf : f = [] ∨ ∃ d b b', f = d :: (b ++ '=' :: b') ∧ (d = '0' ∨ d = '1') ∧ Bl b ∧ Bl b')
    (hf' : f' = [] ∨ ∃ d b b', f' = d :: (b ++ '=' :: b') ∧ (d = '0' ∨ d = '1') ∧ Bl b ∧ Bl b')
    (hk : SameCI k cs!"CONTAINS" ∨ SameCI k cs!"INTERSECTS") (hk' : SameCI k' cs!"CONTAINS" ∨ SameCI k' cs!"INTERSECTS")
    (e : f ++ (k ++ x) = f' ++ (k' ++ x')) : f = f' ∧ k = k' ∧ x = x' := by
  have first : ∀ {k x : Str}, (SameCI k cs!"CONTAINS" ∨ SameCI k cs!"INTERSECTS") → ∀ c t, k ++ x = c :: t →
      lowerC c = 'c' ∨ lowerC c = 'i' := by
    intro k x hk c t e
    rcases hk with hk | hk
    · exact .inl (sameCI_first hk c t e)
    · exact .inr (sameCI_first hk c t e)
  have nb : ∀ {k x : Str}, (SameCI k cs!"CONTAINS" ∨ SameCI k cs!"INTERSECTS") → ∀ c t, k ++ x = c :: t → c ≠ ' ' := by
    intro k x hk c t e
    rcases hk with hk | hk
    · exact lowerC_blank (sameCI_first hk c t e) (by decide)
    · exact lowerC_blank (sameCI_first hk c t e) (by decide)
  have word : ∀ {k k' x x' : Str}, (SameCI k cs!"CONTAINS" ∨ SameCI k cs!"INTERSECTS") →
      (SameCI k' cs!"CONTAINS" ∨ SameCI k' cs!"INTERSECTS") → k ++ x = k' ++ x' → k = k' ∧ x = x' := by
    intro k k' x x' hk hk' e
    have ne : ∀ {k k' x x' : Str}, SameCI k cs!"CONTAINS" → SameCI k' cs!"INTERSECTS" → k ++ x = k' ++ x' → False := by
      intro k k' x x' hk hk' e
      cases k with
      | nil => cases hk
      | cons c k =>
        have h1 := (List.cons.inj hk).1
        have h2 := sameCI_first hk' c _ e.symm
        rw [h1] at h2
        exact absurd h2 (by decide)
    rcases hk with hk | hk <;> rcases hk' with hk' | hk'
    · exact sameCI_unique hk hk' e
    · exact (ne hk hk' e).elim
    · exact (ne hk' hk e.symm).elim
    · exact sameCI_unique hk hk' e
  rcases hf with rfl | ⟨d, b1, b2, rfl, hd, hb1, hb2⟩ <;> rcases hf' with rfl | ⟨d', b1', b2', rfl, hd', hb1', hb2'⟩
  · exact ⟨rfl, word hk hk' e⟩
  · have := first hk d' _ e
    rcases hd' with rfl | rfl <;> exact absurd this (by decide)
  · have := first hk' d _ e.symm
    rcases hd with rfl | rfl <;> exact absurd this (by decide)
  · simp only [List.cons_append, List.append_assoc, List.cons.injEq] at e
    obtain ⟨rfl, e⟩ := e
    obtain ⟨rfl, e1⟩ := bl_unique hb1 hb1' (by rintro c t e; cases e; decide) (by rintro c t e; cases e; decide) e
    obtain ⟨rfl, e2⟩ := bl_unique hb2 hb2' (nb hk) (nb hk') (List.cons.inj e1).2
    exact ⟨rfl, word hk hk' e2⟩

/-- The geometry is the shortest that lets the rest match. -/
theorem geom_first {s : Str} {c : Caps} {k : Str → Caps → Option R} {r : R} (h : reGeom.run s c k = some r) :
    ∃ G s', s = G ++ s' ∧ GeomPart G ∧ StopsAt [cs!"AND", cs!"HAVING", cs!"GROUP", cs!"ORDER"] s' ∧
      k s' ((2, G) :: c) = some r ∧
      ∀ G' s'', s = G' ++ s'' → GeomPart G' → StopsAt [cs!"AND", cs!"HAVING", cs!"GROUP", cs!"ORDER"] s'' →
        G'.length < G.length → k s'' ((2, G') :: c) = none := by
  have e0 : ∀ x, lowerC x = lowerC '0' ↔ x = '0' := fun x => lowerC_eq_of (by decide) (by decide)
  have e1 : ∀ x, lowerC x = lowerC '1' ↔ x = '1' := fun x => lowerC_eq_of (by decide) (by decide)
  have e2 : ∀ x, lowerC x = lowerC '=' ↔ x = '=' := fun x => lowerC_eq_of (by decide) (by decide)
  -- the part after the flag
  have tail : ∀ {f s1 : Str} {k' : Str → Caps → Option R},
      (f = [] ∨ ∃ d b b', f = d :: (b ++ '=' :: b') ∧ (d = '0' ∨ d = '1') ∧ Bl b ∧ Bl b') → s = f ++ s1 →
      (∀ G s', s = G ++ s' → k' s' c = k s' ((2, G) :: c)) →
      (Re.cat [.alt (.word cs!"CONTAINS") (.word cs!"INTERSECTS"), .manyLazy reDot, reStopG]).run s1 c k' = some r →
      ∃ G s', s = G ++ s' ∧ GeomPart G ∧ StopsAt [cs!"AND", cs!"HAVING", cs!"GROUP", cs!"ORDER"] s' ∧
      k s' ((2, G) :: c) = some r ∧
      ∀ G' s'', s = G' ++ s'' → GeomPart G' → StopsAt [cs!"AND", cs!"HAVING", cs!"GROUP", cs!"ORDER"] s'' →
        G'.length < G.length → k s'' ((2, G') :: c) = none := by
    intro f s1 k' hf hs hk' h
    obtain ⟨s2, c2, hw0, h0⟩ := Re.run_sound (.alt (.word cs!"CONTAINS") (.word cs!"INTERSECTS")) (k := fun s c =>
      (Re.cat [.manyLazy reDot, reStopG]).run s c k') h
    clear h
    have hw' : ∃ w, s1 = w ++ s2 ∧ (SameCI w cs!"CONTAINS" ∨ SameCI w cs!"INTERSECTS") ∧ c2 = c := by
      simp only [show ∀ p q s c s' c', (Re.alt p q).sem s c s' c' = (p.sem s c s' c' ∨ q.sem s c s' c')
        from fun _ _ _ _ _ _ => rfl, Re.sem_word] at hw0
      rcases hw0 with ⟨⟨w, rfl, hw⟩, rfl⟩ | ⟨⟨w, rfl, hw⟩, rfl⟩
      · exact ⟨w, rfl, .inl hw, rfl⟩
      · exact ⟨w, rfl, .inr hw, rfl⟩
    clear hw0
    obtain ⟨w, rfl, hw, rfl⟩ := hw'
    obtain ⟨m, s', rfl, hm, h1, hmin⟩ := loopL_first (show loopL reDot (fun r => reStopG.run r c2 k') s2 = _ from h0)
    clear h0
    obtain ⟨s'', c'', hstop0, h6⟩ := Re.run_sound reStopG h1
    clear h1
    obtain ⟨rfl, rfl, hstop⟩ := sem_stopG.1 hstop0
    clear hstop0
    have hG : s = (f ++ (w ++ m)) ++ s'' := by rw [hs]; simp
    refine ⟨f ++ (w ++ m), s'', hG, ⟨f, w, m, rfl, hf, hw, fun d hd => reDot_iff.1 (hm d hd)⟩, hstop, ?_, ?_⟩
    · rw [← hk' _ _ hG]; exact h6
    · rintro G' t' e hG' hstop' hl
      rw [← hk' _ _ e]
      obtain ⟨f', w', m', rfl, hf', hw', hm'⟩ := hG'
      rw [hs] at e
      simp only [List.append_assoc] at e
      obtain ⟨rfl, rfl, e'⟩ := geom_unique hf hf' hw hw' e
      have := hmin m' t' e' (by simpa using hl)
      unfold reStopG at this
      rw [look_run ⟨t', c'', sem_stopG.2 ⟨rfl, rfl, hstop'⟩⟩] at this
      exact this
  have hk : ∀ (G s' : Str), s = G ++ s' → k s' ((2, s.take (s.length - s'.length)) :: c) = k s' ((2, G) :: c) := by
    rintro G s' rfl; rw [take_suffix]
  unfold reGeom at h
  rw [show ∀ i p s c (k : Str → Caps → Option R), (Re.grp i p).run s c k =
    p.run s c (fun r c' => k r ((i, s.take (s.length - r.length)) :: c')) from fun _ _ _ _ _ => rfl] at h
  obtain ⟨s1, c1, hflag, h5⟩ := Re.run_sound
    (.alt (Re.cat [.alt (.ci '0') (.ci '1'), .blanks, .ci '=', .blanks]) .eps) (k := fun s1 c1 =>
      (Re.cat [.alt (.word cs!"CONTAINS") (.word cs!"INTERSECTS"), .manyLazy reDot, reStopG]).run s1 c1
        (fun r c' => k r ((2, s.take (s.length - r.length)) :: c'))) h
  clear h
  simp only [Re.cat, Re.sem, Re.sem_blanks, Re.sem_ci, e0, e1, e2] at hflag
  rcases hflag with ⟨s4, c4, h4, s5, c5, ⟨⟨b, rfl, hb⟩, rfl⟩, s6, c6, ⟨⟨e, rfl, rfl⟩, rfl⟩,
      ⟨b', rfl, hb'⟩, rfl⟩ | ⟨rfl, rfl⟩
  · have : ∃ d, s = d :: (b ++ '=' :: (b' ++ s1)) ∧ (d = '0' ∨ d = '1') ∧ c1 = c := by
      rcases h4 with ⟨⟨d, h, rfl⟩, rfl⟩ | ⟨⟨d, h, rfl⟩, rfl⟩
      · exact ⟨_, h, .inl rfl, rfl⟩
      · exact ⟨_, h, .inr rfl, rfl⟩
    obtain ⟨d, hs, hd, rfl⟩ := this
    exact tail (f := d :: (b ++ '=' :: b')) (s1 := s1) (.inr ⟨d, b, b', rfl, hd, hb, hb'⟩) (by rw [hs]; simp) hk h5
  · exact tail (f := []) (s1 := s1) (.inl rfl) rfl hk h5

/-- The condition on the right is the shortest that lets the rest match. -/
theorem right_first {s : Str} {c : Caps} {k : Str → Caps → Option R} {r : R} (h : reRight.run s c k = some r) :
    ∃ X s', s = X ++ s' ∧ RightPart X ∧ StopsAt [cs!"HAVING", cs!" GROUP", cs!" ORDER"] s' ∧
      k s' ((3, X) :: c) = some r ∧
      ∀ X' s'', s = X' ++ s'' → RightPart X' → StopsAt [cs!"HAVING", cs!" GROUP", cs!" ORDER"] s'' →
        X'.length < X.length → k s'' ((3, X') :: c) = none := by
  unfold reRight at h
  simp only [Re.cat] at h
  rw [show ∀ i p s c (k : Str → Caps → Option R), (Re.grp i p).run s c k =
    p.run s c (fun r c' => k r ((i, s.take (s.length - r.length)) :: c')) from fun _ _ _ _ _ => rfl] at h
  obtain ⟨x, s1, rfl, hx, h1⟩ := chr_run (k := fun s1 c1 =>
    (Re.cat [.chr reDot, .manyLazy reDot, reStopR]).run s1 c1 (fun r c' => k r ((3, s.take (s.length - r.length)) :: c'))) h
  clear h
  obtain ⟨y, s2, rfl, hy, h2⟩ := chr_run (k := fun s2 c2 =>
    (Re.cat [.manyLazy reDot, reStopR]).run s2 c2 _) h1
  clear h1
  obtain ⟨m, s', rfl, hm, h3, hmin⟩ := loopL_first (show loopL reDot (fun r => reStopR.run r c _) s2 = _ from h2)
  clear h2
  obtain ⟨s'', c'', hstop0, h⟩ := Re.run_sound reStopR h3
  clear h3
  obtain ⟨rfl, rfl, hstop⟩ := sem_stopR.1 hstop0
  have key : ∀ (m s' : Str), x :: y :: (m ++ s') = (x :: y :: m) ++ s' := by simp
  refine ⟨x :: y :: m, s'', key .., ⟨x, y :: m, rfl, by simpa [reNonBlank] using hx, by simp, ?_⟩, hstop, ?_, ?_⟩
  · intro d hd
    rcases List.mem_cons.1 hd with rfl | hd
    · exact reDot_iff.1 hy
    · exact reDot_iff.1 (hm d hd)
  · rw [key, take_suffix] at h; exact h
  · rintro X' t' e ⟨x', m', rfl, hx', hm', ho⟩ hstop' hl
    cases m' with
    | nil => exact absurd rfl hm'
    | cons y' m' =>
      simp only [List.cons_append, List.cons.injEq] at e
      obtain ⟨rfl, rfl, e⟩ := e
      have := hmin m' t' e (by simpa using hl)
      unfold reStopR at this
      rw [look_run ⟨t', c'', sem_stopR.2 ⟨rfl, rfl, hstop'⟩⟩, e, key, take_suffix] at this
      exact this

end

/-! ### The whole expression -/

/-- the end of the expression -/
def reTail : Re := Re.cat [.grp 4 (.many reDot), .eoi]
/-- the optional condition on the right -/
def reOpt : Re := .alt (Re.cat [.blanks, .word cs!"AND", .blanks, reRight]) .eps
/-- all after the condition on the left -/
def reAfter : Re := Re.cat [.blanks, .word cs!"AND", .blanks, reGeom, reOpt, reTail]

theorem geomRegex_after : geomRegex = Re.cat [.word cs!"WHERE", .ci ' ', reLeft, reAfter] := rfl

theorem tail_sem {s c s' c'} : reTail.sem s c s' c' ↔ s' = [] ∧ OneLine s ∧ c' = (4, s) :: c := by
  simp only [reTail, Re.cat, show ∀ p q s c s' c', (Re.seq p q).sem s c s' c' = ∃ s1 c1, p.sem s c s1 c1 ∧ q.sem s1 c1 s' c'
      from fun _ _ _ _ _ _ => rfl, sem_tail, show ∀ s c s' c', Re.eoi.sem s c s' c' = (s = [] ∧ s' = [] ∧ c' = c) from fun _ _ _ _ => rfl]
  constructor
  · rintro ⟨s1, c1, ⟨t, rfl, ht, rfl⟩, rfl, rfl, rfl⟩
    simpa using ht
  · rintro ⟨rfl, hs, rfl⟩
    exact ⟨[], _, ⟨s, by simp, hs, rfl⟩, rfl, rfl, rfl⟩

/-- what may stand after the geometry -/
def AfterGeom (X : Str) (R : Option Str) (T : Str) : Prop :=
  (match R with
      | some R => ∃ b3 a' b4, X = b3 ++ (a' ++ (b4 ++ (R ++ T))) ∧ Bl b3 ∧ SameCI a' cs!"AND" ∧ Bl b4 ∧
          RightPart R ∧ StopsAt [cs!"HAVING", cs!" GROUP", cs!" ORDER"] T
      | none => X = T) ∧ OneLine T

theorem rightPart_first {X t : Str} (h : RightPart X) : ∀ c u, X ++ t = c :: u → c ≠ ' ' := by
  obtain ⟨c, m, rfl, hc, -⟩ := h
  intro d u e
  cases e; exact hc

theorem afterGeom_sem {X T : Str} {R : Option Str} (h : AfterGeom X R T) (c : Caps) :
    ∃ c', (Re.seq reOpt reTail).sem X c [] c' := by
  cases R with
  | none =>
    obtain ⟨rfl, hT⟩ := h
    exact ⟨_, X, c, .inr ⟨rfl, rfl⟩, tail_sem.2 ⟨rfl, hT, rfl⟩⟩
  | some R =>
    obtain ⟨⟨b3, a', b4, rfl, hb3, ha', hb4, hR, hs⟩, hT⟩ := h
    exact ⟨_, T, _, .inl ⟨_, _, Re.sem_blanks.2 ⟨⟨b3, rfl, hb3⟩, rfl⟩, _, _, Re.sem_word.2 ⟨⟨a', rfl, ha'⟩, rfl⟩, _, _,
      Re.sem_blanks.2 ⟨⟨b4, rfl, hb4⟩, rfl⟩, sem_right.2 ⟨R, rfl, ⟨hR, hs⟩, rfl⟩⟩, tail_sem.2 ⟨rfl, hT, rfl⟩⟩

theorem k0_none {p : Re} {s : Str} {c : Caps} (h : p.run s c (fun r c => some (r, c)) = none) :
    ∀ s' c', ¬ p.sem s c s' c' := by
  intro s' c' hs
  cases Re.run_none h hs

/-- Which match the matcher finds. -/
theorem geomRegex_first {v r : Str} {c : Caps} (h : geomRegex.run v [] (fun r c => some (r, c)) = some (r, c)) :
    r = [] ∧ ∃ L G R T, Chosen v L G R T ∧ c = capsOf L G R T := by
  rw [geomRegex_after] at h
  simp only [Re.cat] at h
  obtain ⟨w, s1, rfl, hw, h1⟩ := word_run (k := fun s c => (Re.cat [.ci ' ', reLeft, reAfter]).run s c _) h
  clear h
  obtain ⟨x, s2, rfl, hx, h2⟩ := chr_run (k := fun s c => (Re.cat [reLeft, reAfter]).run s c _) h1
  clear h1
  obtain rfl : x = ' ' := (lowerC_eq_of (by decide) (by decide)).1 (beq_iff_eq.1 hx)
  obtain ⟨L, s3, rfl, hL, h3, hLmax⟩ := left_first (k := fun s c => reAfter.run s c _) h2
  clear h2
  obtain ⟨b1, s4, rfl, hb1, h4⟩ := blanks_run (k := fun s c =>
    (Re.cat [.word cs!"AND", .blanks, reGeom, reOpt, reTail]).run s c _) h3
  clear h3
  obtain ⟨a, s5, rfl, ha, h5⟩ := word_run (k := fun s c => (Re.cat [.blanks, reGeom, reOpt, reTail]).run s c _) h4
  clear h4
  obtain ⟨b2, s6, rfl, hb2, h6⟩ := blanks_run (k := fun s c => (Re.cat [reGeom, reOpt, reTail]).run s c _) h5
  clear h5
  obtain ⟨G, X, rfl, hG, hstop, h7, hGmin⟩ := geom_first (k := fun s c => (Re.seq reOpt reTail).run s c _) h6
  clear h6
  have hw' : SameCI (w ++ [' ']) cs!"WHERE " := by
    unfold SameCI at hw ⊢
    rw [List.map_append, hw]; rfl
  -- any other reading of the text
  have other : ∀ {L' G' R' T'}, WhereForm (w ++ ' ' :: (L ++ (b1 ++ (a ++ (b2 ++ (G ++ X)))))) L' G' R' T' →
      ∃ b1' a' b2' X', L ++ (b1 ++ (a ++ (b2 ++ (G ++ X)))) = L' ++ (b1' ++ (a' ++ (b2' ++ (G' ++ X')))) ∧ LeftPart L' ∧
        Bl b1' ∧ SameCI a' cs!"AND" ∧ Bl b2' ∧ GeomPart G' ∧
        StopsAt [cs!"AND", cs!"HAVING", cs!"GROUP", cs!"ORDER"] X' ∧ AfterGeom X' R' T' := by
    rintro L' G' R' T' ⟨w1, b1', a', b2', X', e, hw1, hL', hb1', ha', hb2', hG', hstop', hX'⟩
    obtain ⟨-, e⟩ := sameCI_unique hw' hw1 (x := L ++ (b1 ++ (a ++ (b2 ++ (G ++ X))))) (by rw [← e]; simp)
    exact ⟨b1', a', b2', X', e, hL', hb1', ha', hb2', hG', hstop', hX'⟩
  have sameG : ∀ {G' R' T'}, WhereForm (w ++ ' ' :: (L ++ (b1 ++ (a ++ (b2 ++ (G ++ X)))))) L G' R' T' →
      ∃ X', G ++ X = G' ++ X' ∧ GeomPart G' ∧ StopsAt [cs!"AND", cs!"HAVING", cs!"GROUP", cs!"ORDER"] X' ∧ AfterGeom X' R' T' := by
    intro G' R' T' hf
    obtain ⟨b1', a', b2', X', e, -, hb1', ha', hb2', hG', hstop', hX'⟩ := other hf
    obtain ⟨-, -, e⟩ := and_unique hb1 hb1' ha ha' (List.append_cancel_left e)
    obtain ⟨-, e⟩ := bl_unique hb2 hb2' (geomPart_first hG) (geomPart_first hG') e
    exact ⟨X', e, hG', hstop', hX'⟩
  have left : ∀ {L' G' R' T'}, WhereForm (w ++ ' ' :: (L ++ (b1 ++ (a ++ (b2 ++ (G ++ X)))))) L' G' R' T' →
      L'.length ≤ L.length := by
    intro L' G' R' T' hf
    obtain ⟨b1', a', b2', X', e, hL', hb1', ha', hb2', hG', hstop', hX'⟩ := other hf
    by_cases hl : L.length < L'.length
    · have hn := k0_none (hLmax L' _ e hL' hl)
      obtain ⟨c', hc'⟩ := afterGeom_sem hX' ((2, G') :: (1, L') :: [])
      exact absurd ⟨_, _, Re.sem_blanks.2 ⟨⟨b1', rfl, hb1'⟩, rfl⟩, _, _, Re.sem_word.2 ⟨⟨a', rfl, ha'⟩, rfl⟩, _, _,
        Re.sem_blanks.2 ⟨⟨b2', rfl, hb2'⟩, rfl⟩, _, _, sem_geom.2 ⟨G', rfl, ⟨hG', hstop'⟩, rfl⟩, hc'⟩ (hn [] c')
    · omega
  have geom : ∀ {G' R' T'}, WhereForm (w ++ ' ' :: (L ++ (b1 ++ (a ++ (b2 ++ (G ++ X)))))) L G' R' T' →
      G.length ≤ G'.length := by
    intro G' R' T' hf
    obtain ⟨X', e, hG', hstop', hX'⟩ := sameG hf
    by_cases hl : G'.length < G.length
    · have hn := k0_none (hGmin G' X' e hG' hstop' hl)
      obtain ⟨c', hc'⟩ := afterGeom_sem hX' ((2, G') :: (1, L) :: [])
      exact absurd hc' (hn [] c')
    · omega
  have form : ∀ {R T}, AfterGeom X R T → WhereForm (w ++ ' ' :: (L ++ (b1 ++ (a ++ (b2 ++ (G ++ X)))))) L G R T :=
    fun hX => ⟨w ++ [' '], b1, a, b2, X, by simp, hw', hL, hb1, ha, hb2, hG, hstop, hX⟩
  have h : (Re.alt (Re.cat [.blanks, .word cs!"AND", .blanks, reRight]) .eps).run X ((2, G) :: (1, L) :: [])
    (fun s c => reTail.run s c (fun r c => some (r, c))) = some (r, c) := h7
  clear h7
  simp only [Re.run] at h
  split at h
  · rename_i y hy
    cases h
    simp only [Re.cat] at hy
    obtain ⟨b3, s7, rfl, hb3, h8⟩ := blanks_run (k := fun s c => (Re.cat [.word cs!"AND", .blanks, reRight]).run s c _) hy
    clear hy
    obtain ⟨a', s8, rfl, ha', h9⟩ := word_run (k := fun s c => (Re.cat [.blanks, reRight]).run s c _) h8
    clear h8
    obtain ⟨b4, s9, rfl, hb4, h10⟩ := blanks_run (k := fun s c => reRight.run s c _) h9
    clear h9
    obtain ⟨R, T, rfl, hR, hs, h11, hRmin⟩ := right_first (k := fun s c => reTail.run s c _) h10
    clear h10
    obtain ⟨r', c', ht, e⟩ := Re.run_sound reTail h11
    obtain ⟨rfl, hT, rfl⟩ := tail_sem.1 ht
    cases e
    refine ⟨rfl, L, G, some R, T, ⟨form ⟨⟨b3, a', b4, rfl, hb3, ha', hb4, hR, hs⟩, hT⟩, left, geom, ?_⟩, ?_⟩
    · intro R' T' hf
      refine ⟨R, rfl, ?_⟩
      obtain ⟨X', e, -, -, ⟨b3', a'', b4', rfl, hb3', ha'', hb4', hR', hs'⟩, hT'⟩ := sameG hf
      obtain ⟨-, -, e⟩ := and_unique hb3 hb3' ha' ha'' (List.append_cancel_left e)
      obtain ⟨-, e⟩ := bl_unique hb4 hb4' (rightPart_first hR) (rightPart_first hR') e
      by_cases hl : R'.length < R.length
      · have hn := k0_none (hRmin R' T' e hR' hs' hl)
        exact absurd (tail_sem.2 ⟨rfl, hT', rfl⟩) (hn _ _)
      · omega
    · rfl
  · rename_i hn
    obtain ⟨r', c', ht, e⟩ := Re.run_sound reTail h
    obtain ⟨rfl, hT, rfl⟩ := tail_sem.1 ht
    cases e
    refine ⟨rfl, L, G, none, X, ⟨form ⟨rfl, hT⟩, left, geom, ?_⟩, rfl⟩
    intro R' T' hf
    obtain ⟨X', e, -, -, ⟨b3', a'', b4', rfl, hb3', ha'', hb4', hR', hs'⟩, hT'⟩ := sameG hf
    obtain rfl := List.append_cancel_left e
    have := Re.run_none hn (s' := T') (c' := (3, R') :: (2, G) :: (1, L) :: [])
      ⟨_, _, Re.sem_blanks.2 ⟨⟨b3', rfl, hb3'⟩, rfl⟩, _, _, Re.sem_word.2 ⟨⟨a'', rfl, ha''⟩, rfl⟩, _, _,
      Re.sem_blanks.2 ⟨⟨b4', rfl, hb4'⟩, rfl⟩, sem_right.2 ⟨R', rfl, ⟨hR', hs'⟩, rfl⟩⟩
    exact absurd (tail_sem.2 ⟨rfl, hT', rfl⟩) (k0_none this _ _)

end Adql
