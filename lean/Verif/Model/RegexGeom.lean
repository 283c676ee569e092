import Verif.Model.RegexSem
import Verif.Spec.Rewrite

/-!
# What the regex of Query.cxx matches
-/

namespace Adql

open Spec

theorem reDot_iff {c : Char} : reDot c = true ↔ c ≠ '\n' ∧ c ≠ '\r' := by
  simp [reDot]

theorem grp_take {i : Nat} {p : Re} {s c s' c'} (Q : Str → Prop)
    (h : ∀ {c' : Caps}, p.sem s c s' c' ↔ (∃ t, s = t ++ s' ∧ Q t) ∧ c' = c) :
    (Re.grp i p).sem s c s' c' ↔ ∃ t, s = t ++ s' ∧ Q t ∧ c' = (i, t) :: c := by
  simp only [Re.sem]
  constructor
  · rintro ⟨c1, h1, rfl⟩
    obtain ⟨⟨t, rfl, ht⟩, rfl⟩ := h.1 h1
    exact ⟨t, rfl, ht, by rw [take_suffix]⟩
  · rintro ⟨t, rfl, ht, rfl⟩
    exact ⟨c, h.2 ⟨⟨t, rfl, ht⟩, rfl⟩, by rw [take_suffix]⟩

/-- group 1 -/
def reLeft : Re := .grp 1 (Re.cat [.chr reNonBlank, .chr reDot, .many reDot, .chr reNonBlank])

theorem sem_left {s c s' c'} : reLeft.sem s c s' c' ↔
    ∃ t, s = t ++ s' ∧ LeftPart t ∧ c' = (1, t) :: c := by
  apply grp_take
  intro c'
  simp only [Re.cat, Re.sem]
  constructor
  · rintro ⟨s1, c1, ⟨⟨x, rfl, hx⟩, rfl⟩, s2, c2, ⟨⟨y, rfl, hy⟩, rfl⟩, s3, c3, ⟨⟨m, rfl, hm⟩, rfl⟩,
      ⟨z, rfl, hz⟩, rfl⟩
    refine ⟨⟨x :: ((y :: m) ++ [z]), by simp, x, y :: m, z, rfl, ?_, ?_, by simp, ?_⟩, rfl⟩
    · simpa [reNonBlank] using hx
    · simpa [reNonBlank] using hz
    · intro d hd
      rcases List.mem_cons.1 hd with rfl | hd
      · exact reDot_iff.1 hy
      · exact reDot_iff.1 (hm d hd)
  · rintro ⟨⟨t, rfl, x, m, z, rfl, hx, hz, hm, ho⟩, rfl⟩
    cases m with
    | nil => exact absurd rfl hm
    | cons y m =>
      refine ⟨_, _, ⟨⟨x, rfl, by simpa [reNonBlank] using hx⟩, rfl⟩, _, _,
        ⟨⟨y, rfl, reDot_iff.2 (ho y (by simp))⟩, rfl⟩, z :: s', _,
        ⟨⟨m, by simp, fun d hd => reDot_iff.2 (ho d (by simp [hd]))⟩, rfl⟩,
        ⟨z, rfl, by simpa [reNonBlank] using hz⟩, rfl⟩

theorem sem_anyword {s c s' c'} : ∀ (ws : List Str),
    ((∃ w ∈ ws, (Re.word w).sem s c s' c') ↔ ∃ w ∈ ws, (∃ t, s = t ++ s' ∧ SameCI t w) ∧ c' = c) := by
  intro ws
  constructor
  · rintro ⟨w, hw, h⟩; exact ⟨w, hw, Re.sem_word.1 h⟩
  · rintro ⟨w, hw, h⟩; exact ⟨w, hw, Re.sem_word.2 h⟩

/-- the lookahead after the geometry -/
def reStopG : Re := .look (.seq .blanks (Re.any [.word cs!"AND", .word cs!"HAVING", .word cs!"GROUP",
  .word cs!"ORDER", .eoi]))

/-- the lookahead after the condition on the right -/
def reStopR : Re := .look (.seq .blanks (Re.any [.word cs!"HAVING", .word cs!" GROUP",
  .word cs!" ORDER", .eoi]))

theorem sem_stopG {s c s' c'} : reStopG.sem s c s' c' ↔ s' = s ∧ c' = c ∧
    StopsAt [cs!"AND", cs!"HAVING", cs!"GROUP", cs!"ORDER"] s := by
  simp only [reStopG, Re.any, Re.sem, Re.sem_blanks, Re.sem_word]
  constructor
  · rintro ⟨⟨rfl, rfl⟩, s1, c1, s2, c2, ⟨⟨b, rfl, hb⟩, rfl⟩, h⟩
    refine ⟨rfl, rfl, b, s2, rfl, hb, ?_⟩
    rcases h with h | h | h | h | ⟨rfl, -⟩
    · obtain ⟨⟨t, h1, h2⟩, -⟩ := h; exact .inr ⟨_, by simp, t, s1, h1, h2⟩
    · obtain ⟨⟨t, h1, h2⟩, -⟩ := h; exact .inr ⟨_, by simp, t, s1, h1, h2⟩
    · obtain ⟨⟨t, h1, h2⟩, -⟩ := h; exact .inr ⟨_, by simp, t, s1, h1, h2⟩
    · obtain ⟨⟨t, h1, h2⟩, -⟩ := h; exact .inr ⟨_, by simp, t, s1, h1, h2⟩
    · exact .inl rfl
  · rintro ⟨rfl, rfl, b, y, rfl, hb, h⟩
    refine ⟨⟨rfl, rfl⟩, ?_⟩
    rcases h with rfl | ⟨w, hw, k, z, rfl, hk⟩
    · exact ⟨[], c', [], c', ⟨⟨b, rfl, hb⟩, rfl⟩, .inr (.inr (.inr (.inr ⟨rfl, rfl, rfl⟩)))⟩
    · refine ⟨z, c', k ++ z, c', ⟨⟨b, rfl, hb⟩, rfl⟩, ?_⟩
      simp only [List.mem_cons, List.not_mem_nil, or_false] at hw
      rcases hw with rfl | rfl | rfl | rfl
      · exact .inl ⟨⟨k, rfl, hk⟩, rfl⟩
      · exact .inr (.inl ⟨⟨k, rfl, hk⟩, rfl⟩)
      · exact .inr (.inr (.inl ⟨⟨k, rfl, hk⟩, rfl⟩))
      · exact .inr (.inr (.inr (.inl ⟨⟨k, rfl, hk⟩, rfl⟩)))

theorem sem_stopR {s c s' c'} : reStopR.sem s c s' c' ↔ s' = s ∧ c' = c ∧
    StopsAt [cs!"HAVING", cs!" GROUP", cs!" ORDER"] s := by
  simp only [reStopR, Re.any, Re.sem, Re.sem_blanks, Re.sem_word]
  constructor
  · rintro ⟨⟨rfl, rfl⟩, s1, c1, s2, c2, ⟨⟨b, rfl, hb⟩, rfl⟩, h⟩
    refine ⟨rfl, rfl, b, s2, rfl, hb, ?_⟩
    rcases h with h | h | h | ⟨rfl, -⟩
    · obtain ⟨⟨t, h1, h2⟩, -⟩ := h; exact .inr ⟨_, by simp, t, s1, h1, h2⟩
    · obtain ⟨⟨t, h1, h2⟩, -⟩ := h; exact .inr ⟨_, by simp, t, s1, h1, h2⟩
    · obtain ⟨⟨t, h1, h2⟩, -⟩ := h; exact .inr ⟨_, by simp, t, s1, h1, h2⟩
    · exact .inl rfl
  · rintro ⟨rfl, rfl, b, y, rfl, hb, h⟩
    refine ⟨⟨rfl, rfl⟩, ?_⟩
    rcases h with rfl | ⟨w, hw, k, z, rfl, hk⟩
    · exact ⟨[], c', [], c', ⟨⟨b, rfl, hb⟩, rfl⟩, .inr (.inr (.inr ⟨rfl, rfl, rfl⟩))⟩
    · refine ⟨z, c', k ++ z, c', ⟨⟨b, rfl, hb⟩, rfl⟩, ?_⟩
      simp only [List.mem_cons, List.not_mem_nil, or_false] at hw
      rcases hw with rfl | rfl | rfl
      · exact .inl ⟨⟨k, rfl, hk⟩, rfl⟩
      · exact .inr (.inl ⟨⟨k, rfl, hk⟩, rfl⟩)
      · exact .inr (.inr (.inl ⟨⟨k, rfl, hk⟩, rfl⟩))

/-- group 2 -/
def reGeom : Re := .grp 2 (Re.cat [
      .alt (Re.cat [.alt (.ci '0') (.ci '1'), .blanks, .ci '=', .blanks]) .eps,
      .alt (.word cs!"CONTAINS") (.word cs!"INTERSECTS"),
      .manyLazy reDot, reStopG])

theorem lowerC_eq_of {x y : Char} (hy : ¬ (65 ≤ y.toNat ∧ y.toNat ≤ 90)) (hy' : ¬ (97 ≤ y.toNat ∧ y.toNat ≤ 122)) :
    lowerC x = lowerC y ↔ x = y := by
  constructor
  · intro h
    have := congrArg Char.toNat h
    rw [lowerC_toNat, lowerC_toNat] at this
    apply char_ext
    split at this <;> omega
  · rintro rfl; rfl

theorem sem_geom {s c s' c'} : reGeom.sem s c s' c' ↔
    ∃ t, s = t ++ s' ∧ (GeomPart t ∧ StopsAt [cs!"AND", cs!"HAVING", cs!"GROUP", cs!"ORDER"] s') ∧
      c' = (2, t) :: c := by
  refine grp_take (fun t => GeomPart t ∧ StopsAt [cs!"AND", cs!"HAVING", cs!"GROUP", cs!"ORDER"] s') ?_
  intro c'
  have e0 : ∀ x, lowerC x = lowerC '0' ↔ x = '0' := fun x => lowerC_eq_of (by decide) (by decide)
  have e1 : ∀ x, lowerC x = lowerC '1' ↔ x = '1' := fun x => lowerC_eq_of (by decide) (by decide)
  have e2 : ∀ x, lowerC x = lowerC '=' ↔ x = '=' := fun x => lowerC_eq_of (by decide) (by decide)
  simp only [Re.cat, Re.sem, Re.sem_blanks, Re.sem_word, Re.sem_ci, sem_stopG, e0, e1, e2]
  constructor
  · rintro ⟨s1, c1, h1, s2, c2, h2, s3, c3, ⟨⟨m, rfl, hm⟩, rfl⟩, rfl, rfl, hstop⟩
    have hm' : OneLine m := fun d hd => reDot_iff.1 (hm d hd)
    have hk : ∃ k, s1 = k ++ (m ++ s') ∧ (SameCI k cs!"CONTAINS" ∨ SameCI k cs!"INTERSECTS") ∧ c' = c1 := by
      rcases h2 with ⟨⟨k, rfl, hk⟩, rfl⟩ | ⟨⟨k, rfl, hk⟩, rfl⟩
      · exact ⟨k, rfl, .inl hk, rfl⟩
      · exact ⟨k, rfl, .inr hk, rfl⟩
    obtain ⟨k, rfl, hk, rfl⟩ := hk
    rcases h1 with ⟨s4, c4, h4, s5, c5, ⟨⟨b, rfl, hb⟩, rfl⟩, s6, c6, ⟨⟨e, rfl, rfl⟩, rfl⟩,
      ⟨b', rfl, hb'⟩, rfl⟩ | ⟨rfl, rfl⟩
    · have : ∃ d, s = d :: (b ++ '=' :: (b' ++ (k ++ (m ++ s')))) ∧ (d = '0' ∨ d = '1') ∧ c' = c := by
        rcases h4 with ⟨⟨d, h, rfl⟩, rfl⟩ | ⟨⟨d, h, rfl⟩, rfl⟩
        · exact ⟨_, h, .inl rfl, rfl⟩
        · exact ⟨_, h, .inr rfl, rfl⟩
      obtain ⟨d, rfl, hd, rfl⟩ := this
      refine ⟨⟨(d :: (b ++ '=' :: b')) ++ (k ++ m), by simp, ⟨_, k, m, rfl, ?_, hk, hm'⟩, hstop⟩, rfl⟩
      exact .inr ⟨d, b, b', rfl, hd, hb, hb'⟩
    · exact ⟨⟨k ++ m, by simp, ⟨[], k, m, rfl, .inl rfl, hk, hm'⟩, hstop⟩, rfl⟩
  · rintro ⟨⟨t, rfl, ⟨f, k, m, rfl, hf, hk, hm⟩, hstop⟩, rfl⟩
    have h3 : ∀ d ∈ m, reDot d = true := fun d hd => reDot_iff.2 (hm d hd)
    have h2 : (∃ t, k ++ (m ++ s') = t ++ (m ++ s') ∧ List.map lowerC t = List.map lowerC cs!"CONTAINS") ∧
          c' = c' ∨
        (∃ t, k ++ (m ++ s') = t ++ (m ++ s') ∧ List.map lowerC t = List.map lowerC cs!"INTERSECTS") ∧
          c' = c' := by
      rcases hk with hk | hk
      · exact .inl ⟨⟨k, rfl, hk⟩, rfl⟩
      · exact .inr ⟨⟨k, rfl, hk⟩, rfl⟩
    rcases hf with rfl | ⟨d, b, b', rfl, hd, hb, hb'⟩
    · exact ⟨k ++ (m ++ s'), c', .inr ⟨by simp, rfl⟩, m ++ s', c', h2, s', c', ⟨⟨m, rfl, h3⟩, rfl⟩,
        rfl, rfl, hstop⟩
    · refine ⟨k ++ (m ++ s'), c', .inl ?_, m ++ s', c', h2, s', c', ⟨⟨m, rfl, h3⟩, rfl⟩, rfl, rfl, hstop⟩
      refine ⟨b ++ '=' :: (b' ++ (k ++ (m ++ s'))), c', ?_, '=' :: (b' ++ (k ++ (m ++ s'))), c',
        ⟨⟨b, rfl, hb⟩, rfl⟩, b' ++ (k ++ (m ++ s')), c', ⟨⟨'=', rfl, rfl⟩, rfl⟩, ⟨b', rfl, hb'⟩, rfl⟩
      rcases hd with rfl | rfl
      · exact .inl ⟨⟨'0', by simp, rfl⟩, rfl⟩
      · exact .inr ⟨⟨'1', by simp, rfl⟩, rfl⟩

/-- group 3 -/
def reRight : Re := .grp 3 (Re.cat [.chr reNonBlank, .chr reDot, .manyLazy reDot, reStopR])

theorem sem_right {s c s' c'} : reRight.sem s c s' c' ↔
    ∃ t, s = t ++ s' ∧ (RightPart t ∧ StopsAt [cs!"HAVING", cs!" GROUP", cs!" ORDER"] s') ∧
      c' = (3, t) :: c := by
  refine grp_take (fun t => RightPart t ∧ StopsAt [cs!"HAVING", cs!" GROUP", cs!" ORDER"] s') ?_
  intro c'
  simp only [Re.cat, Re.sem, sem_stopR]
  constructor
  · rintro ⟨s1, c1, ⟨⟨x, rfl, hx⟩, rfl⟩, s2, c2, ⟨⟨y, rfl, hy⟩, rfl⟩, s3, c3, ⟨⟨m, rfl, hm⟩, rfl⟩,
      rfl, rfl, hs⟩
    refine ⟨⟨x :: y :: m, by simp, ⟨x, y :: m, rfl, ?_, by simp, ?_⟩, hs⟩, rfl⟩
    · simpa [reNonBlank] using hx
    · intro d hd
      rcases List.mem_cons.1 hd with rfl | hd
      · exact reDot_iff.1 hy
      · exact reDot_iff.1 (hm d hd)
  · rintro ⟨⟨t, rfl, ⟨x, m, rfl, hx, hm, ho⟩, hs⟩, rfl⟩
    cases m with
    | nil => exact absurd rfl hm
    | cons y m =>
      exact ⟨_, _, ⟨⟨x, rfl, by simpa [reNonBlank] using hx⟩, rfl⟩, _, _,
        ⟨⟨y, rfl, reDot_iff.2 (ho y (by simp))⟩, rfl⟩, s', _,
        ⟨⟨m, rfl, fun d hd => reDot_iff.2 (ho d (by simp [hd]))⟩, rfl⟩, rfl, rfl, hs⟩

theorem geomRegex_eq : geomRegex = Re.cat [.word cs!"WHERE", .ci ' ', reLeft, .blanks, .word cs!"AND",
    .blanks, reGeom,
    .alt (Re.cat [.blanks, .word cs!"AND", .blanks, reRight]) .eps,
    .grp 4 (.many reDot), .eoi] := rfl

/-- the captures of a match -/
def capsOf (L G : Str) (R : Option Str) (T : Str) : Caps :=
  (4, T) :: (match R with
    | some R => [(3, R), (2, G), (1, L)]
    | none => [(2, G), (1, L)])

theorem sem_tail {s c s' c'} : (Re.grp 4 (.many reDot)).sem s c s' c' ↔
    ∃ t, s = t ++ s' ∧ OneLine t ∧ c' = (4, t) :: c := by
  apply grp_take
  intro c'
  simp only [Re.sem, reDot_iff]
  rfl

/-- What the regex matches, and its captures. -/
theorem geomRegex_sem {v s' : Str} {c' : Caps} : geomRegex.sem v [] s' c' ↔
    s' = [] ∧ ∃ L G R T, Spec.WhereForm v L G R T ∧ c' = capsOf L G R T := by
  have e1 : ∀ x, lowerC x = lowerC ' ' ↔ x = ' ' := fun x => lowerC_eq_of (by decide) (by decide)
  rw [geomRegex_eq]
  simp only [Re.cat, Re.sem_blanks, Re.sem_word, Re.sem_ci, sem_left, sem_geom, sem_right, sem_tail,
    e1, show ∀ p q s c s' c', (Re.seq p q).sem s c s' c' = ∃ s1 c1, p.sem s c s1 c1 ∧ q.sem s1 c1 s' c'
      from fun _ _ _ _ _ _ => rfl,
    show ∀ p q s c s' c', (Re.alt p q).sem s c s' c' = (p.sem s c s' c' ∨ q.sem s c s' c')
      from fun _ _ _ _ _ _ => rfl,
    show ∀ s c s' c', Re.eoi.sem s c s' c' = (s = [] ∧ s' = [] ∧ c' = c) from fun _ _ _ _ => rfl,
    show ∀ s c s' c', Re.eps.sem s c s' c' = (s' = s ∧ c' = c) from fun _ _ _ _ => rfl]
  constructor
  · rintro ⟨s1, c1, ⟨⟨w, rfl, hw⟩, rfl⟩, s2, c2, ⟨⟨x, rfl, rfl⟩, rfl⟩, s3, c3, ⟨L, rfl, hL, rfl⟩,
      s4, c4, ⟨⟨b1, rfl, hb1⟩, rfl⟩, s5, c5, ⟨⟨a, rfl, ha⟩, rfl⟩, s6, c6, ⟨⟨b2, rfl, hb2⟩, rfl⟩,
      s7, c7, ⟨G, rfl, ⟨hG, hstop⟩, rfl⟩, s8, c8, h8, s9, c9, ⟨T, rfl, hT, rfl⟩, rfl, rfl, rfl⟩
    refine ⟨rfl, ?_⟩
    have hw' : SameCI (w ++ [' ']) cs!"WHERE " := by
      simp only [SameCI, List.map_append, hw]; rfl
    simp only [List.append_nil] at h8
    rcases h8 with ⟨t1, d1, ⟨⟨b3, rfl, hb3⟩, rfl⟩, t2, d2, ⟨⟨a', rfl, ha'⟩, rfl⟩, t3, d3,
      ⟨⟨b4, rfl, hb4⟩, rfl⟩, R, rfl, ⟨hR, hstopR⟩, rfl⟩ | ⟨rfl, rfl⟩
    · refine ⟨L, G, some R, T, ⟨w ++ [' '], b1, a, b2, _, by simp, hw', hL, hb1, ha, hb2, hG, hstop, ?_, hT⟩, rfl⟩
      exact ⟨b3, a', b4, rfl, hb3, ha', hb4, hR, hstopR⟩
    · exact ⟨L, G, none, T, ⟨w ++ [' '], b1, a, b2, _, by simp, hw', hL, hb1, ha, hb2, hG, hstop, rfl, hT⟩, rfl⟩
  · rintro ⟨rfl, L, G, R, T, ⟨w, b1, a, b2, X, rfl, hw, hL, hb1, ha, hb2, hG, hstop, hX, hT⟩, rfl⟩
    have hw' : ∃ w0, w = w0 ++ [' '] ∧ w0.map lowerC = cs!"WHERE".map lowerC := by
      have hlen : w.length = 6 := by
        have := congrArg List.length hw; simpa using this
      match w, hlen with
      | [x1, x2, x3, x4, x5, x6], _ =>
        simp only [SameCI, List.map_cons, List.map_nil, List.cons.injEq, and_true] at hw
        obtain ⟨h1, h2, h3, h4, h5, h6⟩ := hw
        refine ⟨[x1, x2, x3, x4, x5], ?_, ?_⟩
        · rw [(e1 x6).1 h6]; rfl
        · simp [h1, h2, h3, h4, h5]
    obtain ⟨w0, rfl, hw0⟩ := hw'
    refine ⟨' ' :: (L ++ (b1 ++ (a ++ (b2 ++ (G ++ X))))), [], ⟨⟨w0, by simp, hw0⟩, rfl⟩,
      L ++ (b1 ++ (a ++ (b2 ++ (G ++ X)))), [], ⟨⟨' ', rfl, rfl⟩, rfl⟩,
      b1 ++ (a ++ (b2 ++ (G ++ X))), _, ⟨L, rfl, hL, rfl⟩,
      a ++ (b2 ++ (G ++ X)), _, ⟨⟨b1, rfl, hb1⟩, rfl⟩,
      b2 ++ (G ++ X), _, ⟨⟨a, rfl, ha⟩, rfl⟩,
      G ++ X, _, ⟨⟨b2, rfl, hb2⟩, rfl⟩, X, _, ⟨G, rfl, ⟨hG, hstop⟩, rfl⟩, ?_⟩
    cases R with
    | none =>
      subst hX
      exact ⟨X, _, .inr ⟨rfl, rfl⟩, [], _, ⟨X, by simp, hT, rfl⟩, rfl, rfl, rfl⟩
    | some R =>
      obtain ⟨b3, a', b4, rfl, hb3, ha', hb4, hR, hs⟩ := hX
      refine ⟨T, _, .inl ?_, [], _, ⟨T, by simp, hT, rfl⟩, rfl, rfl, rfl⟩
      exact ⟨_, _, ⟨⟨b3, rfl, hb3⟩, rfl⟩, _, _, ⟨⟨a', rfl, ha'⟩, rfl⟩, _, _, ⟨⟨b4, rfl, hb4⟩, rfl⟩,
        R, rfl, ⟨hR, hs⟩, rfl⟩

/-! ### Blanks in front, and replacement formats -/

theorem re_run_where {R : Type} {c : Char} (hc : isSpace c = true) (s : Str) (caps : Caps)
    (k : Str → Caps → Option R) : geomRegex.run (c :: s) caps k = none := by
  have h1 : (lowerC c == lowerC 'W') = false := by
    rw [isSpace_iff] at hc
    simp only [beq_eq_false_iff_ne]
    intro h
    have := congrArg Char.toNat h
    rw [lowerC_toNat, lowerC_toNat] at this
    have h2 : 'W'.toNat = 87 := rfl
    rw [h2] at this
    split at this <;> simp at this <;> omega
  have e : ∀ q, geomRegex = .seq (Re.word cs!"WHERE") q →
      geomRegex.run (c :: s) caps k = none := by
    intro q hq
    rw [hq]
    simp only [Re.run, Re.word, Re.ci]
    simp [h1]
  exact e _ rfl

theorem search_pre (p : Re) : ∀ (s pre : Str), p.search pre s =
    (p.search [] s).map fun m => { m with pre := pre ++ m.pre } := by
  intro s
  induction s with
  | nil =>
    intro pre
    unfold Re.search
    cases p.run [] [] fun r c => some (r, c) <;> simp
  | cons d s ih =>
    intro pre
    unfold Re.search
    cases p.run (d :: s) [] fun r c => some (r, c) with
    | some x => simp
    | none =>
      simp only
      rw [ih (pre ++ [d]), ih ([] ++ [d])]
      cases p.search [] s <;> simp

theorem search_blanks {b : Str} (hb : ∀ c ∈ b, isSpace c = true) (s : Str) :
    geomRegex.search [] (b ++ s) =
      (geomRegex.search [] s).map fun m => { m with pre := b ++ m.pre } := by
  rw [← search_pre]
  have : ∀ (b : Str), (∀ c ∈ b, isSpace c = true) → ∀ pre,
      geomRegex.search pre (b ++ s) = geomRegex.search (pre ++ b) s := by
    intro b
    induction b with
    | nil => intro _ pre; simp
    | cons c b ih =>
      intro hb pre
      rw [List.cons_append]
      conv => lhs; unfold Re.search
      rw [re_run_where (hb c (by simp))]
      simp only
      have h := ih (fun d hd => hb d (by simp [hd])) (pre ++ [c])
      rw [h, List.append_assoc]
      rfl
  have h := this b hb []
  simpa using h

/-- Replacement formats without `$` are copied. -/
theorem fmtExpand_plain (m : Match) (n : Nat) : ∀ (t : Str), '$' ∉ t → fmtExpand m n t = t
  | [], _ => rfl
  | c :: t, h => by
    have hc : (c != '$') = true := by
      simp only [bne_iff_ne]; intro e; exact h (by simp [e])
    unfold fmtExpand
    rw [if_pos hc, fmtExpand_plain m n t (fun h' => h (by simp [h']))]

end Adql
