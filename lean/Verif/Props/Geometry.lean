import Verif.Spec.System
import Verif.Props.Tree

/-!
# C14 and C35: flags and coordinate systems of geometric constraints
-/

namespace Adql

open P Spec

section
variable {rec : (n : Rule) → Bool → Str → Res (Attr n)} {sk : Bool} {s : Str}

theorem run_kw (w : Str) : step rec (kw w) sk s = match matchLit true w (skip sk s) with
    | some (t, r) => .ok t r
    | none => .fail := rfl

theorem run_sym1 (c : Char) : step rec (sym [c]) sk s = match skip sk s with
    | [] => .fail
    | d :: r => if d = c then .ok [c] r else .fail := by
  simp only [sym, step]
  cases skip sk s with
  | nil => rfl
  | cons d r =>
    by_cases h : d = c
    · subst h; simp [matchLit]
    · have h' : ¬ c = d := fun e => h e.symm
      simp [matchLit, h, h']

theorem run_charFlag : step rec charFlag sk s = match skip sk s with
    | [] => .fail
    | c :: r => if c = '0' ∨ c = '1' then .ok c r else .fail := by
  simp only [charFlag, run_lexeme]
  generalize skip sk s = u
  cases u with
  | nil => rfl
  | cons c r => by_cases h : c = '0' ∨ c = '1' <;> simp [step, skip, h]

theorem run_kw_head {w : Str} {c : Char} {r : Str} (hs : skip sk s = c :: r)
    (h : ∀ d u, w = d :: u → lowerC d ≠ lowerC c) (hw : w ≠ []) : step rec (kw w) sk s = .fail := by
  rw [run_kw, hs]
  cases w with
  | nil => exact absurd rfl hw
  | cons d u =>
    have h1 := h d u rfl
    have h2 : ¬ d = c := fun e => h1 (by rw [e])
    simp [matchLit, h1, h2]

theorem run_geomPred_digit {c : Char} {r : Str} (hs : skip sk s = c :: r) (hc : c = '0' ∨ c = '1') :
    step rec geomPred sk s = .fail := by
  have h1 : step rec (kw cs!"CONTAINS") sk s = .fail := run_kw_head hs (by
    rintro d u e; simp at e; rcases hc with rfl | rfl <;> rw [← e.1] <;> decide) (by simp)
  have h2 : step rec (kw cs!"INTERSECTS") sk s = .fail := run_kw_head hs (by
    rintro d u e; simp at e; rcases hc with rfl | rfl <;> rw [← e.1] <;> decide) (by simp)
  simp only [geomPred, contains, intersects, run_alt, run_map, run_seqR, h1, h2, Res.bind_fail,
    Res.orElse_fail]

end

/-! ### C14 -/

/-- The flag that a geometric constraint holds. -/
def Spec.flagOf : Geom → Char
  | .left f _ => f
  | .right _ f => f

/-- The predicate of a geometric constraint. -/
def Spec.predOf : Geom → GPred
  | .left _ p => p
  | .right p _ => p

/-- Applies `f` to what was parsed. -/
def Res.mapOk {α β : Type} (f : α → β) : Res α → Res β
  | .ok a r => .ok (f a) r
  | .fail => .fail
  | .err e => .err e
  | .oof => .oof

/-- **C14**, flag on the left: `f = G` is the constraint `G` with flag `f`, whatever the blanks. -/
theorem C14_left (cfg : Config) (b₁ b₂ : Str) (h₁ : ∀ c ∈ b₁, isSpace c = true)
    (h₂ : ∀ c ∈ b₂, isSpace c = true) (f : Char) (hf : f = '0' ∨ f = '1') (g : Str) :
    parse cfg geometry true (b₁ ++ f :: (b₂ ++ '=' :: g)) =
      (parse cfg geomPred true g).mapOk (fun p => Geom.left f p) := by
  have hs1 : skip true (b₁ ++ f :: (b₂ ++ '=' :: g)) = f :: (b₂ ++ '=' :: g) := by
    apply skip_eq ⟨h₁, by simp⟩
    intro c t h; simp at h; rw [← h.1]; rcases hf with rfl | rfl <;> decide
  have hs2 : skip true (b₂ ++ '=' :: g) = '=' :: g := by
    apply skip_eq ⟨h₂, by simp⟩
    intro c t h; simp at h; rw [← h.1]; decide
  simp only [parse, geometry]
  rw [run_alt, run_map, run_seq, run_seqL, run_charFlag, hs1]
  simp only [hf, if_true, Res.bind_ok]
  rw [run_sym1, hs2]
  simp only [if_true, Res.bind_ok]
  cases h : step (D cfg) geomPred true g with
  | ok p r => simp [Res.mapOk]
  | err e => simp [Res.mapOk]
  | oof => simp [Res.mapOk]
  | fail =>
    simp only [Res.bind_fail, Res.orElse_fail, Res.mapOk]
    rw [run_map, run_seq, run_geomPred_digit hs1 hf]
    rfl

/-- **C14**, flag on the right or missing: after `G`, `= f` gives the flag `f`, no `=` gives the flag
1 and consumes nothing more, and `=` with anything else is an error at that place. -/
theorem C14_right (cfg : Config) (s r : Str) (p : GPred)
    (h : parse cfg geomPred true s = .ok p r) :
    parse cfg geometry true s = match r.dropWhile isSpace with
      | '=' :: u => (match u.dropWhile isSpace with
        | '0' :: v => .ok (.right p '0') v
        | '1' :: v => .ok (.right p '1') v
        | _ => .err (.expect "char_flag" u))
      | _ => .ok (.right p '1') r := by
  simp only [parse] at h ⊢
  have hfail : step (D cfg) charFlag true s = .fail := by
    rw [run_charFlag]
    cases hs : skip true s with
    | nil => rfl
    | cons c t =>
      by_cases hc : c = '0' ∨ c = '1'
      · rw [run_geomPred_digit hs hc] at h; cases h
      · simp [hc]
  have hsk : ∀ u : Str, skip true u = u.dropWhile isSpace := fun u => rfl
  simp only [geometry]
  rw [run_alt, run_map, run_seq, run_seqL, hfail]
  simp only [Res.bind_fail, Res.orElse_fail]
  rw [run_map, run_seq, h]
  simp only [Res.bind_ok]
  rw [run_alt, run_seqR, run_sym1, hsk]
  cases h1 : r.dropWhile isSpace with
  | nil => simp [step]
  | cons c u =>
    by_cases hc : c = '='
    · subst hc
      simp only [if_true, Res.bind_ok]
      rw [run_expect, run_charFlag, hsk]
      cases h2 : u.dropWhile isSpace with
      | nil => simp
      | cons d v =>
        by_cases h0 : d = '0'
        · subst h0; simp
        · by_cases h1 : d = '1'
          · subst h1; simp
          · simp only [h0, h1, or_self, if_false]
            split <;> simp_all
    · simp only [hc, if_false]
      split
      · simp_all
      · simp [step]

/-- **C14**: `geometry` accepts nothing else, and its flag is `0` or `1`. -/
theorem C14_only (cfg : Config) (s r : Str) (g : Geom) (h : parse cfg geometry true s = .ok g r) :
    (flagOf g = '0' ∨ flagOf g = '1') ∧
    ((∃ b₁ b₂ u, (∀ c ∈ b₁, isSpace c = true) ∧ (∀ c ∈ b₂, isSpace c = true) ∧
        s = b₁ ++ flagOf g :: (b₂ ++ '=' :: u) ∧ parse cfg geomPred true u = .ok (predOf g) r) ∨
      ∃ u, parse cfg geomPred true s = .ok (predOf g) u) := by
  have hr := (parse_inv ap_geometry h _ (.refl _)).1
  have hf : flagOf g = '0' ∨ flagOf g = '1' := by cases g <;> exact hr
  refine ⟨hf, ?_⟩
  simp only [parse, geometry] at h
  rw [step_alt_ok] at h
  rcases h with h | ⟨-, h⟩
  · rw [step_map_ok] at h
    obtain ⟨⟨f, p⟩, h, rfl⟩ := h
    rw [step_seq_ok] at h
    obtain ⟨u, h1, h2⟩ := h
    have hseq : ∃ t, step (D cfg) charFlag true s = .ok f t ∧
        step (D cfg) (sym cs!"=") true t = .ok cs!"=" u := by
      simp only [seqL] at h1
      rw [step_map_ok] at h1
      obtain ⟨⟨f', e⟩, h1, hfe⟩ := h1
      rw [step_seq_ok] at h1
      obtain ⟨t, h3, h4⟩ := h1
      have h5 := h4
      rw [run_sym1] at h5
      split at h5
      · cases h5
      · split at h5
        · simp only [Res.ok.injEq] at h5
          exact ⟨t, by simp only at hfe h3 ⊢; rw [hfe] at *; exact h3, by simp only at h4; rw [← h5.1] at h4; exact h4⟩
        · cases h5
    obtain ⟨t, h3, h4⟩ := hseq
    left
    rw [run_charFlag] at h3
    rw [run_sym1] at h4
    obtain ⟨b₁, hb1, hB1⟩ := skip_blank true s
    obtain ⟨b₂, hb2, hB2⟩ := skip_blank true t
    split at h3
    · cases h3
    · rename_i c r1 hs1
      split at h3
      · simp only [Res.ok.injEq] at h3
        obtain ⟨rfl, rfl⟩ := h3
        split at h4
        · cases h4
        · rename_i d r2 hs2
          split at h4
          · rename_i hd
            subst hd
            simp only [Res.ok.injEq, true_and] at h4
            subst h4
            refine ⟨b₁, b₂, r2, hB1.1, hB2.1, ?_, h2⟩
            rw [hs1] at hb1; rw [hs2] at hb2
            rw [hb1]
            show b₁ ++ c :: r1 = b₁ ++ c :: (b₂ ++ '=' :: r2)
            rw [← hb2]
          · cases h4
      · cases h3
  · right
    rw [step_map_ok] at h
    obtain ⟨⟨p, f⟩, h, rfl⟩ := h
    rw [step_seq_ok] at h
    obtain ⟨u, h1, -⟩ := h
    exact ⟨u, h1⟩

/-- **C14**, formatting: `G=f` for every geometric constraint of a parsed query, on whichever side
the flag was written. -/
theorem C14_print (cfg : Config) (hM : ∀ y, cfg.Mapped y → y ≠ []) (fmt : Str → Str) (input : Str)
    (q : QuerySpec) (h : construct cfg input = .ok q) (g : Geom) (hg : Sub (.geom g) (.query q)) :
    g.print fmt = (predOf g).print fmt ++ cs!"=" ++ [flagOf g] ∧
      (flagOf g = '0' ∨ flagOf g = '1') := by
  have hr := C34_ranges cfg input q h _ hg
  have hn := C15_nonempty cfg hM input q h _ hg
  cases g with
  | left f p =>
    simp only [Node.isEmpty] at hn
    exact ⟨by simp [Geom.print, hn, predOf, flagOf], hr⟩
  | right p f =>
    simp only [Node.isEmpty] at hn
    exact ⟨by simp [Geom.print, hn, predOf, flagOf], hr⟩

/-- The three forms. -/
example : constructPrint ⟨fun _ => none, false⟩ id
    cs!"SELECT a FROM t WHERE 0 =CONTAINS(p,q) UNION SELECT a FROM t WHERE contains(p,q)= 0 UNION SELECT a FROM t WHERE INTERSECTS(p,q)" =
    .ok cs!"SELECT a FROM t WHERE CONTAINS(p,q)=0 UNION SELECT a FROM t WHERE CONTAINS(p,q)=0 UNION SELECT a FROM t WHERE INTERSECTS(p,q)=1" := by
  kernel_rfl

/-- A flag other than 0 and 1 is refused. -/
example : construct ⟨fun _ => none, false⟩ cs!"SELECT a FROM t WHERE CONTAINS(p,q)=2" =
    .error (.expecting "char_flag" cs!"2") := by kernel_rfl

/-! ### C35 -/

theorem sameCI_cons {t u : Str} {c : Char} (h : SameCI t (c :: u)) :
    ∃ d v, t = d :: v ∧ lowerC d = lowerC c ∧ SameCI v u := by
  cases t with
  | nil => simp [SameCI] at h
  | cons d v => simp only [SameCI, List.map_cons, List.cons.injEq] at h; exact ⟨d, v, rfl, h⟩

theorem matchLit_sameCI {t w : Str} (h : SameCI t w) (r : Str) :
    matchLit true w (t ++ r) = some (t, r) := matchLit_iff.2 ⟨rfl, litOK_ci.2 h⟩

theorem matchLit_cons_ne {ci : Bool} {c d : Char} {w r : Str} (h : lowerC c ≠ lowerC d) :
    matchLit ci (c :: w) (d :: r) = none := by
  have h2 : ¬ c = d := fun e => h (by rw [e])
  simp [matchLit, h, h2]

theorem lowerC_space {c d : Char} (h : lowerC d = lowerC c) (hc : isLetter c = true) :
    isSpace d = false := by
  refine isLetter_not_space ?_
  rw [isLetter_toNat] at hc ⊢
  have h2 := congrArg Char.toNat h
  rw [lowerC_toNat, lowerC_toNat] at h2
  split at h2 <;> split at h2 <;> omega

theorem skip_blanks {b : Str} (hb : ∀ c ∈ b, isSpace c = true) (s : Str) :
    skip true (b ++ s) = skip true s := by
  simp only [skip, if_true]
  induction b with
  | nil => rfl
  | cons c b ih =>
    simp only [List.cons_append, List.dropWhile_cons, hb c (by simp), if_true]
    exact ih fun d hd => hb d (by simp [hd])

section
variable {rec : (n : Rule) → Bool → Str → Res (Attr n)}

theorem run_frame (s : Str) : step rec (optD .icrs referenceFrame) true s =
    match matchLit true cs!"icrs" (skip true s) with
    | some (_, r) => .ok .icrs r
    | none => match matchLit true cs!"j2000" (skip true s) with
      | some (_, r) => .ok .j2000 r
      | none => match matchLit true cs!"galactic" (skip true s) with
        | some (_, r) => .ok .galactic r
        | none => .ok .icrs s := by
  simp only [run_optD, referenceFrame, run_alt, run_map, run_kw]
  cases matchLit true cs!"icrs" (skip true s) <;> cases matchLit true cs!"j2000" (skip true s) <;>
    cases matchLit true cs!"galactic" (skip true s) <;> simp

theorem run_pos (s : Str) : step rec (optD .geocenter referencePosition) true s =
    match matchLit true cs!"geocenter" (skip true s) with
    | some (_, r) => .ok .geocenter r
    | none => .ok .geocenter s := by
  simp only [run_optD, referencePosition, run_map, run_kw]
  cases matchLit true cs!"geocenter" (skip true s) <;> simp

theorem frame_written {f : Str} {fr : Frame} (hf : FrameText f fr) {s : Str}
    (hs : ∀ c t, skip true s = c :: t → lowerC c ≠ 'i' ∧ lowerC c ≠ 'j' ∧
      ∀ d u, t = d :: u → ¬ (lowerC c = 'g' ∧ lowerC d = 'a')) :
    ∃ s', step rec (optD .icrs referenceFrame) true (f ++ s) = .ok fr s' ∧
      skip true s' = skip true s := by
  rw [run_frame]
  cases hf with
  | none =>
    simp only [List.nil_append]
    have h1 : matchLit true cs!"icrs" (skip true s) = none := by
      cases h : skip true s with
      | nil => rfl
      | cons c t => exact matchLit_cons_ne (Ne.symm (hs c t h).1)
    have h2 : matchLit true cs!"j2000" (skip true s) = none := by
      cases h : skip true s with
      | nil => rfl
      | cons c t => exact matchLit_cons_ne (Ne.symm (hs c t h).2.1)
    have h3 : matchLit true cs!"galactic" (skip true s) = none := by
      rw [matchLit_none]
      intro t r h hl
      obtain ⟨c, v, rfl, hc, hv⟩ := sameCI_cons (show SameCI t cs!"galactic" from litOK_ci.1 hl)
      obtain ⟨d, w, rfl, hd, -⟩ := sameCI_cons hv
      exact (hs c _ h).2.2 d _ rfl ⟨hc, hd⟩
    rw [h1, h2, h3]
    exact ⟨s, rfl, rfl⟩
  | icrs h =>
    obtain ⟨c, v, rfl, hc, hv⟩ := sameCI_cons h
    have hsk : skip true (c :: v ++ s) = c :: v ++ s := by
      have := lowerC_space hc (by decide)
      simp [skip, this]
    rw [hsk, show matchLit true cs!"icrs" (c :: v ++ s) = _ from
      matchLit_sameCI (w := cs!"icrs") (h.trans (by decide)) s]
    exact ⟨s, rfl, rfl⟩
  | j2000 h =>
    obtain ⟨c, v, rfl, hc, hv⟩ := sameCI_cons h
    have hsk : skip true (c :: v ++ s) = c :: v ++ s := by
      have := lowerC_space hc (by decide)
      simp [skip, this]
    have h1 : matchLit true cs!"icrs" (c :: v ++ s) = none := by
      refine matchLit_cons_ne ?_; rw [hc]; decide
    rw [hsk, h1, show matchLit true cs!"j2000" (c :: v ++ s) = _ from
      matchLit_sameCI (w := cs!"j2000") (h.trans (by decide)) s]
    exact ⟨s, rfl, rfl⟩
  | galactic h =>
    obtain ⟨c, v, rfl, hc, hv⟩ := sameCI_cons h
    have hsk : skip true (c :: v ++ s) = c :: v ++ s := by
      have := lowerC_space hc (by decide)
      simp [skip, this]
    have h1 : matchLit true cs!"icrs" (c :: v ++ s) = none := by
      refine matchLit_cons_ne ?_; rw [hc]; decide
    have h2 : matchLit true cs!"j2000" (c :: v ++ s) = none := by
      refine matchLit_cons_ne ?_; rw [hc]; decide
    rw [hsk, h1, h2, show matchLit true cs!"galactic" (c :: v ++ s) = _ from
      matchLit_sameCI (w := cs!"galactic") (h.trans (by decide)) s]
    exact ⟨s, rfl, rfl⟩

theorem pos_written {p : Str} {po : Pos} (hp : PosText p po) {s : Str}
    (hs : ∀ c t, skip true s = c :: t → lowerC c ≠ 'g') :
    ∃ s', step rec (optD .geocenter referencePosition) true (p ++ s) = .ok po s' ∧
      skip true s' = skip true s := by
  rw [run_pos]
  cases hp with
  | none =>
    simp only [List.nil_append]
    have h1 : matchLit true cs!"geocenter" (skip true s) = none := by
      cases h : skip true s with
      | nil => rfl
      | cons c t => exact matchLit_cons_ne (Ne.symm (hs c t h))
    rw [h1]
    exact ⟨s, rfl, rfl⟩
  | geocenter h =>
    obtain ⟨c, v, rfl, hc, hv⟩ := sameCI_cons h
    have hsk : skip true (c :: v ++ s) = c :: v ++ s := by
      have := lowerC_space hc (by decide)
      simp [skip, this]
    rw [hsk, show matchLit true cs!"geocenter" (c :: v ++ s) = _ from
      matchLit_sameCI (w := cs!"geocenter") (h.trans (by decide)) s]
    exact ⟨s, rfl, rfl⟩

theorem frame_skip {s s' r : Str} {fr : Frame}
    (h : step rec (optD .icrs referenceFrame) true s' = .ok fr r)
    (hs : skip true s = skip true s') :
    ∃ r', step rec (optD .icrs referenceFrame) true s = .ok fr r' ∧ skip true r' = skip true r := by
  rw [run_frame] at h ⊢
  rw [hs]
  cases m1 : matchLit true cs!"icrs" (skip true s') with
  | some x => rw [m1] at h; exact ⟨r, h, rfl⟩
  | none =>
    cases m2 : matchLit true cs!"j2000" (skip true s') with
    | some x => rw [m1, m2] at h; exact ⟨r, h, rfl⟩
    | none =>
      cases m3 : matchLit true cs!"galactic" (skip true s') with
      | some x => rw [m1, m2, m3] at h; exact ⟨r, h, rfl⟩
      | none =>
        rw [m1, m2, m3] at h
        simp only [Res.ok.injEq] at h
        obtain ⟨rfl, rfl⟩ := h
        exact ⟨s, rfl, hs⟩

theorem pos_skip {s s' r : Str} {po : Pos}
    (h : step rec (optD .geocenter referencePosition) true s' = .ok po r)
    (hs : skip true s = skip true s') :
    ∃ r', step rec (optD .geocenter referencePosition) true s = .ok po r' ∧
      skip true r' = skip true r := by
  rw [run_pos] at h ⊢
  rw [hs]
  cases m1 : matchLit true cs!"geocenter" (skip true s') with
  | some x => rw [m1] at h; exact ⟨r, h, rfl⟩
  | none =>
    rw [m1] at h
    simp only [Res.ok.injEq, true_and] at h
    subst h
    exact ⟨s, by cases po; rfl, hs⟩

theorem skip_idem (s : Str) : skip true (skip true s) = skip true s := by
  obtain ⟨b, h1, h2⟩ := skip_blank true s
  conv => rhs; rw [h1, skip_blanks h2.1]

end

/-- **C35.** A written coordinate system means what is written, and a missing part of it means ICRS
or GEOCENTER. -/
theorem C35_written (cfg : Config) (b u r : Str) (hb : ∀ c ∈ b, isSpace c = true) (c : CoordSys)
    (hu : SysText u c) : parse cfg coordSys true (b ++ (u ++ r)) = .ok c r := by
  obtain @⟨b₁, f, b₂, p, b₃, fr, po, h₁, hf, h₂, hp, h₃⟩ := hu
  simp only [parse, coordSys]
  rw [run_map, run_seqR, run_sym1, skip_blanks hb]
  simp only [List.cons_append]
  rw [show skip true ('\'' :: ((b₁ ++ (f ++ (b₂ ++ (p ++ (b₃ ++ ['\'']))))) ++ r)) =
    '\'' :: ((b₁ ++ (f ++ (b₂ ++ (p ++ (b₃ ++ ['\'']))))) ++ r) by simp [skip, show isSpace '\'' = false from by decide]]
  simp only [if_true, Res.bind_ok, List.append_assoc]
  rw [run_seqL, run_seq]
  -- the part after the position
  have hq : skip true (b₃ ++ (['\''] ++ r)) = '\'' :: r := by
    rw [skip_blanks h₃]; simp [skip, show isSpace '\'' = false from by decide]
  -- the part after the frame
  have hpos : ∀ c t, skip true (b₃ ++ (['\''] ++ r)) = c :: t → lowerC c ≠ 'g' := by
    intro c t h; rw [hq] at h; simp at h; rw [← h.1]; decide
  have hfr : ∀ c t, skip true (b₂ ++ (p ++ (b₃ ++ (['\''] ++ r)))) = c :: t →
      lowerC c ≠ 'i' ∧ lowerC c ≠ 'j' ∧ ∀ d u, t = d :: u → ¬ (lowerC c = 'g' ∧ lowerC d = 'a') := by
    intro c t h
    rw [skip_blanks h₂] at h
    cases hp with
    | none =>
      rw [List.nil_append, hq] at h
      simp at h
      rw [← h.1]
      exact ⟨by decide, by decide, fun d u _ hh => absurd hh.1 (by decide)⟩
    | geocenter hp =>
      obtain ⟨x, v, rfl, hx, hv⟩ := sameCI_cons hp
      obtain ⟨y, w, rfl, hy, -⟩ := sameCI_cons hv
      have hsk : skip true (x :: y :: w ++ (b₃ ++ (['\''] ++ r))) =
          x :: y :: w ++ (b₃ ++ (['\''] ++ r)) := by
        have := lowerC_space hx (by decide)
        simp [skip, this]
      rw [hsk] at h
      simp only [List.cons_append, List.cons.injEq] at h
      obtain ⟨rfl, rfl⟩ := h
      rw [hx]
      refine ⟨by decide, by decide, fun d u e hh => ?_⟩
      simp only [List.cons.injEq] at e
      rw [← e.1, hy] at hh
      exact absurd hh.2 (by decide)
  obtain ⟨s₁, e1, k1⟩ := frame_written (rec := D cfg) hf hfr
  obtain ⟨s₂, e2, k2⟩ := frame_skip e1 (skip_blanks h₁ _)
  rw [e2]
  simp only [Res.bind_ok]
  obtain ⟨s₃, e3, k3⟩ := pos_written (rec := D cfg) hp hpos
  have k4 : skip true s₂ = skip true (p ++ (b₃ ++ (['\''] ++ r))) := by
    rw [k2, k1, skip_blanks h₂]
  obtain ⟨s₄, e4, k5⟩ := pos_skip e3 k4
  rw [e4]
  simp only [Res.bind_ok]
  rw [run_sym1, k5, k3, hq]
  simp

/-- **C35**, nothing else is accepted. -/
theorem C35_only (cfg : Config) (s r : Str) (c : CoordSys)
    (h : parse cfg coordSys true s = .ok c r) :
    ∃ b u, (∀ c ∈ b, isSpace c = true) ∧ s = b ++ (u ++ r) ∧ SysText u c := by
  simp only [parse, coordSys] at h
  rw [step_map_ok] at h
  obtain ⟨⟨fr, po⟩, h, rfl⟩ := h
  rw [run_seqR, run_sym1] at h
  obtain ⟨b, hb, hB⟩ := skip_blank true s
  cases hs : skip true s with
  | nil => rw [hs] at h; simp at h
  | cons q u =>
    rw [hs] at h hb
    by_cases hq : q = '\''
    · subst hq
      simp only [if_true, Res.bind_ok] at h
      rw [run_seqL, run_seq] at h
      -- frame
      have hF : ∃ b₁ f u₁, u = b₁ ++ (f ++ u₁) ∧ (∀ c ∈ b₁, isSpace c = true) ∧
          ∃ fr', FrameText f fr' ∧
            step (D cfg) (optD .icrs referenceFrame) true u = .ok fr' u₁ := by
        obtain ⟨b₁, hb₁, hB₁⟩ := skip_blank true u
        rw [run_frame]
        cases m1 : matchLit true cs!"icrs" (skip true u) with
        | some x =>
          obtain ⟨t, v⟩ := x
          obtain ⟨e, hl⟩ := matchLit_iff.1 m1
          exact ⟨b₁, t, v, by rw [← e]; exact hb₁, hB₁.1, _,
            .icrs ((litOK_ci.1 hl).trans (by decide)), rfl⟩
        | none =>
          cases m2 : matchLit true cs!"j2000" (skip true u) with
          | some x =>
            obtain ⟨t, v⟩ := x
            obtain ⟨e, hl⟩ := matchLit_iff.1 m2
            exact ⟨b₁, t, v, by rw [← e]; exact hb₁, hB₁.1, _,
              .j2000 ((litOK_ci.1 hl).trans (by decide)), rfl⟩
          | none =>
            cases m3 : matchLit true cs!"galactic" (skip true u) with
            | some x =>
              obtain ⟨t, v⟩ := x
              obtain ⟨e, hl⟩ := matchLit_iff.1 m3
              exact ⟨b₁, t, v, by rw [← e]; exact hb₁, hB₁.1, _,
                .galactic ((litOK_ci.1 hl).trans (by decide)), rfl⟩
            | none => exact ⟨[], [], u, rfl, by simp, _, .none, rfl⟩
      obtain ⟨b₁, f, u₁, rfl, hB₁, fr', hfr, e1⟩ := hF
      rw [e1] at h
      simp only [Res.bind_ok] at h
      have hP : ∃ b₂ p u₂, u₁ = b₂ ++ (p ++ u₂) ∧ (∀ c ∈ b₂, isSpace c = true) ∧
          ∃ po', PosText p po' ∧
            step (D cfg) (optD .geocenter referencePosition) true u₁ = .ok po' u₂ := by
        obtain ⟨b₂, hb₂, hB₂⟩ := skip_blank true u₁
        rw [run_pos]
        cases m1 : matchLit true cs!"geocenter" (skip true u₁) with
        | some x =>
          obtain ⟨t, v⟩ := x
          obtain ⟨e, hl⟩ := matchLit_iff.1 m1
          exact ⟨b₂, t, v, by rw [← e]; exact hb₂, hB₂.1, _,
            .geocenter ((litOK_ci.1 hl).trans (by decide)), rfl⟩
        | none => exact ⟨[], [], u₁, rfl, by simp, _, .none, rfl⟩
      obtain ⟨b₂, p, u₂, rfl, hB₂, po', hpo, e2⟩ := hP
      rw [e2] at h
      simp only [Res.bind_ok] at h
      rw [run_sym1] at h
      obtain ⟨b₃, hb₃, hB₃⟩ := skip_blank true u₂
      cases hs3 : skip true u₂ with
      | nil => rw [hs3] at h; simp at h
      | cons q' v =>
        rw [hs3] at h hb₃
        by_cases hq' : q' = '\''
        · subst hq'
          simp only [if_true, Res.bind_ok, Res.ok.injEq, Prod.mk.injEq] at h
          obtain ⟨⟨rfl, hpe⟩, rfl⟩ := h
          refine ⟨b, _, hB.1, ?_, .mk hB₁ hfr hB₂ hpo hB₃.1⟩
          rw [hb, hb₃]
          simp
        · simp [hq'] at h
    · simp [hq] at h

/-- **C35.** A missing coordinate system means ICRS GEOCENTER: nothing is consumed. -/
theorem C35_missing (cfg : Config) (s : Str) (hs : ∀ t, s.dropWhile isSpace ≠ '\'' :: t) :
    parse cfg optCoordSys true s = .ok ⟨.icrs, .geocenter⟩ s := by
  simp only [parse, optCoordSys, run_optD, run_seqL, coordSys, run_map, run_seqR, run_sym1]
  have hsk : skip true s = s.dropWhile isSpace := rfl
  rw [hsk]
  cases h : s.dropWhile isSpace with
  | nil => rfl
  | cons c t =>
    have : ¬ c = '\'' := fun e => hs t (by rw [h, e])
    simp [this]

/-- **C35.** Each written frame is formatted as that frame, in upper case. -/
theorem C35_print {f : Str} {fr : Frame} (h : FrameText f fr) (po : Pos) :
    (⟨fr, po⟩ : CoordSys).print = (if f = [] then cs!"ICRS" else upper f) ++ cs!" GEOCENTER" := by
  have hup : ∀ {t w : Str}, SameCI t w → upper t = upper w := by
    intro t w h
    have hc : ∀ c d : Char, lowerC c = lowerC d → upperC c = upperC d := by
      intro c d h
      have h2 := congrArg Char.toNat h
      rw [lowerC_toNat, lowerC_toNat] at h2
      apply char_ext
      simp only [upperC, Bool.and_eq_true, decide_eq_true_eq]
      split at h2 <;> split at h2 <;> split <;> split <;>
        first
        | omega
        | (rw [toNat_ofNat (by omega), toNat_ofNat (by omega)]; omega)
        | (rw [toNat_ofNat (by omega)]; omega)
    induction w generalizing t with
    | nil =>
      cases t with
      | nil => rfl
      | cons d t => simp [SameCI] at h
    | cons c w ih =>
      obtain ⟨d, v, rfl, h1, h2⟩ := sameCI_cons h
      simp only [upper, List.map_cons, hc d c h1]
      congr 1
      exact ih h2
  cases po
  cases h with
  | none => rfl
  | icrs h =>
    have := sameCI_cons h
    obtain ⟨d, v, rfl, -⟩ := this
    rw [if_neg (by simp), hup h]; rfl
  | j2000 h =>
    have := sameCI_cons h
    obtain ⟨d, v, rfl, -⟩ := this
    rw [if_neg (by simp), hup h]; rfl
  | galactic h =>
    have := sameCI_cons h
    obtain ⟨d, v, rfl, -⟩ := this
    rw [if_neg (by simp), hup h]; rfl

/-- A frame without position, a position without frame, nothing in the quotes, no quotes. -/
example : SysText cs!"' j2000 '" ⟨.j2000, .geocenter⟩ ∧ SysText cs!"'GeoCenter'" ⟨.icrs, .geocenter⟩ ∧
    SysText cs!"''" ⟨.icrs, .geocenter⟩ :=
  ⟨.mk (b₁ := cs!" ") (f := cs!"j2000") (b₂ := cs!" ") (p := []) (b₃ := []) (by decide)
      (.j2000 (by unfold SameCI; decide)) (by decide) .none (by decide),
    .mk (b₁ := []) (f := []) (b₂ := []) (p := cs!"GeoCenter") (b₃ := []) (by decide)
      .none (by decide) (.geocenter (by unfold SameCI; decide)) (by decide),
    .mk (b₁ := []) (f := []) (b₂ := []) (p := []) (b₃ := []) (by decide) .none (by decide) .none
      (by decide)⟩

example : constructPrint ⟨fun _ => none, false⟩ id
    cs!"SELECT a FROM t WHERE CONTAINS(POINT('galactic',1,2),CIRCLE(' ICRS ', 1,2,3))" =
    .ok cs!"SELECT a FROM t WHERE CONTAINS(POINT('GALACTIC GEOCENTER',1,2),CIRCLE('ICRS GEOCENTER',1,2,3))=1" := by
  kernel_rfl

end Adql
