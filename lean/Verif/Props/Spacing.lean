import Verif.Model.SpacingRules
import Verif.Model.AcceptWord
import Verif.Props.Preprocess

/-!
# C48: how many blanks separate the tokens, and which ones, does not matter
-/

namespace Adql

namespace Spec

/-- The same outcome: the same tree, or an error of the same kind, naming the same thing. -/
inductive SameOutcome {α : Type} : QRes α → QRes α → Prop
  | ok {a} : SameOutcome (.ok a) (.ok a)
  | expecting {w r t} : SameOutcome (.error (.expecting w r)) (.error (.expecting w t))
  | expectingSelect {s t} : SameOutcome (.error (.expectingSelect s)) (.error (.expectingSelect t))
  /-- what is left over differs only in blanks, too -/
  | unexpectedEnd {r t} : Respaced r t →
      SameOutcome (.error (.unexpectedEnd r)) (.error (.unexpectedEnd t))
  | noTable {n} : SameOutcome (.error (.noTable n)) (.error (.noTable n))

end Spec

open P Spec

/-- the parser without a bound, on both texts -/
theorem respaced_query (cfg : Config) {s t : Str} (h : Respaced s t) :
    RR Respaced (parse cfg query true s) (parse cfg query true t) := by
  have hs : parseQuery cfg s ≠ .oof := by
    rw [parseQuery_eq]; exact parse_not_oof (WF.wf_query 4)
  have ht : parseQuery cfg t ≠ .oof := by
    rw [parseQuery_eq]; exact parse_not_oof (WF.wf_query 4)
  let f := max (fuelFor s) (fuelFor t)
  have up : ∀ x : Str, fuelFor x ≤ f → parseQuery cfg x ≠ .oof →
      step (run (grammar cfg) f) query true x = parseQuery cfg x := by
    intro x hx hne
    exact step_mono (rec := run (grammar cfg) (fuelFor x))
      (fun n sk y hy => run_mono (grammar cfg) _ _ n sk y hx hy) query true x hne
  have := rsp_query (run (grammar cfg) f) (Sp.run (rsp_grammar cfg) f) s t h
  rw [up s (Nat.le_max_left _ _) hs, up t (Nat.le_max_right _ _) ht, parseQuery_eq, parseQuery_eq] at this
  exact this

/-- **C48**, the parser. -/
theorem C48_parse (cfg : Config) {s t : Str} (h : Respaced s t) :
    SameOutcome (parseIt cfg s) (parseIt cfg t) := by
  have h1 := respaced_query cfg h
  have hs : parse cfg query true s ≠ .oof := parse_not_oof (WF.wf_query 4)
  have ht : parse cfg query true t ≠ .oof := parse_not_oof (WF.wf_query 4)
  unfold parseIt
  rw [parseQuery_eq, parseQuery_eq]
  generalize parse cfg query true s = x at h1 hs ⊢
  generalize parse cfg query true t = y at h1 ht ⊢
  cases h1 with
  | @ok a r u e =>
    have e1 := rs_skip true r u e
    simp only [skip, if_true] at e1
    dsimp only
    rcases rs_head e1 with ⟨h2, h3⟩ | ⟨c, r', d, u', h2, h3, _⟩
    · rw [h2, h3]; exact .ok
    · rw [h2, h3] at e1 ⊢; exact .unexpectedEnd e1
  | fail => exact .expectingSelect
  | expect => exact .expecting
  | noTable => exact .noTable
  | oofL => exact absurd rfl hs
  | oofR => exact absurd rfl ht

/-- **C48.** Two texts that differ only in the blanks between their tokens have the same outcome: the
same tree, or an error of the same kind.  The preprocessing, whose pattern is sensitive to blanks,
must not apply. -/
theorem C48_construct (cfg : Config) {s t : Str} (h : Respaced s t) (hs : ¬ HasGeometryAfterAnd s)
    (ht : ¬ HasGeometryAfterAnd t) : SameOutcome (construct cfg s) (construct cfg t) := by
  unfold construct
  rw [C27_no_geometry_after_and s hs, C27_no_geometry_after_and t ht]
  exact C48_parse cfg h

/-- **C48**, accepted texts: the tree, and with it everything that is computed from it, is the same. -/
theorem C48_tree (cfg : Config) {s t : Str} (h : Respaced s t) (hs : ¬ HasGeometryAfterAnd s)
    (ht : ¬ HasGeometryAfterAnd t) (q : QuerySpec) : construct cfg s = .ok q ↔ construct cfg t = .ok q := by
  have := C48_construct cfg h hs ht
  generalize construct cfg s = x at this ⊢
  generalize construct cfg t = y at this ⊢
  cases this <;> simp

/-! ### Texts without quotes -/

/-- A test for texts without quotes and without the words that need care. -/
def respacedB : Str → Str → Bool
  | [], t => t.isEmpty
  | c :: s, t =>
    if isSpace c then
      if (s.head?.map isSpace).getD false then respacedB s t
      else (t.head?.map isSpace).getD false && respacedB s (t.dropWhile isSpace)
    else
      match t with
      | [] => false
      | d :: t' => c == d && tokC c && !prefixCI cs!"UNION" (c :: s) && !prefixCI cs!"NOT" (c :: s) &&
          !prefixCI cs!"nan(" (c :: s) && !prefixCI cs!"table(" (c :: s) &&
          !prefixCI cs!"UNION" (d :: t') && respacedB s t'

theorem rs_more {c : Char} {s t : Str} (h : Respaced s t) (hc : isSpace c = true)
    (hs : ∃ d u, s = d :: u ∧ isSpace d = true) : Respaced (c :: s) t := by
  obtain ⟨d, u, rfl, hd⟩ := hs
  generalize hx : d :: u = x at h
  cases h with
  | nil => cases hx
  | chr h _ _ _ _ => obtain ⟨rfl, _⟩ := List.cons.inj hx; rw [hd] at h; cases h
  | @blanks b b' _ _ h1 h2 h3 h4 h5 h6 h7 =>
    exact .blanks (b := c :: b) (by simp) h2
      (by simp only [List.mem_cons, forall_eq_or_imp]; exact ⟨hc, h3⟩) h4 h5 h6 h7
  | name h _ _ _ =>
    obtain ⟨q, rfl⟩ := delimited_cons h
    obtain ⟨rfl, _⟩ := List.cons.inj hx; cases hd
  | str h _ _ _ =>
    obtain ⟨q, rfl⟩ := strLit_cons h
    obtain ⟨rfl, _⟩ := List.cons.inj hx; cases hd

theorem not_prefixCI {w s : Str} (h : prefixCI w s = false) {k z : Str} (hs : s = k ++ z) : ¬ SameCI k w := by
  intro hk
  have : prefixCI w s = true := by
    unfold prefixCI
    rw [hs, List.map_append, List.isPrefixOf_iff_prefix]
    exact ⟨z.map lowerC, by rw [show w.map lowerC = k.map lowerC from hk.symm]⟩
  rw [this] at h; cases h

theorem respacedB_sound : ∀ (s t : Str), respacedB s t = true → Respaced s t
  | [], t, h => by
    cases t with
    | nil => exact .nil
    | cons => cases h
  | c :: s, t, h => by
    unfold respacedB at h
    split at h
    · next hc =>
      split at h
      · next hs =>
        refine rs_more (respacedB_sound s t h) hc ?_
        cases s with
        | nil => cases hs
        | cons d u => exact ⟨d, u, rfl, by simpa using hs⟩
      · next hs =>
        simp only [Bool.and_eq_true] at h
        cases t with
        | nil => cases h.1
        | cons d t =>
          have hd : isSpace d = true := by simpa using h.1
          have e := respacedB_sound s _ h.2
          obtain ⟨b, hb, hB⟩ := skip_blank true (d :: t)
          simp only [skip, if_true] at hb
          rw [hb]
          refine .blanks (b := [c]) (by simp) ?_ (by simpa using hc) hB.1 ?_ ?_ e
          · rintro rfl
            rw [List.nil_append] at hb
            have := List.head_dropWhile_not isSpace (l := d :: t) (by rw [← hb]; simp)
            simp only [← hb, List.head_cons] at this
            rw [hd] at this; cases this
          · rintro x u rfl
            simpa using hs
          · intro x u hx
            have := List.head_dropWhile_not isSpace (l := d :: t) (by rw [hx]; simp)
            simpa [hx] using this
    · next hc =>
      cases t with
      | nil => cases h
      | cons d t =>
        simp only [Bool.and_eq_true, Bool.not_eq_true', beq_iff_eq] at h
        obtain ⟨⟨⟨⟨⟨⟨⟨rfl, h1⟩, h2⟩, h3⟩, h4⟩, h5⟩, h6⟩, h7⟩ := h
        obtain ⟨p1, p2, p3⟩ := tokC_iff.1 h1
        refine .chr p1 p2 p3 ⟨?_, ?_, ?_⟩ (respacedB_sound s t h7)
        · intro w hw k hk
          have hu : ∀ {x : Str}, prefixCI cs!"UNION" x = false → ¬ k <+: x := by
            rintro x hx ⟨z, rfl⟩
            have : ∃ k1 k2, k = k1 ++ k2 ∧ SameCI k1 cs!"UNION" := by
              simp only [unionWords, List.mem_cons, List.not_mem_nil, or_false] at hw
              rcases hw with rfl | rfl
              · obtain ⟨k1, k2, rfl, h1, _⟩ := List.map_eq_append_iff.1
                  (hk.trans (List.map_append (f := lowerC) (l₁ := cs!"UNION") (l₂ := cs!" ALL")))
                exact ⟨k1, k2, rfl, h1⟩
              · obtain ⟨k1, k2, rfl, h1, _⟩ := List.map_eq_append_iff.1
                  (hk.trans (List.map_append (f := lowerC) (l₁ := cs!"UNION") (l₂ := cs!" DISTINCT")))
                exact ⟨k1, k2, rfl, h1⟩
            obtain ⟨k1, k2, rfl, hk1⟩ := this
            exact not_prefixCI hx (z := k2 ++ z) (by simp) hk1
          exact ⟨fun h => absurd h (hu h2), fun h => absurd h (hu h6)⟩
        · intro n _ b i x hs hn _ _ _
          exact absurd hn (not_prefixCI h3 hs)
        · intro w hw k hk
          rintro ⟨z, hz⟩
          simp only [copiedWords, List.mem_cons, List.not_mem_nil, or_false] at hw
          rcases hw with rfl | rfl
          · exact not_prefixCI h4 hz.symm hk
          · exact not_prefixCI h5 hz.symm hk

/-- the hypotheses of `C48_construct` are met by two layouts of a query -/
example : Respaced cs!"SELECT a , b FROM t WHERE a = 1 AND b < a + 2 ORDER BY b"
    cs!"SELECT\ta\n,\n b\r\nFROM  t\n\tWHERE a   = 1\n  AND b <  a\t+ 2\nORDER    BY b" :=
  respacedB_sound _ _ (by decide +kernel)

example : construct ⟨fun _ => none, false⟩ cs!"SELECT a , b FROM t WHERE a = 1 AND b < a + 2 ORDER BY b" =
    construct ⟨fun _ => none, false⟩
      cs!"SELECT\ta\n,\n b\r\nFROM  t\n\tWHERE a   = 1\n  AND b <  a\t+ 2\nORDER    BY b" := by kernel_rfl

/-- with quoted texts -/
example : Respaced (cs!"'it''s' 'b'" ++ (cs!"  , " ++ (cs!"\"x  y\"" ++ cs!" z")))
    (cs!"'it''s' 'b'" ++ (cs!"\t,\n" ++ (cs!"\"x  y\"" ++ cs!"    z"))) := by
  have hq : StrLit cs!"'it''s' 'b'" :=
    ⟨cs!"'it''s'", cs!" " ++ (cs!"'b'" ++ []), rfl,
      ⟨cs!"it''s", rfl, .chr (by decide) (.chr (by decide) (.dbl (.chr (by decide) .nil)))⟩,
      .cons (.one .blank) ⟨cs!"b", rfl, .chr (by decide) .nil⟩ .nil⟩
  have hd : Delimited cs!"\"x  y\"" := ⟨cs!"x  y", rfl, by simp,
    .chr (by decide) (.chr (by decide) (.chr (by decide) (.chr (by decide) .nil)))⟩
  have he : ∀ u : Str, (∀ v, u.dropWhile isSpace ≠ '\'' :: v ∧ u.dropWhile isSpace ≠ '-' :: v) → StrEnds u := by
    intro u hu
    refine ⟨?_, ?_⟩
    · rintro v rfl; exact (hu v).1 (by simp [show isSpace '\'' = false from by decide])
    · rintro ⟨x, p, v, rfl, hx, ⟨pb, rfl, _⟩, _⟩
      have : ∀ {x : Str}, Seps x → ∀ y : Str, (∃ v, y.dropWhile isSpace = '\'' :: v ∨ y.dropWhile isSpace = '-' :: v) →
          ∃ v, (x ++ y).dropWhile isSpace = '\'' :: v ∨ (x ++ y).dropWhile isSpace = '-' :: v := by
        have one : ∀ {x : Str}, Sep x → ∀ y : Str, (∃ v, y.dropWhile isSpace = '\'' :: v ∨ y.dropWhile isSpace = '-' :: v) →
            ∃ v, (x ++ y).dropWhile isSpace = '\'' :: v ∨ (x ++ y).dropWhile isSpace = '-' :: v := by
          intro x hx y hy
          cases hx with
          | blank => exact hy
          | newline => exact hy
          | comment => exact ⟨_, .inr (by simp [show isSpace '-' = false from by decide]; rfl)⟩
        intro x hx
        induction hx with
        | one h => exact one h
        | cons h _ ih => intro y hy; rw [List.append_assoc]; exact one h _ (ih y hy)
      obtain ⟨w, hw⟩ := this hx ('\'' :: pb ++ ['\''] ++ v) ⟨_, .inl (by simp [show isSpace '\'' = false from by decide]; rfl)⟩
      rcases hw with hw | hw
      · exact (hu w).1 hw
      · exact (hu w).2 hw
  have h1 : Respaced cs!" z" cs!"    z" := respacedB_sound _ _ (by decide)
  have h2 := Respaced.name hd (by rintro _ ⟨⟩) (by rintro _ ⟨⟩) h1
  refine .str hq (he _ fun v => ⟨by rintro ⟨⟩, by rintro ⟨⟩⟩) (he _ fun v => ⟨by rintro ⟨⟩, by rintro ⟨⟩⟩) ?_
  refine .blanks (b := cs!"  ") (b' := cs!"\t") (by simp) (by simp) (by decide) (by decide)
    (by rintro _ _ ⟨⟩; decide) (by rintro _ _ ⟨⟩; decide) ?_
  refine .chr (by decide) (by decide) (by decide) ⟨?_, ?_, ?_⟩ (.blanks (b := cs!" ") (b' := cs!"\n")
    (by simp) (by simp) (by decide) (by decide) (by rintro _ _ ⟨⟩; decide) (by rintro _ _ ⟨⟩; decide) h2)
  · intro w hw k hk
    have : ∀ u : Str, ¬ k <+: ',' :: u := by
      rintro u ⟨z, hz⟩
      cases k with
      | nil =>
        simp only [unionWords, List.mem_cons, List.not_mem_nil, or_false] at hw
        rcases hw with rfl | rfl <;> cases hk
      | cons c k =>
        obtain ⟨rfl, _⟩ := List.cons.inj hz
        simp only [unionWords, List.mem_cons, List.not_mem_nil, or_false] at hw
        rcases hw with rfl | rfl <;> exact absurd (List.cons.inj hk).1 (by decide)
    exact ⟨fun h => absurd h (this _), fun h => absurd h (this _)⟩
  · intro n c b i x hs hn _ _ _
    cases n with
    | nil => cases hn
    | cons d n =>
      obtain ⟨rfl, _⟩ := List.cons.inj hs
      exact absurd (List.cons.inj hn).1 (by decide)
  · rintro w hw k hk ⟨z, hz⟩
    cases k with
    | nil =>
      simp only [copiedWords, List.mem_cons, List.not_mem_nil, or_false] at hw
      rcases hw with rfl | rfl <;> cases hk
    | cons c k =>
      obtain ⟨rfl, _⟩ := List.cons.inj hz
      simp only [copiedWords, List.mem_cons, List.not_mem_nil, or_false] at hw
      rcases hw with rfl | rfl <;> exact absurd (List.cons.inj hk).1 (by decide)

/-! ### The exceptions are needed -/

/-- Whether a text is accepted. -/
def accepts (cfg : Config) (s : Str) : Bool :=
  match construct cfg s with
  | .ok _ => true
  | .error _ => false

theorem spaces_union (cfg : Config) : accepts cfg cs!"SELECT a FROM t UNION ALL SELECT a FROM t" = true ∧
    accepts cfg cs!"SELECT a FROM t UNION  ALL SELECT a FROM t" = false := by
  obtain ⟨m, r⟩ := cfg
  cases r <;> exact ⟨by kernel_rfl, by kernel_rfl⟩

theorem spaces_literal (cfg : Config) : accepts cfg cs!"SELECT 'a' 'b' FROM t" = true ∧
    accepts cfg cs!"SELECT 'a'\t'b' FROM t" = false := by
  obtain ⟨m, r⟩ := cfg
  cases r <;> exact ⟨by kernel_rfl, by kernel_rfl⟩

theorem spaces_table (cfg : Config) : accepts cfg cs!"SELECT a FROM table(f('x'))" = true ∧
    accepts cfg cs!"SELECT a FROM table( f('x'))" = false := by
  obtain ⟨m, r⟩ := cfg
  cases r <;> exact ⟨by kernel_rfl, by kernel_rfl⟩

theorem spaces_where (cfg : Config) :
    accepts cfg cs!"SELECT a FROM t WHERE b=1 AND CONTAINS(POINT('ICRS',1,2),CIRCLE('ICRS',1,2,3))=1" = true ∧
    accepts cfg cs!"SELECT a FROM t WHERE  b=1 AND CONTAINS(POINT('ICRS',1,2),CIRCLE('ICRS',1,2,3))=1" = false := by
  obtain ⟨m, r⟩ := cfg
  cases r <;> exact ⟨by kernel_rfl, by kernel_rfl⟩

theorem spaces_and (cfg : Config) :
    accepts cfg cs!"SELECT a FROM t WHERE b=1 AND\tCONTAINS(POINT('ICRS',1,2),CIRCLE('ICRS',1,2,3))=1" = false := by
  obtain ⟨m, r⟩ := cfg
  cases r <;> kernel_rfl

/-- **C48**, the exceptions: the blanks do matter in a union operator, between the parts of a string
literal, in the call of a table function, and, through the preprocessing, after WHERE and after the
AND before a geometric constraint. -/
theorem C48_exceptions (cfg : Config) :
    (accepts cfg cs!"SELECT a FROM t UNION ALL SELECT a FROM t" = true ∧
      accepts cfg cs!"SELECT a FROM t UNION  ALL SELECT a FROM t" = false) ∧
    (accepts cfg cs!"SELECT 'a' 'b' FROM t" = true ∧ accepts cfg cs!"SELECT 'a'\t'b' FROM t" = false) ∧
    (accepts cfg cs!"SELECT a FROM table(f('x'))" = true ∧
      accepts cfg cs!"SELECT a FROM table( f('x'))" = false) ∧
    (accepts cfg cs!"SELECT a FROM t WHERE b=1 AND CONTAINS(POINT('ICRS',1,2),CIRCLE('ICRS',1,2,3))=1" = true ∧
      accepts cfg cs!"SELECT a FROM t WHERE  b=1 AND CONTAINS(POINT('ICRS',1,2),CIRCLE('ICRS',1,2,3))=1" = false ∧
      accepts cfg cs!"SELECT a FROM t WHERE b=1 AND\tCONTAINS(POINT('ICRS',1,2),CIRCLE('ICRS',1,2,3))=1" = false) := by
  exact ⟨spaces_union cfg, spaces_literal cfg, spaces_table cfg, (spaces_where cfg).1, (spaces_where cfg).2, spaces_and cfg⟩

/-- the NOT of an IN constraint that is the whole condition -/
def notOf : QRes QuerySpec → Str
  | .ok (.mk _ (.mk (.mk _ _ (.mk _ (.factor (.mk _ (.pred (.inList _ n _)))))) _) _ _ _) => n
  | _ => []

/-- **C48**, the blank after NOT in front of IN is a part of the tree. -/
theorem C48_notIn (cfg : Config) : accepts cfg cs!"SELECT a FROM t WHERE b NOT IN (1)" = true ∧
    accepts cfg cs!"SELECT a FROM t WHERE b NOT\nIN (1)" = true ∧
    construct cfg cs!"SELECT a FROM t WHERE b NOT IN (1)" ≠ construct cfg cs!"SELECT a FROM t WHERE b NOT\nIN (1)" := by
  have h1 : notOf (construct cfg cs!"SELECT a FROM t WHERE b NOT IN (1)") = cs!"NOT " := by
    obtain ⟨m, r⟩ := cfg; cases r <;> kernel_rfl
  have h2 : notOf (construct cfg cs!"SELECT a FROM t WHERE b NOT\nIN (1)") = cs!"NOT\n" := by
    obtain ⟨m, r⟩ := cfg; cases r <;> kernel_rfl
  refine ⟨?_, ?_, fun h => ?_⟩
  · obtain ⟨m, r⟩ := cfg; cases r <;> kernel_rfl
  · obtain ⟨m, r⟩ := cfg; cases r <;> kernel_rfl
  · rw [h, h2] at h1; cases h1

end Adql
