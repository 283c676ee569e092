import Verif.Spec.Value
import Verif.Props.Around

/-!
# C65: a value that is put into a query stays a value
-/

namespace Adql

open Spec Fwd

variable {fmt : Str → Str} {nt : Bool} {M : Str → Prop} {q : Char}

theorem doubled_body (q : Char) : ∀ v : Str, QBody q (doubled q v)
  | [] => .nil
  | c :: r => by
    unfold doubled
    split
    · exact .dbl (doubled_body q r)
    · rename_i h; exact .chr h (doubled_body q r)

theorem contents_doubled (q : Char) : ∀ v : Str, contents q (doubled q v ++ [q]) = v
  | [] => by simp [doubled, contents]
  | c :: r => by
    have ih := contents_doubled q r
    unfold doubled
    split
    · rename_i h
      subst h
      simp only [List.cons_append, contents, and_self, if_true, ih]
    · rename_i h
      cases hr : doubled q r ++ [q] with
      | nil => simp at hr
      | cons d t =>
        rw [List.cons_append, hr, contents, if_neg (fun e => h e.1), ← hr, ih]

/-- **C65.** The literal of a value is a string literal, and its value is the one it was made of. -/
theorem C65_literal (v : Str) : StrLit (quoted v) ∧ valueOfLit (quoted v) = v :=
  ⟨⟨quoted v, [], by simp, ⟨doubled '\'' v, rfl, doubled_body _ v⟩, .nil⟩, contents_doubled _ v⟩

theorem litVE_made (v : Str) : All (WellMade nt M) (.ve (litVE v)) := by
  refine all_iff.2 ⟨⟨trivial, trivial, trivial⟩, ?_⟩
  rintro m rfl
  refine all_iff.2 ⟨⟨trivial, trivial, trivial⟩, ?_⟩
  rintro m (rfl | ⟨t, ht, rfl⟩)
  · refine all_iff.2 ⟨⟨by simp [Ranges], trivial, trivial⟩, ?_⟩
    rintro m rfl
    refine all_iff.2 ⟨⟨trivial, trivial, trivial⟩, ?_⟩
    rintro m rfl
    refine all_iff.2 ⟨⟨trivial, trivial, trivial⟩, ?_⟩
    rintro m (rfl | ⟨t, ht, rfl⟩)
    · exact all_iff.2 ⟨⟨.inr (.inl (C65_literal v).1), trivial, trivial⟩, fun _ (h : False) => h.elim⟩
    · cases ht
  · cases ht

/-- **C65.** The comparison of a well-made expression with any value is a well-made condition. -/
theorem C65_compared {e : VENB} (he : All (WellMade nt M) (.venb e)) (hn : nt = false → prefixCI cs!"NOT" (firstExpr e) = false) {op : Str}
    (ho : op ∈ [cs!"=", cs!"!=", cs!"<>", cs!"<=", cs!">=", cs!"<", cs!">"]) (v : Str) : All (WellMade nt M) (.sc (compared e op v)) := by
  refine all_iff.2 ⟨⟨trivial, trivial, trivial⟩, ?_⟩
  rintro m rfl
  refine all_iff.2 ⟨⟨.inl rfl, trivial, hn⟩, ?_⟩
  rintro m rfl
  refine all_iff.2 ⟨⟨trivial, trivial, trivial⟩, ?_⟩
  rintro m rfl
  refine all_iff.2 ⟨⟨ho, trivial, trivial⟩, ?_⟩
  rintro m (rfl | rfl)
  · exact he
  · exact litVE_made v

/-- **C65.** The same for a list of values that is not empty. -/
theorem C65_among {e : VENB} (he : All (WellMade nt M) (.venb e)) (hn : nt = false → prefixCI cs!"NOT" (firstExpr e) = false) {vs : List Str}
    (hv : vs ≠ []) : All (WellMade nt M) (.sc (among e vs)) := by
  refine all_iff.2 ⟨⟨trivial, trivial, trivial⟩, ?_⟩
  rintro m rfl
  refine all_iff.2 ⟨⟨.inl rfl, trivial, hn⟩, ?_⟩
  rintro m rfl
  refine all_iff.2 ⟨⟨trivial, trivial, trivial⟩, ?_⟩
  rintro m rfl
  refine all_iff.2 ⟨⟨⟨.inl rfl, by simpa using hv⟩, trivial, ?_⟩, ?_⟩
  · cases vs with
    | nil => exact absurd rfl hv
    | cons v vs => exact ⟨rfl, rfl⟩
  · rintro m (rfl | ⟨t, ht, rfl⟩)
    · exact he
    · obtain ⟨v, -, rfl⟩ := List.mem_map.1 ht
      exact litVE_made v

theorem compared_isEmpty {e : VENB} {op v : Str} (ho : op ∈ [cs!"=", cs!"!=", cs!"<>", cs!"<=", cs!">=", cs!"<", cs!">"]) :
    (compared e op v).isEmpty = false := by
  have : ∀ x ∈ [cs!"=", cs!"!=", cs!"<>", cs!"<=", cs!">=", cs!"<", cs!">"], x.isEmpty = false := by decide
  exact this op ho

/-- **C65.** A query that is restricted by a comparison with any value is read as the query that was meant: its SELECTs ask for the rows for
which the comparison holds too, and nothing else changes.  The value can be got back from what is read: queries with different values are
read differently. -/
theorem C65_restricted (hfmt : FmtNum fmt) (cfg : Config) {q : QuerySpec} (h : All (WellMade (!cfg.residue) M) (.query q)) {e : VENB}
    (he : All (WellMade (!cfg.residue) M) (.venb e)) (hn : (!cfg.residue) = false → prefixCI cs!"NOT" (firstExpr e) = false) {op : Str}
    (ho : op ∈ [cs!"=", cs!"!=", cs!"<>", cs!"<=", cs!">=", cs!"<", cs!">"]) (v : Str) :
    ∃ p, parseIt cfg ((everySelect (restrict (compared e op v)) q).print fmt) = .ok p ∧
      SameQuery fmt (everySelect (restrict (compared e op v)) q) p ∧
      (∀ γ ρ, SpellingFree fmt γ ρ → ((components p).map fun s => whereHolds γ ρ s.where_) =
        (components q).map fun s => (sfwHolds γ ρ s).and (holds ρ (compared e op v))) ∧
      ∀ v', SameQuery fmt (everySelect (restrict (compared e op v')) q) p → v' = v := by
  obtain ⟨p, h1, h2, h3⟩ := C56_restricted hfmt cfg h (C65_compared he hn ho v) (compared_isEmpty ho)
  refine ⟨p, h1, h2, h3, fun v' h' => ?_⟩
  have : (everySelect (restrict (compared e op v)) q).norm fmt = (everySelect (restrict (compared e op v')) q).norm fmt := h2.symm.trans h'
  obtain ⟨w, ⟨⟨s, ts, ⟨g, c⟩⟩, as⟩, gr, hv, o⟩ := q
  have hq : quoted v = quoted v' := by
    simp only [everySelect, restrict, both, compared, litVE] at this
    split at this <;>
      simp only [QuerySpec.norm, SFWList.norm, SFW.norm, Where.norm, SC.norm, BF.norm, BP.norm, Pred.norm, VE.norm, VENB.norm, Factor.norm, NumPrim.norm,
        VEP.norm, Prim.norm, QuerySpec.mk.injEq, SFWList.mk.injEq, SFW.mk.injEq, Where.mk.injEq, SC.factor.injEq, SC.term.injEq, BF.mk.injEq, BP.sc.injEq,
        BP.pred.injEq, Pred.cmp.injEq, VE.nb.injEq, VENB.mk.injEq, Factor.mk.injEq, NumPrim.vep.injEq, VEP.mk.injEq, Prim.str.injEq, true_and, and_true] at this
    all_goals first | exact this.1 | exact this.1.1 | exact this
  rw [← (C65_literal v).2, hq, (C65_literal v').2]

/-! ### The constructor -/

/-- A word without a quote is on one side of a quote. -/
theorem contains_quote {w a b : Str} (hl : lowerC q = q) (hw : q ∉ w.map lowerC) (h : Contains w (a ++ q :: b)) : Contains w a ∨ Contains w b := by
  obtain ⟨u, k, z, h, hk⟩ := h
  have hq : q ∉ k := fun hm => hw (hk ▸ List.mem_map.2 ⟨_, hm, hl⟩)
  rcases List.append_eq_append_iff.1 h with ⟨c, rfl, h'⟩ | ⟨c, rfl, h'⟩
  · cases c with
    | nil =>
      cases k with
      | nil => exact .inr ⟨[], [], b, rfl, hk⟩
      | cons x k =>
        injection h' with h1 h2
        exact absurd (by simp [← h1]) hq
    | cons x c =>
      injection h' with h1 h2
      exact .inr ⟨c, k, z, h2, hk⟩
  · rcases List.append_eq_append_iff.1 h' with ⟨d, rfl, h2⟩ | ⟨d, rfl, h2⟩
    · exact .inl ⟨u, k, d, rfl, hk⟩
    · cases d with
      | nil => exact .inl ⟨u, c, [], by simp, by simpa using hk⟩
      | cons x d =>
        injection h2 with h1 h2
        exact absurd (by simp [← h1]) hq

theorem doubled_free : ∀ {v : Str}, q ∉ v → doubled q v = v
  | [], _ => rfl
  | c :: r, h => by
    rw [doubled, if_neg (fun e => h (by simp [e])), doubled_free fun hm => h (by simp [hm])]

theorem doubled_split : ∀ {a b : Str}, q ∉ a → doubled q (a ++ q :: b) = a ++ q :: q :: doubled q b
  | [], _, _ => by simp [doubled]
  | c :: r, b, h => by
    rw [List.cons_append, doubled, if_neg (fun e => h (by simp [e])), doubled_split fun hm => h (by simp [hm])]
    rfl

/-- A word without a quote is in the literal only if it is in the value. -/
theorem contains_doubled {w : Str} (hl : lowerC q = q) (hw : q ∉ w.map lowerC) : ∀ (n : Nat) {v : Str}, v.length ≤ n → Contains w (doubled q v) → Contains w v
  | 0, v, hn, h => by
    obtain rfl : v = [] := List.eq_nil_of_length_eq_zero (by omega)
    exact h
  | n + 1, v, hn, h => by
    by_cases hq : q ∈ v
    · obtain ⟨a, b, rfl, ha⟩ := List.eq_append_cons_of_mem hq
      rw [doubled_split ha] at h
      rcases contains_quote hl hw h with ⟨u, k, z, rfl, hk⟩ | h
      · exact ⟨u, k, z ++ q :: b, by simp, hk⟩
      · have : Contains w (doubled q b) := by
          rcases contains_quote (a := []) hl hw h with ⟨u, k, z, h, hk⟩ | h
          · have : k = [] ∧ u = [] := by
              have := congrArg List.length h
              simp only [List.length_nil, List.length_append] at this
              exact ⟨List.eq_nil_of_length_eq_zero (by omega), List.eq_nil_of_length_eq_zero (by omega)⟩
            obtain ⟨rfl, rfl⟩ := this
            exact ⟨[], [], _, rfl, hk⟩
          · exact h
        obtain ⟨u, k, z, rfl, hk⟩ := contains_doubled hl hw n (by simp at hn; omega) this
        exact ⟨a ++ q :: u, k, z, by simp, hk⟩
    · rwa [doubled_free hq] at h

theorem contains_literal {w a v b : Str} (hw : '\'' ∉ w.map lowerC) (h : Contains w (a ++ quoted v ++ b)) : Contains w a ∨ Contains w v ∨ Contains w b := by
  rw [quoted, List.append_assoc, List.cons_append, List.append_assoc, List.singleton_append] at h
  rcases contains_quote (by decide) hw h with h | h
  · exact .inl h
  · rcases contains_quote (by decide) hw h with h | h
    · exact .inr (.inl (contains_doubled (by decide) hw _ (Nat.le_refl _) h))
    · exact .inr (.inr h)

/-- **C65.** The constructor does not rewrite a text with a value in it, if neither the value nor what is around it contains one of the words
CONTAINS and INTERSECTS. -/
theorem C65_constructor (cfg : Config) {a v b : Str} (h : ∀ s ∈ [a, v, b], ¬ Contains cs!"CONTAINS" s ∧ ¬ Contains cs!"INTERSECTS" s) :
    construct cfg (a ++ quoted v ++ b) = parseIt cfg (a ++ quoted v ++ b) := by
  have key : ∀ w : Str, '\'' ∉ w.map lowerC → (∀ s ∈ [a, v, b], ¬ Contains w s) → ¬ Contains w (a ++ quoted v ++ b) := by
    intro w hw hs hc
    rcases contains_literal hw hc with h | h | h
    · exact hs a (by simp) h
    · exact hs v (by simp) h
    · exact hs b (by simp) h
  have h1 := key cs!"CONTAINS" (by decide +kernel) fun s hs => (h s hs).1
  have h2 := key cs!"INTERSECTS" (by decide +kernel) fun s hs => (h s hs).2
  unfold construct
  rw [C27_no_geometry_word _ fun u k z e => ⟨fun hk => h1 ⟨u, k, z, e, hk⟩, fun hk => h2 ⟨u, k, z, e, hk⟩⟩]

private def c0 : Config := ⟨fun _ => none, false⟩

/-- **C65**, limit: the constructor also rewrites inside of literals.  A value with a geometric constraint between two ANDs becomes a shorter
value and a constraint of the query, and GROUP BY and HAVING behind it are lost. -/
theorem C65_violated : ∃ v : Str, quoted v = cs!"'x AND CONTAINS(POINT(1,2),CIRCLE(1,2,3))=1 AND y'" ∧
    constructPrint c0 id (cs!"SELECT a FROM t WHERE b = " ++ quoted v ++ cs!" GROUP BY a HAVING c > 5") =
      .ok cs!"SELECT a FROM t WHERE CONTAINS(POINT('ICRS GEOCENTER',1,2),CIRCLE('ICRS GEOCENTER',1,2,3))=1 AND b = 'x AND y'" ∧
    (parseIt c0 (cs!"SELECT a FROM t WHERE b = " ++ quoted v ++ cs!" GROUP BY a HAVING c > 5")).toOption.map (·.print id) =
      some cs!"SELECT a FROM t WHERE b = 'x AND CONTAINS(POINT(1,2),CIRCLE(1,2,3))=1 AND y' GROUP BY a HAVING c > 5" := by
  refine ⟨cs!"x AND CONTAINS(POINT(1,2),CIRCLE(1,2,3))=1 AND y", by kernel_rfl, by kernel_rfl, by kernel_rfl⟩

/-- what a row with another `c` makes of the simple conditions: `1 = 1` holds, the others do not -/
private def otherRow (p : BP) : Truth := if p.print id = cs!"1 = 1" then .yes else .no

/-- the values of the WHERE clauses for such a row, if all geometric constraints hold -/
private def forOtherRow (q : QRes QuerySpec) : Option (List Truth) :=
  q.toOption.map fun q => (components q).map fun s => whereHolds (fun _ => .yes) otherRow s.where_

/-- **C65**, limit: with the dollar signs of C32, a value can leave its literal.  `b = 'v' AND c = 'me'` gives rows with another `c`, although the
quotes of the value (there are none) have been doubled; with HAVING at its end the value removes the condition that follows. -/
theorem C65_injection :
    constructPrint c0 id (cs!"SELECT a FROM t WHERE b = " ++ quoted cs!" AND CONTAINS(POINT(1,2),d)=1 AND $1 OR 1=1 OR $1" ++ cs!" AND c = 'me'") =
      .ok cs!"SELECT a FROM t WHERE CONTAINS(POINT('ICRS GEOCENTER',1,2),d)=1 AND b = ' AND b = ' OR 1 = 1 OR b = '' AND c = 'me'" ∧
    forOtherRow (construct c0 (cs!"SELECT a FROM t WHERE b = " ++ quoted cs!" AND CONTAINS(POINT(1,2),d)=1 AND $1 OR 1=1 OR $1" ++ cs!" AND c = 'me'")) =
      some [.yes] ∧
    forOtherRow (parseIt c0 (cs!"SELECT a FROM t WHERE b = " ++ quoted cs!" AND CONTAINS(POINT(1,2),d)=1 AND $1 OR 1=1 OR $1" ++ cs!" AND c = 'me'")) =
      some [.no] ∧
    constructPrint c0 id (cs!"SELECT a FROM t WHERE b = " ++ quoted cs!" AND CONTAINS(POINT(1,2),d)=1 AND $1 HAVING" ++ cs!" AND c = 'me'") =
      .ok cs!"SELECT a FROM t WHERE CONTAINS(POINT('ICRS GEOCENTER',1,2),d)=1 AND b = ' AND b = '" := by
  refine ⟨by kernel_rfl, by kernel_rfl, by kernel_rfl, by kernel_rfl⟩

/-! ### Examples -/

private theorem tight_made : All (WellMade true c0.Mapped) (.query tightTree) :=
  C56_parsed c0 nofun (s := cs!"SELECT 'a'-b- -a AS b FROM t WHERE a<3AND not b IS NULL") (by kernel_rfl) (fun _ => rfl)
    fun m hm => regular_usual (nt := true) (tightTree_regular m hm)

/-- the column `a` -/
private def colA : VENB := .mk (.mk [] (.vep (.mk (.col (.col cs!"a")) []))) []

private theorem colA_made : All (WellMade true c0.Mapped) (.venb colA) := by
  have h : All (WellMade true c0.Mapped) (.sc tightCond) := C56_condition tight_made List.mem_cons_self rfl
  exact (((h.sub (.inl rfl)).sub rfl).sub rfl).sub (.inl rfl)

private theorem tight_text (v : Str) : (everySelect (restrict (compared colA cs!"=" v)) tightTree).print fmt =
    cs!"SELECT 'a'-b--a AS b FROM t WHERE (a < 3 AND not b IS NULL) AND (a = " ++ quoted v ++ cs!")" := by
  have h1 : tightCond.print fmt = cs!"a < 3 AND not b IS NULL" := by kernel_rfl
  have h2 : (compared colA cs!"=" v).print fmt = cs!"a = " ++ quoted v := by
    simp [compared, colA, litVE, SC.print, BF.print, BP.print, Pred.print, VE.print, VENB.print, Factor.print, NumPrim.print, VEP.print, Prim.print, ColRef.print,
      printTerms, printIdx, SC.isEmpty, BF.isEmpty, BP.isEmpty, Pred.isEmpty]
  have h3 : (Select.mk [] (2 ^ 64 - 1) (.items [.as (.nb (.mk (.mk [] (.vep (.mk (.str cs!"'a'") [])))
      [.mk cs!"-" (.mk [] (.vep (.mk (.col (.col cs!"b")) []))), .mk cs!"-" (.mk cs!"-" (.vep (.mk (.col (.col cs!"a")) [])))])) cs!"b"])).print fmt =
      cs!"SELECT 'a'-b--a AS b" := by kernel_rfl
  have h4 : joinSep cs!", " (printTRs fmt [.tc ⟨cs!"t", []⟩]) = cs!"t" := by kernel_rfl
  have h5 : With.dflt.isEmpty = true ∧ SC.dflt.isEmpty = true ∧ Geom.dflt.isEmpty = true ∧ tightCond.isEmpty = false := ⟨rfl, rfl, rfl, rfl⟩
  simp [everySelect, tightTree, restrict, both, QuerySpec.print, SFWList.print, SFW.print, printAddons, Where.print, Where.isEmpty, SC.print, BF.print, BP.print,
    SC.isEmpty, BF.isEmpty, BP.isEmpty, h1, h2, h3, h4, h5, upper]
  exact ⟨by decide, by decide, by decide, rfl⟩

/-- A text in which the word is nowhere does not contain it. -/
theorem no_word {w s : Str} (h : ∀ i < s.length + 1, ((s.drop i).take w.length).map lowerC ≠ w.map lowerC) : ¬ Contains w s := by
  rintro ⟨u, k, z, rfl, hk⟩
  have hl : k.length = w.length := by simpa using congrArg List.length hk
  refine h u.length (by simp only [List.length_append]; omega) ?_
  rw [List.drop_left, ← hl, List.take_left]
  exact hk

/-- **C65** for one query, through the constructor: with every value without the two words it is the query with this value. -/
theorem C65_template (hfmt : FmtNum fmt) {v : Str} (hv : ¬ Contains cs!"CONTAINS" v ∧ ¬ Contains cs!"INTERSECTS" v) :
    ∃ p, construct ⟨fun _ => none, false⟩ (cs!"SELECT 'a'-b--a AS b FROM t WHERE (a < 3 AND not b IS NULL) AND (a = " ++ quoted v ++ cs!")") = .ok p ∧
      ∀ γ ρ, SpellingFree fmt γ ρ → ((components p).map fun s => whereHolds γ ρ s.where_) =
        (components tightTree).map fun s => (sfwHolds γ ρ s).and (holds ρ (compared colA cs!"=" v)) := by
  obtain ⟨p, h1, -, h2, -⟩ := C65_restricted (M := c0.Mapped) hfmt c0 tight_made (e := colA) colA_made nofun (op := cs!"=") (by simp) v
  rw [tight_text] at h1
  refine ⟨p, ?_, h2⟩
  refine (C65_constructor _ ?_).trans h1
  intro s hs
  simp only [List.mem_cons, List.not_mem_nil, or_false] at hs
  rcases hs with rfl | rfl | rfl
  · exact ⟨no_word (by decide +kernel), no_word (by decide +kernel)⟩
  · exact hv
  · exact ⟨no_word (by decide +kernel), no_word (by decide +kernel)⟩

/-- a value that looks like the end of the literal and a further condition -/
example : quoted cs!"' OR 1=1 --" = cs!"''' OR 1=1 --'" ∧ valueOfLit cs!"''' OR 1=1 --'" = cs!"' OR 1=1 --" ∧
    ¬ Contains cs!"CONTAINS" cs!"' OR 1=1 --" ∧ ¬ Contains cs!"INTERSECTS" cs!"' OR 1=1 --" :=
  ⟨by kernel_rfl, by kernel_rfl, no_word (by decide +kernel), no_word (by decide +kernel)⟩

/-- three values -/
example : All (WellMade true c0.Mapped) (.sc (among colA [cs!"x", cs!"it's", []])) ∧
    (among colA [cs!"x", cs!"it's", []]).print id = cs!"a IN ('x', 'it''s', '')" :=
  ⟨C65_among colA_made nofun nofun, by kernel_rfl⟩

end Adql
