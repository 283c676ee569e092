import Verif.Spec.Span
import Verif.Props.Lookup

/-!
# C69: whole numbers can be put into a query
-/

namespace Adql

open Spec Fwd

variable {fmt : Str → Str} {nt : Bool} {M : Str → Prop}

/-- **C69.** The text of a number is a sign and a numeric literal, and it has this value; zero and positive numbers have no sign. -/
theorem C69_literal (i : Int) : signOf i ∈ [[], cs!"+", cs!"-"] ∧ NumLit (decDigits i.natAbs) ∧ intOf (signOf i) (decDigits i.natAbs) = i ∧
    (signOf i = [] ↔ 0 ≤ i) := by
  obtain ⟨h1, h2, -⟩ := C19_decimal i.natAbs
  refine ⟨?_, .exact (.int h1), ?_, ?_⟩
  · unfold signOf
    split <;> simp
  · unfold intOf signOf
    rw [h2]
    split
    · rw [if_pos rfl]; omega
    · rw [if_neg (by simp)]; omega
  · unfold signOf
    split <;> simp <;> omega

theorem intVE_made (i : Int) : All (WellMade nt M) (.ve (intVE i)) := by
  refine all_iff.2 ⟨⟨trivial, trivial, trivial⟩, ?_⟩
  rintro m rfl
  refine all_iff.2 ⟨⟨trivial, trivial, trivial⟩, ?_⟩
  rintro m (rfl | ⟨t, ht, rfl⟩)
  · refine all_iff.2 ⟨⟨(C69_literal i).1, trivial, trivial⟩, ?_⟩
    rintro m rfl
    refine all_iff.2 ⟨⟨trivial, trivial, trivial⟩, ?_⟩
    rintro m rfl
    refine all_iff.2 ⟨⟨trivial, trivial, trivial⟩, ?_⟩
    rintro m (rfl | ⟨t, ht, rfl⟩)
    · exact all_iff.2 ⟨⟨.inl (C69_literal i).2.1, trivial, trivial⟩, fun _ (h : False) => h.elim⟩
    · cases ht
  · cases ht

/-- **C69.** A well-made expression between any two numbers is a well-made condition. -/
theorem C69_span {e : VENB} (he : All (WellMade nt M) (.venb e)) (hn : nt = false → prefixCI cs!"NOT" (firstExpr e) = false) (i j : Int) :
    All (WellMade nt M) (.sc (span e i j)) := by
  refine all_iff.2 ⟨⟨trivial, trivial, trivial⟩, ?_⟩
  rintro m rfl
  refine all_iff.2 ⟨⟨.inl rfl, trivial, hn⟩, ?_⟩
  rintro m rfl
  refine all_iff.2 ⟨⟨trivial, trivial, trivial⟩, ?_⟩
  rintro m rfl
  refine all_iff.2 ⟨⟨.inl rfl, trivial, trivial⟩, ?_⟩
  rintro m (rfl | rfl | rfl)
  · exact he
  · exact intVE_made i
  · exact intVE_made j

/-- **C69.** Its text: the first number is the lower limit. -/
theorem C69_text {e : VENB} (he : e.isEmpty = false) (i j : Int) :
    (span e i j).print fmt = e.print fmt ++ cs!" BETWEEN " ++ intText i ++ cs!" AND " ++ intText j := by
  simp [span, intVE, intText, SC.print, BF.print, BP.print, Pred.print, VE.print, VENB.print, Factor.print, NumPrim.print, VEP.print, Prim.print,
    printTerms, printIdx, SC.isEmpty, BF.isEmpty, BP.isEmpty, Pred.isEmpty, he]

theorem int_injective {i j : Int} (h : signOf i = signOf j) (hd : decDigits i.natAbs = decDigits j.natAbs) : i = j := by
  rw [← (C69_literal i).2.2.1, h, hd, (C69_literal j).2.2.1]

/-- **C69.** A query that is restricted to a range of numbers is read as the query that was meant, and the two numbers can be got back from what is
read. -/
theorem C69_restricted (hfmt : FmtNum fmt) (cfg : Config) {q : QuerySpec} (h : All (WellMade (!cfg.residue) M) (.query q)) {e : VENB}
    (he : All (WellMade (!cfg.residue) M) (.venb e)) (hn : (!cfg.residue) = false → prefixCI cs!"NOT" (firstExpr e) = false) (hne : e.isEmpty = false)
    (i j : Int) :
    ∃ p, parseIt cfg ((everySelect (restrict (span e i j)) q).print fmt) = .ok p ∧ SameQuery fmt (everySelect (restrict (span e i j)) q) p ∧
      (∀ γ ρ, SpellingFree fmt γ ρ → ((components p).map fun s => whereHolds γ ρ s.where_) =
        (components q).map fun s => (sfwHolds γ ρ s).and (holds ρ (span e i j))) ∧
      ∀ i' j', SameQuery fmt (everySelect (restrict (span e i' j')) q) p → i' = i ∧ j' = j := by
  obtain ⟨p, h1, h2, h3⟩ := C56_restricted hfmt cfg h (C69_span he hn i j) hne
  refine ⟨p, h1, h2, h3, fun i' j' h' => ?_⟩
  have : (everySelect (restrict (span e i j)) q).norm fmt = (everySelect (restrict (span e i' j')) q).norm fmt := h2.symm.trans h'
  obtain ⟨w, ⟨⟨s, ts, ⟨g, c⟩⟩, as⟩, gr, hv, o⟩ := q
  have hq : (signOf i = signOf i' ∧ decDigits i.natAbs = decDigits i'.natAbs) ∧ (signOf j = signOf j' ∧ decDigits j.natAbs = decDigits j'.natAbs) := by
    simp only [everySelect, restrict, both, span, intVE] at this
    split at this <;>
      simp only [QuerySpec.norm, SFWList.norm, SFW.norm, Where.norm, SC.norm, BF.norm, BP.norm, Pred.norm, VE.norm, VENB.norm, Factor.norm, NumPrim.norm,
        VEP.norm, Prim.norm, QuerySpec.mk.injEq, SFWList.mk.injEq, SFW.mk.injEq, Where.mk.injEq, SC.factor.injEq, SC.term.injEq, BF.mk.injEq, BP.sc.injEq,
        BP.pred.injEq, Pred.between.injEq, VE.nb.injEq, VENB.mk.injEq, Factor.mk.injEq, NumPrim.vep.injEq, VEP.mk.injEq, Prim.str.injEq, true_and, and_true] at this
    all_goals first | exact this.1 | exact this.1.1 | exact this
  exact ⟨int_injective hq.1.1.symm hq.1.2.symm, int_injective hq.2.1.symm hq.2.2.symm⟩

/-- A word without digits and minus signs is not in a number, and does not go across it. -/
theorem contains_int {w b : Str} (hw : ∀ c, Digit c ∨ c = '-' → c ∉ w.map lowerC) (i : Int) {a : Str} (h : Contains w (a ++ (intText i ++ b))) :
    Contains w a ∨ Contains w b ∨ w = [] := by
  have hl : ∀ c, Digit c ∨ c = '-' → lowerC c = c := by
    rintro c (⟨h1, h2⟩ | rfl)
    · have : c.toNat ≤ '9'.toNat := h2
      have h9 : '9'.toNat = 57 := rfl
      unfold lowerC
      rw [if_neg]
      simp only [Bool.and_eq_true, decide_eq_true_eq]
      omega
    · decide
  have key : ∀ d : Str, (∀ c ∈ d, Digit c ∨ c = '-') → ∀ a : Str, Contains w (a ++ (d ++ b)) → d ≠ [] → Contains w a ∨ Contains w b ∨ w = [] := by
    intro d
    induction d with
    | nil => exact fun _ _ _ h => absurd rfl h
    | cons c d ih =>
      intro hd a h _
      rcases contains_quote (hl c (hd c (by simp))) (hw c (hd c (by simp))) h with h | h
      · exact .inl h
      · by_cases he : d = []
        · subst he; exact .inr (.inl h)
        · rcases ih (fun c hc => hd c (by simp [hc])) [] h he with ⟨u, k, z, e, hk⟩ | h
          · refine .inr (.inr ?_)
            obtain ⟨-, h1⟩ := List.append_eq_nil_iff.1 e.symm
            obtain ⟨h2, -⟩ := List.append_eq_nil_iff.1 h1
            subst h2
            exact List.map_eq_nil_iff.1 hk.symm
          · exact .inr h
  have hd : ∀ c ∈ intText i, Digit c ∨ c = '-' := by
    intro c hc
    rcases List.mem_append.1 hc with hc | hc
    · unfold signOf at hc
      split at hc
      · exact .inr (List.mem_singleton.1 hc)
      · cases hc
    · exact .inl ((C19_decimal i.natAbs).1.2 c hc)
  refine key _ hd a h fun he => ?_
  exact (C19_decimal i.natAbs).1.1 (List.append_eq_nil_iff.1 he).2

/-- **C69.** The constructor does not rewrite a text with two numbers, if what is around them does not contain one of the words CONTAINS and
INTERSECTS. -/
theorem C69_constructor (cfg : Config) (i j : Int) {a b c : Str} (h : ∀ s ∈ [a, b, c], ¬ Contains cs!"CONTAINS" s ∧ ¬ Contains cs!"INTERSECTS" s) :
    construct cfg (a ++ (intText i ++ (b ++ (intText j ++ c)))) = parseIt cfg (a ++ (intText i ++ (b ++ (intText j ++ c)))) := by
  have hl : ∀ w ∈ [cs!"CONTAINS", cs!"INTERSECTS"], ∀ c ∈ w.map lowerC, 97 ≤ c.toNat := by decide +kernel
  have key : ∀ w ∈ [cs!"CONTAINS", cs!"INTERSECTS"], (∀ s ∈ [a, b, c], ¬ Contains w s) → ¬ Contains w (a ++ (intText i ++ (b ++ (intText j ++ c)))) := by
    intro w hw hs hc
    have hd : ∀ x, Digit x ∨ x = '-' → x ∉ w.map lowerC := by
      rintro x hx hm
      have h1 := hl w hw x hm
      rcases hx with ⟨-, h2⟩ | rfl
      · have h2 : x.toNat ≤ '9'.toNat := h2
        have h9 : '9'.toNat = 57 := rfl
        omega
      · exact absurd h1 (by decide)
    have hne : w ≠ [] := by rintro rfl; revert hw; decide
    rcases contains_int hd i hc with h | h | h
    · exact hs a (by simp) h
    · rcases contains_int hd j h with h | h | h
      · exact hs b (by simp) h
      · exact hs c (by simp) h
      · exact hne h
    · exact hne h
  have h1 := key cs!"CONTAINS" (by simp) fun s hs => (h s hs).1
  have h2 := key cs!"INTERSECTS" (by simp) fun s hs => (h s hs).2
  unfold construct
  rw [C27_no_geometry_word _ fun u k z e => ⟨fun hk => h1 ⟨u, k, z, e, hk⟩, fun hk => h2 ⟨u, k, z, e, hk⟩⟩]

/-! ### Examples -/

private def c0 : Config := ⟨fun _ => none, false⟩

private theorem tight_made : All (WellMade true c0.Mapped) (.query tightTree) :=
  C56_parsed c0 nofun (s := cs!"SELECT 'a'-b- -a AS b FROM t WHERE a<3AND not b IS NULL") (by kernel_rfl) (fun _ => rfl)
    fun m hm => regular_usual (nt := true) (tightTree_regular m hm)

/-- the text of one query, for all numbers -/
private theorem tight_text (i j : Int) : (everySelect (restrict (span (columnOf cs!"k") i j)) tightTree).print fmt =
    cs!"SELECT 'a'-b--a AS b FROM t WHERE (a < 3 AND not b IS NULL) AND (\"k\" BETWEEN " ++ (intText i ++ (cs!" AND " ++ (intText j ++ cs!")"))) := by
  have h1 : tightCond.print fmt = cs!"a < 3 AND not b IS NULL" := by kernel_rfl
  have h2 : (span (columnOf cs!"k") i j).print fmt = cs!"\"k\" BETWEEN " ++ (intText i ++ (cs!" AND " ++ intText j)) := by
    rw [C69_text rfl, show (columnOf cs!"k").print fmt = cs!"\"k\"" from by kernel_rfl]
    simp
  have h3 : (Select.mk [] (2 ^ 64 - 1) (.items [.as (.nb (.mk (.mk [] (.vep (.mk (.str cs!"'a'") [])))
      [.mk cs!"-" (.mk [] (.vep (.mk (.col (.col cs!"b")) []))), .mk cs!"-" (.mk cs!"-" (.vep (.mk (.col (.col cs!"a")) [])))])) cs!"b"])).print fmt =
      cs!"SELECT 'a'-b--a AS b" := by kernel_rfl
  have h4 : joinSep cs!", " (printTRs fmt [.tc ⟨cs!"t", []⟩]) = cs!"t" := by kernel_rfl
  have h5 : With.dflt.isEmpty = true ∧ SC.dflt.isEmpty = true ∧ Geom.dflt.isEmpty = true ∧ tightCond.isEmpty = false := ⟨rfl, rfl, rfl, rfl⟩
  simp [everySelect, tightTree, restrict, both, QuerySpec.print, SFWList.print, SFW.print, printAddons, Where.print, Where.isEmpty, SC.print, BF.print, BP.print,
    SC.isEmpty, BF.isEmpty, BP.isEmpty, h1, h2, h3, h4, h5, upper]
  exact ⟨by decide, by decide, by decide, rfl⟩

/-- **C69** for one query, through the constructor: with all numbers it is the query with these numbers. -/
theorem C69_template (hfmt : FmtNum fmt) (i j : Int) :
    ∃ p, construct ⟨fun _ => none, false⟩ (cs!"SELECT 'a'-b--a AS b FROM t WHERE (a < 3 AND not b IS NULL) AND (\"k\" BETWEEN " ++ (intText i ++
        (cs!" AND " ++ (intText j ++ cs!")")))) = .ok p ∧
      ∀ γ ρ, SpellingFree fmt γ ρ → ((components p).map fun s => whereHolds γ ρ s.where_) =
        (components tightTree).map fun s => (sfwHolds γ ρ s).and (holds ρ (span (columnOf cs!"k") i j)) := by
  obtain ⟨p, h1, -, h2, -⟩ := C69_restricted (M := c0.Mapped) hfmt c0 tight_made (e := columnOf cs!"k") (columnOf_made nofun) nofun rfl i j
  rw [tight_text] at h1
  refine ⟨p, ?_, h2⟩
  refine (C69_constructor _ i j ?_).trans h1
  exact fun s hs => ⟨no_word (by revert s; decide +kernel), no_word (by revert s; decide +kernel)⟩

example : intText (-3) = cs!"-3" ∧ intText 0 = cs!"0" ∧ intText 120 = cs!"120" ∧ intOf cs!"-" cs!"120" = -120 :=
  ⟨by kernel_rfl, by kernel_rfl, by kernel_rfl, by decide +kernel⟩

end Adql
