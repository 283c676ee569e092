import Verif.Spec.Around
import Verif.Props.Limit

/-!
# C63: what a query gives can be filtered, counted and ordered from outside
-/

namespace Adql

open Spec Fwd

variable {fmt : Str → Str} {nt : Bool} {M : Str → Prop} {f : Shell}

/-- A well-made query in a usable shell is well-made, if it has no geometric constraint. -/
theorem around_made (hf : ShellMade nt M f) {q : QuerySpec} (h : All (WellMade nt M) (.query q)) (hg : PlainSelects q) :
    All (WellMade nt M) (.query (around f q)) := by
  refine wellMade_query.2 ⟨fun h => absurd rfl h, fun s hs => ?_, nofun, hf.group, hf.having, hf.order⟩
  rcases List.mem_cons.1 hs with rfl | hs
  · refine all_iff.2 ⟨⟨nofun, trivial, trivial⟩, ?_⟩
    rintro m (rfl | ⟨t, ht, rfl⟩ | ⟨hw, rfl⟩)
    · exact hf.sel
    · rw [List.mem_singleton.1 ht]
      refine all_iff.2 ⟨⟨hf.name.1, trivial, hf.name.2⟩, ?_⟩
      rintro m rfl
      refine all_iff.2 ⟨⟨trivial, ?_, trivial⟩, ?_⟩
      · obtain ⟨w, ⟨⟨_, _, ⟨_, _⟩⟩, as⟩, _, _, _⟩ := q
        refine ⟨hg.1, fun op s hs => ?_⟩
        obtain ⟨_, _, ⟨_, _⟩⟩ := s
        exact hg.2 op _ hs
      · rintro m rfl
        exact h
    · refine all_iff.2 ⟨⟨trivial, trivial, trivial⟩, ?_⟩
      rintro m (⟨h, rfl⟩ | ⟨h, rfl⟩)
      · exact absurd rfl h
      · exact hf.cond h
  · cases hs

/-- **C63.** The formatted text of a query in a shell is read as a single SELECT, which has one table, namely the query, and which asks for
the rows of this table for which the condition of the shell holds. -/
theorem C63_around (hfmt : FmtNum fmt) (cfg : Config) (hf : ShellMade (!cfg.residue) M f) {q : QuerySpec}
    (h : All (WellMade (!cfg.residue) M) (.query q)) (hg : PlainSelects q) :
    ∃ p s q' w, parseIt cfg ((around f q).print fmt) = .ok p ∧ SameQuery fmt (around f q) p ∧
      components p = [.mk s [.derived (.qs q') f.name] w] ∧ s.norm fmt = f.sel.norm fmt ∧ SameQuery fmt q q' ∧
      ∀ γ ρ, SpellingFree fmt γ ρ → whereHolds γ ρ w = if f.cond.isEmpty then .yes else holds ρ f.cond := by
  obtain ⟨p, h1, h2, -⟩ := C56_tree hfmt cfg (around_made hf h hg)
  have hr : ∀ γ ρ, SpellingFree fmt γ ρ → _ := fun γ ρ hr => C56_same_rows (γ := γ) (ρ := ρ) hr h2
  have h3 := h2
  obtain ⟨w, ⟨⟨s, ts, wh⟩, as⟩, g, hv, o⟩ := p
  simp only [SameQuery, around, QuerySpec.norm, SFWList.norm, SFW.norm] at h3
  injection h3 with _ h3
  injection h3 with h3 h4
  injection h3 with h5 h6
  have ha : as = [] := by cases as <;> first | rfl | (simp [normAddons] at h4; done)
  subst ha
  have ht : ∃ q', ts = [.derived (.qs q') f.name] ∧ SameQuery fmt q q' := by
    match ts, h6 with
    | [], h6 => cases h6
    | [t], h6 =>
      simp only [normTRs] at h6
      injection h6 with h6
      match t, h6 with
      | .derived (.qs q') x, h6 =>
        simp only [TR.norm, Subquery.norm] at h6
        injection h6 with h6 h7
        injection h6 with h6
        exact ⟨q', by rw [h7], h6⟩
      | .derived (.jt _) _, h6 => simp [TR.norm, Subquery.norm] at h6
      | .tc _, h6 => simp [TR.norm] at h6
      | .jt _, h6 => simp [TR.norm] at h6
      | .tvf _ _, h6 => simp [TR.norm] at h6
    | _ :: _ :: _, h6 => simp [normTRs] at h6
  obtain ⟨q', rfl, hq⟩ := ht
  refine ⟨_, s, q', wh, h1, h2, rfl, h5, hq, fun γ ρ hs => ?_⟩
  have := hr γ ρ hs
  exact (List.cons.inj this).1

/-- **C63.** Nothing is named but what the shell and the query name. -/
theorem C63_uses (hfmt : FmtNum fmt) (hfo : FmtOnce fmt) (cfg : Config) (hf : ShellMade (!cfg.residue) M f) {q : QuerySpec}
    (h : All (WellMade (!cfg.residue) M) (.query q)) (hg : PlainSelects q) : ∃ p, parseIt cfg ((around f q).print fmt) = .ok p ∧
    ∀ u, u ∈ p.uses fmt ↔ u ∈ f.sel.uses fmt ∨ u ∈ q.uses fmt ∨ u ∈ f.cond.uses fmt ∨ u ∈ usesGroup fmt f.group ∨ u ∈ f.having.uses fmt ∨
      u ∈ f.order.flatMap SortSpec.uses := by
  obtain ⟨p, h1, h2, -⟩ := C56_tree hfmt cfg (around_made hf h hg)
  refine ⟨p, h1, fun u => ?_⟩
  rw [C57_same hfo h2]
  simp only [around, QuerySpec.uses, with_dflt_uses, SFWList.uses, SFW.uses, usesTRs, TR.uses, Subquery.uses, Where.uses, geom_dflt_uses, usesAddons,
    List.mem_append, List.append_nil, List.nil_append, or_assoc]

/-- A query in a shell can be put into another shell, and so on. -/
theorem shells_made : ∀ (l : List Shell) {q : QuerySpec}, (∀ f ∈ l, ShellMade nt M f) → All (WellMade nt M) (.query q) → PlainSelects q →
    All (WellMade nt M) (.query (l.foldl (fun q f => around f q) q))
  | [], _, _, h, _ => h
  | f :: l, _, hl, h, hg => shells_made l (fun f hf => hl f (by simp [hf])) (around_made (hl f (by simp)) h hg) ⟨rfl, nofun⟩

/-- **C63** for any number of shells inside each other. -/
theorem C63_shells (hfmt : FmtNum fmt) (cfg : Config) (l : List Shell) (hl : ∀ f ∈ l, ShellMade (!cfg.residue) M f) {q : QuerySpec}
    (h : All (WellMade (!cfg.residue) M) (.query q)) (hg : PlainSelects q) :
    ∃ p, parseIt cfg ((l.foldl (fun q f => around f q) q).print fmt) = .ok p ∧ SameQuery fmt (l.foldl (fun q f => around f q) q) p := by
  obtain ⟨p, h1, h2, -⟩ := C56_tree hfmt cfg (shells_made l hl h hg)
  exact ⟨p, h1, h2⟩

/-! ### Some shells -/

/-- **C63.** Counting the rows. -/
theorem C63_counting {x : Str} (hx : Name x) (ho : OtherName x) : ShellMade nt M (counting x) := by
  refine ⟨?_, ⟨hx, ho⟩, fun h => absurd rfl h, nofun, fun h => absurd rfl h, nofun⟩
  refine all_iff.2 ⟨⟨⟨.inl rfl, Nat.le_refl _⟩, trivial, trivial⟩, ?_⟩
  rintro m rfl
  refine all_iff.2 ⟨⟨nofun, trivial, trivial⟩, ?_⟩
  rintro m ⟨i, hi, rfl⟩
  rw [List.mem_singleton.1 hi]
  refine all_iff.2 ⟨⟨trivial, trivial, trivial⟩, ?_⟩
  rintro m rfl
  refine all_iff.2 ⟨⟨trivial, trivial, trivial⟩, ?_⟩
  rintro m rfl
  refine all_iff.2 ⟨⟨trivial, trivial, trivial⟩, ?_⟩
  rintro m (rfl | ⟨t, ht, rfl⟩)
  · refine all_iff.2 ⟨⟨by simp [Ranges], trivial, trivial⟩, ?_⟩
    rintro m rfl
    refine all_iff.2 ⟨⟨trivial, trivial, trivial⟩, ?_⟩
    rintro m rfl
    refine all_iff.2 ⟨⟨trivial, trivial, trivial⟩, ?_⟩
    rintro m (rfl | ⟨t, ht, rfl⟩)
    · exact all_iff.2 ⟨⟨rfl, trivial, trivial⟩, fun _ (h : False) => h.elim⟩
    · cases ht
  · cases ht

/-- **C63.** Some of the rows, in an order. -/
theorem C63_filtering {n : Nat} (hn : n ≤ topMax) {x : Str} (hx : Name x) (ho : OtherName x) {d : SC} (hd : d ≠ SC.dflt → All (WellMade nt M) (.sc d))
    {o : List SortSpec} (hs : ∀ s ∈ o, All (WellMade nt M) (.sort s)) : ShellMade nt M (filtering n x d o) := by
  refine ⟨?_, ⟨hx, ho⟩, hd, nofun, fun h => absurd rfl h, hs⟩
  refine all_iff.2 ⟨⟨⟨.inl rfl, hn⟩, trivial, trivial⟩, ?_⟩
  rintro m rfl
  exact all_iff.2 ⟨⟨rfl, trivial, trivial⟩, fun _ (h : False) => h.elim⟩

/-- **C63.** The text that counts the rows of a query has the text of the query in parentheses. -/
theorem C63_counting_text (q : QuerySpec) {x : Str} (hx : x ≠ []) :
    (around (counting x) q).print fmt = cs!"SELECT COUNT(*) FROM (" ++ q.print fmt ++ cs!") " ++ x := by
  have h1 : With.dflt.isEmpty = true := rfl
  have h2 : SC.dflt.isEmpty = true := rfl
  have h3 : (Where.mk Geom.dflt SC.dflt).isEmpty = true := rfl
  have h4 : ∀ c, printSelect [] (2 ^ 64 - 1) c = cs!"SELECT " ++ c := fun c => by simp [printSelect, topMax]
  have h5 : (Columns.items [.nonAsVE (.nb (.mk (.mk [] (.vep (.mk (.countStar cs!"COUNT(*)") []))) []))]).print fmt = cs!"COUNT(*)" := by kernel_rfl
  simp only [around, counting, QuerySpec.print, SFWList.print, SFW.print, Select.print, h1, h2, h3, h4, h5, if_true, List.isEmpty_nil, printAddons,
    printTRs, joinSep, TR.print, Subquery.print]
  simp [hx]

/-- **C63** for every accepted text whose tree has no geometric constraint and nothing that `Usual` excludes. -/
theorem C63_accepted (hfmt : FmtNum fmt) (cfg : Config) (hm : MapsWell cfg.mapping) {s : Str} {q : QuerySpec}
    (h : construct cfg s = .ok q) (hu : All (Usual (!cfg.residue)) (.query q)) (hg : PlainSelects q) (hf : ShellMade (!cfg.residue) cfg.Mapped f) :
    ∃ p, parseIt cfg ((around f q).print fmt) = .ok p ∧ SameQuery fmt (around f q) p := by
  obtain ⟨p, _, _, _, h1, h2, -⟩ := C63_around hfmt cfg hf (C56_parsed cfg hm h (by simp) hu) hg
  exact ⟨p, h1, h2⟩

/-! ### Examples -/

private def c0 : Config := ⟨fun _ => none, false⟩

private theorem tight_made : All (WellMade true c0.Mapped) (.query tightTree) :=
  C56_parsed c0 nofun (s := cs!"SELECT 'a'-b- -a AS b FROM t WHERE a<3AND not b IS NULL") (by kernel_rfl) (fun _ => rfl)
    fun m hm => regular_usual (nt := true) (tightTree_regular m hm)

private theorem x_name : Name cs!"x" ∧ OtherName cs!"x" := by
  have h : ¬ Reserved cs!"x" := by unfold Reserved SameCI; decide +kernel
  exact ⟨.inl ⟨(plainName_letter (x := 'x') (by decide)).1, fun hr => absurd hr h⟩, by unfold OtherName SameCI; decide⟩

/-- a filter in a filter, counted -/
private def three : List Shell := [filtering 10 cs!"x" tightCond [], filtering topMax cs!"x" SC.dflt [], counting cs!"x"]

private theorem three_made : ∀ f ∈ three, ShellMade true c0.Mapped f := by
  have hd : All (WellMade true c0.Mapped) (.sc tightCond) := C56_condition tight_made List.mem_cons_self rfl
  intro f hf
  simp only [three, List.mem_cons, List.not_mem_nil, or_false] at hf
  rcases hf with rfl | rfl | rfl
  · exact C63_filtering (by decide) x_name.1 x_name.2 (fun _ => hd) nofun
  · exact C63_filtering (Nat.le_refl _) x_name.1 x_name.2 (fun h => absurd rfl h) nofun
  · exact C63_counting x_name.1 x_name.2

example (hfmt : FmtNum fmt) : ∃ p, parseIt c0 ((three.foldl (fun q f => around f q) tightTree).print fmt) = .ok p := by
  obtain ⟨p, h, -⟩ := C63_shells hfmt c0 three three_made tight_made ⟨rfl, nofun⟩
  exact ⟨p, h⟩

example : (around (counting cs!"x") (around (filtering 10 cs!"x" tightCond []) tightTree)).print id =
    cs!"SELECT COUNT(*) FROM (SELECT TOP 10 * FROM (SELECT 'a'-b--a AS b FROM t WHERE a < 3 AND not b IS NULL) x WHERE a < 3 AND not b IS NULL) x" := by
  kernel_rfl

end Adql
