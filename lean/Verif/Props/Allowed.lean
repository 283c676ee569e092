import Verif.Spec.Allowed
import Verif.Model.DeepUses
import Verif.Model.DeepGives
import Verif.Model.SelectsSub
import Verif.Props.Owner
import Verif.Props.Uses

/-!
# C70: changes bring nothing into a query that is not their own
-/

namespace Adql

open Spec Fwd

variable {fmt : Str → Str} {nt : Bool} {M : Str → Prop} {o : Str → Option Str} {v : Str} {u : Used}

/-- nothing but `P` is new -/
theorem only_new (P : Used → Prop) : Keeping fun a b => ∀ u ∈ a, u ∈ b ∨ P u where
  refl _ _ h := .inl h
  app h1 h2 u h := by
    rcases List.mem_append.1 h with h | h
    · exact (h1 u h).imp_left fun h => List.mem_append.2 (.inl h)
    · exact (h2 u h).imp_left fun h => List.mem_append.2 (.inr h)
  trans h1 h2 u h := by
    rcases h1 u h with h | h
    · exact h2 u h
    · exact .inr h

theorem both_uses {c d : SC} (h : u ∈ (both c d).uses fmt) : u ∈ c.uses fmt ∨ u ∈ d.uses fmt := by
  unfold both at h
  split at h
  · simp only [SC.uses, BF.uses, BP.uses] at h
    exact .inr h
  · simpa only [SC.uses, BF.uses, BP.uses, List.mem_append] using h

theorem allOf_uses {c : Str → Option SC} {ts : List TR} {d : SC} (h : allOf c ts = some d) (hu : u ∈ d.uses fmt) : ∃ n e, c n = some e ∧ u ∈ e.uses fmt := by
  unfold allOf at h
  split at h
  · cases h
  · rename_i d0 l hl
    cases h
    have hm : ∀ x ∈ d0 :: l, ∃ n, c n = some x := by
      intro x hx
      rw [← hl] at hx
      obtain ⟨n, -, hn⟩ := List.mem_filterMap.1 hx
      exact ⟨n, hn⟩
    clear hl
    induction l generalizing d0 with
    | nil =>
      obtain ⟨n, hn⟩ := hm d0 (by simp)
      exact ⟨n, d0, hn, hu⟩
    | cons x l ih =>
      have key : ∀ (l : List SC) (e : SC), u ∈ (l.foldl both e).uses fmt → u ∈ e.uses fmt ∨ ∃ x ∈ l, u ∈ x.uses fmt := by
        intro l
        induction l with
        | nil => exact fun e h => .inl h
        | cons x l ih =>
          intro e h
          rcases ih _ h with h | ⟨y, hy, h⟩
          · exact (both_uses h).imp_right fun h => ⟨x, by simp, h⟩
          · exact .inr ⟨y, by simp [hy], h⟩
      rcases key _ _ hu with h | ⟨y, hy, h⟩
      · obtain ⟨n, hn⟩ := hm d0 (by simp)
        exact ⟨n, d0, hn, h⟩
      · obtain ⟨n, hn⟩ := hm y (List.mem_cons_of_mem _ hy)
        exact ⟨n, y, hn, h⟩

/-- **C70.** A change brings nothing into a query that is not its own, at no depth. -/
theorem C70_step {s : Step} {q : QuerySpec} (h : u ∈ (s.run q).uses fmt) : u ∈ q.uses fmt ∨ s.Adds fmt u := by
  cases s with
  | guard c =>
    refine q.deep_uses (f := addConds c) (only_new fun u => Step.Adds fmt u (.guard c)) (fun s u h => ?_) u h
    obtain ⟨a, ts, ⟨g, w⟩⟩ := s
    simp only [addConds] at h
    split at h
    · exact .inl h
    · rename_i d hd
      simp only [restrict, SFW.uses, Where.uses, List.mem_append] at h ⊢
      rcases h with (h | h) | h | h
      · exact .inl (.inl (.inl h))
      · exact .inl (.inl (.inr h))
      · exact .inl (.inr (.inl h))
      · rcases both_uses h with h | h
        · exact .inl (.inr (.inr h))
        · exact .inr (allOf_uses hd h)
  | limit n =>
    refine .inl ?_
    rw [← (C62_tree (fmt := fmt) n q).2.1]
    exact h
  | shell f =>
    have hw : With.dflt.uses fmt = [] := by kernel_rfl
    have hg : Geom.dflt.uses fmt = [] := by kernel_rfl
    simp only [Step.run, around, QuerySpec.uses, hw, SFWList.uses, SFW.uses, usesTRs, TR.uses, Subquery.uses, Where.uses, hg, usesAddons, List.mem_append,
      List.not_mem_nil, false_or, or_false] at h
    simp only [Step.Adds]
    rcases h with (((((h | h) | h)) | h) | h) | h
    · exact .inr (.inl h)
    · exact .inl h
    · exact .inr (.inr (.inl h))
    · exact .inr (.inr (.inr (.inl h)))
    · exact .inr (.inr (.inr (.inr (.inl h))))
    · exact .inr (.inr (.inr (.inr (.inr h))))

/-- a relation for the other direction -/
theorem all_kept : Keeping fun a b => ∀ u ∈ a, u ∈ b where
  refl _ _ h := h
  app h1 h2 u h := by
    rcases List.mem_append.1 h with h | h
    · exact List.mem_append.2 (.inl (h1 u h))
    · exact List.mem_append.2 (.inr (h2 u h))
  trans h1 h2 u h := h2 u (h1 u h)

/-- **C70.** A change takes nothing out of a query, if no SELECT hides a condition behind an empty one. -/
theorem C70_kept {s : Step} {q : QuerySpec} (hq : ∀ s ∈ q.selects, NoHidden s) (h : u ∈ q.uses fmt) : u ∈ (s.run q).uses fmt := by
  cases s with
  | guard c =>
    refine q.deep_gives (f := addConds c) all_kept (fun s hs => ?_) u h
    have hn : NoHidden (s.inner (addConds c)) := by
      have h0 := hq s hs
      obtain ⟨a, ts, ⟨g, w⟩⟩ := s
      intro he
      have h1 : w = SC.dflt := h0 (by rw [← w.deep_isEmpty (f := addConds c) addConds_isEmpty]; exact he)
      rw [h1, SC.deep_dflt]
    generalize s.inner (addConds c) = s' at hn ⊢
    intro u h
    obtain ⟨a, ts, w⟩ := s'
    simp only [addConds]
    split
    · exact h
    · exact (restrict_uses hn).2 (.inl h)
  | limit n =>
    have := (C62_tree (fmt := fmt) n q).2.1
    exact this ▸ h
  | shell f =>
    simp only [Step.run, around, QuerySpec.uses, SFWList.uses, SFW.uses, usesTRs, TR.uses, Subquery.uses, List.mem_append]
    exact .inl (.inl (.inl (.inr (.inl (.inl (.inr (.inl h)))))))

/-- No SELECT of a parsed query, at any depth, hides a condition behind an empty one. -/
theorem C70_nothing_hidden (cfg : Config) (hM : ∀ y, cfg.Mapped y → y ≠ []) {t : Str} {q : QuerySpec} (h : construct cfg t = .ok q) :
    ∀ s ∈ q.selects, NoHidden s := by
  rintro ⟨x, ts, ⟨g, c⟩⟩ hx he
  refine Classical.byContradiction fun hc => ?_
  have h1 : Spec.Sub (.sc c) (.sfw (.mk x ts (.mk g c))) := by
    refine .step (c := .where_ (.mk g c)) (.inr (.inr ⟨fun e => hc ?_, rfl⟩)) (.step (c := .sc c) (.inr ⟨hc, rfl⟩) (.refl _))
    injection e
  have h3 : c.isEmpty = false := C15_nonempty cfg hM t _ h _ (Reach.sub_trans h1 (q.sel_sub _ hx))
  rw [he] at h3
  cases h3

/-- **C70.** A change takes nothing out of a parsed query. -/
theorem C70_parsed (cfg : Config) (hM : ∀ y, cfg.Mapped y → y ≠ []) {t : Str} {q : QuerySpec} (h : construct cfg t = .ok q) {s : Step}
    (hu : u ∈ q.uses fmt) : u ∈ (s.run q).uses fmt :=
  C70_kept (C70_nothing_hidden cfg hM h) hu

/-- **C70.** The same for any number of changes. -/
theorem C70_steps : ∀ {l : List Step} {q : QuerySpec}, u ∈ (runSteps l q).uses fmt → u ∈ q.uses fmt ∨ ∃ s ∈ l, s.Adds fmt u
  | [], _, h => .inl h
  | s :: l, q, h => by
    rcases C70_steps (l := l) (q := s.run q) h with h | ⟨t, ht, h⟩
    · exact (C70_step h).imp_right fun h => ⟨s, by simp, h⟩
    · exact .inr ⟨t, by simp [ht], h⟩

/-- The conditions on the owner bring in the columns of the owners only. -/
theorem C70_owner (h : Step.Adds fmt u (.guard (ownedBy o v))) : ∃ n k, o n = some k ∧ u = .column (delimited k) := by
  obtain ⟨n, d, hd, hu⟩ := h
  obtain ⟨k, hk, rfl⟩ := Option.map_eq_some_iff.1 hd
  refine ⟨n, k, hk, ?_⟩
  simpa [isOwner, columnOf, SC.uses, BF.uses, BP.uses, Pred.uses, VE.uses, VENB.uses, Factor.uses, NumPrim.uses, VEP.uses, Prim.uses, ColRef.uses, ColRef.print,
    usesTerms, usesVEs] using hu

/-- **C70.** Whoever reads the text that is sent to the database finds the tables and functions of the query of the user and of the changes, and
nothing else: what the service has let through is all there is. -/
theorem C70_allowed (hfmt : FmtNum fmt) (hf : FmtOnce fmt) (cfg : Config) (hw : MapsWell cfg.mapping) {t : Str} {q : QuerySpec} (h : construct cfg t = .ok q)
    (hu : All (Usual (!cfg.residue)) (.query q)) (hg : PlainSelects q) {l : List Step} (hl : ∀ s ∈ l, StepMade (!cfg.residue) cfg.Mapped s) {P : Used → Prop}
    (hq : ∀ u ∈ q.uses fmt, P u) (hs : ∀ s ∈ l, ∀ u, s.Adds fmt u → P u) :
    ∃ p, parseIt cfg ((runSteps l q).print fmt) = .ok p ∧ ∀ u ∈ p.uses fmt, P u := by
  obtain ⟨p, h1, h2⟩ := C64_steps hfmt cfg hl (C56_parsed cfg hw h (by simp) hu) hg
  refine ⟨p, h1, fun u hp => ?_⟩
  rw [C57_same hf h2] at hp
  rcases C70_steps hp with h | ⟨s, hm, h⟩
  · exact hq u h
  · exact hs s hm u h

/-- The same for well-made queries. -/
theorem C70_made {q : QuerySpec} (h : All (WellMade nt M) (.query q)) : ∀ s ∈ q.selects, NoHidden s := by
  rintro ⟨x, ts, ⟨g, c⟩⟩ hx he
  refine Classical.byContradiction fun hc => ?_
  have h1 : Spec.Sub (.sc c) (.sfw (.mk x ts (.mk g c))) := by
    refine .step (c := .where_ (.mk g c)) (.inr (.inr ⟨fun e => hc ?_, rfl⟩)) (.step (c := .sc c) (.inr ⟨hc, rfl⟩) (.refl _))
    injection e
  have h2 : All (WellMade nt M) (.sc c) := fun m hm => h m (Reach.sub_trans hm (Reach.sub_trans h1 (q.sel_sub _ hx)))
  obtain ⟨s, -, h3⟩ := sp_sc (nt := nt) (M := M) c h2
  rw [condT_ne h3] at he
  cases he

/-- **C70.** Any number of well-made changes take nothing out of a well-made query. -/
theorem C70_steps_kept : ∀ {l : List Step} {q : QuerySpec}, (∀ s ∈ l, StepMade nt M s) → All (WellMade nt M) (.query q) → PlainSelects q →
    u ∈ q.uses fmt → u ∈ (runSteps l q).uses fmt
  | [], _, _, _, _, hu => hu
  | s :: l, _, hl, h, hg, hu =>
    let ⟨h1, h2⟩ := step_made (hl s (by simp)) h hg
    C70_steps_kept (l := l) (fun s hs => hl s (by simp [hs])) h1 h2 (C70_kept (C70_made h) hu)

/-- **C70.** Whoever reads the text that is sent to the database finds in it all that the query of the user names. -/
theorem C70_all_there (hfmt : FmtNum fmt) (hf : FmtOnce fmt) (cfg : Config) (hw : MapsWell cfg.mapping) {t : Str} {q : QuerySpec} (h : construct cfg t = .ok q)
    (hu : All (Usual (!cfg.residue)) (.query q)) (hg : PlainSelects q) {l : List Step} (hl : ∀ s ∈ l, StepMade (!cfg.residue) cfg.Mapped s) :
    ∃ p, parseIt cfg ((runSteps l q).print fmt) = .ok p ∧ ∀ u ∈ q.uses fmt, u ∈ p.uses fmt := by
  have hm := C56_parsed cfg hw h (by simp) hu
  obtain ⟨p, h1, h2⟩ := C64_steps hfmt cfg hl hm hg
  refine ⟨p, h1, fun u hq => ?_⟩
  rw [C57_same hf h2]
  exact C70_steps_kept hl hm hg hq

/-- **C70** and C68: with the conditions on the owner and a limit, every SELECT gives the rows of the user only, and the text has no tables, no
functions and, beside the columns of the owners, no columns that the query of the user does not have. -/
theorem C70_owned (hfmt : FmtNum fmt) (hf : FmtOnce fmt) (cfg : Config) (hw : MapsWell cfg.mapping) {t : Str} {q : QuerySpec} (h : construct cfg t = .ok q)
    (hu : All (Usual (!cfg.residue)) (.query q)) (ho : ∀ n k, o n = some k → k ≠ []) (v : Str) (n : Nat) :
    ∃ p, parseIt cfg ((runSteps [.guard (ownedBy o v), .limit n] q).print fmt) = .ok p ∧ (∀ t ∈ tops p, t ≤ n) ∧
      (∀ γ ρ, SpellingFree fmt γ ρ → ∀ s ∈ p.selects, OnlyOwn o v γ ρ s) ∧
      ∀ u ∈ p.uses fmt, u ∈ q.uses fmt ∨ ∃ m k, o m = some k ∧ u = .column (delimited k) := by
  obtain ⟨p, h1, h2, h3⟩ := C68_geometry hfmt cfg hw h hu ho v n
  obtain ⟨p', h1', h4, -⟩ := C56_tree hfmt cfg (every_made (wellMade_deep guard_noGeom (guard_made (C68_conds ho v))
    (C56_parsed cfg hw h (by simp) hu)) (limit_sfw_made (n := n)))
  have e : p' = p := Except.ok.inj (h1'.symm.trans h1)
  subst e
  refine ⟨p', h1, h2, h3, fun u hp => ?_⟩
  rw [C57_same hf h4] at hp
  rcases C70_steps (l := [.guard (ownedBy o v), .limit n]) hp with h | ⟨s, hm, h⟩
  · exact .inl h
  · simp only [List.mem_cons, List.not_mem_nil, or_false] at hm
    rcases hm with rfl | rfl
    · exact .inr (C70_owner h)
    · exact h.elim

/-- **C70.** And the text with the conditions on the owner and the limit has all that the query of the user has. -/
theorem C70_owned_kept (hfmt : FmtNum fmt) (hf : FmtOnce fmt) (cfg : Config) (hw : MapsWell cfg.mapping) {t : Str} {q : QuerySpec}
    (h : construct cfg t = .ok q) (hu : All (Usual (!cfg.residue)) (.query q)) (ho : ∀ n k, o n = some k → k ≠ []) (v : Str) (n : Nat) :
    ∃ p, parseIt cfg ((runSteps [.guard (ownedBy o v), .limit n] q).print fmt) = .ok p ∧ ∀ u ∈ q.uses fmt, u ∈ p.uses fmt := by
  obtain ⟨p, h1, h4, -⟩ := C56_tree hfmt cfg (every_made (wellMade_deep guard_noGeom (guard_made (C68_conds ho v))
    (C56_parsed cfg hw h (by simp) hu)) (limit_sfw_made (n := n)))
  refine ⟨p, h1, fun u hq => ?_⟩
  rw [C57_same hf h4]
  have h5 := C70_kept (s := .guard (ownedBy o v)) (C70_made (C56_parsed cfg hw h (by simp) hu)) hq
  exact (C62_tree (fmt := fmt) n (Step.run (.guard (ownedBy o v)) q)).2.1 ▸ h5

/-! ### Examples -/

/-- the table `t` has owners -/
private def owners (n : Str) : Option Str := if n = cs!"t" then some cs!"owner" else none

private theorem owners_ok : ∀ n k, owners n = some k → k ≠ [] := by
  intro n k h
  unfold owners at h
  split at h
  · cases h; nofun
  · cases h

/-- only the table `t`, the columns `a`, `b` and `"owner"`, and no functions -/
private def permitted (u : Used) : Prop := u ∈ [.table cs!"t", .column cs!"a", .column cs!"b", .column cs!"\"owner\""]

example (hfmt : FmtNum fmt) (hf : FmtOnce fmt) (v : Str) : ∃ p,
    parseIt ⟨fun _ => none, false⟩ ((runSteps [.guard (ownedBy owners v), .limit 5] tightTree).print fmt) = .ok p ∧ ∀ u ∈ p.uses fmt, permitted u := by
  refine C70_allowed hfmt hf ⟨fun _ => none, false⟩ nofun (t := cs!"SELECT 'a'-b- -a AS b FROM t WHERE a<3AND not b IS NULL") (by kernel_rfl)
    (fun m hm => regular_usual (nt := true) (tightTree_regular m hm)) ⟨rfl, nofun⟩ ?_ ?_ ?_
  · intro s hs
    simp only [List.mem_cons, List.not_mem_nil, or_false] at hs
    rcases hs with rfl | rfl
    · exact C68_conds owners_ok v
    · trivial
  · have e : tightTree.uses fmt = [.column cs!"b", .column cs!"a", .table cs!"t", .column cs!"a", .column cs!"b"] := by kernel_rfl
    rw [e]
    unfold permitted
    decide +kernel
  · intro s hs u h
    simp only [List.mem_cons, List.not_mem_nil, or_false] at hs
    rcases hs with rfl | rfl
    · obtain ⟨n, k, hk, rfl⟩ := C70_owner h
      unfold owners at hk
      split at hk
      · cases hk
        unfold permitted
        decide +kernel
      · cases hk
    · exact h.elim

/-- A change can bring in a table: a condition with a subquery in a SELECT around the query. -/
example : ∃ (f : Shell), .table (tableOf cs!"s" cs!"u") ∈ (runSteps [.shell f] tightTree).uses fmt ∧ .table (tableOf cs!"s" cs!"u") ∉ tightTree.uses fmt := by
  refine ⟨filtering topMax cs!"x" (.factor (.mk [] (.pred (.exist (.qs (pick cs!"s" cs!"u" [cs!"a"])))))) [], ?_, ?_⟩
  · refine List.contains_iff_mem.1 ?_
    kernel_rfl
  · have e : tightTree.uses fmt = [.column cs!"b", .column cs!"a", .table cs!"t", .column cs!"a", .column cs!"b"] := by kernel_rfl
    rw [e]
    decide +kernel

example (hfmt : FmtNum fmt) (hf : FmtOnce fmt) (v : Str) : ∃ p,
    parseIt ⟨fun _ => none, false⟩ ((runSteps [.guard (ownedBy owners v), .limit 5] tightTree).print fmt) = .ok p ∧
      Used.table cs!"t" ∈ p.uses fmt ∧ Used.column cs!"a" ∈ p.uses fmt ∧ Used.column cs!"b" ∈ p.uses fmt := by
  obtain ⟨p, h1, h2⟩ := C70_owned_kept hfmt hf ⟨fun _ => none, false⟩ nofun
    (t := cs!"SELECT 'a'-b- -a AS b FROM t WHERE a<3AND not b IS NULL") (by kernel_rfl)
    (fun m hm => regular_usual (nt := true) (tightTree_regular m hm)) owners_ok v 5
  have e : tightTree.uses fmt = [.column cs!"b", .column cs!"a", .table cs!"t", .column cs!"a", .column cs!"b"] := by kernel_rfl
  rw [e] at h2
  exact ⟨p, h1, h2 _ (by simp), h2 _ (by simp), h2 _ (by simp)⟩

private theorem x_name : Name cs!"x" ∧ OtherName cs!"x" := by
  have h : ¬ Reserved cs!"x" := by unfold Reserved SameCI; decide +kernel
  exact ⟨.inl ⟨(plainName_letter (x := 'x') (by decide)).1, fun hr => absurd hr h⟩, by unfold OtherName SameCI; decide⟩

/-- Three changes, one of them with a SELECT around the query: its names are still there. -/
example (hfmt : FmtNum fmt) (hf : FmtOnce fmt) (v : Str) : ∃ p,
    parseIt ⟨fun _ => none, false⟩ ((runSteps [.guard (ownedBy owners v), .shell (counting cs!"x"), .limit 5] tightTree).print fmt) = .ok p ∧
      Used.table cs!"t" ∈ p.uses fmt ∧ Used.column cs!"a" ∈ p.uses fmt ∧ Used.column cs!"b" ∈ p.uses fmt := by
  obtain ⟨p, h1, h2⟩ := C70_all_there hfmt hf ⟨fun _ => none, false⟩ nofun (t := cs!"SELECT 'a'-b- -a AS b FROM t WHERE a<3AND not b IS NULL") (by kernel_rfl)
    (fun m hm => regular_usual (nt := true) (tightTree_regular m hm)) ⟨rfl, nofun⟩ (l := [.guard (ownedBy owners v), .shell (counting cs!"x"), .limit 5]) (by
      intro s hs
      simp only [List.mem_cons, List.not_mem_nil, or_false] at hs
      rcases hs with rfl | rfl | rfl
      · exact C68_conds owners_ok v
      · exact C63_counting x_name.1 x_name.2
      · trivial)
  have e : tightTree.uses fmt = [.column cs!"b", .column cs!"a", .table cs!"t", .column cs!"a", .column cs!"b"] := by kernel_rfl
  rw [e] at h2
  exact ⟨p, h1, h2 _ (by simp), h2 _ (by simp), h2 _ (by simp)⟩

end Adql
