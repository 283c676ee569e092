import Verif.Spec.Policy
import Verif.Model.DeepFlat
import Verif.Model.DeepEmpty
import Verif.Props.Around

/-!
# C64: changes of a query can be combined
-/

namespace Adql

open Spec Fwd

variable {fmt : Str → Str} {nt : Bool} {M : Str → Prop} {c : Str → Option SC}

/-- The change can be done: its parts are well-made. -/
def StepMade (nt : Bool) (M : Str → Prop) : Step → Prop
  | .guard c => Conds nt M c
  | .limit _ => True
  | .shell f => ShellMade nt M f

theorem plain_iff {q : QuerySpec} : PlainSelects q ↔ ∀ s ∈ components q, NoGeomSFW s := by
  have h : ∀ s, PlainSFW s ↔ NoGeomSFW s := by rintro ⟨_, _, ⟨_, _⟩⟩; exact Iff.rfl
  obtain ⟨w, ⟨i, as⟩, g, hv, o⟩ := q
  constructor
  · rintro ⟨h1, h2⟩ s hs
    rcases List.mem_cons.1 hs with rfl | hs
    · exact (h _).1 h1
    · obtain ⟨⟨op, s⟩, ha, rfl⟩ := List.mem_map.1 hs
      exact (h _).1 (h2 op s ha)
  · intro h1
    exact ⟨(h _).2 (h1 i List.mem_cons_self), fun op s ha => (h _).2 (h1 s (List.mem_cons_of_mem _ (List.mem_map.2 ⟨_, ha, rfl⟩)))⟩

theorem components_deep {f : SFW → SFW} : ∀ q : QuerySpec, components (q.deep f) = (components q).map (SFW.deep f)
  | .mk w (.mk i as) g h o => by
    have : ∀ l : List Addon, (deepAddons f l).map Addon.sfw = (l.map Addon.sfw).map (SFW.deep f) := by
      intro l
      induction l with
      | nil => simp only [deepAddons, List.map_nil]
      | cons a l ih => cases a; simp only [deepAddons, Addon.deep, List.map_cons, ih, Addon.sfw]
    simp only [QuerySpec.deep, SFWList.deep, components, QuerySpec.sfws, SFWList.initial, SFWList.addons, List.map_cons, this]

/-- A change leaves well-made queries well-made. -/
theorem step_made {s : Step} (hs : StepMade nt M s) {q : QuerySpec} (h : All (WellMade nt M) (.query q)) (hg : PlainSelects q) :
    All (WellMade nt M) (.query (s.run q)) ∧ PlainSelects (s.run q) := by
  cases s with
  | guard c =>
    have hs : Conds nt M c := hs
    refine ⟨wellMade_deep guard_noGeom (guard_made hs) h, plain_iff.2 fun s hm => ?_⟩
    rw [show (Step.guard c).run q = q.deep (addConds c) from rfl, components_deep] at hm
    obtain ⟨t, ht, rfl⟩ := List.mem_map.1 hm
    rw [SFW.deep_eq]
    refine guard_noGeom _ ?_
    have := plain_iff.1 hg t ht
    obtain ⟨_, _, ⟨g, _⟩⟩ := t
    obtain rfl : g = Geom.dflt := this
    simp only [SFW.inner, Where.deep, Geom.deep_dflt, NoGeomSFW]
  | limit n =>
    refine ⟨every_made h limit_sfw_made, plain_iff.2 fun s hm => ?_⟩
    rw [show (Step.limit n).run q = everySelect (limitRows n) q from rfl, components_every] at hm
    obtain ⟨t, ht, rfl⟩ := List.mem_map.1 hm
    have := plain_iff.1 hg t ht
    obtain ⟨⟨_, _, _⟩, _, ⟨_, _⟩⟩ := t
    exact this
  | shell f => exact ⟨around_made hs h hg, rfl, nofun⟩

theorem steps_made : ∀ {l : List Step} {q : QuerySpec}, (∀ s ∈ l, StepMade nt M s) → All (WellMade nt M) (.query q) → PlainSelects q →
    All (WellMade nt M) (.query (runSteps l q)) ∧ PlainSelects (runSteps l q)
  | [], _, _, h, hg => ⟨h, hg⟩
  | s :: l, _, hl, h, hg =>
    let ⟨h1, h2⟩ := step_made (hl s (by simp)) h hg
    steps_made (l := l) (fun s hs => hl s (by simp [hs])) h1 h2

/-- **C64.** Any number of changes, in any order: the formatted text is read as the changed query. -/
theorem C64_steps (hfmt : FmtNum fmt) (cfg : Config) {l : List Step} (hl : ∀ s ∈ l, StepMade (!cfg.residue) M s) {q : QuerySpec}
    (h : All (WellMade (!cfg.residue) M) (.query q)) (hg : PlainSelects q) :
    ∃ p, parseIt cfg ((runSteps l q).print fmt) = .ok p ∧ SameQuery fmt (runSteps l q) p := by
  obtain ⟨p, h1, h2, -⟩ := C56_tree hfmt cfg (steps_made hl h hg).1
  exact ⟨p, h1, h2⟩

/-! ### Guards stay -/

theorem guarded_limit {γ : Geom → Truth} {ρ : BP → Truth} {n : Nat} {s : SFW} (h : Guarded c γ ρ s) : Guarded c γ ρ (limitRows n s) := by
  obtain ⟨s, ts, w⟩ := s
  exact h

theorem limitRows_selects {n : Nat} : ∀ (x t : SFW), t ∈ (limitRows n x).selects → ∃ s ∈ x.selects, t = s ∨ t = limitRows n s
  | .mk (.mk a k b) ts w, t, h => by
    simp only [limitRows, limitSelect, SFW.selects, Select.selects, List.mem_cons] at h ⊢
    rcases h with rfl | h
    · exact ⟨_, .inl rfl, .inr rfl⟩
    · exact ⟨t, .inr h, .inl rfl⟩

theorem limitAddons_selects {n : Nat} : ∀ (l : List Addon) (t : SFW), t ∈ selectsAddons (l.map (onSelect (limitRows n))) →
    ∃ s ∈ selectsAddons l, t = s ∨ t = limitRows n s
  | [], t, h => by simp [selectsAddons] at h
  | .mk op x :: l, t, h => by
    simp only [List.map_cons, onSelect, selectsAddons, Addon.selects, List.mem_append] at h ⊢
    rcases h with h | h
    · exact (limitRows_selects x t h).imp fun _ h => ⟨.inl h.1, h.2⟩
    · exact (limitAddons_selects l t h).imp fun _ h => ⟨.inr h.1, h.2⟩

theorem limit_selects {n : Nat} (q : QuerySpec) (t : SFW) (h : t ∈ (everySelect (limitRows n) q).selects) :
    ∃ s ∈ q.selects, t = s ∨ t = limitRows n s := by
  obtain ⟨w, ⟨i, as⟩, g, hv, o⟩ := q
  simp only [everySelect, QuerySpec.selects, SFWList.selects, List.mem_append] at h ⊢
  rcases h with ((h | h | h) | h) | h
  · exact ⟨t, .inl (.inl (.inl h)), .inl rfl⟩
  · exact (limitRows_selects i t h).imp fun _ h => ⟨.inl (.inl (.inr (.inl h.1))), h.2⟩
  · exact (limitAddons_selects as t h).imp fun _ h => ⟨.inl (.inl (.inr (.inr h.1))), h.2⟩
  · exact ⟨t, .inl (.inr h), .inl rfl⟩
  · exact ⟨t, .inr h, .inl rfl⟩

theorem dflt_selects : With.dflt.selects = [] ∧ Geom.dflt.selects = [] ∧ SC.dflt.selects = [] := by
  simp [With.dflt, Subquery.dflt, Geom.dflt, SC.dflt, VENB.dflt, VE.dflt, VEP.dflt, With.selects, Subquery.selects, JT.selects, QJ.selects, QJHead.selects,
    selectsSuffixes, Geom.selects, GPred.selects, VE.selects, VENB.selects, Factor.selects, NumPrim.selects, VEP.selects, Prim.selects, selectsTerms,
    selectsVEs, SC.selects, BF.selects, BP.selects, Pred.selects]

theorem around_selects {f : Shell} (hf : f.Flat) (q : QuerySpec) :
    (around f q).selects = .mk f.sel [.derived (.qs q) f.name] (.mk Geom.dflt f.cond) :: q.selects := by
  simp only [around, QuerySpec.selects, SFWList.selects, selectsAddons, SFW.selects, selectsTRs, TR.selects, Subquery.selects, Where.selects, dflt_selects,
    hf.sel, hf.cond, hf.group, hf.having, List.append_nil, List.nil_append]

mutual

theorem parts_deep {f : SFW → SFW} {ρ : BP → Truth} : ∀ c : SC, parts ρ (c.deep f) = parts (fun p => ρ (p.deep f)) c
  | .factor b => by simp only [SC.deep, parts, factorHolds_deep b]
  | .term b op s => by simp only [SC.deep, parts, factorHolds_deep b, parts_deep s]

theorem factorHolds_deep {f : SFW → SFW} {ρ : BP → Truth} : ∀ b : BF, factorHolds ρ (b.deep f) = factorHolds (fun p => ρ (p.deep f)) b
  | .mk n p => by simp only [BF.deep, factorHolds, primHolds_deep p]

theorem primHolds_deep {f : SFW → SFW} {ρ : BP → Truth} : ∀ p : BP, primHolds ρ (p.deep f) = primHolds (fun p => ρ (p.deep f)) p
  | .sc s => by simp only [BP.deep, primHolds, parts_deep s]
  | .pred p => by simp only [BP.deep, primHolds]
  | .ve v => by simp only [BP.deep, primHolds]

end

theorem whereHolds_deep {f : SFW → SFW} (hf : ∀ s, (f s).isEmpty = s.isEmpty) {γ : Geom → Truth} {ρ : BP → Truth} : ∀ w : Where,
    whereHolds γ ρ (w.deep f) = whereHolds (fun g => γ (g.deep f)) (fun p => ρ (p.deep f)) w
  | .mk g c => by simp only [Where.deep, whereHolds, holds, Geom.deep_isEmpty hf, SC.deep_isEmpty hf, parts_deep]

/-- If the constraint and the condition as a whole hold, so does the WHERE clause. -/
theorem whereHolds_whole {γ : Geom → Truth} {ρ : BP → Truth} {s : Select} {ts : List TR} : ∀ {w : Where}, sfwHolds γ ρ (.mk s ts w) = .yes →
    whereHolds γ ρ w = .yes
  | .mk g c, h => by
    obtain ⟨h1, h2⟩ := (and_is_yes _ _).1 h
    unfold whereHolds
    cases hg : g.isEmpty <;> cases hc : c.isEmpty <;> simp only [hg, hc, if_true, Bool.false_eq_true, if_false] at h1 h2 ⊢
    · simp only [holds, valueOf, CondSeq.atom, CondSeq.join, List.nil_append, h1, valueFrom, yes_and] at h2 ⊢
      exact h2
    · exact h1
    · exact h2

theorem addConds_isEmpty (s : SFW) : (addConds c s).isEmpty = s.isEmpty := by
  obtain ⟨s, ts, ⟨g, w⟩⟩ := s
  simp only [addConds]
  cases allOf c ts <;> rfl

/-- No SELECT of the query, wherever it is, gives a row for which a condition for one of its tables does not hold. -/
def AllGuarded (c : Str → Option SC) (γ : Geom → Truth) (ρ : BP → Truth) (q : QuerySpec) : Prop := ∀ s ∈ q.selects, Guarded c γ ρ s

/-- Conditions that are added later do not undo those that are there. -/
theorem guard_again {c' : Str → Option SC} (hc : Conds nt M c) (hc' : Conds nt M c') {q : QuerySpec} (h : ∀ γ ρ, AllGuarded c γ ρ q)
    (γ : Geom → Truth) (ρ : BP → Truth) : AllGuarded c γ ρ (q.deep (addConds c')) := by
  intro t ht
  obtain ⟨s0, hs, rfl⟩ := q.deep_selects (guard_lower hc') t ht
  rw [SFW.deep_eq]
  have h0 := h (fun g => γ (g.deep (addConds c'))) (fun p => ρ (p.deep (addConds c'))) s0 hs
  obtain ⟨a, ts, w⟩ := s0
  obtain ⟨h1, h2, h3⟩ := C60_guard hc' γ ρ ((SFW.mk a ts w).inner (addConds c'))
  generalize he : addConds c' ((SFW.mk a ts w).inner (addConds c')) = t at *
  obtain ⟨a', ts', w'⟩ := t
  intro n hn d hd hw
  obtain rfl : ts' = deepTRs (addConds c') ts := h3
  have hw' : whereHolds γ ρ (w.deep (addConds c')) = .yes := by
    by_cases hn : ∃ n ∈ fromNames (deepTRs (addConds c') ts), c' n ≠ none
    · exact whereHolds_whole ((h2 hn).1 hw).1
    · have := h1 fun n hm => Classical.byContradiction fun hx => hn ⟨n, hm, hx⟩
      simp only [SFW.inner, SFW.mk.injEq] at this
      rw [← this.2.2]
      exact hw
  rw [whereHolds_deep addConds_isEmpty] at hw'
  have := h0 n (by simpa only [fromNames, readsTRs_deep] using hn) d hd hw'
  rw [holds, ← parts_deep, SC.deep_flat d (hc.flat n d hd)] at this
  exact this

theorem harmless_guarded (hc : Conds nt M c) : ∀ {l : List Step} {q : QuerySpec}, (∀ s ∈ l, StepMade nt M s) → (∀ s ∈ l, s.Harmless) →
    (∀ γ ρ, AllGuarded c γ ρ q) → ∀ γ ρ, AllGuarded c γ ρ (runSteps l q)
  | [], _, _, _, h => h
  | s :: l, q, hl, hh, h => by
    refine harmless_guarded hc (l := l) (q := s.run q) (fun s hs => hl s (by simp [hs])) (fun s hs => hh s (by simp [hs])) ?_
    have hm := hl s (by simp)
    have hs := hh s (by simp)
    intro γ ρ
    cases s with
    | guard c' => exact guard_again hc hm h γ ρ
    | limit n =>
      intro t ht
      obtain ⟨s, hs, rfl | rfl⟩ := limit_selects q t ht
      · exact h γ ρ _ hs
      · exact guarded_limit (h γ ρ _ hs)
    | shell f =>
      intro t ht
      rw [show (Step.shell f).run q = around f q from rfl, around_selects hs q] at ht
      rcases List.mem_cons.1 ht with rfl | ht
      · intro n hn
        simp [fromNames, readsTRs, TR.reads] at hn
      · exact h γ ρ t ht

theorem AllGuarded.same {γ : Geom → Truth} {ρ : BP → Truth} (hs : SpellingFree fmt γ ρ) {q p : QuerySpec} (h : SameQuery fmt q p)
    (hq : AllGuarded c γ ρ q) : AllGuarded c γ ρ p := by
  intro s hm
  have e : p.selects.map (SFW.norm fmt) = q.selects.map (SFW.norm fmt) := by
    rw [← QuerySpec.norm_selects, ← QuerySpec.norm_selects, h]
  have hm' : s.norm fmt ∈ q.selects.map (SFW.norm fmt) := e ▸ List.mem_map.2 ⟨s, hm, rfl⟩
  obtain ⟨t, ht, et⟩ := List.mem_map.1 hm'
  rw [← Guarded.norm_iff hs, ← et, Guarded.norm_iff hs]
  exact hq t ht

theorem guard_all (hc : Conds nt M c) (γ : Geom → Truth) (ρ : BP → Truth) (q : QuerySpec) : AllGuarded c γ ρ (q.deep (addConds c)) := by
  intro t ht
  obtain ⟨s0, -, rfl⟩ := q.deep_selects (guard_lower hc) t ht
  rw [SFW.deep_eq]
  exact guard_guarded hc γ ρ _

theorem runSteps_append (l m : List Step) (q : QuerySpec) : runSteps (l ++ m) q = runSteps m (runSteps l q) := List.foldl_append

/-- **C64.** A policy of conditions for tables and of a limit holds for what is read from the text, whatever changes are made before the
conditions are added, and whatever further conditions, limits, and SELECTs without subqueries around the query come afterwards, if a limit
comes last. -/
theorem C64_policy (hfmt : FmtNum fmt) (cfg : Config) {l m : List Step} (hl : ∀ s ∈ l, StepMade (!cfg.residue) M s)
    (hm : ∀ s ∈ m, StepMade (!cfg.residue) M s) (hh : ∀ s ∈ m, s.Harmless) (hc : Conds (!cfg.residue) M c) (n : Nat) {q : QuerySpec}
    (h : All (WellMade (!cfg.residue) M) (.query q)) (hg : PlainSelects q) :
    ∃ p, parseIt cfg ((runSteps (l ++ .guard c :: m ++ [.limit n]) q).print fmt) = .ok p ∧
      SameQuery fmt (runSteps (l ++ .guard c :: m ++ [.limit n]) q) p ∧ (∀ t ∈ tops p, t ≤ n) ∧
      ∀ γ ρ, SpellingFree fmt γ ρ → AllGuarded c γ ρ p := by
  have h1 := steps_made (l := l ++ .guard c :: m) (fun s hs => by
    rcases List.mem_append.1 hs with hs | hs
    · exact hl s hs
    · rcases List.mem_cons.1 hs with rfl | hs
      · exact hc
      · exact hm s hs) h hg
  have e : runSteps (l ++ .guard c :: m ++ [.limit n]) q = everySelect (limitRows n) (runSteps (l ++ .guard c :: m) q) := runSteps_append _ _ _
  obtain ⟨p, h2, h3, -⟩ := C56_tree hfmt cfg (every_made h1.1 (limit_sfw_made (n := n)))
  rw [e]
  refine ⟨p, h2, h3, fun t ht => ?_, fun γ ρ hs => ?_⟩
  · rw [tops_same h3, (C62_tree (fmt := fmt) n _).1] at ht
    obtain ⟨a, -, rfl⟩ := List.mem_map.1 ht
    exact Nat.min_le_right _ _
  · refine AllGuarded.same hs h3 ?_
    rw [← e, List.append_assoc, List.cons_append, runSteps_append]
    show AllGuarded c γ ρ (runSteps (m ++ [.limit n]) (QuerySpec.deep (addConds c) _))
    refine harmless_guarded hc (fun s hs => ?_) (fun s hs => ?_) (fun γ ρ => guard_all hc γ ρ _) γ ρ
    all_goals rcases List.mem_append.1 hs with hs | hs
    · exact hm s hs
    · rw [List.mem_singleton.1 hs]; trivial
    · exact hh s hs
    · rw [List.mem_singleton.1 hs]; trivial

/-- **C64** for every accepted text whose tree has no geometric constraint and nothing that `Usual` excludes. -/
theorem C64_accepted (hfmt : FmtNum fmt) (cfg : Config) (hw : MapsWell cfg.mapping) {t : Str} {q : QuerySpec} (h : construct cfg t = .ok q)
    (hu : All (Usual (!cfg.residue)) (.query q)) (hg : PlainSelects q) {l m : List Step} (hl : ∀ s ∈ l, StepMade (!cfg.residue) cfg.Mapped s)
    (hm : ∀ s ∈ m, StepMade (!cfg.residue) cfg.Mapped s) (hh : ∀ s ∈ m, s.Harmless) (hc : Conds (!cfg.residue) cfg.Mapped c) (n : Nat) :
    ∃ p, parseIt cfg ((runSteps (l ++ .guard c :: m ++ [.limit n]) q).print fmt) = .ok p ∧ (∀ t ∈ tops p, t ≤ n) ∧
      ∀ γ ρ, SpellingFree fmt γ ρ → AllGuarded c γ ρ p := by
  obtain ⟨p, h1, -, h2⟩ := C64_policy hfmt cfg hl hm hh hc n (C56_parsed cfg hw h (by simp) hu) hg
  exact ⟨p, h1, h2⟩

/-! ### Examples -/

private def c0 : Config := ⟨fun _ => none, false⟩

private theorem tight_made : All (WellMade true c0.Mapped) (.query tightTree) :=
  C56_parsed c0 nofun (s := cs!"SELECT 'a'-b- -a AS b FROM t WHERE a<3AND not b IS NULL") (by kernel_rfl) (fun _ => rfl)
    fun m hm => regular_usual (nt := true) (tightTree_regular m hm)

private theorem x_name : Name cs!"x" ∧ OtherName cs!"x" := by
  have h : ¬ Reserved cs!"x" := by unfold Reserved SameCI; decide +kernel
  exact ⟨.inl ⟨(plainName_letter (x := 'x') (by decide)).1, fun hr => absurd hr h⟩, by unfold OtherName SameCI; decide⟩

/-- `a < 3 AND not b IS NULL` for the table `t` -/
private def conds (n : Str) : Option SC := if n = cs!"t" then some tightCond else none

private theorem conds_ok : Conds true c0.Mapped conds := by
  constructor <;> intro n d h <;> unfold conds at h <;> split at h <;> cases h
  · exact C56_condition tight_made List.mem_cons_self rfl
  · rfl
  · rfl

/-- a filter, then a limit and the conditions again -/
private def after : List Step := [.shell (filtering 10 cs!"x" tightCond []), .limit 7, .guard conds]

private theorem after_ok : (∀ s ∈ after, StepMade true c0.Mapped s) ∧ ∀ s ∈ after, s.Harmless := by
  have hd : All (WellMade true c0.Mapped) (.sc tightCond) := C56_condition tight_made List.mem_cons_self rfl
  constructor <;> intro s hs <;> simp only [after, List.mem_cons, List.not_mem_nil, or_false] at hs <;> rcases hs with rfl | rfl | rfl
  · exact C63_filtering (by decide) x_name.1 x_name.2 (fun _ => hd) nofun
  · trivial
  · exact conds_ok
  · exact ⟨by kernel_rfl, by kernel_rfl, by kernel_rfl, by kernel_rfl⟩
  · trivial
  · trivial

example (hfmt : FmtNum fmt) : ∃ p, parseIt c0 ((runSteps ([] ++ .guard conds :: after ++ [.limit 5]) tightTree).print fmt) = .ok p ∧
    (∀ t ∈ tops p, t ≤ 5) ∧ ∀ γ ρ, SpellingFree fmt γ ρ → AllGuarded conds γ ρ p := by
  obtain ⟨p, h1, -, h2⟩ := C64_policy (l := []) hfmt c0 nofun after_ok.1 after_ok.2 conds_ok 5 tight_made ⟨rfl, nofun⟩
  exact ⟨p, h1, h2⟩

example : (runSteps ([] ++ .guard conds :: after ++ [.limit 5]) tightTree).print id =
    cs!"SELECT TOP 5 * FROM (SELECT 'a'-b--a AS b FROM t WHERE ((a < 3 AND not b IS NULL) AND (a < 3 AND not b IS NULL)) AND (a < 3 AND not b IS NULL)) x WHERE a < 3 AND not b IS NULL" := by
  kernel_rfl

/-- `EXISTS (SELECT * FROM t)` -/
private def open' : SC :=
  .factor (.mk [] (.pred (.exist (.qs (.mk With.dflt (.mk (.mk (.mk [] topMax (.star cs!"*")) [.tc ⟨cs!"t", []⟩] Where.dflt) []) [] SC.dflt [])))))

/-- **C64.** A SELECT with a subquery that is put around the query after the conditions were added is not guarded. -/
theorem C64_needed : ∃ (c : Str → Option SC) (f : Shell) (γ : Geom → Truth) (ρ : BP → Truth) (q : QuerySpec), Conds true c0.Mapped c ∧
    ¬ AllGuarded c γ ρ (runSteps [.guard c, .shell f] q) ∧ AllGuarded c γ ρ (runSteps [.shell f, .guard c] q) := by
  refine ⟨conds, filtering topMax cs!"x" open' [], fun _ => .yes, fun _ => .no, tightTree, conds_ok, fun h => ?_, guard_all conds_ok _ _ _⟩
  have hm : (SFW.mk (.mk [] topMax (.star cs!"*")) [.tc ⟨cs!"t", []⟩] Where.dflt) ∈
      (runSteps [.guard conds, .shell (filtering topMax cs!"x" open' [])] tightTree).selects := by
    simp [runSteps, Step.run, around, filtering, open', QuerySpec.selects, SFWList.selects, SFW.selects, Where.selects, SC.selects, BF.selects, BP.selects,
      Pred.selects, Subquery.selects]
  have := h _ hm cs!"t" (by simp [fromNames, readsTRs, TR.reads]) tightCond rfl (by kernel_rfl)
  revert this
  decide +kernel

end Adql
