import Verif.Model.DeepMade
import Verif.Model.DeepSelects
import Verif.Model.DeepReads
import Verif.Props.Edited

/-!
# C60: a query can be restricted at every depth
-/

namespace Adql

open Spec Fwd

variable {f : SFW → SFW} {fmt : Str → Str} {nt : Bool} {M : Str → Prop} {c : Str → Option SC}

/-- **C60.** However a program changes the SELECTs of a well-made query, at every depth: if the changed SELECTs are well-made and get no
geometric constraint, the formatted text is read as the changed query. -/
theorem C60_change (hfmt : FmtNum fmt) (cfg : Config) {q : QuerySpec} (h : All (WellMade (!cfg.residue) M) (.query q))
    (hg : ∀ s, NoGeomSFW s → NoGeomSFW (f s))
    (hf : ∀ s, All (WellMade (!cfg.residue) M) (.sfw s) → All (WellMade (!cfg.residue) M) (.sfw (f s))) :
    ∃ p, parseIt cfg ((q.deep f).print fmt) = .ok p ∧ SameQuery fmt (q.deep f) p := by
  obtain ⟨p, h1, h2, -⟩ := C56_tree hfmt cfg (wellMade_deep hg hf h)
  exact ⟨p, h1, h2⟩

/-- **C60.** Nothing but the SELECTs changes, and none of them is left out: if `f` leaves the SELECTs below a SELECT alone, the SELECTs of
the changed query are the changed ones, in the same order. -/
theorem C60_selects (hf : ∀ s, (f s).selects = f s :: lower s) (q : QuerySpec) :
    (q.deep f).selects = q.selects.map (SFW.deep f) ∧ q.deep id = q := ⟨q.deep_list hf, q.deep_id⟩

/-! ### Conditions for tables -/

mutual

theorem TR.reads_deep : ∀ t : TR, (t.deep f).reads = t.reads
  | .tc _ => by simp only [TR.deep]
  | .jt j => by simp only [TR.deep, TR.reads, j.reads_deep]
  | .derived _ _ => by simp only [TR.deep, TR.reads]
  | .tvf _ _ => by simp only [TR.deep]

theorem JT.reads_deep : ∀ j : JT, (j.deep f).reads = j.reads
  | .qj q => by simp only [JT.deep, JT.reads, q.reads_deep]
  | .wrap j => by simp only [JT.deep, JT.reads, j.reads_deep]

theorem QJ.reads_deep : ∀ q : QJ, (q.deep f).reads = q.reads
  | .mk h ss => by simp only [QJ.deep, QJ.reads, h.reads_deep, readsSuffixes_deep ss]

theorem QJHead.reads_deep : ∀ h : QJHead, (h.deep f).reads = h.reads
  | .tc _ => by simp only [QJHead.deep]
  | .jt j => by simp only [QJHead.deep, QJHead.reads, j.reads_deep]

theorem readsSuffixes_deep : ∀ l : List JoinSuffix, readsSuffixes (deepSuffixes f l) = readsSuffixes l
  | [] => by simp only [deepSuffixes]
  | s :: l => by simp only [deepSuffixes, readsSuffixes, s.reads_deep, readsSuffixes_deep l]

theorem JoinSuffix.reads_deep : ∀ s : JoinSuffix, (s.deep f).reads = s.reads
  | .mk _ _ t _ => by simp only [JoinSuffix.deep, JoinSuffix.reads, t.reads_deep]

end

theorem readsTRs_deep : ∀ l : List TR, readsTRs (deepTRs f l) = readsTRs l
  | [] => by simp only [deepTRs]
  | s :: l => by simp only [deepTRs, readsTRs, s.reads_deep, readsTRs_deep l]

mutual

theorem TR.reads_norm : ∀ t : TR, (t.norm fmt).reads = t.reads
  | .tc _ => by simp only [TR.norm]
  | .jt j => by simp only [TR.norm, TR.reads, j.reads_norm]
  | .derived _ _ => by simp only [TR.norm, TR.reads]
  | .tvf _ _ => by simp only [TR.norm]

theorem JT.reads_norm : ∀ j : JT, (j.norm fmt).reads = j.reads
  | .qj q => by simp only [JT.norm, JT.reads, q.reads_norm]
  | .wrap j => by simp only [JT.norm, JT.reads, j.reads_norm]

theorem QJ.reads_norm : ∀ q : QJ, (q.norm fmt).reads = q.reads
  | .mk h ss => by simp only [QJ.norm, QJ.reads, h.reads_norm, readsSuffixes_norm ss]

theorem QJHead.reads_norm : ∀ h : QJHead, (h.norm fmt).reads = h.reads
  | .tc _ => by simp only [QJHead.norm]
  | .jt j => by simp only [QJHead.norm, QJHead.reads, j.reads_norm]

theorem readsSuffixes_norm : ∀ l : List JoinSuffix, readsSuffixes (normSuffixes fmt l) = readsSuffixes l
  | [] => by simp only [normSuffixes]
  | s :: l => by simp only [normSuffixes, readsSuffixes, s.reads_norm, readsSuffixes_norm l]

theorem JoinSuffix.reads_norm : ∀ s : JoinSuffix, (s.norm fmt).reads = s.reads
  | .mk _ _ t _ => by simp only [JoinSuffix.norm, JoinSuffix.reads, t.reads_norm]

end

theorem readsTRs_norm : ∀ l : List TR, readsTRs (normTRs fmt l) = readsTRs l
  | [] => by simp only [normTRs]
  | s :: l => by simp only [normTRs, readsTRs, s.reads_norm, readsTRs_norm l]

theorem and_is_yes (a b : Truth) : a.and b = .yes ↔ a = .yes ∧ b = .yes := by cases a <;> cases b <;> simp [Truth.and]

theorem both_isEmpty {a b : SC} (h : b.isEmpty = false) : (both a b).isEmpty = false := by
  unfold both
  split <;> simp [SC.isEmpty, BF.isEmpty, BP.isEmpty, *]

theorem both_holds {ρ : BP → Truth} {a b : SC} (ha : a.isEmpty = false) : holds ρ (both a b) = (holds ρ a).and (holds ρ b) := by
  simp [both, ha, holds, parts, factorHolds, primHolds, valueOf, valueFrom, CondSeq.atom, CondSeq.join, connOf, upper]

theorem both_selects {a b : SC} (hb : b.selects = []) : ∀ s ∈ (both a b).selects, s ∈ a.selects := by
  unfold both
  split <;> simp [SC.selects, BF.selects, BP.selects, hb]

/-- all conditions of a list -/
theorem foldl_both {ρ : BP → Truth} : ∀ (l : List SC) (a : SC), a.isEmpty = false → (∀ d ∈ l, d.isEmpty = false) →
    (l.foldl both a).isEmpty = false ∧ (holds ρ (l.foldl both a) = .yes ↔ ∀ d ∈ a :: l, holds ρ d = .yes)
  | [], a, ha, _ => ⟨ha, by simp⟩
  | b :: l, a, ha, hl => by
    obtain ⟨h1, h2⟩ := foldl_both (ρ := ρ) l (both a b) (both_isEmpty (hl b (by simp))) fun d hd => hl d (by simp [hd])
    exact ⟨h1, by simp only [List.foldl_cons, h2, List.mem_cons, forall_eq_or_imp, both_holds ha, and_is_yes, and_assoc]⟩

theorem foldl_both_made : ∀ (l : List SC) (a : SC), All (WellMade nt M) (.sc a) → (∀ d ∈ l, All (WellMade nt M) (.sc d)) →
    All (WellMade nt M) (.sc (l.foldl both a))
  | [], _, ha, _ => ha
  | b :: l, a, ha, hl => foldl_both_made l _ (wellMade_both (fun _ => ha) (hl b (by simp))) fun d hd => hl d (by simp [hd])

theorem foldl_both_selects : ∀ (l : List SC) (a : SC), a.selects = [] → (∀ d ∈ l, d.selects = []) → (l.foldl both a).selects = []
  | [], _, ha, _ => ha
  | b :: l, a, ha, hl => by
    refine foldl_both_selects l _ ?_ fun d hd => hl d (by simp [hd])
    rw [List.eq_nil_iff_forall_not_mem]
    intro s hs
    have := both_selects (hl b (by simp)) s hs
    rw [ha] at this
    cases this

/-- The conditions can be used: they are well-made, not empty, and have no subqueries. -/
structure Conds (nt : Bool) (M : Str → Prop) (c : Str → Option SC) : Prop where
  made : ∀ n d, c n = some d → All (WellMade nt M) (.sc d)
  full : ∀ n d, c n = some d → d.isEmpty = false
  flat : ∀ n d, c n = some d → d.selects = []

theorem Conds.mem {ts : List TR} {d : SC} (h : d ∈ (fromNames ts).filterMap c) : ∃ n ∈ fromNames ts, c n = some d := by
  simpa only [List.mem_filterMap] using h

/-- the conditions for the tables of a FROM clause -/
theorem allOf_some (hc : Conds nt M c) {ts : List TR} {d : SC} (h : allOf c ts = some d) :
    All (WellMade nt M) (.sc d) ∧ d.isEmpty = false ∧ d.selects = [] ∧
      ∀ ρ, holds ρ d = .yes ↔ ∀ n ∈ fromNames ts, ∀ d, c n = some d → holds ρ d = .yes := by
  have hm := @Conds.mem c ts
  unfold allOf at h
  split at h
  · cases h
  · rename_i a l e
    injection h with h
    subst h
    have hm : ∀ d ∈ a :: l, ∃ n ∈ fromNames ts, c n = some d := fun d hd => hm (e ▸ hd)
    have h1 : ∀ d ∈ a :: l, _ := fun d hd => let ⟨n, _, h⟩ := hm d hd; hc.made n d h
    have h2 : ∀ d ∈ a :: l, _ := fun d hd => let ⟨n, _, h⟩ := hm d hd; hc.full n d h
    have h3 : ∀ d ∈ a :: l, _ := fun d hd => let ⟨n, _, h⟩ := hm d hd; hc.flat n d h
    refine ⟨foldl_both_made l a (h1 a (by simp)) fun d hd => h1 d (by simp [hd]),
      (foldl_both (ρ := fun _ => .yes) l a (h2 a (by simp)) fun d hd => h2 d (by simp [hd])).1,
      foldl_both_selects l a (h3 a (by simp)) fun d hd => h3 d (by simp [hd]), fun ρ => ?_⟩
    rw [(foldl_both (ρ := ρ) l a (h2 a (by simp)) fun d hd => h2 d (by simp [hd])).2, ← e]
    constructor
    · exact fun h n hn d hd => h d (List.mem_filterMap.2 ⟨n, hn, hd⟩)
    · exact fun h d hd => let ⟨n, hn, h'⟩ := Conds.mem hd; h n hn d h'

theorem allOf_none {ts : List TR} (h : allOf c ts = none) : ∀ n ∈ fromNames ts, c n = none := by
  unfold allOf at h
  split at h
  · rename_i e
    intro n hn
    cases hd : c n with
    | none => rfl
    | some d =>
      have : d ∈ (fromNames ts).filterMap c := List.mem_filterMap.2 ⟨n, hn, hd⟩
      rw [e] at this
      cases this
  · cases h

/-- **C60.** A SELECT with the conditions for its tables asks for the rows for which these hold and, as a whole, what it asked for before; if
there is no condition for its tables, it stays as it was. -/
theorem C60_guard (hc : Conds nt M c) (γ : Geom → Truth) (ρ : BP → Truth) (s : SFW) :
    ((∀ n ∈ fromNames s.tables, c n = none) → addConds c s = s) ∧
    ((∃ n ∈ fromNames s.tables, c n ≠ none) → (whereHolds γ ρ (addConds c s).where_ = .yes ↔
      sfwHolds γ ρ s = .yes ∧ ∀ n ∈ fromNames s.tables, ∀ d, c n = some d → holds ρ d = .yes)) ∧
    (addConds c s).tables = s.tables := by
  obtain ⟨s, ts, w⟩ := s
  simp only [SFW.tables, addConds]
  cases h : allOf c ts with
  | none =>
    refine ⟨fun _ => rfl, ?_, rfl⟩
    rintro ⟨n, hn, hne⟩
    exact (hne (allOf_none h n hn)).elim
  | some d =>
    obtain ⟨-, h2, -, h4⟩ := allOf_some hc h
    refine ⟨fun hn => ?_, fun _ => ?_, by cases w; rfl⟩
    · exfalso
      have e : (fromNames ts).filterMap c = [] := List.filterMap_eq_nil_iff.2 hn
      simp only [allOf, e] at h
      cases h
    · rw [← h4 ρ, ← and_is_yes]
      show whereHolds γ ρ (restrict d (.mk s ts w)).where_ = .yes ↔ _
      rw [C56_means h2]

theorem guard_guarded (hc : Conds nt M c) (γ : Geom → Truth) (ρ : BP → Truth) (s : SFW) : Guarded c γ ρ (addConds c s) := by
  obtain ⟨h1, h2, h3⟩ := C60_guard hc γ ρ s
  generalize he : addConds c s = g at *
  obtain ⟨a, b, w⟩ := g
  intro n hn d hd hw
  simp only [SFW.tables] at h3
  rw [h3] at hn
  exact ((h2 ⟨n, hn, by simp [hd]⟩).1 hw).2 n hn d hd

theorem guard_lower (hc : Conds nt M c) : ∀ s, ∀ t ∈ (addConds c s).selects, t = addConds c s ∨ t ∈ lower s := by
  rintro ⟨s, ts, ⟨g, w⟩⟩ t
  simp only [addConds]
  cases h : allOf c ts with
  | none => simp [SFW.selects, lower]
  | some d =>
    obtain ⟨-, -, h3, -⟩ := allOf_some hc h
    simp only [restrict, SFW.selects, lower, Where.selects, List.mem_cons, List.mem_append]
    rintro (rfl | (h | h) | h | h)
    · exact .inl rfl
    · exact .inr (.inl (.inl h))
    · exact .inr (.inl (.inr h))
    · exact .inr (.inr (.inl h))
    · exact .inr (.inr (.inr (both_selects h3 t h)))

theorem guard_noGeom : ∀ s, NoGeomSFW s → NoGeomSFW (addConds c s) := by
  rintro ⟨s, ts, ⟨g, w⟩⟩ h
  simp only [addConds]
  cases allOf c ts <;> exact h

theorem guard_made (hc : Conds nt M c) : ∀ s, All (WellMade nt M) (.sfw s) → All (WellMade nt M) (.sfw (addConds c s)) := by
  rintro ⟨s, ts, w⟩ h
  simp only [addConds]
  cases hd : allOf c ts with
  | none => exact h
  | some d => exact C56_restrict (allOf_some hc hd).1 _ h

theorem Guarded.norm_iff {γ : Geom → Truth} {ρ : BP → Truth} (h : SpellingFree fmt γ ρ) (s : SFW) : Guarded c γ ρ (s.norm fmt) ↔ Guarded c γ ρ s := by
  obtain ⟨s, ts, w⟩ := s
  simp only [SFW.norm, Guarded, whereHolds_norm h, fromNames, readsTRs_norm]

/-- **C60.** Conditions for tables, in all SELECTs at every depth: the formatted text is read as a query in which no SELECT, wherever it
is, gives a row of its tables for which a condition for one of them does not hold. -/
theorem C60_guarded (hfmt : FmtNum fmt) (cfg : Config) {q : QuerySpec} (h : All (WellMade (!cfg.residue) M) (.query q))
    (hc : Conds (!cfg.residue) M c) :
    ∃ p, parseIt cfg ((q.deep (addConds c)).print fmt) = .ok p ∧ SameQuery fmt (q.deep (addConds c)) p ∧
      ∀ γ ρ, SpellingFree fmt γ ρ → ∀ s ∈ p.selects, Guarded c γ ρ s := by
  obtain ⟨p, h1, h2⟩ := C60_change hfmt cfg h guard_noGeom (guard_made hc)
  refine ⟨p, h1, h2, fun γ ρ hs s hm => ?_⟩
  have e : p.selects.map (SFW.norm fmt) = (q.deep (addConds c)).selects.map (SFW.norm fmt) := by
    rw [← QuerySpec.norm_selects, ← QuerySpec.norm_selects, h2]
  have hm' : s.norm fmt ∈ (q.deep (addConds c)).selects.map (SFW.norm fmt) := e ▸ List.mem_map.2 ⟨s, hm, rfl⟩
  obtain ⟨t, ht, et⟩ := List.mem_map.1 hm'
  obtain ⟨s0, -, rfl⟩ := q.deep_selects (guard_lower hc) t ht
  rw [← Guarded.norm_iff hs, ← et, Guarded.norm_iff hs, SFW.deep_eq]
  exact guard_guarded hc γ ρ _

/-- **C60.** No table is read by anything but a SELECT, except in a join that stands in the place of a subquery. -/
theorem C60_tables {q : QuerySpec} {t : TableCorr} (h : Sub (.tcorr t) (.query q)) (hj : ∀ j, ¬ Sub (.subq (.jt j)) (.query q)) :
    ∃ s ∈ q.selects, t.name ∈ fromNames s.tables := by
  rcases sub_reads h hj with h | h
  · cases h
  · exact h

/-! ### Examples -/

private def c0 : Config := ⟨fun _ => none, false⟩

/-- `a < 3 AND not b IS NULL` for the tables `t` and `u` -/
private def conds (n : Str) : Option SC := if n = cs!"t" ∨ n = cs!"u" then some tightCond else none

/-- In FROM, in a condition, in WITH and behind UNION. -/
example : ((construct c0 cs!"WITH w AS (SELECT x FROM t) SELECT x FROM v WHERE y=1 OR EXISTS (SELECT * FROM t WHERE a=1 OR b=2) UNION SELECT x FROM (SELECT y FROM t JOIN u USING (k)) AS z").toOption.map
    fun q => (q.deep (addConds conds)).print id) =
    some cs!"WITH w AS (SELECT x FROM t WHERE (a < 3 AND not b IS NULL)) SELECT x FROM v WHERE y = 1 OR EXISTS (SELECT * FROM t WHERE (a = 1 OR b = 2) AND (a < 3 AND not b IS NULL)) UNION SELECT x FROM (SELECT y FROM t  JOIN u USING (k)  WHERE ((a < 3 AND not b IS NULL) AND (a < 3 AND not b IS NULL))) z" := by
  kernel_rfl

private theorem tight_made : All (WellMade (!c0.residue) c0.Mapped) (.query tightTree) :=
  C56_parsed c0 nofun (s := cs!"SELECT 'a'-b- -a AS b FROM t WHERE a<3AND not b IS NULL") (by kernel_rfl) (fun _ => rfl)
    fun m hm => regular_usual (nt := true) (tightTree_regular m hm)

private theorem conds_ok : Conds (!c0.residue) c0.Mapped conds := by
  constructor <;> intro n d h <;> unfold conds at h <;> split at h <;> cases h
  · exact C56_condition tight_made (List.mem_cons_self) rfl
  · rfl
  · rfl

example (hfmt : FmtNum fmt) : ∃ p, parseIt c0 ((tightTree.deep (addConds conds)).print fmt) = .ok p ∧
    ∀ γ ρ, SpellingFree fmt γ ρ → ∀ s ∈ p.selects, Guarded conds γ ρ s := by
  obtain ⟨p, h1, -, h2⟩ := C60_guarded hfmt c0 tight_made conds_ok
  exact ⟨p, h1, h2⟩

example : tightTree.selects.map (fun s => fromNames s.tables) = [[cs!"t"]] := by kernel_rfl

/-- another change: at most 5 rows of each SELECT -/
example (q : QuerySpec) : (q.deep fun | .mk s ts w => .mk (setTop 5 s) ts w).selects =
    q.selects.map (SFW.deep fun | .mk s ts w => .mk (setTop 5 s) ts w) :=
  (C60_selects (by rintro ⟨⟨a, b, c⟩, ts, w⟩; simp only [setTop, SFW.selects, Select.selects, lower]) q).1

/-- `SELECT * FROM t` and a condition -/
private def starFrom (n : Nat) (t : Str) (c : SC) : QuerySpec :=
  .mk With.dflt (.mk (.mk (.mk [] n (.star cs!"*")) [.tc ⟨t, []⟩] (.mk Geom.dflt c)) []) [] SC.dflt []

/-- `EXISTS` -/
private def existsCond (q : QuerySpec) : SC := .factor (.mk [] (.pred (.exist (.qs q))))

private theorem starFrom_all {K : Node → Prop} {k : Nat} {t : Str} {c : SC} (hK : ∀ n, (∀ q, n ≠ .subq q) → K n) (hc : c ≠ SC.dflt → All K (.sc c)) :
    All K (.query (starFrom k t c)) := by
  refine all_iff.2 ⟨hK _ nofun, fun m h => ?_⟩
  rcases h with ⟨h, -⟩ | rfl | ⟨_, h, _⟩ | ⟨h, -⟩ | ⟨_, h, _⟩
  · exact absurd rfl h
  · refine all_iff.2 ⟨hK _ nofun, fun m h => ?_⟩
    rcases h with rfl | ⟨_, h, _⟩
    · refine all_iff.2 ⟨hK _ nofun, fun m h => ?_⟩
      rcases h with rfl | ⟨t, h, rfl⟩ | ⟨-, rfl⟩
      · refine all_iff.2 ⟨hK _ nofun, fun m h => ?_⟩
        cases h
        exact all_iff.2 ⟨hK _ nofun, fun _ (h : False) => h.elim⟩
      · cases List.mem_singleton.1 h
        refine all_iff.2 ⟨hK _ nofun, fun m h => ?_⟩
        cases h
        exact all_iff.2 ⟨hK _ nofun, fun _ (h : False) => h.elim⟩
      · refine all_iff.2 ⟨hK _ nofun, fun m h => ?_⟩
        rcases h with ⟨h, -⟩ | ⟨h, rfl⟩
        · exact absurd rfl h
        · exact hc h
    · cases h
  · cases h
  · exact absurd rfl h
  · cases h

private theorem existsCond_all {K : Node → Prop} {q : QuerySpec} (hK : ∀ n, (∀ j, n ≠ .subq (.jt j)) → K n) (hq : All K (.query q)) :
    All K (.sc (existsCond q)) := by
  refine all_iff.2 ⟨hK _ nofun, fun m h => ?_⟩
  cases h
  refine all_iff.2 ⟨hK _ nofun, fun m h => ?_⟩
  cases h
  refine all_iff.2 ⟨hK _ nofun, fun m h => ?_⟩
  cases h
  refine all_iff.2 ⟨hK _ nofun, fun m h => ?_⟩
  cases h
  refine all_iff.2 ⟨hK _ nofun, fun m h => ?_⟩
  cases h
  exact hq

example : construct c0 cs!"SELECT * FROM v WHERE EXISTS (SELECT * FROM t)" = .ok (starFrom topMax cs!"v" (existsCond (starFrom topMax cs!"t" SC.dflt))) := by
  kernel_rfl

example (k : Nat) (t : TableCorr) (h : Sub (.tcorr t) (.query (starFrom k cs!"v" (existsCond (starFrom k cs!"t" SC.dflt))))) :
    ∃ s ∈ (starFrom k cs!"v" (existsCond (starFrom k cs!"t" SC.dflt))).selects, t.name ∈ fromNames s.tables := by
  refine C60_tables h fun j hj => ?_
  have : All (fun n => ∀ j, n ≠ .subq (.jt j)) (.query (starFrom k cs!"v" (existsCond (starFrom k cs!"t" SC.dflt)))) :=
    starFrom_all (fun n hn j => hn _) fun _ => existsCond_all (fun _ h => h) (starFrom_all (fun n hn j => hn _) fun h => absurd rfl h)
  exact this _ hj j rfl

/-- the tree of the next example -/
private def joinTree : QuerySpec :=
  .mk With.dflt (.mk (.mk (.mk [] topMax (.items [.nonAsVE (.nb (.mk (.mk [] (.vep (.mk (.col (.col cs!"x")) []))) []))]))
    [.tc ⟨cs!"v", []⟩] (.mk Geom.dflt (.factor (.mk [] (.pred (.exist (.jt (.qj (.mk (.tc ⟨cs!"t", []⟩)
      [.mk false (.str []) (.tc ⟨cs!"u", []⟩) (.named [cs!"k"])]))))))))) []) [] SC.dflt []

/-- **C60**, limits: a join in the place of a subquery is read by no SELECT and gets no condition. -/
theorem C60_join : ∃ q, construct c0 cs!"SELECT x FROM v WHERE EXISTS (t JOIN u USING (k))" = .ok q ∧ Sub (.tcorr ⟨cs!"t", []⟩) (.query q) ∧
    (q.selects.map fun s => fromNames s.tables) = [[cs!"v"]] ∧ q.deep (addConds conds) = q := by
  refine ⟨joinTree, by kernel_rfl, ?_, by kernel_rfl, by kernel_rfl⟩
  refine .step (.inr (.inl rfl)) (.step (.inl rfl) (.step (.inr (.inr ⟨fun h => ?_, rfl⟩)) (.step (.inr ⟨fun h => ?_, rfl⟩) (.step rfl (.step rfl
    (.step rfl (.step rfl (.step rfl (.step rfl (.step (.inl rfl) (.step rfl (.refl _))))))))))))
  · injection h with _ h
    injection h with h
    injection h with _ h
    injection h with h
    cases h
  · injection h with h
    injection h with _ h
    injection h with h
    cases h

end Adql
