import Verif.Model.Named
import Verif.Props.Edited
import Verif.Props.Compose
import Verif.Props.Tree

/-!
# C57: the tables, columns and functions of a query are those of its formatted text
-/

namespace Adql

open Spec Fwd

variable {fmt : Str → Str} {M : Str → Prop} {u : Used}

/-- **C57.** `uses` lists what the nodes of the tree name, at any depth, and nothing else. -/
theorem C57_nodes {q : QuerySpec} : u ∈ q.uses fmt ↔ Names fmt u (.query q) := uses_iff

/-- **C57.** Queries that differ only in spelling use the same tables, columns and functions, in the same order. -/
theorem C57_same (hfmt : FmtOnce fmt) {q p : QuerySpec} (h : SameQuery fmt q p) : p.uses fmt = q.uses fmt := by
  rw [← p.norm_uses hfmt, h, q.norm_uses hfmt]

/-- **C57.** Whoever reads the formatted text of a well-made tree finds the tables, columns and functions of the tree. -/
theorem C57_tree (hfmt : FmtNum fmt) (hf : FmtOnce fmt) (cfg : Config) {q : QuerySpec} (h : All (WellMade (!cfg.residue) M) (.query q)) :
    ∃ p, parseIt cfg (q.print fmt) = .ok p ∧ p.uses fmt = q.uses fmt := by
  obtain ⟨p, h1, h2, -⟩ := C56_tree hfmt cfg h
  exact ⟨p, h1, C57_same hf h2⟩

/-- **C57** for every accepted text whose tree has nothing that `Usual` excludes. -/
theorem C57_accepted (hfmt : FmtNum fmt) (hf : FmtOnce fmt) (cfg : Config) (hm : MapsWell cfg.mapping) {s : Str} {q : QuerySpec}
    (h : construct cfg s = .ok q) (hu : All (Usual (!cfg.residue)) (.query q)) :
    ∃ p, parseIt cfg (q.print fmt) = .ok p ∧ p.uses fmt = q.uses fmt :=
  C57_tree hfmt hf cfg (C56_parsed cfg hm h (by simp) hu)

/-- **C57.** The tables that an accepted text uses are names as in C34, and they are in the formatted text. -/
theorem C57_tables (cfg : Config) {s x : Str} {q : QuerySpec} (h : construct cfg s = .ok q) (hx : .table x ∈ q.uses fmt) :
    TableName cfg.Mapped x ∧ ((∀ y, cfg.Mapped y → y ≠ []) → x <:+: q.print fmt) := by
  obtain ⟨m, hs, hm⟩ := C57_nodes.1 hx
  have ht : ∃ a, m = .tcorr ⟨x, a⟩ := by
    unfold own at hm
    split at hm <;> try (simp [ColRef.uses] at hm; done)
    · next t =>
      obtain ⟨n, a⟩ := t
      simp only [TableCorr.uses] at hm
      split at hm
      · cases hm
      · simp only [List.mem_singleton, Used.table.injEq] at hm
        exact ⟨a, by rw [hm]⟩
  obtain ⟨a, rfl⟩ := ht
  have hr := C34_ranges cfg s q h _ hs
  refine ⟨hr.1, fun hM => ?_⟩
  refine List.IsInfix.trans ?_ (C15_shown cfg hM fmt s q h _ hs)
  simp only [Node.print, TableCorr.print]
  exact (List.prefix_append _ _).isInfix

/-! ### Changed queries and parts of queries -/

/-- A condition that is formatted to nothing is the default-constructed one. -/
def NoHidden : SFW → Prop
  | .mk _ _ (.mk _ c) => c.isEmpty = true → c = SC.dflt

theorem dflt_uses : SC.dflt.uses fmt = [] := by
  cases h : SC.dflt.uses fmt with
  | nil => rfl
  | cons a l => exact absurd rfl (sc_uses_dflt (u := a) (fmt := fmt) (by rw [h]; exact List.mem_cons_self))

theorem geom_dflt_uses : Geom.dflt.uses fmt = [] :=
  List.eq_nil_iff_forall_not_mem.2 fun _ h => geom_uses_dflt h rfl

theorem with_dflt_uses : With.dflt.uses fmt = [] :=
  List.eq_nil_iff_forall_not_mem.2 fun _ h => with_uses_dflt h rfl

theorem restrict_uses {d : SC} : ∀ {s : SFW}, NoHidden s → (u ∈ (restrict d s).uses fmt ↔ u ∈ s.uses fmt ∨ u ∈ d.uses fmt)
  | .mk s ts (.mk g c), hs => by
    cases h : c.isEmpty
    · simp [restrict, both, h, SFW.uses, Where.uses, SC.uses, BF.uses, BP.uses, or_assoc]
    · obtain rfl := hs h
      simp [restrict, both, h, SFW.uses, Where.uses, SC.uses, BF.uses, BP.uses, or_assoc, dflt_uses]

theorem addons_restrict {d : SC} : ∀ {l : List Addon}, (∀ a ∈ l, NoHidden a.sfw) →
    (u ∈ usesAddons fmt (l.map (onSelect (restrict d))) ∨ u ∈ d.uses fmt ↔ u ∈ usesAddons fmt l ∨ u ∈ d.uses fmt)
  | [], _ => by simp [usesAddons]
  | .mk op s :: l, h => by
    have h1 := restrict_uses (u := u) (fmt := fmt) (d := d) (h (.mk op s) List.mem_cons_self)
    have h2 := addons_restrict (d := d) (l := l) fun a ha => h a (List.mem_cons_of_mem _ ha)
    simp only [List.map_cons, usesAddons, onSelect, Addon.uses, List.mem_append, Addon.sfw] at h1 ⊢
    rw [h1]
    constructor
    · rintro ((h | h) | h)
      · rcases h with h | h
        · exact .inl (.inl h)
        · exact .inr h
      · rcases h2.1 (.inl h) with h | h
        · exact .inl (.inr h)
        · exact .inr h
      · exact .inr h
    · rintro ((h | h) | h)
      · exact .inl (.inl (.inl h))
      · rcases h2.2 (.inl h) with h | h
        · exact .inl (.inr h)
        · exact .inr h
      · exact .inr h

/-- **C57.** With one more condition in every SELECT, a query uses what it used before and what the condition uses. -/
theorem C57_restricted {q : QuerySpec} {d : SC} (hq : ∀ s ∈ components q, NoHidden s) :
    u ∈ (everySelect (restrict d) q).uses fmt ↔ u ∈ q.uses fmt ∨ u ∈ d.uses fmt := by
  obtain ⟨w, ⟨i, as⟩, g, hv, o⟩ := q
  have h1 := restrict_uses (u := u) (fmt := fmt) (d := d) (hq i List.mem_cons_self)
  have h2 := addons_restrict (u := u) (fmt := fmt) (d := d) (l := as) fun a ha =>
    hq a.sfw (List.mem_cons_of_mem _ (List.mem_map.2 ⟨a, ha, rfl⟩))
  simp only [everySelect, QuerySpec.uses, SFWList.uses, List.mem_append, h1]
  by_cases hd : u ∈ d.uses fmt
  · simp [hd]
  · simp only [hd, or_false] at h2 ⊢
    rw [h2]

/-- Parsed queries are like this. -/
theorem C57_nothing_hidden (cfg : Config) (hM : ∀ y, cfg.Mapped y → y ≠ []) {s : Str} {q : QuerySpec} (h : construct cfg s = .ok q) :
    ∀ x ∈ components q, NoHidden x := by
  rintro ⟨x, ts, ⟨g, c⟩⟩ hx he
  refine Classical.byContradiction fun hc => ?_
  obtain ⟨w, ⟨i, as⟩, gr, hv, o⟩ := q
  have h1 : Spec.Sub (.sc c) (.sfw (.mk x ts (.mk g c))) := by
    refine .step (c := .where_ (.mk g c)) (.inr (.inr ⟨fun e => hc ?_, rfl⟩)) (.step (c := .sc c) (.inr ⟨hc, rfl⟩) (.refl _))
    injection e
  have h2 : Spec.Sub (.sc c) (.sfwList (.mk i as)) := by
    rcases List.mem_cons.1 hx with e | hs
    · have e : SFW.mk x ts (.mk g c) = i := e
      exact .step (c := .sfw i) (.inl rfl) (e ▸ h1)
    · obtain ⟨⟨op, y⟩, ha, e⟩ := List.mem_map.1 hs
      have e : y = SFW.mk x ts (.mk g c) := e
      exact .step (c := .addon (.mk op y)) (.inr ⟨_, ha, rfl⟩) (.step (c := .sfw y) rfl (e ▸ h1))
  have h3 := C15_nonempty cfg hM s _ h _ (.step (c := .sfwList (.mk i as)) (.inr (.inl rfl)) h2)
  have h3 : c.isEmpty = false := h3
  rw [he] at h3
  cases h3

/-- **C57.** A query as a table of another one uses the same, and the column `*`. -/
theorem C57_table (q : QuerySpec) (x : Str) : (asTable q x).uses fmt = .column cs!"*" :: q.uses fmt := by
  simp [asTable, starFrom, QuerySpec.uses, With.dflt, With.uses, Subquery.dflt, Subquery.uses, JT.uses, QJ.uses, QJHead.uses, usesSuffixes,
    TableCorr.uses, SFWList.uses, SFW.uses, Select.uses, Columns.uses, usesTRs, TR.uses, usesAddons, usesGroup, Where.uses, Geom.dflt, Geom.uses,
    GPred.uses, SC.dflt, SC.uses, BF.uses, BP.uses, Pred.uses, VE.dflt, VENB.dflt, VE.uses, VENB.uses, usesTerms, Factor.uses, NumPrim.uses,
    VEP.dflt, VEP.uses, Prim.uses, usesVEs, ShapeOrCol.uses, Shape.uses, Point.uses, Coord.uses, CoordExpr.uses]

/-- **C57.** The lists of tables that the library gives (C21) are used. -/
theorem C57_listed {q : QuerySpec} {t : TR} (ht : t ∈ (components q).flatMap SFW.tables) (h : u ∈ t.uses fmt) : u ∈ q.uses fmt := by
  obtain ⟨⟨s, ts, w⟩, hs, ht'⟩ := List.mem_flatMap.1 ht
  obtain ⟨w', ⟨i, as⟩, g, hv, o⟩ := q
  have h1 : u ∈ nodeUses fmt (.sfw (.mk s ts w)) := child_uses (c := .tr t) (.inr (.inl ⟨t, ht', rfl⟩)) h
  have h2 : u ∈ nodeUses fmt (.sfwList (.mk i as)) := by
    rcases List.mem_cons.1 hs with e | hs
    · have e : SFW.mk s ts w = i := e
      exact child_uses (c := .sfw i) (.inl rfl) (e ▸ h1)
    · obtain ⟨⟨op, y⟩, ha, e⟩ := List.mem_map.1 hs
      have e : y = SFW.mk s ts w := e
      exact child_uses (c := .addon (.mk op y)) (.inr ⟨_, ha, rfl⟩) (child_uses (c := .sfw y) rfl (e ▸ h1))
  exact child_uses (n := .query (.mk w' (.mk i as) g hv o)) (c := .sfwList (.mk i as)) (.inr (.inl rfl)) h2

/-- **C57.** In WITH. -/
theorem C57_with (q : QuerySpec) {x : Str} (hx : x ≠ []) : (asWith q x).uses fmt = q.uses fmt ++ [.column cs!"*", .table x] := by
  have : x.isEmpty = false := by cases x <;> first | rfl | exact absurd rfl hx
  simp only [asWith, starFrom, QuerySpec.uses, With.uses, Subquery.uses, SFWList.uses, SFW.uses, Select.uses, Columns.uses, usesTRs, TR.uses,
    TableCorr.uses, this, Where.uses, geom_dflt_uses, dflt_uses, usesAddons, usesGroup, List.flatMap_nil, List.append_nil]
  rfl

/-- **C57.** In EXISTS. -/
theorem C57_exists (q : QuerySpec) {t : Str} (ht : t ≠ []) : (asExists q t).uses fmt = .column cs!"*" :: .table t :: q.uses fmt := by
  have : t.isEmpty = false := by cases t <;> first | rfl | exact absurd rfl ht
  simp only [asExists, starFrom, QuerySpec.uses, with_dflt_uses, Subquery.uses, SFWList.uses, SFW.uses, Select.uses, Columns.uses, usesTRs, TR.uses,
    TableCorr.uses, this, Where.uses, geom_dflt_uses, dflt_uses, usesAddons, usesGroup, SC.uses, BF.uses, BP.uses, Pred.uses, List.flatMap_nil,
    List.append_nil]
  rfl

/-- **C57.** As a set of values. -/
theorem C57_set (q : QuerySpec) {t : Str} (ht : t ≠ []) (c : Str) :
    (asSet q t c).uses fmt = .column cs!"*" :: .table t :: .column c :: q.uses fmt := by
  have : t.isEmpty = false := by cases t <;> first | rfl | exact absurd rfl ht
  simp only [asSet, starFrom, QuerySpec.uses, with_dflt_uses, Subquery.uses, SFWList.uses, SFW.uses, Select.uses, Columns.uses, usesTRs, TR.uses,
    TableCorr.uses, this, Where.uses, geom_dflt_uses, dflt_uses, usesAddons, usesGroup, SC.uses, BF.uses, BP.uses, Pred.uses, VENB.uses, Factor.uses,
    NumPrim.uses, VEP.uses, Prim.uses, ColRef.uses, ColRef.print, usesVEs, usesTerms, List.flatMap_nil, List.append_nil]
  rfl

theorem usesAddons_append (l l' : List Addon) : usesAddons fmt (l ++ l') = usesAddons fmt l ++ usesAddons fmt l' := by
  induction l with
  | nil => simp only [List.nil_append, usesAddons]
  | cons a l ih => simp only [List.cons_append, usesAddons, ih, List.append_assoc]

/-- **C57.** In a UNION: the names of the first query, then those of the second one. -/
theorem C57_union (op : Str) : ∀ {q p : QuerySpec}, NoTail q → NoWith p → (asUnion op q p).uses fmt = q.uses fmt ++ p.uses fmt
  | .mk w (.mk i l) g hv o, .mk w' (.mk i' l') g' hv' o', ⟨h1, h2, h3⟩, h4 => by
    have h4 : w' = With.dflt := h4
    subst h1 h2 h3 h4
    simp only [asUnion, QuerySpec.uses, SFWList.uses, usesAddons_append, usesAddons, Addon.uses, with_dflt_uses, dflt_uses, usesGroup,
      List.flatMap_nil, List.append_nil, List.nil_append, List.append_assoc]

/-- **C57**, limits: these lists do not have the tables of the subqueries in conditions, in the select list and in WITH. -/
theorem C57_unlisted : ∃ (s : Str) (q : QuerySpec), construct ⟨fun _ => none, false⟩ s = .ok q ∧ .table cs!"secret" ∈ q.uses fmt ∧
    ∀ t ∈ (components q).flatMap SFW.tables, .table cs!"secret" ∉ t.uses fmt := by
  refine ⟨cs!"SELECT * FROM t WHERE EXISTS (SELECT * FROM secret)", starFrom With.dflt (.tc ⟨cs!"t", []⟩) (.factor (.mk [] (.pred (.exist (.qs
    (starFrom With.dflt (.tc ⟨cs!"secret", []⟩) SC.dflt)))))), by kernel_rfl, ?_, ?_⟩
  · simp [starFrom, QuerySpec.uses, SFWList.uses, SFW.uses, usesTRs, TR.uses, TableCorr.uses, Where.uses, SC.uses, BF.uses, BP.uses, Pred.uses,
      Subquery.uses]
  · simp [starFrom, components, QuerySpec.sfws, SFWList.initial, SFWList.addons, SFW.tables, TR.uses, TableCorr.uses]

/-! ### Examples -/

private def c0 : Config := ⟨fun _ => none, false⟩

/-- Tables at several depths, in the order of the text. -/
example : ((construct c0 cs!"WITH w AS (SELECT x FROM s) SELECT f(a.b), count(*) FROM c.t JOIN u USING (k), (SELECT z FROM y WHERE z IN (SELECT r FROM q)) d ORDER BY k").toOption.map
    (QuerySpec.uses id)) = some [.column cs!"x", .table cs!"s", .function cs!"f", .column cs!"a.b", .function cs!"COUNT", .column cs!"*",
      .table cs!"c.t", .table cs!"u", .column cs!"k", .column cs!"z", .table cs!"y", .column cs!"z", .column cs!"r", .table cs!"q", .column cs!"k"] := by
  kernel_rfl

example (hfmt : FmtNum fmt) (hf : FmtOnce fmt) : ∃ p, parseIt c0 (tightTree.print fmt) = .ok p ∧ p.uses fmt = tightTree.uses fmt :=
  C57_accepted hfmt hf c0 nofun (s := cs!"SELECT 'a'-b- -a AS b FROM t WHERE a<3AND not b IS NULL") (by kernel_rfl)
    fun m hm => regular_usual (nt := true) (tightTree_regular m hm)

/-- The condition of another query adds its table. -/
example : ((construct c0 cs!"SELECT * FROM t WHERE a = 1 UNION SELECT * FROM u").toOption.bind fun q =>
    (construct c0 cs!"SELECT * FROM v WHERE b IN (SELECT c FROM w)").toOption.map fun p =>
      (everySelect (restrict p.sfws.initial.where_.searchCondition) q).uses id) =
    some [.column cs!"*", .table cs!"t", .column cs!"a", .column cs!"b", .column cs!"c", .table cs!"w",
      .column cs!"*", .table cs!"u", .column cs!"b", .column cs!"c", .table cs!"w"] := by kernel_rfl

end Adql
