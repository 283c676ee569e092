import Verif.Props.Tree

/-!
# C20, C21, C22, C23: the read accessors of a parsed query
-/

namespace Adql

open Spec

/-! ### What the accessors should report, without their index arithmetic -/

/-- The SELECTs of a query, in the order in which they are written. -/
def Spec.components (q : QuerySpec) : List SFW :=
  q.sfws.initial :: q.sfws.addons.map Addon.sfw

/-- The union operators, in the order in which they are written; the `i`-th one (from 0) stands in
front of component `i + 1`. -/
def Spec.unionOps (q : QuerySpec) : List Str := q.sfws.addons.map Addon.unionOp

theorem components_length (q : QuerySpec) :
    (components q).length = 1 + q.sfws.addons.length := by
  simp [components]; omega

theorem parsed_tables {cfg : Config} {input : Str} {q : QuerySpec}
    (h : construct cfg input = .ok q) : ∀ f ∈ components q, f.tables ≠ [] := by
  have hr := C34_ranges cfg input q h
  obtain ⟨w, ⟨i, as⟩, g, hv, o⟩ := q
  have hl := (all_iff.1 hr).2 (.sfwList (.mk i as)) (.inr (.inl rfl))
  intro f hf
  simp only [components, QuerySpec.sfws, SFWList.initial, SFWList.addons, List.mem_cons,
    List.mem_map] at hf
  rcases hf with rfl | ⟨a, ha, rfl⟩
  · have := ((all_iff.1 hl).2 (.sfw f) (.inl rfl) _ (.refl _))
    obtain ⟨s, ts, w⟩ := f
    exact this
  · obtain ⟨op, f⟩ := a
    have := (all_iff.1 ((all_iff.1 hl).2 (.addon (.mk op f)) (.inr ⟨_, ha, rfl⟩))).2 (.sfw f) rfl _
      (.refl _)
    obtain ⟨s, ts, w⟩ := f
    exact this

theorem parsed_sfws_nonempty {cfg : Config} {input : Str} {q : QuerySpec}
    (h : construct cfg input = .ok q) : q.sfws.isEmpty = false := by
  have := parsed_tables h _ (List.mem_cons_self ..)
  obtain ⟨w, ⟨i, as⟩, g, hv, o⟩ := q
  obtain ⟨s, ts, w⟩ := i
  simp only [QuerySpec.sfws, SFWList.initial, SFW.tables] at this
  simp [QuerySpec.sfws, SFWList.isEmpty, SFW.isEmpty, this]

/-! ### C20 -/

/-- **C20**, the count: the number of components, in a 32-bit `uint`. -/
theorem C20_count (cfg : Config) (input : Str) (q : QuerySpec) (h : construct cfg input = .ok q) :
    q.sfws.numSfws = (components q).length % 2 ^ 32 := by
  simp [SFWList.numSfws, parsed_sfws_nonempty h, components_length]

section
variable {cfg : Config} {input : Str} {q : QuerySpec}

theorem numSfws_eq (h : construct cfg input = .ok q) (hn : (components q).length < 2 ^ 32) :
    q.sfws.numSfws = (components q).length := by
  rw [C20_count cfg input q h, Nat.mod_eq_of_lt hn]

/-- **C20.** Component `i` is the `i`-th written SELECT; every other index throws. -/
theorem C20_get_sfw (h : construct cfg input = .ok q) (hn : (components q).length < 2 ^ 32)
    (i : Nat) : q.sfws.getSfw i =
      match (components q)[i]? with
      | some f => .ok f
      | none => .error .sfwIndex := by
  have hc := numSfws_eq h hn
  have hl := components_length q
  cases i with
  | zero => simp [SFWList.getSfw, components]
  | succ i =>
    simp only [SFWList.getSfw, Nat.succ_ne_zero, if_false, SFWList.validate, Nat.add_sub_cancel]
    by_cases hi : i < q.sfws.addons.length
    · have : ¬ q.sfws.numSfws ≤ i + 1 := by omega
      simp [this, vecAt, components, List.getElem?_eq_getElem hi]
      rfl
    · have : q.sfws.numSfws ≤ i + 1 := by omega
      have h2 : q.sfws.addons[i]? = none := List.getElem?_eq_none (by omega)
      simp [this, components, h2]
      rfl

theorem validate_eq (h : construct cfg input = .ok q) (hn : (components q).length < 2 ^ 32)
    (i : Nat) : q.sfws.validate i =
      if i < (components q).length then .ok () else .error .sfwIndex := by
  simp only [SFWList.validate, numSfws_eq h hn]
  by_cases hi : i < (components q).length
  · rw [if_neg (by omega), if_pos hi]
  · rw [if_pos (by omega), if_neg hi]

/-- **C20.** WHERE, SELECT and the first table of component `i`; every other index throws. -/
theorem C20_parts (h : construct cfg input = .ok q) (hn : (components q).length < 2 ^ 32) (i : Nat) :
    q.sfws.getWhere i = (match (components q)[i]? with
      | some f => .ok f.where_
      | none => .error .sfwIndex) ∧
    q.sfws.getSelect i = (match (components q)[i]? with
      | some f => .ok f.select
      | none => .error .sfwIndex) ∧
    q.sfws.getInitialTable i = (match (components q)[i]? with
      | some f => (match f.tables with | t :: _ => .ok t | [] => .error .outOfRange)
      | none => .error .sfwIndex) ∧
    (i < (components q).length → ∃ t, q.sfws.getInitialTable i = .ok t) := by
  simp only [SFWList.getWhere, SFWList.getSelect, SFWList.getInitialTable, validate_eq h hn,
    C20_get_sfw h hn]
  by_cases hi : i < (components q).length
  · have ht := parsed_tables h _ (List.getElem_mem hi)
    simp only [hi, if_true, List.getElem?_eq_getElem hi]
    refine ⟨rfl, rfl, ?_, ?_⟩
    · cases e : (components q)[i].tables with
      | nil => exact absurd e ht
      | cons t ts => simp [vecAt, bind, Except.bind, e]
    · intro _
      cases e : (components q)[i].tables with
      | nil => exact absurd e ht
      | cons t ts => exact ⟨t, by simp [vecAt, bind, Except.bind, e]⟩
  · have h2 : (components q)[i]? = none := List.getElem?_eq_none (by omega)
    simp only [hi, if_false, h2]
    exact ⟨rfl, rfl, rfl, fun h => absurd h id⟩

/-- **C20.** The union operator is returned exactly for `1 ≤ i < n`. -/
theorem C20_union_op (h : construct cfg input = .ok q) (hn : (components q).length < 2 ^ 32)
    (i : Nat) : q.sfws.getUnionOp i =
      if 1 ≤ i then
        match (unionOps q)[i - 1]? with
        | some op => .ok op
        | none => .error .unionIndex
      else .error .unionIndex := by
  have hc := numSfws_eq h hn
  have hl := components_length q
  unfold SFWList.getUnionOp
  cases i with
  | zero => simp
  | succ i =>
    by_cases hi : i < q.sfws.addons.length
    · have : i + 1 < q.sfws.numSfws := by omega
      simp [this, vecAt, unionOps, List.getElem?_eq_getElem hi]
      rfl
    · have : ¬ i + 1 < q.sfws.numSfws := by omega
      have h2 : q.sfws.addons[i]? = none := List.getElem?_eq_none (by omega)
      simp [this, unionOps, h2]

/-- **C20.** `is_union_query` holds iff there is more than one SELECT. -/
theorem C20_is_union (h : construct cfg input = .ok q) (hn : (components q).length < 2 ^ 32) :
    q.isUnion = true ↔ 1 < (components q).length := by
  simp [QuerySpec.isUnion, numSfws_eq h hn]

end

/-- A text `s` is a sequence of union operators and SELECTs, yielding `as` and leaving `r`. -/
inductive WrittenAddons (cfg : Config) (w : G Where) : Str → List Addon → Str → Prop
  | nil {s} : WrittenAddons cfg w s [] s
  | cons {s s₁ s₂ op f as r} : parse cfg unionOp true s = .ok op s₁ →
      parse cfg (sfwWith w) true s₁ = .ok f s₂ → WrittenAddons cfg w s₂ as r →
      WrittenAddons cfg w s (.mk op f :: as) r

/-- **C20.** The components are the SELECTs of the text in the written order: the first one is read
at the start, and each further one after its union operator. -/
theorem C20_written (cfg : Config) (w : G Where) (s r : Str) (l : SFWList)
    (h : parse cfg (sfwList w) true s = .ok l r) :
    ∃ s₁, parse cfg (sfwWith w) true s = .ok l.initial s₁ ∧
      WrittenAddons cfg w s₁ l.addons r := by
  unfold sfwList at h
  simp only [parse] at h ⊢
  rw [step_map_ok] at h
  obtain ⟨x, h, rfl⟩ := h
  rw [step_seq_ok] at h
  obtain ⟨s₁, h1, h2⟩ := h
  refine ⟨s₁, h1, ?_⟩
  rw [step_star_ok] at h2
  simp only [SFWList.addons]
  generalize x.2 = as at h2
  clear h1
  induction h2 with
  | nil _ => exact .nil
  | cons h _ _ ih =>
    rw [step_map_ok] at h
    obtain ⟨y, h, rfl⟩ := h
    rw [step_seq_ok] at h
    obtain ⟨s₂, h3, h4⟩ := h
    exact .cons h3 h4 ih

/-- a query with three SELECTs -/
def writtenUnion : Str :=
  cs!"SELECT a FROM t, u WHERE a=1 UNION SELECT b FROM v UNION all SELECT * FROM w ORDER BY a"

/-- The hypotheses are met by a query with three components. -/
example : ∃ q, construct ⟨fun _ => none, false⟩ writtenUnion = .ok q ∧ (components q).length = 3 ∧
    unionOps q = [cs!"UNION", cs!"UNION all"] ∧ q.sfws.numSfws = 3 := by
  obtain ⟨q, hq⟩ := accepted_iff.1
    (show accepted (construct ⟨fun _ => none, false⟩ writtenUnion) = true by kernel_rfl)
  have h3 : ((construct ⟨fun _ => none, false⟩ writtenUnion).toOption.map fun q =>
      ((components q).length, unionOps q)) = some (3, [cs!"UNION", cs!"UNION all"]) := by kernel_rfl
  rw [hq] at h3
  simp only [Except.toOption, Option.map_some, Option.some.injEq, Prod.mk.injEq] at h3
  exact ⟨q, hq, h3.1, h3.2, by rw [C20_count _ _ q hq, h3.1]⟩

/-! ### C21 -/

section
variable {cfg : Config} {input : Str} {q : QuerySpec}

theorem combineFrom_eq (h : construct cfg input = .ok q) (hn : (components q).length < 2 ^ 32) :
    ∀ n i acc, i + n = (components q).length →
      q.sfws.combineFrom n i acc = .ok (acc ++ ((components q).drop i).flatMap SFW.tables)
  | 0, i, acc, hi => by
    rw [List.drop_eq_nil_of_le (by omega)]; simp [SFWList.combineFrom]
  | n + 1, i, acc, hi => by
    have hlt : i < (components q).length := by omega
    simp only [SFWList.combineFrom, C20_get_sfw h hn, List.getElem?_eq_getElem hlt]
    show q.sfws.combineFrom n (i + 1) _ = _
    rw [combineFrom_eq h hn n (i + 1) _ (by omega), List.drop_eq_getElem_cons hlt]
    simp only [List.flatMap_cons, List.append_assoc]

theorem listsFrom_eq (h : construct cfg input = .ok q) (hn : (components q).length < 2 ^ 32) :
    ∀ n i acc, i + n = (components q).length →
      q.sfws.listsFrom n i acc = .ok (acc ++ ((components q).drop i).map SFW.tables)
  | 0, i, acc, hi => by
    rw [List.drop_eq_nil_of_le (by omega)]; simp [SFWList.listsFrom]
  | n + 1, i, acc, hi => by
    have hlt : i < (components q).length := by omega
    simp only [SFWList.listsFrom, C20_get_sfw h hn, List.getElem?_eq_getElem hlt]
    show q.sfws.listsFrom n (i + 1) _ = _
    rw [listsFrom_eq h hn n (i + 1) _ (by omega), List.drop_eq_getElem_cons hlt]
    simp only [List.map_cons, List.append_assoc, List.cons_append, List.nil_append]

/-- **C21.** `get_combined_table_list` is the concatenation of the table lists of all components in
order. -/
theorem C21_combined (h : construct cfg input = .ok q) (hn : (components q).length < 2 ^ 32) :
    q.sfws.combinedTables = .ok ((components q).flatMap SFW.tables) := by
  simp only [SFWList.combinedTables, parsed_sfws_nonempty h]
  simpa using combineFrom_eq h hn q.sfws.numSfws 0 [] (by rw [numSfws_eq h hn]; omega)

/-- **C21.** `get_table_lists_by_sfw` lists them separately. -/
theorem C21_lists (h : construct cfg input = .ok q) (hn : (components q).length < 2 ^ 32) :
    q.sfws.tableLists = .ok ((components q).map SFW.tables) := by
  have h0 : q.sfws.numSfws ≠ 0 := by
    rw [numSfws_eq h hn, components_length]; omega
  simp only [SFWList.tableLists, h0, if_false]
  simpa using listsFrom_eq h hn q.sfws.numSfws 0 [] (by rw [numSfws_eq h hn]; omega)

end

/-- The lists of the example, and that none is empty. -/
example : ((construct ⟨fun _ => none, false⟩ writtenUnion).toOption.map fun q =>
    ((components q).map fun f => f.tables.map (TR.print id))) =
      some [[cs!"t", cs!"u"], [cs!"v"], [cs!"w"]] := by kernel_rfl

/-! ### C22 -/

theorem parsed_parts_nonempty {cfg : Config} (hM : ∀ y, cfg.Mapped y → y ≠ []) {input : Str}
    {q : QuerySpec} (h : construct cfg input = .ok q) :
    (q.having.isEmpty = true ↔ q.having = SC.dflt) ∧
    (q.with_.isEmpty = true ↔ q.with_ = With.dflt) ∧
    (q.sfws.initial.where_.searchCondition.isEmpty = true ↔
      q.sfws.initial.where_.searchCondition = SC.dflt) := by
  have hr := C15_nonempty cfg hM input q h
  obtain ⟨w, ⟨⟨s, ts, ⟨gm, sc⟩⟩, as⟩, g, hv, o⟩ := q
  refine ⟨⟨fun he => ?_, fun he => ?_⟩, ⟨fun he => ?_, fun he => ?_⟩, ⟨fun he => ?_, fun he => ?_⟩⟩
  · refine Classical.byContradiction fun hne => ?_
    have := (all_iff.1 hr).2 (.sc hv) (.inr (.inr (.inr (.inl ⟨hne, rfl⟩)))) _ (.refl _)
    simp only [Node.isEmpty, QuerySpec.having] at this he
    rw [he] at this; cases this
  · rw [he]; decide
  · refine Classical.byContradiction fun hne => ?_
    have := (all_iff.1 hr).2 (.with_ w) (.inl ⟨hne, rfl⟩) _ (.refl _)
    simp only [Node.isEmpty, QuerySpec.with_] at this he
    rw [he] at this; cases this
  · rw [he]; decide
  · refine Classical.byContradiction fun hne => ?_
    have h1 := (all_iff.1 hr).2 _ (.inr (.inl rfl))
    have h2 := (all_iff.1 h1).2 _ (.inl rfl)
    have hw : Where.mk gm sc ≠ Where.dflt := fun e => hne (by
      simp only [Where.dflt, Where.mk.injEq] at e; exact e.2)
    have h3 := (all_iff.1 h2).2 (.where_ (.mk gm sc)) (.inr (.inr ⟨hw, rfl⟩))
    have h4 := (all_iff.1 h3).2 (.sc sc) (.inr ⟨hne, rfl⟩) _ (.refl _)
    simp only [Node.isEmpty, QuerySpec.sfws, SFWList.initial, SFW.where_,
      Where.searchCondition] at h4 he
    rw [he] at h4; cases h4
  · rw [he]; decide

/-- What `simple_spatial_query` is documented to mean, apart from the quantifier. -/
structure Spec.Plain (q : QuerySpec) : Prop where
  single : (components q).length = 1
  noCondition : q.sfws.initial.where_.searchCondition = SC.dflt
  noWith : q.with_ = With.dflt
  noGroup : q.groupBy = []
  noOrder : q.orderBy = []
  noHaving : q.having = SC.dflt

/-- **C22**, exactly what the code computes: the quantifier must be absent or be written `ALL` in
upper case. -/
theorem C22_exact (cfg : Config) (hM : ∀ y, cfg.Mapped y → y ≠ []) (input : Str) (q : QuerySpec)
    (h : construct cfg input = .ok q) (hn : (components q).length < 2 ^ 32) :
    q.simpleSpatial = true ↔ Plain q ∧ (q.sfws.initial.select.allOrDistinct = [] ∨
      q.sfws.initial.select.allOrDistinct = cs!"ALL") := by
  obtain ⟨h1, h2, h3⟩ := parsed_parts_nonempty hM h
  simp only [QuerySpec.simpleSpatial, Bool.and_eq_true, Bool.or_eq_true, beq_iff_eq, h1, h2, h3,
    numSfws_eq h hn, List.isEmpty_iff]
  constructor
  · rintro ⟨⟨⟨⟨⟨⟨a, b⟩, c⟩, d⟩, e⟩, f⟩, g⟩
    exact ⟨⟨a, c, d, e, f, g⟩, b⟩
  · rintro ⟨⟨a, c, d, e, f, g⟩, b⟩
    exact ⟨⟨⟨⟨⟨⟨a, b⟩, c⟩, d⟩, e⟩, f⟩, g⟩

/-- **C22**, partial.  The documented meaning (single SELECT, not DISTINCT, nothing else), for
queries whose quantifier is not a lower- or mixed-case `ALL`.  Full statement: the same without the
hypothesis `hq`; it is false, see `C22_violated`. -/
theorem C22_simple_spatial_partial (cfg : Config) (hM : ∀ y, cfg.Mapped y → y ≠ []) (input : Str)
    (q : QuerySpec) (h : construct cfg input = .ok q) (hn : (components q).length < 2 ^ 32)
    (hq : SameCI q.sfws.initial.select.allOrDistinct cs!"ALL" →
      q.sfws.initial.select.allOrDistinct = cs!"ALL") :
    q.simpleSpatial = true ↔
      Plain q ∧ ¬ SameCI q.sfws.initial.select.allOrDistinct cs!"DISTINCT" := by
  rw [C22_exact cfg hM input q h hn]
  have hr : q.sfws.initial.select.allOrDistinct = [] ∨
      OneOf [cs!"DISTINCT", cs!"ALL"] q.sfws.initial.select.allOrDistinct := by
    have hr := C34_ranges cfg input q h
    obtain ⟨w, ⟨⟨⟨qq, tp, cl⟩, ts, ⟨gm, sc⟩⟩, as⟩, g, hv, o⟩ := q
    have h1 := (all_iff.1 hr).2 _ (.inr (.inl rfl))
    have h2 := (all_iff.1 h1).2 _ (.inl rfl)
    have h3 := (all_iff.1 h2).2 _ (.inl rfl)
    exact (h3 _ (.refl _)).1
  refine and_congr_right fun _ => ?_
  constructor
  · rintro (e | e) <;> rw [e] <;> simp [SameCI, lowerC]
  · intro hd
    rcases hr with e | ⟨w, hw, e⟩
    · exact .inl e
    · simp only [List.mem_cons, List.not_mem_nil, or_false] at hw
      rcases hw with rfl | rfl
      · exact absurd e hd
      · exact .inr (hq e)

/-- **C22 is violated**: `SELECT all ...` is a plain query without DISTINCT but is not reported as a
simple spatial query; with `ALL` in upper case it is. -/
theorem C22_violated :
    ((construct ⟨fun _ => none, false⟩ cs!"SELECT all a FROM t WHERE CONTAINS(p,c)=1").toOption.map
      QuerySpec.simpleSpatial) = some false ∧
    ((construct ⟨fun _ => none, false⟩ cs!"SELECT ALL a FROM t WHERE CONTAINS(p,c)=1").toOption.map
      QuerySpec.simpleSpatial) = some true := ⟨by kernel_rfl, by kernel_rfl⟩

/-! ### C23 -/

/-- One entry per select item: the expression and its alias, or the expression twice. -/
def Spec.entry (fmt : Str → Str) : Item → Str × Str
  | .as e n => (e.print fmt, n)
  | .nonAsStr s => (s, s)
  | .nonAsVE e => (e.print fmt, e.print fmt)

/-- **C23.** `simplified_columns(i)`: one entry per select item of component `i`, in order; one entry
with empty alias for `*`; every other index throws. -/
theorem C23_simplified {cfg : Config} {input : Str} {q : QuerySpec}
    (h : construct cfg input = .ok q) (hn : (components q).length < 2 ^ 32) (fmt : Str → Str)
    (i : Nat) : q.simplifiedColumns fmt i =
      match (components q)[i]? with
      | none => .error .sfwIndex
      | some f => match f.select.columns with
        | .star s => .ok [(s, [])]
        | .items l => .ok (l.map (entry fmt)) := by
  simp only [QuerySpec.simplifiedColumns, C20_get_sfw h hn]
  cases (components q)[i]? with
  | none => rfl
  | some f =>
    show Except.ok (f.select.columns.simplified fmt) = match f.select.columns with
        | .star s => Except.ok [(s, [])]
        | .items l => .ok (l.map (entry fmt))
    cases f.select.columns with
    | star s => rfl
    | items l =>
      simp only [Columns.simplified]
      congr 1
      refine List.map_congr_left fun x _ => ?_
      cases x <;> rfl

/-- **C23.** The entry for `*` is `("*", "")`, and a list of items is never empty. -/
theorem C23_nonempty {cfg : Config} {input : Str} {q : QuerySpec}
    (h : construct cfg input = .ok q) (f : SFW) (hf : f ∈ components q) :
    f.select.columns = .star cs!"*" ∨ ∃ l, f.select.columns = .items l ∧ l ≠ [] := by
  have hr := C34_ranges cfg input q h
  obtain ⟨w, ⟨i, as⟩, g, hv, o⟩ := q
  have hl := (all_iff.1 hr).2 (.sfwList (.mk i as)) (.inr (.inl rfl))
  have hs : All (Ranges cfg.Mapped) (.sfw f) := by
    simp only [components, QuerySpec.sfws, SFWList.initial, SFWList.addons, List.mem_cons,
      List.mem_map] at hf
    rcases hf with rfl | ⟨a, ha, rfl⟩
    · exact (all_iff.1 hl).2 (.sfw f) (.inl rfl)
    · obtain ⟨op, f⟩ := a
      exact (all_iff.1 ((all_iff.1 hl).2 (.addon (.mk op f)) (.inr ⟨_, ha, rfl⟩))).2 (.sfw f) rfl
  obtain ⟨⟨qq, tp, cl⟩, ts, w⟩ := f
  have h1 := (all_iff.1 ((all_iff.1 hs).2 _ (.inl rfl))).2 _ rfl _ (.refl _)
  cases cl with
  | star s => exact .inl (by rw [show s = cs!"*" from h1]; rfl)
  | items l => exact .inr ⟨l, rfl, h1⟩

/-- A select list with an alias, an expression and a qualified star. -/
example : ((construct ⟨fun _ => none, false⟩
      cs!"SELECT a+1 AS b, c, t.* FROM t UNION SELECT * FROM u").toOption.map fun q =>
    ((q.simplifiedColumns id 0).toOption, (q.simplifiedColumns id 1).toOption,
      (q.simplifiedColumns id 2).toOption)) =
    some (some [(cs!"a+1", cs!"b"), (cs!"c", cs!"c"), (cs!"t.*", cs!"t.*")],
      some [(cs!"*", [])], none) := by kernel_rfl

end Adql
