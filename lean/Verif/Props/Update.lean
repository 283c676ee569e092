import Verif.Model.Update
import Verif.Props.Access
import Verif.Props.Upload
import Verif.Props.Faithful

/-!
# C44, C45, C46: the other constructors, and changes through references
-/

namespace Adql

open Spec

/-! ### C44 -/

/-- **C44.** The table mapping is consulted for identifiers only. -/
theorem C44_identifiers (cfg cfg' : Config) (hres : cfg.residue = cfg'.residue)
    (h : ∀ x r, IdentAt x r → cfg.mapping x = cfg'.mapping x) (input : Str) : construct cfg input = construct cfg' input := by
  unfold construct
  cases hp : preprocess input with
  | error e => rfl
  | ok s =>
    simp only [parseIt]
    rw [parseQuery_eq, parseQuery_eq]
    have := agree_construct (X := fun _ => False) (S := fun _ => True)
      (fun _ _ _ h => h) hres (cfg := cfg) (cfg' := cfg') ?_ s trivial
    · rcases this with h | ⟨_, h, _⟩
      · rw [h]
      · exact h.elim
    · intro f f' sk s _
      rw [run_tapUpload, run_tapUpload]
      split
      · exact .inl rfl
      · rename_i t r _
        have e : parse cfg identifier false r = parse cfg' identifier false r := by
          rw [← step_identifier (D cfg') cfg]
        rw [e]
        split
        · rename_i x u hx
          obtain ⟨b, hb, -, hx⟩ := identifier_iff.1 hx
          rw [h x u hx]
          exact .inl rfl
        · exact .inl rfl

theorem identAt_ne {x r : Str} (h : IdentAt x r) : x ≠ [] := by
  rintro rfl
  rcases h with ⟨⟨c, t, h, -⟩, -⟩ | ⟨⟨b, h, -⟩, -⟩
  · cases h
  · cases h

/-- **C44**, the constructor with one argument: it behaves as with an empty mapping, although the mapping it
passes has an entry. -/
theorem C44_one_argument (residue : Bool) (input : Str) :
    construct1 residue input = construct ⟨fun _ => none, residue⟩ input := by
  have key : ∀ x r, IdentAt x r → (if x = [] then some [] else none : Option Str) = none := fun x r h => if_neg (identAt_ne h)
  unfold construct1
  generalize hm : (fun x : Str => if x = [] then some ([] : Str) else none) = m
  generalize hm' : (fun _ : Str => (none : Option Str)) = m'
  refine C44_identifiers ⟨m, residue⟩ ⟨m', residue⟩ rfl (fun x r h => ?_) input
  subst hm hm'
  exact key x r h

/-- **C44**, consequence: nothing that it parses counts as empty (C15 without a hypothesis on the mapping). -/
theorem C44_nonempty (residue : Bool) (input : Str) (q : QuerySpec) (h : construct1 residue input = .ok q) :
    All (fun n => n.isEmpty = false) (.query q) := by
  rw [C44_one_argument] at h
  exact C15_nonempty _ (fun y ⟨x, hx⟩ => by cases hx) input q h

/-- **C44**, consequence: every uploaded table is unknown. -/
example : construct1 false cs!"SELECT a FROM TAP_UPLOAD.t" = .error (.noTable cs!"t") := by kernel_rfl

/-! ### C45 -/

/-- **C45.** The default-constructed query: it has no components, every access by index throws except `get_sfw(0)`, and the
lists are empty. -/
theorem C45_default : QuerySpec.dflt.isEmpty = true ∧ QuerySpec.dflt.sfws.numSfws = 0 ∧ QuerySpec.dflt.isUnion = false ∧
    QuerySpec.dflt.simpleSpatial = false ∧ QuerySpec.dflt.sfws.combinedTables = .ok [] ∧ QuerySpec.dflt.sfws.tableLists = .ok [] ∧
    (∀ i, QuerySpec.dflt.sfws.getSfw i = if i = 0 then .ok SFW.dflt else .error .sfwIndex) ∧
    (∀ i, QuerySpec.dflt.sfws.getSelect i = .error .sfwIndex) ∧ (∀ i, QuerySpec.dflt.sfws.getWhere i = .error .sfwIndex) ∧
    (∀ i, QuerySpec.dflt.sfws.getInitialTable i = .error .sfwIndex) ∧ (∀ i, QuerySpec.dflt.sfws.getUnionOp i = .error .unionIndex) := by
  have hn : QuerySpec.dflt.sfws.numSfws = 0 := rfl
  refine ⟨rfl, hn, rfl, rfl, rfl, rfl, fun i => ?_, fun i => ?_, fun i => ?_, fun i => ?_, fun i => ?_⟩
  · by_cases hi : i = 0
    · subst hi; rfl
    · simp only [SFWList.getSfw, if_neg hi, SFWList.validate, hn, Nat.zero_le, if_true]; rfl
  all_goals simp only [SFWList.getSelect, SFWList.getWhere, SFWList.getInitialTable, SFWList.getUnionOp, SFWList.validate, hn,
    Nat.zero_le, if_true, Nat.not_lt_zero, and_false, if_false]
  all_goals rfl

/-- **C45**, its text, which is not accepted. -/
theorem C45_print (fmt : Str → Str) (cfg : Config) : QuerySpec.dflt.print fmt = cs!"SELECT  FROM " ∧
    construct cfg (QuerySpec.dflt.print fmt) = .error (.expecting "columns" cs!"  FROM ") := by
  have e : QuerySpec.dflt.print fmt = cs!"SELECT  FROM " := rfl
  refine ⟨e, ?_⟩
  rw [e]
  obtain ⟨m, r⟩ := cfg
  cases r <;> kernel_rfl

/-- **C45**, `simplified_columns()` does not throw either. -/
theorem C45_columns (fmt : Str → Str) : QuerySpec.dflt.simplifiedColumns fmt 0 = .ok [([], [])] ∧
    ∀ i, QuerySpec.dflt.simplifiedColumns fmt (i + 1) = .error .sfwIndex := by
  refine ⟨rfl, fun i => ?_⟩
  simp only [QuerySpec.simplifiedColumns, C45_default.2.2.2.2.2.2.1, Nat.succ_ne_zero, if_false]
  rfl

/-- **C45**, no text is parsed to it. -/
theorem C45_not_parsed (cfg : Config) (input : Str) : construct cfg input ≠ .ok QuerySpec.dflt := by
  intro h
  have := parsed_sfws_nonempty h
  cases this

/-! ### C46 -/

/-- `f` applied to the `i`-th element -/
def Spec.changeAt {α : Type} (f : α → α) (i : Nat) (l : List α) : List α := (l.take i) ++ (match l.drop i with
  | [] => []
  | a :: r => f a :: r)

theorem changeAt_cons {α : Type} (f : α → α) (i : Nat) (a : α) (l : List α) : changeAt f (i + 1) (a :: l) = a :: changeAt f i l := rfl

theorem updAddon_sfw (f : SFW → SFW) : ∀ (l : List Addon) (i : Nat),
    (updAddon f l i).map Addon.sfw = changeAt f i (l.map Addon.sfw) ∧ (updAddon f l i).map Addon.unionOp = l.map Addon.unionOp
  | [], i => by simp [updAddon, changeAt]
  | .mk o s :: l, 0 => by simp [updAddon, changeAt, Addon.sfw, Addon.unionOp]
  | a :: l, i + 1 => by
    have := updAddon_sfw f l i
    cases a
    simp [updAddon, changeAt_cons, this]

/-- A query whose components can be reached: it counts as non-empty and its number of components fits a `uint`. -/
def Spec.Usable (q : QuerySpec) : Prop := q.sfws.isEmpty = false ∧ (components q).length < 2 ^ 32

/-- Every parsed query is of this kind, if it has fewer than `2 ^ 32` components. -/
theorem usable_parsed {cfg : Config} {input : Str} {q : QuerySpec} (h : construct cfg input = .ok q)
    (hn : (components q).length < 2 ^ 32) : Usable q := ⟨parsed_sfws_nonempty h, hn⟩

/-- The effect of a write to the SELECT of component `i`: that SELECT is changed in place. -/
def Spec.Written (i : Nat) (f : Select → Select) (q q' : QuerySpec) : Prop :=
  components q' = changeAt (fun s => .mk (f s.select) s.tables s.where_) i (components q) ∧
  unionOps q' = unionOps q ∧ q'.with_ = q.with_ ∧ q'.groupBy = q.groupBy ∧ q'.having = q.having ∧ q'.orderBy = q.orderBy

theorem usable_validate {q : QuerySpec} (h : Usable q) (i : Nat) :
    q.sfws.validate i = if i < (components q).length then .ok () else .error .sfwIndex := by
  have hl := components_length q
  have : q.sfws.numSfws = (components q).length := by
    rw [SFWList.numSfws, h.1, if_neg (by simp), ← hl, Nat.mod_eq_of_lt h.2]
  simp only [SFWList.validate, this]
  by_cases hi : i < (components q).length
  · rw [if_neg (by omega), if_pos hi]
  · rw [if_pos (by omega), if_neg hi]

theorem changeAt_length {α : Type} (f : α → α) : ∀ (i : Nat) (l : List α), (changeAt f i l).length = l.length
  | 0, [] => rfl
  | 0, a :: l => rfl
  | i + 1, [] => rfl
  | i + 1, a :: l => by simp [changeAt_cons, changeAt_length f i l]

theorem changeAt_getElem? {α : Type} (f : α → α) : ∀ (i : Nat) (l : List α) (j : Nat),
    (changeAt f i l)[j]? = if j = i then l[j]?.map f else l[j]?
  | 0, [], j => by simp [changeAt]
  | 0, a :: l, 0 => by simp [changeAt]
  | 0, a :: l, j + 1 => by simp [changeAt]
  | i + 1, [], j => by simp [changeAt]
  | i + 1, a :: l, 0 => by simp [changeAt_cons]
  | i + 1, a :: l, j + 1 => by simp [changeAt_cons, changeAt_getElem? f i l j]

/-- **C46.** Writing to the SELECT of component `i`: for a valid index exactly that SELECT changes, in place, and
nothing else does, and the query remains usable; for any other index the accessor throws. -/
theorem C46_select {q : QuerySpec} (h : Usable q) (i : Nat) (f : Select → Select) :
    (i < (components q).length → ∃ q', q.updSelect i f = .ok q' ∧ Written i f q q' ∧ Usable q') ∧
    ((components q).length ≤ i → q.updSelect i f = .error .sfwIndex) := by
  have hv := usable_validate h i
  have hl := components_length q
  have hs : SFW.updSelect f = fun s => .mk (f s.select) s.tables s.where_ := by
    funext s; cases s; rfl
  constructor
  · intro hi
    rw [if_pos hi] at hv
    have key : ∃ q', q.updSelect i f = .ok q' ∧ Written i f q q' ∧ q'.sfws.isEmpty = false := by
      cases i with
      | zero =>
        refine ⟨_, by simp only [QuerySpec.updSelect, SFWList.updSelect, hv, SFWList.updSfw, if_pos]; rfl, ?_⟩
        obtain ⟨w, ⟨⟨s, ts, wh⟩, as⟩, g, hv, o⟩ := q
        refine ⟨⟨?_, rfl, rfl, rfl, rfl, rfl⟩, ?_⟩
        · simp [components, SFWList.updInitial, QuerySpec.sfws, SFWList.initial, SFWList.addons, changeAt, hs]
        · exact h.1
      | succ i =>
        have hi' : i < q.sfws.addons.length := by omega
        have hat : vecAt q.sfws.addons i = .ok q.sfws.addons[i] := by
          simp [vecAt, List.getElem?_eq_getElem hi']
        refine ⟨_, by simp only [QuerySpec.updSelect, SFWList.updSelect, hv, SFWList.updSfw, Nat.succ_ne_zero, if_false,
          Nat.add_sub_cancel, hat]; rfl, ?_⟩
        obtain ⟨w, ⟨i0, as⟩, g, hv, o⟩ := q
        have := updAddon_sfw (SFW.updSelect f) as i
        refine ⟨⟨?_, ?_, rfl, rfl, rfl, rfl⟩, h.1⟩
        · rw [hs] at this
          simp only [components, QuerySpec.sfws, SFWList.initial, SFWList.addons, changeAt_cons, hs] at this ⊢
          rw [this.1]
        · simp [unionOps, QuerySpec.sfws, SFWList.addons, this]
    obtain ⟨q', e, hw, he⟩ := key
    exact ⟨q', e, hw, he, by rw [hw.1, changeAt_length]; exact h.2⟩
  · intro hi
    rw [if_neg (by omega)] at hv
    simp only [QuerySpec.updSelect, hv]
    rfl

theorem usable_num {q : QuerySpec} (h : Usable q) : q.sfws.numSfws = (components q).length := by
  rw [SFWList.numSfws, h.1, if_neg (by simp), ← components_length, Nat.mod_eq_of_lt h.2]

theorem usable_getSfw {q : QuerySpec} (h : Usable q) (i : Nat) : q.sfws.getSfw i =
    match (components q)[i]? with
    | some f => .ok f
    | none => .error .sfwIndex := by
  have hc := usable_num h
  have hl := components_length q
  cases i with
  | zero => simp [SFWList.getSfw, components]
  | succ i =>
    simp only [SFWList.getSfw, Nat.succ_ne_zero, if_false, SFWList.validate, Nat.add_sub_cancel]
    by_cases hi : i < q.sfws.addons.length
    · have : ¬ q.sfws.numSfws ≤ i + 1 := by omega
      simp [this, vecAt, components, List.getElem?_eq_getElem hi]
      rfl
    · have : q.sfws.numSfws ≤ i + 1 := by omega
      have h2 : q.sfws.addons[i]? = none := List.getElem?_eq_none (by omega)
      simp [this, components, h2]
      rfl

theorem usable_parts {q : QuerySpec} (h : Usable q) (i : Nat) :
    q.sfws.getWhere i = (match (components q)[i]? with | some f => .ok f.where_ | none => .error .sfwIndex) ∧
    q.sfws.getSelect i = (match (components q)[i]? with | some f => .ok f.select | none => .error .sfwIndex) ∧
    q.sfws.getInitialTable i =
      (match (components q)[i]? with | some f => vecAt f.tables 0 | none => .error .sfwIndex) := by
  simp only [SFWList.getWhere, SFWList.getSelect, SFWList.getInitialTable, usable_validate h, usable_getSfw h]
  by_cases hi : i < (components q).length
  · simp only [hi, if_true, List.getElem?_eq_getElem hi]
    exact ⟨rfl, rfl, rfl⟩
  · have h2 : (components q)[i]? = none := List.getElem?_eq_none (by omega)
    simp only [hi, if_false, h2]
    exact ⟨rfl, rfl, rfl⟩

/-- **C46**, what is read afterwards: the changed SELECT at index `i`, the same as before everywhere else, the
same conditions, tables and union operators, and the same number of components. -/
theorem C46_read {q q' : QuerySpec} (i : Nat) (f : Select → Select) (h : Usable q) (h' : Usable q') (hw : Written i f q q') :
    q'.sfws.numSfws = q.sfws.numSfws ∧
    (∀ j, q'.sfws.getSelect j = if j = i then (q.sfws.getSelect j).map f else q.sfws.getSelect j) ∧
    (∀ j, q'.sfws.getWhere j = q.sfws.getWhere j) ∧ (∀ j, q'.sfws.getInitialTable j = q.sfws.getInitialTable j) ∧
    (∀ j, q'.sfws.getUnionOp j = q.sfws.getUnionOp j) := by
  have hn : q'.sfws.numSfws = q.sfws.numSfws := by rw [usable_num h, usable_num h', hw.1, changeAt_length]
  refine ⟨hn, fun j => ?_, fun j => ?_, fun j => ?_, fun j => ?_⟩
  · rw [(usable_parts h' j).2.1, (usable_parts h j).2.1, hw.1, changeAt_getElem?]
    by_cases hj : j = i
    · rw [if_pos hj, if_pos hj]
      cases (components q)[j]? <;> rfl
    · rw [if_neg hj, if_neg hj]
  · rw [(usable_parts h' j).1, (usable_parts h j).1, hw.1, changeAt_getElem?]
    by_cases hj : j = i
    · rw [if_pos hj]
      cases (components q)[j]? <;> rfl
    · rw [if_neg hj]
  · rw [(usable_parts h' j).2.2, (usable_parts h j).2.2, hw.1, changeAt_getElem?]
    by_cases hj : j = i
    · rw [if_pos hj]
      cases (components q)[j]? <;> rfl
    · rw [if_neg hj]
  · have hu : ∀ q : QuerySpec, q.sfws.getUnionOp j = if 0 < j ∧ j < q.sfws.numSfws then vecAt (unionOps q) (j - 1)
        else .error .unionIndex := by
      intro q
      unfold SFWList.getUnionOp
      split
      · simp only [vecAt, unionOps, List.getElem?_map]
        cases q.sfws.addons[j - 1]? <;> rfl
      · rfl
    rw [hu, hu, hn, hw.2.1]

private theorem addons_eq : ∀ l l' : List Addon, l'.map Addon.sfw = l.map Addon.sfw →
    l'.map Addon.unionOp = l.map Addon.unionOp → l' = l
  | [], l', h, _ => by simpa using h
  | a :: l, [], h, _ => by simp at h
  | .mk o x :: l, .mk o' x' :: l', h, h' => by
    simp only [List.map_cons, Addon.sfw, Addon.unionOp, List.cons.injEq] at h h'
    rw [h.1, h'.1, addons_eq l l' h.2 h'.2]

private theorem addons_text (fmt : Str → Str) (f : Select → Select) : ∀ (as as' : List Addon) (i : Nat) (s : SFW),
    as'.map Addon.sfw = changeAt (fun s => .mk (f s.select) s.tables s.where_) i (as.map Addon.sfw) →
    as'.map Addon.unionOp = as.map Addon.unionOp → (as.map Addon.sfw)[i]? = some s →
    ∃ pre post, printAddons fmt as = pre ++ s.select.print fmt ++ post ∧
      printAddons fmt as' = pre ++ (f s.select).print fmt ++ post
  | [], _, _, _, _, _, h => by simp at h
  | a :: as, [], _, _, _, h, _ => by simp at h
  | .mk op c :: as, .mk op' c' :: as', 0, s, h, ho, hs => by
    simp only [List.map_cons, List.getElem?_cons_zero, Option.some.injEq, Addon.sfw] at hs
    subst hs
    simp only [List.map_cons, Addon.sfw, changeAt, List.take_zero, List.drop_zero, List.nil_append, List.cons.injEq] at h
    simp only [List.map_cons, Addon.unionOp, List.cons.injEq] at ho
    have e := addons_eq as as' h.2 ho.2
    obtain ⟨x, ts, w⟩ := c
    rw [h.1, ho.1, e]
    refine ⟨cs!" " ++ upper op ++ cs!" ", cs!" FROM " ++ joinSep cs!", " (printTRs fmt ts) ++
      (if w.isEmpty then [] else cs!" WHERE " ++ w.print fmt) ++ printAddons fmt as, ?_, ?_⟩
    · simp [printAddons, Addon.print, SFW.print, SFW.select]
    · simp [printAddons, Addon.print, SFW.print, SFW.select, SFW.tables, SFW.where_]
      rfl
  | .mk op c :: as, .mk op' c' :: as', i + 1, s, h, ho, hs => by
    simp only [List.map_cons, changeAt_cons, List.cons.injEq, Addon.sfw] at h
    simp only [List.map_cons, Addon.unionOp, List.cons.injEq] at ho
    obtain ⟨pre, post, e, e'⟩ := addons_text fmt f as as' i s h.2 ho.2 (by simpa using hs)
    refine ⟨(Addon.mk op c).print fmt ++ pre, post, ?_, ?_⟩
    · simp [printAddons, e]
    · simp [printAddons, e', h.1, ho.1]

/-- **C46**, the text: only the text of the SELECT of that component changes. -/
theorem C46_print {q q' : QuerySpec} (fmt : Str → Str) (i : Nat) (f : Select → Select) (hw : Written i f q q') (s : SFW)
    (hs : (components q)[i]? = some s) :
    ∃ pre post, q.print fmt = pre ++ s.select.print fmt ++ post ∧ q'.print fmt = pre ++ (f s.select).print fmt ++ post := by
  obtain ⟨w, ⟨c, as⟩, g, hv, o⟩ := q
  obtain ⟨w', ⟨c', as'⟩, g', hv', o'⟩ := q'
  obtain ⟨h, hu, h1, h2, h3, h4⟩ := hw
  simp only [QuerySpec.with_, QuerySpec.groupBy, QuerySpec.having, QuerySpec.orderBy] at h1 h2 h3 h4
  subst h1 h2 h3 h4
  have key : ∃ pre post, (SFWList.mk c as).print fmt = pre ++ s.select.print fmt ++ post ∧
      (SFWList.mk c' as').print fmt = pre ++ (f s.select).print fmt ++ post := by
    cases i with
    | zero =>
      simp only [components, QuerySpec.sfws, SFWList.initial, SFWList.addons, List.getElem?_cons_zero, Option.some.injEq] at hs
      subst hs
      simp only [components, QuerySpec.sfws, SFWList.initial, SFWList.addons, changeAt, List.take_zero, List.drop_zero,
        List.nil_append, List.cons.injEq] at h
      have e := addons_eq as as' h.2 hu
      obtain ⟨x, ts, wh⟩ := c
      rw [h.1, e]
      refine ⟨[], cs!" FROM " ++ joinSep cs!", " (printTRs fmt ts) ++
        (if wh.isEmpty then [] else cs!" WHERE " ++ wh.print fmt) ++ printAddons fmt as, ?_, ?_⟩
      · simp [SFWList.print, SFW.print, SFW.select]
      · simp [SFWList.print, SFW.print, SFW.select, SFW.tables, SFW.where_]
        rfl
    | succ i =>
      simp only [components, QuerySpec.sfws, SFWList.initial, SFWList.addons, changeAt_cons, List.cons.injEq] at h
      obtain ⟨pre, post, e, e'⟩ := addons_text fmt f as as' i s h.2 hu
        (by simpa [components, QuerySpec.sfws, SFWList.addons] using hs)
      refine ⟨c.print fmt ++ pre, post, ?_, ?_⟩
      · simp [SFWList.print, e]
      · simp [SFWList.print, e', h.1]
  obtain ⟨pre, post, e, e'⟩ := key
  refine ⟨(if w'.isEmpty then [] else w'.print fmt ++ cs!" ") ++ pre, post ++
      (if g'.isEmpty then [] else cs!" GROUP BY " ++ joinSep cs!"," (printGroup fmt g')) ++
      (if hv'.isEmpty then [] else cs!" HAVING " ++ hv'.print fmt) ++
      (if o'.isEmpty then [] else cs!" ORDER BY " ++ joinSep cs!"," (o'.map SortSpec.print)), ?_, ?_⟩
  · simp only [QuerySpec.print, e, List.append_assoc]
  · simp only [QuerySpec.print, e', List.append_assoc]

theorem changeAt_map {α β : Type} (f : α → α) (g : β → β) (m : α → β) (h : ∀ a, m (f a) = g (m a)) :
    ∀ (i : Nat) (l : List α), (changeAt f i l).map m = changeAt g i (l.map m)
  | 0, [] => rfl
  | 0, a :: l => by simp [changeAt, h]
  | i + 1, [] => rfl
  | i + 1, a :: l => by simp [changeAt_cons, changeAt_map f g m h i l]

theorem changeAt_id {α : Type} : ∀ (i : Nat) (l : List α), changeAt id i l = l
  | 0, [] => rfl
  | 0, a :: l => rfl
  | i + 1, [] => rfl
  | i + 1, a :: l => by rw [changeAt_cons, changeAt_id i l]

/-- **C46**, a sequence of writes: it ends normally if and only if every index is valid, and then the SELECTs are the result
of the writes in order. -/
theorem C46_writes : ∀ (ws : List (Nat × (Select → Select))) {q : QuerySpec}, Usable q →
    ((∀ w ∈ ws, w.1 < (components q).length) → ∃ q', q.writes ws = .ok q' ∧ Usable q' ∧ unionOps q' = unionOps q ∧
      (components q').map SFW.select = ws.foldl (fun l w => changeAt w.2 w.1 l) ((components q).map SFW.select) ∧
      (components q').map SFW.tables = (components q).map SFW.tables ∧
      (components q').map SFW.where_ = (components q).map SFW.where_ ∧
      q'.with_ = q.with_ ∧ q'.groupBy = q.groupBy ∧ q'.having = q.having ∧ q'.orderBy = q.orderBy) ∧
    ((∃ w ∈ ws, (components q).length ≤ w.1) → q.writes ws = .error .sfwIndex)
  | [], q, h => ⟨fun _ => ⟨q, rfl, h, rfl, rfl, rfl, rfl, rfl, rfl, rfl, rfl⟩, fun ⟨_, hm, _⟩ => by cases hm⟩
  | (i, f) :: ws, q, h => by
    have hs := C46_select h i f
    by_cases hi : i < (components q).length
    · obtain ⟨q1, e1, hw, h1⟩ := hs.1 hi
      have hr := C46_writes ws h1
      have hlen : (components q1).length = (components q).length := by rw [hw.1, changeAt_length]
      have e : q.writes ((i, f) :: ws) = q1.writes ws := by simp only [QuerySpec.writes, e1]; rfl
      rw [e]
      refine ⟨fun ha => ?_, ?_⟩
      · obtain ⟨q', e', hq', hu, h2, h3, h4, h5, h6, h7, h8⟩ := hr.1 (fun w hwm => by rw [hlen]; exact ha w (by simp [hwm]))
        refine ⟨q', e', hq', hu.trans hw.2.1, ?_, ?_, ?_, h5.trans hw.2.2.1, h6.trans hw.2.2.2.1, h7.trans hw.2.2.2.2.1,
          h8.trans hw.2.2.2.2.2⟩
        · rw [h2, hw.1, List.foldl_cons, changeAt_map _ f SFW.select (fun _ => rfl)]
        · rw [h3, hw.1, changeAt_map (fun s => SFW.mk (f s.select) s.tables s.where_) id SFW.tables (fun _ => rfl)]
          exact changeAt_id _ _
        · rw [h4, hw.1, changeAt_map (fun s => SFW.mk (f s.select) s.tables s.where_) id SFW.where_ (fun _ => rfl)]
          exact changeAt_id _ _
      · rintro ⟨w, hwm, hle⟩
        rcases List.mem_cons.1 hwm with rfl | hwm
        · exact absurd hi (by simpa using hle)
        · exact hr.2 ⟨w, hwm, by rw [hlen]; exact hle⟩
    · have e := hs.2 (by omega)
      refine ⟨fun ha => absurd (ha (i, f) (by simp)) hi, fun _ => ?_⟩
      simp only [QuerySpec.writes, e]
      rfl

/-- a query with two components, for the examples -/
def twoTree : QuerySpec := .mk With.dflt (.mk (.mk (.mk [] topMax (.star cs!"*")) [.tc ⟨cs!"a", []⟩] Where.dflt)
  [.mk cs!"union" (.mk (.mk [] topMax (.star cs!"*")) [.tc ⟨cs!"b", []⟩] Where.dflt)]) [] SC.dflt []

/-- the second component gets a TOP clause -/
def twoTop : QuerySpec := .mk With.dflt (.mk (.mk (.mk [] topMax (.star cs!"*")) [.tc ⟨cs!"a", []⟩] Where.dflt)
  [.mk cs!"union" (.mk (.mk [] 5 (.star cs!"*")) [.tc ⟨cs!"b", []⟩] Where.dflt)]) [] SC.dflt []

example : construct ⟨fun _ => none, false⟩ cs!"SELECT * FROM a union SELECT * FROM b" = .ok twoTree := by kernel_rfl

example : Usable twoTree := ⟨rfl, by decide⟩

example : twoTree.updSelect 1 (fun s => .mk s.allOrDistinct 5 s.columns) = .ok twoTop ∧
    twoTop.print id = cs!"SELECT * FROM a UNION SELECT TOP 5 * FROM b" ∧
    twoTree.updSelect 2 (fun s => .mk s.allOrDistinct 5 s.columns) = .error .sfwIndex := ⟨rfl, rfl, rfl⟩

example : twoTree.writes [(1, fun s => .mk s.allOrDistinct 7 s.columns), (1, fun s => .mk s.allOrDistinct 5 s.columns)] = .ok twoTop ∧
    twoTree.writes [(2, id), (1, id)] = .error .sfwIndex := ⟨rfl, rfl⟩

/-- **C46**, a write to a whole component: the component is changed in place, the others and the operators stay. -/
theorem C46_component {q : QuerySpec} (h : Usable q) (i : Nat) (f : SFW → SFW) :
    (i < (components q).length → ∃ l, q.sfws.updSfw i f = .ok l ∧
      l.initial :: l.addons.map Addon.sfw = changeAt f i (components q) ∧ l.addons.map Addon.unionOp = unionOps q) ∧
    ((components q).length ≤ i → q.sfws.updSfw i f = .error .sfwIndex) := by
  have hv := usable_validate h i
  have hl := components_length q
  cases i with
  | zero =>
    refine ⟨fun _ => ⟨q.sfws.updInitial f, by simp [SFWList.updSfw], ?_⟩, fun h => by omega⟩
    obtain ⟨w, ⟨s, as⟩, g, hv, o⟩ := q
    exact ⟨rfl, rfl⟩
  | succ i =>
    constructor
    · intro hi
      rw [if_pos hi] at hv
      have hi' : i < q.sfws.addons.length := by omega
      have hat : vecAt q.sfws.addons i = .ok q.sfws.addons[i] := by
        simp [vecAt, List.getElem?_eq_getElem hi']
      refine ⟨_, by simp only [SFWList.updSfw, hv, Nat.succ_ne_zero, if_false, Nat.add_sub_cancel, hat]; rfl, ?_⟩
      have := updAddon_sfw f q.sfws.addons i
      exact ⟨congrArg (q.sfws.initial :: ·) this.1, this.2⟩
    · intro hi
      rw [if_neg (by omega)] at hv
      simp only [SFWList.updSfw, hv, Nat.succ_ne_zero, if_false]
      rfl

/-- **C46**, the hazard: a write to the first component that leaves it without tables makes all components unreachable
through `get_select`, whatever their number. -/
theorem C46_emptied {q : QuerySpec} (f : SFW → SFW) (hf : (f q.sfws.initial).tables = []) :
    (q.sfws.updInitial f).numSfws = 0 ∧ ∀ i, (q.sfws.updInitial f).getSelect i = .error .sfwIndex := by
  have hn : (q.sfws.updInitial f).numSfws = 0 := by
    obtain ⟨w, ⟨s, as⟩, g, hv, o⟩ := q
    simp only [QuerySpec.sfws, SFWList.initial] at hf
    have : (f s).isEmpty = true := by
      cases h : f s with
      | mk a b c => rw [h] at hf; simp only [SFW.tables] at hf; subst hf; rfl
    simp only [SFWList.updInitial, QuerySpec.sfws, SFWList.numSfws, SFWList.isEmpty, this, if_true]
  refine ⟨hn, fun i => ?_⟩
  simp only [SFWList.getSelect, SFWList.validate, hn, Nat.zero_le, if_true]
  rfl

example : (twoTree.sfws.updInitial fun s => .mk s.select [] s.where_).numSfws = 0 := (C46_emptied _ rfl).1

end Adql
