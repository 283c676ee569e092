import Verif.Model.ExchangeMade
import Verif.Model.ExchangeUses
import Verif.Props.Uses

/-!
# C58: a query can be given other tables
-/

namespace Adql

open Spec Fwd

variable {fmt : Str → Str} {nt : Bool} {M : Str → Prop} {x : Exchange}

/-! ### The tree and its text -/

/-- **C58.** A well-made tree with exchanged names is formatted to a text that is read as this tree. -/
theorem C58_tree (hfmt : FmtNum fmt) (cfg : Config) {q : QuerySpec} (hx : Keeps (!cfg.residue) M (.query q) x)
    (h : All (WellMade (!cfg.residue) M) (.query q)) :
    ∃ p, parseIt cfg ((q.exch x).print fmt) = .ok p ∧ SameQuery fmt (q.exch x) p := by
  obtain ⟨p, h1, h2, -⟩ := C56_tree hfmt cfg (M := M) (q := q.exch x) (wellMade_exch hx h)
  exact ⟨p, h1, h2⟩

/-- **C58.** Nothing is changed at nothing. -/
theorem C58_id (q : QuerySpec) : q.exch {} = q := q.exch_id

/-- **C58.** Two exchanges are one. -/
theorem C58_comp {y : Exchange} (hy : ∀ t : TableCorr, t.name ≠ [] → (y.tab t).name ≠ []) (q : QuerySpec) :
    (q.exch y).exch x = q.exch (x.comp y) := q.exch_comp hy

/-- **C58.** The parts of the changed tree are the changed parts of the tree: only tables, columns and items `t.*` are exchanged. -/
theorem C58_parts {q : QuerySpec} {m : Node} (h : Sub m (.query (q.exch x))) : ∃ n, Sub n (.query q) ∧ m = n.exch x :=
  exch_sub (n := .query q) h

/-! ### The names of the changed tree -/

section
variable {f : Str → Str} (hn : ∀ n, n ≠ [] → f n ≠ []) (ht : ∀ t : TableCorr, (x.tab t).name = f t.name)
include hn ht

theorem exch_table (t : TableCorr) : (t.exch x).uses = t.uses.map (Used.withTables f) := by
  unfold TableCorr.exch
  cases e : t.name with
  | nil => simp [TableCorr.uses, e]
  | cons c l =>
    have : f (c :: l) ≠ [] := hn _ (by simp)
    have e' : (x.tab t).name = f (c :: l) := by rw [ht, e]
    simp only [List.isEmpty_cons, Bool.false_eq_true, if_false, TableCorr.uses, e', e]
    cases e2 : f (c :: l) with
    | nil => exact absurd e2 this
    | cons => simp [Used.withTables, e2]

/-- **C58.** The changed query uses the tables that `f` gives, in the same places, whatever happens to the columns. -/
theorem C58_tables (q : QuerySpec) : tablesOf fmt (q.exch x) = (tablesOf fmt q).map f := by
  refine QuerySpec.exch_uses (x := x) (pick := Used.table?) (F := f) ⟨fun t => ?_, fun c => ?_, fun s => rfl, fun s => rfl, fun s => rfl⟩ q
  · rw [exch_table hn ht]
    unfold TableCorr.uses
    split <;> rfl
  · cases c <;> rfl

/-- **C58.** With unchanged columns, nothing else is different. -/
theorem C58_names (hc : ∀ c, x.col c = c) (hs : ∀ s, x.star s = s) (q : QuerySpec) : (q.exch x).uses fmt = (q.uses fmt).map (Used.withTables f) := by
  have h := QuerySpec.exch_uses (x := x) (pick := some) (F := Used.withTables f) (fmt := fmt)
    ⟨fun t => by rw [exch_table hn ht, List.filterMap_some, List.filterMap_some], fun c => by rw [hc]; rfl, fun s => by rw [hs]; rfl,
      fun s => rfl, fun s => rfl⟩ q
  simpa only [Taken, List.filterMap_some] using h

end

/-- **C58.** The functions are those of the query. -/
theorem C58_functions (q : QuerySpec) : functionsOf fmt (q.exch x) = functionsOf fmt q := by
  have h := QuerySpec.exch_uses (x := x) (pick := Used.function?) (F := id) (fmt := fmt)
    ⟨fun t => ?_, fun c => ?_, fun s => rfl, fun s => rfl, fun s => rfl⟩ q
  · rw [List.map_id] at h; exact h
  · rw [List.map_id]
    have : ∀ t : TableCorr, t.uses.filterMap Used.function? = [] := fun t => by
      unfold TableCorr.uses
      split <;> rfl
    rw [this, this]
  · cases c <;> rfl

/-- **C58.** The lists are the tables and the functions among the names. -/
theorem C58_listed (q : QuerySpec) (y : Str) : (y ∈ tablesOf fmt q ↔ .table y ∈ q.uses fmt) ∧ (y ∈ functionsOf fmt q ↔ .function y ∈ q.uses fmt) := by
  constructor
  · simp only [tablesOf, List.mem_filterMap]
    constructor
    · rintro ⟨u, h, e⟩
      cases u <;> simp only [Used.table?, reduceCtorEq, Option.some.injEq] at e
      exact e ▸ h
    · exact fun h => ⟨_, h, rfl⟩
  · simp only [functionsOf, List.mem_filterMap]
    constructor
    · rintro ⟨u, h, e⟩
      cases u <;> simp only [Used.function?, reduceCtorEq, Option.some.injEq] at e
      exact e ▸ h
    · exact fun h => ⟨_, h, rfl⟩

/-! ### Other tables -/

theorem fromName_table {y : Str} (h : FromName y) : TableName M y := by
  have key : ∀ {a}, Part a → Name a := fun h => h.imp (fun h => ⟨h.1, fun hr => .inl (h.2 hr)⟩) id
  cases h with
  | one h => exact .one (key h.1)
  | two h h' => exact .two (key h.1) (key h')
  | three h h' h'' => exact .three (key h.1) (key h') (key h'')

/-- **C58.** Other tables can be given to a well-made tree if they have names that can be in a text, and if the correlation names that
are added to tables without one are names. -/
theorem C58_keeps {n : Node} (h : All (WellMade nt M) n) {f a : Str → Str}
    (hf : ∀ t : TableCorr, Sub (.tcorr t) n → FromName (f t.name) ∧ prefixCI cs!"WITH" (f t.name) = false ∧ prefixCI cs!"SELECT" (f t.name) = false)
    (ha : ∀ t : TableCorr, Sub (.tcorr t) n → t.as = [] → a t.name = [] ∨ Name (a t.name) ∧ OtherName (a t.name)) :
    Keeps nt M n (newTables f a) := by
  refine ⟨fun t ht => ?_, fun c hc => ⟨h _ hc, fun _ _ e => e⟩, fun s hs => h _ hs⟩
  obtain ⟨n', as⟩ := t
  obtain ⟨h1, h2, h3⟩ := hf _ ht
  have hw := h _ ht
  refine ⟨?_, ?_⟩
  · show WellMade nt M (.tcorr ⟨f n', if as.isEmpty then a n' else as⟩)
    cases as with
    | nil =>
      have key := ha _ ht rfl
      have ho : OtherName (a n') := by
        rcases key with e | e
        · show OtherName (a n')
          have e : a n' = [] := e
          rw [e]; unfold OtherName SameCI; decide
        · exact e.2
      exact ⟨⟨fromName_table h1, key.imp id (·.1)⟩, trivial, h1, ho⟩
    | cons c l => exact ⟨⟨fromName_table h1, hw.1.2⟩, trivial, h1, hw.2.2.2⟩
  · intro w hw' _
    rcases List.mem_cons.1 hw' with rfl | hw'
    · exact h2
    · obtain rfl := List.mem_singleton.1 hw'
      exact h3

/-- **C58.** A text that was accepted, with tables from an allowed set in the place of its tables, is formatted to a text in which whoever reads it
finds tables of the allowed set only, and the columns and functions of the query. -/
theorem C58_confined (hfmt : FmtNum fmt) (hfo : FmtOnce fmt) (cfg : Config) (hm : MapsWell cfg.mapping) {s : Str} {q : QuerySpec}
    (h : construct cfg s = .ok q) (hu : All (Usual (!cfg.residue)) (.query q)) (A : Str → Prop) {f a : Str → Str}
    (hA : ∀ n, A (f n)) (hf : ∀ y, A y → FromName y ∧ prefixCI cs!"WITH" y = false ∧ prefixCI cs!"SELECT" y = false)
    (ha : ∀ n, a n = [] ∨ Name (a n) ∧ OtherName (a n)) :
    ∃ p, parseIt cfg ((q.exch (newTables f a)).print fmt) = .ok p ∧ p.uses fmt = (q.uses fmt).map (Used.withTables f) ∧
      ∀ y, .table y ∈ p.uses fmt → A y := by
  have hw := C56_parsed cfg hm h (by simp) hu
  obtain ⟨p, h1, h2⟩ := C58_tree hfmt cfg (C58_keeps hw (fun t _ => hf _ (hA _)) fun t _ _ => ha _) hw
  have hn : ∀ n, n ≠ [] → f n ≠ [] := fun n _ e => by
    have := fromName_ne (hf _ (hA n)).1
    rw [e] at this
    cases this
  have e : p.uses fmt = (q.uses fmt).map (Used.withTables f) := by
    rw [C57_same hfo h2, C58_names hn (fun _ => rfl) (fun _ => rfl) (fun _ => rfl)]
  refine ⟨p, h1, e, fun y hy => ?_⟩
  rw [e] at hy
  obtain ⟨u, -, hu⟩ := List.mem_map.1 hy
  cases u <;> simp only [Used.withTables, Used.table.injEq, reduceCtorEq] at hu
  exact hu ▸ hA _

/-! ### Examples -/

private def c0 : Config := ⟨fun _ => none, false⟩

/-- one table is allowed, all others become an empty one -/
private def allowed (n : Str) : Str := if n = cs!"t" then cs!"pub.t2" else cs!"pub.none"

/-- Tables at several depths; the columns still have their tables. -/
example : ((construct c0 cs!"WITH w AS (SELECT x FROM s) SELECT t.a FROM t JOIN c.u AS v ON t.a = v.b WHERE EXISTS (SELECT * FROM secret)").toOption.map
    fun q => (q.exch (newTables allowed id)).print id) =
    some cs!"WITH w AS (SELECT x FROM pub.none s) SELECT t.a FROM pub.t2 t  JOIN pub.none v ON t.a = v.b  WHERE EXISTS (SELECT * FROM pub.none secret)" := by
  kernel_rfl

/-- **C58**, limits: without the correlation names the columns would be those of no table. -/
example : ((construct c0 cs!"SELECT t.a FROM t").toOption.map fun q => (q.exch (newTables allowed fun _ => [])).print id) =
    some cs!"SELECT t.a FROM pub.t2" := by kernel_rfl

/-- They can be changed too. -/
example : ((construct c0 cs!"SELECT t.a, t.* FROM t WHERE t.a IN (SELECT b FROM u)").toOption.map fun q =>
    (q.exch { newTables allowed (fun _ => []) with
      col := fun c => match c with
        | .qc t c => .sqc cs!"pub" (if t = cs!"t" then cs!"t2" else cs!"none") c
        | c => c
      star := fun s => if s = cs!"t.*" then cs!"pub.t2.*" else s }).print id) =
    some cs!"SELECT pub.t2.a, pub.t2.* FROM pub.t2 WHERE pub.t2.a IN (SELECT b FROM pub.none)" := by kernel_rfl

private theorem word_part {c : Char} {t : Str} (h : Letter c) (h' : ∀ d ∈ t, IdChar d) (hr : ¬ Reserved (c :: t)) : Part (c :: t) :=
  .inl ⟨⟨c, t, rfl, h, h'⟩, fun e => absurd e hr⟩

private theorem allowed_name (n : Str) : FromName (allowed n) ∧ prefixCI cs!"WITH" (allowed n) = false ∧ prefixCI cs!"SELECT" (allowed n) = false := by
  have h0 : Part cs!"pub" := word_part (by unfold Letter; decide) (by unfold IdChar Letter Digit; decide) (by unfold Reserved SameCI; decide +kernel)
  have h1 : Part cs!"t2" := word_part (by unfold Letter; decide) (by unfold IdChar Letter Digit; decide) (by unfold Reserved SameCI; decide +kernel)
  have h2 : Part cs!"none" := word_part (by unfold Letter; decide) (by unfold IdChar Letter Digit; decide) (by unfold Reserved SameCI; decide +kernel)
  unfold allowed
  split
  · exact ⟨NameParts.two (x := cs!"pub") ⟨h0, by simp⟩ h1, by decide, by decide⟩
  · exact ⟨NameParts.two (x := cs!"pub") ⟨h0, by simp⟩ h2, by decide, by decide⟩

example (hfmt : FmtNum fmt) (hf : FmtOnce fmt) : ∃ p, parseIt c0 ((tightTree.exch (newTables allowed fun _ => [])).print fmt) = .ok p ∧
    p.uses fmt = (tightTree.uses fmt).map (Used.withTables allowed) ∧ ∀ y, .table y ∈ p.uses fmt → y = cs!"pub.t2" ∨ y = cs!"pub.none" := by
  refine C58_confined hfmt hf c0 nofun (s := cs!"SELECT 'a'-b- -a AS b FROM t WHERE a<3AND not b IS NULL") (by kernel_rfl)
    (fun m hm => regular_usual (nt := true) (tightTree_regular m hm)) (fun y => y = cs!"pub.t2" ∨ y = cs!"pub.none") ?_ ?_ fun _ => .inl rfl
  · intro n
    unfold allowed
    split
    · exact .inl rfl
    · exact .inr rfl
  · rintro y (rfl | rfl)
    · exact allowed_name cs!"t"
    · exact allowed_name cs!"u"

end Adql
