import Verif.Spec.Lookup
import Verif.Props.Value
import Verif.Props.Uses

/-!
# C66: every name can be the name of a table or a column
-/

namespace Adql

open Spec Fwd

variable {fmt : Str → Str} {nt : Bool} {M : Str → Prop}

/-- **C66.** The identifier of a name that is not empty is a delimited identifier, and its name is the one it was made of. -/
theorem C66_name {n : Str} (h : n ≠ []) : Delimited (delimited n) ∧ nameOf (delimited n) = n := by
  refine ⟨⟨doubled '"' n, rfl, ?_, doubled_body _ n⟩, contents_doubled _ n⟩
  cases n with
  | nil => exact absurd rfl h
  | cons c r => unfold doubled; split <;> nofun

theorem delimited_other (n : Str) : OtherName (delimited n) := by
  intro h
  have := congrArg List.head? h
  simp [delimited, lowerC] at this

theorem delimited_first (n : Str) : FirstName (delimited n) := by
  refine ⟨delimited_other n, ⟨fun w hw => ?_, fun w hw h => ?_⟩, fun h => ?_⟩
  · have : ∀ w ∈ greedyWords, ∀ x, prefixCI w ('"' :: x) = false := by
      intro w hw x
      simp only [greedyWords, List.mem_cons, List.not_mem_nil, or_false] at hw
      rcases hw with rfl | rfl | rfl <;> rfl
    exact this w hw _
  · have : ∀ w ∈ openWords, (w.map lowerC).head? ≠ some '"' := by decide +kernel
    refine this w hw ?_
    rw [← h]
    rfl
  · injection h with h _
    revert h
    decide

theorem columnOf_made {n : Str} (h : n ≠ []) : All (WellMade nt M) (.venb (columnOf n)) := by
  refine all_iff.2 ⟨⟨trivial, trivial, trivial⟩, ?_⟩
  rintro m (rfl | ⟨t, ht, rfl⟩)
  · refine all_iff.2 ⟨⟨by simp [Ranges], trivial, trivial⟩, ?_⟩
    rintro m rfl
    refine all_iff.2 ⟨⟨trivial, trivial, trivial⟩, ?_⟩
    rintro m rfl
    refine all_iff.2 ⟨⟨trivial, trivial, trivial⟩, ?_⟩
    rintro m (rfl | ⟨t, ht, rfl⟩)
    · refine all_iff.2 ⟨⟨trivial, trivial, trivial⟩, ?_⟩
      rintro m rfl
      exact all_iff.2 ⟨⟨.inr (C66_name h).1, trivial, delimited_first n⟩, fun _ (h : False) => h.elim⟩
    · cases ht
  · cases ht

theorem tableOf_name {s t : Str} (hs : s ≠ []) (ht : t ≠ []) : TableName M (tableOf s t) ∧ FromName (tableOf s t) := by
  have hd : ∀ n : Str, n ≠ [] → Part (delimited n) ∧ delimited n ≠ cs!"TAP_UPLOAD" := fun n h => ⟨.inr (C66_name h).1, (delimited_first n).2.2⟩
  exact ⟨.two (.inr (C66_name hs).1) (.inr (C66_name ht).1), .two (hd s hs) (hd t ht).1⟩

/-- **C66.** The query for these columns of this table is well-made, whatever the names are. -/
theorem C66_pick {s t : Str} (hs : s ≠ []) (ht : t ≠ []) {cols : List Str} (hc : cols ≠ []) (hn : ∀ c ∈ cols, c ≠ []) :
    All (WellMade nt M) (.query (pick s t cols)) := by
  refine wellMade_query.2 ⟨fun h => absurd rfl h, fun x hx => ?_, nofun, nofun, fun h => absurd rfl h, nofun⟩
  rcases List.mem_cons.1 hx with rfl | hx
  · refine all_iff.2 ⟨⟨nofun, trivial, trivial⟩, ?_⟩
    rintro m (rfl | ⟨y, hy, rfl⟩ | ⟨hw, rfl⟩)
    · refine all_iff.2 ⟨⟨⟨.inl rfl, Nat.le_refl _⟩, trivial, trivial⟩, ?_⟩
      rintro m rfl
      refine all_iff.2 ⟨⟨by simpa [Ranges] using hc, trivial, trivial⟩, ?_⟩
      rintro m ⟨i, hi, rfl⟩
      obtain ⟨c, hc, rfl⟩ := List.mem_map.1 hi
      refine all_iff.2 ⟨⟨trivial, trivial, trivial⟩, ?_⟩
      rintro m rfl
      refine all_iff.2 ⟨⟨trivial, trivial, trivial⟩, ?_⟩
      rintro m rfl
      exact columnOf_made (hn c hc)
    · rw [List.mem_singleton.1 hy]
      refine all_iff.2 ⟨⟨trivial, trivial, trivial⟩, ?_⟩
      rintro m rfl
      exact all_iff.2 ⟨⟨⟨(tableOf_name hs ht).1, .inl rfl⟩, trivial, (tableOf_name (M := M) hs ht).2, nofun⟩, fun _ (h : False) => h.elim⟩
    · exact absurd rfl hw
  · cases hx

/-- the text of the query -/
theorem pick_text (s t : Str) {cols : List Str} {k v : Str} : (lookup s t cols k v).print fmt =
    cs!"SELECT " ++ joinSep cs!", " (cols.map delimited) ++ cs!" FROM " ++ tableOf s t ++ cs!" WHERE (" ++ delimited k ++ cs!" = " ++ quoted v ++ cs!")" := by
  have hi : ∀ l : List Str, printItems fmt (l.map entryOf) = l.map delimited := by
    intro l
    induction l with
    | nil => simp [printItems]
    | cons c l ih =>
      simp [printItems, ih, entryOf, columnOf, Item.print, VE.print, VENB.print, Factor.print, NumPrim.print, VEP.print, Prim.print, ColRef.print,
        printTerms, printIdx]
  have h4 : joinSep cs!", " (printTRs fmt [.tc ⟨tableOf s t, []⟩]) = tableOf s t := by
    simp [printTRs, TR.print, TableCorr.print, joinSep]
  have h5 : With.dflt.isEmpty = true ∧ SC.dflt.isEmpty = true ∧ Geom.dflt.isEmpty = true := ⟨rfl, rfl, rfl⟩
  have h6 : ∀ c, printSelect [] (2 ^ 64 - 1) c = cs!"SELECT " ++ c := fun c => by simp [printSelect, topMax]
  have h7 : (compared (columnOf k) cs!"=" v).print fmt = delimited k ++ cs!" = " ++ quoted v := by
    simp [compared, columnOf, litVE, SC.print, BF.print, BP.print, Pred.print, VE.print, VENB.print, Factor.print, NumPrim.print, VEP.print, Prim.print,
      ColRef.print, printTerms, printIdx, SC.isEmpty, BF.isEmpty, BP.isEmpty, Pred.isEmpty]
  have h8 : (compared (columnOf k) cs!"=" v).isEmpty = false := rfl
  simp [lookup, pick, everySelect, restrict, both, QuerySpec.print, SFWList.print, SFW.print, Select.print, Columns.print, printAddons, Where.dflt, Where.print,
    Where.isEmpty, SC.print, BF.print, BP.print, SC.isEmpty, BF.isEmpty, BP.isEmpty, hi, h4, h5, h6, h7, h8]

/-- **C66.** Rows of any table can be looked up by any value of any column: the text is read as the query that was meant, it asks for the rows for
which the comparison holds, and uses this table and these columns and nothing else. -/
theorem C66_lookup (hfmt : FmtNum fmt) (hf : FmtOnce fmt) (cfg : Config) {s t k : Str} (hs : s ≠ []) (ht : t ≠ []) (hk : k ≠ []) {cols : List Str}
    (hc : cols ≠ []) (hn : ∀ c ∈ cols, c ≠ []) (v : Str) :
    ∃ p, parseIt cfg (cs!"SELECT " ++ joinSep cs!", " (cols.map delimited) ++ cs!" FROM " ++ tableOf s t ++ cs!" WHERE (" ++ delimited k ++ cs!" = " ++
        quoted v ++ cs!")") = .ok p ∧ SameQuery fmt (lookup s t cols k v) p ∧
      (∀ γ ρ, SpellingFree fmt γ ρ → ((components p).map fun s => whereHolds γ ρ s.where_) = [holds ρ (compared (columnOf k) cs!"=" v)]) ∧
      ∀ u, u ∈ p.uses fmt ↔ u = .table (tableOf s t) ∨ ∃ c ∈ k :: cols, u = .column (delimited c) := by
  obtain ⟨p, h1, h2, h3, -⟩ := C65_restricted (M := fun _ => False) hfmt cfg (C66_pick hs ht hc hn) (columnOf_made hk) (fun _ => rfl) (op := cs!"=") (by simp) v
  refine ⟨p, ?_, h2, fun γ ρ h => ?_, fun u => ?_⟩
  · rw [← pick_text (fmt := fmt)]
    exact h1
  · rw [h3 γ ρ h]
    have e : ∀ x : Truth, (Truth.and (Truth.and .yes .yes) x) = x := by intro x; cases x <;> rfl
    show [(Truth.and (Truth.and .yes .yes) _)] = _
    rw [e]
  · rw [C57_same hf h2, C57_restricted]
    · have hi : ∀ l : List Str, usesItems fmt (l.map entryOf) = l.map fun c => .column (delimited c) := by
        intro l
        induction l with
        | nil => simp [usesItems]
        | cons c l ih =>
          simp [usesItems, ih, entryOf, columnOf, Item.uses, VE.uses, VENB.uses, Factor.uses, NumPrim.uses, VEP.uses, Prim.uses, ColRef.uses, ColRef.print,
            usesTerms, usesVEs]
      have ht : (TableCorr.mk (tableOf s t) []).uses = [.table (tableOf s t)] := rfl
      have hd : (TableCorr.mk [] []).uses = [] := rfl
      simp [pick, QuerySpec.uses, With.dflt, With.uses, Subquery.dflt, Subquery.uses, JT.uses, QJ.uses, QJHead.uses, usesSuffixes,
        SFWList.uses, SFW.uses, Select.uses, Columns.uses, usesTRs, TR.uses, usesAddons, usesGroup, Where.dflt, Where.uses, Geom.dflt, Geom.uses,
        GPred.uses, SC.dflt, SC.uses, BF.uses, BP.uses, Pred.uses, VE.dflt, VENB.dflt, VE.uses, VENB.uses, usesTerms, Factor.uses, NumPrim.uses,
        VEP.dflt, VEP.uses, Prim.uses, usesVEs, ShapeOrCol.uses, Shape.uses, Point.uses, Coord.uses, CoordExpr.uses, hi, compared, columnOf, litVE, ColRef.uses,
        ColRef.print, ht, hd]
      constructor
      · rintro ((⟨a, h, rfl⟩ | h) | h)
        · exact .inr (.inr ⟨a, h, rfl⟩)
        · exact .inl h
        · exact .inr (.inl h)
      · rintro (h | h | ⟨a, h, rfl⟩)
        · exact .inl (.inr h)
        · exact .inr h
        · exact .inl (.inl ⟨a, h, rfl⟩)
    · intro x hx
      rw [List.mem_singleton.1 hx]
      exact fun _ => rfl

/-! ### The constructor -/

theorem contains_delimited {w a n b : Str} (hw : '"' ∉ w.map lowerC) (h : Contains w (a ++ (delimited n ++ b))) :
    Contains w a ∨ Contains w n ∨ Contains w b := by
  rw [delimited, List.cons_append, List.append_assoc, List.singleton_append] at h
  rcases contains_quote (by decide) hw h with h | h
  · exact .inl h
  · rcases contains_quote (by decide) hw h with h | h
    · exact .inr (.inl (contains_doubled (by decide) hw _ (Nat.le_refl _) h))
    · exact .inr (.inr h)

theorem contains_list {w b : Str} (hw : '"' ∉ w.map lowerC) : ∀ (cols : List Str) {a : Str}, cols ≠ [] →
    Contains w (a ++ (joinSep cs!", " (cols.map delimited) ++ b)) → Contains w a ∨ Contains w cs!", " ∨ Contains w b ∨ ∃ c ∈ cols, Contains w c
  | [], _, h, _ => absurd rfl h
  | [c], a, _, h => by
    rcases contains_delimited hw h with h | h | h
    · exact .inl h
    · exact .inr (.inr (.inr ⟨c, by simp, h⟩))
    · exact .inr (.inr (.inl h))
  | c :: d :: l, a, _, h => by
    simp only [List.map_cons, joinSep, List.append_assoc] at h
    rcases contains_delimited hw h with h | h | h
    · exact .inl h
    · exact .inr (.inr (.inr ⟨c, by simp, h⟩))
    · rcases contains_list hw (d :: l) nofun h with h | h | h | ⟨c, hc, h⟩
      · exact .inr (.inl h)
      · exact .inr (.inl h)
      · exact .inr (.inr (.inl h))
      · exact .inr (.inr (.inr ⟨c, by simp [List.mem_cons.1 hc], h⟩))

/-- **C66.** The constructor does the same, if no name and no value contains one of the words CONTAINS and INTERSECTS. -/
theorem C66_constructor (cfg : Config) {s t k v : Str} {cols : List Str} (hc : cols ≠ [])
    (h : ∀ x ∈ s :: t :: k :: v :: cols, ¬ Contains cs!"CONTAINS" x ∧ ¬ Contains cs!"INTERSECTS" x) :
    construct cfg ((lookup s t cols k v).print fmt) = parseIt cfg ((lookup s t cols k v).print fmt) := by
  have key : ∀ w : Str, '"' ∉ w.map lowerC → '\'' ∉ w.map lowerC → (∀ x ∈ [cs!"SELECT ", cs!", ", cs!" FROM ", cs!".", cs!" WHERE (", cs!" = ", cs!")"], ¬ Contains w x) →
      (∀ x ∈ s :: t :: k :: v :: cols, ¬ Contains w x) → ¬ Contains w ((lookup s t cols k v).print fmt) := by
    intro w hw hq hf hx hh
    have e : (lookup s t cols k v).print fmt = cs!"SELECT " ++ (joinSep cs!", " (cols.map delimited) ++ (cs!" FROM " ++ (delimited s ++ (cs!"." ++
        (delimited t ++ (cs!" WHERE (" ++ (delimited k ++ (cs!" = " ++ quoted v ++ cs!")")))))))) := by rw [pick_text]; simp [tableOf]
    rw [e] at hh
    rcases contains_list hw cols hc hh with h | h | h | ⟨c, hc, h⟩
    · exact hf _ (by simp) h
    · exact hf _ (by simp) h
    · rcases contains_delimited hw h with h | h | h
      · exact hf _ (by simp) h
      · exact hx _ (by simp) h
      · rcases contains_delimited hw h with h | h | h
        · exact hf _ (by simp) h
        · exact hx _ (by simp) h
        · rcases contains_delimited hw h with h | h | h
          · exact hf _ (by simp) h
          · exact hx _ (by simp) h
          · rcases contains_literal hq h with h | h | h
            · exact hf _ (by simp) h
            · exact hx _ (by simp) h
            · exact hf _ (by simp) h
    · exact hx c (by simp [hc]) h
  have h1 := key cs!"CONTAINS" (by decide +kernel) (by decide +kernel) (fun x hx => no_word (by revert x; decide +kernel)) fun s hs => (h s hs).1
  have h2 := key cs!"INTERSECTS" (by decide +kernel) (by decide +kernel) (fun x hx => no_word (by revert x; decide +kernel)) fun s hs => (h s hs).2
  unfold construct
  rw [C27_no_geometry_word _ fun u k z e => ⟨fun hk => h1 ⟨u, k, z, e, hk⟩, fun hk => h2 ⟨u, k, z, e, hk⟩⟩]

/-! ### Examples -/

private def c0 : Config := ⟨fun _ => none, false⟩

example : (lookup cs!"my schema" cs!"SELECT" [cs!"a", cs!"say \"x\"", cs!"; DROP"] cs!"--" cs!"it's").print id =
    cs!"SELECT \"a\", \"say \"\"x\"\"\", \"; DROP\" FROM \"my schema\".\"SELECT\" WHERE (\"--\" = 'it''s')" := by kernel_rfl

example (hfmt : FmtNum fmt) (hf : FmtOnce fmt) :
    ∃ p, construct c0 ((lookup cs!"my schema" cs!"SELECT" [cs!"a", cs!"say \"x\"", cs!"; DROP"] cs!"--" cs!"it's").print fmt) = .ok p ∧
      .table cs!"\"my schema\".\"SELECT\"" ∈ p.uses fmt := by
  obtain ⟨p, h1, -, -, h2⟩ := C66_lookup hfmt hf c0 (s := cs!"my schema") (t := cs!"SELECT") (k := cs!"--") (cols := [cs!"a", cs!"say \"x\"", cs!"; DROP"])
    nofun nofun nofun nofun (by decide) cs!"it's"
  refine ⟨p, ?_, (h2 _).2 (.inl rfl)⟩
  refine (C66_constructor c0 (List.cons_ne_nil _ _) ?_).trans ?_
  · intro x hx
    exact ⟨no_word (by revert x; decide +kernel), no_word (by revert x; decide +kernel)⟩
  · rw [pick_text]
    exact h1

/-- **C66**, limit: the constructor also rewrites inside of names. -/
theorem C66_violated : constructPrint c0 id ((lookup cs!"s" cs!"t" [cs!"a"] cs!"x AND CONTAINS(POINT(1,2),d)=1 AND y" cs!"v").print id) =
    .ok cs!"SELECT \"a\" FROM \"s\".\"t\" WHERE CONTAINS(POINT('ICRS GEOCENTER',1,2),d)=1 AND (\"x AND y\" = 'v')" := by kernel_rfl

end Adql
