import Verif.Props.Deep
import Verif.Props.Uses

/-!
# C61: the formatted text of a query is a canonical form
-/

namespace Adql

open Spec Fwd

variable {fmt : Str → Str} {nt : Bool} {M M' : Str → Prop}

/-- **C61.** Two well-made queries have the same formatted text only if they are the same up to the spelling of words that are the same
words in every spelling. -/
theorem C61_different (hfmt : FmtNum fmt) {q p : QuerySpec} (hq : All (WellMade nt M) (.query q)) (hp : All (WellMade nt M') (.query p))
    (h : q.print fmt = p.print fmt) : SameQuery fmt q p := by
  have e : (!(Config.mk (fun _ => none) (!nt)).residue) = nt := by cases nt <;> rfl
  obtain ⟨q', h1, h2, -⟩ := C56_tree hfmt ⟨fun _ => none, !nt⟩ (M := M) (e.symm ▸ hq)
  obtain ⟨p', h3, h4, -⟩ := C56_tree hfmt ⟨fun _ => none, !nt⟩ (M := M') (e.symm ▸ hp)
  rw [h, h3] at h1
  injection h1 with h1
  subst h1
  exact h4.symm.trans h2

/-- **C61.** And only then: the formatted text is the same for queries that are the same. -/
theorem C61_canonical (hfmt : FmtNum fmt) (hf : FmtOnce fmt) {q p : QuerySpec} (hq : All (WellMade nt M) (.query q))
    (hp : All (WellMade nt M') (.query p)) : q.print fmt = p.print fmt ↔ SameQuery fmt q p :=
  ⟨C61_different hfmt hq hp, fun h => (C52_text hf h).symm⟩

/-- **C61** for texts, read with the same names of uploaded tables or with others: their queries are the same if and only if they are
formatted to the same text. -/
theorem C61_texts (hfmt : FmtNum fmt) (hf : FmtOnce fmt) (a b : Config) (ha : MapsWell a.mapping) (hb : MapsWell b.mapping) {s t : Str}
    {q p : QuerySpec} (hs : construct a s = .ok q) (ht : construct b t = .ok p)
    (hq : All (Usual (!a.residue && !b.residue)) (.query q)) (hp : All (Usual (!a.residue && !b.residue)) (.query p)) :
    q.print fmt = p.print fmt ↔ SameQuery fmt q p := by
  refine C61_canonical hfmt hf (C56_parsed a ha hs (fun h => ?_) hq) (C56_parsed b hb ht (fun h => ?_) hp)
  · simp only [Bool.and_eq_true, Bool.not_eq_true'] at h; exact h.1
  · simp only [Bool.and_eq_true, Bool.not_eq_true'] at h; exact h.2

/-- **C61.** What is formatted to the same text names the same tables, columns and functions and, SELECT by SELECT, asks for the same rows
under the same TOP and quantifier. -/
theorem C61_same (hfmt : FmtNum fmt) (hf : FmtOnce fmt) {q p : QuerySpec} (hq : All (WellMade nt M) (.query q))
    (hp : All (WellMade nt M') (.query p)) (h : q.print fmt = p.print fmt) :
    p.uses fmt = q.uses fmt ∧ (components p).length = (components q).length ∧
      ((components p).map fun s => s.select.top) = ((components q).map fun s => s.select.top) ∧
      ((components p).map fun s => s.select.allOrDistinct) = ((components q).map fun s => s.select.allOrDistinct) ∧
      ∀ γ ρ, SpellingFree fmt γ ρ →
        ((components p).map fun s => whereHolds γ ρ s.where_) = (components q).map fun s => whereHolds γ ρ s.where_ := by
  have hs := C61_different hfmt hq hp h
  have hc : (components p).map (SFW.norm fmt) = (components q).map (SFW.norm fmt) := by
    rw [← components_norm, ← components_norm, show p.norm fmt = q.norm fmt from hs]
  have key : ∀ {α : Type} (g : SFW → α), (∀ s, g (s.norm fmt) = g s) → (components p).map g = (components q).map g := by
    intro α g hg
    have := congrArg (List.map g) hc
    simpa only [List.map_map, Function.comp_def, hg] using this
  refine ⟨C57_same hf hs, by simpa using congrArg List.length hc, key _ ?_, key _ ?_, fun γ ρ hr => C56_same_rows hr hs⟩ <;>
  · rintro ⟨⟨_, _, _⟩, _, _⟩; rfl

/-- **C61**, at every depth: the SELECTs of subqueries correspond to each other as well, in the same order, and read the same tables. -/
theorem C61_everywhere (hfmt : FmtNum fmt) {q p : QuerySpec} (hq : All (WellMade nt M) (.query q)) (hp : All (WellMade nt M') (.query p))
    (h : q.print fmt = p.print fmt) :
    p.selects.length = q.selects.length ∧
      (p.selects.map fun s => (s.select.top, s.select.allOrDistinct)) = (q.selects.map fun s => (s.select.top, s.select.allOrDistinct)) ∧
      (p.selects.map fun s => fromNames s.tables) = (q.selects.map fun s => fromNames s.tables) ∧
      ∀ γ ρ, SpellingFree fmt γ ρ → (p.selects.map fun s => whereHolds γ ρ s.where_) = q.selects.map fun s => whereHolds γ ρ s.where_ := by
  have hc : p.selects.map (SFW.norm fmt) = q.selects.map (SFW.norm fmt) := by
    rw [← QuerySpec.norm_selects, ← QuerySpec.norm_selects, show p.norm fmt = q.norm fmt from C61_different hfmt hq hp h]
  have key : ∀ {α : Type} (g : SFW → α), (∀ s, g (s.norm fmt) = g s) → p.selects.map g = q.selects.map g := by
    intro α g hg
    have := congrArg (List.map g) hc
    simpa only [List.map_map, Function.comp_def, hg] using this
  refine ⟨by simpa using congrArg List.length hc, key _ ?_, key _ ?_, fun γ ρ hr => key _ ?_⟩
  · rintro ⟨⟨_, _, _⟩, _, _⟩; rfl
  · rintro ⟨⟨_, _, _⟩, ts, _⟩
    simp only [SFW.norm, SFW.tables, fromNames, readsTRs_norm]
  · rintro ⟨_, _, w⟩
    exact whereHolds_norm hr w

/-! ### Parts of queries -/

private def c0 : Config := ⟨fun _ => none, false⟩

/-- a query with a condition and columns -/
private def ask (c : SC) (v : Columns) : QuerySpec :=
  .mk With.dflt (.mk (.mk (.mk [] topMax v) [.tc ⟨cs!"t", []⟩] (.mk Geom.dflt c)) []) [] SC.dflt []

private theorem table_made : All (WellMade nt M) (.tr (.tc ⟨cs!"t", []⟩)) := by
  have hp : construct c0 cs!"SELECT 'a'-b- -a AS b FROM t WHERE a<3AND not b IS NULL" = .ok tightTree := by kernel_rfl
  have hs : Sub (.tcorr ⟨cs!"t", []⟩) (.query tightTree) := .step (.inr (.inl rfl)) (.step (.inl rfl) (.step (.inr (.inl ⟨_, List.mem_cons_self,
    rfl⟩)) (.step rfl (.refl _))))
  have hn : ∀ x, TableName c0.Mapped x → TableName M x := by
    intro x h
    induction h with
    | mapped h => obtain ⟨_, h⟩ := h; cases h
    | one h => exact .one h
    | two h1 h2 => exact .two h1 h2
    | three h1 h2 h3 => exact .three h1 h2 h3
  refine all_iff.2 ⟨⟨trivial, trivial, trivial⟩, ?_⟩
  rintro m rfl
  exact all_iff.2 ⟨⟨⟨hn _ (construct_inv hp _ hs).1.1, .inl rfl⟩, trivial, (tightTree_regular _ hs : _)⟩, fun _ (h : False) => h.elim⟩

private theorem ask_made {c : SC} {v : Columns} (hc : c ≠ SC.dflt → All (WellMade nt M) (.sc c)) (hv : All (WellMade nt M) (.columns v)) :
    All (WellMade nt M) (.query (ask c v)) := by
  refine wellMade_query.2 ⟨fun h => absurd rfl h, fun s hs => ?_, nofun, nofun, fun h => absurd rfl h, nofun⟩
  rcases List.mem_cons.1 hs with rfl | hs
  · refine all_iff.2 ⟨⟨nofun, trivial, trivial⟩, ?_⟩
    rintro m (rfl | ⟨t, ht, rfl⟩ | ⟨hw, rfl⟩)
    · refine all_iff.2 ⟨⟨⟨.inl rfl, Nat.le_refl _⟩, trivial, trivial⟩, ?_⟩
      rintro m rfl
      exact hv
    · rw [List.mem_singleton.1 ht]
      exact table_made
    · refine all_iff.2 ⟨⟨trivial, trivial, trivial⟩, ?_⟩
      rintro m (⟨h, rfl⟩ | ⟨h, rfl⟩)
      · exact absurd rfl h
      · exact hc h
  · cases hs

private theorem item_made {v : VE} (hv : All (WellMade nt M) (.ve v)) : All (WellMade nt M) (.columns (.items [.nonAsVE v])) := by
  refine all_iff.2 ⟨⟨nofun, trivial, trivial⟩, ?_⟩
  rintro m ⟨i, hi, rfl⟩
  rw [List.mem_singleton.1 hi]
  refine all_iff.2 ⟨⟨trivial, trivial, trivial⟩, ?_⟩
  rintro m rfl
  exact hv

/-- **C61** for values: what is selected, grouped by, or given to a function. -/
theorem C61_value (hfmt : FmtNum fmt) (hf : FmtOnce fmt) {v w : VE} (hv : All (WellMade nt M) (.ve v)) (hw : All (WellMade nt M') (.ve w)) :
    v.print fmt = w.print fmt ↔ w.norm fmt = v.norm fmt := by
  refine ⟨fun h => ?_, fun h => by rw [← VE.norm_print hf v, ← h, VE.norm_print hf w]⟩
  have := C61_different hfmt (ask_made (c := SC.dflt) (fun h => absurd rfl h) (item_made hv)) (ask_made (c := SC.dflt) (fun h => absurd rfl h) (item_made hw)) (by
    simp only [ask, QuerySpec.print, SFWList.print, SFW.print, Select.print, Columns.print, printItems, Item.print, h])
  simp only [SameQuery, ask, QuerySpec.norm, SFWList.norm, SFW.norm, Select.norm, Columns.norm, normItems, Item.norm] at this
  injection this with _ h
  injection h with h
  injection h with h
  injection h with _ _ h
  injection h with h
  injection h with h
  injection h

/-- **C61** for conditions. -/
theorem C61_condition (hfmt : FmtNum fmt) (hf : FmtOnce fmt) {c d : SC} (hc : All (WellMade nt M) (.sc c)) (hd : All (WellMade nt M') (.sc d))
    (h1 : c.isEmpty = false) (h2 : d.isEmpty = false) : c.print fmt = d.print fmt ↔ d.norm fmt = c.norm fmt := by
  refine ⟨fun h => ?_, fun h => by rw [← SC.norm_print hf c, ← h, SC.norm_print hf d]⟩
  have hb : ∀ {M} {c : SC}, All (WellMade nt M) (.sc c) → All (WellMade nt M) (.sc (.factor (.mk [] (.sc c)))) := fun hc =>
    wellMade_both (c := SC.dflt) (fun h => nomatch h) hc
  have hs : ∀ {M}, All (WellMade nt M) (.columns (.star cs!"*")) := all_iff.2 ⟨⟨rfl, trivial, trivial⟩, fun _ (h : False) => h.elim⟩
  have := C61_different hfmt (ask_made (fun _ => hb hc) hs) (ask_made (fun _ => hb hd) hs) (by
    simp only [ask, QuerySpec.print, SFWList.print, SFW.print, Where.isEmpty, Where.print, SC.isEmpty, BF.isEmpty, BP.isEmpty, h1, h2, SC.print,
      BF.print, BP.print, h])
  simp only [SameQuery, ask, QuerySpec.norm, SFWList.norm, SFW.norm, Where.norm, SC.norm, BF.norm, BP.norm] at this
  injection this with _ h
  injection h with h
  injection h with _ _ h
  injection h with _ h
  injection h with h
  injection h with _ h
  injection h

/-! ### Examples -/

private theorem tight_made : All (WellMade true c0.Mapped) (.query tightTree) :=
  C56_parsed c0 nofun (s := cs!"SELECT 'a'-b- -a AS b FROM t WHERE a<3AND not b IS NULL") (by kernel_rfl) (fun _ => rfl)
    fun m hm => regular_usual (nt := true) (tightTree_regular m hm)

/-- a column -/
private def oneCol (x : Str) : VENB := .mk (.mk [] (.vep (.mk (.col (.col x)) []))) []

/-- **C61**, limits: of trees that are not well-made it does not hold.  Here the parentheses enclose a condition in one tree and a value in
the other one. -/
theorem C61_needed : ∃ q p : QuerySpec, q.print fmt = p.print fmt ∧ ¬ SameQuery fmt q p := by
  refine ⟨ask (.factor (.mk [] (.sc (.factor (.mk [] (.ve (oneCol cs!"a"))))))) (.star cs!"*"),
    ask (.factor (.mk [] (.ve (.mk (.mk [] (.vep (.mk (.sub (.nb (oneCol cs!"a"))) []))) [])))) (.star cs!"*"), by kernel_rfl, fun h => ?_⟩
  simp only [SameQuery, ask, QuerySpec.norm, SFWList.norm, SFW.norm, Where.norm, SC.norm, BF.norm, BP.norm] at h
  injection h with _ h
  injection h with h
  injection h with _ _ h
  injection h with _ h
  injection h with h
  injection h with _ h
  cases h

private theorem tightCond_made : All (WellMade true c0.Mapped) (.sc tightCond) := C56_condition tight_made List.mem_cons_self rfl

/-- another TOP in every SELECT -/
private def limit (n : Nat) : SFW → SFW
  | .mk s ts w => .mk (setTop n s) ts w

private theorem limit_made {n : Nat} (hn : n ≤ topMax) : All (WellMade true c0.Mapped) (.query (tightTree.deep (limit n))) := by
  refine wellMade_deep (fun | .mk _ _ (.mk _ _), h => h) ?_ tight_made
  rintro ⟨s, ts, w⟩ h
  refine all_iff.2 ⟨⟨h.here.1, trivial, trivial⟩, ?_⟩
  rintro m (rfl | ⟨t, ht, rfl⟩ | ⟨hw, rfl⟩)
  · exact C56_top hn s (h.sub (.inl rfl))
  · exact h.sub (.inr (.inl ⟨t, ht, rfl⟩))
  · exact h.sub (.inr (.inr ⟨hw, rfl⟩))

/-- Two queries that differ in TOP have different texts, however numbers are formatted. -/
example (hfmt : FmtNum fmt) (hf : FmtOnce fmt) {n m : Nat} (hn : n ≤ topMax) (hm : m ≤ topMax)
    (h : (tightTree.deep (limit n)).print fmt = (tightTree.deep (limit m)).print fmt) : n = m := by
  have := (C61_same hfmt hf (limit_made hn) (limit_made hm) h).2.2.1
  exact (List.cons.inj this).1.symm

private theorem small_made : All (WellMade true c0.Mapped) (.sc (.term (.mk [] (.sc tightCond)) cs!"and" (.factor (.mk [] (.sc tightCond))))) := by
  have h : All (WellMade true c0.Mapped) (.sc (both tightCond tightCond)) := wellMade_both (fun _ => tightCond_made) tightCond_made
  exact all_iff.2 ⟨⟨⟨cs!"AND", by simp, rfl⟩, trivial, rfl⟩, fun m hm => h.sub hm⟩

/-- The text of a connective is the same in every spelling, and so are the conditions. -/
example (hfmt : FmtNum fmt) (hf : FmtOnce fmt) :
    (both tightCond tightCond).print fmt = (SC.term (.mk [] (.sc tightCond)) cs!"and" (.factor (.mk [] (.sc tightCond)))).print fmt :=
  (C61_condition hfmt hf (wellMade_both (fun _ => tightCond_made) tightCond_made) small_made rfl rfl).2 rfl

/-- Two texts that differ in blanks. -/
example (hfmt : FmtNum fmt) (hf : FmtOnce fmt) {q : QuerySpec}
    (hs : construct c0 cs!" SELECT 'a' - b - -a  AS b FROM t WHERE a < 3 AND not b IS NULL" = .ok q) :
    q.print fmt = tightTree.print fmt ↔ SameQuery fmt q tightTree := by
  have hp : construct c0 cs!"SELECT 'a'-b- -a AS b FROM t WHERE a<3AND not b IS NULL" = .ok tightTree := by kernel_rfl
  have hq : construct c0 cs!" SELECT 'a' - b - -a  AS b FROM t WHERE a < 3 AND not b IS NULL" = .ok tightTree := by kernel_rfl
  have e : q = tightTree := by rw [hq] at hs; injection hs with e; exact e.symm
  have hu : All (Usual true) (.query tightTree) := fun m hm => regular_usual (nt := true) (tightTree_regular m hm)
  exact C61_texts hfmt hf c0 c0 nofun nofun hs hp (e ▸ hu) hu

end Adql
