import Verif.Spec.Tree

/-!
# The formatted text of a part is part of the formatted text of the whole

Purely about `operator<<`: it holds for every tree in which the two nodes are not empty.
-/

namespace Adql

open Spec

theorem infL {x a b : Str} (h : x <:+: a) : x <:+: a ++ b := h.trans ⟨[], b, by simp⟩
theorem infR {x a b : Str} (h : x <:+: b) : x <:+: a ++ b := h.trans ⟨a, [], by simp⟩

syntax "inf_search" : tactic
macro_rules
  | `(tactic| inf_search) => `(tactic| first
    | exact List.infix_refl _
    | assumption
    | (refine infL ?_; inf_search)
    | (refine infR ?_; inf_search))

theorem infix_joinSep {sep x : Str} : ∀ {l : List Str}, x ∈ l → x <:+: joinSep sep l
  | [], h => by simp at h
  | [y], h => by simp at h; subst h; exact List.infix_refl _
  | y :: z :: l, h => by
    simp only [joinSep]
    rcases List.mem_cons.1 h with rfl | h
    · inf_search
    · have := infix_joinSep (sep := sep) h
      inf_search

variable (fmt : Str → Str)

theorem mem_printVEs {e : VE} : ∀ {l : List VE}, e ∈ l → e.print fmt ∈ printVEs fmt l
  | [], h => by simp at h
  | x :: l, h => by
    rcases List.mem_cons.1 h with rfl | h
    · simp [printVEs]
    · simp [printVEs, mem_printVEs h]

theorem mem_printItems {e : Item} : ∀ {l : List Item}, e ∈ l → e.print fmt ∈ printItems fmt l
  | [], h => by simp at h
  | x :: l, h => by
    rcases List.mem_cons.1 h with rfl | h
    · simp [printItems]
    · simp [printItems, mem_printItems h]

theorem mem_printTRs {e : TR} : ∀ {l : List TR}, e ∈ l → e.print fmt ∈ printTRs fmt l
  | [], h => by simp at h
  | x :: l, h => by
    rcases List.mem_cons.1 h with rfl | h
    · simp [printTRs]
    · simp [printTRs, mem_printTRs h]

theorem mem_printGroup {e : GroupTerm} : ∀ {l : List GroupTerm}, e ∈ l →
    e.print fmt ∈ printGroup fmt l
  | [], h => by simp at h
  | x :: l, h => by
    rcases List.mem_cons.1 h with rfl | h
    · simp [printGroup]
    · simp [printGroup, mem_printGroup h]

theorem infix_printTerms {t : Term} : ∀ {l : List Term}, t ∈ l → t.print fmt <:+: printTerms fmt l
  | [], h => by simp at h
  | x :: l, h => by
    simp only [printTerms]
    rcases List.mem_cons.1 h with rfl | h
    · inf_search
    · have := infix_printTerms h; inf_search

theorem infix_printIdx {t : VE} : ∀ {l : List VE}, t ∈ l → t.print fmt <:+: printIdx fmt l
  | [], h => by simp at h
  | x :: l, h => by
    simp only [printIdx]
    rcases List.mem_cons.1 h with rfl | h
    · inf_search
    · have := infix_printIdx h; inf_search

theorem infix_printSimpleWhens {t : SimpleWhen} : ∀ {l : List SimpleWhen}, t ∈ l →
    t.print fmt <:+: printSimpleWhens fmt l
  | [], h => by simp at h
  | x :: l, h => by
    simp only [printSimpleWhens]
    rcases List.mem_cons.1 h with rfl | h
    · inf_search
    · have := infix_printSimpleWhens h; inf_search

theorem infix_printSearchedWhens {t : SearchedWhen} : ∀ {l : List SearchedWhen}, t ∈ l →
    t.print fmt <:+: printSearchedWhens fmt l
  | [], h => by simp at h
  | x :: l, h => by
    simp only [printSearchedWhens]
    rcases List.mem_cons.1 h with rfl | h
    · inf_search
    · have := infix_printSearchedWhens h; inf_search

theorem infix_printSuffixes {t : JoinSuffix} : ∀ {l : List JoinSuffix}, t ∈ l →
    t.print fmt <:+: printSuffixes fmt l
  | [], h => by simp at h
  | x :: l, h => by
    simp only [printSuffixes]
    rcases List.mem_cons.1 h with rfl | h
    · inf_search
    · have := infix_printSuffixes h; inf_search

theorem infix_printAddons {t : Addon} : ∀ {l : List Addon}, t ∈ l →
    t.print fmt <:+: printAddons fmt l
  | [], h => by simp at h
  | x :: l, h => by
    simp only [printAddons]
    rcases List.mem_cons.1 h with rfl | h
    · inf_search
    · have := infix_printAddons h; inf_search

theorem infix_printPolyCoords {t : Coord} : ∀ {l : List Coord}, t ∈ l →
    t.print fmt <:+: printPolyCoords fmt l
  | [], h => by simp at h
  | x :: l, h => by
    simp only [printPolyCoords]
    rcases List.mem_cons.1 h with rfl | h
    · inf_search
    · have := infix_printPolyCoords h; inf_search

theorem child_shown {n m : Node} (hc : n.child m) (hn : n.isEmpty = false)
    (hm : m.isEmpty = false) : m.print fmt <:+: n.print fmt := by
  cases n with
  | ve x => cases x <;> (cases hc; simp only [Node.print, VE.print]; inf_search)
  | venb x =>
    obtain ⟨f, ts⟩ := x
    rcases hc with rfl | ⟨t, ht, rfl⟩ <;> simp only [Node.print, VENB.print]
    · inf_search
    · have := infix_printTerms fmt ht; inf_search
  | term x => obtain ⟨o, f⟩ := x; cases hc; simp only [Node.print, Term.print]; inf_search
  | factor x => obtain ⟨o, f⟩ := x; cases hc; simp only [Node.print, Factor.print]; inf_search
  | numPrim x => cases x <;> (cases hc; simp only [Node.print, NumPrim.print]; inf_search)
  | numFn x =>
    cases x with
    | trig1 f a => cases hc; simp only [Node.print, NumFn.print]; inf_search
    | trig2 f a b => rcases hc with rfl | rfl <;> simp only [Node.print, NumFn.print] <;> inf_search
    | math0 f => cases hc
    | math1 f a => cases hc; simp only [Node.print, NumFn.print]; inf_search
    | math2 f a b => rcases hc with rfl | rfl <;> simp only [Node.print, NumFn.print] <;> inf_search
    | cast e as len => cases hc; simp only [Node.print, NumFn.print, printCast]; inf_search
    | geo1 f a =>
      simp only [Node.isEmpty, NumFn.isEmpty] at hn
      cases hc; simp only [Node.print, NumFn.print, hn]; inf_search
    | geo2 f a b =>
      simp only [Node.isEmpty, NumFn.isEmpty] at hn
      rcases hc with rfl | rfl <;> simp only [Node.print, NumFn.print, hn] <;> inf_search
    | udf f as =>
      obtain ⟨a, ha, rfl⟩ := hc
      simp only [Node.print, NumFn.print]
      have := infix_joinSep (sep := cs!",") (mem_printVEs fmt ha)
      inf_search
    | str s => cases hc
  | vep x =>
    obtain ⟨f, ts⟩ := x
    rcases hc with rfl | ⟨t, ht, rfl⟩ <;> simp only [Node.print, VEP.print]
    · inf_search
    · have := infix_printIdx fmt ht; inf_search
  | prim x =>
    cases x with
    | arr vs =>
      obtain ⟨a, ha, rfl⟩ := hc
      simp only [Node.print, Prim.print]
      have := infix_joinSep (sep := cs!",") (mem_printVEs fmt ha)
      inf_search
    | str s => cases hc
    | col c => cases hc; simp only [Node.print, Prim.print]; inf_search
    | countStar s => cases hc
    | setFn f q e => cases hc; simp only [Node.print, Prim.print]; inf_search
    | case c => cases hc; simp only [Node.print, Prim.print]; inf_search
    | any e => cases hc; simp only [Node.print, Prim.print]; inf_search
    | sub e => cases hc; simp only [Node.print, Prim.print]; inf_search
  | caseE x =>
    cases x with
    | nullif a b => rcases hc with rfl | rfl <;> simp only [Node.print, CaseE.print] <;> inf_search
    | coalesce l =>
      obtain ⟨a, ha, rfl⟩ := hc
      simp only [Node.print, CaseE.print]
      have := infix_joinSep (sep := cs!",") (mem_printVEs fmt ha)
      inf_search
    | simple o ws e =>
      rcases hc with rfl | ⟨w, hw, rfl⟩ | ⟨-, rfl⟩ <;> simp only [Node.print, CaseE.print]
      · inf_search
      · have := infix_printSimpleWhens fmt hw; inf_search
      · simp only [Node.isEmpty] at hm
        rw [hm]
        simp only [Bool.false_eq_true, if_false]
        inf_search
    | searched ws e =>
      rcases hc with ⟨w, hw, rfl⟩ | ⟨-, rfl⟩ <;> simp only [Node.print, CaseE.print]
      · have := infix_printSearchedWhens fmt hw; inf_search
      · simp only [Node.isEmpty] at hm
        rw [hm]
        simp only [Bool.false_eq_true, if_false]
        inf_search
  | simpleWhen x =>
    obtain ⟨e, r⟩ := x
    rcases hc with rfl | rfl <;> simp only [Node.print, SimpleWhen.print] <;> inf_search
  | searchedWhen x =>
    obtain ⟨e, r⟩ := x
    rcases hc with rfl | rfl <;> simp only [Node.print, SearchedWhen.print] <;> inf_search
  | result x => cases x <;> (cases hc; try (simp only [Node.print, CaseResult.print]; inf_search))
  | sc x =>
    simp only [Node.isEmpty] at hn
    cases x with
    | factor b => cases hc; simp only [Node.print, SC.print, hn]; inf_search
    | term b o s =>
      rcases hc with rfl | rfl <;> simp only [Node.print, SC.print, hn] <;> inf_search
  | bf x => obtain ⟨o, f⟩ := x; cases hc; simp only [Node.print, BF.print]; inf_search
  | bp x => cases x <;> (cases hc; simp only [Node.print, BP.print]; inf_search)
  | pred x =>
    cases x with
    | cmp l o r => rcases hc with rfl | rfl <;> simp only [Node.print, Pred.print] <;> inf_search
    | between v n lo hi =>
      rcases hc with rfl | rfl | rfl <;> simp only [Node.print, Pred.print] <;> inf_search
    | inSub v n q => rcases hc with rfl | rfl <;> simp only [Node.print, Pred.print] <;> inf_search
    | inList v n vs =>
      rcases hc with rfl | ⟨a, ha, rfl⟩ <;> simp only [Node.print, Pred.print]
      · inf_search
      · have := infix_joinSep (sep := cs!", ") (mem_printVEs fmt ha)
        inf_search
    | null v n => cases hc; simp only [Node.print, Pred.print]; inf_search
    | like v n p => rcases hc with rfl | rfl <;> simp only [Node.print, Pred.print] <;> inf_search
    | exist q => cases hc; simp only [Node.print, Pred.print]; inf_search
  | subq x => cases x <;> (cases hc; simp only [Node.print, Subquery.print]; inf_search)
  | jt x => cases x <;> (cases hc; simp only [Node.print, JT.print]; inf_search)
  | qj x =>
    obtain ⟨f, ts⟩ := x
    rcases hc with rfl | ⟨t, ht, rfl⟩ <;> simp only [Node.print, QJ.print]
    · inf_search
    · have := infix_printSuffixes fmt ht; inf_search
  | head x => cases x <;> (cases hc; simp only [Node.print, QJHead.print]; inf_search)
  | suffix x =>
    obtain ⟨nat, ty, t, sp⟩ := x
    rcases hc with rfl | ⟨-, rfl⟩ <;> simp only [Node.print, JoinSuffix.print]
    · inf_search
    · simp only [Node.isEmpty] at hm
      rw [hm]
      simp only [Bool.false_eq_true, if_false]
      inf_search
  | spec x => cases x <;> (cases hc; try (simp only [Node.print, JoinSpec.print]; inf_search))
  | tr x =>
    cases x with
    | tc t => cases hc; simp only [Node.print, TR.print]; inf_search
    | jt t => cases hc; simp only [Node.print, TR.print]; inf_search
    | derived q as => cases hc; simp only [Node.print, TR.print]; inf_search
    | tvf n as => cases hc
  | gpred x =>
    cases x <;> (rcases hc with rfl | rfl <;> simp only [Node.print, GPred.print] <;> inf_search)
  | geom x =>
    simp only [Node.isEmpty] at hn
    cases x <;> (cases hc; simp only [Node.print, Geom.print, hn]; inf_search)
  | where_ x =>
    obtain ⟨g, s⟩ := x
    rcases hc with ⟨-, rfl⟩ | ⟨-, rfl⟩ <;> simp only [Node.isEmpty] at hm <;>
      simp only [Node.print, Where.print, hm, Bool.not_false, if_true]
    · inf_search
    · cases g.isEmpty
      · simp only [Bool.not_false, if_true]; inf_search
      · simp only [Bool.not_true, Bool.false_eq_true, if_false]; inf_search
  | item x => cases x <;> (cases hc; try (simp only [Node.print, Item.print]; inf_search))
  | columns x =>
    cases x with
    | star s => cases hc
    | items l =>
      obtain ⟨a, ha, rfl⟩ := hc
      simp only [Node.print, Columns.print]
      exact infix_joinSep (mem_printItems fmt ha)
  | select x =>
    obtain ⟨q, t, c⟩ := x; cases hc; simp only [Node.print, Select.print, printSelect]; inf_search
  | sfw x =>
    obtain ⟨s, ts, w⟩ := x
    rcases hc with rfl | ⟨t, ht, rfl⟩ | ⟨-, rfl⟩ <;> simp only [Node.print, SFW.print]
    · inf_search
    · have := infix_joinSep (sep := cs!", ") (mem_printTRs fmt ht); inf_search
    · simp only [Node.isEmpty] at hm
      rw [hm]
      simp only [Bool.false_eq_true, if_false]
      inf_search
  | addon x => obtain ⟨o, f⟩ := x; cases hc; simp only [Node.print, Addon.print]; inf_search
  | sfwList x =>
    obtain ⟨f, ts⟩ := x
    rcases hc with rfl | ⟨t, ht, rfl⟩ <;> simp only [Node.print, SFWList.print]
    · inf_search
    · have := infix_printAddons fmt ht; inf_search
  | group x => cases x <;> (cases hc; simp only [Node.print, GroupTerm.print]; inf_search)
  | with_ x =>
    obtain ⟨q, t, c⟩ := x; cases hc; simp only [Node.print, With.print, printWith]; inf_search
  | query x =>
    obtain ⟨w, l, g, h, o⟩ := x
    rcases hc with ⟨-, rfl⟩ | rfl | ⟨y, hy, rfl⟩ | ⟨-, rfl⟩ | ⟨y, hy, rfl⟩ <;>
      simp only [Node.print, QuerySpec.print]
    · simp only [Node.isEmpty] at hm
      rw [hm]
      simp only [Bool.false_eq_true, if_false]
      inf_search
    · inf_search
    · have := infix_joinSep (sep := cs!",") (mem_printGroup fmt hy)
      have hg : g.isEmpty = false := by cases g <;> simp_all
      rw [hg]
      simp only [Bool.false_eq_true, if_false]
      inf_search
    · simp only [Node.isEmpty] at hm
      rw [hm]
      simp only [Bool.false_eq_true, if_false]
      inf_search
    · have := infix_joinSep (sep := cs!",") (List.mem_map_of_mem (f := SortSpec.print) hy)
      have hg : o.isEmpty = false := by cases o <;> simp_all
      rw [hg]
      simp only [Bool.false_eq_true, if_false]
      inf_search
  | sort x => 
    obtain ⟨k, o⟩ := x
    cases k <;> (cases hc; try (simp only [Node.print, SortSpec.print]; inf_search))
  | tcorr x => cases hc
  | colRef x => cases hc
  | coordExpr x => cases x <;> (cases hc; try (simp only [Node.print, CoordExpr.print]; inf_search))
  | coord x => rcases hc with rfl | rfl <;> simp only [Node.print, Coord.print] <;> inf_search
  | point x => cases hc; simp only [Node.print, Point.print]; inf_search
  | shape x =>
    cases x with
    | point p => cases hc; simp only [Node.print, Shape.print]; inf_search
    | circle s c r => rcases hc with rfl | rfl <;> simp only [Node.print, Shape.print] <;> inf_search
    | box s c r u =>
      rcases hc with rfl | rfl | rfl <;> simp only [Node.print, Shape.print] <;> inf_search
    | ellipse s c r u v =>
      rcases hc with rfl | rfl | rfl | rfl <;> simp only [Node.print, Shape.print] <;> inf_search
    | polygon s cs =>
      obtain ⟨c, hc, rfl⟩ := hc
      simp only [Node.print, Shape.print]
      have := infix_printPolyCoords fmt hc
      inf_search
  | pointOrCol x => cases x <;> (cases hc; simp only [Node.print, PointOrCol.print]; inf_search)
  | shapeOrCol x => cases x <;> (cases hc; simp only [Node.print, ShapeOrCol.print]; inf_search)

end Adql
