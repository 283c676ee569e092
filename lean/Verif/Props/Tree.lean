import Verif.Model.Parsed
import Verif.Model.Access
import Verif.Props.Outcome
import Verif.Model.Shown

/-!
# C15, C33, C34, C24, C14 (range), C38 (structure): what a parsed query contains
-/

namespace Adql

open Spec

/-- The names the table mapping can produce. -/
def Config.Mapped (cfg : Config) (y : Str) : Prop := ∃ x, cfg.mapping x = some y

theorem parse_inv {cfg : Config} {α : Type} {p : G α} {Q : α → Prop}
    (h : AP (Inv cfg.Mapped) p Q) {sk : Bool} {s : Str} {a : α} {r : Str}
    (hp : parse cfg p sk s = .ok a r) : Q a := by
  obtain ⟨t, -, ht⟩ := step_sem (I := Inv cfg.Mapped)
    (fun n sk s a r h => den_sem (inv_rules cfg) n sk s a r h) p sk s a r hp
  exact h _ _ _ _ ht

theorem construct_inv {cfg : Config} {input : Str} {q : QuerySpec}
    (h : construct cfg input = .ok q) : All (L cfg.Mapped) (.query q) := by
  unfold construct at h
  split at h
  · cases h
  · obtain ⟨r, hr, -⟩ := parseIt_ok.1 h
    exact parse_inv ap_query hr

/-! ### C34 -/

/-- **C34.** In every parsed query, at every depth, all operators, signs, connectives, quantifiers,
orderings, union operators, join types, function names, cast types, names and literals have their
documented form. -/
theorem C34_ranges (cfg : Config) (input : Str) (q : QuerySpec) (h : construct cfg input = .ok q) :
    All (Ranges cfg.Mapped) (.query q) := (construct_inv h).mono fun _ h => h.1

/-- a text with most of the constructs -/
def richText : Str :=
  cs!"WITH w (c1,c2) as (SELECT x, y FROM s) select distinct TOP 10 -a*2 + mod(b,3) AS m, t.*, count(*) FROM TAP_UPLOAD.up AS t NATURAL left outer JOIN (u v INNER JOIN w USING (id, k)) ON t.a = u.b, (SELECT z FROM y WHERE z IN (1,2)) d WHERE 1=CONTAINS(POINT('J2000',1,-2),CIRCLE(ra,dec,1)) AND not a between 1 and 2 or EXISTS (SELECT a FROM b WHERE b NOT LIKE 'x%') UNION ALL SELECT CASE WHEN a>1 THEN NULL ELSE 2 END, cast(a AS char(3)) FROM v GROUP BY q, r.s HAVING avg(ALL x) <= 3 ORDER BY 1 desc, \"k\""

/-- a mapping with one entry -/
def oneMap : Config := ⟨fun x => if x = cs!"up" then some cs!"real.table" else none, false⟩

theorem richText_accepted : ∃ q, construct oneMap richText = .ok q :=
  accepted_iff.1 (show accepted (construct oneMap richText) = true by kernel_rfl)

/-- **C34**, non-trivial case: the text is accepted, so the theorem applies to it. -/
example : ∃ q, construct oneMap richText = .ok q ∧ All (Ranges oneMap.Mapped) (.query q) := by
  obtain ⟨q, hq⟩ := richText_accepted
  exact ⟨q, hq, C34_ranges _ _ _ hq⟩

/-- `Ranges` refuses trees that the classes can represent but the parser never builds. -/
example : ¬ Ranges (fun _ => True) (.pred (.cmp VENB.dflt cs!"==" VE.dflt)) := by simp [Ranges]

/-! ### C15 -/

/-- **C15.** Nothing that was parsed counts as empty, at any depth (if the table mapping has no
empty names). -/
theorem C15_nonempty (cfg : Config) (hM : ∀ y, cfg.Mapped y → y ≠ []) (input : Str) (q : QuerySpec)
    (h : construct cfg input = .ok q) : All (fun n => n.isEmpty = false) (.query q) :=
  (construct_inv h).mono fun _ h => h.2.2 hM

theorem shown_of_all (fmt : Str → Str) {n m : Node} (hs : Sub m n)
    (ha : All (fun n => n.isEmpty = false) n) : m.print fmt <:+: n.print fmt := by
  induction hs with
  | refl => exact List.infix_refl _
  | step hc hs ih =>
    have hn := ha _ (.refl _)
    have ha' := (all_iff.1 ha).2 _ hc
    exact (ih ha').trans (child_shown fmt hc hn (ha' _ (.refl _)))

/-- **C15.** The formatted text of every part of a parsed query, at any depth, is a contiguous part
of the formatted query: no guard of the formatting code hides something that was parsed. -/
theorem C15_shown (cfg : Config) (hM : ∀ y, cfg.Mapped y → y ≠ []) (fmt : Str → Str) (input : Str)
    (q : QuerySpec) (h : construct cfg input = .ok q) (n : Node) (hn : Sub n (.query q)) :
    n.print fmt <:+: q.print fmt := shown_of_all fmt hn (C15_nonempty cfg hM input q h)

/-- **C15.** An optional clause that was written is present: what its rule yields differs from the
default-constructed object that stands for "absent". -/
theorem C15_present (cfg : Config) (hM : ∀ y, cfg.Mapped y → y ≠ []) (sk : Bool) (s r : Str) :
    (∀ a, parse cfg having sk s = .ok a r → a ≠ SC.dflt) ∧
    (∀ a, parse cfg groupBy sk s = .ok a r → a ≠ []) ∧
    (∀ a, parse cfg orderBy sk s = .ok a r → a ≠ []) ∧
    (∀ a, parse cfg withClause sk s = .ok a r → a ≠ With.dflt) ∧
    (∀ a, parse cfg whereClause sk s = .ok a r → a ≠ Where.dflt) ∧
    (∀ a, parse cfg whereNoGeometry sk s = .ok a r → a ≠ Where.dflt) ∧
    (∀ a, parse cfg geometry sk s = .ok a r → a ≠ Geom.dflt) ∧
    (∀ a, parse cfg elseClause sk s = .ok a r → a ≠ CaseResult.dflt) ∧
    (∀ a, parse cfg joinSpecification sk s = .ok a r → a ≠ JoinSpec.dflt) := by
  refine ⟨fun a h e => ?_, fun a h => (parse_inv ap_groupBy h).1,
    fun a h => (parse_inv ap_orderBy h).1, fun a h e => ?_, fun a h e => ?_, fun a h e => ?_,
    fun a h e => ?_, fun a h e => ?_, fun a h e => ?_⟩
  · have := (parse_inv ap_having h).ne hM; rw [e] at this; exact absurd this (by decide)
  · have := (parse_inv ap_withClause h).ne hM; rw [e] at this; exact absurd this (by decide)
  · have := (parse_inv ap_whereClause h).ne hM; rw [e] at this; exact absurd this (by decide)
  · have := (parse_inv ap_whereNoGeometry h).1.ne hM; rw [e] at this; exact absurd this (by decide)
  · have := (parse_inv ap_geometry h).ne hM; rw [e] at this; exact absurd this (by decide)
  · have := (parse_inv ap_elseClause h).ne hM; rw [e] at this; exact absurd this (by decide)
  · have := (parse_inv ap_joinSpecification h).ne hM; rw [e] at this; exact absurd this (by decide)

/-- The hypotheses are met: the text with a one-entry mapping. -/
example : (∀ y, oneMap.Mapped y → y ≠ []) ∧ ∃ q, construct oneMap richText = .ok q := by
  refine ⟨?_, richText_accepted⟩
  rintro y ⟨x, h⟩
  simp only [oneMap] at h
  split at h
  · cases h; simp
  · cases h

/-- The outcome of constructing and formatting. -/
def constructPrint (cfg : Config) (fmt : Str → Str) (s : Str) : QRes Str :=
  match construct cfg s with
  | .ok q => .ok (q.print fmt)
  | .error e => .error e

/-- The hypothesis about the mapping is needed: with an empty mapped name a whole WHERE clause
disappears from the formatted query. -/
theorem C15_empty_name :
    constructPrint ⟨fun _ => some [], false⟩ id cs!"SELECT a FROM b WHERE EXISTS (TAP_UPLOAD.x JOIN t)" =
      .ok cs!"SELECT a FROM b" := by kernel_rfl

/-! ### C33 -/

/-- **C33.** No subquery of a parsed query, at any depth, has a geometric constraint in a WHERE
clause. -/
theorem C33_subqueries (cfg : Config) (input : Str) (q : QuerySpec)
    (h : construct cfg input = .ok q) : All NoGeometry (.query q) :=
  (construct_inv h).mono fun _ h => h.2.1

/-- an accepted text with subqueries in FROM, IN, EXISTS and WITH -/
def nestedText : Str :=
  cs!"WITH w AS (SELECT a FROM b WHERE c=1) SELECT a FROM (SELECT a FROM t WHERE a IN (SELECT b FROM u WHERE EXISTS (SELECT c FROM v WHERE c=1))) x WHERE CONTAINS(p,q)=1"

example : ∃ q, construct ⟨fun _ => none, false⟩ nestedText = .ok q ∧ All NoGeometry (.query q) := by
  obtain ⟨q, hq⟩ := accepted_iff.1
    (show accepted (construct ⟨fun _ => none, false⟩ nestedText) = true by kernel_rfl)
  exact ⟨q, hq, C33_subqueries _ _ _ hq⟩

/-- `CONTAINS` in a subquery is refused ... -/
example : construct ⟨fun _ => none, false⟩
    cs!"SELECT a FROM (SELECT a FROM t WHERE CONTAINS(p,q)=1) x" =
    .error (.expecting "table reference list"
      cs!" (SELECT a FROM t WHERE CONTAINS(p,q)=1) x") := by kernel_rfl

/-- ... but `INTERSECTS` is accepted there, as a call of a *user-defined function* of that name
(`INTERSECTS` is one of the reserved words that are not refused as identifiers, C05). -/
theorem C33_intersects_function : constructPrint ⟨fun _ => none, false⟩ id
    cs!"SELECT a FROM (SELECT a FROM t WHERE INTERSECTS(p,q)=1) x" =
    .ok cs!"SELECT a FROM (SELECT a FROM t WHERE INTERSECTS(p,q) = 1) x" := by kernel_rfl

/-! ### C38 -/

/-- Every join below `n` has a suffix. -/
def HasSuffix : Node → Prop
  | .qj (.mk _ ss) => ss ≠ []
  | _ => True

/-- **C38.** Every join that is parsed contains at least one join suffix, at any depth. -/
theorem C38_suffix (cfg : Config) (input : Str) (q : QuerySpec) (h : construct cfg input = .ok q) :
    All HasSuffix (.query q) := by
  refine (C34_ranges cfg input q h).mono fun n hn => ?_
  unfold HasSuffix
  split
  · exact hn
  · trivial

/-! ### C24 -/

/-- The result of the written operation. -/
def opResult {D : Type} (ar : Arith D) : CoordExpr → Option (ARes D)
  | .num s => some (.ok (ar.read s))
  | .col c => some (.error (.expectedNumber c.print))
  | .bae a '+' b => some (.ok (ar.add (ar.read a) (ar.read b)))
  | .bae a '-' b => some (.ok (ar.sub (ar.read a) (ar.read b)))
  | .bae a '*' b => some (.ok (ar.mul (ar.read a) (ar.read b)))
  | .bae a '/' b => some (if ar.isZero (ar.read b) then .error .zeroDenominator
      else .ok (ar.div (ar.read a) (ar.read b)))
  | .bae _ _ _ => none

/-- **C24.** For every coordinate expression of a parsed query, at any depth, `double_or_throw`
returns the written number or the result of the written operation, throws for a column (naming it)
and for a zero denominator, and never reports an unknown operator. -/
theorem C24_double_or_throw {D : Type} (ar : Arith D) (cfg : Config) (input : Str) (q : QuerySpec)
    (h : construct cfg input = .ok q) (e : CoordExpr) (he : Sub (.coordExpr e) (.query q)) :
    opResult ar e = some (doubleOrThrow ar e) ∧ doubleOrThrow ar e ≠ .error .unknownOperator := by
  have hr := C34_ranges cfg input q h _ he
  cases e with
  | num s => exact ⟨rfl, by simp [doubleOrThrow]⟩
  | col c => exact ⟨rfl, by simp [doubleOrThrow]⟩
  | bae a op b =>
    rcases hr with rfl | rfl | rfl | rfl <;> refine ⟨rfl, ?_⟩ <;>
      simp only [doubleOrThrow, evaluate] <;> simp
    split <;> simp

/-- **C24** at the level of the rule: every accepted coordinate expression. -/
theorem C24_rule {D : Type} (ar : Arith D) (cfg : Config) (sk : Bool) (s r : Str) (e : CoordExpr)
    (h : parse cfg coordExpr sk s = .ok e r) : opResult ar e = some (doubleOrThrow ar e) := by
  have hr := (parse_inv ap_coordExpr h _ (.refl _)).1
  cases e with
  | num s => rfl
  | col c => rfl
  | bae a op b => rcases hr with rfl | rfl | rfl | rfl <;> rfl

/-- non-trivial cases: an operation, a column, a number -/
example : parse ⟨fun _ => none, false⟩ coordExpr true cs!" 1.5e3 / -2," =
    .ok (.bae cs!"1.5e3" '/' cs!"-2") cs!"," := by kernel_rfl
example : parse ⟨fun _ => none, false⟩ coordExpr true cs!"t.ra)" =
    .ok (.col (.qc cs!"t" cs!"ra")) cs!")" := by kernel_rfl

/-- The class can hold other operators, for which the accessor throws `unknownOperator`. -/
example (ar : Arith Int) : doubleOrThrow ar (.bae cs!"1" '%' cs!"2") = .error .unknownOperator := rfl

/-! ### C37 -/

/-- **C37 is violated** (with Qi's missing rollback): the column `notes` negates its condition. -/
theorem C37_violated : constructPrint ⟨fun _ => none, true⟩ id cs!"SELECT a FROM t WHERE notes > 3" =
    .ok cs!"SELECT a FROM t WHERE not notes > 3" := by kernel_rfl

end Adql
