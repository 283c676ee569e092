import Verif.Model.CommRules
import Verif.Model.Pattern
import Verif.Model.Query

/-!
# C59: the mapped names are only put in
-/

namespace Adql

open Spec

variable {fmt : Str → Str} {m m' : Str → Option Str} {r : Bool} {s : Str}

/-! ### The tree -/

/-- **C59** for the parser. -/
theorem C59_parse (m : Str → Option Str) (r : Bool) (s : Str) :
    parseIt ⟨m, r⟩ s = (parseIt ⟨marked m, r⟩ s).map (QuerySpec.exch (putNames m)) := by
  unfold parseIt
  rw [parseQuery_put]
  cases parseQuery ⟨marked m, r⟩ s with
  | ok q rest =>
    simp only [Res.change]
    cases rest.dropWhile isSpace <;> rfl
  | fail => rfl
  | err e => cases e <;> rfl
  | oof => rfl

/-- **C59.** A text is read as if the uploaded tables had marked names, and then the names that the mapping gives are put in; the
mapped names have no other influence. -/
theorem C59_tree (m : Str → Option Str) (r : Bool) (s : Str) :
    construct ⟨m, r⟩ s = (construct ⟨marked m, r⟩ s).map (QuerySpec.exch (putNames m)) := by
  unfold construct
  cases preprocess s with
  | error e => rfl
  | ok t => exact C59_parse m r t

theorem marked_same (h : SameUploads m m') : marked m = marked m' := by
  funext x
  have h := h x
  unfold marked
  cases e : m x <;> cases e' : m' x <;> simp_all

/-- **C59.** Whether a text is accepted, and the error if it is not, depend on the uploaded tables, not on their mapped names. -/
theorem C59_outcome (h : SameUploads m m') (r : Bool) (s : Str) :
    (construct ⟨m, r⟩ s).map (fun _ => ()) = (construct ⟨m', r⟩ s).map (fun _ => ()) := by
  rw [C59_tree m, C59_tree m', marked_same h]
  cases construct ⟨marked m', r⟩ s <;> rfl

/-- **C59.** Two trees of the same text are the same one with different names put in. -/
theorem C59_trees (h : SameUploads m m') {q : QuerySpec} (hq : construct ⟨m, r⟩ s = .ok q) :
    ∃ e, construct ⟨marked m, r⟩ s = .ok e ∧ q = e.exch (putNames m) ∧ construct ⟨m', r⟩ s = .ok (e.exch (putNames m')) := by
  rw [C59_tree m] at hq
  rw [C59_tree m', ← marked_same h]
  cases e : construct ⟨marked m, r⟩ s with
  | error x => rw [e] at hq; cases hq
  | ok x =>
    rw [e] at hq
    exact ⟨x, rfl, (Except.ok.inj hq).symm, rfl⟩

/-! ### The text -/

/-- the name that is put in for an uploaded table -/
def nameOf (m : Str → Option Str) (n : Str) : Str := (m n).getD []

section
variable {ι : Type} {X : ι → Str → Option Str}

theorem putName_pattern (x : Str) : Pattern (fun i => nameOf (X i)) (fun i => putName (X i) x) := by
  cases x with
  | nil => exact .const []
  | cons c x =>
    simp only [putName]
    split
    · exact .name x
    · exact .const _

theorem putStar_pattern (x : Str) : Pattern (fun i => nameOf (X i)) (fun i => putStar (X i) x) := by
  cases x with
  | nil => exact .const []
  | cons c x =>
    simp only [putStar]
    split
    · exact .app (.name _) (.const _)
    · exact .const _

theorem putNames_gaps (h : ∀ i n, nameOf (X i) n = [] ↔ m n = none) : Gaps (fun i => putNames (X i)) (fun i => nameOf (X i)) where
  tab t := by
    have h := putName_pattern (X := X) t.name
    simp only [putNames_tab, TableCorr.print]
    fill_gaps
  col c := by
    cases c with
    | qc a b =>
      have h := putName_pattern (X := X) a
      simp only [putNames, ColRef.print]
      fill_gaps
    | _ => exact .const _
  star := putStar_pattern
  noTab t := by
    intro i j
    simp only [putNames_tab, TableCorr.isEmpty]
    cases t.name with
    | nil => rfl
    | cons c x =>
      simp only [putName]
      split
      · have key : ∀ i, ((X i x).getD []).isEmpty = (m x).isNone := fun i => by
          have := h i x
          unfold nameOf at this
          cases e : m x <;> cases e' : (X i x).getD [] <;> simp_all
        rw [key, key]
      · rfl
  noCol c := by
    cases c <;> exact fun _ _ => rfl

end

/-- the texts, and the names with `p` -/
def keepIn (p : Str → Bool) : Str ⊕ Str → Bool
  | .inl _ => true
  | .inr n => p n

theorem fillIn_filter {f : Str → Str} {p : Str → Bool} (h : ∀ n, p n = false → f n = []) : ∀ ps : List (Str ⊕ Str),
    fillIn f (ps.filter (keepIn p)) = fillIn f ps
  | [] => rfl
  | .inl s :: l => by simp only [List.filter_cons, keepIn, if_true, fillIn, fillIn_filter h l]
  | .inr n :: l => by
    by_cases e : p n = true
    · rw [List.filter_cons_of_pos (show keepIn p (.inr n) = true from e)]
      simp only [fillIn, fillIn_filter h l]
    · rw [List.filter_cons_of_neg (show ¬ keepIn p (.inr n) = true from e)]
      simp only [fillIn, fillIn_filter h l, h n (by simpa using e), List.nil_append]

/-- **C59.** The formatted query is a pattern that does not depend on the mapped names, into which they are put as they are. -/
theorem C59_text {q : QuerySpec} (hq : construct ⟨m, r⟩ s = .ok q) :
    ∃ ps : List (Str ⊕ Str), (∀ n, .inr n ∈ ps → (m n).isSome = true) ∧
      ∀ m', SameUploads m m' → (∀ n, m' n ≠ some []) → ∃ q', construct ⟨m', r⟩ s = .ok q' ∧
        q'.print fmt = fillIn (fun n => (m' n).getD []) ps := by
  let ι := {m' : Str → Option Str // SameUploads m m' ∧ ∀ n, m' n ≠ some []}
  have hg : Gaps (fun i : ι => putNames i.1) (fun i => nameOf i.1) := putNames_gaps (m := m) fun i n => by
    have h1 := i.2.1 n
    have h2 := i.2.2 n
    unfold nameOf
    cases e : m n <;> cases e' : i.1 n <;> simp_all
  have hm : ∃ e, construct ⟨marked m, r⟩ s = .ok e := by
    obtain ⟨e, h, -⟩ := C59_trees (fun _ => rfl) hq
    exact ⟨e, h⟩
  obtain ⟨e, he⟩ := hm
  obtain ⟨ps, hps⟩ := QuerySpec.pattern hg (fmt := fmt) e
  refine ⟨ps.filter (keepIn fun n => (m n).isSome), fun n hn => (List.mem_filter.1 hn).2, fun m' h1 h2 => ?_⟩
  refine ⟨e.exch (putNames m'), ?_, ?_⟩
  · rw [C59_tree m', ← marked_same h1, he]; rfl
  · rw [fillIn_filter]
    · exact hps ⟨m', h1, h2⟩
    · intro n hn
      have := h1 n
      rw [hn] at this
      cases e : m' n with
      | none => rfl
      | some y => rw [e] at this; cases this

/-! ### Examples -/

/-- one uploaded table, called `y` -/
private def called (y : Str) : Str → Option Str := fun x => if x = cs!"u" then some y else none

private theorem called_same (y z : Str) : SameUploads (called y) (called z) := fun x => by
  unfold called
  split <;> rfl

private def t1 : Str := cs!"SELECT TAP_UPLOAD.u.*, TAP_UPLOAD.u.a FROM TAP_UPLOAD.u JOIN t USING (k) WHERE TAP_UPLOAD.u.a IN (SELECT b FROM TAP_UPLOAD.u v)"

/-- The names are put in at every place, also names that are no names. -/
example : (construct ⟨called cs!"x; DROP y --", false⟩ t1).toOption.map (QuerySpec.print id) =
    some cs!"SELECT x; DROP y --.*, x; DROP y --.a FROM x; DROP y --  JOIN t USING (k)  WHERE x; DROP y --.a IN (SELECT b FROM x; DROP y -- v)" := by
  kernel_rfl

/-- **C59**, non-trivial case: this text is accepted, so that every other name gives the same pattern. -/
example : ∃ ps : List (Str ⊕ Str), (∀ n, .inr n ∈ ps → (called cs!"s.t" n).isSome = true) ∧
    ∀ m', SameUploads (called cs!"s.t") m' → (∀ n, m' n ≠ some []) → ∃ q', construct ⟨m', false⟩ t1 = .ok q' ∧
      q'.print id = fillIn (fun n => (m' n).getD []) ps := by
  have h : ∃ q, construct ⟨called cs!"s.t", false⟩ t1 = .ok q := by
    have e : (construct ⟨called cs!"s.t", false⟩ t1).toOption.isSome = true := by kernel_rfl
    cases h : construct ⟨called cs!"s.t", false⟩ t1 with
    | error x => rw [h] at e; cases e
    | ok q => exact ⟨q, rfl⟩
  obtain ⟨q, h⟩ := h
  exact C59_text h

/-- **C59**, the error is the same for all names of the table. -/
example (y : Str) : (construct ⟨called y, false⟩ cs!"SELECT TAP_UPLOAD.w.a FROM TAP_UPLOAD.u").map (fun _ => ()) = .error (.noTable cs!"w") := by
  rw [C59_outcome (called_same y cs!"z")]
  kernel_rfl

/-- The empty name is an exception: a join whose first table has no name counts as absent, and with it the condition. -/
theorem C59_empty_name :
    (construct ⟨called cs!"x", false⟩ cs!"SELECT a FROM t WHERE EXISTS (TAP_UPLOAD.u JOIN t USING (k))").toOption.map (QuerySpec.print id) =
      some cs!"SELECT a FROM t WHERE EXISTS (x  JOIN t USING (k) )" ∧
    (construct ⟨called [], false⟩ cs!"SELECT a FROM t WHERE EXISTS (TAP_UPLOAD.u JOIN t USING (k))").toOption.map (QuerySpec.print id) =
      some cs!"SELECT a FROM t" := by
  constructor <;> kernel_rfl

end Adql
