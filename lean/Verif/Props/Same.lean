import Verif.Model.Normal
import Verif.Props.RoundTrip

/-!
# C52: the formatted text is read as the same query

C18 compares texts.  Here the trees are compared: the formatted text of a query is not only read and formatted to itself, it
is read as the same query, up to the differences in spelling that `Spec/Same.lean` lists.
-/

namespace Adql

open Spec Fwd

variable {fmt : Str → Str}

/-- The formatted text of a query of the core language is a text of the core language (up to blanks at
the end), and spells the same query. -/
theorem C52_core_language (hfmt : FmtNum fmt) {S : Mode} [Prints S] {G : Bool} {s : Str} {q : QuerySpec} (h : QueryT S G s q) :
    ∃ q' t e, q.print fmt = t ++ e ∧ Blanks e ∧ QueryT S.out G t q' ∧ q'.print fmt = q.print fmt ∧ SameQuery fmt q q' := by
  obtain ⟨q', t, e, h1, h2, h3, h4, h5⟩ := queryT_print hfmt h [] nofun
  exact ⟨q', t, e, h1, h2, h3, h4, h5⟩

/-- **C52**, core language: the formatted text is read as the same query, and from then on neither the tree nor the text
changes. -/
theorem C52_core (hfmt : FmtNum fmt) (cfg : Config) {S : Mode} [Fits S cfg] [Prints S] {G : Bool} {s b : Str} {q : QuerySpec}
    (h : QueryT S G s q) (hb : Blanks b) :
    parseIt cfg (s ++ b) = .ok q ∧
      ∃ q', parseIt cfg (q.print fmt) = .ok q' ∧ SameQuery fmt q q' ∧ parseIt cfg (q'.print fmt) = .ok q' := by
  refine ⟨C39_accepts cfg h hb, ?_⟩
  obtain ⟨q', t, e, h1, h2, h3, h4, h5⟩ := C52_core_language hfmt h
  have h6 : parseIt cfg (q.print fmt) = .ok q' := h1 ▸ C39_accepts cfg h3 h2
  exact ⟨q', h6, h5, h4 ▸ h6⟩

/-- **C52** for expressions of the core language. -/
theorem C52_expression (hfmt : FmtNum fmt) (cfg : Config) {S : Mode} [Fits S cfg] [Prints S] {s r : Str} {v : VENB} (h : ExprT S s v)
    (hr : ExprEnd r) : ∃ v', parse cfg venb true (v.print fmt ++ r) = .ok v' r ∧ v'.norm fmt = v.norm fmt := by
  obtain ⟨v', h1, h2, -⟩ := exprT_print hfmt h [] nofun
  exact ⟨v', C39_expression cfg h1 hr, h2.2⟩

theorem same_regular (hfmt : FmtNum fmt) (cfg cfg' : Config) {s : Str} {q : QuerySpec} (h : construct cfg s = .ok q)
    (hr : All (Regular (!cfg'.residue)) (.query q)) :
    ∃ q', parseIt cfg' (q.print fmt) = .ok q' ∧ q'.print fmt = q.print fmt ∧ SameQuery fmt q q' := by
  obtain ⟨t, -, ht⟩ := sp_query (nt := !cfg'.residue) (M := cfg.Mapped) (q := q) fun m hm =>
    ⟨(construct_inv h m hm).1, (construct_inv h m hm).2.1, hr m hm⟩
  obtain ⟨q', t, e, h1, h2, h3, h4, h5⟩ := C52_core_language hfmt ht
  haveI : Fits (anyUp (!cfg'.residue)).out cfg' := ⟨nofun, by simp [anyUp, Mode.out]⟩
  exact ⟨q', h1 ▸ C39_accepts cfg' h3 h2, h4, h5⟩

/-- **C52** for every accepted query, whatever its text: unless the tree has one of the things that `Usual` excludes, the
formatted text is read as the same query, with any mapping, and from then on neither the tree nor the text changes. -/
theorem C52_accepted (hfmt : FmtNum fmt) (cfg cfg' : Config) (hm : MapsWell cfg.mapping) {s : Str} {q : QuerySpec}
    (h : construct cfg s = .ok q) (hu : All (Usual (!cfg.residue && !cfg'.residue)) (.query q)) :
    ∃ q', parseIt cfg' (q.print fmt) = .ok q' ∧ SameQuery fmt q q' ∧ parseIt cfg' (q'.print fmt) = .ok q' := by
  obtain ⟨q', h1, h2, h3⟩ := same_regular hfmt cfg cfg' h (Reach.usual_regular hm
    (fun h => by simp only [Bool.and_eq_true, Bool.not_eq_true'] at h; exact h.1)
    (fun h => by simp only [Bool.and_eq_true] at h; exact h.2) (construct_came h) hu)
  exact ⟨q', h1, h3, h2 ▸ h1⟩

/-- The same for the constructor, when no geometric predicate follows an AND in the formatted text. -/
theorem C52_construct (hfmt : FmtNum fmt) (cfg : Config) (hm : MapsWell cfg.mapping) {s : Str} {q : QuerySpec}
    (h : construct cfg s = .ok q) (hu : All (Usual (!cfg.residue)) (.query q)) (hg : ¬ HasGeometryAfterAnd (q.print fmt)) :
    ∃ q', construct cfg (q.print fmt) = .ok q' ∧ SameQuery fmt q q' ∧ construct cfg (q'.print fmt) = .ok q' := by
  obtain ⟨q', h1, h2, h3⟩ := same_regular hfmt cfg cfg h (Reach.usual_regular hm
    (fun h => by simpa only [Bool.not_eq_true'] using h) (fun h => h) (construct_came h) hu)
  have h4 : construct cfg (q.print fmt) = .ok q' := by
    unfold construct
    rw [C27_no_geometry_after_and _ hg]
    exact h1
  exact ⟨q', h4, h3, h2 ▸ h4⟩

/-- **C52**: queries that are the same up to spelling have the same text, so that nothing that shows in the text is ignored. -/
theorem C52_text (hfmt : FmtOnce fmt) {q q' : QuerySpec} (h : SameQuery fmt q q') : q'.print fmt = q.print fmt := by
  have h : q'.norm fmt = q.norm fmt := h
  rw [← QuerySpec.norm_print hfmt q', h, QuerySpec.norm_print hfmt q]

/-! ### Cases -/

/-- The example of C39: a connective in small letters and the name of a table with AS. -/
example (hfmt : FmtNum fmt) (cfg : Config) : ∃ q', parseIt cfg corePrinted = .ok q' ∧ SameQuery fmt coreTree q' ∧
    parseIt cfg (q'.print fmt) = .ok q' := by
  have := (C52_core hfmt cfg coreText_query (b := []) nofun).2
  rwa [coreTree_print] at this

/-- Any accepted text: here the text is not one of the core language. -/
example (hfmt : FmtNum fmt) : ∃ q', parseIt ⟨fun _ => none, false⟩ (tightTree.print fmt) = .ok q' ∧ SameQuery fmt tightTree q' ∧
    parseIt ⟨fun _ => none, false⟩ (q'.print fmt) = .ok q' :=
  C52_accepted hfmt ⟨fun _ => none, false⟩ _ nofun (s := cs!"SELECT 'a'-b- -a AS b FROM t WHERE a<3AND not b IS NULL") (by kernel_rfl)
    fun m hm => regular_usual (nt := true) (tightTree_regular m hm)

/-- an expression -/
private def oneCol (x : Str) : VENB := .mk (.mk [] (.vep (.mk (.col (.col x)) []))) []

/-- a query with a condition -/
private def ask (c : SC) : QuerySpec :=
  .mk With.dflt (.mk (.mk (.mk [] topMax (.star cs!"*")) [.tc ⟨cs!"t", []⟩] (.mk Geom.dflt c)) []) [] SC.dflt []

/-- The trees are compared, not the texts: these two queries have the same text, but in the first one the parentheses enclose
a condition and in the second one a value. -/
example : (ask (.factor (.mk [] (.sc (.factor (.mk [] (.ve (oneCol cs!"a")))))))).print id =
      (ask (.factor (.mk [] (.ve (.mk (.mk [] (.vep (.mk (.sub (.nb (oneCol cs!"a"))) []))) []))))).print id ∧
    ¬ SameQuery id (ask (.factor (.mk [] (.sc (.factor (.mk [] (.ve (oneCol cs!"a"))))))))
      (ask (.factor (.mk [] (.ve (.mk (.mk [] (.vep (.mk (.sub (.nb (oneCol cs!"a"))) []))) []))))) := by
  refine ⟨by kernel_rfl, fun h => ?_⟩
  simp only [SameQuery, ask, QuerySpec.norm, SFWList.norm, SFW.norm, Where.norm, SC.norm, BF.norm, BP.norm] at h
  injection h with _ h
  injection h with h
  injection h with _ _ h
  injection h with _ h
  injection h with h
  injection h with _ h
  cases h

/-- The connective may be written in small letters in one of them. -/
example (a b : BF) : SameQuery id (ask (.term a cs!"and" (.factor b))) (ask (.term a cs!"AND" (.factor b))) := by
  simp [SameQuery, ask, QuerySpec.norm, SFWList.norm, SFW.norm, Where.norm, SC.norm, show upper cs!"and" = upper cs!"AND" from rfl]

/-- A flag before a geometric predicate comes to stand behind it, which is the other alternative of the tree. -/
example (p : GPred) : (Geom.left '1' p).norm id = (Geom.right p '1').norm id ∧ Geom.left '1' p ≠ Geom.right p '1' :=
  ⟨by simp [Geom.norm], nofun⟩

/-- The hypothesis of `C52_text` can be met. -/
example : FmtOnce asWritten := by
  intro x
  unfold asWritten
  induction x with
  | nil => rfl
  | cons c x ih =>
    rw [List.takeWhile_cons]
    split
    · next h => rw [List.takeWhile_cons, if_pos h, ih]
    · rfl

end Adql
