import Verif.Spec.Owner
import Verif.Props.Parts
import Verif.Props.Policy

/-!
# C68: every user sees only the user's own rows
-/

namespace Adql

open Spec Fwd

variable {fmt : Str → Str} {nt : Bool} {M : Str → Prop} {o : Str → Option Str} {v : Str}

/-- **C68.** The conditions can be added to a query, for all names of the columns and all names of the user. -/
theorem C68_conds (ho : ∀ n k, o n = some k → k ≠ []) (v : Str) : Conds nt M (ownedBy o v) := by
  have key : ∀ n d, ownedBy o v n = some d → ∃ k, k ≠ [] ∧ d = comparedLit (columnOf k) cs!"=" (inParts v) := by
    intro n d h
    obtain ⟨k, hk, rfl⟩ := Option.map_eq_some_iff.1 h
    exact ⟨k, ho n k hk, rfl⟩
  refine ⟨fun n d h => ?_, fun n d h => ?_, fun n d h => ?_⟩ <;> obtain ⟨k, hk, rfl⟩ := key n d h
  · exact C67_compared (columnOf_made hk) (fun _ => rfl) (by simp) (C67_literal v).1
  · rfl
  · simp [comparedLit, columnOf, SC.selects, BF.selects, BP.selects, Pred.selects, VE.selects, VENB.selects, Factor.selects, NumPrim.selects, VEP.selects,
      Prim.selects, selectsTerms, selectsVEs]

/-- What the guards of C60 mean for these conditions. -/
theorem C68_guarded {γ : Geom → Truth} {ρ : BP → Truth} {s : SFW} (h : Guarded (ownedBy o v) γ ρ s) : OnlyOwn o v γ ρ s := by
  obtain ⟨s, ts, w⟩ := s
  intro n hn k hk hw
  have := h n hn (.factor (.mk [] (isOwner k v))) (by simp [ownedBy, hk]) hw
  simpa only [holds, parts, factorHolds, List.isEmpty_nil, if_true, isOwner, primHolds, valueOf, CondSeq.atom, valueFrom] using this

/-- **C68.** Whatever text a user sends, if the constructor accepts it, and whatever the name of the user is: after the conditions, further changes
and the limit, the text that is sent to the database is a query of which no SELECT, also not one of a subquery, gives a row of another owner. -/
theorem C68_accepted (hfmt : FmtNum fmt) (cfg : Config) (hw : MapsWell cfg.mapping) {t : Str} {q : QuerySpec} (h : construct cfg t = .ok q)
    (hu : All (Usual (!cfg.residue)) (.query q)) (hg : PlainSelects q) (ho : ∀ n k, o n = some k → k ≠ []) (v : Str) {l m : List Step}
    (hl : ∀ s ∈ l, StepMade (!cfg.residue) cfg.Mapped s) (hm : ∀ s ∈ m, StepMade (!cfg.residue) cfg.Mapped s) (hh : ∀ s ∈ m, s.Harmless) (n : Nat) :
    ∃ p, parseIt cfg ((runSteps (l ++ .guard (ownedBy o v) :: m ++ [.limit n]) q).print fmt) = .ok p ∧ (∀ t ∈ tops p, t ≤ n) ∧
      ∀ γ ρ, SpellingFree fmt γ ρ → ∀ s ∈ p.selects, OnlyOwn o v γ ρ s := by
  obtain ⟨p, h1, h2, h3⟩ := C64_accepted hfmt cfg hw h hu hg hl hm hh (C68_conds ho v) n
  exact ⟨p, h1, h2, fun γ ρ hs s hp => C68_guarded (h3 γ ρ hs s hp)⟩

/-- **C68.** With the conditions and the limit only, queries with geometric constraints are included. -/
theorem C68_geometry (hfmt : FmtNum fmt) (cfg : Config) (hw : MapsWell cfg.mapping) {t : Str} {q : QuerySpec} (h : construct cfg t = .ok q)
    (hu : All (Usual (!cfg.residue)) (.query q)) (ho : ∀ n k, o n = some k → k ≠ []) (v : Str) (n : Nat) :
    ∃ p, parseIt cfg ((runSteps [.guard (ownedBy o v), .limit n] q).print fmt) = .ok p ∧ (∀ t ∈ tops p, t ≤ n) ∧
      ∀ γ ρ, SpellingFree fmt γ ρ → ∀ s ∈ p.selects, OnlyOwn o v γ ρ s := by
  have hc : Conds (!cfg.residue) cfg.Mapped (ownedBy o v) := C68_conds ho v
  obtain ⟨p, h1, h2, -⟩ := C56_tree hfmt cfg
    (every_made (wellMade_deep guard_noGeom (guard_made hc) (C56_parsed cfg hw h (by simp) hu)) (limit_sfw_made (n := n)))
  refine ⟨p, h1, fun t ht => ?_, fun γ ρ hs s hp => C68_guarded (AllGuarded.same hs h2 ?_ s hp)⟩
  · rw [tops_same h2, (C62_tree (fmt := fmt) n _).1] at ht
    obtain ⟨a, -, rfl⟩ := List.mem_map.1 ht
    exact Nat.min_le_right _ _
  · exact harmless_guarded (l := [.limit n]) hc (fun s hs => by rw [List.mem_singleton.1 hs]; trivial)
      (fun s hs => by rw [List.mem_singleton.1 hs]; trivial) (fun γ ρ => guard_all hc γ ρ _) γ ρ

/-- **C68.** If no join stands in the place of a subquery (`C60_join`), every occurrence of a table with owners is in the FROM clause of a SELECT, and
this SELECT gives only the rows of the user. -/
theorem C68_everywhere {γ : Geom → Truth} {ρ : BP → Truth} {p : QuerySpec} (h : ∀ s ∈ p.selects, OnlyOwn o v γ ρ s)
    (hj : ∀ j, ¬ Sub (.subq (.jt j)) (.query p)) {t : TableCorr} (ht : Sub (.tcorr t) (.query p)) {k : Str} (hk : o t.name = some k) :
    ∃ s ∈ p.selects, t.name ∈ fromNames s.tables ∧ (whereHolds γ ρ s.where_ = .yes → ρ (isOwner k v) = .yes) := by
  obtain ⟨s, hs, hn⟩ := C60_tables ht hj
  refine ⟨s, hs, hn, ?_⟩
  have := h s hs
  obtain ⟨a, ts, w⟩ := s
  exact this t.name hn k hk

/-! ### Examples -/

/-- the tables `t` and `"u"` have owners -/
private def owners (n : Str) : Option Str := if n = cs!"t" then some cs!"owner" else if n = cs!"\"u\"" then some cs!"of" else none

private theorem owners_ok : ∀ n k, owners n = some k → k ≠ [] := by
  intro n k h
  unfold owners at h
  split at h
  · cases h; nofun
  · split at h
    · cases h; nofun
    · cases h

/-- the user `it's` -/
example : (runSteps ([] ++ .guard (ownedBy owners cs!"it's") :: [] ++ [.limit 5]) tightTree).print id =
    cs!"SELECT TOP 5 'a'-b--a AS b FROM t WHERE (a < 3 AND not b IS NULL) AND (\"owner\" = 'i'\n't'\n''''\n's')" := by kernel_rfl

example (hfmt : FmtNum fmt) (v : Str) : ∃ p,
    parseIt ⟨fun _ => none, false⟩ ((runSteps ([] ++ .guard (ownedBy owners v) :: [] ++ [.limit 5]) tightTree).print fmt) = .ok p ∧ (∀ t ∈ tops p, t ≤ 5) ∧
      ∀ γ ρ, SpellingFree fmt γ ρ → ∀ s ∈ p.selects, OnlyOwn owners v γ ρ s :=
  C68_accepted hfmt ⟨fun _ => none, false⟩ nofun (t := cs!"SELECT 'a'-b- -a AS b FROM t WHERE a<3AND not b IS NULL") (by kernel_rfl)
    (fun m hm => regular_usual (nt := true) (tightTree_regular m hm)) ⟨rfl, nofun⟩ owners_ok v (l := []) (m := []) nofun nofun nofun 5

/-- without the conditions a SELECT gives rows of others -/
example : ∃ γ ρ, ¬ ∀ s ∈ tightTree.selects, OnlyOwn owners cs!"me" γ ρ s := by
  refine ⟨fun _ => .yes, fun p => if p.print id = cs!"a < 3" then .yes else .no, fun h => ?_⟩
  have := h _ (List.mem_cons_self) cs!"t" (by simp [fromNames, readsTRs, TR.reads]) cs!"owner" rfl (by kernel_rfl)
  revert this
  decide +kernel

/-- a query with a geometric constraint -/
example : ((construct ⟨fun _ => none, false⟩ cs!"SELECT a FROM t WHERE CONTAINS(POINT('ICRS',1,2),CIRCLE('ICRS',3,4,5))=1 AND (a=1 OR b=2)").toOption.map
    fun q => (runSteps [.guard (ownedBy owners cs!"me"), .limit 5] q).print id) =
    some cs!"SELECT TOP 5 a FROM t WHERE CONTAINS(POINT('ICRS GEOCENTER',1,2),CIRCLE('ICRS GEOCENTER',3,4,5))=1 AND ((a = 1 OR b = 2)) AND (\"owner\" = 'm'\n'e')" := by
  kernel_rfl

end Adql
