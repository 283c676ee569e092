import Verif.Model.SelectsAll
import Verif.Props.Owner

/-!
# C60 and C68: the SELECTs of these theorems are all SELECTs that are parts of the query

`QuerySpec.selects` is a list; here it is compared with what is a part of a query, which is defined for all classes at once.
-/

namespace Adql

open Spec Fwd

variable {fmt : Str → Str} {nt : Bool} {M : Str → Prop} {o : Str → Option Str} {c : Str → Option SC}

/-- **C60.** The list of SELECTs has all SELECTs that are parts of the query, at any depth, and no others. -/
theorem C60_parts (s : SFW) (q : QuerySpec) : s ∈ q.selects ↔ Sub (.sfw s) (.query q) := mem_selects

/-- **C60.** No SELECT that is a part of the query in the text gives a row for which a condition for one of its tables does not hold. -/
theorem C60_guarded_parts (hfmt : FmtNum fmt) (cfg : Config) {q : QuerySpec} (h : All (WellMade (!cfg.residue) M) (.query q))
    (hc : Conds (!cfg.residue) M c) :
    ∃ p, parseIt cfg ((q.deep (addConds c)).print fmt) = .ok p ∧
      ∀ γ ρ, SpellingFree fmt γ ρ → ∀ s, Sub (.sfw s) (.query p) → Guarded c γ ρ s := by
  obtain ⟨p, h1, -, h2⟩ := C60_guarded hfmt cfg h hc
  exact ⟨p, h1, fun γ ρ hs s hp => h2 γ ρ hs s (mem_selects.2 hp)⟩

/-- **C60.** A change of all SELECTs reaches every part: what is a SELECT of the changed query comes from a SELECT of the query. -/
theorem C60_from_part {f : SFW → SFW} (hf : ∀ s, (f s).selects = f s :: lower s) (q : QuerySpec) (t : SFW) :
    Sub (.sfw t) (.query (q.deep f)) ↔ ∃ s, Sub (.sfw s) (.query q) ∧ t = s.deep f := by
  rw [← mem_selects, (C60_selects hf q).1]
  simp only [← mem_selects, List.mem_map]
  exact ⟨fun ⟨s, h, e⟩ => ⟨s, h, e.symm⟩, fun ⟨s, h, e⟩ => ⟨s, h, e.symm⟩⟩

/-- **C68.** No SELECT that is a part of the query in the text gives a row of another owner. -/
theorem C68_parts (hfmt : FmtNum fmt) (cfg : Config) (hw : MapsWell cfg.mapping) {t : Str} {q : QuerySpec} (h : construct cfg t = .ok q)
    (hu : All (Usual (!cfg.residue)) (.query q)) (ho : ∀ n k, o n = some k → k ≠ []) (v : Str) (n : Nat) :
    ∃ p, parseIt cfg ((runSteps [.guard (ownedBy o v), .limit n] q).print fmt) = .ok p ∧
      ∀ γ ρ, SpellingFree fmt γ ρ → ∀ s, Sub (.sfw s) (.query p) → OnlyOwn o v γ ρ s := by
  obtain ⟨p, h1, -, h2⟩ := C68_geometry hfmt cfg hw h hu ho v n
  exact ⟨p, h1, fun γ ρ hs s hp => h2 γ ρ hs s (mem_selects.2 hp)⟩

/-! ### Example -/

private def nested : QuerySpec :=
  match construct ⟨fun _ => none, false⟩ cs!"SELECT a FROM t WHERE EXISTS (SELECT b FROM u)" with
  | .ok q => q
  | .error _ => tightTree

/-- A SELECT in a subquery of a condition is a part of the query. -/
example : construct ⟨fun _ => none, false⟩ cs!"SELECT a FROM t WHERE EXISTS (SELECT b FROM u)" = .ok nested ∧
    ∃ s, Sub (.sfw s) (.query nested) ∧ fromNames s.tables = [cs!"u"] := by
  refine ⟨by kernel_rfl, ?_⟩
  have h : (nested.selects[1]?.map fun s => fromNames s.tables) = some [cs!"u"] := by kernel_rfl
  obtain ⟨s, h1, h2⟩ := Option.map_eq_some_iff.1 h
  exact ⟨s, mem_selects.1 (List.mem_of_getElem? h1), h2⟩

end Adql
