import Verif.Model.DeepReads
import Verif.Model.SelectsSub

/-!
# The SELECTs of a query are all the SELECTs that are parts of it
-/

namespace Adql

open Spec

theorem selects_of_sub {s : SFW} {n : Node} (h : Sub (.sfw s) n) : s ∈ n.selects := by
  induction h with
  | refl =>
    obtain ⟨a, b, c⟩ := s
    show SFW.mk a b c ∈ (SFW.mk a b c).selects
    simp only [SFW.selects, List.mem_cons, true_or]
  | step hc _ ih => exact child_selects _ _ hc s ih

/-- `selects` has all SELECTs that are parts of a query, at any depth, and nothing else. -/
theorem mem_selects {s : SFW} {q : QuerySpec} : s ∈ q.selects ↔ Sub (.sfw s) (.query q) :=
  ⟨q.sel_sub s, selects_of_sub⟩

end Adql
