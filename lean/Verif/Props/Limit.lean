import Verif.Spec.Limit
import Verif.Props.Canonical

/-!
# C62: the number of rows can be limited
-/

namespace Adql

open Spec Fwd

variable {fmt : Str → Str} {nt : Bool} {M : Str → Prop}

theorem tops_components : ∀ q : QuerySpec, tops q = (components q).map fun s => s.select.top
  | .mk w (.mk ⟨⟨_, _, _⟩, _, _⟩ as) g h o => by
    simp only [tops, tops.topOf, components, QuerySpec.sfws, SFWList.initial, SFWList.addons, List.map_cons, List.map_map, SFW.select, Select.top]
    congr 1
    refine List.map_congr_left fun a _ => ?_
    obtain ⟨op, ⟨⟨_, _, _⟩, _, _⟩⟩ := a
    rfl

theorem every_made {f : SFW → SFW} {q : QuerySpec} (h : All (WellMade nt M) (.query q))
    (hf : ∀ s, All (WellMade nt M) (.sfw s) → All (WellMade nt M) (.sfw (f s))) : All (WellMade nt M) (.query (everySelect f q)) := by
  obtain ⟨h1, h2, h3, h4, h5, h6⟩ := wellMade_query.1 h
  refine wellMade_query.2 ⟨?_, fun s hs => ?_, unionOps_every q ▸ h3, ?_, ?_, ?_⟩
  · obtain ⟨w, ⟨i, as⟩, g, hv, o⟩ := q; exact h1
  · rw [components_every] at hs
    obtain ⟨s', hs', rfl⟩ := List.mem_map.1 hs
    exact hf s' (h2 s' hs')
  · obtain ⟨w, ⟨i, as⟩, g, hv, o⟩ := q; exact h4
  · obtain ⟨w, ⟨i, as⟩, g, hv, o⟩ := q; exact h5
  · obtain ⟨w, ⟨i, as⟩, g, hv, o⟩ := q; exact h6

theorem limit_sfw_made {n : Nat} (s : SFW) (h : All (WellMade nt M) (.sfw s)) : All (WellMade nt M) (.sfw (limitRows n s)) := by
  obtain ⟨⟨a, t, c⟩, ts, w⟩ := s
  refine all_iff.2 ⟨⟨h.here.1, trivial, trivial⟩, ?_⟩
  rintro m (rfl | ⟨t, ht, rfl⟩ | ⟨hw, rfl⟩)
  · have hs : All (WellMade nt M) (.select (.mk a t c)) := h.sub (.inl rfl)
    refine all_iff.2 ⟨⟨⟨hs.here.1.1, Nat.le_trans (Nat.min_le_left _ _) hs.here.1.2⟩, trivial, trivial⟩, ?_⟩
    rintro m rfl
    exact hs.sub rfl
  · exact h.sub (.inr (.inl ⟨t, ht, rfl⟩))
  · exact h.sub (.inr (.inr ⟨hw, rfl⟩))

theorem limit_uses (n : Nat) : ∀ s : SFW, (limitRows n s).uses fmt = s.uses fmt
  | .mk (.mk _ _ _) _ _ => rfl

theorem limit_usesAddons (n : Nat) : ∀ l : List Addon, usesAddons fmt (l.map (onSelect (limitRows n))) = usesAddons fmt l
  | [] => rfl
  | .mk op s :: l => by simp only [List.map_cons, onSelect, usesAddons, Addon.uses, limit_uses, limit_usesAddons n l]

/-- Queries that differ only in spelling have the same TOPs. -/
theorem tops_same {q p : QuerySpec} (h : SameQuery fmt q p) : tops p = tops q := by
  have hc : (components p).map (SFW.norm fmt) = (components q).map (SFW.norm fmt) := by
    rw [← components_norm, ← components_norm, show p.norm fmt = _ from h]
  rw [tops_components, tops_components]
  have := congrArg (List.map fun s : SFW => s.select.top) hc
  simp only [List.map_map] at this
  refine Eq.trans (List.map_congr_left ?_) (this.trans (List.map_congr_left ?_)) <;>
  · rintro ⟨⟨_, _, _⟩, _, _⟩ _; rfl

/-- What limits do to a tree. -/
theorem C62_tree (n : Nat) (q : QuerySpec) :
    tops (everySelect (limitRows n) q) = (tops q).map (min · n) ∧ (everySelect (limitRows n) q).uses fmt = q.uses fmt ∧
      ((∀ t ∈ tops q, t ≤ n) → everySelect (limitRows n) q = q) ∧
      ∀ m, everySelect (limitRows m) (everySelect (limitRows n) q) = everySelect (limitRows (min n m)) q := by
  have h1 : ∀ (m : Nat) (s : SFW), limitRows m (limitRows n s) = limitRows (min n m) s := by
    rintro m ⟨⟨_, _, _⟩, _, _⟩
    simp only [limitRows, limitSelect, Nat.min_assoc]
  have h2 : ∀ s : SFW, tops.topOf s ≤ n → limitRows n s = s := by
    rintro ⟨⟨_, t, _⟩, _, _⟩ h
    simp only [limitRows, limitSelect, Nat.min_eq_left (show t ≤ n from h)]
  have h3 : ∀ s : SFW, tops.topOf (limitRows n s) = min (tops.topOf s) n := by rintro ⟨⟨_, _, _⟩, _, _⟩; rfl
  obtain ⟨w, ⟨i, as⟩, g, hv, o⟩ := q
  refine ⟨?_, ?_, fun h => ?_, fun m => ?_⟩
  · simp only [everySelect, tops, List.map_cons, List.map_map, h3]
    congr 1
    refine List.map_congr_left fun a _ => ?_
    obtain ⟨op, s⟩ := a
    exact h3 s
  · simp only [everySelect, QuerySpec.uses, SFWList.uses, limit_uses, limit_usesAddons]
  · simp only [everySelect, h2 i (h _ List.mem_cons_self)]
    congr 2
    refine (List.map_congr_left fun a ha => ?_).trans (List.map_id as)
    obtain ⟨op, s⟩ := a
    simp only [onSelect, id, h2 s (h _ (List.mem_cons_of_mem _ (List.mem_map.2 ⟨_, ha, rfl⟩)))]
  · simp only [everySelect, h1, List.map_map]
    congr 2
    refine List.map_congr_left fun a _ => ?_
    obtain ⟨op, s⟩ := a
    simp only [Function.comp_def, onSelect, h1]

/-- **C62.** With a limit in every SELECT of a well-made query, the formatted text is read as a query whose SELECTs have at most this TOP, and
the TOP that they had if it was less; they ask for the same rows otherwise, and nothing else is named. -/
theorem C62_limited (hfmt : FmtNum fmt) (hf : FmtOnce fmt) (cfg : Config) {q : QuerySpec} (h : All (WellMade (!cfg.residue) M) (.query q)) (n : Nat) :
    ∃ p, parseIt cfg ((everySelect (limitRows n) q).print fmt) = .ok p ∧ tops p = (tops q).map (min · n) ∧ (∀ t ∈ tops p, t ≤ n) ∧
      p.uses fmt = q.uses fmt ∧ ∀ γ ρ, SpellingFree fmt γ ρ →
        ((components p).map fun s => whereHolds γ ρ s.where_) = (components q).map fun s => whereHolds γ ρ s.where_ := by
  have hm := every_made h (limit_sfw_made (n := n))
  obtain ⟨p, h1, h2, -⟩ := C56_tree hfmt cfg hm
  have ht : tops p = (tops q).map (min · n) := by rw [← (C62_tree (fmt := fmt) n q).1, tops_same h2]
  refine ⟨p, h1, ht, fun t h => ?_, (C57_same hf h2).trans (C62_tree n q).2.1, fun γ ρ hr => ?_⟩
  · rw [ht] at h
    obtain ⟨a, -, rfl⟩ := List.mem_map.1 h
    exact Nat.min_le_right _ _
  · rw [C56_same_rows hr h2, components_every, List.map_map]
    refine List.map_congr_left fun s _ => ?_
    obtain ⟨⟨_, _, _⟩, _, _⟩ := s
    rfl

/-- **C62** for every accepted text whose tree has nothing that `Usual` excludes. -/
theorem C62_accepted (hfmt : FmtNum fmt) (hf : FmtOnce fmt) (cfg : Config) (hm : MapsWell cfg.mapping) {s : Str} {q : QuerySpec}
    (h : construct cfg s = .ok q) (hu : All (Usual (!cfg.residue)) (.query q)) (n : Nat) :
    ∃ p, parseIt cfg ((everySelect (limitRows n) q).print fmt) = .ok p ∧ tops p = (tops q).map (min · n) ∧ (∀ t ∈ tops p, t ≤ n) ∧
      p.uses fmt = q.uses fmt := by
  obtain ⟨p, h1, h2, h3, h4, -⟩ := C62_limited hfmt hf cfg (C56_parsed cfg hm h (by simp) hu) n
  exact ⟨p, h1, h2, h3, h4⟩

/-! ### Examples -/

private def c0 : Config := ⟨fun _ => none, false⟩

example (hfmt : FmtNum fmt) (hf : FmtOnce fmt) : ∃ p, parseIt c0 ((everySelect (limitRows 100) tightTree).print fmt) = .ok p ∧ tops p = [100] := by
  obtain ⟨p, h1, h2, -⟩ := C62_accepted hfmt hf c0 nofun (s := cs!"SELECT 'a'-b- -a AS b FROM t WHERE a<3AND not b IS NULL") (by kernel_rfl)
    (fun m hm => regular_usual (nt := true) (tightTree_regular m hm)) 100
  exact ⟨p, h1, h2⟩

example : (everySelect (limitRows 100) tightTree).print id = cs!"SELECT TOP 100 'a'-b--a AS b FROM t WHERE a < 3 AND not b IS NULL" := by kernel_rfl

/-- The limit is for every SELECT: a query with UNION can give more rows. -/
example : ∃ q, construct c0 cs!"SELECT TOP 7 a FROM t UNION ALL SELECT a FROM u" = .ok q ∧ tops q = [7, 2 ^ 64 - 1] ∧
    (everySelect (limitRows 100) q).print id = cs!"SELECT TOP 7 a FROM t UNION ALL SELECT TOP 100 a FROM u" := by
  let v : Columns := .items [.nonAsVE (.nb (.mk (.mk [] (.vep (.mk (.col (.col cs!"a")) []))) []))]
  exact ⟨.mk With.dflt (.mk (.mk (.mk [] 7 v) [.tc ⟨cs!"t", []⟩] Where.dflt) [.mk cs!"UNION ALL" (.mk (.mk [] topMax v) [.tc ⟨cs!"u", []⟩] Where.dflt)])
    [] SC.dflt [], by kernel_rfl, by kernel_rfl, by kernel_rfl⟩

end Adql
