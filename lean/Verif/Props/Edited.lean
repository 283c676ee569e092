import Verif.Spec.Restrict
import Verif.Props.Same
import Verif.Props.Update

/-!
# C56: a query that a program has built or changed is formatted to a text that is read as this query

C52 is about accepted queries.  The classes of the library are open: programs can fill them and change parsed queries.
-/

namespace Adql

open Spec Fwd

variable {fmt : Str → Str} {nt : Bool} {M : Str → Prop}

/-- **C56.** Every well-made tree, however it was made, is formatted to a text that is accepted and read as the same query,
and from then on neither the tree nor the text changes. -/
theorem C56_tree (hfmt : FmtNum fmt) (cfg : Config) {q : QuerySpec} (h : All (WellMade (!cfg.residue) M) (.query q)) :
    ∃ q', parseIt cfg (q.print fmt) = .ok q' ∧ SameQuery fmt q q' ∧ parseIt cfg (q'.print fmt) = .ok q' := by
  obtain ⟨t, -, ht⟩ := sp_query (nt := !cfg.residue) (M := M) h
  obtain ⟨q', t, e, h1, h2, h3, h4, h5⟩ := C52_core_language hfmt ht
  haveI : Fits (anyUp (!cfg.residue)).out cfg := ⟨nofun, by simp [anyUp, Mode.out]⟩
  have h6 : parseIt cfg (q.print fmt) = .ok q' := h1 ▸ C39_accepts cfg h3 h2
  exact ⟨q', h6, h5, h4 ▸ h6⟩

/-- **C56**, the other direction of C51: every well-made tree is the tree of some text, with some table mapping. -/
theorem C56_reached {q : QuerySpec} (h : All (WellMade nt M) (.query q)) : ∃ m s, parseIt ⟨m, !nt⟩ s = .ok q := by
  obtain ⟨t, -, ht⟩ := sp_query (nt := nt) (M := M) h
  refine ⟨(anyUp nt).up, t, ?_⟩
  haveI : Fits (anyUp nt) ⟨(anyUp nt).up, !nt⟩ := ⟨fun _ _ h => h, fun h => by
    have : nt = true := h
    rw [this]; rfl⟩
  simpa using C39_accepts ⟨(anyUp nt).up, !nt⟩ (b := []) ht nofun

/-- Parsed trees are well-made, unless they have one of the things that `Usual` excludes. -/
theorem C56_parsed (cfg : Config) (hm : MapsWell cfg.mapping) {s : Str} {q : QuerySpec} (h : construct cfg s = .ok q)
    (hn : nt = true → cfg.residue = false) (hu : All (Usual nt) (.query q)) : All (WellMade nt cfg.Mapped) (.query q) :=
  fun m hs => ⟨(construct_inv h m hs).1, (construct_inv h m hs).2.1,
    Reach.usual_regular hm hn (fun h => h) (construct_came h) hu m hs⟩

/-! ### Changes -/

/-- The parts of a well-made tree. -/
theorem wellMade_query {q : QuerySpec} : All (WellMade nt M) (.query q) ↔
    (q.with_ ≠ With.dflt → All (WellMade nt M) (.with_ q.with_)) ∧ (∀ s ∈ components q, All (WellMade nt M) (.sfw s)) ∧
    (∀ op ∈ unionOps q, OneOf [cs!"UNION", cs!"UNION ALL", cs!"UNION DISTINCT"] op) ∧
    (∀ x ∈ q.groupBy, All (WellMade nt M) (.group x)) ∧ (q.having ≠ SC.dflt → All (WellMade nt M) (.sc q.having)) ∧
    ∀ x ∈ q.orderBy, All (WellMade nt M) (.sort x) := by
  obtain ⟨w, ⟨i, as⟩, g, hv, o⟩ := q
  constructor
  · intro h
    have hl : All (WellMade nt M) (.sfwList (.mk i as)) := h.sub (.inr (.inl rfl))
    refine ⟨fun hw => h.sub (.inl ⟨hw, rfl⟩), ?_, ?_, fun x hx => h.sub (.inr (.inr (.inl ⟨x, hx, rfl⟩))),
      fun hh => h.sub (.inr (.inr (.inr (.inl ⟨hh, rfl⟩)))), fun x hx => h.sub (.inr (.inr (.inr (.inr ⟨x, hx, rfl⟩))))⟩
    · intro s hs
      rcases List.mem_cons.1 hs with rfl | hs
      · exact hl.sub (.inl rfl)
      · obtain ⟨⟨op, s'⟩, ha, rfl⟩ := List.mem_map.1 hs
        exact (hl.sub (.inr ⟨_, ha, rfl⟩)).sub rfl
    · intro op ho
      obtain ⟨⟨op', s'⟩, ha, rfl⟩ := List.mem_map.1 ho
      exact (hl.sub (.inr ⟨_, ha, rfl⟩)).here.1
  · rintro ⟨h1, h2, h3, h4, h5, h6⟩
    refine all_iff.2 ⟨⟨trivial, trivial, trivial⟩, ?_⟩
    rintro m (⟨hw, rfl⟩ | rfl | ⟨x, hx, rfl⟩ | ⟨hh, rfl⟩ | ⟨x, hx, rfl⟩)
    · exact h1 hw
    · refine all_iff.2 ⟨⟨trivial, trivial, trivial⟩, ?_⟩
      rintro m (rfl | ⟨⟨op, s⟩, ha, rfl⟩)
      · exact h2 _ (List.mem_cons_self)
      · refine all_iff.2 ⟨⟨h3 op (List.mem_map.2 ⟨_, ha, rfl⟩), trivial, trivial⟩, ?_⟩
        rintro m rfl
        exact h2 s (List.mem_cons_of_mem _ (List.mem_map.2 ⟨_, ha, rfl⟩))
    · exact h4 x hx
    · exact h5 hh
    · exact h6 x hx

theorem changeAt_mem {α : Type} {f : α → α} : ∀ {i : Nat} {l : List α} {a : α}, a ∈ changeAt f i l → a ∈ l ∨ ∃ b ∈ l, a = f b
  | 0, [], _, h => by cases h
  | 0, b :: l, a, h => by
    rcases List.mem_cons.1 (show a ∈ f b :: l from h) with rfl | h
    · exact .inr ⟨b, by simp, rfl⟩
    · exact .inl (by simp [h])
  | i + 1, [], _, h => by cases h
  | i + 1, b :: l, a, h => by
    rw [changeAt_cons] at h
    rcases List.mem_cons.1 h with rfl | h
    · exact .inl (by simp)
    · rcases changeAt_mem h with h | ⟨b, hb, rfl⟩
      · exact .inl (by simp [h])
      · exact .inr ⟨b, by simp [hb], rfl⟩

/-- **C56**, writing to the SELECT of a component: if the new SELECT is well-made, so is the query. -/
theorem C56_write {q q' : QuerySpec} {i : Nat} {f : Select → Select} (h : All (WellMade nt M) (.query q))
    (hf : ∀ s, All (WellMade nt M) (.select s) → All (WellMade nt M) (.select (f s))) (hw : Written i f q q') :
    All (WellMade nt M) (.query q') := by
  obtain ⟨h1, h2, h3, h4, h5, h6⟩ := wellMade_query.1 h
  obtain ⟨e1, e2, e3, e4, e5, e6⟩ := hw
  refine wellMade_query.2 ⟨e3 ▸ h1, ?_, e2 ▸ h3, e4 ▸ h4, e5 ▸ h5, e6 ▸ h6⟩
  intro s hs
  rw [e1] at hs
  rcases changeAt_mem hs with hs | ⟨⟨s, ts, w⟩, hb, rfl⟩
  · exact h2 s hs
  · have hb := h2 _ hb
    refine all_iff.2 ⟨⟨hb.here.1, trivial, trivial⟩, ?_⟩
    rintro m (rfl | ⟨t, ht, rfl⟩ | ⟨hw, rfl⟩)
    · exact hf s (hb.sub (.inl rfl))
    · exact hb.sub (.inr (.inl ⟨t, ht, rfl⟩))
    · exact hb.sub (.inr (.inr ⟨hw, rfl⟩))

/-- **C56**, any number of such writes through the accessors of the library: the query is formatted to a text that is read
as the changed query. -/
theorem C56_writes (hfmt : FmtNum fmt) (cfg : Config) : ∀ (ws : List (Nat × (Select → Select))) {q : QuerySpec}, Usable q →
    All (WellMade (!cfg.residue) M) (.query q) → (∀ w ∈ ws, w.1 < (components q).length) →
    (∀ w ∈ ws, ∀ s, All (WellMade (!cfg.residue) M) (.select s) → All (WellMade (!cfg.residue) M) (.select (w.2 s))) →
    ∃ q' p, q.writes ws = .ok q' ∧ parseIt cfg (q'.print fmt) = .ok p ∧ SameQuery fmt q' p
  | [], q, _, h, _, _ => by
    obtain ⟨p, h1, h2, -⟩ := C56_tree hfmt cfg h
    exact ⟨q, p, rfl, h1, h2⟩
  | (i, f) :: ws, q, hu, h, hi, hf => by
    obtain ⟨q1, e1, hw, hu1⟩ := (C46_select hu i f).1 (hi (i, f) (by simp))
    have h1 := C56_write h (hf (i, f) (by simp)) hw
    have hl : (components q1).length = (components q).length := by rw [hw.1, changeAt_length]
    obtain ⟨q', p, h2, h3, h4⟩ := C56_writes hfmt cfg ws hu1 h1 (fun w hm => by rw [hl]; exact hi w (by simp [hm]))
      fun w hm => hf w (by simp [hm])
    exact ⟨q', p, by simp only [QuerySpec.writes, e1]; exact h2, h3, h4⟩

/-- A new limit for the number of rows is such a write. -/
theorem C56_top {n : Nat} (hn : n ≤ topMax) (s : Select) (h : All (WellMade nt M) (.select s)) :
    All (WellMade nt M) (.select (setTop n s)) := by
  obtain ⟨q, t, c⟩ := s
  refine all_iff.2 ⟨⟨⟨h.here.1.1, hn⟩, trivial, trivial⟩, ?_⟩
  rintro m rfl
  exact h.sub rfl

theorem wellMade_both {c d : SC} (hc : c.isEmpty = false → All (WellMade nt M) (.sc c)) (hd : All (WellMade nt M) (.sc d)) :
    All (WellMade nt M) (.sc (both c d)) := by
  have hp : ∀ {c}, All (WellMade nt M) (.sc c) → All (WellMade nt M) (.bf (.mk [] (.sc c))) := by
    intro c h
    refine all_iff.2 ⟨⟨.inl rfl, trivial, fun _ => by rfl⟩, ?_⟩
    rintro m rfl
    refine all_iff.2 ⟨⟨trivial, trivial, trivial⟩, ?_⟩
    rintro m rfl
    exact h
  unfold both
  cases he : c.isEmpty with
  | true =>
    refine all_iff.2 ⟨⟨trivial, trivial, trivial⟩, ?_⟩
    rintro m rfl
    exact hp hd
  | false =>
    refine all_iff.2 ⟨⟨⟨cs!"AND", by simp, rfl⟩, trivial, rfl⟩, ?_⟩
    rintro m (rfl | rfl)
    · exact hp (hc he)
    · refine all_iff.2 ⟨⟨trivial, trivial, trivial⟩, ?_⟩
      rintro m rfl
      exact hp hd

/-- **C56**, one more condition for a SELECT, as a service adds that shows its users only a part of the rows: if the
condition is well-made, so is the result. -/
theorem C56_restrict {d : SC} (hd : All (WellMade nt M) (.sc d)) (s : SFW) (h : All (WellMade nt M) (.sfw s)) :
    All (WellMade nt M) (.sfw (restrict d s)) := by
  obtain ⟨s, ts, ⟨g, c⟩⟩ := s
  refine all_iff.2 ⟨⟨h.here.1, trivial, trivial⟩, ?_⟩
  rintro m (rfl | ⟨t, ht, rfl⟩ | ⟨-, rfl⟩)
  · exact h.sub (.inl rfl)
  · exact h.sub (.inr (.inl ⟨t, ht, rfl⟩))
  · have hw : Where.mk g c ≠ Where.dflt → All (WellMade nt M) (.where_ (.mk g c)) := fun hw => h.sub (.inr (.inr ⟨hw, rfl⟩))
    refine all_iff.2 ⟨⟨trivial, trivial, trivial⟩, ?_⟩
    rintro m (⟨hg, rfl⟩ | ⟨-, rfl⟩)
    · refine (hw fun e => hg ?_).sub (.inl ⟨hg, rfl⟩)
      injection e
    · refine wellMade_both (fun he => ?_) hd
      have hc : c ≠ SC.dflt := by rintro rfl; cases he
      refine (hw fun e => hc ?_).sub (.inr ⟨hc, rfl⟩)
      injection e

/-! ### What the changed query asks for -/

theorem valueFrom_bool : ∀ (acc : Bool) (l : List (Conn × Bool)),
    valueFrom (.ofBool acc) (l.map fun x => (x.1, .ofBool x.2)) = .ofBool (evalFrom id acc l)
  | _, [] => rfl
  | acc, (.and, a) :: l => by
    have : (Truth.ofBool acc).and (.ofBool a) = .ofBool (acc && a) := by cases acc <;> cases a <;> rfl
    simp only [List.map_cons, valueFrom, evalFrom, this]
    exact valueFrom_bool (acc && a) l
  | acc, (.or, a) :: l => by
    simp only [List.map_cons, valueFrom, evalFrom, valueFrom_bool a l, id]
    cases acc <;> cases evalFrom id a l <;> rfl

/-- The meaning of conditions is the one of SQL: on known values it is the one of C30, parentheses only group, NOT negates, and
the tables of AND, OR and NOT are related as they should be. -/
theorem C56_logic :
    (∀ q : CondSeq Bool, valueOf ⟨.ofBool q.first, q.rest.map fun x => (x.1, .ofBool x.2)⟩ = .ofBool (q.eval id)) ∧
    (∀ ρ c, holds ρ (.factor (.mk [] (.sc c))) = holds ρ c ∧ holds ρ (.factor (.mk cs!"NOT" (.sc c))) = (holds ρ c).not) ∧
    (∀ a b : Truth, (a.and b).not = a.not.or b.not ∧ (a.or b).not = a.not.and b.not ∧ a.not.not = a) ∧
    (Truth.yes.not = .no ∧ Truth.and .yes .unknown = .unknown ∧ Truth.and .no .unknown = .no ∧ ∀ a, Truth.and .yes a = a) :=
  ⟨fun q => valueFrom_bool q.first q.rest, fun _ _ => ⟨rfl, rfl⟩,
    fun a b => ⟨by cases a <;> cases b <;> rfl, by cases a <;> cases b <;> rfl, by cases a <;> rfl⟩,
    rfl, rfl, rfl, fun a => by cases a <;> rfl⟩

mutual

theorem parts_norm {ρ : BP → Truth} (hρ : ∀ p : BP, ρ (p.norm fmt) = ρ p) : ∀ c : SC, parts ρ (c.norm fmt) = parts ρ c
  | .factor b => by simp only [SC.norm, parts, factorHolds_norm hρ b]
  | .term b op s => by
    have : upper (upper op) = upper op := upper_upper op
    simp only [SC.norm, parts, factorHolds_norm hρ b, parts_norm hρ s, connOf, this]

theorem factorHolds_norm {ρ : BP → Truth} (hρ : ∀ p : BP, ρ (p.norm fmt) = ρ p) : ∀ b : BF, factorHolds ρ (b.norm fmt) = factorHolds ρ b
  | .mk n p => by simp only [BF.norm, factorHolds, primHolds_norm hρ p]

theorem primHolds_norm {ρ : BP → Truth} (hρ : ∀ p : BP, ρ (p.norm fmt) = ρ p) : ∀ p : BP, primHolds ρ (p.norm fmt) = primHolds ρ p
  | .sc s => by simp only [BP.norm, primHolds, parts_norm hρ s]
  | .pred p => hρ (.pred p)
  | .ve v => hρ (.ve v)

end

theorem whereHolds_norm {γ : Geom → Truth} {ρ : BP → Truth} (h : SpellingFree fmt γ ρ) : ∀ w : Where,
    whereHolds γ ρ (w.norm fmt) = whereHolds γ ρ w
  | .mk g c => by
    simp only [Where.norm, whereHolds, holds, Geom.norm_isEmpty, SC.norm_isEmpty, parts_norm h.1, h.2]

theorem and_yes (a : Truth) : a.and .yes = a := by cases a <;> rfl
theorem yes_and (a : Truth) : Truth.and .yes a = a := by cases a <;> rfl

/-- **C56.** A SELECT with one more condition asks for the rows for which all of it holds: the geometric constraint, the old
condition as a whole, and the new one. -/
theorem C56_means {γ : Geom → Truth} {ρ : BP → Truth} {d : SC} (hd : d.isEmpty = false) : ∀ s : SFW,
    whereHolds γ ρ (restrict d s).where_ = (sfwHolds γ ρ s).and (holds ρ d)
  | .mk s ts (.mk g c) => by
    simp only [restrict, SFW.where_, sfwHolds, both]
    cases hg : g.isEmpty <;> cases hc : c.isEmpty <;>
      simp [whereHolds, holds, parts, factorHolds, primHolds, SC.isEmpty, BF.isEmpty, BP.isEmpty, hg, hd, CondSeq.atom,
        CondSeq.join, and_yes, yes_and, valueOf, valueFrom, connOf, upper]

theorem valueFrom_and (a : Truth) : ∀ (b : Truth) (l : List (Conn × Truth)), (∀ x ∈ l, x.1 = .and) → valueFrom (a.and b) l = a.and (valueFrom b l)
  | b, [], _ => rfl
  | b, (.and, c) :: l, h => by
    have e : (a.and b).and c = a.and (b.and c) := by cases a <;> cases b <;> cases c <;> rfl
    simp only [valueFrom, e]
    exact valueFrom_and a _ l fun x hx => h x (List.mem_cons_of_mem _ hx)
  | b, (.or, c) :: l, h => by cases h _ List.mem_cons_self

/-- **C56.** Without a new condition: if the condition has no OR outside parentheses, or there is no condition, a WHERE clause asks for the rows
for which the geometric constraint and the condition hold. -/
theorem C56_where {γ : Geom → Truth} {ρ : BP → Truth} (s : Select) (ts : List TR) (g : Geom) (c : SC)
    (h : c.isEmpty = false → ∀ x ∈ (parts ρ c).rest, x.1 = .and) : whereHolds γ ρ (.mk g c) = sfwHolds γ ρ (.mk s ts (.mk g c)) := by
  cases hg : g.isEmpty <;> cases hc : c.isEmpty
  · simp only [whereHolds, sfwHolds, hg, hc, holds, valueOf, CondSeq.atom, CondSeq.join, List.nil_append, valueFrom]
    exact valueFrom_and _ _ _ (h hc)
  · simp [whereHolds, sfwHolds, hg, hc, and_yes]
  · simp [whereHolds, sfwHolds, hg, hc, yes_and]
  · simp [whereHolds, sfwHolds, hg, hc, Truth.and]

/-- A row is selected only if the value is `yes`: the geometric constraint, the old condition and the new one hold. -/
theorem C56_selected {γ : Geom → Truth} {ρ : BP → Truth} {d : SC} (hd : d.isEmpty = false) (s : Select) (ts : List TR) (g : Geom) (c : SC) :
    whereHolds γ ρ (restrict d (.mk s ts (.mk g c))).where_ = .yes ↔
      (g.isEmpty = false → γ g = .yes) ∧ (c.isEmpty = false → holds ρ c = .yes) ∧ holds ρ d = .yes := by
  rw [C56_means hd]
  have h : ∀ a b : Truth, a.and b = .yes ↔ a = .yes ∧ b = .yes := by intro a b; cases a <;> cases b <;> simp [Truth.and]
  cases hg : g.isEmpty <;> cases hc : c.isEmpty <;> simp [sfwHolds, h, hg, hc, and_assoc]

theorem normAddons_map : ∀ l : List Addon, normAddons fmt l = l.map (Addon.norm fmt)
  | [] => rfl
  | a :: l => by rw [normAddons, normAddons_map l, List.map_cons]

theorem components_norm : ∀ q : QuerySpec, components (q.norm fmt) = (components q).map (SFW.norm fmt)
  | .mk w (.mk i as) g h o => by
    simp only [QuerySpec.norm, SFWList.norm, components, QuerySpec.sfws, SFWList.initial, SFWList.addons, normAddons_map,
      List.map_cons, List.map_map]
    congr 1
    refine List.map_congr_left fun a _ => ?_
    cases a; rfl

theorem components_every {f : SFW → SFW} : ∀ q : QuerySpec, components (everySelect f q) = (components q).map f
  | .mk w (.mk i as) g h o => by
    simp only [everySelect, components, QuerySpec.sfws, SFWList.initial, SFWList.addons, List.map_cons, List.map_map]
    congr 1
    refine List.map_congr_left fun a _ => ?_
    cases a; rfl

theorem unionOps_every {f : SFW → SFW} : ∀ q : QuerySpec, unionOps (everySelect f q) = unionOps q
  | .mk w (.mk i as) g h o => by
    simp only [everySelect, unionOps, QuerySpec.sfws, SFWList.addons, List.map_map]
    refine List.map_congr_left fun a _ => ?_
    cases a; rfl

/-- Queries that differ only in spelling ask for the same rows. -/
theorem C56_same_rows {γ : Geom → Truth} {ρ : BP → Truth} (h : SpellingFree fmt γ ρ) {q q' : QuerySpec} (hs : SameQuery fmt q q') :
    ((components q').map fun s => whereHolds γ ρ s.where_) = (components q).map fun s => whereHolds γ ρ s.where_ := by
  have key : ∀ q : QuerySpec, ((components (q.norm fmt)).map fun s => whereHolds γ ρ s.where_) =
      (components q).map fun s => whereHolds γ ρ s.where_ := by
    intro q
    rw [components_norm, List.map_map]
    refine List.map_congr_left fun a _ => ?_
    obtain ⟨s, ts, w⟩ := a
    exact whereHolds_norm h w
  rw [← key q', hs, key q]

/-- In particular the values can depend on the formatted text of the simple conditions in any way, as they do in a database. -/
theorem C56_by_text (hfmt : FmtOnce fmt) (v w : Str → Truth) : SpellingFree fmt (fun g => v (g.print fmt)) fun p => w (p.print fmt) :=
  ⟨fun p => congrArg w (BP.norm_print hfmt p), fun g => congrArg v (Geom.norm_print hfmt g)⟩

/-- **C56**, with the condition in all SELECTs of a query: the formatted query is read as a query in which every SELECT asks
for the rows that it asked for before and for which the condition holds. -/
theorem C56_restricted (hfmt : FmtNum fmt) (cfg : Config) {q : QuerySpec} {d : SC} (h : All (WellMade (!cfg.residue) M) (.query q))
    (hd : All (WellMade (!cfg.residue) M) (.sc d)) (he : d.isEmpty = false) :
    ∃ p, parseIt cfg ((everySelect (restrict d) q).print fmt) = .ok p ∧ SameQuery fmt (everySelect (restrict d) q) p ∧
      ∀ γ ρ, SpellingFree fmt γ ρ →
        ((components p).map fun s => whereHolds γ ρ s.where_) = (components q).map fun s => (sfwHolds γ ρ s).and (holds ρ d) := by
  obtain ⟨h1, h2, h3, h4, h5, h6⟩ := wellMade_query.1 h
  have hr : All (WellMade (!cfg.residue) M) (.query (everySelect (restrict d) q)) := by
    refine wellMade_query.2 ⟨?_, fun s hs => ?_, unionOps_every q ▸ h3, ?_, ?_, ?_⟩
    · obtain ⟨w, ⟨i, as⟩, g, hv, o⟩ := q; exact h1
    · rw [components_every] at hs
      obtain ⟨s', hs', rfl⟩ := List.mem_map.1 hs
      exact C56_restrict hd s' (h2 s' hs')
    · obtain ⟨w, ⟨i, as⟩, g, hv, o⟩ := q; exact h4
    · obtain ⟨w, ⟨i, as⟩, g, hv, o⟩ := q; exact h5
    · obtain ⟨w, ⟨i, as⟩, g, hv, o⟩ := q; exact h6
  obtain ⟨p, e1, e2, -⟩ := C56_tree hfmt cfg hr
  refine ⟨p, e1, e2, fun γ ρ hf => ?_⟩
  rw [C56_same_rows hf e2, components_every, List.map_map]
  exact List.map_congr_left fun s _ => C56_means he s

/-- The condition can be taken from another query. -/
theorem C56_condition {q : QuerySpec} (h : All (WellMade nt M) (.query q)) {s : Select} {ts : List TR} {g : Geom} {c : SC}
    (hs : SFW.mk s ts (.mk g c) ∈ components q) (hc : c.isEmpty = false) : All (WellMade nt M) (.sc c) := by
  have h1 : c ≠ SC.dflt := by rintro rfl; cases hc
  refine (((wellMade_query.1 h).2.1 _ hs).sub (.inr (.inr ⟨fun e => h1 ?_, rfl⟩))).sub (.inr ⟨h1, rfl⟩)
  injection e

/-! ### Examples -/

private def c0 : Config := ⟨fun _ => none, false⟩

private theorem tight_parsed : construct c0 cs!"SELECT 'a'-b- -a AS b FROM t WHERE a<3AND not b IS NULL" = .ok tightTree := by kernel_rfl

private theorem tight_made : All (WellMade (!c0.residue) c0.Mapped) (.query tightTree) :=
  C56_parsed c0 nofun tight_parsed (fun _ => rfl) fun m hm => regular_usual (nt := true) (tightTree_regular m hm)

private theorem tightCond_made : All (WellMade (!c0.residue) c0.Mapped) (.sc tightCond) :=
  C56_condition tight_made (List.mem_cons_self) rfl

example (hfmt : FmtNum fmt) : ∃ p, parseIt c0 ((everySelect (restrict tightCond) tightTree).print fmt) = .ok p ∧
    SameQuery fmt (everySelect (restrict tightCond) tightTree) p := by
  obtain ⟨p, h1, h2, -⟩ := C56_restricted hfmt c0 tight_made tightCond_made rfl
  exact ⟨p, h1, h2⟩

example : (everySelect (restrict tightCond) tightTree).print id =
    cs!"SELECT 'a'-b--a AS b FROM t WHERE (a < 3 AND not b IS NULL) AND (a < 3 AND not b IS NULL)" := by kernel_rfl

example (hfmt : FmtNum fmt) : ∃ q' p, tightTree.writes [(0, setTop 7), (0, setTop 5)] = .ok q' ∧ parseIt c0 (q'.print fmt) = .ok p ∧
    SameQuery fmt q' p := by
  refine C56_writes hfmt c0 (M := c0.Mapped) _ ⟨rfl, by decide⟩ tight_made (by decide) ?_
  intro w hw s hs
  simp only [List.mem_cons, List.not_mem_nil, or_false] at hw
  rcases hw with rfl | rfl <;> exact C56_top (by decide) s hs

/-- a condition on a column -/
private def colCond (x : Str) : BF := .mk [] (.ve (.mk (.mk [] (.vep (.mk (.col (.col x)) []))) []))

/-- **C56**, limits: without the parentheses the new condition does not restrict the rows, neither behind a condition with OR
nor, when it has an OR itself, behind a geometric constraint. -/
theorem C56_parentheses :
    (∃ ρ, holds ρ (.term (colCond cs!"a") cs!"OR" (.term (colCond cs!"b") cs!"AND" (.factor (colCond cs!"d")))) = .yes ∧
      holds ρ (.factor (colCond cs!"d")) = .no) ∧
    ∀ g : Geom, g.isEmpty = false → ∃ γ ρ, whereHolds γ ρ (.mk g (.term (colCond cs!"a") cs!"OR" (.factor (colCond cs!"b")))) = .yes ∧
      γ g = .no := by
  refine ⟨⟨fun p => if p.print id == cs!"a" then .yes else .no, by kernel_rfl, by kernel_rfl⟩, fun g hg => ⟨fun _ => .no, fun _ => .yes, ?_, rfl⟩⟩
  simp [whereHolds, hg, parts, factorHolds, primHolds, colCond, SC.isEmpty,
    CondSeq.atom, CondSeq.join, valueOf, valueFrom, connOf, upper]
  try decide

end Adql
