import Verif.Props.Parens

/-!
# C26: what the parenthesis check does at every depth (Query.cxx L36-L95)

The depth is a `ushort`.  C25 says what the check does below 65536 parentheses and C26 that this does not
continue.  Here is the answer for all texts: the check counts modulo 65536.
-/

namespace Adql

open Spec

/-- Some `)` of `t` is met when the number of open parentheses, `d` at the start, is `r` modulo 65536. -/
def Spec.ClosesAt (r d : Int) (t : Str) : Prop := ∃ u v, t = u ++ ')' :: v ∧ (65536 : Int) ∣ d + net u - r

theorem closesAt_nil {r d : Int} : ¬ ClosesAt r d [] := by
  rintro ⟨u, v, h, -⟩
  simp at h

theorem closesAt_cons {r d : Int} {c : Char} {t : Str} : ClosesAt r d (c :: t) ↔
    (c = ')' ∧ (65536 : Int) ∣ d - r) ∨
      ClosesAt r (d + (if c = '(' then 1 else if c = ')' then -1 else 0)) t := by
  constructor
  · rintro ⟨u, v, h, hd⟩
    cases u with
    | nil =>
      simp only [List.nil_append, List.cons.injEq] at h
      exact .inl ⟨h.1, by simpa [net] using hd⟩
    | cons x u =>
      simp only [List.cons_append, List.cons.injEq] at h
      obtain ⟨rfl, rfl⟩ := h
      refine .inr ⟨u, v, rfl, ?_⟩
      simp only [net] at hd
      rwa [show d + (if c = '(' then 1 else if c = ')' then -1 else 0) + net u - r =
        d + ((if c = '(' then 1 else if c = ')' then -1 else 0) + net u) - r by omega]
  · rintro (⟨rfl, h⟩ | ⟨u, v, rfl, hd⟩)
    · exact ⟨[], t, rfl, by simpa [net] using h⟩
    · refine ⟨c :: u, v, rfl, ?_⟩
      simp only [net]
      rwa [show d + ((if c = '(' then 1 else if c = ')' then -1 else 0) + net u) - r =
        d + (if c = '(' then 1 else if c = ')' then -1 else 0) + net u - r by omega]

theorem closesAt_append {r d : Int} : ∀ {s t : Str}, ClosesAt r d (s ++ t) ↔
    ClosesAt r d s ∨ ClosesAt r (d + net s) t
  | [], t => by simp [closesAt_nil, net]
  | c :: s, t => by
    rw [List.cons_append, closesAt_cons, closesAt_cons, closesAt_append, or_assoc]
    simp only [net, Int.add_assoc]

/-- only the depth modulo 65536 counts -/
theorem closesAt_congr {r d d' : Int} {t : Str} (h : (65536 : Int) ∣ d - d') :
    ClosesAt r d t ↔ ClosesAt r d' t := by
  constructor <;> rintro ⟨u, v, e, k⟩ <;> exact ⟨u, v, e, by omega⟩

theorem scanLeft_mod : ∀ {t : Str} {d : Nat} {w : Bool} {x : Nat × Bool}, d < 65536 →
    (scanLeft t d w = .ok x ↔ ¬ ClosesAt 0 d t ∧ (65536 : Int) ∣ d + net t - x.1 ∧ x.1 < 65536 ∧
      (x.2 = true ↔ w = true ∧ ¬ ClosesAt 1 d t))
  | [], d, w, x, h => by
    obtain ⟨e, w'⟩ := x
    simp only [scanLeft, Except.ok.injEq, Prod.mk.injEq, closesAt_nil, not_false_eq_true, true_and, net,
      Int.add_zero, and_true]
    constructor
    · rintro ⟨rfl, rfl⟩; exact ⟨by omega, h, Iff.rfl⟩
    · rintro ⟨a, b, c⟩; exact ⟨by omega, (Bool.eq_iff_iff.2 c).symm⟩
  | c :: t, d, w, x, h => by
    unfold scanLeft
    rw [closesAt_cons, closesAt_cons]
    simp only [net]
    by_cases h1 : c = '('
    · subst h1
      rw [if_pos rfl, scanLeft_mod (Nat.mod_lt _ (by omega))]
      have hc : (65536 : Int) ∣ ((d + 1) % 65536 : Nat) - ((d : Int) + 1) := by omega
      rw [closesAt_congr hc, closesAt_congr hc]
      simp only [show ¬ ('(' = ')') by decide, false_and, false_or, if_true]
      exact and_congr Iff.rfl (and_congr (by omega) Iff.rfl)
    · rw [if_neg h1]
      by_cases h2 : c = ')'
      · subst h2
        simp only [if_neg h1, if_true, true_and]
        by_cases h3 : d = 0
        · subst h3
          rw [if_pos rfl]
          simp
        · rw [if_neg h3, scanLeft_mod (by omega)]
          have hc : (65536 : Int) ∣ ((d - 1 : Nat) : Int) - ((d : Int) + -1) := by omega
          rw [closesAt_congr hc, closesAt_congr hc]
          have hz : ¬ (65536 : Int) ∣ d - 0 := by omega
          simp only [hz, false_or]
          refine and_congr Iff.rfl (and_congr (by omega) (and_congr Iff.rfl ?_))
          by_cases h4 : d - 1 = 0
          · have hd : (65536 : Int) ∣ d - 1 := by omega
            simp [h4, hd]
          · have hd : ¬ (65536 : Int) ∣ d - 1 := by omega
            simp [h4, hd]
      · rw [if_neg h2]
        simp only [if_neg h1, h2, if_false, false_and, false_or, Int.add_zero, Int.zero_add]
        exact scanLeft_mod h

theorem scanGeom_mod_false : ∀ {t : Str} {d : Nat} {w : Bool}, d < 65536 →
    (scanGeom false t d false = .ok w ↔ ¬ ClosesAt 0 d t ∧ w = false)
  | [], d, w, h => by simp [scanGeom, closesAt_nil, eq_comm]
  | c :: t, d, w, h => by
    unfold scanGeom
    rw [closesAt_cons]
    simp only [Bool.false_eq_true, if_false, Bool.and_false]
    by_cases h1 : c = '('
    · subst h1
      rw [if_pos rfl, scanGeom_mod_false (Nat.mod_lt _ (by omega))]
      have hc : (65536 : Int) ∣ ((d + 1) % 65536 : Nat) - ((d : Int) + 1) := by omega
      rw [closesAt_congr hc]
      simp
    · rw [if_neg h1]
      by_cases h2 : c = ')'
      · subst h2
        simp only [if_neg h1, if_true, true_and]
        by_cases h3 : d = 0
        · subst h3
          rw [if_pos rfl]
          simp
        · rw [if_neg h3, scanGeom_mod_false (by omega)]
          have hc : (65536 : Int) ∣ ((d - 1 : Nat) : Int) - ((d : Int) + -1) := by omega
          rw [closesAt_congr hc]
          have hz : ¬ (65536 : Int) ∣ d - 0 := by omega
          simp only [hz, false_or]
      · rw [if_neg h2]
        simp only [if_neg h1, h2, if_false, false_and, false_or, Int.add_zero]
        exact scanGeom_mod_false h

theorem snoc_cases {c : Char} {t : Str} (P : Str → Prop) : (∃ n, c :: t = n ++ [')'] ∧ P n) ↔
    (t = [] ∧ c = ')' ∧ P []) ∨ ∃ n, t = n ++ [')'] ∧ P (c :: n) := by
  constructor
  · rintro ⟨n, hn, hp⟩
    cases n with
    | nil => simp only [List.nil_append, List.cons.injEq] at hn; exact .inl ⟨hn.2, hn.1, hp⟩
    | cons x n =>
      simp only [List.cons_append, List.cons.injEq] at hn
      obtain ⟨rfl, rfl⟩ := hn
      exact .inr ⟨n, rfl, hp⟩
  · rintro (⟨rfl, rfl, hp⟩ | ⟨n, rfl, hp⟩)
    · exact ⟨[], rfl, hp⟩
    · exact ⟨c :: n, rfl, hp⟩

theorem scanGeom_mod_true : ∀ {t : Str} {d : Nat}, d < 65536 →
    (scanGeom true t d false = .ok false ↔ ¬ ClosesAt 0 d t ∧ ¬ ClosesAt 1 d t) ∧
    (scanGeom true t d false = .ok true ↔ ∃ n, t = n ++ [')'] ∧ ¬ ClosesAt 0 d n ∧ ¬ ClosesAt 1 d n ∧
      (65536 : Int) ∣ d + net n - 1)
  | [], d, h => by simp [scanGeom, closesAt_nil]
  | c :: t, d, h => by
    rw [snoc_cases]
    unfold scanGeom
    simp only [closesAt_cons, Bool.false_eq_true, if_false, Bool.and_true, closesAt_nil, net]
    by_cases h1 : c = '('
    · subst h1
      rw [if_pos rfl]
      obtain ⟨i1, i2⟩ := scanGeom_mod_true (t := t) (d := (d + 1) % 65536) (Nat.mod_lt _ (by omega))
      have hc : (65536 : Int) ∣ ((d + 1) % 65536 : Nat) - ((d : Int) + 1) := by omega
      rw [i1, i2]
      simp only [closesAt_congr hc, show ¬ ('(' = ')') by decide, false_and, and_false, false_or, if_true,
        true_and]
      refine exists_congr fun n => and_congr Iff.rfl (and_congr Iff.rfl (and_congr Iff.rfl (by omega)))
    · rw [if_neg h1]
      by_cases h2 : c = ')'
      · subst h2
        simp only [if_neg h1, if_true, true_and]
        by_cases h3 : d = 0
        · subst h3
          rw [if_pos rfl]
          simp
        · have hz : ¬ (65536 : Int) ∣ d - 0 := by omega
          rw [if_neg h3]
          simp only [hz, false_or]
          by_cases h4 : d - 1 = 0
          · have hd : d = 1 := by omega
            subst hd
            simp only [Nat.sub_self, decide_true]
            rw [scanGeom_closed, scanGeom_closed]
            simp
          · have hd : ¬ (65536 : Int) ∣ d - 1 := by omega
            have hd' : ¬ (65536 : Int) ∣ (d : Int) + 0 - 1 := by omega
            rw [show decide (d - 1 = 0) = false from decide_eq_false h4]
            obtain ⟨i1, i2⟩ := scanGeom_mod_true (t := t) (d := d - 1) (by omega)
            have hc : (65536 : Int) ∣ ((d - 1 : Nat) : Int) - ((d : Int) + -1) := by omega
            rw [i1, i2]
            simp only [closesAt_congr hc, hd, hd', false_or, and_false, true_and]
            refine exists_congr fun n => and_congr Iff.rfl (and_congr Iff.rfl (and_congr Iff.rfl (by omega)))
      · rw [if_neg h2]
        simp only [if_neg h1, h2, if_false, false_and, and_false, false_or, Int.add_zero, Int.zero_add]
        exact scanGeom_mod_true h

/-- **C26, the answer for all texts.** The check counts modulo 65536.  It accepts a pair unchanged when the
left part opens nothing at its start or closes it again, its count is 0, and no `)` comes at count 0; and when
the left part keeps its first parenthesis open, has count 0 or 1, and no `)` comes at count 0 or 1.  It takes
the first `(` and the last `)` away when that `)` is the first one to come at count 1. -/
theorem C26_exact (left geom left' geom' : Str) :
    checkAndAdjustParens left geom = .ok (left', geom') ↔
      ((left.head? = some '(' → ClosesAt 1 0 left) ∧ (65536 : Int) ∣ net left ∧
        ¬ ClosesAt 0 0 (left ++ geom) ∧ left' = left ∧ geom' = geom) ∨
      (left.head? = some '(' ∧ ((65536 : Int) ∣ net left ∨ (65536 : Int) ∣ net left - 1) ∧
        ¬ ClosesAt 0 0 (left ++ geom) ∧ ¬ ClosesAt 1 0 (left ++ geom) ∧ left' = left ∧ geom' = geom) ∨
      (left = '(' :: left' ∧ geom = geom' ++ [')'] ∧
        ((65536 : Int) ∣ net left ∨ (65536 : Int) ∣ net left - 1) ∧
        ¬ ClosesAt 0 0 (left ++ geom') ∧ ¬ ClosesAt 1 0 (left ++ geom') ∧
        (65536 : Int) ∣ net (left ++ geom') - 1) := by
  unfold checkAndAdjustParens
  simp only [closesAt_append, Spec.net_append, Int.zero_add, not_or]
  have z : ((0 : Nat) : Int) = 0 := rfl
  by_cases hc0 : ClosesAt 0 0 left
  · have : ∀ x, scanLeft left 0 (left.head? == some '(') ≠ .ok x := fun x hx =>
      ((scanLeft_mod (by omega)).1 hx).1 hc0
    cases hs : scanLeft left 0 (left.head? == some '(') with
    | ok x => exact absurd hs (this x)
    | error e => simp [hc0]
  obtain ⟨e, he1, he2⟩ : ∃ e : Nat, (65536 : Int) ∣ net left - e ∧ e < 65536 :=
    ⟨(net left % 65536).toNat, by omega, by omega⟩
  have hce : ∀ {r : Int} {t : Str}, ClosesAt r e t ↔ ClosesAt r (net left) t :=
    closesAt_congr (by omega)
  by_cases hw : left.head? = some '(' ∧ ¬ ClosesAt 1 0 left
  · have hs : scanLeft left 0 (left.head? == some '(') = .ok (e, true) := by
      rw [scanLeft_mod (by omega)]
      simp only [z, Int.zero_add, beq_iff_eq, true_iff]
      exact ⟨hc0, he1, he2, hw⟩
    obtain ⟨m, rfl⟩ : ∃ m, left = '(' :: m := by
      cases left with
      | nil => simp at hw
      | cons c m =>
        have : c = '(' := by simpa using hw.1
        exact ⟨m, by rw [this]⟩
    obtain ⟨i1, i2⟩ := scanGeom_mod_true (t := geom) he2
    simp only [hce] at i1 i2
    rw [hs]
    simp only [hw.2, hc0, List.head?_cons, not_false_eq_true, true_and, forall_const, false_and, false_or]
    by_cases he : 1 < e
    · rw [if_pos (.inl he)]
      simp only [reduceCtorEq, false_iff]
      rintro (⟨h, -⟩ | ⟨-, -, h, -⟩) <;> omega
    · rw [if_neg (by simp [he])]
      have hd : (65536 : Int) ∣ net ('(' :: m) ∨ (65536 : Int) ∣ net ('(' :: m) - 1 := by omega
      simp only [hd, true_and]
      cases hg : scanGeom true geom e false with
      | error er =>
        simp only [hg, reduceCtorEq, false_iff] at i1 i2 ⊢
        rintro (⟨a, b, -⟩ | ⟨a, b, c, d, f⟩)
        · exact i1 ⟨a, b⟩
        · exact i2 ⟨_, b, c, d, by omega⟩
      | ok w =>
        cases w with
        | false =>
          simp only [hg, true_iff, Except.ok.injEq, Bool.false_eq_true, false_iff, if_false,
            Prod.mk.injEq] at i1 i2 ⊢
          constructor
          · rintro ⟨rfl, rfl⟩; exact .inl ⟨i1.1, i1.2, rfl, rfl⟩
          · rintro (⟨a, b, rfl, rfl⟩ | ⟨a, b, c, d, f⟩)
            · exact ⟨rfl, rfl⟩
            · exact absurd ⟨_, b, c, d, by omega⟩ i2
        | true =>
          simp only [hg, true_iff, Except.ok.injEq, Bool.true_eq_false, false_iff, if_true,
            Prod.mk.injEq, List.drop_succ_cons, List.drop_zero] at i1 i2 ⊢
          obtain ⟨n, rfl, a, b, c⟩ := i2
          simp only [List.length_append, List.length_cons, List.length_nil, Nat.zero_add,
                Nat.add_sub_cancel, List.take_left]
          constructor
          · rintro ⟨rfl, rfl⟩; exact .inr ⟨rfl, rfl, a, b, by omega⟩
          · rintro (⟨a', b', -⟩ | ⟨a', b', -⟩)
            · exact absurd ⟨a', b'⟩ i1
            · simp only [List.cons.injEq, true_and] at a'
              exact ⟨a', (List.append_inj' b' rfl).1⟩
  · have hs : scanLeft left 0 (left.head? == some '(') = .ok (e, false) := by
      rw [scanLeft_mod (by omega)]
      simp only [z, Int.zero_add, beq_iff_eq, Bool.false_eq_true, false_iff]
      exact ⟨hc0, he1, he2, hw⟩
    rw [hs]
    have hA : (left.head? = some '(' → ClosesAt 1 0 left) := fun h => Classical.byContradiction fun k => hw ⟨h, k⟩
    have hrest : ∀ (p q : Prop), ((left.head? = some '(' ∧ q ∧ (¬ ClosesAt 0 0 left ∧ ¬ ClosesAt 0 (net left) geom) ∧
        (¬ ClosesAt 1 0 left ∧ ¬ ClosesAt 1 (net left) geom) ∧ left' = left ∧ geom' = geom) ∨
      (left = '(' :: left' ∧ geom = geom' ++ [')'] ∧ q ∧ (¬ ClosesAt 0 0 left ∧ ¬ ClosesAt 0 (net left) geom') ∧
        (¬ ClosesAt 1 0 left ∧ ¬ ClosesAt 1 (net left) geom') ∧ p)) ↔ False := by
      intro p q
      simp only [iff_false]
      rintro (⟨h, -, -, ⟨k, -⟩, -⟩ | ⟨h, -, -, -, ⟨k, -⟩, -⟩)
      · exact hw ⟨h, k⟩
      · exact hw ⟨by rw [h]; rfl, k⟩
    rw [hrest, or_false]
    simp only [hc0, not_false_eq_true, true_and]
    by_cases he : e = 0
    · subst he
      rw [if_neg (by simp)]
      have i := fun w => scanGeom_mod_false (t := geom) (w := w) he2
      simp only [hce] at i
      have hd : (65536 : Int) ∣ net left := by omega
      simp only [hd, true_and]
      cases hg : scanGeom false geom 0 false with
      | error er =>
        simp only [reduceCtorEq, false_iff]
        rintro ⟨-, a, -⟩
        have := (i false).2 ⟨a, rfl⟩
        rw [hg] at this
        cases this
      | ok w =>
        obtain ⟨a, rfl⟩ := (i w).1 hg
        simp only [Bool.false_eq_true, if_false, Except.ok.injEq, Prod.mk.injEq]
        constructor
        · rintro ⟨rfl, rfl⟩; exact ⟨hA, a, rfl, rfl⟩
        · rintro ⟨-, -, rfl, rfl⟩; exact ⟨rfl, rfl⟩
    · rw [if_pos (by simp; omega)]
      simp only [reduceCtorEq, false_iff]
      rintro ⟨-, a, -⟩
      omega

/-- non-trivial case: with 65536 parentheses opened before it, the geometry `CONTAINS(p,q)` loses its own closing
parenthesis -/
theorem C26_geometry_cut : checkAndAdjustParens (List.replicate 65536 '(') cs!"CONTAINS(p,q)" =
    .ok (List.replicate 65535 '(', cs!"CONTAINS(p,q") := by
  have hn : ∀ n, net (List.replicate n '(') = n := by
    intro n
    induction n with
    | zero => rfl
    | succ n ih => rw [List.replicate_succ]; simp only [net, ih, if_true]; omega
  have hno : ∀ (r d : Int) (n : Nat), ¬ ClosesAt r d (List.replicate n '(') := by
    rintro r d n ⟨u, v, h, -⟩
    have : ')' ∈ List.replicate n '(' := by rw [h]; simp
    exact absurd (List.eq_of_mem_replicate this) (by decide)
  have hg : ∀ (r d : Int), ¬ ClosesAt r d cs!"CONTAINS(p,q" := by
    rintro r d ⟨u, v, h, -⟩
    have : ')' ∈ cs!"CONTAINS(p,q" := by rw [h]; simp
    exact absurd this (by decide)
  rw [C26_exact]
  refine .inr (.inr ⟨(List.replicate_succ ..), rfl, .inl (by rw [hn]; decide), ?_, ?_, ?_⟩)
  · simp only [closesAt_append, not_or]; exact ⟨hno _ _ _, hg _ _⟩
  · simp only [closesAt_append, not_or]; exact ⟨hno _ _ _, hg _ _⟩
  · rw [Spec.net_append, hn]; decide

end Adql
