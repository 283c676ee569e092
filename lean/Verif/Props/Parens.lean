import Verif.Model.RegexGeom

/-!
# C25, C26: the parenthesis check of the preprocessing (Query.cxx L36-L95)
-/

namespace Adql

open Spec

theorem Spec.net_append : ∀ (u v : Str), net (u ++ v) = net u + net v
  | [], v => by simp [net]
  | c :: u, v => by simp only [List.cons_append, net, Spec.net_append u v]; omega

theorem stays_nil {m d : Int} : Stays m d [] ↔ m ≤ d := by
  constructor
  · intro h; simpa [net] using h [] [] rfl
  · intro h u v huv
    obtain ⟨rfl, rfl⟩ : u = [] ∧ v = [] := by simpa using huv.symm
    simpa [net] using h

theorem stays_cons {m d : Int} {c : Char} {t : Str} : Stays m d (c :: t) ↔
    m ≤ d ∧ Stays m (d + (if c = '(' then 1 else if c = ')' then -1 else 0)) t := by
  constructor
  · intro h
    refine ⟨by simpa [net] using h [] _ rfl, fun u v huv => ?_⟩
    have := h (c :: u) v (by rw [huv]; rfl)
    simp only [net] at this
    omega
  · rintro ⟨h1, h2⟩ u v huv
    cases u with
    | nil => simpa [net] using h1
    | cons x u =>
      simp only [List.cons_append, List.cons.injEq] at huv
      obtain ⟨rfl, rfl⟩ := huv
      have := h2 u v rfl
      simp only [net]
      omega

theorem stays_append {m d : Int} : ∀ {u v : Str}, Stays m d (u ++ v) ↔
    Stays m d u ∧ Stays m (d + net u) v := by
  intro u
  induction u generalizing d with
  | nil =>
    intro v
    simp only [List.nil_append, net, Int.add_zero, stays_nil]
    exact ⟨fun h => ⟨by simpa [net] using h [] v rfl, h⟩, fun h => h.2⟩
  | cons c u ih =>
    intro v
    simp only [List.cons_append, stays_cons, ih, net, and_assoc, Int.add_assoc]

theorem stays_end {m d : Int} {t : Str} (h : Stays m d t) : m ≤ d + net t := h t [] (by simp)

theorem stays_start {m d : Int} {t : Str} (h : Stays m d t) : m ≤ d := by
  simpa [net] using h [] t rfl

theorem stays_shift {m d k : Int} {t : Str} : Stays (m + k) (d + k) t ↔ Stays m d t := by
  constructor <;> intro h u v huv <;> have := h u v huv <;> omega

theorem stays_mono {m m' d : Int} {t : Str} (h : Stays m d t) (hm : m' ≤ m) : Stays m' d t := by
  intro u v huv; have := h u v huv; omega

theorem scanLeft_false : ∀ {t : Str} {d e : Nat} {w : Bool}, d + t.count '(' < 65536 →
    (scanLeft t d false = .ok (e, w) ↔ Stays 0 d t ∧ (e : Int) = d + net t ∧ w = false)
  | [], d, e, w, h => by
    simp only [scanLeft, Except.ok.injEq, Prod.mk.injEq, stays_nil, net]
    constructor
    · rintro ⟨rfl, rfl⟩; exact ⟨by omega, by omega, rfl⟩
    · rintro ⟨h1, h2, rfl⟩; exact ⟨by omega, rfl⟩
  | c :: t, d, e, w, h => by
    unfold scanLeft
    simp only [stays_cons, net]
    by_cases h1 : c = '('
    · subst h1
      rw [List.count_cons_self] at h
      rw [if_pos rfl, Nat.mod_eq_of_lt (by omega), scanLeft_false (by omega)]
      simp only [if_true]
      push_cast
      constructor
      · rintro ⟨a, b, c⟩; exact ⟨⟨by omega, a⟩, by omega, c⟩
      · rintro ⟨⟨-, a⟩, b, c⟩; exact ⟨a, by omega, c⟩
    · rw [List.count_cons_of_ne (by simpa using h1)] at h
      rw [if_neg h1]
      by_cases h2 : c = ')'
      · subst h2
        rw [if_pos rfl]
        by_cases h3 : d = 0
        · subst h3
          rw [if_pos rfl]
          simp only [reduceCtorEq, false_iff]
          rintro ⟨⟨-, a⟩, -, -⟩
          have := stays_start a
          simp at this
        · rw [if_neg h3]
          simp only [if_neg h1, if_true, ite_self]
          rw [scanLeft_false (by omega)]
          have : ((d - 1 : Nat) : Int) = (d : Int) + -1 := by omega
          rw [this]
          constructor
          · rintro ⟨a, b, c⟩; exact ⟨⟨by omega, a⟩, by omega, c⟩
          · rintro ⟨⟨-, a⟩, b, c⟩; exact ⟨a, by omega, c⟩
      · simp only [if_neg h1, if_neg h2, Int.add_zero, Int.zero_add]
        rw [scanLeft_false (by omega)]
        constructor
        · rintro ⟨a, b, c⟩; exact ⟨⟨by omega, a⟩, by omega, c⟩
        · rintro ⟨⟨-, a⟩, b, c⟩; exact ⟨a, by omega, c⟩

theorem scanLeft_true : ∀ {t : Str} {d e : Nat}, 1 ≤ d → d + t.count '(' < 65536 →
    (scanLeft t d true = .ok (e, true) ↔ Stays 1 d t ∧ (e : Int) = d + net t) ∧
    (scanLeft t d true = .ok (e, false) ↔ Stays 0 d t ∧ ¬ Stays 1 d t ∧ (e : Int) = d + net t)
  | [], d, e, hd, h => by
    simp only [scanLeft, Except.ok.injEq, Prod.mk.injEq, stays_nil, net, and_true,
      Bool.true_eq_false, and_false, false_iff]
    constructor
    · constructor
      · rintro rfl; exact ⟨by omega, by omega⟩
      · rintro ⟨h1, h2⟩; omega
    · rintro ⟨h1, h2, h3⟩; omega
  | c :: t, d, e, hd, h => by
    unfold scanLeft
    simp only [stays_cons, net]
    by_cases h1 : c = '('
    · subst h1
      rw [List.count_cons_self] at h
      rw [if_pos rfl, Nat.mod_eq_of_lt (by omega)]
      obtain ⟨i1, i2⟩ := scanLeft_true (t := t) (d := d + 1) (e := e) (by omega) (by omega)
      rw [i1, i2]
      simp only [if_true]
      push_cast
      constructor
      · constructor
        · rintro ⟨a, b⟩; exact ⟨⟨by omega, a⟩, by omega⟩
        · rintro ⟨⟨-, a⟩, b⟩; exact ⟨a, by omega⟩
      · constructor
        · rintro ⟨a, b, c⟩; exact ⟨⟨by omega, a⟩, fun k => b k.2, by omega⟩
        · rintro ⟨⟨-, a⟩, b, c⟩; exact ⟨a, fun k => b ⟨by omega, k⟩, by omega⟩
    · rw [List.count_cons_of_ne (by simpa using h1)] at h
      rw [if_neg h1]
      by_cases h2 : c = ')'
      · subst h2
        rw [if_pos rfl, if_neg (by omega)]
        simp only [if_neg h1, if_true]
        have hc : ((d - 1 : Nat) : Int) = (d : Int) + -1 := by omega
        by_cases h3 : d - 1 = 0
        · rw [if_pos h3, scanLeft_false (by omega), scanLeft_false (by omega), hc]
          constructor
          · simp only [Bool.true_eq_false, and_false, false_iff]
            rintro ⟨⟨-, a⟩, -⟩
            have := stays_start a
            omega
          · constructor
            · rintro ⟨a, b, -⟩
              refine ⟨⟨by omega, a⟩, fun k => ?_, by omega⟩
              have := stays_start k.2
              omega
            · rintro ⟨⟨-, a⟩, -, c⟩; exact ⟨a, by omega, rfl⟩
        · rw [if_neg h3]
          obtain ⟨i1, i2⟩ := scanLeft_true (t := t) (d := d - 1) (e := e) (by omega) (by omega)
          rw [i1, i2, hc]
          constructor
          · constructor
            · rintro ⟨a, b⟩; exact ⟨⟨by omega, a⟩, by omega⟩
            · rintro ⟨⟨-, a⟩, b⟩; exact ⟨a, by omega⟩
          · constructor
            · rintro ⟨a, b, c⟩; exact ⟨⟨by omega, a⟩, fun k => b k.2, by omega⟩
            · rintro ⟨⟨-, a⟩, b, c⟩; exact ⟨a, fun k => b ⟨by omega, k⟩, by omega⟩
      · simp only [if_neg h1, if_neg h2, Int.add_zero, Int.zero_add]
        obtain ⟨i1, i2⟩ := scanLeft_true (t := t) (d := d) (e := e) (by omega) (by omega)
        rw [i1, i2]
        constructor
        · constructor
          · rintro ⟨a, b⟩; exact ⟨⟨by omega, a⟩, by omega⟩
          · rintro ⟨⟨-, a⟩, b⟩; exact ⟨a, by omega⟩
        · constructor
          · rintro ⟨a, b, c⟩; exact ⟨⟨by omega, a⟩, fun k => b k.2, by omega⟩
          · rintro ⟨⟨-, a⟩, b, c⟩; exact ⟨a, fun k => b ⟨by omega, k⟩, by omega⟩

theorem scanGeom_false : ∀ {t : Str} {d : Nat} {w : Bool}, d + t.count '(' < 65536 →
    (scanGeom false t d false = .ok w ↔ Stays 0 d t ∧ w = false)
  | [], d, w, h => by
    simp only [scanGeom, Except.ok.injEq, stays_nil]
    constructor
    · rintro rfl; exact ⟨by omega, rfl⟩
    · rintro ⟨h1, rfl⟩; rfl
  | c :: t, d, w, h => by
    unfold scanGeom
    simp only [stays_cons, Bool.false_eq_true, if_false, Bool.and_false]
    by_cases h1 : c = '('
    · subst h1
      rw [List.count_cons_self] at h
      rw [if_pos rfl, Nat.mod_eq_of_lt (by omega), scanGeom_false (by omega)]
      simp only [if_true]
      push_cast
      exact ⟨fun ⟨a, b⟩ => ⟨⟨by omega, a⟩, b⟩, fun ⟨⟨_, a⟩, b⟩ => ⟨a, b⟩⟩
    · rw [List.count_cons_of_ne (by simpa using h1)] at h
      rw [if_neg h1]
      by_cases h2 : c = ')'
      · subst h2
        rw [if_pos rfl]
        by_cases h3 : d = 0
        · subst h3
          rw [if_pos rfl]
          simp only [reduceCtorEq, false_iff]
          rintro ⟨⟨-, a⟩, -⟩
          have := stays_start a
          simp at this
        · rw [if_neg h3]
          simp only [if_neg h1, if_true]
          rw [scanGeom_false (by omega)]
          have : ((d - 1 : Nat) : Int) = (d : Int) + -1 := by omega
          rw [this]
          exact ⟨fun ⟨a, b⟩ => ⟨⟨by omega, a⟩, b⟩, fun ⟨⟨_, a⟩, b⟩ => ⟨a, b⟩⟩
      · simp only [if_neg h1, if_neg h2, Int.add_zero]
        rw [scanGeom_false (by omega)]
        exact ⟨fun ⟨a, b⟩ => ⟨⟨by omega, a⟩, b⟩, fun ⟨⟨_, a⟩, b⟩ => ⟨a, b⟩⟩

theorem scanGeom_closed {w : Bool} : ∀ {t : Str} {d : Nat}, 
    (scanGeom true t d true = .ok w ↔ t = [] ∧ w = true)
  | [], d => by simp [scanGeom, eq_comm]
  | c :: t, d => by simp [scanGeom]

theorem scanGeom_true : ∀ {t : Str} {d : Nat}, 1 ≤ d → d + t.count '(' < 65536 →
    (scanGeom true t d false = .ok false ↔ Stays 1 d t) ∧
    (scanGeom true t d false = .ok true ↔ ∃ n, t = n ++ [')'] ∧ Stays 1 d n ∧ d + net n = 1)
  | [], d, hd, h => by
    simp only [scanGeom, true_iff, stays_nil, Except.ok.injEq, Bool.false_eq_true, false_iff]
    refine ⟨by omega, ?_⟩
    rintro ⟨n, hn, -⟩
    simp at hn
  | c :: t, d, hd, h => by
    have key : ∀ P : Str → Prop, (∃ n, c :: t = n ++ [')'] ∧ P n) ↔
        (t = [] ∧ c = ')' ∧ P []) ∨ ∃ n, t = n ++ [')'] ∧ P (c :: n) := by
      intro P
      constructor
      · rintro ⟨n, hn, hp⟩
        cases n with
        | nil => simp only [List.nil_append, List.cons.injEq] at hn; exact .inl ⟨hn.2, hn.1, hp⟩
        | cons x n =>
          simp only [List.cons_append, List.cons.injEq] at hn
          obtain ⟨rfl, rfl⟩ := hn
          exact .inr ⟨n, rfl, hp⟩
      · rintro (⟨rfl, rfl, hp⟩ | ⟨n, rfl, hp⟩)
        · exact ⟨[], rfl, hp⟩
        · exact ⟨c :: n, rfl, hp⟩
    rw [key]
    unfold scanGeom
    simp only [stays_cons, Bool.false_eq_true, if_false, Bool.and_true, stays_nil, net]
    by_cases h1 : c = '('
    · subst h1
      rw [List.count_cons_self] at h
      rw [if_pos rfl, Nat.mod_eq_of_lt (by omega)]
      obtain ⟨i1, i2⟩ := scanGeom_true (t := t) (d := d + 1) (by omega) (by omega)
      rw [i1, i2]
      simp only [if_true]
      push_cast
      refine ⟨⟨fun a => ⟨by omega, a⟩, fun a => a.2⟩, ?_⟩
      constructor
      · rintro ⟨n, a, b, c⟩; exact .inr ⟨n, a, ⟨by omega, b⟩, by omega⟩
      · rintro (⟨-, a, -⟩ | ⟨n, a, ⟨-, b⟩, c⟩)
        · exact absurd a (by decide)
        · exact ⟨n, a, b, by omega⟩
    · rw [List.count_cons_of_ne (by simpa using h1)] at h
      rw [if_neg h1]
      by_cases h2 : c = ')'
      · subst h2
        rw [if_pos rfl, if_neg (by omega)]
        simp only [if_neg h1, if_true]
        have hc : ((d - 1 : Nat) : Int) = (d : Int) + -1 := by omega
        by_cases h3 : d - 1 = 0
        · have hd1 : d = 1 := by omega
          subst hd1
          simp only [Nat.sub_self, decide_true]
          rw [scanGeom_closed, scanGeom_closed]
          constructor
          · simp only [Bool.false_eq_true, and_false, false_iff]
            rintro ⟨-, a⟩
            have := stays_start a
            simp at this
          · constructor
            · rintro ⟨rfl, -⟩; exact .inl ⟨rfl, trivial, by omega, by omega⟩
            · rintro (⟨rfl, -, -⟩ | ⟨n, a, ⟨-, b⟩, c⟩)
              · exact ⟨rfl, rfl⟩
              · have := stays_start b
                simp at this
        · rw [show decide (d - 1 = 0) = false from decide_eq_false h3]
          obtain ⟨i1, i2⟩ := scanGeom_true (t := t) (d := d - 1) (by omega) (by omega)
          rw [i1, i2, hc]
          refine ⟨⟨fun a => ⟨by omega, a⟩, fun a => a.2⟩, ?_⟩
          constructor
          · rintro ⟨n, a, b, c⟩; exact .inr ⟨n, a, ⟨by omega, b⟩, by omega⟩
          · rintro (⟨-, -, a, b⟩ | ⟨n, a, ⟨-, b⟩, c⟩)
            · omega
            · exact ⟨n, a, b, by omega⟩
      · simp only [if_neg h1, if_neg h2, Int.add_zero, Int.zero_add]
        obtain ⟨i1, i2⟩ := scanGeom_true (t := t) (d := d) (by omega) (by omega)
        rw [i1, i2]
        refine ⟨⟨fun a => ⟨by omega, a⟩, fun a => a.2⟩, ?_⟩
        constructor
        · rintro ⟨n, a, b, c⟩; exact .inr ⟨n, a, ⟨by omega, b⟩, by omega⟩
        · rintro (⟨-, a, -⟩ | ⟨n, a, ⟨-, b⟩, c⟩)
          · exact absurd a h2
          · exact ⟨n, a, b, by omega⟩

/-- **C25.** The check accepts a pair exactly in three cases: the left part is balanced and nothing
is closed too often; or the left part is `(M` with `M` balanced, and the geometry does not close that
parenthesis; or it closes it with its very last character, and then that pair is removed. -/
theorem C25_check (left geom left' geom' : Str) (hlen : (left ++ geom).count '(' < 65536) :
    checkAndAdjustParens left geom = .ok (left', geom') ↔
      (net left = 0 ∧ NoNeg (left ++ geom) ∧ left' = left ∧ geom' = geom) ∨
      (∃ m, left = '(' :: m ∧ net m = 0 ∧ NoNeg m ∧ NoNeg geom ∧ left' = left ∧ geom' = geom) ∨
      (left = '(' :: left' ∧ geom = geom' ++ [')'] ∧ net left' = 0 ∧ NoNeg left' ∧
        net geom' = 0 ∧ NoNeg geom') := by
  have hl : left.count '(' + geom.count '(' < 65536 := by simpa [List.count_append] using hlen
  unfold checkAndAdjustParens
  by_cases hhd : ∃ m, left = '(' :: m
  · obtain ⟨m, rfl⟩ := hhd
    have hm : 1 + m.count '(' + geom.count '(' < 65536 := by
      rw [List.count_cons_self] at hl; omega
    have e1 : scanLeft ('(' :: m) 0 (('(' :: m).head? == some '(') = scanLeft m 1 true := by
      simp [scanLeft]
    rw [e1]
    have hs0 : NoNeg m ↔ Stays 1 (1 : Nat) m := (stays_shift (k := 1)).symm
    have hn0 : NoNeg geom ↔ Stays 1 (1 : Nat) geom := (stays_shift (k := 1)).symm
    have hnet : net ('(' :: m) = 1 + net m := by simp [net]
    cases hsl : scanLeft m 1 true with
    | error e =>
      simp only [reduceCtorEq, false_iff]
      have hno : ∀ k w, scanLeft m 1 true ≠ .ok (k, w) := by simp [hsl]
      -- the scan refuses only when some prefix closes too much
      have hst : ¬ Stays 0 (1 : Nat) m := by
        intro hst
        have hend := stays_end hst
        by_cases h1 : Stays 1 (1 : Nat) m
        · exact hno _ _ ((scanLeft_true (e := (1 + net m).toNat) (by omega) (by omega)).1.2
            ⟨h1, by omega⟩)
        · exact hno _ _ ((scanLeft_true (e := (1 + net m).toNat) (by omega) (by omega)).2.2
            ⟨hst, h1, by omega⟩)
      rintro (⟨-, h1, -⟩ | ⟨m', h1, h2, h3, -⟩ | ⟨h1, h2, h3, h4, -⟩)
      · unfold NoNeg at h1
        rw [stays_append, stays_cons] at h1
        exact hst h1.1.2
      · cases h1
        exact hst (stays_mono (hs0.1 h3) (by omega))
      · cases h1
        exact hst (stays_mono (hs0.1 h4) (by omega))
    | ok x =>
      obtain ⟨depth, within⟩ := x
      simp only
      cases within with
      | false =>
        obtain ⟨a, b, c⟩ := (scanLeft_true (by omega) (by omega)).2.1 hsl
        have hm' : ¬ NoNeg m := fun h => b (hs0.1 h)
        by_cases hd : depth = 0
        · subst hd
          rw [if_neg (by simp)]
          cases hg : scanGeom false geom 0 false with
          | error e =>
            simp only [reduceCtorEq, false_iff]
            rintro (⟨h0, h1, -⟩ | ⟨m', h1, h2, h3, -⟩ | ⟨h1, h2, h3, h4, -⟩)
            · unfold NoNeg at h1
              rw [stays_append, h0] at h1
              have := (scanGeom_false (t := geom) (d := 0) (w := false) (by omega)).2 ⟨h1.2, rfl⟩
              rw [hg] at this
              cases this
            · cases h1; exact hm' h3
            · cases h1; exact hm' h4
          | ok w =>
            obtain ⟨h1, rfl⟩ := (scanGeom_false (by omega)).1 hg
            simp only [Bool.false_eq_true, if_false, Except.ok.injEq, Prod.mk.injEq]
            constructor
            · rintro ⟨rfl, rfl⟩
              refine .inl ⟨by omega, ?_, rfl, rfl⟩
              unfold NoNeg
              rw [stays_append, stays_cons]
              refine ⟨⟨by omega, a⟩, ?_⟩
              rw [hnet]
              have e : (0 : Int) + (1 + net m) = ((0 : Nat) : Int) := by omega
              rw [e]; exact h1
            · rintro (⟨-, -, rfl, rfl⟩ | ⟨m', h1, h2, h3, -⟩ | ⟨h1, h2, h3, h4, -⟩)
              · exact ⟨rfl, rfl⟩
              · cases h1; exact absurd h3 hm'
              · cases h1; exact absurd h4 hm'
        · rw [if_pos (by simp; omega)]
          simp only [reduceCtorEq, false_iff]
          rintro (⟨h0, h1, -⟩ | ⟨m', h1, h2, h3, -⟩ | ⟨h1, h2, h3, h4, -⟩)
          · rw [hnet] at h0; omega
          · cases h1; exact hm' h3
          · cases h1; exact hm' h4
      | true =>
        obtain ⟨a, c⟩ := (scanLeft_true (by omega) (by omega)).1.1 hsl
        have hm' : NoNeg m := hs0.2 a
        have hge := stays_end a
        by_cases hd : depth = 1
        · subst hd
          rw [if_neg (by simp)]
          have hn : net m = 0 := by omega
          obtain ⟨i1, i2⟩ := scanGeom_true (t := geom) (d := 1) (by omega) (by omega)
          have hsg : ∀ n, Stays 1 (1 : Nat) n ↔ NoNeg n := 
            fun n => stays_shift (k := 1) (m := 0) (d := 0)
          have i2' : scanGeom true geom 1 false = .ok true ↔
              ∃ n, geom = n ++ [')'] ∧ NoNeg n ∧ net n = 0 := by
            rw [i2]
            constructor
            · rintro ⟨n, h1, h2, h3⟩; exact ⟨n, h1, (hsg n).1 h2, by omega⟩
            · rintro ⟨n, h1, h2, h3⟩; exact ⟨n, h1, (hsg n).2 h2, by omega⟩
          have i1' := i1.trans (hsg geom)
          cases hg : scanGeom true geom 1 false with
          | error e =>
            simp only [reduceCtorEq, false_iff]
            rintro (⟨h0, h1, -⟩ | ⟨m', h1, h2, h3, h4, -⟩ | ⟨h1, h2, h3, h4, h5, h6⟩)
            · rw [hnet] at h0; omega
            · have := i1'.2 h4; rw [hg] at this; cases this
            · have := i2'.2 ⟨_, h2, h6, h5⟩; rw [hg] at this; cases this
          | ok w =>
            cases w with
            | false =>
              have hng := i1'.1 hg
              simp only [Bool.false_eq_true, if_false, Except.ok.injEq, Prod.mk.injEq]
              constructor
              · rintro ⟨rfl, rfl⟩; exact .inr (.inl ⟨m, rfl, hn, hm', hng, rfl, rfl⟩)
              · rintro (⟨h0, h1, -⟩ | ⟨m', h1, h2, h3, h4, rfl, rfl⟩ | ⟨h1, h2, h3, h4, h5, h6⟩)
                · rw [hnet] at h0; omega
                · exact ⟨rfl, rfl⟩
                · have := i2'.2 ⟨_, h2, h6, h5⟩; rw [hg] at this; cases this
            | true =>
              obtain ⟨n, h1, h2, h3⟩ := i2'.1 hg
              subst h1
              simp only [if_true, Except.ok.injEq, Prod.mk.injEq, List.drop_succ_cons, List.drop_zero,
                List.length_append, List.length_cons, List.length_nil, Nat.zero_add,
                Nat.add_sub_cancel, List.take_left]
              constructor
              · rintro ⟨rfl, rfl⟩; exact .inr (.inr ⟨rfl, rfl, hn, hm', h3, h2⟩)
              · rintro (⟨h0, h1, -⟩ | ⟨m', h1, h2', h3', h4, -⟩ | ⟨h1, h2', -⟩)
                · rw [hnet] at h0; omega
                · have := i1'.2 h4; rw [hg] at this; cases this
                · cases h1
                  exact ⟨rfl, (List.append_inj' h2' rfl).1⟩
        · rw [if_pos (by simp; omega)]
          simp only [reduceCtorEq, false_iff]
          rintro (⟨h0, h1, -⟩ | ⟨m', h1, h2, h3, -⟩ | ⟨h1, h2, h3, h4, -⟩)
          · rw [hnet] at h0; omega
          · cases h1; omega
          · cases h1; omega
  · have hw : (left.head? == some '(') = false := by
      cases left with
      | nil => rfl
      | cons c t =>
        simp only [List.head?_cons, beq_eq_false_iff_ne, ne_eq, Option.some.injEq]
        rintro rfl
        exact hhd ⟨t, rfl⟩
    rw [hw]
    have hno2 : ∀ m, left ≠ '(' :: m := fun m h => hhd ⟨m, h⟩
    have hrest : ((net left = 0 ∧ NoNeg (left ++ geom) ∧ left' = left ∧ geom' = geom) ∨
      (∃ m, left = '(' :: m ∧ net m = 0 ∧ NoNeg m ∧ NoNeg geom ∧ left' = left ∧ geom' = geom) ∨
      (left = '(' :: left' ∧ geom = geom' ++ [')'] ∧ net left' = 0 ∧ NoNeg left' ∧
        net geom' = 0 ∧ NoNeg geom')) ↔
        (net left = 0 ∧ NoNeg (left ++ geom) ∧ left' = left ∧ geom' = geom) := by
      constructor
      · rintro (h | ⟨m, h, -⟩ | ⟨h, -⟩)
        · exact h
        · exact absurd h (hno2 m)
        · exact absurd h (hno2 _)
      · exact .inl
    rw [hrest]
    cases hsl : scanLeft left 0 false with
    | error e =>
      simp only [reduceCtorEq, false_iff]
      rintro ⟨h0, h1, -⟩
      unfold NoNeg at h1
      rw [stays_append] at h1
      have := (scanLeft_false (t := left) (d := 0) (e := 0) (w := false) (by omega)).2
        ⟨h1.1, by omega, rfl⟩
      rw [hsl] at this
      cases this
    | ok x =>
      obtain ⟨depth, within⟩ := x
      obtain ⟨a, b, rfl⟩ := (scanLeft_false (by omega)).1 hsl
      simp only
      by_cases hd : depth = 0
      · subst hd
        rw [if_neg (by simp)]
        cases hg : scanGeom false geom 0 false with
        | error e =>
          simp only [reduceCtorEq, false_iff]
          rintro ⟨h0, h1, -⟩
          unfold NoNeg at h1
          rw [stays_append, h0] at h1
          have := (scanGeom_false (t := geom) (d := 0) (w := false) (by omega)).2 ⟨h1.2, rfl⟩
          rw [hg] at this
          cases this
        | ok w =>
          obtain ⟨h1, rfl⟩ := (scanGeom_false (by omega)).1 hg
          simp only [Bool.false_eq_true, if_false, Except.ok.injEq, Prod.mk.injEq]
          constructor
          · rintro ⟨rfl, rfl⟩
            refine ⟨by omega, ?_, rfl, rfl⟩
            unfold NoNeg
            rw [stays_append]
            refine ⟨a, ?_⟩
            have e : (0 : Int) + net left = ((0 : Nat) : Int) := by omega
            rw [e]; exact h1
          · rintro ⟨-, -, rfl, rfl⟩; exact ⟨rfl, rfl⟩
      · rw [if_pos (by simp; omega)]
        simp only [reduceCtorEq, false_iff]
        rintro ⟨h0, -⟩
        omega

/-- non-trivial case: the enclosing pair is removed -/
example : checkAndAdjustParens cs!"((a=1) OR f(b)=2" cs!"CONTAINS(p,q)=1)" =
    .ok (cs!"(a=1) OR f(b)=2", cs!"CONTAINS(p,q)=1") := by kernel_rfl

/-- non-trivial case: refused -/
example : checkAndAdjustParens cs!"a=1 AND (b=2" cs!"CONTAINS(p,q)=1)" = .error .inappropriateI := by
  kernel_rfl

/-! ### C26 -/

theorem scanLeft_open (w : Bool) (t : Str) : ∀ (n d : Nat), d < 65536 →
    scanLeft (List.replicate n '(' ++ t) d w = scanLeft t ((d + n) % 65536) w
  | 0, d, h => by simp [Nat.mod_eq_of_lt h]
  | n + 1, d, h => by
    rw [List.replicate_succ, List.cons_append]
    conv => lhs; unfold scanLeft
    rw [if_pos rfl, scanLeft_open w t n _ (Nat.mod_lt _ (by omega))]
    congr 1
    omega

/-- **C26 is violated.** Because the depth is a 16-bit counter, any multiple of 65536 further opening
parentheses at the start of the left condition are accepted, although they are never closed. -/
theorem C26_violated (k : Nat) (t geom : Str) (ht : t.head? = some '(') :
    checkAndAdjustParens (List.replicate (65536 * k) '(' ++ t) geom =
      match checkAndAdjustParens t geom with
      | .ok (left', geom') =>
        if left' = t then .ok (List.replicate (65536 * k) '(' ++ t, geom')
        else .ok ((List.replicate (65536 * k) '(' ++ t).drop 1, geom')
      | .error e => .error e := by
  have hh : (List.replicate (65536 * k) '(' ++ t).head? = some '(' := by
    cases hk : 65536 * k with
    | zero => simpa using ht
    | succ n => simp [List.replicate_succ]
  have hdrop : ¬ t.tail = t := by
    intro h
    have := congrArg List.length h
    cases t with
    | nil => cases ht
    | cons c t => simp at this
  unfold checkAndAdjustParens
  rw [hh, ht, scanLeft_open _ _ _ _ (by omega)]
  simp only [Nat.zero_add, Nat.mul_mod_right]
  cases scanLeft t 0 (some '(' == some '(') with
  | error e => rfl
  | ok x =>
    obtain ⟨depth, within⟩ := x
    simp only
    split
    · rfl
    · cases scanGeom within geom depth false with
      | error e => rfl
      | ok c => cases c <;> simp [hdrop]

/-- The violation for one concrete pair: 65536 parentheses are opened and never closed. -/
theorem C26_witness : checkAndAdjustParens (List.replicate 65536 '(' ++ cs!"(a)=1") cs!"CONTAINS(p,q)" =
      .ok (List.replicate 65536 '(' ++ cs!"(a)=1", cs!"CONTAINS(p,q)") ∧
    net (List.replicate 65536 '(' ++ cs!"(a)=1" ++ cs!"CONTAINS(p,q)") = 65536 := by
  constructor
  · have h := C26_violated 1 cs!"(a)=1" cs!"CONTAINS(p,q)" rfl
    have e : checkAndAdjustParens cs!"(a)=1" cs!"CONTAINS(p,q)" = .ok (cs!"(a)=1", cs!"CONTAINS(p,q)") := by
      kernel_rfl
    rw [e, Nat.mul_one] at h
    simp only [if_true] at h
    exact h
  · have : ∀ n, net (List.replicate n '(') = n := by
      intro n
      induction n with
      | zero => rfl
      | succ n ih => rw [List.replicate_succ]; simp only [net, ih, if_true]; omega
    rw [Spec.net_append, Spec.net_append, this]
    decide

end Adql
