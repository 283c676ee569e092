import Verif.Peg.Meta
import Verif.Spec.Lex

/-!
# Two runs on texts that differ only in letter case

`Fold T I p R`: on two texts of the class `T` that differ only in the case of ASCII letters, `p`
has the same kind of outcome, the remainders differ only in letter case, and the attributes are
related by `R`, if the recursive rules behave like that with the relations `I`.
-/

namespace Adql

open Spec

variable {N : Type} {A : N → Type} {α β : Type}

/-- The same kind of result. -/
def ResRel (R : α → α → Prop) : Res α → Res α → Prop
  | .ok a r, .ok b t => R a b ∧ SameCI r t
  | .fail, .fail => True
  | .err (.expect w r), .err (.expect w' t) => w = w' ∧ SameCI r t
  | .err (.noTable x), .err (.noTable y) => SameCI x y
  | .oof, .oof => True
  | _, _ => False

theorem resRel_cases {R : α → α → Prop} {x y : Res α} (h : ResRel R x y) :
    (∃ a r b t, x = .ok a r ∧ y = .ok b t ∧ R a b ∧ SameCI r t) ∨ (x = .fail ∧ y = .fail) ∨
    (∃ w r t, x = .err (.expect w r) ∧ y = .err (.expect w t) ∧ SameCI r t) ∨
    (∃ m n, x = .err (.noTable m) ∧ y = .err (.noTable n) ∧ SameCI m n) ∨ (x = .oof ∧ y = .oof) := by
  cases x with
  | ok a r =>
    cases y with
    | ok b t => exact .inl ⟨a, r, b, t, rfl, rfl, h⟩
    | _ => exact h.elim
  | fail => cases y with
    | fail => exact .inr (.inl ⟨rfl, rfl⟩)
    | _ => exact h.elim
  | err e =>
    cases y with
    | err e' =>
      cases e with
      | expect w r =>
        cases e' with
        | expect w' t => obtain ⟨rfl, h⟩ := h; exact .inr (.inr (.inl ⟨w, r, t, rfl, rfl, h⟩))
        | noTable n => exact h.elim
      | noTable m =>
        cases e' with
        | expect w' t => exact h.elim
        | noTable n => exact .inr (.inr (.inr (.inl ⟨m, n, rfl, rfl, h⟩)))
    | _ => cases e <;> exact h.elim
  | oof => cases y with
    | oof => exact .inr (.inr (.inr (.inr ⟨rfl, rfl⟩)))
    | _ => exact h.elim

/-- Element by element. -/
inductive ListRel (R : α → α → Prop) : List α → List α → Prop
  | nil : ListRel R [] []
  | cons {a b l m} : R a b → ListRel R l m → ListRel R (a :: l) (b :: m)

/-- The texts are related and belong to the class. -/
def Pair (T : Str → Prop) (s t : Str) : Prop := T s ∧ T t ∧ SameCI s t

/-- See the head of the file. -/
def Fold (T : Str → Prop) (I : (n : N) → A n → A n → Prop) (p : P A α) (R : α → α → Prop) : Prop :=
  ∀ rec : (n : N) → Bool → Str → Res (A n), (∀ n sk s a r, rec n sk s = .ok a r → r <:+ s) →
    (∀ n sk s t, Pair T s t → ResRel (I n) (rec n sk s) (rec n sk t)) →
    ∀ sk s t, Pair T s t → ResRel R (step rec p sk s) (step rec p sk t)

theorem sameCI_nil {t : Str} : SameCI [] t ↔ t = [] := by
  constructor
  · intro h; cases t with
    | nil => rfl
    | cons => simp [SameCI] at h
  · rintro rfl; rfl

theorem space_sameCI {c d : Char} (h : lowerC c = lowerC d) : isSpace c = isSpace d := by
  have e : ∀ c, isSpace (lowerC c) = isSpace c := by
    intro c
    unfold lowerC
    split
    · next h =>
      simp only [Bool.and_eq_true, decide_eq_true_eq] at h
      have h1 : (Char.ofNat (c.toNat + 32)).toNat = c.toNat + 32 := by
        have hv : (c.toNat + 32).isValidChar := .inl (by omega)
        simp only [Char.ofNat, dif_pos hv]
        rfl
      have e : ∀ d : Char, d.toNat ≥ 65 → isSpace d = false := by
        intro d hd
        have hne : d ≠ ' ' := by rintro rfl; exact absurd hd (by decide)
        simp [isSpace, hne]; omega
      rw [e _ (by omega), e _ (by omega)]
    · rfl
  rw [← e c, ← e d, h]

theorem sameCI_skip {sk : Bool} {s t : Str} (h : SameCI s t) : SameCI (skip sk s) (skip sk t) := by
  cases sk with
  | false => exact h
  | true =>
    simp only [skip, if_true]
    induction s generalizing t with
    | nil => rw [sameCI_nil.1 h]; rfl
    | cons c s ih =>
      cases t with
      | nil => simp [SameCI] at h
      | cons d t =>
        have hc : lowerC c = lowerC d ∧ SameCI s t := by simpa [SameCI] using h
        simp only [List.dropWhile_cons, space_sameCI hc.1]
        split
        · exact ih hc.2
        · exact h

theorem len_sameCI {s t : Str} (h : SameCI s t) : s.length = t.length := by
  have := congrArg List.length h; simpa using this

section
variable {T : Str → Prop} (hT : ∀ s t, t <:+ s → T s → T t)
include hT

theorem Pair.skip {s t : Str} (h : Pair T s t) (sk : Bool) : Pair T (skip sk s) (skip sk t) :=
  ⟨hT _ _ (skip_suffix _ _) h.1, hT _ _ (skip_suffix _ _) h.2.1, sameCI_skip h.2.2⟩

end

section
variable {T : Str → Prop} {I : (n : N) → A n → A n → Prop}

namespace Fold

theorem imp {p : P A α} {R S : α → α → Prop} (h : Fold T I p R) (hi : ∀ a b, R a b → S a b) :
    Fold T I p S := by
  intro rec h1 h2 sk s t hp
  rcases resRel_cases (h rec h1 h2 sk s t hp) with ⟨a, r, b, u, e1, e2, h3, h4⟩ | ⟨e1, e2⟩ |
    ⟨w, r, u, e1, e2, h3⟩ | ⟨m, n, e1, e2, h3⟩ | ⟨e1, e2⟩ <;> rw [e1, e2]
  · exact ⟨hi _ _ h3, h4⟩
  · exact trivial
  · exact ⟨rfl, h3⟩
  · exact h3
  · exact trivial

theorem pure {R : α → α → Prop} {a : α} (h : R a a) : Fold T I (.pure a) R :=
  fun _ _ _ _ _ _ hp => ⟨h, hp.2.2⟩

theorem chr {f : Char → Bool} (hf : ∀ c d, lowerC c = lowerC d → f c = f d) :
    Fold T I (.chr f) (fun c d => lowerC c = lowerC d ∧ f c = true ∧ f d = true) := by
  intro rec _ _ sk s t hp
  have h := sameCI_skip (sk := sk) hp.2.2
  simp only [step]
  cases hs : skip sk s with
  | nil => rw [hs] at h; rw [sameCI_nil.1 h]; trivial
  | cons c r =>
    rw [hs] at h
    cases ht : skip sk t with
    | nil => rw [ht] at h; simp [SameCI] at h
    | cons d u =>
      rw [ht] at h
      have hc : lowerC c = lowerC d ∧ SameCI r u := by simpa [SameCI] using h
      have e := hf c d hc.1
      by_cases hfc : f c = true
      · have hfd : f d = true := by rw [← e]; exact hfc
        simp only [hfc, hfd, if_true]; exact ⟨⟨hc.1, hfc, hfd⟩, hc.2⟩
      · have hfd : ¬ f d = true := by rw [← e]; exact hfc
        simp only [hfc, hfd]; trivial

theorem _root_.Adql.matchLit_fold {ci : Bool} : ∀ {w s t : Str},
    (ci = true ∨ ∀ c ∈ w, ∀ d, lowerC d = lowerC c → d = c) → SameCI s t →
    (∃ a r b u, matchLit ci w s = some (a, r) ∧ matchLit ci w t = some (b, u) ∧ SameCI a b ∧ SameCI r u) ∨
    (matchLit ci w s = none ∧ matchLit ci w t = none)
  | [], s, t, _, h => .inl ⟨[], s, [], t, rfl, rfl, rfl, h⟩
  | c :: w, [], t, _, h => by rw [sameCI_nil.1 h]; exact .inr ⟨rfl, rfl⟩
  | c :: w, d :: s, [], _, h => by simp [SameCI] at h
  | c :: w, d :: s, e :: t, hw, h => by
    have hc : lowerC d = lowerC e ∧ SameCI s t := by simpa [SameCI] using h
    have key : (c == d || (ci && lowerC c == lowerC d)) = (c == e || (ci && lowerC c == lowerC e)) := by
      rcases hw with rfl | hw
      · rw [Bool.eq_iff_iff]
        simp only [Bool.true_and, Bool.or_eq_true, beq_iff_eq, hc.1]
        constructor
        · rintro (rfl | h)
          · exact .inr hc.1
          · exact .inr h
        · rintro (rfl | h)
          · exact .inr rfl
          · exact .inr h
      · have h1 := hw c (by simp)
        rw [Bool.eq_iff_iff]
        simp only [Bool.or_eq_true, beq_iff_eq, Bool.and_eq_true]
        constructor
        · rintro (rfl | ⟨-, h⟩)
          · exact .inl (h1 e hc.1.symm).symm
          · exact .inl (h1 e (hc.1.symm.trans h.symm)).symm
        · rintro (rfl | ⟨-, h⟩)
          · exact .inl (h1 d hc.1).symm
          · exact .inl (h1 d (hc.1.trans h.symm)).symm
    simp only [matchLit, key]
    have hw' : ci = true ∨ ∀ c ∈ w, ∀ d, lowerC d = lowerC c → d = c :=
      hw.imp id fun h c hc => h c (by simp [hc])
    split
    · rcases matchLit_fold hw' hc.2 with ⟨a, r, b, u, e1, e2, h1, h2⟩ | ⟨e1, e2⟩
      · rw [e1, e2]
        refine .inl ⟨_, _, _, _, rfl, rfl, ?_, h2⟩
        simp only [SameCI, List.map_cons, hc.1] at h1 ⊢; rw [h1]
      · rw [e1, e2]; exact .inr ⟨rfl, rfl⟩
    · exact .inr ⟨rfl, rfl⟩

theorem lit {ci : Bool} {w : Str} (hw : ci = true ∨ ∀ c ∈ w, ∀ d, lowerC d = lowerC c → d = c) :
    Fold T I (.lit ci w) SameCI := by
  intro rec _ _ sk s t hp
  simp only [step]
  rcases matchLit_fold hw (sameCI_skip (sk := sk) hp.2.2) with ⟨a, r, b, u, e1, e2, h1, h2⟩ | ⟨e1, e2⟩
  · rw [e1, e2]; exact ⟨h1, h2⟩
  · rw [e1, e2]; trivial

section
variable (hT : ∀ s t, t <:+ s → T s → T t)

include hT in
theorem seq {p : P A α} {q : P A β} {R : α → α → Prop} {S : β → β → Prop} (h : Fold T I p R)
    (h' : Fold T I q S) : Fold T I (.seq p q) (fun x y => R x.1 y.1 ∧ S x.2 y.2) := by
  intro rec h1 h2 sk s t hp
  simp only [step]
  rcases resRel_cases (h rec h1 h2 sk s t hp) with ⟨a, r, b, u, e1, e2, h3, h4⟩ | ⟨e1, e2⟩ |
    ⟨w, r, u, e1, e2, h3⟩ | ⟨m, n, e1, e2, h3⟩ | ⟨e1, e2⟩ <;> rw [e1, e2]
  · have hp' : Pair T r u := ⟨hT _ _ (step_suffix h1 p sk s a r e1) hp.1,
      hT _ _ (step_suffix h1 p sk t b u e2) hp.2.1, h4⟩
    simp only
    rcases resRel_cases (h' rec h1 h2 sk r u hp') with ⟨a, r, b, u, e1, e2, h5, h6⟩ | ⟨e1, e2⟩ |
      ⟨w, r, u, e1, e2, h3⟩ | ⟨m, n, e1, e2, h3⟩ | ⟨e1, e2⟩ <;> rw [e1, e2]
    · exact ⟨⟨h3, h5⟩, h6⟩
    · exact trivial
    · exact ⟨rfl, h3⟩
    · exact h3
    · exact trivial
  · exact trivial
  · exact ⟨rfl, h3⟩
  · exact h3
  · exact trivial

theorem alt {p q : P A α} {R : α → α → Prop} (h : Fold T I p R) (h' : Fold T I q R) :
    Fold T I (.alt p q) R := by
  intro rec h1 h2 sk s t hp
  simp only [step]
  rcases resRel_cases (h rec h1 h2 sk s t hp) with ⟨a, r, b, u, e1, e2, h3, h4⟩ | ⟨e1, e2⟩ |
    ⟨w, r, u, e1, e2, h3⟩ | ⟨m, n, e1, e2, h3⟩ | ⟨e1, e2⟩ <;> rw [e1, e2]
  · exact ⟨h3, h4⟩
  · exact h' rec h1 h2 sk s t hp
  · exact ⟨rfl, h3⟩
  · exact h3
  · exact trivial

include hT in
theorem star {p : P A α} {R : α → α → Prop} (h : Fold T I p R) : Fold T I (.star p) (ListRel R) := by
  intro rec h1 h2 sk s t hp
  have key : ∀ n s t, Pair T s t → ResRel (ListRel R) (starLoop (fun t => step rec p sk t) n s)
      (starLoop (fun t => step rec p sk t) n t) := by
    intro n
    induction n with
    | zero => intro s t _; trivial
    | succ n ih =>
      intro s t hp
      simp only [starLoop]
      rcases resRel_cases (h rec h1 h2 sk s t hp) with ⟨a, r, b, u, e1, e2, h3, h4⟩ | ⟨e1, e2⟩ |
        ⟨w, r, u, e1, e2, h3⟩ | ⟨m, n, e1, e2, h3⟩ | ⟨e1, e2⟩ <;> rw [e1, e2]
      · simp only [len_sameCI h4, len_sameCI hp.2.2]
        split
        · have hp' : Pair T r u := ⟨hT _ _ (step_suffix h1 p sk s a r e1) hp.1,
            hT _ _ (step_suffix h1 p sk t b u e2) hp.2.1, h4⟩
          rcases resRel_cases (ih r u hp') with ⟨a, r, b, u, e1, e2, h5, h6⟩ | ⟨e1, e2⟩ |
            ⟨w, r, u, e1, e2, h3⟩ | ⟨m, n, e1, e2, h3⟩ | ⟨e1, e2⟩ <;> rw [e1, e2]
          · exact ⟨.cons h3 h5, h6⟩
          · exact trivial
          · exact ⟨rfl, h3⟩
          · exact h3
          · exact trivial
        · exact trivial
      · exact ⟨.nil, hp.2.2⟩
      · exact ⟨rfl, h3⟩
      · exact h3
      · exact trivial
  have := key (s.length + 1) s t hp
  simp only [step]
  rw [← len_sameCI hp.2.2]; exact this

theorem notP {p : P A α} {R : α → α → Prop} (h : Fold T I p R) :
    Fold T I (.notP p) (fun _ _ => True) := by
  intro rec h1 h2 sk s t hp
  simp only [step]
  rcases resRel_cases (h rec h1 h2 sk s t hp) with ⟨a, r, b, u, e1, e2, h3, h4⟩ | ⟨e1, e2⟩ |
    ⟨w, r, u, e1, e2, h3⟩ | ⟨m, n, e1, e2, h3⟩ | ⟨e1, e2⟩ <;> rw [e1, e2]
  · exact trivial
  · exact ⟨trivial, hp.2.2⟩
  · exact ⟨rfl, h3⟩
  · exact h3
  · exact trivial

theorem andP {p : P A α} {R : α → α → Prop} (h : Fold T I p R) : Fold T I (.andP p) R := by
  intro rec h1 h2 sk s t hp
  simp only [step]
  rcases resRel_cases (h rec h1 h2 sk s t hp) with ⟨a, r, b, u, e1, e2, h3, h4⟩ | ⟨e1, e2⟩ |
    ⟨w, r, u, e1, e2, h3⟩ | ⟨m, n, e1, e2, h3⟩ | ⟨e1, e2⟩ <;> rw [e1, e2]
  · exact ⟨h3, hp.2.2⟩
  · exact trivial
  · exact ⟨rfl, h3⟩
  · exact h3
  · exact trivial

theorem expect {w : String} {p : P A α} {R : α → α → Prop} (h : Fold T I p R) :
    Fold T I (.expect w p) R := by
  intro rec h1 h2 sk s t hp
  simp only [step]
  rcases resRel_cases (h rec h1 h2 sk s t hp) with ⟨a, r, b, u, e1, e2, h3, h4⟩ | ⟨e1, e2⟩ |
    ⟨w, r, u, e1, e2, h3⟩ | ⟨m, n, e1, e2, h3⟩ | ⟨e1, e2⟩ <;> rw [e1, e2]
  · exact ⟨h3, h4⟩
  · exact ⟨rfl, hp.2.2⟩
  · exact ⟨rfl, h3⟩
  · exact h3
  · exact trivial

theorem map {p : P A α} {f : α → β} {R : α → α → Prop} {S : β → β → Prop} (h : Fold T I p R)
    (hf : ∀ a b, R a b → S (f a) (f b)) : Fold T I (.map f p) S := by
  intro rec h1 h2 sk s t hp
  simp only [step]
  rcases resRel_cases (h rec h1 h2 sk s t hp) with ⟨a, r, b, u, e1, e2, h3, h4⟩ | ⟨e1, e2⟩ |
    ⟨w, r, u, e1, e2, h3⟩ | ⟨m, n, e1, e2, h3⟩ | ⟨e1, e2⟩ <;> rw [e1, e2]
  · exact ⟨hf _ _ h3, h4⟩
  · exact trivial
  · exact ⟨rfl, h3⟩
  · exact h3
  · exact trivial

/-- For a check that has the same outcome on both attributes. -/
theorem act {p : P A α} {f : α → Out β} {R : α → α → Prop} {S : β → β → Prop} (h : Fold T I p R)
    (hf : ∀ a b, R a b → (∃ x y, f a = .ok x ∧ f b = .ok y ∧ S x y) ∨ (f a = .fail ∧ f b = .fail)) :
    Fold T I (.act f p) S := by
  intro rec h1 h2 sk s t hp
  simp only [step]
  rcases resRel_cases (h rec h1 h2 sk s t hp) with ⟨a, r, b, u, e1, e2, h3, h4⟩ | ⟨e1, e2⟩ |
    ⟨w, r, u, e1, e2, h3⟩ | ⟨m, n, e1, e2, h3⟩ | ⟨e1, e2⟩ <;> rw [e1, e2]
  · rcases hf _ _ h3 with ⟨x, y, f1, f2, hs⟩ | ⟨f1, f2⟩ <;> simp only [f1, f2]
    · exact ⟨hs, h4⟩
    · exact trivial
  · exact trivial
  · exact ⟨rfl, h3⟩
  · exact h3
  · exact trivial

include hT in
theorem lexeme {p : P A α} {R : α → α → Prop} (h : Fold T I p R) : Fold T I (.lexeme p) R :=
  fun rec h1 h2 sk _ _ hp => h rec h1 h2 false _ _ (hp.skip hT sk)

theorem noskip {p : P A α} {R : α → α → Prop} (h : Fold T I p R) : Fold T I (.noskip p) R :=
  fun rec h1 h2 _ s t hp => h rec h1 h2 false s t hp

theorem nt (n : N) : Fold T I (.nt n : P A (A n)) (I n) := fun _ _ h2 sk s t hp => h2 n sk s t hp

include hT in
theorem seqL {p : P A α} {q : P A β} {R : α → α → Prop} {S : β → β → Prop} (h : Fold T I p R)
    (h' : Fold T I q S) : Fold T I (P.seqL p q) R := map (seq hT h h') fun _ _ h => h.1

include hT in
theorem seqR {p : P A α} {q : P A β} {R : α → α → Prop} {S : β → β → Prop} (h : Fold T I p R)
    (h' : Fold T I q S) : Fold T I (P.seqR p q) S := map (seq hT h h') fun _ _ h => h.2

include hT in
theorem diff {p : P A α} {q : P A β} {R : α → α → Prop} {S : β → β → Prop} (h : Fold T I p R)
    (h' : Fold T I q S) : Fold T I (P.diff p q) R := seqR hT (notP h') h

theorem optD {p : P A α} {d : α} {R : α → α → Prop} (h : Fold T I p R) (hd : R d d) :
    Fold T I (P.optD d p) R := alt h (pure hd)

include hT in
theorem plus {p : P A α} {R : α → α → Prop} (h : Fold T I p R) : Fold T I (P.plus p) (ListRel R) :=
  map (seq hT h (star hT h)) fun _ _ h => .cons h.1 h.2

include hT in
theorem sepBy {p : P A α} {q : P A β} {R : α → α → Prop} {S : β → β → Prop} (h : Fold T I p R)
    (h' : Fold T I q S) : Fold T I (P.sepBy p q) (ListRel R) :=
  map (seq hT h (star hT (seqR hT h' h))) fun _ _ h => .cons h.1 h.2

/-- The rules of a grammar. -/
theorem run {g : (n : N) → P A (A n)} (hg : ∀ n, Fold T I (g n) (I n)) :
    ∀ f n sk s t, Pair T s t → ResRel (I n) (Adql.run g f n sk s) (Adql.run g f n sk t)
  | 0, _, _, _, _, _ => trivial
  | f + 1, n, sk, s, t, hp => hg n _ (run_suffix g f) (run hg f) sk s t hp

end

end Fold

end

end Adql
