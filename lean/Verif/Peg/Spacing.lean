import Verif.Peg.Meta

/-!
# Two runs on related texts

`Sp E W sk p`: on two texts related by `E`, `p` has the same kind of outcome with the same
attribute, and the remainders are related again, if the calls of the recursive rules allowed by `W`
behave like that.  The lengths of the texts may differ, so a run that is cut off says nothing.
-/

namespace Adql

variable {N : Type} {A : N → Type} {α β : Type}

/-- The same kind of result, with the same attribute. -/
inductive RR (E : Str → Str → Prop) : Res α → Res α → Prop
  | ok {a r t} : E r t → RR E (.ok a r) (.ok a t)
  | fail : RR E .fail .fail
  | expect {w r t} : RR E (.err (.expect w r)) (.err (.expect w t))
  | noTable {x} : RR E (.err (.noTable x)) (.err (.noTable x))
  | oofL {y} : RR E .oof y
  | oofR {x} : RR E x .oof

/-- See the head of the file. -/
def Sp (E : Str → Str → Prop) (W : N → Bool → Prop) (sk : Bool) (p : P A α) : Prop :=
  ∀ rec : (n : N) → Bool → Str → Res (A n),
    (∀ n k, W n k → ∀ s t, E s t → RR E (rec n k s) (rec n k t)) →
    ∀ s t, E s t → RR E (step rec p sk s) (step rec p sk t)

variable {E : Str → Str → Prop} {W : N → Bool → Prop} {sk : Bool}

namespace Sp

theorem pure {a : α} : Sp (A := A) E W sk (.pure a) := fun _ _ _ _ h => .ok h

theorem seq {p : P A α} {q : P A β} (hp : Sp E W sk p) (hq : Sp E W sk q) :
    Sp E W sk (.seq p q) := by
  intro rec h s t e
  simp only [step]
  generalize hx : step rec p sk s = x
  generalize hy : step rec p sk t = y
  have h1 : RR E x y := by rw [← hx, ← hy]; exact hp rec h s t e
  cases h1 with
  | ok e1 =>
    rename_i a r u
    dsimp only
    generalize hx2 : step rec q sk r = x2
    generalize hy2 : step rec q sk u = y2
    have h2 : RR E x2 y2 := by rw [← hx2, ← hy2]; exact hq rec h r u e1
    cases h2 with
    | ok e2 => exact .ok e2
    | fail => exact .fail
    | expect => exact .expect
    | noTable => exact .noTable
    | oofL => exact .oofL
    | oofR => exact .oofR
  | fail => exact .fail
  | expect => exact .expect
  | noTable => exact .noTable
  | oofL => exact .oofL
  | oofR => exact .oofR

theorem alt {p q : P A α} (hp : Sp E W sk p) (hq : Sp E W sk q) : Sp E W sk (.alt p q) := by
  intro rec h s t e
  simp only [step]
  generalize hx : step rec p sk s = x
  generalize hy : step rec p sk t = y
  have h1 : RR E x y := by rw [← hx, ← hy]; exact hp rec h s t e
  cases h1 with
  | ok e1 => exact .ok e1
  | fail => exact hq rec h s t e
  | expect => exact .expect
  | noTable => exact .noTable
  | oofL => exact .oofL
  | oofR => exact .oofR

theorem starLoop {f g : Str → Res α} (h : ∀ s t, E s t → RR E (f s) (g t)) :
    ∀ n m s t, E s t → RR E (Adql.starLoop f n s) (Adql.starLoop g m t) := by
  intro n
  induction n with
  | zero => intro m s t _; exact .oofL
  | succ n ih =>
    intro m s t e
    cases m with
    | zero => exact .oofR
    | succ m =>
      simp only [Adql.starLoop]
      generalize hx : f s = x
      generalize hy : g t = y
      have h1 : RR E x y := by rw [← hx, ← hy]; exact h s t e
      cases h1 with
      | ok e1 =>
        rename_i a r u
        dsimp only
        by_cases hl : r.length < s.length
        · by_cases hl' : u.length < t.length
          · rw [if_pos hl, if_pos hl']
            generalize hx2 : Adql.starLoop f n r = x2
            generalize hy2 : Adql.starLoop g m u = y2
            have h2 : RR E x2 y2 := by rw [← hx2, ← hy2]; exact ih m r u e1
            cases h2 with
            | ok e2 => exact .ok e2
            | fail => exact .fail
            | expect => exact .expect
            | noTable => exact .noTable
            | oofL => exact .oofL
            | oofR => exact .oofR
          · rw [if_neg hl']; exact .oofR
        · rw [if_neg hl]; exact .oofL
      | fail => exact .ok e
      | expect => exact .expect
      | noTable => exact .noTable
      | oofL => exact .oofL
      | oofR => exact .oofR

theorem star {p : P A α} (hp : Sp E W sk p) : Sp E W sk (.star p) := by
  intro rec h s t e
  simp only [step]
  exact starLoop (fun s t e => hp rec h s t e) _ _ s t e

theorem notP {p : P A α} (hp : Sp E W sk p) : Sp E W sk (.notP p) := by
  intro rec h s t e
  simp only [step]
  generalize hx : step rec p sk s = x
  generalize hy : step rec p sk t = y
  have h1 : RR E x y := by rw [← hx, ← hy]; exact hp rec h s t e
  cases h1 with
  | ok e1 => exact .fail
  | fail => exact .ok e
  | expect => exact .expect
  | noTable => exact .noTable
  | oofL => exact .oofL
  | oofR => exact .oofR

theorem andP {p : P A α} (hp : Sp E W sk p) : Sp E W sk (.andP p) := by
  intro rec h s t e
  simp only [step]
  generalize hx : step rec p sk s = x
  generalize hy : step rec p sk t = y
  have h1 : RR E x y := by rw [← hx, ← hy]; exact hp rec h s t e
  cases h1 with
  | ok e1 => exact .ok e
  | fail => exact .fail
  | expect => exact .expect
  | noTable => exact .noTable
  | oofL => exact .oofL
  | oofR => exact .oofR

theorem expect {w : String} {p : P A α} (hp : Sp E W sk p) : Sp E W sk (.expect w p) := by
  intro rec h s t e
  simp only [step]
  generalize hx : step rec p sk s = x
  generalize hy : step rec p sk t = y
  have h1 : RR E x y := by rw [← hx, ← hy]; exact hp rec h s t e
  cases h1 with
  | ok e1 => exact .ok e1
  | fail => exact .expect
  | expect => exact .expect
  | noTable => exact .noTable
  | oofL => exact .oofL
  | oofR => exact .oofR

theorem map {f : α → β} {p : P A α} (hp : Sp E W sk p) : Sp E W sk (.map f p) := by
  intro rec h s t e
  simp only [step]
  generalize hx : step rec p sk s = x
  generalize hy : step rec p sk t = y
  have h1 : RR E x y := by rw [← hx, ← hy]; exact hp rec h s t e
  cases h1 with
  | ok e1 => exact .ok e1
  | fail => exact .fail
  | expect => exact .expect
  | noTable => exact .noTable
  | oofL => exact .oofL
  | oofR => exact .oofR

theorem act {f : α → Out β} {p : P A α} (hp : Sp E W sk p) : Sp E W sk (.act f p) := by
  intro rec h s t e
  simp only [step]
  generalize hx : step rec p sk s = x
  generalize hy : step rec p sk t = y
  have h1 : RR E x y := by rw [← hx, ← hy]; exact hp rec h s t e
  cases h1 with
  | ok e1 =>
    rename_i a r u
    dsimp only
    cases f a with
    | ok b => exact .ok e1
    | fail => exact .fail
    | throw n => exact .noTable
  | fail => exact .fail
  | expect => exact .expect
  | noTable => exact .noTable
  | oofL => exact .oofL
  | oofR => exact .oofR

theorem lexeme (hE : ∀ k s t, E s t → E (skip k s) (skip k t)) {p : P A α} (hp : Sp E W false p) :
    Sp E W sk (.lexeme p) := by
  intro rec h s t e
  simp only [step]
  exact hp rec h _ _ (hE sk s t e)

theorem noskip {p : P A α} (hp : Sp E W false p) : Sp E W sk (.noskip p) := by
  intro rec h s t e
  simp only [step]
  exact hp rec h _ _ e

theorem nt {n : N} (hn : W n sk) : Sp (A := A) E W sk (.nt n) := fun _ h s t e => h n sk hn s t e

theorem opt {p : P A α} (hp : Sp E W sk p) : Sp E W sk (P.opt p) := alt (map hp) pure
theorem optD {d : α} {p : P A α} (hp : Sp E W sk p) : Sp E W sk (P.optD d p) := alt hp pure
theorem plus {p : P A α} (hp : Sp E W sk p) : Sp E W sk (P.plus p) := map (seq hp (star hp))
theorem seqL {p : P A α} {q : P A β} (hp : Sp E W sk p) (hq : Sp E W sk q) :
    Sp E W sk (P.seqL p q) := map (seq hp hq)
theorem seqR {p : P A α} {q : P A β} (hp : Sp E W sk p) (hq : Sp E W sk q) :
    Sp E W sk (P.seqR p q) := map (seq hp hq)
theorem sepBy {p : P A α} {q : P A β} (hp : Sp E W sk p) (hq : Sp E W sk q) :
    Sp E W sk (P.sepBy p q) := map (seq hp (star (seqR hq hp)))
theorem diff {p : P A α} {q : P A β} (hp : Sp E W sk p) (hq : Sp E W sk q) :
    Sp E W sk (P.diff p q) := seqR (notP hq) hp

/-- All rules, for any bound on the depth of calls. -/
theorem run {g : (n : N) → P A (A n)} (hg : ∀ n k, W n k → Sp E W k (g n)) :
    ∀ f n k, W n k → ∀ s t, E s t → RR E (Adql.run g f n k s) (Adql.run g f n k t) := by
  intro f
  induction f with
  | zero => intro n k _ s t _; exact .oofL
  | succ f ih =>
    intro n k hn s t e
    exact hg n k hn _ ih s t e

end Sp

end Adql
