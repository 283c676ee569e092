import Verif.Peg.Closed
import Verif.Peg.Post

/-!
# Two runs that differ in the attributes of the rules

`Comm H p h`: if the rules yield, in a second run, the attributes changed by `H` and are otherwise the same, then `p`
yields the attribute changed by `h` and is otherwise the same.
-/

namespace Adql

variable {N : Type} {A : N → Type} {α β γ : Type}

/-- the attribute of a result changed -/
def Res.change (h : α → β) : Res α → Res β
  | .ok a r => .ok (h a) r
  | .fail => .fail
  | .err e => .err e
  | .oof => .oof

/-- See the head of the file. -/
def Comm (H : (n : N) → A n → A n) (p : P A α) (h : α → α) : Prop :=
  ∀ rec rec' : (n : N) → Bool → Str → Res (A n), (∀ n sk s, rec' n sk s = (rec n sk s).change (H n)) →
    ∀ sk s, step rec' p sk s = (step rec p sk s).change h

theorem Res.change_id (x : Res α) : x.change id = x := by cases x <;> rfl

variable {H : (n : N) → A n → A n}

namespace Comm

theorem imp {p : P A α} {h h' : α → α} (hp : Comm H p h) (e : ∀ a, h a = h' a) : Comm H p h' := by
  have : h = h' := funext e
  rw [← this]; exact hp

/-- An expression that calls no rule. -/
theorem closed {p : P A α} (hc : p.closed = true) : Comm H p id := by
  intro rec rec' _ sk s
  rw [Res.change_id]; exact step_closed p hc sk s

/-- An expression that calls no rule and yields only attributes that are not changed. -/
theorem fixed {p : P A α} {h : α → α} {Q : α → Prop} (hc : p.closed = true)
    (hq : ∀ I : (n : N) → Bool → Str → A n → Str → Prop, AP I p Q) (hh : ∀ a, Q a → h a = a) : Comm H p h := by
  intro rec rec' _ sk s
  rw [step_closed (rec := rec') (rec' := rec) p hc sk s]
  cases e : step rec p sk s with
  | ok a r =>
    obtain ⟨t, -, hs⟩ := step_sem (I := fun _ _ _ _ _ => True) (rec := fun _ _ _ => .fail) (by intros; simp_all) p sk s a r
      ((step_closed p hc sk s).trans e)
    simp only [Res.change, hh a (hq _ _ _ _ _ hs)]
  | fail => rfl
  | err e => rfl
  | oof => rfl

theorem pure {a : α} {h : α → α} (e : h a = a) : Comm H (.pure a) h := by
  intro rec rec' _ sk s
  simp only [step, Res.change, e]

theorem seq {p : P A α} {q : P A β} {h : α → α} {k : β → β} (hp : Comm H p h) (hq : Comm H q k) :
    Comm H (.seq p q) (fun x => (h x.1, k x.2)) := by
  intro rec rec' hr sk s
  simp only [step, hp rec rec' hr]
  cases step rec p sk s with
  | ok a r =>
    simp only [Res.change, hq rec rec' hr]
    cases step rec q sk r <;> rfl
  | fail => rfl
  | err e => rfl
  | oof => rfl

theorem alt {p q : P A α} {h : α → α} (hp : Comm H p h) (hq : Comm H q h) : Comm H (.alt p q) h := by
  intro rec rec' hr sk s
  simp only [step, hp rec rec' hr]
  cases step rec p sk s with
  | ok a r => rfl
  | fail => exact hq rec rec' hr sk s
  | err e => rfl
  | oof => rfl

theorem _root_.Adql.starLoop_change {f f' : Str → Res α} {h : α → α} (hf : ∀ s, f' s = (f s).change h) :
    ∀ n s, starLoop f' n s = (starLoop f n s).change (List.map h)
  | 0, _ => rfl
  | n + 1, s => by
    simp only [starLoop, hf s]
    cases f s with
    | ok a r =>
      simp only [Res.change]
      split
      · rw [starLoop_change hf n r]
        cases starLoop f n r <;> rfl
      · rfl
    | fail => rfl
    | err e => rfl
    | oof => rfl

theorem star {p : P A α} {h : α → α} (hp : Comm H p h) : Comm H (.star p) (List.map h) :=
  fun rec rec' hr sk s => starLoop_change (fun t => hp rec rec' hr sk t) (s.length + 1) s

theorem notP {p : P A α} {h : α → α} (hp : Comm H p h) : Comm H (.notP p) id := by
  intro rec rec' hr sk s
  simp only [step, hp rec rec' hr]
  cases step rec p sk s <;> rfl

theorem andP {p : P A α} {h : α → α} (hp : Comm H p h) : Comm H (.andP p) h := by
  intro rec rec' hr sk s
  simp only [step, hp rec rec' hr]
  cases step rec p sk s <;> rfl

theorem expect {w : String} {p : P A α} {h : α → α} (hp : Comm H p h) : Comm H (.expect w p) h := by
  intro rec rec' hr sk s
  simp only [step, hp rec rec' hr]
  cases step rec p sk s <;> rfl

theorem map {f : α → β} {p : P A α} {h : α → α} {k : β → β} (hp : Comm H p h) (e : ∀ a, k (f a) = f (h a)) :
    Comm H (.map f p) k := by
  intro rec rec' hr sk s
  simp only [step, hp rec rec' hr]
  cases step rec p sk s <;> simp only [Res.change, e]

theorem lexeme {p : P A α} {h : α → α} (hp : Comm H p h) : Comm H (.lexeme p) h :=
  fun rec rec' hr sk s => hp rec rec' hr false (skip sk s)

theorem noskip {p : P A α} {h : α → α} (hp : Comm H p h) : Comm H (.noskip p) h :=
  fun rec rec' hr _ s => hp rec rec' hr false s

theorem nt (n : N) : Comm H (.nt n) (H n) := fun _ _ hr sk s => hr n sk s

theorem seqL {p : P A α} {q : P A β} {h : α → α} {k : β → β} (hp : Comm H p h) (hq : Comm H q k) :
    Comm H (P.seqL p q) h := map (seq hp hq) fun _ => rfl

theorem seqR {p : P A α} {q : P A β} {h : α → α} {k : β → β} (hp : Comm H p h) (hq : Comm H q k) :
    Comm H (P.seqR p q) k := map (seq hp hq) fun _ => rfl

theorem optD {d : α} {p : P A α} {h : α → α} (hp : Comm H p h) (e : h d = d) : Comm H (P.optD d p) h :=
  alt hp (pure e)

theorem plus {p : P A α} {h : α → α} (hp : Comm H p h) : Comm H (P.plus p) (List.map h) :=
  map (seq hp (star hp)) fun _ => rfl

theorem sepBy {p : P A α} {q : P A β} {h : α → α} {k : β → β} (hp : Comm H p h) (hq : Comm H q k) :
    Comm H (P.sepBy p q) (List.map h) := map (seq hp (star (seqR hq hp))) fun _ => rfl

/-- The rules of two grammars. -/
theorem run {g g' : (n : N) → P A (A n)} (hg : ∀ rec rec' : (n : N) → Bool → Str → Res (A n),
      (∀ n sk s, rec' n sk s = (rec n sk s).change (H n)) →
      ∀ n sk s, step rec' (g' n) sk s = (step rec (g n) sk s).change (H n)) :
    ∀ f n sk s, Adql.run g' f n sk s = (Adql.run g f n sk s).change (H n)
  | 0, _, _, _ => rfl
  | f + 1, n, sk, s => hg _ _ (run hg f) n sk s

end Comm

end Adql
