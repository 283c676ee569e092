import Verif.Model.WF
import Verif.Peg.Sem

/-!
# Equations for the string-valued rules

Equations that compute the result of the small lexical expressions; used to characterise
identifiers, literals and numbers exactly.
-/

namespace Adql

/-- Continue after a success. -/
def Res.bind {α β : Type} (x : Res α) (f : α → Str → Res β) : Res β :=
  match x with
  | .ok a r => f a r
  | .fail => .fail
  | .err e => .err e
  | .oof => .oof

/-- Continue after a failure. -/
def Res.orElse {α : Type} (x : Res α) (y : Res α) : Res α :=
  match x with
  | .fail => y
  | x => x

@[simp] theorem Res.bind_ok {α β : Type} (a : α) (r : Str) (f : α → Str → Res β) :
    (Res.ok a r).bind f = f a r := rfl
@[simp] theorem Res.bind_fail {α β : Type} (f : α → Str → Res β) :
    (Res.fail : Res α).bind f = .fail := rfl
@[simp] theorem Res.bind_err {α β : Type} (e : Err) (f : α → Str → Res β) :
    (Res.err e : Res α).bind f = .err e := rfl
@[simp] theorem Res.bind_oof {α β : Type} (f : α → Str → Res β) :
    (Res.oof : Res α).bind f = .oof := rfl
@[simp] theorem Res.orElse_ok {α : Type} (a : α) (r : Str) (y : Res α) :
    (Res.ok a r).orElse y = .ok a r := rfl
@[simp] theorem Res.orElse_fail {α : Type} (y : Res α) : (Res.fail : Res α).orElse y = y := rfl
@[simp] theorem Res.orElse_err {α : Type} (e : Err) (y : Res α) :
    (Res.err e).orElse y = .err e := rfl
@[simp] theorem Res.orElse_oof {α : Type} (y : Res α) : (Res.oof : Res α).orElse y = .oof := rfl

section
variable {rec : (n : Rule) → Bool → Str → Res (Attr n)} {α β : Type} {sk : Bool} {s : Str}
open P

theorem run_pure (a : α) : step rec (.pure a) sk s = .ok a s := rfl
theorem run_lexeme (p : G α) : step rec (.lexeme p) sk s = step rec p false (skip sk s) := rfl
theorem run_noskip (p : G α) : step rec (.noskip p) sk s = step rec p false s := rfl
theorem run_seq (p : G α) (q : G β) : step rec (.seq p q) sk s =
    (step rec p sk s).bind fun a r => (step rec q sk r).bind fun b r' => .ok (a, b) r' := by
  simp only [step]
  cases step rec p sk s with
  | ok a r => simp only [Res.bind_ok]; cases step rec q sk r <;> rfl
  | _ => rfl
theorem run_map (f : α → β) (p : G α) : step rec (.map f p) sk s =
    (step rec p sk s).bind fun a r => .ok (f a) r := by
  simp only [step]; cases step rec p sk s <;> rfl
theorem run_act (f : α → Out β) (p : G α) : step rec (.act f p) sk s =
    (step rec p sk s).bind fun a r => match f a with
      | .ok b => .ok b r
      | .fail => .fail
      | .throw n => .err (.noTable n) := by
  simp only [step]; cases step rec p sk s <;> rfl
theorem run_alt (p q : G α) : step rec (.alt p q) sk s =
    (step rec p sk s).orElse (step rec q sk s) := by
  simp only [step]; cases step rec p sk s <;> rfl
theorem run_expect (w : String) (p : G α) : step rec (.expect w p) sk s =
    (step rec p sk s).orElse (.err (.expect w s)) := by
  simp only [step]; cases step rec p sk s <;> rfl
theorem run_seqL (p : G α) (q : G β) : step rec (seqL p q) sk s =
    (step rec p sk s).bind fun a r => (step rec q sk r).bind fun _ r' => .ok a r' := by
  simp only [seqL, run_map, run_seq]
  cases step rec p sk s with
  | ok a r => simp only [Res.bind_ok]; cases step rec q sk r <;> rfl
  | _ => rfl
theorem run_seqR (p : G α) (q : G β) : step rec (seqR p q) sk s =
    (step rec p sk s).bind fun _ r => step rec q sk r := by
  simp only [seqR, run_map, run_seq]
  cases step rec p sk s with
  | ok a r => simp only [Res.bind_ok]; cases step rec q sk r <;> rfl
  | _ => rfl
theorem run_cat (p q : G Str) : step rec (cat p q) sk s =
    (step rec p sk s).bind fun a r => (step rec q sk r).bind fun b r' => .ok (a ++ b) r' := by
  simp only [cat, run_map, run_seq]
  cases step rec p sk s with
  | ok a r => simp only [Res.bind_ok]; cases step rec q sk r <;> rfl
  | _ => rfl
theorem run_optD (d : α) (p : G α) : step rec (optD d p) sk s =
    (step rec p sk s).orElse (.ok d s) := by
  simp only [optD, run_alt, run_pure]
theorem run_optS (p : G Str) : step rec (optS p) sk s =
    (step rec p sk s).orElse (.ok [] s) := run_optD _ _

theorem run_chS (f : Char → Bool) : step rec (chS f) false s =
    match s with
    | [] => .fail
    | c :: r => if f c then .ok [c] r else .fail := by
  cases s with
  | nil => rfl
  | cons c r =>
    by_cases h : f c = true
    · simp [chS, step, skip, h]
    · simp [chS, step, skip, h]

/-- `*char` takes the longest run. -/
theorem run_manyS_chS (f : Char → Bool) : step rec (manyS (chS f)) false s =
    .ok (s.takeWhile f) (s.dropWhile f) := by
  have key : ∀ s : Str, Iter (step rec (chS f) false) s
      ((s.takeWhile f).map fun c => [c]) (s.dropWhile f) := by
    intro s
    induction s with
    | nil => exact .nil rfl
    | cons c s ih =>
      by_cases h : f c = true
      · simp only [List.takeWhile_cons, List.dropWhile_cons, h, if_true, List.map_cons]
        exact .cons (by simp [run_chS, h]) (by simp) ih
      · simp only [List.takeWhile_cons, List.dropWhile_cons, h]
        exact .nil (by simp [run_chS, h])
  have h1 : step rec (.star (chS f)) false s =
      .ok ((s.takeWhile f).map fun c => [c]) (s.dropWhile f) := step_star_ok.2 (key s)
  simp only [manyS, run_map, h1, Res.bind_ok]
  congr 1
  induction s.takeWhile f with
  | nil => rfl
  | cons c l ih => simp [ih]

/-- `+char` takes the longest run, which must not be empty. -/
theorem run_plusS_chS (f : Char → Bool) : step rec (plusS (chS f)) false s =
    if (s.takeWhile f).isEmpty then .fail else .ok (s.takeWhile f) (s.dropWhile f) := by
  simp only [plusS, run_cat, run_chS, run_manyS_chS]
  cases s with
  | nil => rfl
  | cons c s =>
    by_cases h : f c = true
    · simp [h]
    · simp [h]

end

theorem skip_eq {sk : Bool} {b t : Str} (hb : Blank sk b)
    (ht : ∀ c r, t = c :: r → isSpace c = false) : skip sk (b ++ t) = t := by
  cases sk with
  | false => simp only [blank_false] at hb; subst hb; rfl
  | true =>
    simp only [skip, if_true]
    obtain ⟨hb, -⟩ := hb
    induction b with
    | nil =>
      cases t with
      | nil => rfl
      | cons c r => simp [ht c r rfl]
    | cons c b ih =>
      simp only [List.cons_append, List.dropWhile_cons, hb c (by simp), if_true]
      exact ih (fun d hd => hb d (by simp [hd]))

theorem takeWhile_eq {f : Char → Bool} {w r : Str} (hw : ∀ c ∈ w, f c = true)
    (hr : ∀ c t, r = c :: t → f c = false) :
    (w ++ r).takeWhile f = w ∧ (w ++ r).dropWhile f = r := by
  induction w with
  | nil =>
    cases r with
    | nil => simp
    | cons c r => simp [hr c r rfl]
  | cons c w ih =>
    have := ih (fun d hd => hw d (by simp [hd]))
    simp [hw c (by simp), this.1, this.2]

theorem dropWhile_head {f : Char → Bool} : ∀ {s : Str} {c : Char} {t : Str},
    s.dropWhile f = c :: t → f c = false
  | [], c, t, h => by simp at h
  | d :: s, c, t, h => by
    rw [List.dropWhile_cons] at h
    split at h
    · exact dropWhile_head h
    · rename_i hd
      simp at h
      rw [← h.1]; simpa using hd

theorem dropWhile_nil {f : Char → Bool} : ∀ {s : Str},
    s.dropWhile f = [] ↔ ∀ c ∈ s, f c = true
  | [] => by simp
  | d :: s => by
    rw [List.dropWhile_cons]
    split
    · rename_i h; simp [dropWhile_nil, h]
    · rename_i h
      constructor
      · intro h'; cases h'
      · intro h'; exact absurd (h' d (by simp)) h

end Adql
